import Verif.Props.AutoSurfaceVR
import Verif.Props.Metadata
import Verif.Props.SameSoundings
import Verif.Props.OldDensity

/-!
# C132, C133: the resolutions chosen by `grid` and the surfaces at them depend on the soundings only
-/

namespace Bathy
open Grid

variable {env env' : Env} {size size' sub : ℚ} {bs bs' : Bool} {fl fl' : Fields} {F F' : Family} {s s' : Bool} {A A' : Store} {a a' : GridCall} {dask dask' : Option Nat}

private theorem entry_one {d r r' : ℚ} (h : TableEntry d r) (h' : TableEntry d r') : r = r' := by
  obtain ⟨k, h1, h2, h3⟩ := h
  obtain ⟨k', h1', h2', h3'⟩ := h'
  exact le_antisymm (h3 k' r' h1' h2') (h3' k r h1 h2)

private theorem mean_below {l : List ℚ} {b : ℚ} (hne : l ≠ []) (h : ∀ x ∈ l, x < b) : meanOf l < b := by
  have hsum : ∀ l : List ℚ, l ≠ [] → (∀ x ∈ l, x < b) → l.sum < l.length * b := by
    intro l
    induction l with
    | nil => exact fun h => absurd rfl h
    | cons x xs ih =>
      intro _ h
      have hx := h x (by simp)
      by_cases he : xs = []
      · subst he; simp; exact hx
      · have := ih he fun y hy => h y (by simp [hy])
        simp only [List.sum_cons, List.length_cons]
        push_cast
        linarith
  have hl : (0 : ℚ) < l.length := by exact_mod_cast List.length_pos_iff.2 hne
  unfold meanOf
  rw [div_lt_iff₀ hl, mul_comm]
  exact hsum l hne h

private theorem vr_side (hs : 0 < size) (hsub : isPowerOfTwo sub = true) {k : Nat} (hk : sub = 2 ^ k / 4) {m m' : Nat} (hdiv : size = (m : ℚ) * sub) (hs' : 0 < size') (hdiv' : size' = (m' : ℚ) * sub)
    {g g' : Grid (Grid Tile)} (h : VRHistory env size sub bs fl F s g A) (h' : VRHistory env' size' sub bs' fl' F' s' g' A') (ha : a.alg = .mean ∨ a.alg = .shoalest)
    (ha' : a'.alg = .mean ∨ a'.alg = .shoalest) (hc : a.clear = true) (hc' : a'.clear = true) (hr : a.res = none) (hr' : a'.res = none) (hm : a.mode = .depth) (hm' : a'.mode = .depth)
    (hok : (g.gridWith env a dask).err = none) (hok' : (g'.gridWith env' a' dask').err = none) (hp : A'.allPts.Perm A.allPts) (hz : ∀ p ∈ A.allPts, p.z < 20480) {r : ℚ}
    (hmem : r ∈ (g.gridWith env a dask).st.resolutions) : r ∈ (g'.gridWith env' a' dask').st.resolutions := by
  classical
  obtain ⟨ρ, h1, h2⟩ := C115_auto_surface_vr hs hsub hk hdiv h ha hc hr (by rw [hm]; decide) hok (nodata := none) (zUp := false) (flip := decide (false = true ↔ ¬ StoredUp (g.gridWith env a dask).st))
    (l := .depth) (.inl rfl) (by simp)
  obtain ⟨ρ', h1', -⟩ := C115_auto_surface_vr hs' hsub hk hdiv' h' ha' hc' hr' (by rw [hm']; decide) hok' (nodata := none) (zUp := false)
    (flip := decide (false = true ↔ ¬ StoredUp (g'.gridWith env' a' dask').st)) (l := .depth) (.inl rfl) (by simp)
  obtain ⟨-, hne, -⟩ := h2 r hmem
  obtain ⟨p, hq⟩ := List.exists_mem_of_ne_nil _ hne
  obtain ⟨hpA, hρ⟩ := List.mem_filter.1 hq
  have hρ : ρ ⌊p.x / sub⌋ ⌊p.y / sub⌋ = r := by simpa using hρ
  obtain ⟨-, k1⟩ := h1 p hpA
  obtain ⟨k2, k3⟩ := h1' p (hp.mem_iff.2 hpA)
  have hperm : (inSquare sub ⌊p.x / sub⌋ ⌊p.y / sub⌋ A'.allPts).Perm (inSquare sub ⌊p.x / sub⌋ ⌊p.y / sub⌋ A.allPts) := hp.filter _
  have hin : p ∈ inSquare sub ⌊p.x / sub⌋ ⌊p.y / sub⌋ A.allPts := List.mem_filter.2 ⟨hpA, by simp⟩
  have hlt : meanOf ((inSquare sub ⌊p.x / sub⌋ ⌊p.y / sub⌋ A.allPts).map Pt.z) < 20480 := mean_below (by simpa using List.ne_nil_of_mem hin) fun x hx => by
    obtain ⟨q, hq, rfl⟩ := List.mem_map.1 hx
    exact hz q (List.mem_filter.1 hq).1
  obtain ⟨r0, e1, e2⟩ := k1 hm hlt
  have k3 := k3 hm'
  unfold ByDepth at k3
  rw [meanOf_perm (hperm.map Pt.z)] at k3
  obtain ⟨r1, e3, e4⟩ := k3 hlt
  rw [← hρ, e2, entry_one e1 e3, ← e4]
  exact k2

/-- **C132** (variable resolution grids): two grids with the same soundings and subtiles of the same size choose in the depth mode the same resolutions.  The tiles, histories, algorithms and
numbers of workers may differ. -/
theorem C132_depth_vr (hs : 0 < size) (hsub : isPowerOfTwo sub = true) {k : Nat} (hk : sub = 2 ^ k / 4) {m m' : Nat} (hdiv : size = (m : ℚ) * sub) (hs' : 0 < size') (hdiv' : size' = (m' : ℚ) * sub)
    {g g' : Grid (Grid Tile)} (h : VRHistory env size sub bs fl F s g A) (h' : VRHistory env' size' sub bs' fl' F' s' g' A') (ha : a.alg = .mean ∨ a.alg = .shoalest)
    (ha' : a'.alg = .mean ∨ a'.alg = .shoalest) (hc : a.clear = true) (hc' : a'.clear = true) (hr : a.res = none) (hr' : a'.res = none) (hm : a.mode = .depth) (hm' : a'.mode = .depth)
    (hok : (g.gridWith env a dask).err = none) (hok' : (g'.gridWith env' a' dask').err = none) (hp : A'.allPts.Perm A.allPts) (hz : ∀ p ∈ A.allPts, p.z < 20480) :
    (g'.gridWith env' a' dask').st.resolutions = (g.gridWith env a dask).st.resolutions := by
  have s1 := (C28_resolutions_vr_partial hs hsub h hok).1
  have s2 := (C28_resolutions_vr_partial hs' hsub h' hok').1
  refine List.Perm.eq_of_pairwise (le := fun a b => a < b) (fun _ _ _ _ h1 h2 => absurd (h1.trans h2) (lt_irrefl _)) s2 s1 ((List.perm_ext_iff_of_nodup (s2.imp ne_of_lt) (s1.imp ne_of_lt)).2 fun r => ⟨fun hr2 => ?_, fun hr1 => ?_⟩)
  · exact vr_side hs' hsub hk hdiv' hs hdiv h' h ha' ha hc' hc hr' hr hm' hm hok' hok hp.symm (fun p hq => hz p (hp.mem_iff.1 hq)) hr2
  · exact vr_side hs hsub hk hdiv hs' hdiv' h h' ha ha' hc hc' hr hr' hm hm' hok hok' hp hz hr1

/-- **C132, partial** (single resolution grids): two empty grids, new or emptied, of the same tile size to which the same soundings are added in one call choose in the depth mode the same
resolution.  Missing: several containers, see `C132_violated`. -/
theorem C132_depth_sr_partial (hs : 0 < size) {g g' : Grid Tile} (h : SRHistory env size bs fl F s g []) (h' : SRHistory env' size bs' fl' F' s' g' []) {pts pts' : List Pt} {c c' : String}
    {b b' : AddArgs} (hadd : (g.addPoints ⟨fl, pts⟩ c b).err = none) (hadd' : (g'.addPoints ⟨fl', pts'⟩ c' b').err = none) (ha : a.alg = .mean ∨ a.alg = .shoalest)
    (ha' : a'.alg = .mean ∨ a'.alg = .shoalest) (hc : a.clear = true) (hc' : a'.clear = true) (hr : a.res = none) (hr' : a'.res = none) (hm : a.mode = .depth) (hm' : a'.mode = .depth)
    (hok : ((g.addPoints ⟨fl, pts⟩ c b).st.gridWith env a dask).err = none) (hok' : ((g'.addPoints ⟨fl', pts'⟩ c' b').st.gridWith env' a' dask').err = none) (hp : pts'.Perm pts) :
    ((g'.addPoints ⟨fl', pts'⟩ c' b').st.gridWith env' a' dask').st.resolutions = ((g.addPoints ⟨fl, pts⟩ c b).st.gridWith env a dask).st.resolutions := by
  have k := h.add pts c b hadd
  have k' := h'.add pts' c' b' hadd'
  obtain ⟨r, hch, hres, -⟩ := auto_first hs k ha (.inr hc) (.inr hc) hr (by rw [hm]; decide) hok
  obtain ⟨r', hch', hres', -⟩ := auto_first hs k' ha' (.inr hc') (.inr hc') hr' (by rw [hm']; decide) hok'
  have hmean : (g'.addPoints ⟨fl', pts'⟩ c' b').st.meanDepth = (g.addPoints ⟨fl, pts⟩ c b).st.meanDepth := by
    rw [addPoints_meanDepth hadd, addPoints_meanDepth hadd', meanDepthOf_eq, meanDepthOf_eq, meanOf_perm (hp.map Pt.z)]
  rcases hch with ⟨-, e⟩ | ⟨e, -⟩
  · rcases hch' with ⟨-, e'⟩ | ⟨e', -⟩
    · unfold resolutionLookup at e e'
      rw [hmean, (sr_inv hs k').1.tileSize] at e'
      rw [(sr_inv hs k).1.tileSize] at e
      rw [e] at e'
      cases e'
      rw [hres, hres']
    · rw [hm'] at e'; cases e'
  · rw [hm] at e; cases e

private theorem uniqueCounts_perm {l l' : List Nat} (h : l'.Perm l) : Tile.uniqueCounts l' = Tile.uniqueCounts l := by
  unfold Tile.uniqueCounts
  rw [npUnique_congr (l₁ := l') (l₂ := l) fun r => h.mem_iff]
  exact List.map_congr_left fun u _ => by rw [h.count_eq]

/-- tiles at the same place with the same soundings choose the same resolution -/
private theorem density_perm {x y : ℚ} (hw : 0 < size) {t t' : Tile} (h : TileHistory env x y size bs fl F t A) (h' : TileHistory env x y size bs' fl' F' t' A') (hp : A'.allPts.Perm A.allPts) :
    t'.resolutionByDensity env none = t.resolutionByDensity env none := by
  obtain ⟨hf, -⟩ := history_frame hw h
  obtain ⟨hf', -⟩ := history_frame hw h'
  have f1 : t.minX = x := hf.1
  have f2 : t.maxX = x + size := hf.2.1
  have f1' : t'.minX = x := hf'.1
  have f2' : t'.maxX = x + size := hf'.2.1
  have hm : (0 : ℚ) < min size 16 := lt_min hw (by norm_num)
  have hz : Tile.meanDepthOf (A'.allPts.map Pt.z) = Tile.meanDepthOf (A.allPts.map Pt.z) := by
    unfold Tile.meanDepthOf
    rw [(hp.map Pt.z).sum_eq, (hp.map Pt.z).length_eq]
  unfold Tile.resolutionByDensity
  rw [history_data hw h, history_data hw h', f1, f2, f1', f2', add_sub_cancel_left]
  simp only [cellCounts_history hw h hm, cellCounts_history hw h' hm, uniqueCounts_perm (hp.map _), hz]

private theorem same_tile (hs : 0 < size) {g g' : Grid Tile} (h : SRHistory env size bs fl F s g A) (h' : SRHistory env size bs' fl' F' s' g' A') (hp : A'.allPts.Perm A.allPts) {i j : Nat} {t : Tile}
    (ht : g.TileAt i j t) : ∃ i' j' t', g'.TileAt i' j' t' ∧ t'.resolutionByDensity env none = t.resolutionByDensity env none := by
  obtain ⟨a, b, e, -, -, -, hrep, hne, -⟩ := tileAt_rep (sr_inv hs h).1 ht
  obtain ⟨p, hpw⟩ := List.exists_mem_of_ne_nil _ (allPts_ne hne fun q hq => by simpa using (List.mem_filter.1 hq).2)
  rw [Store.allPts_within, List.mem_filter] at hpw
  have hbox := of_decide_eq_true hpw.2
  obtain ⟨o, ho, hpo⟩ := List.mem_flatMap.1 ((C01_conservation_sr hs h').2.1.mem_iff.2 (hp.mem_iff.2 hpw.1))
  obtain ⟨t', ht'⟩ : ∃ t', o = some t' := by
    cases o with
    | none => cases hpo
    | some t' => exact ⟨t', rfl⟩
  subst ht'
  have hpt : p ∈ t'.pts := hpo
  have hpres : t' ∈ g'.present := by
    unfold slotList at ho
    unfold present
    cases hg : g'.tiles with
    | none => rw [hg] at ho; cases ho
    | some T => rw [hg] at ho; exact List.mem_filterMap.2 ⟨_, ho, rfl⟩
  obtain ⟨i', j', hat⟩ := (mem_present (grow_reps (sr_inv hs h').1).2).1 hpres
  obtain ⟨a', b', e', -, -, -, hrep', -⟩ := tileAt_rep (sr_inv hs h').1 hat
  obtain ⟨-, hr', -⟩ := history_frame hs hrep'.1
  rw [hr'.pts, Store.allPts_within, List.mem_filter] at hpt
  obtain ⟨rfl, rfl⟩ := box_unique hs hbox (of_decide_eq_true hpt.2)
  refine ⟨i', j', t', hat, density_perm hs hrep.1 hrep'.1 ?_⟩
  rw [Store.allPts_within, Store.allPts_within]
  exact hp.filter _

private theorem density_le (hs : 0 < size) {g g' : Grid Tile} (h : SRHistory env size bs fl F s g A) (h' : SRHistory env size bs' fl' F' s' g' A') (hp : A'.allPts.Perm A.allPts) (hA : A ≠ []) {r r' : ℚ}
    (hr : g.resolutionByDensity env = .ok r) (hr' : g'.resolutionByDensity env = .ok r') : r ≤ r' := by
  obtain ⟨p, hpA⟩ := List.exists_mem_of_ne_nil _ (allPts_ne hA (sr_inv hs h).1.ne)
  obtain ⟨o, ho, hpo⟩ := List.mem_flatMap.1 ((C01_conservation_sr hs h).2.1.mem_iff.2 hpA)
  obtain ⟨t, ht⟩ : ∃ t, o = some t := by
    cases o with
    | none => cases hpo
    | some t => exact ⟨t, rfl⟩
  subst ht
  have hpres : t ∈ g.present := by
    unfold slotList at ho
    unfold present
    cases hg : g.tiles with
    | none => rw [hg] at ho; cases ho
    | some T => rw [hg] at ho; exact List.mem_filterMap.2 ⟨_, ho, rfl⟩
  obtain ⟨i, j, hat⟩ := (mem_present (grow_reps (sr_inv hs h).1).2).1 hpres
  obtain ⟨⟨i1, j1, t1, h1, e1⟩, -⟩ := byDensity_max (grow_reps (sr_inv hs h).1).2 hr hat
  obtain ⟨i2, j2, t2, h2, e2⟩ := same_tile hs h h' hp h1
  obtain ⟨r2, e3, hle⟩ := (byDensity_max (grow_reps (sr_inv hs h').1).2 hr' h2).2 i2 j2 t2 h2
  have e1 : t1.resolutionByDensity env none = .ok r := e1
  have e3 : t2.resolutionByDensity env none = .ok r2 := e3
  rw [e2, e1] at e3
  cases e3
  exact hle

/-- **C132** (single resolution grids, density mode): two grids with the same soundings and tiles of the same size choose the same resolution, whatever containers the soundings came in -/
theorem C132_density_sr (hs : 0 < size) {g g' : Grid Tile} (h : SRHistory env size bs fl F s g A) (h' : SRHistory env size bs' fl' F' s' g' A') (ha : a.alg = .mean ∨ a.alg = .shoalest)
    (ha' : a'.alg = .mean ∨ a'.alg = .shoalest) (hc : a.clear = true) (hc' : a'.clear = true) (hr : a.res = none) (hr' : a'.res = none) (hm : a.mode = .density) (hm' : a'.mode = .density)
    (hok : (g.gridWith env a dask).err = none) (hok' : (g'.gridWith env a' dask').err = none) (hp : A'.allPts.Perm A.allPts) :
    (g'.gridWith env a' dask').st.resolutions = (g.gridWith env a dask).st.resolutions := by
  obtain ⟨r, hch, hres, -⟩ := auto_first hs h ha (.inr hc) (.inr hc) hr (by rw [hm]; decide) hok
  obtain ⟨r', hch', hres', -⟩ := auto_first hs h' ha' (.inr hc') (.inr hc') hr' (by rw [hm']; decide) hok'
  rcases hch with ⟨e, -⟩ | ⟨-, e⟩
  · rw [hm] at e; cases e
  · rcases hch' with ⟨e', -⟩ | ⟨-, e'⟩
    · rw [hm'] at e'; cases e'
    · have hA := store_ne (sr_inv hs h).1 hok
      have hA' := store_ne (sr_inv hs h').1 hok'
      rw [hres, hres', le_antisymm (density_le hs h h' hp hA e e') (density_le hs h' h hp.symm hA' e' e)]

/-- the tiles of a variable resolution grid -/
private theorem vr_leaf (hs : 0 < size) (hsub : isPowerOfTwo sub = true) {m : Nat} (hdiv : size = (m : ℚ) * sub) {g : Grid (Grid Tile)} (h : VRHistory env size sub bs fl F s g A) {i j i' j' : Nat}
    {u : Grid Tile} {t : Tile} (hu : g.TileAt i j u) (ht : u.TileAt i' j' t) :
    t.pts ≠ [] ∧ (∃ B, TileHistory env t.minX t.minY sub false fl F t B ∧ B.allPts = t.pts) ∧
      ∀ p ∈ t.pts, (t.minX = (⌊p.x / sub⌋ : ℚ) * sub ∧ t.minY = (⌊p.y / sub⌋ : ℚ) * sub) ∧ t.pts.Perm (inSquare sub ⌊p.x / sub⌋ ⌊p.y / sub⌋ A.allPts) := by
  have hsp := isPowerOfTwo_pos hsub
  obtain ⟨p, q, e, -, -, -, hrep, -⟩ := tileAt_rep (vr_inv hs hsub h).1 hu
  have hrep : SubInv _ size _ _ u _ := hrep
  obtain ⟨T, hf⟩ := hrep.frame
  obtain ⟨-, -, hR, hne⟩ := frame_tileAt hf.toReady ht
  obtain ⟨hfr, hrp, -⟩ := history_frame hsp hR.1
  have hpne : t.pts ≠ [] := by
    rw [hrp.pts]
    exact allPts_ne hne (Store.within_ne _ _ _ _)
  have e1 : t.minX = (p : ℚ) * size + j' * sub := hfr.1
  have e2 : t.minY = (q : ℚ) * size + i' * sub := hfr.2.2.1
  refine ⟨hpne, ⟨_, by rw [e1, e2]; exact hR.1, hrp.pts.symm⟩, ?_⟩
  clear e1 e2 hrp hfr hR hne hf hrep
  obtain ⟨w1, w2⟩ := vr_wf hs hsub h
  have hleaf : g.Leaf t := ⟨i, j, u, hu, i', j', t, ht, rfl⟩
  have hmem : ∀ t, t ∈ LeafList.leaves g ↔ g.Leaf t := fun t => ⟨leaf_of_mem_vr w1 w2, fun ht => by
    obtain ⟨i, j, u, hu, i', j', t', ht', rfl⟩ := ht
    refine mem_leaves_sub ((Grid.mem_present w1).2 ⟨i, j, hu⟩) ?_
    rw [leaves_tiles]
    exact (Grid.mem_present (w2 i j u hu)).2 ⟨i', j', ht'⟩⟩
  have hlat1 : OnLattice sub 1 (LeafList.leaves g) A.allPts := lattice_vr hs hsub h hsp (by simp) hdiv
  have hsq : ∀ t, g.Leaf t → ∀ p ∈ t.pts, (t.minX = (⌊p.x / sub⌋ : ℚ) * sub ∧ t.minY = (⌊p.y / sub⌋ : ℚ) * sub) ∧ InBox t.minX t.minY sub p := by
    intro t ht p hp
    obtain ⟨i, j, hx, hy⟩ := hlat1.origin t ((hmem t).2 ht)
    have hb := hlat1.box t ((hmem t).2 ht) p hp
    rw [Nat.cast_one, one_mul] at hb
    have hb' := hb
    rw [hx, hy] at hb'
    obtain ⟨b1, b2, b3, b4⟩ := hb'
    rw [floor_box hsp b1 b2, floor_box hsp b3 b4]
    exact ⟨⟨hx, hy⟩, hb⟩
  have huniq : ∀ t u, g.Leaf t → g.Leaf u → t.minX = u.minX → t.minY = u.minY → ∀ p ∈ t.pts, t = u := by
    intro t u ht hu hx hy p hp
    by_contra hne
    have : Std.Symm (Apart ((1 : Nat) * sub)) := ⟨fun _ _ h => Apart.symm h⟩
    have hb := hlat1.box t ((hmem t).2 ht) p hp
    exact hlat1.apart.forall ((hmem t).2 ht) ((hmem u).2 hu) hne p hb (by rw [← hx, ← hy]; exact hb)
  intro p hpt
  obtain ⟨⟨hx, hy⟩, -⟩ := hsq t hleaf p hpt
  refine ⟨⟨hx, hy⟩, ?_⟩
  have e : (LeafList.leaves g).filter (fun u => decide (u.minX = t.minX ∧ u.minY = t.minY)) = [t] := by
    refine only_one (hlat1.apart) ((hmem t).2 hleaf) (by simp) ?_ ?_
    · intro hap
      have hb := hlat1.box t ((hmem t).2 hleaf) p hpt
      exact hap p hb hb
    · intro u hu hcu
      have := of_decide_eq_true hcu
      exact (huniq t u hleaf ((hmem u).1 hu) this.1.symm this.2.symm p hpt).symm
  have := hlat1.part (fun u => decide (u.minX = t.minX ∧ u.minY = t.minY)) (fun q => decide (⌊q.x / sub⌋ = ⌊p.x / sub⌋ ∧ ⌊q.y / sub⌋ = ⌊p.y / sub⌋)) (by
    intro u hu q hq
    obtain ⟨⟨hx', hy'⟩, -⟩ := hsq u ((hmem u).1 hu) q hq
    rw [decide_eq_decide, hx, hy, hx', hy']
    constructor
    · rintro ⟨e1, e2⟩; rw [e1, e2]; exact ⟨rfl, rfl⟩
    · rintro ⟨e1, e2⟩
      exact ⟨by exact_mod_cast mul_right_cancel₀ hsp.ne' e1, by exact_mod_cast mul_right_cancel₀ hsp.ne' e2⟩)
  have := this.all
  rw [e] at this
  rw [List.flatMap_cons, List.flatMap_nil, List.append_nil] at this
  unfold inSquare
  exact this

private theorem vr_density_side (hs : 0 < size) (hsub : isPowerOfTwo sub = true) {m m' : Nat} (hdiv : size = (m : ℚ) * sub) (hs' : 0 < size') (hdiv' : size' = (m' : ℚ) * sub) {g g' : Grid (Grid Tile)}
    (h : VRHistory env size sub bs fl F s g A) (h' : VRHistory env size' sub bs' fl' F' s' g' A') (ha : a.alg = .mean ∨ a.alg = .shoalest) (hc : a.clear = true) (hc' : a'.clear = true) (hr : a.res = none) (hr' : a'.res = none)
    (hm : a.mode = .density) (hm' : a'.mode = .density) (hok : (g.gridWith env a dask).err = none) (hok' : (g'.gridWith env a' dask').err = none) (hp : A'.allPts.Perm A.allPts) {r : ℚ}
    (hmem : r ∈ (g.gridWith env a dask).st.resolutions) : r ∈ (g'.gridWith env a' dask').st.resolutions := by
  have hsp := isPowerOfTwo_pos hsub
  -- a tile with this resolution
  obtain ⟨i, j, u, i', j', t, hu, ht, hd⟩ : ∃ i j u i' j' t, g.TileAt i j u ∧ u.TileAt i' j' t ∧ t.resolutionByDensity env none = .ok r := by
    obtain ⟨h1, -⟩ := plain_family ha
    obtain ⟨t', ht', hrun⟩ := (Grid.leaves_vr hs hsub h (Or.inr hc) hok).2 r hmem
    obtain ⟨i, j, u', hu', i', j', t1, ht1, rfl⟩ := ht'
    obtain ⟨-, -, -, -, hback, -⟩ := gridWith_at hok
    obtain ⟨u, rs, hu, hd, -⟩ := hback i j u' hu'
    obtain ⟨t, ht⟩ : ∃ t, u.TileAt i' j' t := by
      cases hd with
      | skipped _ hc' _ => rw [hc] at hc'; cases hc'
      | gridded c hcall hl he =>
        have he : (u.gridWith env c none).err = none := he
        obtain ⟨-, -, -, -, hback', -⟩ := gridWith_at he
        obtain ⟨t, -, ht, -⟩ := hback' i' j' t' ht1
        exact ⟨t, ht⟩
    obtain ⟨u2, t2, r1, k1, k2, ⟨b, hg⟩, -, kd, -⟩ := C67_own_resolution_vr hs hsub h (Or.inr hc) hr hok hu ht
    obtain rfl := tileAt_unique k1 hu'
    obtain rfl := tileAt_unique k2 ht1
    obtain ⟨-, ⟨B, hB, -⟩, -⟩ := vr_leaf hs hsub hdiv h hu ht
    rw [hc] at hg
    have e1 := onlyAt_resolutions (leafRun_only hsp hrun h1 hc).2
    rw [onlyAt_resolutions (grid_only hsp hB h1 hg)] at e1
    obtain rfl := (List.cons.inj e1).1
    exact ⟨i, j, u, i', j', t, hu, ht, kd hm⟩
  obtain ⟨hne, ⟨B, hB, eB⟩, hsq⟩ := vr_leaf hs hsub hdiv h hu ht
  obtain ⟨p, hpt⟩ := List.exists_mem_of_ne_nil _ hne
  obtain ⟨⟨hx, hy⟩, hperm⟩ := hsq p hpt
  have hpA : p ∈ A.allPts := (List.mem_filter.1 (hperm.mem_iff.1 hpt)).1
  obtain ⟨w1, w2⟩ := vr_wf hs' hsub h'
  obtain ⟨t2, ht2, hpt2⟩ := List.mem_flatMap.1 ((lattice_vr hs' hsub h' hsp (n := 1) (by simp) hdiv').all.mem_iff.2 (hp.mem_iff.2 hpA))
  obtain ⟨k, l, u2, hu2, k', l', t3, ht3, rfl⟩ := leaf_of_mem_vr w1 w2 ht2
  obtain ⟨-, ⟨B', hB', eB'⟩, hsq'⟩ := vr_leaf hs' hsub hdiv' h' hu2 ht3
  obtain ⟨⟨hx', hy'⟩, hperm'⟩ := hsq' p hpt2
  rw [hx', hy', ← hx, ← hy] at hB'
  have hsame := density_perm hsp hB hB' (by
    rw [eB, eB']
    exact (hperm'.trans (hp.filter _)).trans hperm.symm)
  obtain ⟨-, -, r', -, -, -, hres, kd, -⟩ := C67_own_resolution_vr hs' hsub h' (Or.inr hc') hr' hok' hu2 ht3
  have kd := kd hm'
  have kd : t2.resolutionByDensity env none = .ok r' := kd
  rw [hsame, hd] at kd
  cases kd
  exact hres

/-- **C132** (variable resolution grids, density mode): two grids with the same soundings and subtiles of the same size choose in the density mode the same resolutions -/
theorem C132_density_vr (hs : 0 < size) (hsub : isPowerOfTwo sub = true) {m m' : Nat} (hdiv : size = (m : ℚ) * sub) (hs' : 0 < size') (hdiv' : size' = (m' : ℚ) * sub) {g g' : Grid (Grid Tile)}
    (h : VRHistory env size sub bs fl F s g A) (h' : VRHistory env size' sub bs' fl' F' s' g' A') (ha : a.alg = .mean ∨ a.alg = .shoalest) (ha' : a'.alg = .mean ∨ a'.alg = .shoalest)
    (hc : a.clear = true) (hc' : a'.clear = true) (hr : a.res = none) (hr' : a'.res = none) (hm : a.mode = .density) (hm' : a'.mode = .density) (hok : (g.gridWith env a dask).err = none)
    (hok' : (g'.gridWith env a' dask').err = none) (hp : A'.allPts.Perm A.allPts) :
    (g'.gridWith env a' dask').st.resolutions = (g.gridWith env a dask).st.resolutions := by
  have s1 := (C28_resolutions_vr_partial hs hsub h hok).1
  have s2 := (C28_resolutions_vr_partial hs' hsub h' hok').1
  refine List.Perm.eq_of_pairwise (le := fun a b => a < b) (fun _ _ _ _ h1 h2 => absurd (h1.trans h2) (lt_irrefl _)) s2 s1 ((List.perm_ext_iff_of_nodup (s2.imp ne_of_lt) (s1.imp ne_of_lt)).2 fun r => ⟨fun hr2 => ?_, fun hr1 => ?_⟩)
  · exact vr_density_side hs' hsub hdiv' hs hdiv h' h ha' hc' hc hr' hr hm' hm hok' hok hp.symm hr2
  · exact vr_density_side hs hsub hdiv hs' hdiv' h h' ha hc hc' hr hr' hm hm' hok hok' hp hr1

/-- **C133**: two variable resolution grids with the same soundings and subtiles of the same size, gridded by the same one of 'mean' and 'shoalest' with resolutions chosen by depth, show at
each of the resolutions the same: both answer, and where both have a square at the same place, its value is the same (the signs of stored values being the same) -/
theorem C133_same_auto_surface (hs : 0 < size) (hsub : isPowerOfTwo sub = true) {k : Nat} (hk : sub = 2 ^ k / 4) {m m' : Nat} (hdiv : size = (m : ℚ) * sub) (hs' : 0 < size') (hdiv' : size' = (m' : ℚ) * sub)
    {g g' : Grid (Grid Tile)} (h : VRHistory env size sub bs fl F s g A) (h' : VRHistory env' size' sub bs' fl' F' s' g' A') (ha : a.alg = .mean ∨ a.alg = .shoalest) (halg : a'.alg = a.alg)
    (hc : a.clear = true) (hc' : a'.clear = true) (hr : a.res = none) (hr' : a'.res = none) (hm : a.mode = .depth) (hm' : a'.mode = .depth)
    (hok : (g.gridWith env a dask).err = none) (hok' : (g'.gridWith env' a' dask').err = none) (hp : A'.allPts.Perm A.allPts) (hz : ∀ p ∈ A.allPts, p.z < 20480) {nodata : Option ℚ} {zUp : Bool}
    {l : Layer} (hl : Ruled a.alg false fl nodata l) (hl' : Ruled a.alg false fl' nodata l) (hup : StoredUp (g'.gridWith env' a' dask').st ↔ StoredUp (g.gridWith env a dask).st) {r : ℚ}
    (hmem : r ∈ (g.gridWith env a dask).st.resolutions) :
    ∃ e arr e' arr', (g.gridWith env a dask).st.extents = some e ∧ (g'.gridWith env' a' dask').st.extents = some e' ∧
      ((g.gridWith env a dask).st.getLayersByName env [l] (some r) nodata zUp).2 = .ok (some [arr]) ∧
      ((g'.gridWith env' a' dask').st.getLayersByName env' [l] (some r) nodata zUp).2 = .ok (some [arr']) ∧
      ∀ i j i' j', i < arr.rows → j < arr.cols → i' < arr'.rows → j' < arr'.cols → e.minX + (j : ℚ) * r = e'.minX + (j' : ℚ) * r → e.minY + (i : ℚ) * r = e'.minY + (i' : ℚ) * r →
        arr'.get? i' j' = arr.get? i j := by
  classical
  have ha' : a'.alg = .mean ∨ a'.alg = .shoalest := halg ▸ ha
  have hsame := C132_depth_vr hs hsub hk hdiv hs' hdiv' h h' ha ha' hc hc' hr hr' hm hm' hok hok' hp hz
  obtain ⟨ρ, h1, h2⟩ := C115_auto_surface_vr hs hsub hk hdiv h ha hc hr (by rw [hm]; decide) hok (nodata := nodata) (zUp := zUp) (flip := decide (zUp = true ↔ ¬ StoredUp (g.gridWith env a dask).st))
    (l := l) hl decide_eq_true_iff
  obtain ⟨ρ', h1', h2'⟩ := C115_auto_surface_vr hs' hsub hk hdiv' h' ha' hc' hr' (by rw [hm']; decide) hok' (nodata := nodata) (zUp := zUp)
    (flip := decide (zUp = true ↔ ¬ StoredUp (g.gridWith env a dask).st)) (l := l) (halg ▸ hl') (by rw [decide_eq_true_iff, hup])
  obtain ⟨-, -, e, arr, he, hq, hsurf⟩ := h2 r hmem
  obtain ⟨-, -, e', arr', he', hq', hsurf'⟩ := h2' r (hsame ▸ hmem)
  have hρ : ∀ p ∈ A.allPts, ρ' ⌊p.x / sub⌋ ⌊p.y / sub⌋ = ρ ⌊p.x / sub⌋ ⌊p.y / sub⌋ := by
    intro p hpA
    obtain ⟨-, k1⟩ := h1 p hpA
    obtain ⟨k2, k3⟩ := h1' p (hp.mem_iff.2 hpA)
    have hperm : (inSquare sub ⌊p.x / sub⌋ ⌊p.y / sub⌋ A'.allPts).Perm (inSquare sub ⌊p.x / sub⌋ ⌊p.y / sub⌋ A.allPts) := hp.filter _
    have hin : p ∈ inSquare sub ⌊p.x / sub⌋ ⌊p.y / sub⌋ A.allPts := List.mem_filter.2 ⟨hpA, by simp⟩
    have hlt : meanOf ((inSquare sub ⌊p.x / sub⌋ ⌊p.y / sub⌋ A.allPts).map Pt.z) < 20480 := mean_below (by simpa using List.ne_nil_of_mem hin) fun x hx => by
      obtain ⟨q, hq, rfl⟩ := List.mem_map.1 hx
      exact hz q (List.mem_filter.1 hq).1
    obtain ⟨r0, e1, e2⟩ := k1 hm hlt
    have k3 := k3 hm'
    unfold ByDepth at k3
    rw [meanOf_perm (hperm.map Pt.z)] at k3
    obtain ⟨r1, e3, e4⟩ := k3 hlt
    rw [e2, entry_one e1 e3, ← e4]
  have hat : (atRes sub ρ' r A'.allPts).Perm (atRes sub ρ r A.allPts) := by
    refine (hp.filter _).trans (List.Perm.of_eq ?_)
    exact List.filter_congr fun p hpA => by rw [hρ p hpA]
  refine ⟨e, arr, e', arr', he, he', by rw [hq], by rw [hq'], fun i j i' j' hi hj hi' hj' hx hy => ?_⟩
  obtain ⟨v, k1, g1⟩ := hsurf.cell i j hi hj
  obtain ⟨w, k2, g2⟩ := hsurf'.cell i' j' hi' hj'
  rw [halg] at k2
  have hcell : (inCell e'.minX e'.minY r i' j' (atRes sub ρ' r A'.allPts)).Perm (inCell e.minX e.minY r i j (atRes sub ρ r A.allPts)) := by
    refine (hat.filter _).trans (List.Perm.of_eq ?_)
    exact List.filter_congr fun p _ => by simp only [inCell_place hx hy p]
  rw [g1, g2, rule_det ha hcell k2 k1]

private def near : List Pt := [⟨1, 1, 45, 1, 1⟩]
private def deep : List Pt := [⟨2, 2, 100, 1, 1⟩]
private def nearFirst : Grid Tile := (((newSR 16 false).addPoints ⟨demoFields, near⟩ "near" {}).st.addPoints ⟨demoFields, deep⟩ "deep" {}).st
private def deepFirst : Grid Tile := (((newSR 16 false).addPoints ⟨demoFields, deep⟩ "deep" {}).st.addPoints ⟨demoFields, near⟩ "near" {}).st

/-- **C132** does not hold for single resolution grids: they look at `mean_depth`, which is the one of the container added last (C51).  With soundings of 45 and 100 m the grid is gridded at 8 m
if the deep one was added last, and at 2 m otherwise. -/
theorem C132_violated : ∃ g g' A A', SRHistory demoEnv 16 false demoFields .plain false g A ∧ SRHistory demoEnv 16 false demoFields .plain false g' A' ∧ A'.allPts.Perm A.allPts ∧
    ∃ a : GridCall, a.alg = .mean ∧ a.clear = true ∧ a.res = none ∧ a.mode = .depth ∧ (g.gridWith demoEnv a none).err = none ∧ (g'.gridWith demoEnv a none).err = none ∧
      (g.gridWith demoEnv a none).st.resolutions = [8] ∧ (g'.gridWith demoEnv a none).st.resolutions = [2] :=
  ⟨nearFirst, deepFirst, [("near", near), ("deep", deep)], [("deep", deep), ("near", near)], ((GridHistory.new .plain).add near "near" {} (by decide +kernel)).add deep "deep" {} (by decide +kernel),
    ((GridHistory.new .plain).add deep "deep" {} (by decide +kernel)).add near "near" {} (by decide +kernel), by decide +kernel, { alg := .mean, res := none, mode := .depth, clear := true },
    rfl, rfl, rfl, rfl, by decide +kernel, by decide +kernel, by decide +kernel, by decide +kernel⟩

/-! ## the hypotheses can be met -/

private def call : GridCall := { alg := .mean, res := none, mode := .depth, clear := true }
private def otherVR : Grid (Grid Tile) := (((newVR 64 16 false).addPoints ⟨demoFields, demoC⟩ "first" demoArgs).st.addPoints ⟨demoFields, demoB⟩ "second" {}).st

private theorem otherVR_history : VRHistory demoEnv 64 16 false demoFields .plain false otherVR [("first", demoC), ("second", demoB)] :=
  ((GridHistory.new (g0 := newVR 64 16 false) .plain).add demoC "first" demoArgs (by decide +kernel)).add demoB "second" {} (by decide +kernel)

example : (otherVR.gridWith demoEnv { call with alg := .shoalest } (some 2)).st.resolutions = (demoVR.gridWith demoEnv call none).st.resolutions :=
  C132_depth_vr (size := 32) (size' := 64) (sub := 16) (k := 6) (m := 2) (m' := 4) (by norm_num) (by decide +kernel) (by norm_num) (by norm_num) (by norm_num) (by norm_num) demoVR_history otherVR_history
    (.inl rfl) (.inr rfl) rfl rfl rfl rfl rfl rfl (by decide +kernel) (by decide +kernel) List.perm_append_comm (by decide +kernel)

example : (((newSR 16 false).addPoints ⟨demoFields, demoA.reverse⟩ "r" {}).st.gridWith demoEnv call (some 2)).st.resolutions =
    (((newSR 16 false).addPoints ⟨demoFields, demoA⟩ "a" {}).st.gridWith demoEnv call none).st.resolutions :=
  C132_depth_sr_partial (env := demoEnv) (env' := demoEnv) (by norm_num : (0 : ℚ) < 16) (GridHistory.new .plain) (GridHistory.new .plain) (by decide +kernel) (by decide +kernel) (.inl rfl) (.inl rfl) rfl rfl rfl
    rfl rfl rfl (by decide +kernel) (by decide +kernel) (List.reverse_perm _)

private def otherSR : Grid Tile := (((newSR 16 false).addPoints ⟨demoFields, demoC⟩ "first" demoArgs).st.addPoints ⟨demoFields, demoB⟩ "second" {}).st

private theorem otherSR_history : SRHistory demoEnv 16 false demoFields .plain false otherSR [("first", demoC), ("second", demoB)] :=
  ((GridHistory.new (g0 := newSR 16 false) .plain).add demoC "first" demoArgs (by decide +kernel)).add demoB "second" {} (by decide +kernel)

example : (otherSR.gridWith demoEnv { call with mode := .density } (some 2)).st.resolutions = (demoSR.gridWith demoEnv { call with mode := .density } none).st.resolutions :=
  C132_density_sr (by norm_num) demoSR_history otherSR_history (.inl rfl) (.inl rfl) rfl rfl rfl rfl rfl rfl (by decide +kernel) (by decide +kernel) List.perm_append_comm

example : (otherVR.gridWith demoEnv { call with alg := .shoalest, mode := .density } (some 2)).st.resolutions = (demoVR.gridWith demoEnv { call with mode := .density } none).st.resolutions :=
  C132_density_vr (size := 32) (size' := 64) (sub := 16) (m := 2) (m' := 4) (by norm_num) (by decide +kernel) (by norm_num) (by norm_num) (by norm_num) demoVR_history otherVR_history
    (.inl rfl) (.inr rfl) rfl rfl rfl rfl rfl rfl (by decide +kernel) (by decide +kernel) List.perm_append_comm

private theorem sameVref : (otherVR.gridWith demoEnv call (some 2)).st.info.vref = (demoVR.gridWith demoEnv call none).st.info.vref := by decide +kernel

example := C133_same_auto_surface (size := 32) (size' := 64) (sub := 16) (k := 6) (m := 2) (m' := 4) (a' := call) (dask' := some 2) (zUp := true) (nodata := none) (l := .vertical) (r := 1 / 2)
    (by norm_num) (by decide +kernel) (by norm_num) (by norm_num) (by norm_num) (by norm_num) demoVR_history otherVR_history (.inl rfl) rfl rfl rfl rfl rfl rfl rfl (by decide +kernel) (by decide +kernel)
    List.perm_append_comm (by decide +kernel) (.inr (.inr ⟨rfl, .inl ⟨rfl, rfl⟩⟩)) (.inr (.inr ⟨rfl, .inl ⟨rfl, rfl⟩⟩)) (by unfold StoredUp; rw [sameVref])
    (by decide +kernel : (1 / 2 : ℚ) ∈ (demoVR.gridWith demoEnv call none).st.resolutions)

end Bathy
