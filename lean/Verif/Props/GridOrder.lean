import Verif.Lemmas.GridLeaf
import Verif.Props.TileGridding
import Verif.Spec.DemoGrid

/-!
# The order in which containers are added

C16: two grids with the same containers, added in any order (with any removals, gridding calls and queries in between), have tiles in the same
places, each tile with the same soundings under each container, and after gridding the same depths and densities.

Model: `Grid.addPoints` (bathygrid/bgrid.py:665-706), `Grid.grid` (bathygrid/bgrid.py:1461-1521).
-/

namespace Bathy
open Grid
variable {env : Env} {size sub : ℚ} {bs : Bool} {fl : Fields}

namespace Store

theorem within_perm {A A' : Store} (h : A.Perm A') (x y s : ℚ) : (A.within x y s).Perm (A'.within x y s) := (h.map _).filter _

theorem allPts_perm {A A' : Store} (h : A.Perm A') : A.allPts.Perm A'.allPts := by
  unfold allPts; exact (h.map _).flatten

theorem filter_name {A : Store} (h : A.names.Nodup) (c : String) : (A.filter (fun p => decide (p.1 = c))).length ≤ 1 := by
  induction A with
  | nil => simp
  | cons q A ih =>
    have hn : q.1 ∉ names A ∧ (names A).Nodup := by unfold names at h ⊢; simpa using h
    rw [List.filter_cons]
    split
    · rename_i hq
      have hq : q.1 = c := of_decide_eq_true hq
      have : A.filter (fun p => decide (p.1 = c)) = [] := by
        rw [List.filter_eq_nil_iff]
        intro p hp hpc
        have hpc : p.1 = c := of_decide_eq_true hpc
        apply hn.1
        rw [hq, ← hpc]
        exact List.mem_map_of_mem hp
      rw [this]; simp
    · exact ih hn.2

theorem ptsOf_perm {A A' : Store} (h : A.Perm A') (hn : A.names.Nodup) (c : String) : A.ptsOf c = A'.ptsOf c := by
  unfold ptsOf
  have hp := h.filter (fun p => decide (p.1 = c))
  have h1 := filter_name hn c
  generalize hl : A.filter (fun p => decide (p.1 = c)) = l at hp h1
  match l, h1 with
  | [], _ => rw [List.nil_perm.1 hp]
  | [q], _ => rw [List.perm_singleton.1 hp.symm]
  | _ :: _ :: _, h1 => simp at h1

end Store

/-- every tile (`SRTile`) of one grid has a tile of the other with the same lower left corner and related to it -/
def SamePlaces {τ : Type} [HasLeaves τ] (R : Tile → Tile → Prop) (g g' : Grid τ) : Prop :=
  (∀ t, g.Leaf t → ∃ t', g'.Leaf t' ∧ t'.minX = t.minX ∧ t'.minY = t.minY ∧ R t t') ∧
  (∀ t', g'.Leaf t' → ∃ t, g.Leaf t ∧ t'.minX = t.minX ∧ t'.minY = t.minY ∧ R t t')

/-- the same soundings, also per container -/
def SameSoundings (t t' : Tile) : Prop := t.pts.Perm t'.pts ∧ ∀ c, t.under c = t'.under c

/-- the same depths (intensities for backscatter) and densities at the resolution -/
def SameDepths (bs : Bool) (r : ℚ) (t t' : Tile) : Prop :=
  t.layerAt r (mainLayer bs) = t'.layerAt r (mainLayer bs) ∧ t.layerAt r .density = t'.layerAt r .density ∧ ∃ a b, t.layerAt r (mainLayer bs) = some a ∧ t.layerAt r .density = some b

theorem SamePlaces.imp {τ : Type} [HasLeaves τ] {R R' : Tile → Tile → Prop} {g g' : Grid τ} (h : SamePlaces R g g') (hR : ∀ t t', g.Leaf t → g'.Leaf t' → t'.minX = t.minX → t'.minY = t.minY → R t t' → R' t t') :
    SamePlaces R' g g' := by
  refine ⟨fun t ht => ?_, fun t' ht' => ?_⟩
  · obtain ⟨t', h1, h2, h3, h4⟩ := h.1 t ht
    exact ⟨t', h1, h2, h3, hR _ _ ht h1 h2 h3 h4⟩
  · obtain ⟨t, h1, h2, h3, h4⟩ := h.2 t' ht'
    exact ⟨t, h1, h2, h3, hR _ _ h1 ht' h2 h3 h4⟩

/-- two tiles with the same containers in different orders -/
theorem tile_perm {w : ℚ} (hw : 0 < w) {F F' : Family} {x y : ℚ} {t t' : Tile} {B B' : Store} (h : TileHistory env x y w bs fl F t B) (h' : TileHistory env x y w bs fl F' t' B')
    (hn : B.names.Nodup) (hp : B.Perm B') : t.minX = x ∧ t.minY = y ∧ t'.minX = x ∧ t'.minY = y ∧ SameSoundings t t' := by
  obtain ⟨hf, hr, -⟩ := history_frame hw h
  obtain ⟨hf', hr', -⟩ := history_frame hw h'
  refine ⟨hf.1, hf.2.2.1, hf'.1, hf'.2.2.1, ?_, fun c => ?_⟩
  · rw [hr.pts, hr'.pts]; exact Store.allPts_perm hp
  · rw [Tile.under_rep hr c, Tile.under_rep hr' c]; exact Store.ptsOf_perm hp hn c

namespace Grid

/-- the tile of a square with soundings -/
theorem frame_rep {τ : Type} [TileLike τ] {C : ChildSpec τ size sub bs fl} (hs : 0 < size) {x0 y0 : ℚ} {nx ny : Nat} {T : Arr2 (Option τ)} {g : Grid τ} {A : Store} (hf : Ready C x0 y0 nx ny T g A)
    {r c : Nat} (hne : A.within (x0 + (c : ℚ) * size) (y0 + (r : ℚ) * size) size ≠ []) :
    ∃ t, g.TileAt r c t ∧ C.Rep (x0 + (c : ℚ) * size) (y0 + (r : ℚ) * size) t (A.within (x0 + (c : ℚ) * size) (y0 + (r : ℚ) * size) size) := by
  obtain ⟨h1, h2, h3, h4⟩ := hf.rep
  obtain ⟨q, hq⟩ := List.exists_mem_of_ne_nil _ hne
  obtain ⟨p, hp⟩ := List.exists_mem_of_ne_nil _ (Store.within_ne _ _ _ _ q hq)
  have hpw : p ∈ (A.within (x0 + (c : ℚ) * size) (y0 + (r : ℚ) * size) size).allPts := Store.mem_allPts.2 ⟨q, hq, hp⟩
  have hb := Store.within_box _ _ _ _ p hpw
  have hpA : p ∈ A.allPts := by
    rw [Store.allPts_within] at hpw; exact (List.mem_filter.1 hpw).1
  have hr := hf.inr p hpA
  have hlt : ∀ {x v : ℚ} {k n : Nat}, x + (k : ℚ) * size ≤ v → v < x + (n : ℚ) * size → k < n := by
    intro x v k n q1 q2
    have w : (k : ℚ) * size < (n : ℚ) * size := by linarith
    have := lt_of_mul_lt_mul_right w hs.le
    exact_mod_cast this
  have hc : c < nx := hlt hb.1 hr.2.1
  have hrr : r < ny := hlt hb.2.2.1 hr.2.2.2
  have hk : r * nx + c < T.flat.length := by rw [h3]; exact Arr2.idx_lt hrr hc
  have e1 : slotX x0 size nx (r * nx + c) = x0 + (c : ℚ) * size := by
    unfold slotX; rw [Arr2.idx_mod hc]
  have e2 : slotY y0 size nx (r * nx + c) = y0 + (r : ℚ) * size := by
    unfold slotY; rw [Arr2.idx_div hc]
  have := h4 _ _ (List.getElem?_eq_getElem hk)
  rw [e1, e2] at this
  rcases this with ⟨-, q⟩ | ⟨t, q, q1, q2⟩
  · exact absurd q hne
  · refine ⟨t, ⟨T, hf.tiles, ?_⟩, q2⟩
    unfold Arr2.get?
    rw [h1, h2, if_pos ⟨hrr, hc⟩, List.getElem?_eq_getElem hk, q]

end Grid

private theorem perm_ne {A A' : Store} (h : A.Perm A') (hne : A ≠ []) : A' ≠ [] := by
  rintro rfl; exact hne (List.perm_nil.1 h)

/-- the tiles of two single resolution grids with the same containers -/
theorem samePlaces_sr (hs : 0 < size) {F F' : Family} {g g' : Grid Tile} {A A' : Store} (h : GrowInv (tileSpec env F size 0 bs fl hs) g A)
    (h' : GrowInv (tileSpec env F' size 0 bs fl hs) g' A') (hp : A.Perm A') : SamePlaces SameSoundings g g' := by
  have key : ∀ {F F' : Family} {g g' : Grid Tile} {A A' : Store}, GrowInv (tileSpec env F size 0 bs fl hs) g A → GrowInv (tileSpec env F' size 0 bs fl hs) g' A' → A.Perm A' →
      ∀ t, g.Leaf t → ∃ t', g'.Leaf t' ∧ t'.minX = t.minX ∧ t'.minY = t.minY ∧ SameSoundings t t' := by
    rintro F F' g g' A A' h h' hp t ⟨r, c, u, hu, rfl⟩
    obtain ⟨a, b, e, -, -, -, hrep, hne, -⟩ := tileAt_rep h hu
    have hpw := Store.within_perm hp ((a : ℚ) * size) ((b : ℚ) * size) size
    obtain ⟨r', c', t', ht', hrep', -⟩ := rep_tileAt hs h' (perm_ne hpw hne)
    obtain ⟨e1, e2, e3, e4, e5⟩ := tile_perm hs hrep.1 hrep'.1 ((Store.names_within A _ _ _).nodup h.names) hpw
    exact ⟨t', ⟨r', c', t', ht', rfl⟩, by rw [e1, e3], by rw [e2, e4], e5⟩
  refine ⟨key h h' hp, fun t' ht' => ?_⟩
  obtain ⟨t, h1, h2, h3, h4⟩ := key h' h hp.symm t' ht'
  exact ⟨t, h1, h2.symm, h3.symm, h4.1.symm, fun c => (h4.2 c).symm⟩

/-- the tiles of two variable resolution grids with the same containers -/
theorem samePlaces_vr (hs : 0 < size) (hsub : isPowerOfTwo sub = true) {F F' : Family} {g g' : Grid (Grid Tile)} {A A' : Store}
    (h : GrowInv (subSpec (bs := bs) (tileSpec env F sub 0 false fl (isPowerOfTwo_pos hsub)) hs hsub) g A)
    (h' : GrowInv (subSpec (bs := bs) (tileSpec env F' sub 0 false fl (isPowerOfTwo_pos hsub)) hs hsub) g' A') (hp : A.Perm A') : SamePlaces SameSoundings g g' := by
  have key : ∀ {F F' : Family} {g g' : Grid (Grid Tile)} {A A' : Store}, GrowInv (subSpec (bs := bs) (tileSpec env F sub 0 false fl (isPowerOfTwo_pos hsub)) hs hsub) g A →
      GrowInv (subSpec (bs := bs) (tileSpec env F' sub 0 false fl (isPowerOfTwo_pos hsub)) hs hsub) g' A' → A.Perm A' →
      ∀ t, g.Leaf t → ∃ t', g'.Leaf t' ∧ t'.minX = t.minX ∧ t'.minY = t.minY ∧ SameSoundings t t' := by
    rintro F F' g g' A A' h h' hp t ⟨r, c, u, hu, r1, c1, v, hv, rfl⟩
    obtain ⟨a, b, e, -, -, -, hrep, hne, -⟩ := tileAt_rep h hu
    have hpw := Store.within_perm hp ((a : ℚ) * size) ((b : ℚ) * size) size
    obtain ⟨r', c', u', hu', hrep', -⟩ := rep_tileAt hs h' (perm_ne hpw hne)
    have hrep : SubInv _ size _ _ u _ := hrep
    have hrep' : SubInv _ size _ _ u' _ := hrep'
    obtain ⟨T, hf⟩ := hrep.frame
    obtain ⟨T', hf'⟩ := hrep'.frame
    obtain ⟨-, -, hl, hlne⟩ := frame_tileAt hf.toReady hv
    have hpw' := Store.within_perm hpw ((a : ℚ) * size + (c1 : ℚ) * sub) ((b : ℚ) * size + (r1 : ℚ) * sub) sub
    obtain ⟨v', hv', hl'⟩ := frame_rep (isPowerOfTwo_pos hsub) hf'.toReady (perm_ne hpw' hlne)
    obtain ⟨e1, e2, e3, e4, e5⟩ := tile_perm (isPowerOfTwo_pos hsub) hl.1 hl'.1 ((Store.names_within _ _ _ _).nodup hrep.names) hpw'
    exact ⟨v', ⟨r', c', u', hu', r1, c1, v', hv', rfl⟩, by rw [e1, e3], by rw [e2, e4], e5⟩
  refine ⟨key h h' hp, fun t' ht' => ?_⟩
  obtain ⟨t, h1, h2, h3, h4⟩ := key h' h hp.symm t' ht'
  exact ⟨t, h1, h2.symm, h3.symm, h4.1.symm, fun c => (h4.2 c).symm⟩

/-- **C16** (single resolution): two grids with the same containers, however they were built up, have tiles in the same places, with the same soundings
under each container. -/
theorem C16_soundings_sr (hs : 0 < size) {F F' : Family} {s s' : Bool} {g g' : Grid Tile} {A A' : Store} (h : SRHistory env size bs fl F s g A)
    (h' : SRHistory env size bs fl F' s' g' A') (hp : A.Perm A') : SamePlaces SameSoundings g g' :=
  samePlaces_sr hs (sr_inv hs h).1 (sr_inv hs h').1 hp

/-- **C16** (variable resolution) -/
theorem C16_soundings_vr (hs : 0 < size) (hsub : isPowerOfTwo sub = true) {F F' : Family} {s s' : Bool} {g g' : Grid (Grid Tile)} {A A' : Store}
    (h : VRHistory env size sub bs fl F s g A) (h' : VRHistory env size sub bs fl F' s' g' A') (hp : A.Perm A') : SamePlaces SameSoundings g g' :=
  samePlaces_vr hs hsub (vr_inv hs hsub h).1 (vr_inv hs hsub h').1 hp

/-- two gridded tiles in the same place with the same soundings -/
theorem leafRun_perm {w : ℚ} (hw : 0 < w) {F F' : Family} {a a' : GridCall} {t t' : Tile} {r r' : ℚ} (h : LeafRun env fl F w bs a t r) (h' : LeafRun env fl F' w bs a' t' r')
    (ha : a.alg = .mean ∨ a.alg = .shoalest) (haa : a'.alg = a.alg) (hF : F = .plain ∨ a.clear = true) (hF' : F' = .plain ∨ a'.clear = true) (hr : r = r')
    (hx : t'.minX = t.minX) (hy : t'.minY = t.minY) (hp : t.pts.Perm t'.pts) : SameDepths bs r t t' := by
  subst hr
  obtain ⟨t0, B, c, h1, h2, h3, -, h5, -, h7⟩ := leafRun_call (F' := .plain) h (hF.imp Eq.symm id)
  obtain ⟨t0', B', c', h1', h2', h3', -, h5', -, h7'⟩ := leafRun_call (F' := .plain) h' (hF'.imp Eq.symm id)
  rw [hx, hy] at h1'
  rw [haa] at h7'
  have hB : B.allPts.Perm B'.allPts := by rw [← h2, ← h2']; exact hp
  obtain ⟨k1, k2, -⟩ := C27_order_of_soundings hw h1 h1' hB a.alg ha h3 (h5.imp Eq.symm id) (h5'.imp Eq.symm id) c.mode c'.mode a.params a'.params c.border c'.border
  rw [h7, h7'] at k1 k2
  have hok : (t0.grid env a.alg (some r) c.clear c.mode a.params c.border).1.err = none := by rw [h7]; rfl
  refine ⟨k1, k2, ?_⟩
  rcases ha with ha | ha
  · rw [ha] at h7 hok
    obtain ⟨-, -, ⟨m, hm, -⟩, -⟩ := C17_mean_is_cell_mean hw h1 h3 (h5.imp Eq.symm id) c.mode a.params c.border
    obtain ⟨-, d, hd, -⟩ := C20_density_counts hw h1 .mean (F' := .plain) rfl h5 h3 c.mode a.params c.border hok
    rw [h7] at hm hd
    exact ⟨m, d, hm, hd⟩
  · rw [ha] at h7 hok
    obtain ⟨-, -, m, hm, -⟩ := C18_shoalest_is_cell_minimum hw h1 h3 (h5.imp Eq.symm id) c.mode a.params c.border
    obtain ⟨-, d, hd, -⟩ := C20_density_counts hw h1 .shoalest (F' := .plain) rfl h5 h3 c.mode a.params c.border hok
    rw [h7] at hm hd
    exact ⟨m, d, hm, hd⟩

private theorem alg_plain {a : GridCall} (ha : a.alg = .mean ∨ a.alg = .shoalest) : a.alg.family = some .plain := by
  rcases ha with h | h <;> rw [h] <;> rfl

/-- **C16, partial** (single resolution): two grids with the same containers, however they were built up, are gridded with mean or shoalest at the same
given resolution (a full run or one that clears), each with or without workers.  They have the same depths and the same densities in every cell.
Missing: a resolution chosen by the grid, which may be different (`C16_violated`), and CUBE, whose arithmetic is not modelled. -/
theorem C16_depths_sr_partial (hs : 0 < size) {F F' : Family} {s s' : Bool} {g g' : Grid Tile} {A A' : Store} (h : SRHistory env size bs fl F s g A)
    (h' : SRHistory env size bs fl F' s' g' A') (hp : A.Perm A') {a a' : GridCall} (ha : a.alg = .mean ∨ a.alg = .shoalest) (haa : a'.alg = a.alg) {r : ℚ}
    (hr : a.res = some r) (hr' : a'.res = some r) (hF : F = .plain ∨ a.clear = true) (hF' : F' = .plain ∨ a'.clear = true) (hv : a.regrid = .full ∨ a.clear = true)
    (hv' : a'.regrid = .full ∨ a'.clear = true) {dask dask' : Option Nat} (hok : (g.gridWith env a dask).err = none) (hok' : (g'.gridWith env a' dask').err = none) :
    SamePlaces (SameDepths bs r) (g.gridWith env a dask).st (g'.gridWith env a' dask').st := by
  have hh : ∀ {F : Family} {s : Bool} {g : Grid Tile} {A : Store} {a : GridCall} {dask : Option Nat}, SRHistory env size bs fl F s g A → a.alg.family = some .plain → (F = .plain ∨ a.clear = true) →
      (g.gridWith env a dask).err = none → SRHistory env size bs fl .plain s (g.gridWith env a dask).st A := by
    intro F s g A a dask h ha hF hok
    rcases hF with rfl | hF
    · exact h.grid a ha dask
    · exact h.switch a ha hF dask hok
  have hpl := alg_plain ha
  have hpl' : a'.alg.family = some .plain := by rw [haa]; exact hpl
  refine (C16_soundings_sr hs (hh h hpl hF hok) (hh h' hpl' hF' hok') hp).imp ?_
  intro t t' ht ht' hx hy hR
  obtain ⟨q, -, hq⟩ := (leaves_sr hs h hv hok).1 t ht
  obtain ⟨q', -, hq'⟩ := (leaves_sr hs h' hv' hok').1 t' ht'
  obtain ⟨-, -, -, -, -, -, hqr, -⟩ := leafRun_call (F' := .plain) hq (hF.imp Eq.symm id)
  obtain ⟨-, -, -, -, -, -, hqr', -⟩ := leafRun_call (F' := .plain) hq' (hF'.imp Eq.symm id)
  have := leafRun_perm hs hq hq' ha haa hF hF' ((hqr r hr).trans (hqr' r hr').symm) hx hy hR.1
  rw [hqr r hr] at this
  exact this

/-- **C16, partial** (variable resolution).  As for single resolution. -/
theorem C16_depths_vr_partial (hs : 0 < size) (hsub : isPowerOfTwo sub = true) {F F' : Family} {s s' : Bool} {g g' : Grid (Grid Tile)} {A A' : Store} (h : VRHistory env size sub bs fl F s g A)
    (h' : VRHistory env size sub bs fl F' s' g' A') (hp : A.Perm A') {a a' : GridCall} (ha : a.alg = .mean ∨ a.alg = .shoalest) (haa : a'.alg = a.alg) {r : ℚ}
    (hr : a.res = some r) (hr' : a'.res = some r) (hF : F = .plain ∨ a.clear = true) (hF' : F' = .plain ∨ a'.clear = true) (hv : a.regrid = .full ∨ a.clear = true)
    (hv' : a'.regrid = .full ∨ a'.clear = true) {dask dask' : Option Nat} (hok : (g.gridWith env a dask).err = none) (hok' : (g'.gridWith env a' dask').err = none) :
    SamePlaces (SameDepths false r) (g.gridWith env a dask).st (g'.gridWith env a' dask').st := by
  have hh : ∀ {F : Family} {s : Bool} {g : Grid (Grid Tile)} {A : Store} {a : GridCall} {dask : Option Nat}, VRHistory env size sub bs fl F s g A → a.alg.family = some .plain → (F = .plain ∨ a.clear = true) →
      (g.gridWith env a dask).err = none → VRHistory env size sub bs fl .plain s (g.gridWith env a dask).st A := by
    intro F s g A a dask h ha hF hok
    rcases hF with rfl | hF
    · exact h.grid a ha dask
    · exact h.switch a ha hF dask hok
  have hpl := alg_plain ha
  have hpl' : a'.alg.family = some .plain := by rw [haa]; exact hpl
  have hsp := isPowerOfTwo_pos hsub
  refine (C16_soundings_vr hs hsub (hh h hpl hF hok) (hh h' hpl' hF' hok') hp).imp ?_
  intro t t' ht ht' hx hy hR
  obtain ⟨q, -, hq⟩ := (leaves_vr hs hsub h hv hok).1 t ht
  obtain ⟨q', -, hq'⟩ := (leaves_vr hs hsub h' hv' hok').1 t' ht'
  obtain ⟨-, -, -, -, -, -, hqr, -⟩ := leafRun_call (F' := .plain) hq (hF.imp Eq.symm id)
  obtain ⟨-, -, -, -, -, -, hqr', -⟩ := leafRun_call (F' := .plain) hq' (hF'.imp Eq.symm id)
  have := leafRun_perm hsp hq hq' ha haa hF hF' ((hqr r hr).trans (hqr' r hr').symm) hx hy hR.1
  rw [hqr r hr] at this
  exact this

private def ab : Grid Tile := (((newSR 32 false).addPoints ⟨demoFields, [⟨10, 10, 5, 1, 1⟩]⟩ "a" {}).st.addPoints ⟨demoFields, [⟨11, 11, 45, 1, 1⟩]⟩ "b" {}).st
private def ba : Grid Tile := (((newSR 32 false).addPoints ⟨demoFields, [⟨11, 11, 45, 1, 1⟩]⟩ "b" {}).st.addPoints ⟨demoFields, [⟨10, 10, 5, 1, 1⟩]⟩ "a" {}).st

/-- **C16** does not hold if the grid chooses the resolution: it looks up the mean depth of the container added last.  Two containers, 5 m and 45 m: added in
the one order the grid is gridded at 2 m, in the other at 0.25 m. -/
theorem C16_violated : ∃ g g' A A', SRHistory demoEnv 32 false demoFields .plain false g A ∧ SRHistory demoEnv 32 false demoFields .plain false g' A' ∧ A.Perm A' ∧
    (g.grid demoEnv { alg := .mean, res := none }).err = none ∧ (g'.grid demoEnv { alg := .mean, res := none }).err = none ∧
    (g.grid demoEnv { alg := .mean, res := none }).st.resolutions = [2] ∧ (g'.grid demoEnv { alg := .mean, res := none }).st.resolutions = [1/4] := by
  refine ⟨ab, ba, _, _, ((GridHistory.new .plain).add _ "a" {} (by decide +kernel)).add _ "b" {} (by decide +kernel),
    ((GridHistory.new .plain).add _ "b" {} (by decide +kernel)).add _ "a" {} (by decide +kernel), List.Perm.swap _ _ _, by decide +kernel, by decide +kernel, by decide +kernel, by decide +kernel⟩

/-- the hypotheses of C16 are met; the two grids do not have the same extents -/
example : ∃ g g' A A', SRHistory demoEnv 32 false demoFields .plain false g A ∧ SRHistory demoEnv 32 false demoFields .plain false g' A' ∧ A.Perm A' ∧ g.extents ≠ g'.extents ∧
    (g.gridWith demoEnv { alg := .mean, res := some 1 } none).err = none ∧ (g'.gridWith demoEnv { alg := .mean, res := some 1 } (some 2)).err = none := by
  refine ⟨(((newSR 32 false).addPoints ⟨demoFields, [⟨10, 10, 5, 1, 1⟩]⟩ "a" {}).st.addPoints ⟨demoFields, [⟨51, 10, 45, 1, 1⟩]⟩ "b" {}).st,
    (((newSR 32 false).addPoints ⟨demoFields, [⟨51, 10, 45, 1, 1⟩]⟩ "b" {}).st.addPoints ⟨demoFields, [⟨10, 10, 5, 1, 1⟩]⟩ "a" {}).st, _, _, ((GridHistory.new .plain).add _ "a" {} (by decide +kernel)).add _ "b" {} (by decide +kernel),
    ((GridHistory.new .plain).add _ "b" {} (by decide +kernel)).add _ "a" {} (by decide +kernel), List.Perm.swap _ _ _, by decide +kernel, by decide +kernel, by decide +kernel⟩

/-- … and for variable resolution -/
example : ∃ g g' A A', VRHistory demoEnv 64 16 false demoFields .plain false g A ∧ VRHistory demoEnv 64 16 false demoFields .plain false g' A' ∧ A.Perm A' ∧
    (g.gridWith demoEnv { alg := .shoalest, res := some 1 } none).err = none ∧ (g'.gridWith demoEnv { alg := .shoalest, res := some 1 } (some 2)).err = none := by
  refine ⟨(((newVR 64 16 false).addPoints ⟨demoFields, [⟨10, 10, 5, 1, 1⟩]⟩ "a" {}).st.addPoints ⟨demoFields, [⟨101, 10, 45, 1, 1⟩]⟩ "b" {}).st,
    (((newVR 64 16 false).addPoints ⟨demoFields, [⟨101, 10, 45, 1, 1⟩]⟩ "b" {}).st.addPoints ⟨demoFields, [⟨10, 10, 5, 1, 1⟩]⟩ "a" {}).st, _, _, ((GridHistory.new .plain).add _ "a" {} (by decide +kernel)).add _ "b" {} (by decide +kernel),
    ((GridHistory.new .plain).add _ "b" {} (by decide +kernel)).add _ "a" {} (by decide +kernel), List.Perm.swap _ _ _, by decide +kernel, by decide +kernel⟩

end Bathy
