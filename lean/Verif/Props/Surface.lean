import Verif.Lemmas.Surface
import Verif.Props.LayersGridded
import Verif.Props.Stats
import Verif.Props.Histogram

/-!
# C100: from soundings to a surface
-/

namespace Bathy

variable {env : Env} {size sub : ℚ} {bs : Bool} {fl : Fields} {F : Family} {s : Bool} {A : Store} {a : GridCall} {dask : Option Nat}

theorem cellRule_main (alg : Alg) (bs : Bool) : CellRule alg (mainLayer bs) = PlainCell alg := by
  cases bs <;> rfl

theorem ruled_cases {alg : Alg} {nodata : Option ℚ} {l : Layer} (h : Ruled alg bs fl nodata l) :
    (l = mainLayer bs ∧ CellRule alg l = PlainCell alg) ∨ (l = .density ∧ nodata = none) ∨ (alg = .mean ∧ ∃ f, CellRule alg l = MeanCell round3 f ∧
      ((l = .vertical ∧ fl.hasTvu = true ∧ f = Pt.tvu) ∨ (l = .horizontal ∧ fl.hasThu = true ∧ f = Pt.thu))) := by
  rcases h with h | h | ⟨h1, ⟨h2, h3⟩ | ⟨h2, h3⟩⟩
  · have h : l = mainLayer bs := h
    exact Or.inl ⟨h, by rw [h, cellRule_main]⟩
  · exact Or.inr (Or.inl h)
  · exact Or.inr (Or.inr ⟨h1, _, by rw [h2]; rfl, Or.inl ⟨h2, h3, rfl⟩⟩)
  · exact Or.inr (Or.inr ⟨h1, _, by rw [h2]; rfl, Or.inr ⟨h2, h3, rfl⟩⟩)

theorem rule_perm {alg : Alg} {nodata : Option ℚ} {l : Layer} (h : Ruled alg bs fl nodata l) (ps ps' : List Pt) (v : Option ℚ) (hp : ps.Perm ps') (hr : CellRule alg l ps v) :
    CellRule alg l ps' v := by
  rcases ruled_cases h with ⟨-, h2⟩ | ⟨rfl, -⟩ | ⟨-, f, h2, -⟩
  · rw [h2] at hr ⊢; exact plainCell_perm hp hr
  · show v = _
    rw [← hp.length_eq]; exact hr
  · rw [h2] at hr ⊢; exact meanCell_perm hp hr

theorem rule_none {alg : Alg} {nodata : Option ℚ} {l : Layer} (h : Ruled alg bs fl nodata l) (ps : List Pt) (hr : CellRule alg l ps none) : ps = [] := by
  rcases ruled_cases h with ⟨-, h2⟩ | ⟨rfl, -⟩ | ⟨-, f, h2, -⟩
  · rw [h2] at hr; exact (plainCell_none hr).1 rfl
  · have hr : (none : Option ℚ) = some _ := hr
    cases hr
  · rw [h2] at hr
    by_contra hne
    have := hr.2 hne
    cases this

theorem rule_fill {alg : Alg} {nodata : Option ℚ} {l : Layer} (h : Ruled alg bs fl nodata l) (flip : Bool) : ∃ v, CellRule alg l [] v ∧ shownCell l nodata flip v = fillValue l nodata := by
  rcases ruled_cases h with ⟨h1, h2⟩ | ⟨rfl, rfl⟩ | ⟨-, f, h2, h3⟩
  · refine ⟨none, ?_, ?_⟩
    · rw [h2]
      cases alg <;> exact ⟨fun _ => rfl, fun h => absurd rfl h⟩
    · rw [h1]; cases bs <;> rfl
  · exact ⟨some 0, rfl, by simp [shownCell, shownValue, fillValue]⟩
  · refine ⟨none, ?_, ?_⟩
    · rw [h2]; exact ⟨fun _ => rfl, fun h => absurd rfl h⟩
    · rcases h3 with ⟨rfl, -⟩ | ⟨rfl, -⟩ <;> rfl

theorem rule_written {alg : Alg} {nodata : Option ℚ} {l : Layer} (h : Ruled alg bs fl nodata l) : l ∈ writtenLayers .plain bs fl := by
  unfold writtenLayers
  rcases h with rfl | ⟨rfl, -⟩ | ⟨-, ⟨rfl, h⟩ | ⟨rfl, h⟩⟩
  · simp
  · simp
  · simp [h]
  · simp [h]

theorem ceil_cells {w r : ℚ} {n : Nat} (hr : 0 < r) (hn : w = n * r) : ⌈w / r⌉.toNat = n := by
  rw [hn, mul_div_cancel_right₀ _ hr.ne', Int.ceil_natCast]
  rfl

/-- a gridded tile follows the rules -/
theorem leaf_rule {w r : ℚ} {n : Nat} {t : Tile} (hw : 0 < w) (hr : 0 < r) (hn : w = n * r) {r' : ℚ} (h : LeafRun env fl F w bs a t r') (ha : a.alg = .mean ∨ a.alg = .shoalest)
    (hF : F = .plain ∨ a.clear = true) (hres : a.res = some r) {nodata : Option ℚ} {l : Layer} (hl : Ruled a.alg bs fl nodata l) :
    ∃ d, t.layerAt r l = some d ∧ EachCell d n t.minX t.minY r t.pts (CellRule a.alg l) := by
  have hfam : a.alg.family = some .plain := by rcases ha with e | e <;> rw [e] <;> rfl
  have hd := leafRun_density hw h hfam (hF.imp Eq.symm id)
  have hr' : r' = r := hd.1 r hres
  subst hr'
  rcases ruled_cases hl with ⟨rfl, h2⟩ | ⟨rfl, -⟩ | ⟨hm, f, h2, h3⟩
  · rw [h2]
    rcases ha with e | e
    · obtain ⟨d, h3, h4⟩ := (leafRun_mean hw h e hF).2.depth
      rw [ceil_cells hr hn] at h4
      rw [e]
      exact ⟨d, h3, h4⟩
    · obtain ⟨d, h3, h4⟩ := (leafRun_shoal hw h e hF).2
      rw [ceil_cells hr hn] at h4
      rw [e]
      exact ⟨d, h3, h4⟩
  · obtain ⟨d, h3, h4, -⟩ := hd.2
    rw [ceil_cells hr hn] at h4
    exact ⟨d, h3, h4⟩
  · rw [h2]
    have hmt := (leafRun_mean hw h hm hF).2
    rcases h3 with ⟨rfl, h4, rfl⟩ | ⟨rfl, h4, rfl⟩
    · obtain ⟨d, h3, h4⟩ := hmt.vertical h4
      rw [ceil_cells hr hn] at h4
      exact ⟨d, h3, h4⟩
    · obtain ⟨d, h3, h4⟩ := hmt.horizontal h4
      rw [ceil_cells hr hn] at h4
      exact ⟨d, h3, h4⟩

theorem allPts_ne {A : Store} (hA : A ≠ []) (hne : ∀ q ∈ A, q.2 ≠ []) : A.allPts ≠ [] := by
  obtain ⟨q, hq⟩ := List.exists_mem_of_ne_nil _ hA
  obtain ⟨p, hp⟩ := List.exists_mem_of_ne_nil _ (hne q hq)
  exact List.ne_nil_of_mem (List.mem_flatMap.2 ⟨q, hq, hp⟩)

/-- **C100** (single resolution): after any sequence of calls, a `grid` call of all tiles with 'mean' or 'shoalest' at a resolution that divides the tile
size makes `get_layers_by_name` return a surface of all soundings added and not removed: an array over the extents, with the mean (least) depth, the
number, or the mean uncertainty, of just those soundings that are in the square of each cell, and every sounding in one of the squares. -/
theorem C100_surface_sr (hs : 0 < size) {g : Grid Tile} (h : SRHistory env size bs fl F s g A) (ha : a.alg = .mean ∨ a.alg = .shoalest) (hF : F = .plain ∨ a.clear = true)
    (hv : a.regrid = .full ∨ a.clear = true) {r : ℚ} (hr : a.res = some r) {n : Nat} (hn : size = n * r) (hok : (g.gridWith env a dask).err = none)
    {nodata : Option ℚ} {zUp flip : Bool} {l : Layer} (hl : Ruled a.alg bs fl nodata l) (hflip : flip = true ↔ (zUp = true ↔ ¬ StoredUp (g.gridWith env a dask).st)) :
    ∃ e arr, (g.gridWith env a dask).st.extents = some e ∧
      (g.gridWith env a dask).st.getLayersByName env [l] (some r) nodata zUp = ((g.gridWith env a dask).st, .ok (some [arr])) ∧
      SurfaceOf (CellRule a.alg l) (shownCell l nodata flip) A.allPts r e arr := by
  have hrp := pos_of_mul hs hn
  have hfam : a.alg.family = some .plain := by rcases ha with e | e <;> rw [e] <;> rfl
  have h1 : SRHistory env size bs fl .plain s (g.gridWith env a dask).st A := history_after h hfam (hF.imp Eq.symm id) hok
  have hA := store_ne (sr_inv hs h).1 hok
  have hruns := fun u hu => (Grid.leaves_sr hs h hv hok).1 u hu
  obtain ⟨o, ho, -⟩ := C64_retrievable_sr_partial (layers := [l]) hs h hfam (hF.imp Eq.symm id) hv hok (by simpa using rule_written hl) hrp hn nodata zUp
  have hm := C34_mosaic_sr hs h1 (writtenLayers_core (rule_written hl)) hrp (Prod.ext_iff.2 ⟨rfl, ho⟩)
  have hP := allPts_ne hA (sr_inv hs h).1.ne
  generalize (g.gridWith env a dask).st = g1 at *
  obtain ⟨e, arr, he, h2, h3, h4⟩ := surface_mosaic (lattice_sr hs h1 hrp hn) (fun t => ⟨leaf_of_mem_sr (sr_wf hs h1), fun ht => by
      obtain ⟨i, j, u, hu, rfl⟩ := ht
      rw [leaves_tiles]
      exact (Grid.mem_present (sr_wf hs h1)).2 ⟨i, j, hu⟩⟩)
    (fun t ht => by
      obtain ⟨i, j, u, hu, rfl⟩ := ht
      obtain ⟨e, he, hx, -, hy, -⟩ := C02_tile_contains_sr hs h1 hu
      exact ⟨e, j * n, i * n, he, by rw [hx, hn]; push_cast; ring, by rw [hy, hn]; push_cast; ring⟩)
    (fun t ht => by
      obtain ⟨r', -, hr'⟩ := hruns t ht
      exact leaf_rule hs hrp hn hr' ha hF hr hl)
    (rule_perm hl) (rule_none hl) (rule_fill hl flip) hP hflip hm
  subst h3
  exact ⟨e, arr, he, Prod.ext_iff.2 ⟨h2, ho⟩, h4⟩

/-- **C100** (variable resolution): the resolution divides the subtile size, which divides the tile size; the layers are those of the subgrids (C63) -/
theorem C100_surface_vr (hs : 0 < size) (hsub : isPowerOfTwo sub = true) {q : Nat} (hdiv : size = (q : ℚ) * sub) {g : Grid (Grid Tile)} (h : VRHistory env size sub bs fl F s g A)
    (ha : a.alg = .mean ∨ a.alg = .shoalest) (hF : F = .plain ∨ a.clear = true) (hv : a.regrid = .full ∨ a.clear = true) {r : ℚ} (hr : a.res = some r) {n : Nat} (hn : sub = n * r)
    (hok : (g.gridWith env a dask).err = none) {nodata : Option ℚ} {zUp flip : Bool} {l : Layer} (hl : Ruled a.alg false fl nodata l)
    (hflip : flip = true ↔ (zUp = true ↔ ¬ StoredUp (g.gridWith env a dask).st)) :
    ∃ e arr, (g.gridWith env a dask).st.extents = some e ∧
      (g.gridWith env a dask).st.getLayersByName env [l] (some r) nodata zUp = ((g.gridWith env a dask).st, .ok (some [arr])) ∧
      SurfaceOf (CellRule a.alg l) (shownCell l nodata flip) A.allPts r e arr := by
  have hsp := isPowerOfTwo_pos hsub
  have hrp := pos_of_mul hsp hn
  have hfam : a.alg.family = some .plain := by rcases ha with e | e <;> rw [e] <;> rfl
  have h1 : VRHistory env size sub bs fl .plain s (g.gridWith env a dask).st A := history_after h hfam (hF.imp Eq.symm id) hok
  have hA := store_ne (vr_inv hs hsub h).1 hok
  have hruns := fun u hu => (Grid.leaves_vr hs hsub h hv hok).1 u hu
  obtain ⟨o, ho, -⟩ := C64_retrievable_vr_partial (layers := [l]) hs hsub hdiv h hfam (hF.imp Eq.symm id) hv hok (by simpa using rule_written hl) hrp hn nodata zUp
  have hm := C34_mosaic_vr hs hsub hdiv h1 (writtenLayers_core (rule_written hl)) hrp (Prod.ext_iff.2 ⟨rfl, ho⟩)
  have hP := allPts_ne hA (vr_inv hs hsub h).1.ne
  generalize (g.gridWith env a dask).st = g1 at *
  obtain ⟨k1, k2⟩ := vr_wf hs hsub h1
  obtain ⟨e, arr, he, h2, h3, h4⟩ := surface_mosaic (lattice_vr hs hsub h1 hrp hn hdiv) (fun t => ⟨leaf_of_mem_vr k1 k2, fun ht => by
      obtain ⟨i, j, u, hu, i', j', t', ht', rfl⟩ := ht
      refine mem_leaves_sub ((Grid.mem_present k1).2 ⟨i, j, hu⟩) ?_
      rw [leaves_tiles]
      exact (Grid.mem_present (k2 i j u hu)).2 ⟨i', j', ht'⟩⟩)
    (fun t ht => by
      obtain ⟨i, j, u, hu, i', j', t', ht', rfl⟩ := ht
      obtain ⟨e, x, y, he, hx, hy, -, hall⟩ := C02_tile_contains_vr hs hsub h1 hu
      obtain ⟨hx', -, hy', -⟩ := hall i' j' t ht'
      exact ⟨e, j * q * n + j' * n, i * q * n + i' * n, he, by rw [hx', hx, hdiv, hn]; push_cast; ring, by rw [hy', hy, hdiv, hn]; push_cast; ring⟩)
    (fun t ht => by
      obtain ⟨r', -, hr'⟩ := hruns t ht
      exact leaf_rule hsp hrp hn hr' ha hF hr hl)
    (rule_perm hl) (rule_none hl) (rule_fill hl flip) hP hflip hm
  subst h3
  exact ⟨e, arr, he, Prod.ext_iff.2 ⟨h2, ho⟩, h4⟩

/-- the demo grid (two containers left of three, one removed) gridded by the mean at 8: the surface of the soundings left -/
example : ∃ e arr, demoSRg.extents = some e ∧ demoSRg.getLayersByName demoEnv [.depth] (some 8) none false = (demoSRg, .ok (some [arr])) ∧
    SurfaceOf (MeanCell round3 Pt.z) (shownCell .depth none false) demoStore.allPts 8 e arr := by
  refine C100_surface_sr (n := 2) (dask := none) (by norm_num) demoSR_history (.inl rfl) (.inl rfl) (.inl rfl) (a := { alg := .mean, res := some 8 }) rfl (by norm_num)
    (by decide +kernel) (.inl rfl) ?_
  have h : (demoSR.gridWith demoEnv { alg := .mean, res := some 8 } none).st.info.vref = none := by decide +kernel
  exact ⟨fun h => (nomatch h), fun k => (nomatch k.2 (fun ⟨s, hs, _⟩ => nomatch h.symm.trans hs))⟩

/-- the same with variable resolution and the counts -/
example : ∃ e arr, demoVRg.extents = some e ∧ demoVRg.getLayersByName demoEnv [.density] (some 8) none false = (demoVRg, .ok (some [arr])) ∧
    SurfaceOf CountCell (shownCell .density none false) demoStore.allPts 8 e arr := by
  refine C100_surface_vr (n := 2) (q := 2) (dask := none) (by norm_num) (by decide +kernel) (by norm_num) demoVR_history (.inl rfl) (.inl rfl) (.inl rfl)
    (a := { alg := .mean, res := some 8 }) rfl (by norm_num) (by decide +kernel) (.inr (.inl ⟨rfl, rfl⟩)) ?_
  have h : (demoVR.gridWith demoEnv { alg := .mean, res := some 8 } none).st.info.vref = none := by decide +kernel
  exact ⟨fun h => (nomatch h), fun k => (nomatch k.2 (fun ⟨s, hs, _⟩ => nomatch h.symm.trans hs))⟩

end Bathy
