import Verif.Model.Create
import Verif.Lemmas.EndToEnd
import Verif.Lemmas.Log
import Verif.Props.Classes
import Verif.Props.Surface

/-!
# C101: whole sessions
-/

namespace Bathy

variable {env : Env} {size sub : ℚ} {bs : Bool} {fl : Fields} {a : GridCall}

theorem create_single {backend : String} (hb : backend = "numpy" ∨ backend = "zarr") (hs : isPowerOfTwo size = true) :
    create "single_resolution" backend size sub bs = .ok (.single ((newSR size bs).rename (if backend = "numpy" then "SRGrid_Root" else "SRGridZarr_Root"))) := by
  unfold create createClass
  rcases hb with rfl | rfl <;> simp [hs, construct, Grid.newSR, Except.map, newSR, Grid.rename, Grid.blank]

theorem create_variable {backend : String} (hb : backend = "numpy" ∨ backend = "zarr") (hs : isPowerOfTwo size = true) (hsub : isPowerOfTwo sub = true) :
    create "variable_resolution_tile" backend size sub bs = .ok (.variable ((newVR size sub bs).rename (if backend = "numpy" then "VRGridTile_Root" else "VRGridTileZarr_Root"))) := by
  unfold create createClass
  rcases hb with rfl | rfl <;> simp [hs, hsub, construct, Grid.newVR, Except.map, newVR, Grid.rename, Grid.blank]

theorem deliver_rename {τ : Type} [GridLike τ] (n : String) (g : Grid τ) (cs : List Delivery) : deliver fl (g.rename n) cs = (deliver fl g cs).onSt (Grid.rename n) :=
  Res.onSt_forEach (Grid.rename n) (fun g _ => Grid.addPoints_rename n g _ _ _) cs g

theorem deliver_res {τ : Type} {x : Res (Grid τ)} {f : Grid τ → Grid τ} {u : Grid τ} (h : x.err = none) (hu : f x.st = u) : x.onSt f = .ok u := by
  subst hu
  unfold Res.onSt Res.ok
  rw [h]

theorem rename_self {τ : Type} (g : Grid τ) : g.rename g.name = g := rfl

theorem goodMeta_new (n : Int) (v : Option String) : GoodMeta n v {} := ⟨Or.inl rfl, Or.inl rfl, Or.inl rfl, Or.inl rfl⟩

theorem storedUp_iff {τ : Type} {g : Grid τ} {v : Option String} (h : g.info.vref = v) : StoredUp g ↔ UpRef v := by
  unfold StoredUp UpRef
  rw [h]

/-- **C101** (single resolution): a grid from `create_grid`, the deliveries of a survey, `grid` by mean or shoalest at an accepted resolution that divides the tile
size, then `get_layers_by_name`: none of the calls raises, and what comes out is the surface of the soundings of all deliveries. -/
theorem C101_single {backend : String} (hb : backend = "numpy" ∨ backend = "zarr") (hsize : isPowerOfTwo size = true) {n : Int} {v : Option String} {cs : List Delivery}
    (hcs : Survey n v cs) (hne : cs ≠ []) (ha : a.alg = .mean ∨ a.alg = .shoalest) (hv : a.regrid = .full ∨ a.clear = true) {r : ℚ} (hr : a.res = some r)
    (hpow : isPowerOfTwo r = true) {k : Nat} (hk : size = k * r) (dask : Option Nat) {nodata : Option ℚ} {l : Layer} (hl : Ruled a.alg bs fl nodata l) {zUp flip : Bool}
    (hflip : flip = true ↔ (zUp = true ↔ ¬ UpRef v)) :
    ∃ g0 g1 g2 e arr, create "single_resolution" backend size sub bs = .ok (.single g0) ∧ deliver fl g0 cs = .ok g1 ∧ g1.gridWith env a dask = .ok g2 ∧ g2.extents = some e ∧
      g2.getLayersByName env [l] (some r) nodata zUp = (g2, .ok (some [arr])) ∧
      SurfaceOf (CellRule a.alg l) (shownCell l nodata flip) (cs.flatMap Delivery.pts) r e arr := by
  have hs := isPowerOfTwo_pos hsize
  obtain ⟨g1, s, h1, h2, h3, h4, h5⟩ := deliver_ok (env := env) (F := .plain) (tileSpec env .plain size 0 bs fl hs) hs cs hcs (Grid.growInv_blank _ "SRGrid_Root") (GridHistory.new (g0 := newSR size bs) .plain)
    (goodMeta_new n v) (by intro c _ h; cases h)
  rw [List.nil_append] at h2 h3
  have hA : storeOf cs ≠ [] := by cases cs with | nil => exact absurd rfl hne | cons c cs => simp [storeOf]
  have hok := C17_grid_returns_sr hs h3 hA ha (.inl rfl) hr hpow (.inl h4) dask
  have hvr : (g1.gridWith env a dask).st.info.vref = v := by rw [Grid.gridWith_info]; exact h5 hne
  obtain ⟨e, arr, k1, k2, k3⟩ := C100_surface_sr hs h3 ha (.inl rfl) hv hr hk hok hl (by rw [storedUp_iff hvr]; exact hflip)
  rw [storeOf_allPts] at k3
  generalize hm : (if backend = "numpy" then "SRGrid_Root" else "SRGridZarr_Root" : String) = m
  have hg : (g1.rename m).gridWith env a dask = (g1.gridWith env a dask).onSt (Grid.rename m) := by
    rcases hb with rfl | rfl
    · subst hm
      have e1 : g1.name = "SRGrid_Root" := Grid.history_name h3
      have e2 : (g1.gridWith env a dask).st.name = "SRGrid_Root" := Grid.history_name (h3.grid a (by rcases ha with e | e <;> rw [e] <;> rfl) dask)
      rw [if_pos rfl, ← e1, rename_self, e1, ← e2]
      rfl
    · subst hm
      exact C99_grid_sr (Grid.history_name h3) a dask
  refine ⟨(newSR size bs).rename m, g1.rename m, (g1.gridWith env a dask).st.rename m, e, arr, ?_, ?_, ?_, k1, ?_, k3⟩
  · rw [create_single hb hsize, hm]
  · rw [deliver_rename, show newSR size bs = Grid.blank "SRGrid_Root" true 0 0 size 0 bs none from rfl, h1]; rfl
  · rw [hg]
    exact deliver_res hok rfl
  · rw [Grid.getLayersByName_rename, k2]

/-- **C101** (variable resolution, partial: the size of the subtiles divides that of the tiles, otherwise see `C101_violated`) -/
theorem C101_variable_partial {backend : String} (hb : backend = "numpy" ∨ backend = "zarr") (hsize : isPowerOfTwo size = true) (hsub : isPowerOfTwo sub = true) {q : Nat} (hq : size = (q : ℚ) * sub)
    {n : Int} {v : Option String} {cs : List Delivery}
    (hcs : Survey n v cs) (hne : cs ≠ []) (ha : a.alg = .mean ∨ a.alg = .shoalest) (hv : a.regrid = .full ∨ a.clear = true) {r : ℚ} (hr : a.res = some r)
    (hpow : isPowerOfTwo r = true) {k : Nat} (hk : sub = k * r) (dask : Option Nat) {nodata : Option ℚ} {l : Layer} (hl : Ruled a.alg false fl nodata l) {zUp flip : Bool}
    (hflip : flip = true ↔ (zUp = true ↔ ¬ UpRef v)) :
    ∃ g0 g1 g2 e arr, create "variable_resolution_tile" backend size sub bs = .ok (.variable g0) ∧ deliver fl g0 cs = .ok g1 ∧ g1.gridWith env a dask = .ok g2 ∧ g2.extents = some e ∧
      g2.getLayersByName env [l] (some r) nodata zUp = (g2, .ok (some [arr])) ∧
      SurfaceOf (CellRule a.alg l) (shownCell l nodata flip) (cs.flatMap Delivery.pts) r e arr := by
  have hs := isPowerOfTwo_pos hsize
  obtain ⟨g1, s, h1, h2, h3, h4, h5⟩ := deliver_ok (env := env) (F := .plain) (freshSpec (subSpec (size := size) (bs := bs) (tileSpec env .plain sub 0 false fl (isPowerOfTwo_pos hsub)) hs hsub)) hs cs hcs
    (Grid.growInv_blank _ "VRGridTile_Root") (GridHistory.new (g0 := newVR size sub bs) .plain)
    (goodMeta_new n v) (by intro c _ h; cases h)
  rw [List.nil_append] at h2 h3
  have hA : storeOf cs ≠ [] := by cases cs with | nil => exact absurd rfl hne | cons c cs => simp [storeOf]
  have hals : ∀ i j u, g1.TileAt i j u → u.gridAlgorithm = none := by
    intro i j u hu
    obtain ⟨x, y, B, hB⟩ := (Grid.grow_reps h2).1 i j u hu
    exact hB.2
  have hok := C17_grid_returns_vr hs hsub h3 hA ha (.inl rfl) hr hpow (.inl h4) (fun i j u hu => .inl (hals i j u hu)) dask
  have hvr : (g1.gridWith env a dask).st.info.vref = v := by rw [Grid.gridWith_info]; exact h5 hne
  obtain ⟨e, arr, k1, k2, k3⟩ := C100_surface_vr hs hsub hq h3 ha (.inl rfl) hv hr hk hok hl (by rw [storedUp_iff hvr]; exact hflip)
  rw [storeOf_allPts] at k3
  generalize hm : (if backend = "numpy" then "VRGridTile_Root" else "VRGridTileZarr_Root" : String) = m
  have hg : (g1.rename m).gridWith env a dask = (g1.gridWith env a dask).onSt (Grid.rename m) := by
    rcases hb with rfl | rfl
    · subst hm
      have e1 : g1.name = "VRGridTile_Root" := Grid.history_name h3
      have e2 : (g1.gridWith env a dask).st.name = "VRGridTile_Root" := Grid.history_name (h3.grid a (by rcases ha with e | e <;> rw [e] <;> rfl) dask)
      rw [if_pos rfl, ← e1, rename_self, e1, ← e2]
      rfl
    · subst hm
      exact C99_grid_vr_partial hs hsub h3 (fun h => nomatch hr.symm.trans h.1) dask
  refine ⟨(newVR size sub bs).rename m, g1.rename m, (g1.gridWith env a dask).st.rename m, e, arr, ?_, ?_, ?_, k1, ?_, k3⟩
  · rw [create_variable hb hsize hsub, hm]
  · rw [deliver_rename, show newVR size sub bs = Grid.blank "VRGridTile_Root" true 0 0 size sub bs none from rfl, h1]; rfl
  · rw [hg]
    exact deliver_res hok rfl
  · rw [Grid.getLayersByName_rename, k2]

/-- **C101** (constructors): all four classes take exactly the tile sizes that `is_power_of_two` accepts, and raise ValueError for others; the size of the subtiles is
not looked at -/
theorem C101_constructors (c : GridClass) (size sub : ℚ) (bs : Bool) :
    (isPowerOfTwo size = true → ∃ g, construct c size sub bs = .ok g) ∧ (isPowerOfTwo size = false → construct c size sub bs = .error .valueError) := by
  refine ⟨fun h => ?_, fun h => ?_⟩
  · cases c <;> simp [construct, Grid.newSR, Grid.newVR, h, Except.map]
  · cases c <;> simp [construct, Grid.newSR, Grid.newVR, h, Except.map]

/-- three deliveries with times, two of them with an epsg code -/
def surveyDemo : List Delivery :=
  [⟨"a", demoA, { crs := some (.code 26919), vref := some "MLLW", minTime := some 1600000000, maxTime := some 1600000100 }⟩,
    ⟨"b", demoB, { vref := some "MLLW", minTime := some 1500000000 }⟩, ⟨"c", demoC, { crs := some (.code 26919), vref := some "MLLW", files := ["x.all"] }⟩]

theorem surveyDemo_ok : Survey 26919 (some "MLLW") surveyDemo where
  crs := by simp [surveyDemo]
  vref := by simp [surveyDemo]
  minTime := by
    intro c hc q hq
    simp only [surveyDemo, List.mem_cons, List.not_mem_nil, or_false] at hc
    rcases hc with rfl | rfl | rfl <;> cases hq <;> decide +kernel
  maxTime := by
    intro c hc q hq
    simp only [surveyDemo, List.mem_cons, List.not_mem_nil, or_false] at hc
    rcases hc with rfl | rfl | rfl <;> cases hq <;> decide +kernel
  names := by decide +kernel
  pts := by simp [surveyDemo, demoA, demoB, demoC]

theorem not_upRef : ¬ UpRef (some "MLLW") := by
  rintro ⟨s, hs, h⟩
  cases hs
  exact absurd h.length_le (by decide +kernel)

/-- a session with the zarr backend and two workers -/
example : ∃ g0 g1 g2 e arr, create "single_resolution" "zarr" 1024 128 false = .ok (.single g0) ∧ deliver demoFields g0 surveyDemo = .ok g1 ∧
    g1.gridWith demoEnv { alg := .shoalest, res := some (1 / 2) } (some 2) = .ok g2 ∧ g2.extents = some e ∧ g2.getLayersByName demoEnv [.depth] (some (1 / 2)) none true = (g2, .ok (some [arr])) ∧
    SurfaceOf (ShoalCell round3) (shownCell .depth none true) (surveyDemo.flatMap Delivery.pts) (1 / 2) e arr :=
  C101_single (a := { alg := .shoalest, res := some (1 / 2) }) (.inr rfl) (by decide +kernel) surveyDemo_ok (by simp [surveyDemo]) (.inr rfl) (.inl rfl) rfl (by decide +kernel) (k := 2048) (by norm_num) (some 2)
    (.inl rfl) (by simp [not_upRef])

/-- a session with subgrids -/
example : ∃ g0 g1 g2 e arr, create "variable_resolution_tile" "numpy" 1024 128 false = .ok (.variable g0) ∧ deliver demoFields g0 surveyDemo = .ok g1 ∧
    g1.gridWith demoEnv { alg := .mean, res := some 8 } none = .ok g2 ∧ g2.extents = some e ∧ g2.getLayersByName demoEnv [.density] (some 8) none false = (g2, .ok (some [arr])) ∧
    SurfaceOf CountCell (shownCell .density none false) (surveyDemo.flatMap Delivery.pts) 8 e arr :=
  C101_variable_partial (a := { alg := .mean, res := some 8 }) (.inl rfl) (by decide +kernel) (by decide +kernel) (q := 8) (by norm_num) surveyDemo_ok (by simp [surveyDemo]) (.inl rfl) (.inl rfl) rfl
    (by decide +kernel) (k := 16) (by norm_num) none (.inr (.inl ⟨rfl, rfl⟩)) (by simp [not_upRef])

/-- soundings in two tiles of size 32 -/
def wideSub : List Delivery := [⟨"a", [⟨5, 5, 10, 1, 1⟩, ⟨20, 20, 11, 1, 1⟩, ⟨40, 5, 12, 1, 1⟩], {}⟩]

/-- **C101** is violated by subtiles larger than tiles: `create_grid` accepts them, `add_points` and `grid` return, the layers can not be read. -/
theorem C101_violated : ∃ g0 g1 g2, create "variable_resolution_tile" "numpy" 32 64 false = .ok (.variable g0) ∧ Survey 0 none wideSub ∧ deliver demoFields g0 wideSub = .ok g1 ∧
    g1.gridWith demoEnv { alg := .mean, res := some 8 } none = .ok g2 ∧ (g2.getLayersByName demoEnv [.depth] (some 8) none false).2 = .error .valueError := by
  have h1 : (deliver demoFields (newVR 32 64 false) wideSub).err = none := by decide +kernel
  have h2 : ((deliver demoFields (newVR 32 64 false) wideSub).st.gridWith demoEnv { alg := .mean, res := some 8 } none).err = none := by decide +kernel
  have key : ∀ {σ : Type} {x : Res σ}, x.err = none → x = .ok x.st := by rintro σ ⟨a, b⟩ h; cases h; rfl
  refine ⟨_, _, _, create_variable (.inl rfl) (by decide +kernel) (by decide +kernel), ⟨by simp [wideSub], by simp [wideSub], ?_, ?_, by decide, by simp [wideSub]⟩, key h1, key h2, by decide +kernel⟩
  all_goals
    intro c hc q hq
    simp only [wideSub, List.mem_singleton] at hc
    subst hc
    cases hq

end Bathy
