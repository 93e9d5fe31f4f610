import Verif.Props.BagMinMax
import Verif.Props.Cube
import Verif.Lemmas.StatsLattice

/-!
# C86 for CUBE

The uncertainties come from the CUBE package too.  A BAG tells them from no data by the elevation, so the package has to answer with an uncertainty wherever it answers
with a depth; then the attributes are right.
-/

namespace Bathy

/-- what is assumed of the CUBE package: where it gives a depth it gives an uncertainty -/
def CubeTogether (env : Env) : Prop := ∀ args i j v, (env.cube args).depth.get? i j = some (some v) → ∃ u, (env.cube args).unc.get? i j = some (some u)

/-- a shown array has a number exactly where the answer has a depth, if its source has one there -/
theorem shows_number {n : Nat} {d src : LayerArr} {rnd : ℚ → ℚ} {a : LayerArr} (h : ShowsAnswer n d src rnd none a) (hd : d.WF) (hr : d.rows = n) (hc : d.cols = n)
    (hsrc : ∀ i j v, d.get? i j = some (some v) → ∃ u, src.get? i j = some (some u)) {i j : Nat} :
    (∃ v, a.get? i j = some (some v)) ↔ i < n ∧ ∃ v, d.get? (n - 1 - i) j = some (some v) := by
  obtain ⟨-, h1, h2, h3⟩ := h
  constructor
  · rintro ⟨v, hv⟩
    have hij : i < a.rows ∧ j < a.cols := by
      by_contra hn; rw [Arr2.get?_none_of_not_lt a hn] at hv; cases hv
    have hi : i < n := by omega
    have hj : j < n := by omega
    refine ⟨hi, ?_⟩
    obtain ⟨w, hw⟩ := Arr2.get?_isSome d hd (show n - 1 - i < d.rows by omega) (show j < d.cols by omega)
    cases w with
    | some w => exact ⟨w, hw⟩
    | none =>
      rw [(h3 i (n - 1 - i) j (by omega) hj).1 hw] at hv
      cases hv
  · rintro ⟨hi, v, hv⟩
    have hij : n - 1 - i < d.rows ∧ j < d.cols := by
      by_contra hn; rw [Arr2.get?_none_of_not_lt d hn] at hv; cases hv
    obtain ⟨u, hu⟩ := hsrc _ _ _ hv
    exact ⟨rnd u, (h3 i (n - 1 - i) j (by omega) (by omega)).2 v (some u) hv hu⟩

variable {size sub : ℚ} {fl : Fields} {env : Env} {F : Family} {s : Bool} {A : Store} {zUp : Bool} {a : GridCall} {dask : Option Nat}

/-- a tile just gridded by CUBE has depths and uncertainties in the same cells -/
theorem cube_leaf (hcs : CubeShapes env) (htog : CubeTogether env) {w : ℚ} (hw : 0 < w) {t' : Tile} {r : ℚ} (h : LeafRun env fl F w false a t' r) (ha : a.alg = .cube)
    (hF : .cube = F ∨ a.clear = true) : ∃ d u, t'.layerAt r .depth = some d ∧ t'.layerAt r .totalUnc = some u ∧
      ∀ i j, (∃ v, u.get? i j = some (some v)) ↔ ∃ v, d.get? i j = some (some v) := by
  obtain ⟨t, B, c, h1, -, -, -, h5, -, h7⟩ := leafRun_call h hF
  rw [ha] at h7
  have hok : (t.grid env .cube (some r) c.clear c.mode a.params c.border).1.err = none := by rw [h7]; rfl
  obtain ⟨-, -, -, args, hin, hl⟩ := C70_cube_tile hcs hw h1 (h5.imp Eq.symm id) hok
  rw [h7] at hl
  obtain ⟨d, d1, d2⟩ := hl .depth _ _ _ (List.mem_cons_self)
  obtain ⟨u, u1, u2⟩ := hl .totalUnc _ _ _ (List.mem_cons_of_mem _ List.mem_cons_self)
  obtain ⟨s1, s2, s3⟩ := hcs args _ List.mem_cons_self
  have hwf : (env.cube args).depth.WF := by unfold Arr2.WF; rw [s1, s2, s3]
  refine ⟨d, u, d1, u1, fun i j => ?_⟩
  rw [shows_number d2 hwf (s2.trans hin.rows) (s3.trans hin.cols) (fun i j v hv => ⟨v, hv⟩), shows_number u2 hwf (s2.trans hin.rows) (s3.trans hin.cols) (htog args)]

/-- the same for the cells of the grid -/
theorem cube_unc {τ : Type} [HasLeaves τ] {g : Grid τ} {r : ℚ}
    (hall : ∀ t, HasLeaves.leaf g t → t.cells.get? r = none ∨ ∃ d u, t.layerAt r .depth = some d ∧ t.layerAt r .totalUnc = some u ∧
      ∀ i j, (∃ v, u.get? i j = some (some v)) ↔ ∃ v, d.get? i j = some (some v)) (l : Layer) (hl : uncLayer .cube fl = some l) (x y : ℚ) :
    Numbered g l r x y ↔ Numbered g .depth r x y := by
  cases hl
  constructor
  · rintro ⟨z, t, ls, b, i, j, ht, h2, h3, h4, h5⟩
    rcases hall t ht with hn | ⟨d, u, hd, hu, hsame⟩
    · rw [hn] at h2; cases h2
    · unfold Tile.layerAt at hd hu
      rw [h2, Option.bind_some] at hd hu
      rw [hu] at h3; cases h3
      obtain ⟨v, hv⟩ := (hsame i j).1 ⟨z, h4⟩
      exact ⟨v, t, ls, d, i, j, ht, h2, hd, hv, h5⟩
  · rintro ⟨z, t, ls, b, i, j, ht, h2, h3, h4, h5⟩
    rcases hall t ht with hn | ⟨d, u, hd, hu, hsame⟩
    · rw [hn] at h2; cases h2
    · unfold Tile.layerAt at hd hu
      rw [h2, Option.bind_some] at hd hu
      rw [hd] at h3; cases h3
      obtain ⟨v, hv⟩ := (hsame i j).2 ⟨z, h4⟩
      exact ⟨v, t, ls, u, i, j, ht, h2, hu, hv, h5⟩

/-- **C86** right after gridding a single resolution grid by CUBE, if the package gives an uncertainty with every depth and no stored depth has the elevation 1000000 -/
theorem C86_cube_sr_partial (hcs : CubeShapes env) (htog : CubeTogether env) (hs : 0 < size) {g : Grid Tile} (h : SRHistory env size false fl F s g A) (ha : a.alg = .cube)
    (hF : .cube = F ∨ a.clear = true) (hv : a.regrid = .full ∨ a.clear = true) (hok : (g.gridWith env a dask).err = none) {r : ℚ} (hr : a.res = some r) {m : Nat}
    (hm : size = (m : ℚ) * r) {res : Option ℚ} (hres : res = none ∨ res = some r) (override : Option ℚ)
    (hno : ∀ x y z, StoredCell (g.gridWith env a dask).st .depth r x y z → ¬ NamedValue (g.gridWith env a dask).st "Elevation" z 1000000)
    {f : RasterFile} (hf : f ∈ ((g.gridWith env a dask).st.exportRaster env .bag zUp res override).2.1) (attrs : Dict String (Option ℚ)) :
    ExtremesRight (g.gridWith env a dask).st (some .totalUnc) f attrs (correctMinMax 1000000 f attrs) := by
  have haf : a.alg.family = some .cube := by rw [ha]; rfl
  obtain ⟨per, hp, -, -, hex, hR⟩ := C76_rasters_sr_partial (kind := .bag) (zUp := zUp) hs h (crs_of_file hf) haf hF hv hok (fun _ => rfl) hr hm hres override
  have hsh := export_shape env (g.gridWith env a dask).st .bag zUp res override f hf
  rw [hex] at hf
  obtain ⟨p, hpm, hfp⟩ := List.mem_flatMap.1 hf
  have hRp := hR p hpm
  rw [hp p hpm] at hRp
  refine extremes_right hRp (bag_bands .cube fl zUp) (cube_unc (fl := fl) (fun t ht => Or.inr ?_)) hno hfp hsh attrs
  obtain ⟨r', -, hl⟩ := (Grid.leaves_sr hs h hv hok).1 t ht
  obtain ⟨-, -, -, -, -, -, h4, -⟩ := leafRun_call hl hF
  have := h4 r hr
  subst this
  exact cube_leaf hcs htog hs hl ha hF

/-- **C86** for variable resolution grids gridded by CUBE anew -/
theorem C86_cube_vr_partial (hcs : CubeShapes env) (htog : CubeTogether env) (hs : 0 < size) (hpow : isPowerOfTwo sub = true) {q : Nat} (hdiv : size = (q : ℚ) * sub)
    {g : Grid (Grid Tile)} (h : VRHistory env size sub false fl F s g A) (ha : a.alg = .cube) (hc : a.clear = true)
    (hok : (g.gridWith env a dask).err = none) {res : Option ℚ} {rs : List ℚ} (hrs : (res = none ∧ rs = (g.gridWith env a dask).st.resolutions) ∨ ∃ r, res = some r ∧ rs = [r])
    (hm : ∀ r ∈ rs, ∃ m : Nat, sub = (m : ℚ) * r) (override : Option ℚ)
    (hno : ∀ r ∈ rs, ∀ x y z, StoredCell (g.gridWith env a dask).st .depth r x y z → ¬ NamedValue (g.gridWith env a dask).st "Elevation" z 1000000)
    {f : RasterFile} (hf : f ∈ ((g.gridWith env a dask).st.exportRaster env .bag zUp res override).2.1) (attrs : Dict String (Option ℚ)) :
    ExtremesRight (g.gridWith env a dask).st (some .totalUnc) f attrs (correctMinMax 1000000 f attrs) := by
  have haf : a.alg.family = some .cube := by rw [ha]; rfl
  obtain ⟨per, hp, hex, hR⟩ := C76_rasters_vr_partial (kind := .bag) (zUp := zUp) hs hpow hdiv h (crs_of_file hf) haf (Or.inr hc) (Or.inr hc) hok hrs hm override
  have hsh := export_shape env (g.gridWith env a dask).st .bag zUp res override f hf
  rw [hex] at hf
  obtain ⟨p, hpm, hfp⟩ := List.mem_flatMap.1 hf
  have hpr : p.1 ∈ rs := hp ▸ List.mem_map.2 ⟨p, hpm, rfl⟩
  refine extremes_right (hR p hpm) (bag_bands .cube fl zUp) (cube_unc (fl := fl) (fun t ht => ?_)) (hno p.1 hpr) hfp hsh attrs
  obtain ⟨r', -, hl⟩ := (Grid.leaves_vr hs hpow h (Or.inr hc) hok).1 t ht
  by_cases he : p.1 = r'
  · right; rw [he]
    exact cube_leaf hcs htog (isPowerOfTwo_pos hpow) hl ha (Or.inr hc)
  · left
    obtain ⟨ls, n, hcells, -⟩ := (leafRun_cleared (isPowerOfTwo_pos hpow) hl haf hc).2.layers
    rw [hcells]
    simp [Dict.get?, Ne.symm he]

theorem demoTogether : CubeTogether demoEnv := fun _ _ _ v hv => ⟨v, hv⟩

/-- the hypotheses are met by a grid of four cells, and the attributes of its file -/
example : CubeShapes demoEnv ∧ CubeTogether demoEnv ∧ SRHistory demoEnv 16 false demoFields .plain false demoSR demoStore ∧
    (demoSR.gridWith demoEnv { alg := .cube, res := some 8, clear := true } none).err = none ∧
    (∀ x y z, StoredCell (demoSR.gridWith demoEnv { alg := .cube, res := some 8, clear := true } none).st .depth 8 x y z →
      ¬ NamedValue (demoSR.gridWith demoEnv { alg := .cube, res := some 8, clear := true } none).st "Elevation" z 1000000) := by
  refine ⟨demoShapes, demoTogether, demoSR_history, by decide +kernel, fun x y z hz hN => ?_⟩
  have hz := stored_flat (P := fun z => decide (z ≠ 1000000) && decide (z ≠ -1000000)) (by decide +kernel) hz
  simp only [Bool.and_eq_true, decide_eq_true_eq] at hz
  by_cases hu : StoredUp (demoSR.gridWith demoEnv { alg := .cube, res := some 8, clear := true } none).st
  · exact hz.1 ((hN.1 rfl).1 hu).symm
  · exact hz.2 (by linarith [(hN.1 rfl).2 hu])

end Bathy
