import Verif.Props.AutoSurface
import Verif.Lemmas.ReadySpec

/-!
# C118 and C120 at a resolution the code chooses
-/

namespace Bathy
open Grid

variable {env : Env} {size : ℚ} {bs : Bool} {fl : Fields} {F : Family} {s : Bool} {A : Store} {a : GridCall} {dask : Option Nat}

/-- **C120** (single resolution grids, no resolution given): after any sequence of calls, `grid` without a resolution on all tiles, by mean or shoalest and in either mode, with a tile size
that is a power of two from a quarter on, makes a container asked for without a resolution the surface of the soundings added under this name, at the one resolution that is reported. -/
theorem C120_auto_surface_sr {k : Nat} (hk : size = 2 ^ k / 4) {g : Grid Tile} (h : SRHistory env size bs fl F s g A) (ha : a.alg = .mean ∨ a.alg = .shoalest)
    (hF : F = .plain ∨ a.clear = true) (hv : a.regrid = .full ∨ a.clear = true) (hr : a.res = none) (hm : a.mode ≠ .other) (hok : (g.gridWith env a dask).err = none)
    (c : String) (nodata : Option ℚ) (zUp : Bool) :
    ∃ r e o, (g.gridWith env a dask).st.resolutions = [r] ∧ (r ∈ tableResolutions ∨ r = size) ∧ r ≤ size ∧ (g.gridWith env a dask).st.extents = some e ∧
      ((g.gridWith env a dask).st.getLayersByName env [.cont c] none nodata zUp).2 = .ok o ∧ ContainerShown a.alg (A.ptsOf c) r nodata e o := by
  have hs : 0 < size := by rw [hk]; positivity
  obtain ⟨r, -, hres, hval, k2, hok', hst⟩ := auto_first hs h ha hF hv hr hm hok
  obtain ⟨n, hn⟩ := chosen_divides hk hval
  have hrp := pos_of_mul hs hn
  obtain ⟨e, o, j1, j2, j3, j4⟩ := Grid.grow_showsOf (part_ptsOf c) ((showsOf_cont ha hs hrp hn c nodata).mono (C' := curSpec env .plain size 0 bs fl hs a.alg r) (fun h => h.1)) k2 hs
    (store_ne (sr_inv hs h).1 hok)
    (fun u hu => by
      rw [hst] at hu
      obtain ⟨r', -, hr'⟩ := (Grid.leaves_sr (a := { a with res := some r }) hs h hv hok').1 u hu
      exact leafRun_cont (a := { a with res := some r }) hs hr' (plain_family ha).1 (hF.imp Eq.symm id) rfl) hrp hn (cont_fill ha c nodata) zUp
  exact ⟨r, e, _, hres, hval.1, hval.2, j1, by rw [default_res hres hrp]; exact j2, containerShown_of j3 j4⟩

/-- **C118** (single resolution grids, no resolution given) -/
theorem C118_auto_surface_sr (hls : LeastSquares env.plane) {k : Nat} (hk : size = 2 ^ k / 4) {g : Grid Tile} (h : SRHistory env size bs fl F s g A) (ha : a.alg = .mean ∨ a.alg = .shoalest)
    (hF : F = .plain ∨ a.clear = true) (hv : a.regrid = .full ∨ a.clear = true) (hr : a.res = none) (hm : a.mode ≠ .other) (hok : (g.gridWith env a dask).err = none)
    (nodata : Option ℚ) (zUp : Bool) {l : Layer} {pick : ℚ × ℚ → ℚ} (hl : IsSlope l pick) :
    ∃ r e arr, (g.gridWith env a dask).st.resolutions = [r] ∧ (r ∈ tableResolutions ∨ r = size) ∧ r ≤ size ∧ (g.gridWith env a dask).st.extents = some e ∧
      ((g.gridWith env a dask).st.getLayersByName env [l] none nodata zUp).2 = .ok (some [arr]) ∧ SurfaceOf (SlopeCell pick) (fun v => v.or nodata) A.allPts r e arr := by
  have hs : 0 < size := by rw [hk]; positivity
  obtain ⟨r, -, hres, hval, k2, hok', hst⟩ := auto_first hs h ha hF hv hr hm hok
  obtain ⟨n, hn⟩ := chosen_divides hk hval
  have hrp := pos_of_mul hs hn
  obtain ⟨e, arr, j1, j2, j3⟩ := Grid.grow_shows ((shows_slope hls hl hs hrp hn nodata).mono (C' := curSpec env .plain size 0 bs fl hs a.alg r) (fun h => h.1) (Q' := SlopeReady r) (fun _ h => h)) k2 hs
    (store_ne (sr_inv hs h).1 hok)
    (fun u hu => by
      rw [hst] at hu
      obtain ⟨r', -, hr'⟩ := (Grid.leaves_sr (a := { a with res := some r }) hs h hv hok').1 u hu
      exact leafRun_ready (a := { a with res := some r }) hs hr' (plain_family ha).1 (hF.imp Eq.symm id) rfl) hrp hn (slope_fill hl nodata) zUp
  exact ⟨r, e, arr, hres, hval.1, hval.2, j1, by rw [default_res hres hrp]; exact j2, j3⟩

/-! ## the hypotheses can be met -/

/-- the mean depths of the grid ask for cells of 1 m; the two soundings of "b" that share a tile are in different cells then -/
example : (16 : ℚ) = 2 ^ 6 / 4 ∧ SRHistory demoEnv 16 false demoFields .plain false demoSR demoStore ∧ (demoSR.gridWith demoEnv { alg := .mean, res := none, mode := .depth } (some 2)).err = none ∧
    (demoSR.gridWith demoEnv { alg := .mean, res := none, mode := .depth } (some 2)).st.resolutions = [1] ∧
    (match ((demoSR.gridWith demoEnv { alg := .mean, res := none, mode := .depth } (some 2)).st.getLayersByName demoEnv [.cont "b"] none none false).2 with
      | .ok (some [a]) => a.get? 6 35 == some (some 13) && a.get? 6 36 == some (some 12) && a.get? 20 50 == some none
      | _ => false) = true := by
  refine ⟨by norm_num, demoSR_history, ?_⟩
  decide +kernel

private def ptsA : List Pt := [⟨1/2, 1/2, 39/2, 1, 2⟩, ⟨3/2, 1/2, 43/2, 3, 4⟩, ⟨1/2, 3/2, 33/2, 1, 1⟩, ⟨7/2, 5/2, 39/2, 1, 1⟩]

/-- the hypotheses of `C118_auto_surface_sr` -/
example : ∃ env g A, LeastSquares env.plane ∧ (4 : ℚ) = 2 ^ 4 / 4 ∧ SRHistory env 4 false demoFields .plain false g A ∧
    (g.gridWith env { alg := .shoalest, res := none, mode := .density } none).err = none ∧ A.allPts = ptsA := by
  refine ⟨lsEnv, _, _, leastSquares_exists.choose_spec, by norm_num, (GridHistory.new .plain).add ptsA "a" {} (by decide +kernel), ?_⟩
  decide +kernel

end Bathy
