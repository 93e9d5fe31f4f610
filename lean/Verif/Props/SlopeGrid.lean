import Verif.Lemmas.ShowsGrid
import Verif.Props.Slope
import Verif.Props.Surface

/-!
# C118: the slope surfaces of a grid
-/

namespace Bathy

variable {env : Env} {size sub : ℚ} {bs : Bool} {fl : Fields} {F : Family} {s : Bool} {A : Store} {a : GridCall} {dask : Option Nat}

theorem getLayer_nodata {l : Layer} {pick : ℚ × ℚ → ℚ} (hl : IsSlope l pick) (t : Tile) (r : Option ℚ) (nodata : Option ℚ) (zUp : Bool) {a : LayerArr}
    (h : (t.getLayer env l r none zUp).2 = .ok (some a)) : (t.getLayer env l r nodata zUp).2 = .ok (some (a.map (fun v => v.or nodata))) := by
  have hid : ∀ a : LayerArr, a.map (fun v => v.or none) = a := by
    intro a
    cases a
    simp [Arr2.map]
  cases nodata with
  | none => rw [h, hid]
  | some v =>
    unfold Tile.getLayer at h ⊢
    simp only [Tile.nodata_slope hl] at h ⊢
    split at h
    · cases h
    · rename_i hne
      rw [if_neg hne]
      split at h
      · cases h
      · cases h
      · rename_i r' hq
        rw [Tile.ensure_slope hl] at h ⊢
        split at h
        · cases h
        · rename_i t' ht'
          split at h
          · cases h
          · rename_i b hb
            simp only [Except.ok.injEq] at h ⊢
            rw [Tile.finish_slope hl] at h
            have hfl : ¬ (l = .depth ∧ zUp = true) := by rcases hl with ⟨rfl, -⟩ | ⟨rfl, -⟩ <;> simp
            unfold Tile.finishLayer
            split at h
            · cases h
            · rename_i hall
              cases h
              rw [if_neg hall]
              simp only [hfl, if_false]
              congr 2
              funext e
              cases e <;> rfl

/-- a tile that can compute its slopes at `r` -/
def SlopeReady (r : ℚ) (t : Tile) : Prop := t.Indexed r ∧ (t.cells.get? r).isSome = true

theorem shows_slope (hls : LeastSquares env.plane) {l : Layer} {pick : ℚ × ℚ → ℚ} (hl : IsSlope l pick) (hs : 0 < size) {r : ℚ} (hr : 0 < r) {n : Nat} (hn : size = (n : ℚ) * r) (nodata : Option ℚ) :
    Shows env (tileSpec env F size sub bs fl hs) n r (SlopeReady r) l nodata (SlopeCell pick) (fun v => v.or nodata) where
  ok := by
    intro x y t A zUp hrep hQ
    obtain ⟨h1, h2, h3⟩ := hrep
    obtain ⟨hi, hc⟩ := hQ t rfl
    have hP := allPts_ne h2 h3
    obtain ⟨sx, sy, ⟨a1, a2, a3, b1, b2, b3, hcell⟩, hq⟩ := slope_answers hls hs h1 hc hi
    have hnc : ncells size r = n := by rw [hn]; exact ncells_mul hr n
    rw [hnc] at a1 a2 a3 b1 b2 b3 hcell
    obtain ⟨qx, qy⟩ := hq zUp
    rw [if_neg hP] at qx qy
    rcases hl with ⟨rfl, rfl⟩ | ⟨rfl, rfl⟩
    · refine ⟨_, getLayer_nodata (Or.inl ⟨rfl, rfl⟩) t (some r) nodata zUp qx, a2, a3, ?_⟩
      intro i j hi hj
      obtain ⟨c1, c2⟩ := hcell i j hi hj
      by_cases he : inCell x y r i j A.allPts = []
      · exact ⟨none, ⟨fun _ => rfl, fun h => absurd he h⟩, by rw [Arr2.get?_map, (c1 he).1]; rfl⟩
      · obtain ⟨p, hp, e1, -⟩ := c2 he
        exact ⟨some p.1, ⟨fun h => absurd h he, fun _ => ⟨p, hp, rfl⟩⟩, by rw [Arr2.get?_map, e1]; rfl⟩
    · refine ⟨_, getLayer_nodata (Or.inr ⟨rfl, rfl⟩) t (some r) nodata zUp qy, b2, b3, ?_⟩
      intro i j hi hj
      obtain ⟨c1, c2⟩ := hcell i j hi hj
      by_cases he : inCell x y r i j A.allPts = []
      · exact ⟨none, ⟨fun _ => rfl, fun h => absurd he h⟩, by rw [Arr2.get?_map, (c1 he).2]; rfl⟩
      · obtain ⟨p, hp, -, e1⟩ := c2 he
        exact ⟨some p.2, ⟨fun h => absurd h he, fun _ => ⟨p, hp, rfl⟩⟩, by rw [Arr2.get?_map, e1]; rfl⟩
  probe := by
    intro x y t A _ hQ
    obtain ⟨-, hc⟩ := hQ t rfl
    show Except.ok (!t.cells.isEmpty) = _
    cases he : t.cells with
    | nil => rw [he] at hc; cases hc
    | cons p ps => rfl

theorem leafRun_ready {w r r' : ℚ} {t : Tile} (hw : 0 < w) (h : LeafRun env fl F w bs a t r') {F' : Family} (ha : a.alg.family = some F') (hF : F' = F ∨ a.clear = true) (hr : a.res = some r) :
    SlopeReady r t := by
  obtain ⟨t0, B, c, h1, -, hp, hr', hF', -, hgr⟩ := leafRun_call h hF
  have : r' = r := hr' r hr
  subst this
  have hok : (t0.grid env a.alg (some r') c.clear c.mode a.params c.border).1.err = none := by rw [hgr]; rfl
  obtain ⟨-, k2, k3⟩ := gridded_state hw h1 ha hF' hp c.mode a.params c.border hok
  rw [hgr] at k2 k3
  exact ⟨k2, k3⟩

theorem slope_fill {l : Layer} {pick : ℚ × ℚ → ℚ} (hl : IsSlope l pick) (nodata : Option ℚ) : ∃ v : Option ℚ, SlopeCell pick [] v ∧ v.or nodata = Tile.nodataFor l nodata :=
  ⟨none, ⟨fun _ => rfl, fun h => absurd rfl h⟩, by rw [Tile.nodata_slope hl]; rfl⟩

/-- **C118** (single resolution grids): after any sequence of calls, a `grid` call of all tiles with any algorithm, at a resolution that divides the tile size, makes
`get_layers_by_name` return the slope surfaces of all soundings added and not removed: in the square of each cell a slope of a plane of least square error through the
soundings in this square, `nodata` where there are none.  The sign does not depend on `z_positive_up`. -/
theorem C118_surface_sr (hls : LeastSquares env.plane) (hs : 0 < size) {g : Grid Tile} (h : SRHistory env size bs fl F s g A) {F' : Family} (ha : a.alg.family = some F') (hF : F' = F ∨ a.clear = true)
    (hv : a.regrid = .full ∨ a.clear = true) {r : ℚ} (hr : a.res = some r) {n : Nat} (hn : size = n * r) (hok : (g.gridWith env a dask).err = none)
    (nodata : Option ℚ) (zUp : Bool) {l : Layer} {pick : ℚ × ℚ → ℚ} (hl : IsSlope l pick) :
    ∃ e arr, (g.gridWith env a dask).st.extents = some e ∧ ((g.gridWith env a dask).st.getLayersByName env [l] (some r) nodata zUp).2 = .ok (some [arr]) ∧
      SurfaceOf (SlopeCell pick) (fun v => v.or nodata) A.allPts r e arr := by
  have hrp := pos_of_mul hs hn
  have h1 : SRHistory env size bs fl F' s (g.gridWith env a dask).st A := history_after h ha hF hok
  exact Grid.grow_shows (shows_slope hls hl hs hrp hn nodata) (sr_inv hs h1).1 hs (store_ne (sr_inv hs h).1 hok)
    (fun u hu => by obtain ⟨r', -, hr'⟩ := (Grid.leaves_sr hs h hv hok).1 u hu; exact leafRun_ready hs hr' ha hF hr) hrp hn (slope_fill hl nodata) zUp

/-- **C118** (variable resolution grids): the resolution divides the subtile size, which divides the tile size -/
theorem C118_surface_vr (hls : LeastSquares env.plane) (hs : 0 < size) (hsub : isPowerOfTwo sub = true) {q : Nat} (hdiv : size = (q : ℚ) * sub) {g : Grid (Grid Tile)}
    (h : VRHistory env size sub bs fl F s g A) {F' : Family} (ha : a.alg.family = some F') (hF : F' = F ∨ a.clear = true)
    (hv : a.regrid = .full ∨ a.clear = true) {r : ℚ} (hr : a.res = some r) {n : Nat} (hn : sub = n * r) (hok : (g.gridWith env a dask).err = none)
    (nodata : Option ℚ) (zUp : Bool) {l : Layer} {pick : ℚ × ℚ → ℚ} (hl : IsSlope l pick) :
    ∃ e arr, (g.gridWith env a dask).st.extents = some e ∧ ((g.gridWith env a dask).st.getLayersByName env [l] (some r) nodata zUp).2 = .ok (some [arr]) ∧
      SurfaceOf (SlopeCell pick) (fun v => v.or nodata) A.allPts r e arr := by
  have hsp := isPowerOfTwo_pos hsub
  have hrp := pos_of_mul hsp hn
  have h1 : VRHistory env size sub bs fl F' s (g.gridWith env a dask).st A := history_after h ha hF hok
  have S := Grid.shows_sub (size := size) (bs := bs) (q := q) (shows_slope (env := env) (F := F') (bs := false) (fl := fl) (sub := 0) hls hl hsp hrp hn nodata) (fun {x y t B} hrep hQ => by
    obtain ⟨-, hc⟩ := hQ t rfl
    show Except.ok (!t.cells.isEmpty) = _
    cases he : t.cells with
    | nil => rw [he] at hc; cases hc
    | cons p ps => rfl) hs hsub hdiv hrp hn (slope_fill hl nodata)
  exact Grid.grow_shows S (vr_inv hs hsub h1).1 hs (store_ne (vr_inv hs hsub h).1 hok)
    (fun u hu => by obtain ⟨r', -, hr'⟩ := (Grid.leaves_vr hs hsub h hv hok).1 u hu; exact leafRun_ready hsp hr' ha hF hr) hrp
    (by rw [hdiv, hn]; push_cast; ring) (slope_fill hl nodata) zUp

/-! ## Examples -/

private def ptsA : List Pt := [⟨1/2, 1/2, 39/2, 1, 2⟩, ⟨3/2, 1/2, 43/2, 3, 4⟩, ⟨1/2, 3/2, 33/2, 1, 1⟩, ⟨1, 1, 19, 1, 1⟩, ⟨7/2, 5/2, 39/2, 1, 1⟩]
private def ptsB : List Pt := [⟨1/2, 3/4, 6, 1, 1⟩, ⟨13/2, 7/2, 9, 2, 2⟩]

/-- the hypotheses of `C118_surface_sr` -/
example : ∃ env g A, LeastSquares env.plane ∧ SRHistory env 4 false demoFields .plain false g A ∧ (g.gridWith env { alg := .mean, res := some 2 } none).err = none ∧
    A.allPts = ptsA ++ ptsB := by
  refine ⟨lsEnv, _, _, leastSquares_exists.choose_spec, ((GridHistory.new .plain).add ptsA "a" {} (by decide +kernel)).add ptsB "b" {} (by decide +kernel), ?_⟩
  decide +kernel

/-- the hypotheses of `C118_surface_vr` -/
example : ∃ env g A, LeastSquares env.plane ∧ VRHistory env 8 4 false demoFields .plain false g A ∧ (g.gridWith env { alg := .mean, res := some 2 } none).err = none ∧
    A.allPts = ptsA ++ ptsB := by
  refine ⟨lsEnv, _, _, leastSquares_exists.choose_spec, ((GridHistory.new .plain).add ptsA "a" {} (by decide +kernel)).add ptsB "b" {} (by decide +kernel), ?_⟩
  decide +kernel

/-- the soundings of "a", "b" was added and removed, then "c" -/
private def slopeGrid : Grid Tile :=
  ((((((newSR 4 false).addPoints ⟨demoFields, ptsA⟩ "a" {}).st.addPoints ⟨demoFields, ptsB⟩ "b" {}).st.removePoints "b").st.addPoints ⟨demoFields, [⟨13/2, 7/2, 9, 2, 2⟩]⟩ "c" {}).st.gridWith
    slopeEnv { alg := .mean, res := some 2 } none).st

/-- slopes of two tiles, with a computable fit; upside down or not the sign is that of the stored depths -/
example : (∃ A, SRHistory slopeEnv 4 false demoFields .plain false slopeGrid A) ∧
    (match (slopeGrid.getLayersByName slopeEnv [.ySlope] (some 2) (some 99) false).2 with
      | .ok (some [a]) => a.rows == 6 && a.cols == 6 && a.get? 0 0 == some (some (-3)) && a.get? 0 1 == some (some 99) && a.get? 1 3 == some (some 0)
      | _ => false) = true ∧
    (match (slopeGrid.getLayersByName slopeEnv [.ySlope] (some 2) (some 99) true).2 with
      | .ok (some [a]) => a.rows == 6 && a.cols == 6 && a.get? 0 0 == some (some (-3)) && a.get? 0 1 == some (some 99) && a.get? 1 3 == some (some 0)
      | _ => false) = true ∧
    (match (slopeGrid.getLayersByName slopeEnv [.depth] (some 2) (some 99) true).2 with
      | .ok (some [a]) => a.rows == 6 && a.cols == 6 && a.get? 0 0 == some (some (-153/8)) && a.get? 0 1 == some (some 99) && a.get? 1 3 == some (some (-9))
      | _ => false) = true := by
  refine ⟨⟨_, ((((GridHistory.new .plain).add ptsA "a" {} (by decide +kernel)).add ptsB "b" {} (by decide +kernel)).remove "b" (by decide +kernel)).add
    [⟨13/2, 7/2, 9, 2, 2⟩] "c" {} (by decide +kernel) |>.grid { alg := .mean, res := some 2 } rfl none⟩, ?_⟩
  decide +kernel

end Bathy
