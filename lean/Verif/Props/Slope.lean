import Verif.Lemmas.SlopeTile
import Verif.Lemmas.LeastSquares
import Verif.Spec.DemoEnv

/-!
# C118: the slope layers

Model: `Tile.calculateSlopes` (bathygrid/algorithms.py:216-287), `Tile.runSlopes` (bathygrid/tile.py:509-532), `Tile.getLayer` (bathygrid/tile.py:771-841),
`Tile.clearTemp` (bathygrid/tile.py:353-362).
Specification: `Verif/Spec/Slope.lean`.  The least squares fit itself (`np.linalg.lstsq`) is outside of the model; the theorems assume that it solves the
least squares problem (`LeastSquares`), which is possible (`leastSquares_exists`).
-/

namespace Bathy

/-- what can happen to a gridded tile: it is asked for a layer, or loses a container -/
inductive After where
  | query (q : Query)
  | remove (c : String)

/-- the tile afterwards -/
def runAfter (env : Env) (t : Tile) (ops : List After) : Tile :=
  ops.foldl (fun t o => match o with | .query q => (t.getLayer env q.layer q.res q.nodata q.zUp).1 | .remove c => (t.removePoints c).st) t

/-- the soundings afterwards -/
def storeAfter (A : Store) (ops : List After) : Store :=
  ops.foldl (fun A o => match o with | .query _ => A | .remove c => A.remove c) A

theorem mem_boolIndex {α : Type} {l : List α} {m : List Bool} {a : α} (h : a ∈ boolIndex l m) : a ∈ l := by
  unfold boolIndex at h
  obtain ⟨q, hq, rfl⟩ := List.mem_map.1 h
  exact (List.of_mem_zip (List.mem_filter.1 hq).1).1

theorem indexed_remove {t : Tile} {A : Store} {fl : Fields} {F : Family} (hg : t.GInv fl F) (hr : t.Rep A fl) (c : String) {r : ℚ} (hi : t.Indexed r)
    (hc : (t.cells.get? r).isSome = true) : (t.removePoints c).st.Indexed r ∧ ((t.removePoints c).st.cells.get? r).isSome = true := by
  obtain ⟨d, hd, -⟩ := hg.data
  cases hcc : t.container.get? c with
  | none => rw [Tile.removePoints_of_not_mem t c ((Dict.get?_eq_none _ _).1 hcc)]; exact ⟨hi, hc⟩
  | some se =>
    obtain ⟨s, e⟩ := se
    obtain ⟨u, hu, -, -, -, u3, -, -, -, -, -, u9⟩ := Tile.removePoints_mem hcc hd (Tile.idxLen_of_ginv_idx hr hd)
    rw [hu, Res.ok_st]
    constructor
    · obtain ⟨ci, h1, h2⟩ := hi
      refine ⟨_, by rw [u3, Dict.get?_mapVals, h1]; rfl, fun i hi => h2 i (mem_boolIndex hi)⟩
    · have h1 : u.coreAt r = t.coreAt r := by rw [Tile.coreAt_congr u9, Tile.foldl_clearTemp_coreAt]
      unfold Tile.coreAt at h1
      have h2 := congrArg Option.isSome h1
      rw [Option.isSome_map, Option.isSome_map] at h2
      rw [h2]; exact hc

theorem after_state {env : Env} {x y size : ℚ} {bs : Bool} {fl : Fields} {F : Family} {t : Tile} {A : Store} (hw : 0 < size)
    (h : TileHistory env x y size bs fl F t A) {r : ℚ} (hi : t.Indexed r) (hc : (t.cells.get? r).isSome = true) (ops : List After) :
    TileHistory env x y size bs fl F (runAfter env t ops) (storeAfter A ops) ∧ (runAfter env t ops).Indexed r ∧ ((runAfter env t ops).cells.get? r).isSome = true := by
  induction ops generalizing t A with
  | nil => exact ⟨h, hi, hc⟩
  | cons o ops ih =>
    cases o with
    | query q =>
      refine ih (TileHistory.query h q.layer q.res q.nodata q.zUp) ?_ ?_
      · obtain ⟨ci, h1, h2⟩ := hi
        exact ⟨ci, by rw [(Tile.getLayer_same env t q.layer q.res q.nodata q.zUp).2]; exact h1, h2⟩
      · have h1 := (Tile.getLayer_core env t q.layer q.res q.nodata q.zUp).2.2 r
        unfold Tile.coreAt at h1
        have h2 := congrArg Option.isSome h1
        rw [Option.isSome_map, Option.isSome_map] at h2
        rw [h2]; exact hc
    | remove c =>
      obtain ⟨-, hrep, hg⟩ := history_frame hw h
      obtain ⟨k1, k2⟩ := indexed_remove hg hrep c hi hc
      exact ih (TileHistory.remove h c) k1 k2

theorem gridded_state {env : Env} {x y size : ℚ} {bs : Bool} {fl : Fields} {F F' : Family} {t : Tile} {A : Store} (hw : 0 < size)
    (h : TileHistory env x y size bs fl F t A) {alg : Alg} (ha : alg.family = some F') {clear : Bool} (hF : F' = F ∨ clear = true) {res : ℚ}
    (hres : isPowerOfTwo res = true) (mode : AutoMode) (params : Option GridParams) (border : Option PtArr)
    (hok : (t.grid env alg (some res) clear mode params border).1.err = none) :
    let u := (t.grid env alg (some res) clear mode params border).1.st
    TileHistory env x y size bs fl F' u A ∧ u.Indexed res ∧ (u.cells.get? res).isSome = true := by
  intro u
  obtain ⟨hfr, hrep, hg⟩ := history_frame hw h
  have hpre : Tile.GInv (if clear then t.clearGrid else t) fl F' := by
    rcases hF with rfl | rfl
    · exact Tile.ginv_pre hg clear
    · exact Tile.ginv_clearGrid hg
  obtain ⟨-, -, i1, -, -⟩ := Tile.gridAt_canon env hpre hres (history_data hw h) ha params border
  obtain ⟨L, ls, -, hls, -⟩ := grid_leaves hw h ha hF hres params border hok
  refine ⟨?_, ⟨t.cellNos res, ?_, ?_⟩, ?_⟩
  · rcases hF with rfl | rfl
    · exact TileHistory.grid h alg ha (some res) clear mode params border
    · exact TileHistory.switch h alg ha (some res) mode params border hok
  · show (t.gridAt env alg res clear params border).st.cellIdx.get? res = _
    rw [i1, Dict.get?_set_self]
  · intro i hi
    obtain ⟨p, -, rfl⟩ := List.mem_map.1 hi
    unfold Tile.cellNo
    omega
  · show ((t.gridAt env alg res clear params border).st.cells.get? res).isSome = true
    rw [hls]; rfl

/-- **C118**: a tile is gridded at `res`; afterwards it is asked for layers and loses containers, any number of times.  Then it can be asked for its
slopes, and in each cell they are the two slopes of a plane of least square error through the soundings that are now in this cell; NaN where there are none. -/
theorem C118_tile_partial {env : Env} (hls : LeastSquares env.plane) {x y size : ℚ} {bs : Bool} {fl : Fields} {F F' : Family} {t : Tile} {A : Store} (hw : 0 < size)
    (h : TileHistory env x y size bs fl F t A) {alg : Alg} (ha : alg.family = some F') {clear : Bool} (hF : F' = F ∨ clear = true) {res : ℚ}
    (hres : isPowerOfTwo res = true) (mode : AutoMode) (params : Option GridParams) (border : Option PtArr)
    (hok : (t.grid env alg (some res) clear mode params border).1.err = none) (ops : List After) :
    let u := runAfter env (t.grid env alg (some res) clear mode params border).1.st ops
    let P := (storeAfter A ops).allPts
    ∃ sx sy, SlopeCells sx sy ⌈size / res⌉.toNat x y res P ∧ ∀ zUp,
      (u.getLayer env .xSlope (some res) none zUp).2 = .ok (if P = [] then none else some sx) ∧
      (u.getLayer env .ySlope (some res) none zUp).2 = .ok (if P = [] then none else some sy) := by
  intro u P
  obtain ⟨k1, k2, k3⟩ := gridded_state hw h ha hF hres mode params border hok
  obtain ⟨j1, j2, j3⟩ := after_state hw k1 k2 k3 ops
  exact slope_answers hls hw j1 j3 j2

/-- **C118, stored slopes are never out of date**: whenever a tile, after any history, answers a query for a slope layer, the answer belongs to the soundings
that are now in the tile. -/
theorem C118_up_to_date {env : Env} (hls : LeastSquares env.plane) {x y size : ℚ} {bs : Bool} {fl : Fields} {F : Family} {t : Tile} {A : Store} (hw : 0 < size)
    (h : TileHistory env x y size bs fl F t A) {r : ℚ} (hr : 0 < r) (zUp : Bool) {o : Option LayerArr} :
    ((t.getLayer env .xSlope (some r) none zUp).2 = .ok o →
      (∀ a, o = some a → EachCell a ⌈size / r⌉.toNat x y r A.allPts (SlopeCell Prod.fst)) ∧ (o = none → A.allPts = [] ∨ r ∉ t.resolutions)) ∧
    ((t.getLayer env .ySlope (some r) none zUp).2 = .ok o →
      (∀ a, o = some a → EachCell a ⌈size / r⌉.toNat x y r A.allPts (SlopeCell Prod.snd)) ∧ (o = none → A.allPts = [] ∨ r ∉ t.resolutions)) := by
  constructor
  · intro hout
    obtain ⟨h1, h2⟩ := slope_answer hls hw h hr (Or.inl ⟨rfl, rfl⟩) zUp hout
    exact ⟨h1, fun ho => (h2 ho).imp id (fun hn => (Dict.get?_eq_none _ _).1 hn)⟩
  · intro hout
    obtain ⟨h1, h2⟩ := slope_answer hls hw h hr (Or.inr ⟨rfl, rfl⟩) zUp hout
    exact ⟨h1, fun ho => (h2 ho).imp id (fun hn => (Dict.get?_eq_none _ _).1 hn)⟩

/-- **C118, a plane seafloor**: if the soundings lie on the plane `z = a x + b y + c`, every cell with three soundings that are not on a line shows exactly
the slopes `a` and `b`. -/
theorem C118_plane {sx sy : LayerArr} {n : Nat} {x y r : ℚ} {pts : List Pt} (h : SlopeCells sx sy n x y r pts) {a b c : ℚ} (hp : OnPlane (pts.map Pt.xyz) a b c)
    {i j : Nat} (hi : i < n) (hj : j < n) (hsp : Spread ((inCell x y r i j pts).map Pt.xyz)) : sx.get? i j = some (some a) ∧ sy.get? i j = some (some b) := by
  have hne : inCell x y r i j pts ≠ [] := by
    intro he
    rw [he] at hsp
    obtain ⟨p, hp, -⟩ := hsp
    cases hp
  obtain ⟨s, hs, h1, h2⟩ := (h.2.2.2.2.2.2 i j hi hj).2 hne
  have hon : OnPlane ((inCell x y r i j pts).map Pt.xyz) a b c := by
    intro q hq
    obtain ⟨p, hpm, rfl⟩ := List.mem_map.1 hq
    exact hp _ (List.mem_map_of_mem (List.mem_of_mem_filter hpm))
  have := bestPlane_unique hsp hs (bestPlane_onPlane hon)
  rw [this] at h1 h2
  exact ⟨h1, h2⟩

/-- **C118, one answer**: the slopes do not depend on the order in which the soundings came, nor on the least squares function, in the cells whose soundings
are not on a line. -/
theorem C118_one_answer {sx sy sx' sy' : LayerArr} {n : Nat} {x y r : ℚ} {pts pts' : List Pt} (h : SlopeCells sx sy n x y r pts) (h' : SlopeCells sx' sy' n x y r pts')
    (hperm : pts.Perm pts') {i j : Nat} (hi : i < n) (hj : j < n) (hsp : inCell x y r i j pts = [] ∨ Spread ((inCell x y r i j pts).map Pt.xyz)) :
    sx.get? i j = sx'.get? i j ∧ sy.get? i j = sy'.get? i j := by
  have hcp : (inCell x y r i j pts).Perm (inCell x y r i j pts') := hperm.filter _
  obtain ⟨k1, k2⟩ := h.2.2.2.2.2.2 i j hi hj
  obtain ⟨k1', k2'⟩ := h'.2.2.2.2.2.2 i j hi hj
  by_cases he : inCell x y r i j pts = []
  · have he' : inCell x y r i j pts' = [] := by rw [he] at hcp; exact hcp.symm.eq_nil
    rw [(k1 he).1, (k1 he).2, (k1' he').1, (k1' he').2]
    exact ⟨rfl, rfl⟩
  · have he' : inCell x y r i j pts' ≠ [] := fun h0 => he (by rw [h0] at hcp; exact hcp.eq_nil)
    obtain ⟨s, hs, h1, h2⟩ := k2 he
    obtain ⟨s', hs', h1', h2'⟩ := k2' he'
    have := bestPlane_unique (hsp.resolve_left he) hs (bestPlane_perm (hcp.map _).symm hs')
    rw [h1, h2, h1', h2', this]
    exact ⟨rfl, rfl⟩

/-- **C118, after new soundings the slopes are refused**: a tile gridded at `res` that then receives soundings raises ValueError when it is asked for slopes at
`res`, until it is gridded again. -/
theorem C118_added_fails {env : Env} {x y size : ℚ} {bs : Bool} {fl : Fields} {F F' : Family} {t : Tile} {A : Store} (hw : 0 < size)
    (h : TileHistory env x y size bs fl F t A) {alg : Alg} (ha : alg.family = some F') {clear : Bool} (hF : F' = F ∨ clear = true) {res : ℚ}
    (hres : isPowerOfTwo res = true) (mode : AutoMode) (params : Option GridParams) (border : Option PtArr)
    (hok : (t.grid env alg (some res) clear mode params border).1.err = none) (ops : List After) (pts : List Pt) (hpts : pts ≠ [])
    (c : String) (l : Layer) (hl : l = .xSlope ∨ l = .ySlope) (nodata : Option ℚ) (zUp : Bool) :
    let u := (runAfter env (t.grid env alg (some res) clear mode params border).1.st ops).addPoints ⟨fl, pts⟩ c
    u.err = none ∧ (u.st.getLayer env l (some res) nodata zUp).2 = .error .valueError := by
  intro u
  obtain ⟨k1, k2, k3⟩ := gridded_state hw h ha hF hres mode params border hok
  obtain ⟨j1, j2, j3⟩ := after_state hw k1 k2 k3 ops
  have hu : u = (runAfter env (t.grid env alg (some res) clear mode params border).1.st ops).addPoints ⟨fl, pts⟩ c := rfl
  clear_value u
  subst hu
  generalize runAfter env (t.grid env alg (some res) clear mode params border).1.st ops = v at j1 j2 j3 ⊢
  generalize storeAfter A ops = B at j1
  obtain ⟨hfr, hrep, hg⟩ := history_frame hw j1
  have hpos := isPowerOfTwo_pos hres
  -- the container is new after the removal
  have main : ∀ {w : Tile} {B : Store}, w.GInv fl F' → w.Rep B fl → w.SInv env → w.Indexed res → (w.cells.get? res).isSome = true → c ∉ w.container.keys →
      (w.addPoints ⟨fl, pts⟩ c).err = none ∧ ((w.addPoints ⟨fl, pts⟩ c).st.getLayer env l (some res) nodata zUp).2 = .error .valueError := by
    intro w B hg hrep hs hi hc hcn
    obtain ⟨old, hd, hdf⟩ := hg.data
    obtain ⟨s, hs1, hfr, s1, -, s3, s4, s5, -, -, -, s9⟩ := Tile.addPoints_some hd hcn (d := ⟨fl, pts⟩) hdf
    rw [hs1]
    refine ⟨rfl, ?_⟩
    rw [Res.ok_st]
    have hns := Tile.foldl_clearTemp_noSlope w.cellIdx.keys w hs.outside res
    unfold Tile.NoSlope at hns
    rw [← s9] at hns
    have hcore : s.coreAt res = w.coreAt res := by rw [Tile.coreAt_congr s9, Tile.foldl_clearTemp_coreAt]
    obtain ⟨ls0, hls0⟩ := Option.isSome_iff_exists.1 hc
    obtain ⟨c1, c2, c3, -, -⟩ := hg.cells res (core ls0) (by unfold Tile.coreAt; rw [hls0]; rfl)
    have hsc : (s.cells.get? res).isSome = true := by
      unfold Tile.coreAt at hcore
      have h2 := congrArg Option.isSome hcore
      rw [Option.isSome_map, Option.isSome_map] at h2
      rw [h2]; exact hc
    obtain ⟨ls, hls⟩ := Option.isSome_iff_exists.1 hsc
    have hnx : ls.get? .xSlope = none := hns ls hls
    obtain ⟨ci, i1, i2⟩ := hi
    have hlen : ci.length = old.pts.length := by
      have := (hg.idx res ci i1).length_eq
      rw [this]; unfold Tile.pts; rw [hd]
    have hrun : Tile.runSlopes env s res = .error .valueError := by
      unfold Tile.runSlopes
      rw [hls]
      simp only
      rw [if_neg (by rw [← Dict.get?_isSome, hnx]; simp), s1, s3, Dict.get?_mapVals, i1, s4, s5, c2, c3]
      simp only [Option.map_some]
      have hm : (-1 : Int) ∈ ci ++ List.replicate pts.length (-1) := by
        have : pts.length ≠ 0 := fun h0 => hpts (List.length_eq_zero_iff.1 h0)
        simp [this]
      have := calculateSlopes_fails env (old.pts ++ pts) (ci ++ List.replicate pts.length (-1)) (by simp [hlen]) (edgesOf w.minX res (ncells w.width res))
        (edgesOf w.minY res (ncells w.width res)) hm (by simp)
      rw [this]
    have hne : s.isEmpty = false := by
      have : pts.length ≠ 0 := fun h0 => hpts (List.length_eq_zero_iff.1 h0)
      unfold Tile.isEmpty Tile.pointsCount
      rw [s1]
      simp [hpts]
    have hens : ∀ nd, Tile.ensureLayer env s l res nd = .error .valueError := by
      intro nd
      rcases hl with rfl | rfl
      · exact hrun
      · exact hrun
    have hqr : Tile.queryResolution s (some res) = .ok (some res) := by
      unfold Tile.queryResolution
      simp only [ne_of_gt hpos, if_false]
      rw [if_pos (by rw [← Dict.get?_isSome]; exact hsc)]
    unfold Tile.getLayer
    simp only [hne, Bool.false_eq_true, if_false, hqr, hens]
  by_cases hc : c ∈ v.container.keys
  · obtain ⟨w, hv, hvr, hfr', -, -, -⟩ := Tile.removePoints_spec hrep c
    have hg' := Tile.ginv_remove hg hrep c
    have hs' := Tile.sinv_remove hg hrep (history_slopes hw j1) c
    obtain ⟨i1, i2⟩ := indexed_remove hg hrep c j2 j3
    rw [hv] at hg' hs' i1 i2
    simp only [Res.ok_st] at hg' hs' i1 i2
    have hvn : c ∉ w.container.keys := by
      rw [hvr.container, slicesFrom_keys, Store.mem_names_remove]; simp
    obtain ⟨old, hd, -⟩ := hg.data
    obtain ⟨vd, hvd, -⟩ := hg'.data
    have he : v.addPoints ⟨fl, pts⟩ c = w.addPoints ⟨fl, pts⟩ c := by
      have hhas : v.container.has c = true := (Dict.has_iff _ _).2 hc
      have hhas' : w.container.has c = false := (Dict.has_false_iff _ _).2 hvn
      unfold Tile.addPoints
      simp only [hd, hhas, hv, hvd, hhas', if_true, Bool.false_eq_true, if_false, Res.andThen_ok]
    rw [he]
    exact main hg' hvr hs' i1 i2 hvn
  · exact main hg hrep (history_slopes hw j1) j2 j3 hc

/-! ## Examples -/

private def fl2 : Fields := { hasTvu := true, hasThu := true }
/-- four soundings of the cell (0, 0) on the plane `z = 2 x - 3 y + 20`, one sounding elsewhere -/
private def ptsA : List Pt := [⟨1/2, 1/2, 39/2, 1, 2⟩, ⟨3/2, 1/2, 43/2, 3, 4⟩, ⟨1/2, 3/2, 33/2, 1, 1⟩, ⟨1, 1, 19, 1, 1⟩, ⟨7/2, 5/2, 39/2, 1, 1⟩]
private def ptsB : List Pt := [⟨1/2, 3/4, 6, 1, 1⟩, ⟨5/2, 7/2, 9, 2, 2⟩]

/-- slopes by the normal equations (Cramer's rule), zero if the soundings are on a line -/
def slopeFit (qs : List (ℚ × ℚ × ℚ)) : ℚ × ℚ :=
  let n : ℚ := qs.length
  let mx := (qs.map (fun q => q.1)).sum / n
  let my := (qs.map (fun q => q.2.1)).sum / n
  let mz := (qs.map (fun q => q.2.2)).sum / n
  let xx := (qs.map (fun q => (q.1 - mx) * (q.1 - mx))).sum
  let xy := (qs.map (fun q => (q.1 - mx) * (q.2.1 - my))).sum
  let yy := (qs.map (fun q => (q.2.1 - my) * (q.2.1 - my))).sum
  let xz := (qs.map (fun q => (q.1 - mx) * (q.2.2 - mz))).sum
  let yz := (qs.map (fun q => (q.2.1 - my) * (q.2.2 - mz))).sum
  let d := xx * yy - xy * xy
  if d = 0 then (0, 0) else ((xz * yy - yz * xy) / d, (yz * xx - xz * xy) / d)

def slopeEnv : Env := { demoEnv with plane := slopeFit }

noncomputable def lsEnv : Env := { demoEnv with plane := leastSquares_exists.choose }

/-- the hypotheses of `C118_tile_partial` and `C118_up_to_date`: two containers, gridded at 2, then slopes are asked for and one container is removed -/
example : ∃ env t A, LeastSquares env.plane ∧ TileHistory env 0 0 4 false fl2 .plain t A ∧
    (t.grid env .mean (some 2) false .depth none none).1.err = none ∧
    (storeAfter A [.query ⟨.xSlope, some 2, none, false⟩, .remove "b"]).allPts = ptsA := by
  refine ⟨lsEnv, _, _, leastSquares_exists.choose_spec, (TileHistory.first .plain ptsA "a" (by decide +kernel)).add ptsB "b" (by decide +kernel), ?_⟩
  decide +kernel

/-- the same with a computable fit: before and after the removal of "b" -/
example : ∃ t A, TileHistory slopeEnv 0 0 4 false fl2 .plain t A ∧
    let u := (t.grid slopeEnv .mean (some 2) false .depth none none).1.st
    (u.getLayer slopeEnv .xSlope (some 2) none false).2 = .ok (some (Arr2.mk 2 2 [some (1279/155), none, none, some 0])) ∧
    ((runAfter slopeEnv u [.query ⟨.xSlope, some 2, none, false⟩, .remove "b"]).getLayer slopeEnv .xSlope (some 2) none false).2 =
      .ok (some (Arr2.mk 2 2 [some 2, none, none, some 0])) ∧
    ((runAfter slopeEnv u [.query ⟨.xSlope, some 2, none, false⟩, .remove "b"]).getLayer slopeEnv .ySlope (some 2) none false).2 =
      .ok (some (Arr2.mk 2 2 [some (-3), none, none, some 0])) ∧
    ((runAfter slopeEnv u [.query ⟨.xSlope, some 2, none, false⟩, .remove "b"]).addPoints ⟨fl2, ptsB⟩ "c").err = none ∧
    (((runAfter slopeEnv u [.query ⟨.xSlope, some 2, none, false⟩, .remove "b"]).addPoints ⟨fl2, ptsB⟩ "c").st.getLayer slopeEnv .xSlope (some 2) none false).2 =
      .error .valueError := by
  refine ⟨_, _, (TileHistory.first .plain ptsA "a" (by decide +kernel)).add ptsB "b" (by decide +kernel), ?_⟩
  decide +kernel

/-- the hypotheses of `C118_plane` and `C118_one_answer` -/
example : OnPlane (ptsA.map Pt.xyz) 2 (-3) 20 ∧ Spread ((inCell 0 0 2 0 0 ptsA).map Pt.xyz) := by
  unfold OnPlane Spread
  decide +kernel

end Bathy
