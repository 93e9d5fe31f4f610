import Verif.Lemmas.Rename
import Verif.Props.GridPoints
import Verif.Props.TileResolution
import Verif.Props.AutoResolution
import Verif.Spec.DemoGrid

/-!
# C99: the four classes of grids

Model: `Grid.newSR`, `Grid.newVR` (bathygrid/maingrid.py:6-119); the name of the class decides in `gridPlan` and `childCall` (bathygrid/bgrid.py:1334,
1510, 1946).
-/

namespace Bathy

variable {env : Env} {size sub : ℚ} {bs : Bool} {fl : Fields} {F : Family} {s : Bool} {A : Store}

namespace Grid
variable {τ : Type} [GridLike τ]

theorem plan_rename {g : Grid τ} {n : String} (h : (n = "VRGridTile_Root") ↔ (g.name = "VRGridTile_Root")) (a : GridCall) :
    gridPlan env (g.rename n) a = ((gridPlan env g a).1.onSt (rename n), (gridPlan env g a).2) := by
  have hgo : gridPlan.go env a (g.rename n) = ((gridPlan.go env a g).1.onSt (rename n), (gridPlan.go env a g).2) := by
    unfold gridPlan.go
    have he : ∀ al gr gp, isEmpty { g.rename n with gridAlgorithm := al, gridResolution := gr, gridParams := gp } = g.isEmpty := fun _ _ _ => rfl
    have he' : ∀ al gr gp, isEmpty { g with gridAlgorithm := al, gridResolution := gr, gridParams := gp } = g.isEmpty := fun _ _ _ => rfl
    simp only [he, he']
    split
    · rfl
    · cases a.res with
      | some r => rfl
      | none =>
        simp only
        have hn : (g.rename n).name = n := rfl
        by_cases hv : g.name = "VRGridTile_Root"
        · rw [if_pos (by rw [hn]; exact h.2 hv), if_pos hv]; rfl
        · rw [if_neg (by rw [hn]; exact fun h' => hv (h.1 h')), if_neg hv]
          cases a.mode with
          | depth =>
            have hl : ∀ al gr gp, resolutionLookup { g.rename n with gridAlgorithm := al, gridResolution := gr, gridParams := gp } =
              resolutionLookup { g with gridAlgorithm := al, gridResolution := gr, gridParams := gp } := fun _ _ _ => rfl
            simp only [hl]
            split <;> rfl
          | density =>
            have hl : ∀ al gr gp, resolutionByDensity env { g.rename n with gridAlgorithm := al, gridResolution := gr, gridParams := gp } =
              resolutionByDensity env { g with gridAlgorithm := al, gridResolution := gr, gridParams := gp } := fun _ _ _ => rfl
            simp only [hl]
            split <;> rfl
          | other => rfl
  unfold gridPlan
  have ha : (g.rename n).gridAlgorithm = g.gridAlgorithm := rfl
  rw [ha, hgo]
  cases g.gridAlgorithm with
  | none => rfl
  | some al =>
    simp only
    split <;> rfl

/-- the plan of the variable resolution class with another name: a resolution is worked out that is not used -/
theorem plan_rename_auto {g : Grid τ} (hg : g.name = "VRGridTile_Root") {n : String} (hn : n ≠ "VRGridTile_Root") {a : GridCall} (hz : ¬ ZeroDepth g a)
    (hd : g.isEmpty = false → ∃ r, g.resolutionByDensity env = .ok r) :
    ∃ p', gridPlan env (g.rename n) a = ((gridPlan env g a).1.onSt (rename n), p') ∧ p'.auto = (gridPlan env g a).2.auto ∧ (p'.auto = none → p' = (gridPlan env g a).2) := by
  have hgo : ∃ p', gridPlan.go env a (g.rename n) = ((gridPlan.go env a g).1.onSt (rename n), p') ∧ p'.auto = (gridPlan.go env a g).2.auto ∧ (p'.auto = none → p' = (gridPlan.go env a g).2) := by
    unfold gridPlan.go
    have he : ∀ al gr gp, isEmpty { g.rename n with gridAlgorithm := al, gridResolution := gr, gridParams := gp } = g.isEmpty := fun _ _ _ => rfl
    have he' : ∀ al gr gp, isEmpty { g with gridAlgorithm := al, gridResolution := gr, gridParams := gp } = g.isEmpty := fun _ _ _ => rfl
    simp only [he, he']
    cases hE : g.isEmpty with
    | true => exact ⟨_, rfl, rfl, fun _ => rfl⟩
    | false =>
      simp only [Bool.false_eq_true, if_false]
      cases hr : a.res with
      | some r => exact ⟨_, rfl, rfl, fun _ => rfl⟩
      | none =>
        simp only
        rw [if_neg (show ¬ (g.rename n).name = _ from hn), if_pos hg]
        cases hm : a.mode with
        | depth =>
          have hl : ∀ al gr gp, resolutionLookup { g.rename n with gridAlgorithm := al, gridResolution := gr, gridParams := gp } = resolutionLookup g := fun _ _ _ => rfl
          have hne : g.meanDepth ≠ 0 := fun h0 => hz ⟨hr, hm, h0⟩
          have hlk : resolutionLookup g = .ok (min g.tileSize (Tile.lookupArgmax (some g.meanDepth))) := by unfold resolutionLookup; rw [if_neg hne]
          simp only [hl, hlk]
          exact ⟨_, rfl, rfl, fun h => by cases h⟩
        | density =>
          have hl : ∀ al gr gp, resolutionByDensity env { g.rename n with gridAlgorithm := al, gridResolution := gr, gridParams := gp } = resolutionByDensity env g := fun _ _ _ => rfl
          obtain ⟨r, hdr⟩ := hd hE
          simp only [hl, hdr]
          exact ⟨_, rfl, rfl, fun h => by cases h⟩
        | other => exact ⟨_, rfl, rfl, fun h => by cases h⟩
  obtain ⟨p', h1, h2, h3⟩ := hgo
  unfold gridPlan
  have ha : (g.rename n).gridAlgorithm = g.gridAlgorithm := rfl
  rw [ha, h1]
  cases g.gridAlgorithm with
  | none => exact ⟨p', rfl, h2, h3⟩
  | some al =>
    simp only
    split
    · exact ⟨_, rfl, rfl, fun _ => rfl⟩
    · exact ⟨p', rfl, h2, h3⟩

theorem onSt_gridWith {g : Grid τ} {n : String} {a : GridCall} {dask : Option Nat} {p' : Plan} (h1 : gridPlan env (g.rename n) a = ((gridPlan env g a).1.onSt (rename n), p'))
    (h2 : SameCalls (τ := τ) n g.name a (gridPlan env g a).2 p') (h3 : parLimit a p' = parLimit a (gridPlan env g a).2) :
    (g.rename n).gridWith env a dask = (g.gridWith env a dask).onSt (rename n) := by
  rw [gridWith_eq, gridWith_eq, h1]
  have hname : (gridPlan env g a).1.err = none → (gridPlan env g a).1.st.name = g.name := by
    intro hok
    rcases gridPlan_spec env g a with ⟨gr, h, -⟩ | ⟨al, gr, gp, e, h⟩
    · rw [h]; rfl
    · rw [h] at hok; cases hok
  cases he : (gridPlan env g a).1.err with
  | none =>
    rw [Res.andThen_of_err_none (by exact he), Res.andThen_of_err_none he]
    exact gridAfter_rename n env _ dask (by rw [hname he]; exact h2) h3
  | some e => unfold Res.andThen; simp [he, Res.onSt]

end Grid

open Grid

/-- **C99** (single resolution): `grid` of the zarr class is `grid` of the numpy class, in every state -/
theorem C99_grid_sr {g : Grid Tile} (hg : g.name = "SRGrid_Root") (a : GridCall) (dask : Option Nat) :
    (g.rename "SRGridZarr_Root").gridWith env a dask = (g.gridWith env a dask).onSt (Grid.rename "SRGridZarr_Root") := by
  refine onSt_gridWith (plan_rename (by rw [hg]; decide) a) ?_ rfl
  intro u hu clear b
  unfold childCall
  rw [hu, hg]
  rfl

theorem onSt_ok {σ : Type} {f : σ → σ} {r r' : Res σ} (h : r' = r.onSt f) : r'.err = r.err ∧ r'.st = f r.st := by rw [h]; exact ⟨rfl, rfl⟩

theorem queried_rename {τ : Type} [Queried τ] {n : String} {g u : Grid τ} (h : Queried.queried env g u) : Queried.queried env (g.rename n) (u.rename n) := by
  rcases h with ⟨k, t, u', h1, h2, rfl⟩ | ⟨h1, h2, rfl⟩
  · exact Or.inl ⟨k, t, u', h1, h2, (setTile_rename n g k (some u')).symm⟩
  · exact Or.inr ⟨h1, h2, rfl⟩

theorem rename_rename {τ : Type} (n m : String) (g : Grid τ) : (g.rename m).rename n = g.rename n := rfl

theorem queried_back {τ : Type} [Queried τ] {n : String} {g u : Grid τ} (h : Queried.queried env (g.rename n) u) : ∃ u0, Queried.queried env g u0 ∧ u = u0.rename n := by
  have hb := queried_rename (n := g.name) h
  refine ⟨u.rename g.name, hb, ?_⟩
  rcases h with ⟨k, t, u', -, -, rfl⟩ | ⟨-, -, rfl⟩
  · rw [setTile_rename]; rfl
  · rfl

/-- **C99** (single resolution): the objects of the zarr class are those of the numpy class under another name, after any sequence of calls; so whatever
is shown of the one holds of the other. -/
theorem C99_sr (g : Grid Tile) : SRZarr env size bs fl F s g A ↔ ∃ g0, SRHistory env size bs fl F s g0 A ∧ g = g0.rename "SRGridZarr_Root" := by
  constructor
  · intro h
    induction h with
    | new F => exact ⟨_, GridHistory.new F, rfl⟩
    | add h pts c a hok ih =>
      obtain ⟨g0, h0, rfl⟩ := ih
      rw [addPoints_rename] at hok ⊢
      exact ⟨_, h0.add pts c a hok, rfl⟩
    | reject h pts hp c a hno ih =>
      obtain ⟨g0, h0, rfl⟩ := ih
      rw [addPoints_rename] at hno ⊢
      exact ⟨_, h0.reject pts hp c a hno, rfl⟩
    | remove h c hok ih =>
      obtain ⟨g0, h0, rfl⟩ := ih
      rw [removePoints_rename] at hok ⊢
      exact ⟨_, h0.remove c hok, rfl⟩
    | grid h a ha dask ih =>
      obtain ⟨g0, h0, rfl⟩ := ih
      rw [C99_grid_sr (history_name h0)]
      exact ⟨_, h0.grid a ha dask, rfl⟩
    | switch h a ha hc dask hok ih =>
      obtain ⟨g0, h0, rfl⟩ := ih
      rw [C99_grid_sr (history_name h0)] at hok ⊢
      exact ⟨_, h0.switch a ha hc dask hok, rfl⟩
    | query h hq ih =>
      obtain ⟨g0, h0, rfl⟩ := ih
      obtain ⟨u0, h1, rfl⟩ := queried_back hq
      exact ⟨u0, h0.query h1, rfl⟩
  · rintro ⟨g0, h0, rfl⟩
    induction h0 with
    | new F => exact GridHistory.new F
    | add h pts c a hok ih =>
      have := ih.add pts c a (by rw [addPoints_rename]; exact hok)
      rw [addPoints_rename] at this; exact this
    | reject h pts hp c a hno ih =>
      have := ih.reject pts hp c a (by rw [addPoints_rename]; exact hno)
      rw [addPoints_rename] at this; exact this
    | remove h c hok ih =>
      have := ih.remove c (by rw [removePoints_rename]; exact hok)
      rw [removePoints_rename] at this; exact this
    | grid h a ha dask ih =>
      have := ih.grid a ha dask
      rw [C99_grid_sr (history_name h)] at this; exact this
    | switch h a ha hc dask hok ih =>
      have := ih.switch a ha hc dask (by rw [C99_grid_sr (history_name h)]; exact hok)
      rw [C99_grid_sr (history_name h)] at this; exact this
    | query h hq ih => exact ih.query (queried_rename hq)

/-! ## Variable resolution -/

/-- density can be worked out if it can for all tiles -/
theorem byDensity_ok {τ : Type} [GridLike τ] {g : Grid τ} (hne : g.isEmpty = false) (hT : ∀ T, g.tiles = some T → T.WF)
    (ht : ∀ i j t, g.TileAt i j t → ∃ r, GridLike.resolutionByDensity env t = .ok r) : ∃ r, g.resolutionByDensity env = .ok r := by
  unfold resolutionByDensity
  cases hg : g.tiles with
  | none => unfold Grid.isEmpty at hne; rw [hg] at hne; simp at hne
  | some T =>
    simp only
    have hm : ∀ l : List τ, (∀ t ∈ l, ∃ r, GridLike.resolutionByDensity env t = .ok r) → ∃ rs, l.mapM (GridLike.resolutionByDensity env) = .ok rs := by
      intro l
      induction l with
      | nil => exact fun _ => ⟨[], rfl⟩
      | cons t l ih =>
        intro h
        obtain ⟨r, hr⟩ := h t (by simp)
        obtain ⟨rs, hrs⟩ := ih (fun u hu => h u (by simp [hu]))
        refine ⟨r :: rs, ?_⟩
        rw [List.mapM_cons, hr, hrs]; rfl
    obtain ⟨rs, hrs⟩ := hm g.present (fun t h => by
      obtain ⟨i, j, h⟩ := (Grid.mem_present hT).1 h
      exact ht i j t h)
    rw [hrs]
    exact ⟨_, rfl⟩

theorem vr_density (hs : 0 < size) (hsub : isPowerOfTwo sub = true) {g : Grid (Grid Tile)} (h : VRHistory env size sub bs fl F s g A) (hne : g.isEmpty = false) :
    ∃ r, g.resolutionByDensity env = .ok r := by
  have hg := grow_reps (vr_inv hs hsub h).1
  refine byDensity_ok hne hg.2 (fun i j u hu => ?_)
  obtain ⟨x, y, B, hu'⟩ := hg.1 i j u hu
  have hu2 := sub_reps hu'
  refine byDensity_ok (g := u) ((subSpec (bs := bs) (tileSpec env F sub 0 false fl (isPowerOfTwo_pos hsub)) hs hsub).nonempty hu') hu2.2 (fun i j t ht => ?_)
  obtain ⟨x, y, B, ht', -⟩ := hu2.1 i j t ht
  obtain ⟨r, hr, -⟩ := C31_density_grid_succeeds (isPowerOfTwo_pos hsub) ht' hsub .mean (Or.inl rfl) (clear := true) (Or.inr rfl) none none
  exact ⟨r, hr⟩

/-- **C99** (variable resolution; partial: not with the automatic resolution by depth at a mean depth of zero, see `C99_violated`): `grid` of the zarr
class does to the grid what `grid` of the numpy class does. -/
theorem C99_grid_vr_partial (hs : 0 < size) (hsub : isPowerOfTwo sub = true) {g : Grid (Grid Tile)} (h : VRHistory env size sub bs fl F s g A) {a : GridCall} (hz : ¬ ZeroDepth g a)
    (dask : Option Nat) : (g.rename "VRGridTileZarr_Root").gridWith env a dask = (g.gridWith env a dask).onSt (Grid.rename "VRGridTileZarr_Root") := by
  obtain ⟨p', h1, h2, h3⟩ := plan_rename_auto (env := env) (history_name h) (n := "VRGridTileZarr_Root") (by decide) hz (vr_density hs hsub h)
  refine onSt_gridWith h1 ?_ ?_
  · intro u hu clear b
    unfold childCall
    rw [← h2]
    cases hp : p'.auto with
    | none => rw [h3 hp]; simp [Grid.rename]
    | some m => simp [Grid.rename, GridLike.isLeaf]
  · unfold parLimit
    rw [← h2]
    cases hp : p'.auto with
    | none => rw [h3 hp]
    | some m => cases a.alg <;> rfl

/-- **C99** (zero depth): in every state, a class other than `VRGridTile` refuses the automatic resolution by depth when the mean depth is zero, and keeps
its tiles. -/
theorem C99_zero_depth {τ : Type} [GridLike τ] {g : Grid τ} (hn : g.name ≠ "VRGridTile_Root") {a : GridCall} (hz : ZeroDepth g a) (dask : Option Nat) :
    (g.gridWith env a dask).err = some .valueError ∧ (g.gridWith env a dask).st.tiles = g.tiles := by
  obtain ⟨h1, h2, h3⟩ := hz
  have hgo : (gridPlan.go env a g).1.err = some .valueError ∧ (gridPlan.go env a g).1.st.tiles = g.tiles := by
    unfold gridPlan.go
    simp only [h1, h2]
    split
    · exact ⟨rfl, rfl⟩
    · have hl : ∀ al gr gp, resolutionLookup { g with gridAlgorithm := al, gridResolution := gr, gridParams := gp } = .error .valueError := by
        intro al gr gp; unfold resolutionLookup; rw [if_pos h3]
      simp only [hl]
      exact ⟨rfl, rfl⟩
  have hp : (gridPlan env g a).1.err = some .valueError ∧ (gridPlan env g a).1.st.tiles = g.tiles := by
    unfold gridPlan
    split
    · split
      · exact ⟨rfl, rfl⟩
      · exact hgo
    · exact hgo
  rw [gridWith_eq]
  unfold Res.andThen
  rw [hp.1]
  exact ⟨rfl, hp.2⟩

/-- **C99** (variable resolution; partial as above): after any sequence of calls the objects of the zarr class are those of the numpy class under another
name. -/
theorem C99_vr_partial (hs : 0 < size) (hsub : isPowerOfTwo sub = true) (g : Grid (Grid Tile)) (h : VRZarr env size sub bs fl F s g A) :
    ∃ g0, VRHistory env size sub bs fl F s g0 A ∧ g = g0.rename "VRGridTileZarr_Root" := by
  induction h with
  | new F => exact ⟨_, GridHistory.new F, rfl⟩
  | add h pts c a hok ih =>
    obtain ⟨g0, h0, rfl⟩ := ih
    rw [addPoints_rename] at hok ⊢
    exact ⟨_, h0.add pts c a hok, rfl⟩
  | reject h pts hp c a hno ih =>
    obtain ⟨g0, h0, rfl⟩ := ih
    rw [addPoints_rename] at hno ⊢
    exact ⟨_, h0.reject pts hp c a hno, rfl⟩
  | remove h c hok ih =>
    obtain ⟨g0, h0, rfl⟩ := ih
    rw [removePoints_rename] at hok ⊢
    exact ⟨_, h0.remove c hok, rfl⟩
  | grid h a ha dask hP ih =>
    obtain ⟨g0, h0, rfl⟩ := ih
    rw [C99_grid_vr_partial hs hsub h0 hP]
    exact ⟨_, h0.grid a ha dask, rfl⟩
  | switch h a ha hc dask hP hok ih =>
    obtain ⟨g0, h0, rfl⟩ := ih
    rw [C99_grid_vr_partial hs hsub h0 hP] at hok ⊢
    exact ⟨_, h0.switch a ha hc dask hok, rfl⟩
  | query h hq ih =>
    obtain ⟨g0, h0, rfl⟩ := ih
    obtain ⟨u0, h1, rfl⟩ := queried_back hq
    exact ⟨u0, h0.query h1, rfl⟩

/-- **C99** (retrieval): what `get_layers_by_name` returns does not depend on the class -/
theorem C99_layers {τ : Type} [LayerLike τ] (n : String) (g : Grid τ) (layers : List Layer) (res nodata : Option ℚ) (zUp : Bool) :
    ((g.rename n).getLayersByName env layers res nodata zUp).2 = (g.getLayersByName env layers res nodata zUp).2 := by
  rw [getLayersByName_rename]

/-- two points of depth 5 and -5 in two subgrids -/
def zeroA : List Pt := [⟨5, 5, 5, 1, 1⟩, ⟨40, 5, -5, 1, 1⟩]
def zeroVR : Grid (Grid Tile) := ((newVR 32 16 false).addPoints ⟨demoFields, zeroA⟩ "a" {}).st
def zeroCall : GridCall := { alg := .mean, res := none, mode := .depth }

theorem zeroVR_history : VRHistory demoEnv 32 16 false demoFields .plain false zeroVR [("a", zeroA)] :=
  (GridHistory.new .plain).add zeroA "a" {} (by decide +kernel)

/-- **C99** is violated: the numpy class grids, the zarr class raises -/
theorem C99_violated : ∃ (g : Grid (Grid Tile)) (A : Store) (a : GridCall), VRHistory demoEnv 32 16 false demoFields .plain false g A ∧
    (g.gridWith demoEnv a none).err = none ∧ ((g.rename "VRGridTileZarr_Root").gridWith demoEnv a none).err = some .valueError :=
  ⟨zeroVR, _, zeroCall, zeroVR_history, by decide +kernel, (C99_zero_depth (by decide) ⟨rfl, rfl, by decide +kernel⟩ none).1⟩


/-- a grid of the class `SRGridZarr` with two containers, one removed, gridded: the demo grid under another name -/
example : SRZarr demoEnv 16 false demoFields .plain false (demoSRg.rename "SRGridZarr_Root") demoStore := (C99_sr _).2 ⟨_, demoSRg_history, rfl⟩

/-- a grid of the class `VRGridTileZarr`, gridded by depth and then by density, which `C99_vr_partial` speaks about -/
example : ∃ g, VRZarr demoEnv 32 16 false demoFields .plain false g [("a", demoA)] ∧ g.isEmpty = false ∧ g.resolutions ≠ [] :=
  ⟨_, (((GridHistoryOf.new .plain).add demoA "a" {} (by decide +kernel)).grid { alg := .mean, res := none, mode := .depth } rfl none
      (fun h => absurd h.2.2 (by decide +kernel))).grid { alg := .mean, res := none, mode := .density } rfl (some 2) (fun h => by cases h.2.1),
    by decide +kernel, by decide +kernel⟩

end Bathy
