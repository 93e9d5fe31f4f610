import Verif.Lemmas.GridReach
import Verif.Lemmas.GridExtents
import Verif.Spec.DemoGrid

/-!
# C24, C25: gridding with Dask workers

Model: `Grid.gridDask` (bathygrid/bgrid.py:1352-1459) against `Grid.grid` (bathygrid/bgrid.py:1279-1350).  The specification of the parallel
run is the sequential run.
-/

namespace Bathy
open Grid

/-- two runs agree when each tile gets the same border soundings in both -/
theorem gridWith_agree {τ : Type} [GridLike τ] [LawfulGrid τ] (env : Env) (g : Grid τ) (a : GridCall) (d1 d2 : Option Nat)
    (hb : ∀ T, g.tiles = some T → ∀ (k : Nat) t, T.flat[k]? = some (some t) →
      g.borderFor k t a.alg (limitOf a (gridPlan env g a).2 d1) a.border = g.borderFor k t a.alg (limitOf a (gridPlan env g a).2 d2) a.border) :
    ((gridWith env g a d1).err = none ↔ (gridWith env g a d2).err = none) ∧ ((gridWith env g a d1).err = none → gridWith env g a d1 = gridWith env g a d2) := by
  have hout : ∀ gr T, g.tiles = some T → ∀ (k : Nat) o, T.flat[k]? = some o →
      outAt env (g.withAttrs (some a.alg) gr a.params []) a (gridPlan env g a).2 (limitOf a (gridPlan env g a).2 d1) T k o =
      outAt env (g.withAttrs (some a.alg) gr a.params []) a (gridPlan env g a).2 (limitOf a (gridPlan env g a).2 d2) T k o := by
    intro gr T hT k o ho
    cases o with
    | none => rfl
    | some t =>
      have h1 : ∀ l, (g.withAttrs (some a.alg) gr a.params []).borderFor k t a.alg l a.border = g.borderFor k t a.alg l a.border := fun _ => rfl
      unfold outAt outcome
      simp only [h1, hb T hT k t ho]
  have hpre : ∀ gr T, g.tiles = some T →
      prefixTiles (outAt env (g.withAttrs (some a.alg) gr a.params []) a (gridPlan env g a).2 (limitOf a (gridPlan env g a).2 d1) T) T T.flat.length =
      prefixTiles (outAt env (g.withAttrs (some a.alg) gr a.params []) a (gridPlan env g a).2 (limitOf a (gridPlan env g a).2 d2) T) T T.flat.length ∧
      prefixRes (outAt env (g.withAttrs (some a.alg) gr a.params []) a (gridPlan env g a).2 (limitOf a (gridPlan env g a).2 d1) T) T T.flat.length =
      prefixRes (outAt env (g.withAttrs (some a.alg) gr a.params []) a (gridPlan env g a).2 (limitOf a (gridPlan env g a).2 d2) T) T T.flat.length := by
    intro gr T hT
    constructor
    · unfold prefixTiles
      simp only [Arr2.mk.injEq, true_and]
      apply List.ext_getElem?
      intro k
      rw [List.getElem?_mapIdx, List.getElem?_mapIdx]
      rcases Option.eq_none_or_eq_some (T.flat[k]?) with h | ⟨o, h⟩
      · rw [h]; rfl
      · rw [h]; simp only [Option.map_some]; rw [hout gr T hT k o h]
    · unfold prefixRes
      have : ∀ (l : List Nat) (R : List ℚ), (∀ j ∈ l, j < T.flat.length) →
          l.foldl (fun R j => addNew R (outAt env (g.withAttrs (some a.alg) gr a.params []) a (gridPlan env g a).2 (limitOf a (gridPlan env g a).2 d1) T j (T.flat[j]?).join).2) R =
          l.foldl (fun R j => addNew R (outAt env (g.withAttrs (some a.alg) gr a.params []) a (gridPlan env g a).2 (limitOf a (gridPlan env g a).2 d2) T j (T.flat[j]?).join).2) R := by
        intro l
        induction l with
        | nil => intro R _; rfl
        | cons j l ih =>
          intro R hl
          simp only [List.foldl_cons]
          have hj := List.getElem?_eq_getElem (hl j List.mem_cons_self)
          rw [hj, Option.join_some, hout gr T hT j _ hj]
          exact ih _ (fun i hi => hl i (List.mem_cons_of_mem _ hi))
      exact this _ _ (fun j hj => List.mem_range.1 hj)
  rcases gridWith_spec env g a d1 with ⟨al, gr, gp, e, h, hp⟩ | ⟨gr, T, hp, -, hT, -, ⟨hall, h⟩ | ⟨⟨k, o, ho, hne⟩, e, b, R, -, h⟩⟩ <;>
  rcases gridWith_spec env g a d2 with ⟨al', gr', gp', e', h', hp'⟩ | ⟨gr', T', hp', -, hT', -, ⟨hall', h'⟩ | ⟨⟨k', o', ho', hne'⟩, e', b', R', -, h'⟩⟩
  · rw [h, h']; simp
  · rw [hp'] at hp; cases hp
  · rw [hp'] at hp; cases hp
  · rw [hp] at hp'; cases hp'
  · rw [hT] at hT'; cases hT'
    have hgr : g.withAttrs (some a.alg) gr a.params [] = g.withAttrs (some a.alg) gr' a.params [] := by
      rw [hp] at hp'; exact congrArg Res.st hp'
    rw [h, h', (hpre gr T hT).1, (hpre gr T hT).2, hgr]
    simp
  · rw [hT] at hT'; cases hT'
    have hgr : g.withAttrs (some a.alg) gr a.params [] = g.withAttrs (some a.alg) gr' a.params [] := by
      rw [hp] at hp'; exact congrArg Res.st hp'
    exfalso
    apply hne'
    rw [← hgr, ← hout gr T hT k' o' ho']
    exact hall k' o' ho'
  · rw [hp] at hp'; cases hp'
  · rw [hT] at hT'; cases hT'
    have hgr : g.withAttrs (some a.alg) gr a.params [] = g.withAttrs (some a.alg) gr' a.params [] := by
      rw [hp] at hp'; exact congrArg Res.st hp'
    exfalso
    apply hne
    rw [hout gr T hT k o ho, hgr]
    exact hall' k o ho
  · rw [h, h']; simp

/-! ## C24 -/

theorem parallel_plain {τ : Type} [GridLike τ] [LawfulGrid τ] (env : Env) (g : Grid τ) {a : GridCall} (ha : a.alg = .mean ∨ a.alg = .shoalest) (n : Nat) :
    ((gridDask env n g a).err = none ↔ (grid env g a).err = none) ∧ ((grid env g a).err = none → gridDask env n g a = grid env g a) := by
  have hl : ∀ p d, limitOf a p d = none := by
    intro p d
    cases d with
    | none => rfl
    | some n =>
      unfold limitOf parLimit
      rcases ha with ha | ha <;> rw [ha]
  have := gridWith_agree env g a (some n) none (fun T _ k t _ => by rw [hl, hl])
  exact ⟨this.1, fun h => this.2 (this.1.2 h)⟩

/-- **C24** (single resolution): mean and shoalest gridding with any number of workers returns iff the sequential run returns, and then the grids
are the same: the same tiles with the same layers and the same list of resolutions.  For every state of a grid. -/
theorem C24_parallel_equals_sequential_sr (env : Env) (g : Grid Tile) {a : GridCall} (ha : a.alg = .mean ∨ a.alg = .shoalest) (n : Nat) :
    ((gridDask env n g a).err = none ↔ (grid env g a).err = none) ∧ ((grid env g a).err = none → gridDask env n g a = grid env g a) :=
  parallel_plain env g ha n

/-- **C24** (variable resolution) -/
theorem C24_parallel_equals_sequential_vr (env : Env) (g : Grid (Grid Tile)) {a : GridCall} (ha : a.alg = .mean ∨ a.alg = .shoalest) (n : Nat) :
    ((gridDask env n g a).err = none ↔ (grid env g a).err = none) ∧ ((grid env g a).err = none → gridDask env n g a = grid env g a) :=
  parallel_plain env g ha n

/-! ## C25 -/

/-- **C25, partial**: the parallel CUBE run agrees with the sequential one if no resolution is given, or the tile sizes are not larger than
thirty times the resolution: the same soundings are passed on, and so the results are the same.  The full property is false (`C25_violated`). -/
theorem C25_cube_parallel_partial {τ : Type} [GridLike τ] [LawfulGrid τ] (env : Env) (g : Grid τ) {a : GridCall} (n : Nat)
    (h : a.res = none ∨ ∃ r, a.res = some r ∧ ∀ T, g.tiles = some T → ∀ (k : Nat) t w, T.flat[k]? = some (some t) → GridLike.width t = some w → w ≤ 30 * r) :
    ((gridDask env n g a).err = none ↔ (grid env g a).err = none) ∧ ((grid env g a).err = none → gridDask env n g a = grid env g a) := by
  have key : ∀ T, g.tiles = some T → ∀ (k : Nat) t, T.flat[k]? = some (some t) → (gridPlan env g a).1.err = none →
      g.borderFor k t a.alg (limitOf a (gridPlan env g a).2 (some n)) a.border = g.borderFor k t a.alg (limitOf a (gridPlan env g a).2 none) a.border := by
    intro T hT k t ht hpl
    rcases gridPlan_spec env g a with ⟨gr, -, -, -, hau, hres, -, -⟩ | ⟨al, gr, gp, e, he⟩
    · rcases h with h | ⟨r, h, hw⟩
      · have hsome : (gridPlan env g a).2.auto ≠ none := fun hn => (hau hn).2 h
        obtain ⟨m, hm⟩ := Option.ne_none_iff_exists'.1 hsome
        have : limitOf a (gridPlan env g a).2 (some n) = none := by
          unfold limitOf parLimit
          rw [hm]
          cases a.alg <;> rfl
        rw [this]; rfl
      · have hp := hres (by rw [h]; simp)
        rw [hp, h]
        cases hal : a.alg with
        | cube =>
          have : limitOf a ⟨some r, none⟩ (some n) = some (r * 3) := by unfold limitOf parLimit; rw [hal]
          rw [this, show limitOf a ⟨some r, none⟩ none = none from rfl]
          unfold borderFor
          rcases Option.eq_none_or_eq_some (GridLike.width t) with hwd | ⟨w, hwd⟩
          · rw [hwd]
          · rw [hwd]
            simp only
            have hmin : min (w / 10) (r * 3) = w / 10 := by
              apply min_eq_left
              have := hw T hT k t w ht hwd
              linarith
            rw [hmin]
        | mean => rfl
        | shoalest => rfl
        | other => rfl
    · rw [he] at hpl; cases hpl
  by_cases hpl : (gridPlan env g a).1.err = none
  · have := gridWith_agree env g a (some n) none (fun T hT k t ht => key T hT k t ht hpl)
    exact ⟨this.1, fun h => this.2 (this.1.2 h)⟩
  · have hne : ∀ d, (gridWith env g a d).err ≠ none := by
      intro d hd
      rcases gridWith_spec env g a d with ⟨al, gr, gp, e, h, hp⟩ | ⟨gr, T, hp, -⟩
      · rw [h] at hd; cases hd
      · rw [hp] at hpl; exact hpl rfl
    exact ⟨⟨fun h => absurd h (hne (some n)), fun h => absurd h (hne none)⟩, fun h => absurd h (hne none)⟩

private def call : GridCall := { alg := .cube, res := some 1 }
private def pair : Grid Tile := ((newSR 32 false).addPoints ⟨demoFields, [⟨30, 10, 5, 1, 1⟩, ⟨351/10, 10, 9, 1, 1⟩]⟩ "a" {}).st

/-- the depth in a cell of a tile -/
private def depthIn (t : Tile) (r c : Nat) : Option (Option ℚ) := ((t.cells.get? 1).bind (fun ls => ls.get? .depth)).bind (fun a => a.get? r c)

/-- **C25** does not hold: two tiles of 32, resolution 1.  The sequential run uses the soundings of the neighbour up to 3.2 from the border, the
parallel one only up to 3, so the sounding at distance 3.1 is passed on by the first only, and the depths differ (here CUBE answers with the mean). -/
theorem C25_violated : ∃ g A, SRHistory demoEnv 32 false demoFields .cube false g A ∧
    (grid demoEnv g call).err = none ∧ (gridDask demoEnv 2 g call).err = none ∧
    (∃ t, g.TileAt 0 0 t ∧ g.borderFor 0 t .cube (limitOf call (gridPlan demoEnv g call).2 none) none = .ok (some ⟨demoFields, [⟨351/10, 10, 9, 1, 1⟩]⟩) ∧
      g.borderFor 0 t .cube (limitOf call (gridPlan demoEnv g call).2 (some 2)) none = .ok none) ∧
    (∃ t, (grid demoEnv g call).st.TileAt 0 0 t ∧ depthIn t 10 30 = some (some 7)) ∧
    (∃ t, (gridDask demoEnv 2 g call).st.TileAt 0 0 t ∧ depthIn t 10 30 = some (some 5)) := by
  refine ⟨pair, _, (GridHistory.new .cube).add _ "a" {} (by decide +kernel), by decide +kernel, by decide +kernel, ?_, ?_, ?_⟩
  · obtain ⟨t, ht, hP⟩ := exists_tileAt_any (g := pair) (r := 0) (c := 0) (fun t =>
      decide (pair.borderFor 0 t .cube (limitOf call (gridPlan demoEnv pair call).2 none) none = .ok (some ⟨demoFields, [⟨351/10, 10, 9, 1, 1⟩]⟩)) &&
      decide (pair.borderFor 0 t .cube (limitOf call (gridPlan demoEnv pair call).2 (some 2)) none = .ok none)) (by decide +kernel)
    simp only [Bool.and_eq_true, decide_eq_true_eq] at hP
    exact ⟨t, ht, hP⟩
  · obtain ⟨t, ht, hP⟩ := exists_tileAt_any (g := (grid demoEnv pair call).st) (r := 0) (c := 0) (fun t => decide (depthIn t 10 30 = some (some 7))) (by decide +kernel)
    exact ⟨t, ht, of_decide_eq_true hP⟩
  · obtain ⟨t, ht, hP⟩ := exists_tileAt_any (g := (gridDask demoEnv 2 pair call).st) (r := 0) (c := 0) (fun t => decide (depthIn t 10 30 = some (some 5))) (by decide +kernel)
    exact ⟨t, ht, of_decide_eq_true hP⟩

/-- the hypotheses of C24 and C25 are met: the runs return for grids with several tiles; in the second the width is small enough -/
example : (grid demoEnv demoSR { alg := .mean, res := some 4 }).err = none ∧ (grid demoEnv demoVR { alg := .shoalest, res := none, clear := true }).err = none ∧
    (grid demoEnv demoSR { alg := .cube, res := some 1, clear := true }).err = none ∧
    (∀ T, demoSR.tiles = some T → ∀ (k : Nat) t w, T.flat[k]? = some (some t) → GridLike.width t = some w → w ≤ 30 * 1) := by
  refine ⟨by decide +kernel, by decide +kernel, by decide +kernel, ?_⟩
  have hd : ∀ o ∈ (demoSR.tiles.map (fun T => T.flat)).getD [], ∀ t ∈ o, t.width ≤ 30 := by decide +kernel
  intro T hT k t w ht hw
  rw [hT] at hd
  have hw : some t.width = some w := hw
  cases hw
  have := hd _ (List.mem_of_getElem? ht) t rfl
  linarith

end Bathy
