import Verif.Model.Summary
import Verif.Spec.DemoGrid
import Verif.Props.AutoResolution
import Verif.Lemmas.GridExtents

/-!
# C84: what a grid says of itself

Model: `Grid.hasVerticalUncertainty`, `hasHorizontalUncertainty`, `hasTiles` (bathygrid/bgrid.py:130-194), `Grid.noGrid` (bathygrid/bgrid.py:104-128).
-/

namespace Bathy
open Grid

variable {env : Env} {size sub : ℚ} {bs s : Bool} {fl : Fields} {F : Family} {A : Store}

/-- the tiles of a grid in the order of the array -/
theorem present_ready {τ : Type} [TileLike τ] {C : ChildSpec τ size sub bs fl} (hs : 0 < size) {x0 y0 : ℚ} {nx ny : Nat} {T : Arr2 (Option τ)} {g : Grid τ}
    (h : Ready C x0 y0 nx ny T g A) (hA : A ≠ []) (hne : ∀ q ∈ A, q.2 ≠ []) : g.present ≠ [] ∧ ∀ t ∈ g.present, ∃ x y B, C.Rep x y t B := by
  unfold present
  rw [h.tiles]
  constructor
  · have h1 := tilesRep_empty C hs h.rep h.inr hne
    simp only [hA, decide_false, Bool.not_false, List.any_eq_true] at h1
    obtain ⟨o, ho, h2⟩ := h1
    obtain ⟨t, rfl⟩ := Option.isSome_iff_exists.1 h2
    exact List.ne_nil_of_mem (List.mem_filterMap.2 ⟨some t, ho, rfl⟩)
  · intro t ht
    obtain ⟨o, ho, h1⟩ := List.mem_filterMap.1 ht
    simp only [id] at h1
    subst h1
    obtain ⟨k, hk⟩ := List.mem_iff_getElem?.1 ho
    rcases h.rep.2.2.2 k (some t) hk with ⟨h1, -⟩ | ⟨u, h1, -, h2⟩
    · cases h1
    · cases h1; exact ⟨_, _, _, h2⟩

theorem present_grow {τ : Type} [TileLike τ] {C : ChildSpec τ size sub bs fl} (hs : 0 < size) {g : Grid τ} (h : GrowInv C g A) :
    (A = [] ∧ g.tiles = none ∧ g.present = []) ∨ (A ≠ [] ∧ (∃ T, g.tiles = some T) ∧ g.present ≠ [] ∧ ∀ t ∈ g.present, ∃ x y B, C.Rep x y t B) := by
  rcases h.body with ⟨h1, h2, -⟩ | ⟨h1, i, j, nx, ny, T, hf, -⟩
  · exact .inl ⟨h1, h2, by unfold present; rw [h2]⟩
  · exact .inr ⟨h1, ⟨T, hf.tiles⟩, present_ready hs hf.toReady h1 h.ne⟩

theorem fieldsSeen_sub (hs : 0 < size) {x y : ℚ} {u : Grid Tile} {B : Store} {env : Env} (h : SubInv (tileSpec env F size 0 false fl hs) sub x y u B) : FieldsSeen.fieldsSeen u = some fl := by
  obtain ⟨T, hf⟩ := h.frame
  obtain ⟨h1, h2⟩ := present_ready hs hf.toReady h.nonempty h.ne
  show (u.present.getLast?.bind FieldsSeen.fieldsSeen) = some fl
  rw [List.getLast?_eq_some_getLast h1]
  obtain ⟨x, y, B, hb⟩ := h2 _ (List.getLast_mem h1)
  show (u.present.getLast h1).data.map PtArr.fields = some fl
  rw [history_data hs hb.1]
  rfl

theorem hasField_grow {τ : Type} [TileLike τ] [FieldsSeen τ] {C : ChildSpec τ size sub bs fl} (hs : 0 < size) {g : Grid τ} (h : GrowInv C g A)
    (hC : ∀ x y t B, C.Rep x y t B → FieldsSeen.fieldsSeen t = some fl) (name : Fields → Bool) : g.hasField name = (!A.isEmpty && name fl) := by
  unfold hasField
  rcases present_grow hs h with ⟨h1, h2, -⟩ | ⟨h1, ⟨T, h2⟩, h3, h4⟩
  · rw [h2, h1]; rfl
  · obtain ⟨x, y, B, hb⟩ := h4 _ (List.head_mem h3)
    rw [h2, List.head?_eq_some_head h3]
    simp only [hC _ _ _ _ hb]
    cases A with
    | nil => exact absurd rfl h1
    | cons a l => rfl

/-- **C84, partial** (single resolution, data of one kind): a grid says that it has vertical or horizontal uncertainty exactly when it has points and they have that field; it says that it has
tiles exactly when it has points.  Missing: containers with different fields, see `C84_violated`. -/
theorem C84_fields_sr_partial (hs : 0 < size) {g : Grid Tile} (h : SRHistory env size bs fl F s g A) :
    (g.hasVerticalUncertainty = true ↔ A ≠ [] ∧ fl.hasTvu = true) ∧ (g.hasHorizontalUncertainty = true ↔ A ≠ [] ∧ fl.hasThu = true) ∧ (g.hasTiles = true ↔ A ≠ []) := by
  have hi := (sr_inv hs h).1
  have hC : ∀ x y (t : Tile) B, (tileSpec env F size 0 bs fl hs).Rep x y t B → FieldsSeen.fieldsSeen t = some fl := by
    intro x y t B hb
    show t.data.map PtArr.fields = some fl
    rw [history_data hs hb.1]; rfl
  unfold hasVerticalUncertainty hasHorizontalUncertainty
  rw [hasField_grow hs hi hC, hasField_grow hs hi hC]
  refine ⟨by simp, by simp, ?_⟩
  unfold hasTiles
  rcases present_grow hs hi with ⟨h1, -, h3⟩ | ⟨h1, -, h3, -⟩
  · rw [h3, h1]; simp
  · obtain ⟨t, ht⟩ := List.exists_mem_of_ne_nil _ h3
    simp only [ne_eq, h1, not_false_iff, iff_true, List.any_eq_true]
    exact ⟨t, ht, rfl⟩

/-- **C84, partial** (variable resolution): such a grid never says that it has tiles, as it has subgrids. -/
theorem C84_fields_vr_partial (hs : 0 < size) (hpow : isPowerOfTwo sub = true) {g : Grid (Grid Tile)} (h : VRHistory env size sub bs fl F s g A) :
    (g.hasVerticalUncertainty = true ↔ A ≠ [] ∧ fl.hasTvu = true) ∧ (g.hasHorizontalUncertainty = true ↔ A ≠ [] ∧ fl.hasThu = true) ∧ g.hasTiles = false := by
  have hi := (vr_inv hs hpow h).1
  have hC : ∀ x y (t : Grid Tile) B, (subSpec (bs := bs) (tileSpec env F sub 0 false fl (isPowerOfTwo_pos hpow)) hs hpow).Rep x y t B → FieldsSeen.fieldsSeen t = some fl :=
    fun x y t B hb => fieldsSeen_sub (isPowerOfTwo_pos hpow) hb
  unfold hasVerticalUncertainty hasHorizontalUncertainty
  rw [hasField_grow hs hi hC, hasField_grow hs hi hC]
  refine ⟨by simp, by simp, ?_⟩
  unfold hasTiles
  rw [List.any_eq_false]
  intro t _
  show ¬ (false = true)
  simp

/-- some tile of the grid has layers -/
def GriddedSR (g : Grid Tile) : Prop := ∃ r c t, g.TileAt r c t ∧ t.cells ≠ []

/-- some tile of some subgrid has layers -/
def GriddedVR (g : Grid (Grid Tile)) : Prop := ∃ r c u, g.TileAt r c u ∧ GriddedSR u

/-- **C84, partial** (single resolution): `no_grid` never raises; it is True when no tile has layers, and False when all tiles have (and there are points).  Missing: when some tiles have layers
and others do not, the first tile decides, see `C84_violated`. -/
theorem C84_no_grid_sr_partial (hs : 0 < size) {g : Grid Tile} (h : SRHistory env size bs fl F s g A) :
    (∃ b, g.noGrid = .ok b) ∧ (¬ GriddedSR g → g.noGrid = .ok true) ∧ (A ≠ [] → (∀ r c t, g.TileAt r c t → t.cells ≠ []) → g.noGrid = .ok false) := by
  have hi := (sr_inv hs h).1
  have hwf := (grow_reps hi).2
  rcases present_grow hs hi with ⟨h1, h2, -⟩ | ⟨h1, ⟨T, h2⟩, h3, h4⟩
  · have : g.noGrid = .ok true := by unfold noGrid; rw [h2]
    exact ⟨⟨_, this⟩, fun _ => this, fun h => absurd h1 h⟩
  · have key : g.noGrid = .ok (!!(g.present.head h3).cells.isEmpty) := by
      unfold noGrid
      rw [h2, List.head?_eq_some_head h3]
      rfl
    obtain ⟨i, j, ht⟩ := (mem_present hwf).1 (List.head_mem h3)
    refine ⟨⟨_, key⟩, fun hn => ?_, fun _ hall => ?_⟩
    · rw [key]
      by_cases hc : (g.present.head h3).cells = []
      · rw [hc]; rfl
      · exact absurd ⟨i, j, _, ht, hc⟩ hn
    · rw [key]
      have := hall i j _ ht
      cases hc : (g.present.head h3).cells with
      | nil => exact absurd hc this
      | cons a l => rfl

/-- **C84, partial** (variable resolution) -/
theorem C84_no_grid_vr_partial (hs : 0 < size) (hpow : isPowerOfTwo sub = true) {g : Grid (Grid Tile)} (h : VRHistory env size sub bs fl F s g A) :
    (∃ b, g.noGrid = .ok b) ∧ (¬ GriddedVR g → g.noGrid = .ok true) ∧ (A ≠ [] → (∀ r c u, g.TileAt r c u → ∀ r' c' t, u.TileAt r' c' t → t.cells ≠ []) → g.noGrid = .ok false) := by
  have hi := (vr_inv hs hpow h).1
  have hsub := isPowerOfTwo_pos hpow
  have hwf := (grow_reps hi).2
  rcases present_grow hs hi with ⟨h1, h2, -⟩ | ⟨h1, ⟨T, h2⟩, h3, h4⟩
  · have : g.noGrid = .ok true := by unfold noGrid; rw [h2]
    exact ⟨⟨_, this⟩, fun _ => this, fun h => absurd h1 h⟩
  · obtain ⟨x, y, B, hb⟩ := h4 _ (List.head_mem h3)
    generalize hu : g.present.head h3 = u at hb
    have hb' : SubInv (tileSpec env F sub 0 false fl hsub) size x y u B := hb
    obtain ⟨T', hf⟩ := hb'.frame
    obtain ⟨h5, -⟩ := present_ready hsub hf.toReady hb'.nonempty hb'.ne
    have hwf' : ∀ T, u.tiles = some T → T.WF := by
      intro T0 hT0
      rw [hf.tiles] at hT0; cases hT0
      show T'.flat.length = T'.rows * T'.cols
      rw [hf.rep.2.2.1, hf.rep.1, hf.rep.2.1]
    have key : g.noGrid = .ok (!!(u.present.getLast h5).cells.isEmpty) := by
      unfold noGrid
      rw [h2, List.head?_eq_some_head h3, hu]
      show (Grid.probe u).map _ = _
      unfold Grid.probe
      rw [List.getLast?_eq_some_getLast h5]
      rfl
    obtain ⟨i, j, ht⟩ := (mem_present hwf).1 (List.head_mem h3)
    rw [hu] at ht
    obtain ⟨i', j', ht'⟩ := (mem_present hwf').1 (List.getLast_mem h5)
    refine ⟨⟨_, key⟩, fun hn => ?_, fun _ hall => ?_⟩
    · rw [key]
      by_cases hc : (u.present.getLast h5).cells = []
      · rw [hc]; rfl
      · exact absurd ⟨i, j, u, ht, i', j', _, ht', hc⟩ hn
    · rw [key]
      have := hall i j u ht i' j' _ ht'
      cases hc : (u.present.getLast h5).cells with
      | nil => exact absurd hc this
      | cons a l => rfl

private def late0 : Grid Tile := ((newSR 16 false).addPoints ⟨{}, [⟨20, 20, 5, 0, 0⟩]⟩ "a" {}).st
private def late1 : Grid Tile := (late0.gridWith demoEnv { alg := .mean, res := some 8 } none).st
private def late : Grid Tile := (late1.addPoints ⟨{}, [⟨1, 1, 7, 0, 0⟩]⟩ "b" {}).st

/-- **C84** does not hold, I: after `grid()` and a later `add_points` whose points lie before the others, the grid says that it has no grid, although a tile has layers, and the layers can
not be read any more. -/
theorem C84_violated : SRHistory demoEnv 16 false {} .plain false late [("a", [⟨20, 20, 5, 0, 0⟩]), ("b", [⟨1, 1, 7, 0, 0⟩])] ∧ GriddedSR late ∧ late.noGrid = .ok true ∧
    (late1.getLayersByName demoEnv [.depth] (some 8) none false).2.toOption.isSome = true ∧ (late.getLayersByName demoEnv [.depth] (some 8) none false).2 = .error .valueError := by
  refine ⟨(((GridHistory.new .plain).add [⟨20, 20, 5, 0, 0⟩] "a" {} (by decide +kernel)).grid { alg := .mean, res := some 8 } rfl none).add [⟨1, 1, 7, 0, 0⟩] "b" {} (by decide +kernel),
    ?_, by decide +kernel, by decide +kernel, by decide +kernel⟩
  obtain ⟨t, h1, h2⟩ := Grid.exists_tileAt_any (g := late) (r := 1) (c := 1) (fun t => !t.cells.isEmpty) (by decide +kernel)
  exact ⟨1, 1, t, h1, by intro h0; rw [h0] at h2; exact absurd h2 (by decide)⟩

private def mixed : Grid Tile := (((newSR 16 false).addPoints ⟨{}, [⟨1, 1, 5, 0, 0⟩]⟩ "a" {}).st.addPoints ⟨{ hasTvu := true, hasThu := true }, [⟨20, 20, 5, 1, 1⟩]⟩ "b" {}).st

/-- **C84** does not hold, II: with one container without and one with uncertainties, in different tiles, both calls succeed, and the grid says that it has none. -/
theorem C84_violated_fields : ((newSR 16 false).addPoints ⟨{}, [⟨1, 1, 5, 0, 0⟩]⟩ "a" {}).err = none ∧
    (((newSR 16 false).addPoints ⟨{}, [⟨1, 1, 5, 0, 0⟩]⟩ "a" {}).st.addPoints ⟨{ hasTvu := true, hasThu := true }, [⟨20, 20, 5, 1, 1⟩]⟩ "b" {}).err = none ∧
    mixed.hasVerticalUncertainty = false ∧ mixed.hasHorizontalUncertainty = false ∧ ∃ t, mixed.TileAt 1 1 t ∧ t.data = some ⟨{ hasTvu := true, hasThu := true }, [⟨20, 20, 5, 1, 1⟩]⟩ := by
  refine ⟨by decide +kernel, by decide +kernel, by decide +kernel, by decide +kernel, ?_⟩
  obtain ⟨t, h1, h2⟩ := Grid.exists_tileAt_any (g := mixed) (r := 1) (c := 1) (fun t => decide (t.data = some ⟨{ hasTvu := true, hasThu := true }, [⟨20, 20, 5, 1, 1⟩]⟩)) (by decide +kernel)
  exact ⟨t, h1, of_decide_eq_true h2⟩

/-- the hypotheses of C84 are met, with all tiles gridded and with none -/
example : SRHistory demoEnv 16 false demoFields .plain false demoSRg demoStore ∧ VRHistory demoEnv 32 16 false demoFields .plain false demoVRg demoStore ∧ demoStore ≠ [] ∧ isPowerOfTwo 16 = true ∧
    demoSRg.noGrid = .ok false ∧ demoVRg.noGrid = .ok false ∧ late0.noGrid = .ok true ∧ demoVRg.hasVerticalUncertainty = true :=
  ⟨demoSRg_history, demoVRg_history, by decide +kernel, by decide +kernel, by decide +kernel, by decide +kernel, by decide +kernel, by decide +kernel⟩

end Bathy
