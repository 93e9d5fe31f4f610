import Verif.Lemmas.StoreReach
import Verif.Lemmas.Log
import Verif.Spec.DemoGrid

/-!
# Saving and loading (C54, C56)

`Grid.saveAllD b g d` is `g.save(folder)` for a folder with contents `d`; `Grid.loadD` reads a folder.  `g.Reloaded true u`: `u` has the attributes and tiles of
`g`, each tile with its soundings, containers, layers and cell indices (Spec/Reloaded.lean, Spec/Reread.lean).
-/

namespace Bathy
open Grid

/-- **C54** A single resolution grid that holds soundings is saved without error, whatever was in the folder, and loads to the same grid. -/
theorem C54_save_load_sr {env : Env} {size : ℚ} {bs : Bool} {fl : Fields} (hs : 0 < size) {F : Family} {s : Bool} {g : Grid Tile} {A : Store}
    (h : SRHistory env size bs fl F s g A) (hA : A ≠ []) (b : Backend) (d : Disk (Root TileFolder)) :
    (saveAllD b g d).err = none ∧ ∃ u, loadD (saveAllD b g d).st.now = .ok u ∧ g.Reloaded true u := by
  have hst := sr_storable hs h hA
  obtain ⟨R, h1, h2, h3⟩ := saveAll_holds tileSave b hst d (fun _ _ _ _ => trivial)
  obtain ⟨u, h4, h5⟩ := load_holds tileSave hst h3
  exact ⟨h1, u, by rw [h2]; exact h4, h5⟩

/-- **C54** A variable resolution grid that holds soundings is saved without error, and loads to the same grid, if the folder has nothing in the places of the
tiles that the grid does not have (for example a new folder, or a folder the same grid was saved to).  Missing: other folders, see `C54_violated`. -/
theorem C54_save_load_vr_partial {env : Env} {size sub : ℚ} {bs : Bool} {fl : Fields} (hs : 0 < size) (hpow : isPowerOfTwo sub = true) {F : Family} {s : Bool}
    {g : Grid (Grid Tile)} {A : Store} (h : VRHistory env size sub bs fl F s g A) (hA : A ≠ []) (b : Backend) (d : Disk (Root (GridFolder TileFolder)))
    (hd : ∀ k p, g.tile? k = some none → g.tileOrigin k = some p → tileFolder d.now p = none) :
    (saveAllD b g d).err = none ∧ ∃ u, loadD (saveAllD b g d).st.now = .ok u ∧ g.Reloaded true u := by
  have hst := vr_storable hs hpow h hA
  obtain ⟨R, h1, h2, h3⟩ := saveAll_holds (subSave tileSave (fun _ => trivial)) b hst d hd
  obtain ⟨u, h4, h5⟩ := load_holds (subSave tileSave (fun _ => trivial)) hst h3
  exact ⟨h1, u, by rw [h2]; exact h4, h5⟩

/-- **C54** What is loaded is again a reachable grid with the same soundings: all that is proved of reachable grids holds for it. -/
theorem C54_loaded_reachable_sr {env : Env} {size : ℚ} {bs : Bool} {fl : Fields} (hs : 0 < size) {F : Family} {s : Bool} {g u : Grid Tile} {A : Store}
    (h : SRHistory env size bs fl F s g A) (hA : A ≠ []) (hu : g.Reloaded true u) : SRHistory env size bs fl F s u A := by
  refine history_requeried h (requeried_reloaded (fun _ t v _ => requeried_tile env t v) hu ?_)
  obtain ⟨T, hT⟩ := (sr_storable hs h hA).shape
  rw [hT.tiles]; simp

theorem C54_loaded_reachable_vr {env : Env} {size sub : ℚ} {bs : Bool} {fl : Fields} (hs : 0 < size) (hpow : isPowerOfTwo sub = true) {F : Family} {s : Bool}
    {g u : Grid (Grid Tile)} {A : Store} (h : VRHistory env size sub bs fl F s g A) (hA : A ≠ []) (hu : g.Reloaded true u) : VRHistory env size sub bs fl F s u A := by
  have hst := vr_storable hs hpow h hA
  refine history_requeried h (requeried_reloaded (fun k t v hk hr => ?_) hu ?_)
  · obtain ⟨T, hT⟩ := (hst.tile k t hk).shape
    exact requeried_reloaded (fun _ t v _ => requeried_tile env t v) hr (by rw [hT.tiles]; simp)
  · obtain ⟨T, hT⟩ := hst.shape
    rw [hT.tiles]; simp

/-- the grids of the examples are saved and loaded -/
example (b : Backend) : (saveAllD b demoSRg ⟨none, []⟩).err = none ∧ ∃ u, loadD (saveAllD b demoSRg ⟨none, []⟩).st.now = .ok u ∧ demoSRg.Reloaded true u :=
  C54_save_load_sr (by norm_num) demoSRg_history (by simp [demoStore]) b _

example (b : Backend) : (saveAllD b demoVRg ⟨none, []⟩).err = none ∧ ∃ u, loadD (saveAllD b demoVRg ⟨none, []⟩).st.now = .ok u ∧ demoVRg.Reloaded true u :=
  C54_save_load_vr_partial (by norm_num) (by decide +kernel) demoVRg_history (by simp [demoStore]) b _ (fun _ _ _ _ => rfl)

theorem Except.exists_ok {α : Type} {x : Except Err α} {p : α → Prop} [DecidablePred p] (h : (match x with | .ok u => decide (p u) | .error _ => false) = true) :
    ∃ u, x = .ok u ∧ p u := by
  cases x with
  | error e => cases h
  | ok u => exact ⟨u, rfl, of_decide_eq_true h⟩

/-- a variable resolution grid with two soundings in the outer ones of three tiles, and one with a sounding in the middle one as well -/
def spreadVR (mid : List Pt) : Grid (Grid Tile) := ((newVR 32 16 false).addPoints ⟨demoFields, mid ++ [⟨3, 5, 10, 1, 1⟩, ⟨70, 5, 11, 1, 1⟩]⟩ "a" {}).st

/-- **C54 does not hold for every reachable grid.**  1. A grid without soundings (new, or after the last removal) is not saved: AttributeError.  2. A variable
resolution grid that is saved to a folder with an older grid leaves the tiles of the older grid there: the loaded grid has a tile, with soundings, that the saved
one does not have. -/
theorem C54_violated :
    ((saveAllD .numpy (newSR 16 false) ⟨none, []⟩).err = some .attributeError) ∧
    (∃ A B, VRHistory demoEnv 32 16 false demoFields .plain false (spreadVR [⟨40, 5, 10, 1, 1⟩]) A ∧ VRHistory demoEnv 32 16 false demoFields .plain false (spreadVR []) B) ∧
    (spreadVR []).tile? 1 = some none ∧
    (saveAllD .numpy (spreadVR []) (saveAllD .numpy (spreadVR [⟨40, 5, 10, 1, 1⟩]) ⟨none, []⟩).st).err = none ∧
    ∃ u : Grid (Grid Tile), loadD (saveAllD .numpy (spreadVR []) (saveAllD .numpy (spreadVR [⟨40, 5, 10, 1, 1⟩]) ⟨none, []⟩).st).st.now = .ok u ∧
      u.tile? 1 ≠ some none ∧ u.pointsCount = 3 ∧ (spreadVR []).pointsCount = 2 := by
  refine ⟨by decide +kernel, ⟨[("a", [⟨40, 5, 10, 1, 1⟩, ⟨3, 5, 10, 1, 1⟩, ⟨70, 5, 11, 1, 1⟩])], [("a", [⟨3, 5, 10, 1, 1⟩, ⟨70, 5, 11, 1, 1⟩])], ?_, ?_⟩,
    by decide +kernel, by decide +kernel, Except.exists_ok (by decide +kernel)⟩
  · exact (GridHistory.new .plain).add [⟨40, 5, 10, 1, 1⟩, ⟨3, 5, 10, 1, 1⟩, ⟨70, 5, 11, 1, 1⟩] "a" {} (by decide +kernel)
  · exact (GridHistory.new .plain).add [⟨3, 5, 10, 1, 1⟩, ⟨70, 5, 11, 1, 1⟩] "a" {} (by decide +kernel)

/-! ### the two backends -/

/-- **C56** One-dimensional arrays are the same with both backends; of two-dimensional arrays and of structured arrays the values are (an array without
elements loses its shape and its fields in the zarr backend). -/
theorem C56_arrays : (∀ (β : Type) (l : List β) (b : Backend), (b.store (some l)).value = l) ∧
    (∀ (β : Type) (a : Arr2 β) (b : Backend), (b.store (some a)).value.flat = a.flat ∧ (a.flat ≠ [] → (b.store (some a)).value = a)) ∧
    (∀ (a : PtArr) (b : Backend), (b.store (some a)).value.pts = a.pts ∧ (a.pts ≠ [] → (b.store (some a)).value = a)) ∧
    (∀ (β : Type) (b : Backend), (b.store (none : Option (List β))).value = [] ∧ (b.store (none : Option (Arr2 β))).value.flat = []) := by
  refine ⟨fun β l b => store_value b (properArr_list l), ?_, ?_, ?_⟩
  · intro β a b
    have : ∀ s : Stored (Arr2 β), s = b.store (some a) → s.value.flat = a.flat := by
      rintro s rfl
      cases b with
      | numpy => rfl
      | zarr =>
        unfold Backend.store
        simp only
        split
        · rename_i h; exact (List.eq_nil_of_length_eq_zero h).symm
        · rfl
    exact ⟨this _ rfl, fun h => store_value b (fun e => absurd (List.eq_nil_of_length_eq_zero e) h)⟩
  · intro a b
    have : ∀ s : Stored PtArr, s = b.store (some a) → s.value.pts = a.pts := by
      rintro s rfl
      cases b with
      | numpy => rfl
      | zarr =>
        unfold Backend.store
        simp only
        split
        · rename_i h; exact (List.eq_nil_of_length_eq_zero h).symm
        · rfl
    exact ⟨this _ rfl, fun h => store_value b (fun e => absurd (List.eq_nil_of_length_eq_zero e) h)⟩
  · intro β b; cases b <;> exact ⟨rfl, rfl⟩

/-- the shape of an empty array: `(0, 3)` with numpy, `(0,)` with zarr -/
example : (Backend.numpy.store (some (⟨0, 3, []⟩ : Arr2 Bool))).value = ⟨0, 3, []⟩ ∧ (Backend.zarr.store (some (⟨0, 3, []⟩ : Arr2 Bool))).value = ⟨0, 0, []⟩ := by decide +kernel

/-- **C56** A reachable grid saved with one backend loads to the same grid as with the other. -/
theorem C56_grids_sr {env : Env} {size : ℚ} {bs : Bool} {fl : Fields} (hs : 0 < size) {F : Family} {s : Bool} {g : Grid Tile} {A : Store}
    (h : SRHistory env size bs fl F s g A) (hA : A ≠ []) (b b' : Backend) (d d' : Disk (Root TileFolder)) :
    (loadD (saveAllD b g d).st.now : Except Err (Grid Tile)) = loadD (saveAllD b' g d').st.now := by
  have hst := sr_storable hs h hA
  obtain ⟨R, -, h2, h3⟩ := saveAll_holds tileSave b hst d (fun _ _ _ _ => trivial)
  obtain ⟨R', -, h2', h3'⟩ := saveAll_holds tileSave b' hst d' (fun _ _ _ _ => trivial)
  rw [h2, h2']
  exact load_unique tileSave_unique hst h3 h3'

theorem C56_grids_vr {env : Env} {size sub : ℚ} {bs : Bool} {fl : Fields} (hs : 0 < size) (hpow : isPowerOfTwo sub = true) {F : Family} {s : Bool}
    {g : Grid (Grid Tile)} {A : Store} (h : VRHistory env size sub bs fl F s g A) (hA : A ≠ []) (b b' : Backend) (d d' : Disk (Root (GridFolder TileFolder)))
    (hd : ∀ k p, g.tile? k = some none → g.tileOrigin k = some p → tileFolder d.now p = none)
    (hd' : ∀ k p, g.tile? k = some none → g.tileOrigin k = some p → tileFolder d'.now p = none) :
    (loadD (saveAllD b g d).st.now : Except Err (Grid (Grid Tile))) = loadD (saveAllD b' g d').st.now := by
  have hst := vr_storable hs hpow h hA
  obtain ⟨R, -, h2, h3⟩ := saveAll_holds (subSave tileSave (fun _ => trivial)) b hst d hd
  obtain ⟨R', -, h2', h3'⟩ := saveAll_holds (subSave tileSave (fun _ => trivial)) b' hst d' hd'
  rw [h2, h2']
  exact load_unique (subSave_unique tileSave_unique _) hst h3 h3'

example : (loadD (saveAllD .numpy demoVRg ⟨none, []⟩).st.now : Except Err (Grid (Grid Tile))) = loadD (saveAllD .zarr demoVRg ⟨none, []⟩).st.now :=
  C56_grids_vr (by norm_num) (by decide +kernel) demoVRg_history (by simp [demoStore]) _ _ _ _ (fun _ _ _ _ => rfl) (fun _ _ _ _ => rfl)

end Bathy
