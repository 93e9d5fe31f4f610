import Verif.Lemmas.Session
import Verif.Props.Disk

/-!
# Saving and going on (C87)

`SRReached`, `VRReached`: grids that were made in memory or with an output folder, with calls of `add_points`, `remove_points`, `grid`, `save` and queries in any order
(Spec/Sessions.lean).  `S.disk p` is the folder with the path `p`, `S.out` the output folder of the grid.
-/

namespace Bathy
open Grid

variable {env : Env} {b : Backend} {size sub : ℚ} {bs : Bool} {fl : Fields} {F : Family} {s exact : Bool} {A : Store}

/-- **C87** (part) Whatever was done before and after `save`, a new grid object that loads the output folder becomes the grid in memory (up to the two attributes of `C55`). -/
theorem C87_output_folder_sr_partial (hs : 0 < size) {S : Session Tile TileFolder} (h : SRReached env b size bs fl F s exact S A) (hA : A ≠ []) {p : String} (hp : S.out = some p)
    (g1 : Grid Tile) (out1 : Option String) :
    ∃ u, Session.load (some p) ⟨g1, out1, S.disk⟩ = .ok ⟨u, some p, S.disk⟩ ∧ S.grid.Reloaded exact u ∧ (Holds.all u).Perm A.allPts := by
  obtain ⟨h1, h2⟩ := reached_sound (fun h => (sr_disk hs h).1) h
  obtain ⟨h3, h4⟩ := h2 p hp
  obtain ⟨u, e1, e2, e3, -⟩ := C55_folder_loads_sr_partial hs h4 hA
  refine ⟨u, ?_, e2, e3⟩
  unfold Session.load
  rw [named_some h3]
  simp only [e1]

/-- **C87** (part, variable resolution; empty subgrids may appear as in `C55`) -/
theorem C87_output_folder_vr_partial (hs : 0 < size) (hpow : isPowerOfTwo sub = true) {S : Session (Grid Tile) (GridFolder TileFolder)}
    (h : VRReached env b size sub bs fl F s exact S A) (hA : A ≠ []) {p : String} (hp : S.out = some p) (g1 : Grid (Grid Tile)) (out1 : Option String) :
    ∃ u, Session.load (some p) ⟨g1, out1, S.disk⟩ = .ok ⟨u, some p, S.disk⟩ ∧ S.grid.Reloaded false u ∧ (Holds.all u).Perm A.allPts := by
  obtain ⟨h1, h2⟩ := reached_sound (fun h => (vr_disk hs hpow h).1) h
  obtain ⟨h3, h4⟩ := h2 p hp
  obtain ⟨u, e1, e2, e3, -⟩ := C55_folder_loads_vr_partial hs hpow h4 hA
  refine ⟨u, ?_, e2, e3⟩
  unfold Session.load
  rw [named_some h3]
  simp only [e1]

/-- the calls on a grid object -/
inductive SomeCall (env : Env) (b : Backend) {τ φ : Type} [DiskLike τ φ] (S : Session τ φ) : Res (Session τ φ) → Prop
  | add (dt : PtArr) (c : String) (a : AddArgs) : SomeCall env b S (S.addPoints b dt c a)
  | remove (c : String) : SomeCall env b S (S.removePoints b c)
  | grid (a : GridCall) (dask : Option Nat) : SomeCall env b S (S.gridRun env b a dask)
  | save (folder : Option String) : SomeCall env b S (S.save b folder)
  | load (folder : Option String) : SomeCall env b S (S.load folder)

/-- **C87** A call, failing or not, only writes to the folder that is the output folder of the grid after it: a grid that was saved to a folder and then to another one is
still in the first one as it was. -/
theorem C87_one_folder {τ φ : Type} [DiskLike τ φ] {S : Session τ φ} {r : Res (Session τ φ)} (h : SomeCall env b S r) {q : String} (hq : r.st.out ≠ some q) :
    r.st.disk q = S.disk q := by
  cases h with
  | add dt c a =>
    obtain ⟨h1, h2⟩ := run_disk S (fun g => g.addPoints dt c a) (addPointsD b dt c a)
    exact h2 q (fun e => hq (h1.trans e))
  | remove c =>
    obtain ⟨h1, h2⟩ := run_disk S (fun g => g.removePoints c) (removePointsD b c)
    exact h2 q (fun e => hq (h1.trans e))
  | grid a dask =>
    obtain ⟨h1, h2⟩ := run_disk S (fun g => g.gridWith env a dask) (gridWithD env b a dask)
    exact h2 q (fun e => hq (h1.trans e))
  | save folder =>
    unfold Session.save at hq ⊢
    split
    · rfl
    · rename_i p hp
      rw [hp] at hq
      exact setFolder_ne _ (fun e => hq (by rw [e])) _
  | load folder =>
    unfold Session.load
    split
    · rfl
    · split <;> rfl

/-! ### examples -/

/-- no folders -/
def noFolders {φ : Type} : String → Disk (Root φ) := fun _ => ⟨none, []⟩

/-- made in memory, saved to one folder, changed, saved to a second one, changed -/
def savedTwice (b : Backend) : Session Tile TileFolder :=
  ((((((⟨newSR 16 false, none, noFolders⟩ : Session Tile TileFolder).addPoints b ⟨demoFields, demoA⟩ "a" {}).st.save b (some "one")).st.addPoints b ⟨demoFields, demoB⟩ "b" {}).st.save b
    (some "two")).st.removePoints b "a").st

theorem savedTwice_reached (b : Backend) : SRReached demoEnv b 16 false demoFields .plain false true (savedTwice b) [("b", demoB)] :=
  (((((Reached.new .plain noFolders).add demoA "a" {} (by decide +kernel)).save (by simp) "one" (by decide) (overwritten_new _ rfl)).add demoB "b" {} (by cases b <;> decide +kernel)).save (by simp) "two"
    (by decide) (overwritten_new _ (by cases b <;> rfl))).remove "a" (by cases b <;> decide +kernel)

example (b : Backend) : ∃ u, Session.load (some "two") ⟨newSR 32 true, none, (savedTwice b).disk⟩ = .ok ⟨u, some "two", (savedTwice b).disk⟩ ∧ (savedTwice b).grid.Reloaded true u ∧
    (Holds.all u).Perm (Store.allPts [("b", demoB)]) :=
  C87_output_folder_sr_partial (by norm_num) (savedTwice_reached b) (by simp) rfl _ _

example (b : Backend) : ((savedTwice b).removePoints b "b").st.disk "one" = (savedTwice b).disk "one" ∧ ((savedTwice b).disk "one").now ≠ none :=
  ⟨C87_one_folder (.remove (env := demoEnv) "b") (by cases b <;> decide +kernel), by cases b <;> decide +kernel⟩

/-- **C87 does not hold**: `save()` without a folder writes nothing and raises nothing.  1. A grid with an output folder, after its first `add_points`: the folder has no number of
tiles (`C55_violated`); after `save()` it still has none.  2. A grid in memory: nothing is written, no error tells so. -/
theorem C87_violated :
    (∃ S : Session Tile TileFolder, SRReached demoEnv .numpy 16 false demoFields .plain false false S [("a", demoA)] ∧ S.out = some "one" ∧ (S.save .numpy none).err = none ∧
      S.grid.numberOfTiles = some 3 ∧ ∃ u : Grid Tile, loadD ((S.save .numpy none).st.disk "one").now = .ok u ∧ u.numberOfTiles = none) ∧
    (∃ S : Session Tile TileFolder, SRReached demoEnv .numpy 16 false demoFields .plain false false S [("a", demoA)] ∧ S.out = none ∧ (S.save .numpy none).err = none ∧
      ∀ p, ((S.save .numpy none).st.disk p).now = none) :=
  ⟨⟨_, (Reached.create .plain "one" noFolders (by decide) rfl).add demoA "a" {} (by decide +kernel), rfl, rfl, by decide +kernel, Except.exists_ok (by decide +kernel)⟩,
    ⟨_, (Reached.new .plain noFolders).add demoA "a" {} (by decide +kernel), rfl, rfl, fun _ => rfl⟩⟩

end Bathy
