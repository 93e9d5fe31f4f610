import Verif.Lemmas.DiskFollow
import Verif.Props.Disk

/-!
# Failing calls with an output folder (C69)

Data with other fields than the soundings that are there makes `add_points` raise after some tiles have changed; `remove_points` raises IndexError when the mask of a
variable resolution grid is old.  With an output folder the same error is raised, and the same grid is left in memory.
-/

namespace Bathy
open Grid

variable {env : Env} {b : Backend} {size sub : ℚ} {bs : Bool} {fl : Fields} {F : Family} {s exact : Bool} {A : Store}

/-- **C69** `add_points` with data of any fields and `remove_points` of any container, failing or not, raise the same and leave the same grid in memory, with an output folder
as without. -/
theorem C69_any_call_sr (hs : 0 < size) {g : Grid Tile} {d : Disk (Root TileFolder)} (h : SRDisk env b size bs fl F s exact g d A) :
    (∀ data c a, (addPointsD b data c a (g, d)).err = (g.addPoints data c a).err ∧ (addPointsD b data c a (g, d)).st.1 = (g.addPoints data c a).st) ∧
    (∀ c, (removePointsD b c (g, d)).err = (g.removePoints c).err ∧ (removePointsD b c (g, d)).st.1 = (g.removePoints c).st) := by
  obtain ⟨h1, h2⟩ := sr_disk hs h
  have hi := (sr_inv hs h1).1
  have hd := inStep_tsync hi h2
  exact ⟨fun data c a => disk_add_follow (tileFollow env F size 0 bs fl data.fields hs) hs b hi hd data.pts c a, fun c => disk_remove_follow (tileDisk env size 0 bs fl hs) hs b hi hd c⟩

/-- **C69** (variable resolution) -/
theorem C69_any_call_vr (hs : 0 < size) (hpow : isPowerOfTwo sub = true) {g : Grid (Grid Tile)} {d : Disk (Root (GridFolder TileFolder))}
    (h : VRDisk env b size sub bs fl F s exact g d A) :
    (∀ data c a, (addPointsD b data c a (g, d)).err = (g.addPoints data c a).err ∧ (addPointsD b data c a (g, d)).st.1 = (g.addPoints data c a).st) ∧
    (∀ c, (removePointsD b c (g, d)).err = (g.removePoints c).err ∧ (removePointsD b c (g, d)).st.1 = (g.removePoints c).st) := by
  obtain ⟨h1, h2⟩ := vr_disk hs hpow h
  have hi := (vr_inv hs hpow h1).1
  have hd := inStep_tsync hi h2
  exact ⟨fun data c a => disk_add_follow (subFollow (size := size) (bs := bs) (tileFollow env F sub 0 false fl data.fields (isPowerOfTwo_pos hpow)) hs hpow) hs b hi hd data.pts c a,
    fun c => disk_remove_follow (subDisk (size := size) (bs := bs) (tileDisk env sub 0 false fl (isPowerOfTwo_pos hpow)) hs hpow) hs b hi hd c⟩

/-- data without uncertainties, for a grid whose soundings have them: a new tile is made, then the tile with soundings raises -/
def mixedData : PtArr := ⟨{}, [⟨-20, 3, 10, 0, 0⟩, ⟨3, 3, 10, 0, 0⟩, ⟨20, 3, 11, 0, 0⟩]⟩

example (b : Backend) : (addPointsD b mixedData "c" {} (diskSR b)).err = some .typeError ∧
    (addPointsD b mixedData "c" {} (diskSR b)).st.1 = ((diskSR b).1.addPoints mixedData "c" {}).st ∧ (addPointsD b mixedData "c" {} (diskSR b)).st.1.tiles ≠ (diskSR b).1.tiles :=
  have h := (C69_any_call_sr (by norm_num) (diskSR_history b)).1 mixedData "c" {}
  ⟨h.1.trans (by cases b <;> decide +kernel), h.2, by rw [h.2]; cases b <;> decide +kernel⟩

example (b : Backend) : (addPointsD b mixedData "c" {} (diskVR b)).err = some .typeError ∧
    (addPointsD b mixedData "c" {} (diskVR b)).st.1 = ((diskVR b).1.addPoints mixedData "c" {}).st :=
  have h := (C69_any_call_vr (by norm_num) (by decide +kernel) (diskVR_history b)).1 mixedData "c" {}
  ⟨h.1.trans (by cases b <;> decide +kernel), h.2⟩

/-- soundings in more tiles -/
def demoFar : List Pt := [⟨3, 3, 10, 1, 1⟩, ⟨100, 100, 10, 1, 1⟩]

/-- a grid with a folder, from which one of two containers was removed -/
def diskHalf (b : Backend) : Grid Tile × Disk (Root TileFolder) :=
  (removePointsD b "a" (addPointsD b ⟨demoFields, demoB⟩ "b" {} (addPointsD b ⟨demoFields, demoA⟩ "a" {} (newSR 16 false, ⟨none, []⟩)).st).st).st

theorem diskHalf_history (b : Backend) : SRDisk demoEnv b 16 false demoFields .plain false true (diskHalf b).1 (diskHalf b).2 [("b", demoB)] :=
  (((DiskHistory.new .plain ⟨none, []⟩ rfl).add demoA "a" {} (by decide +kernel)).add demoB "b" {} (by cases b <;> decide +kernel)).remove "a"
    (by cases b <;> decide +kernel)

/-- the grid is emptied -/
def diskEmptied (b : Backend) : Grid Tile × Disk (Root TileFolder) := (removePointsD b "b" (diskHalf b)).st

theorem diskEmptied_history (b : Backend) : SRDisk demoEnv b 16 false demoFields .plain true true (diskEmptied b).1 (diskEmptied b).2 [] :=
  (diskHalf_history b).remove "b" (by cases b <;> decide +kernel)

/-- the grid of `C08_violated` with a folder: filled by a larger container after it was emptied -/
def diskStale (b : Backend) : Grid Tile × Disk (Root TileFolder) := (addPointsD b ⟨demoFields, demoFar⟩ "c" {} (diskEmptied b)).st

theorem diskStale_history (b : Backend) : SRDisk demoEnv b 16 false demoFields .plain true false (diskStale b).1 (diskStale b).2 [("c", demoFar)] :=
  (diskEmptied_history b).add demoFar "c" {} (by cases b <;> decide +kernel)

example (b : Backend) : (removePointsD b "c" ((diskStale b).1, (diskStale b).2)).err = some .indexError ∧
    (removePointsD b "c" ((diskStale b).1, (diskStale b).2)).st.1 = ((diskStale b).1.removePoints "c").st :=
  have h := (C69_any_call_sr (by norm_num) (diskStale_history b)).2 "c"
  ⟨h.1.trans (by cases b <;> decide +kernel), h.2⟩

end Bathy
