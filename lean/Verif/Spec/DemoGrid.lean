import Verif.Spec.Histories
import Verif.Spec.Points
import Verif.Spec.DemoEnv

/-!
# Concrete grids for the examples
-/

namespace Bathy

def demoFields : Fields := { hasTvu := true, hasThu := true }

def demoA : List Pt := [⟨3, 5, 10, 1, 1⟩, ⟨20, 5, 11, 1, 2⟩, ⟨21, 40, 32, 2, 1⟩]
def demoB : List Pt := [⟨3, 6, 13, 1, 1⟩, ⟨-20, 70, 14, 3, 1⟩, ⟨4, 6, 12, 1, 1⟩]
def demoC : List Pt := [⟨18, 20, 9, 1, 1⟩, ⟨35, 44, 40, 2, 2⟩]

/-- what is left in the demo grids -/
def demoStore : Store := [("b", demoB), ("c", demoC)]

/-- arguments of `add_points` with a coordinate system -/
def demoArgs : AddArgs := { crs := some (.code 26919) }

/-- a single resolution grid: add, add, grid, remove, add -/
def demoSR : Grid Tile :=
  (((((((newSR 16 false).addPoints ⟨demoFields, demoA⟩ "a" demoArgs).st.addPoints ⟨demoFields, demoB⟩ "b" {}).st.gridWith demoEnv { alg := .mean, res := some 2 } (some 2)).st.removePoints "a").st).addPoints
    ⟨demoFields, demoC⟩ "c" {}).st

/-- a variable resolution grid: add, add, grid, remove, add -/
def demoVR : Grid (Grid Tile) :=
  (((((((newVR 32 16 false).addPoints ⟨demoFields, demoA⟩ "a" demoArgs).st.addPoints ⟨demoFields, demoB⟩ "b" {}).st.gridWith demoEnv { alg := .mean, res := some 2 } (some 2)).st.removePoints "a").st).addPoints
    ⟨demoFields, demoC⟩ "c" {}).st

theorem demoSR_history : SRHistory demoEnv 16 false demoFields .plain false demoSR demoStore :=
  (((((GridHistory.new .plain).add demoA "a" demoArgs (by decide +kernel)).add demoB "b" {} (by decide +kernel)).grid { alg := .mean, res := some 2 } rfl (some 2)).remove "a"
    (by decide +kernel)).add demoC "c" {} (by decide +kernel)

theorem demoVR_history : VRHistory demoEnv 32 16 false demoFields .plain false demoVR demoStore :=
  (((((GridHistory.new .plain).add demoA "a" demoArgs (by decide +kernel)).add demoB "b" {} (by decide +kernel)).grid { alg := .mean, res := some 2 } rfl (some 2)).remove "a"
    (by decide +kernel)).add demoC "c" {} (by decide +kernel)

/-- the demo grids, gridded again -/
def demoSRg : Grid Tile := (demoSR.gridWith demoEnv { alg := .mean, res := some 8 } none).st
def demoVRg : Grid (Grid Tile) := (demoVR.gridWith demoEnv { alg := .mean, res := some 8 } none).st

theorem demoSRg_history : SRHistory demoEnv 16 false demoFields .plain false demoSRg demoStore := demoSR_history.grid { alg := .mean, res := some 8 } rfl none
theorem demoVRg_history : VRHistory demoEnv 32 16 false demoFields .plain false demoVRg demoStore := demoVR_history.grid { alg := .mean, res := some 8 } rfl none

end Bathy
