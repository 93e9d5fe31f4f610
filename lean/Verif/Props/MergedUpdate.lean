import Verif.Props.Merged
import Verif.Props.ContainerUpdate

/-!
# C125 for grids that are kept up to date
-/

namespace Bathy
open Grid

variable {env : Env} {size sub : ℚ} {bs : Bool} {fl : Fields} {F : Family} {s up : Bool} {A A' : Store} {a a0 : GridCall} {r : ℚ} {d0 da : Option Nat}

/-- **C125** (single resolution grids, kept up to date): the shoalest surface is made up of the surfaces of the containers also after updates of the changed tiles only -/
theorem C125_containers_update_sr (hs : 0 < size) {g g1 : Grid Tile} (h : SRHistory env size false fl F s g A) (ha0 : a0.alg = .shoalest) (hr0 : a0.res = some r)
    (hv0 : a0.regrid = .full ∨ a0.clear = true) (hF : F = .plain ∨ a0.clear = true) {n : Nat} (hn : size = n * r) (hok0 : (g.gridWith env a0 d0).err = none)
    (hsince : Since env fl a0.alg r (g.gridWith env a0 d0).st A g1 A') (ha : a.alg = a0.alg) (har : a.res = some r) (hok : (g1.gridWith env a da).err = none)
    {v : Grid Tile} (hu : Requeried env (g1.gridWith env a da).st v) {zUp : Bool} (hup : up = true ↔ (zUp = true ↔ ¬ StoredUp v)) :
    ∃ arr, (v.getLayersByName env [.depth] (some r) none zUp).2 = .ok (some [arr]) ∧
      (∀ c ∈ A'.names, (v.getLayersByName env [.cont c] (some r) none zUp).2.isOk = true) ∧
      MadeUp up A'.names (fun c => shownBy (v.getLayersByName env [.cont c] (some r) none zUp).2) arr := by
  obtain ⟨e, arr, he, hq, hsurf⟩ := C113_update_surface_sr hs h (.inr ha0) hr0 hv0 hF hn hok0 hsince ha har hok hu (l := .depth) (nodata := none) (.inl rfl) hup
  have hc := fun c => C120_update_surface_sr hs h (.inr ha0) hr0 hv0 hF hn hok0 hsince ha har hok hu c none zUp
  rw [ha0] at hsurf
  refine ⟨arr, by rw [hq], fun c _ => ?_, madeUp (pos_of_mul hs hn) hsurf fun c => ?_⟩
  · obtain ⟨-, o, -, ho, -⟩ := hc c
    rw [ho]; rfl
  · obtain ⟨e', o, he', ho, hshown⟩ := hc c
    rw [he] at he'
    cases he'
    rw [ho]; rw [ha0] at hshown; exact hshown

/-- **C125** (variable resolution grids, kept up to date) -/
theorem C125_containers_update_vr (hs : 0 < size) (hsub : isPowerOfTwo sub = true) {q : Nat} (hdiv : size = (q : ℚ) * sub) {g g1 : Grid (Grid Tile)} (h : VRHistory env size sub bs fl F s g A)
    (ha0 : a0.alg = .shoalest) (hr0 : a0.res = some r)
    (hv0 : a0.regrid = .full ∨ a0.clear = true) (hF : F = .plain ∨ a0.clear = true) {n : Nat} (hn : sub = n * r) (hok0 : (g.gridWith env a0 d0).err = none)
    (hsince : Since env fl a0.alg r (g.gridWith env a0 d0).st A g1 A') (ha : a.alg = a0.alg) (har : a.res = some r) (hok : (g1.gridWith env a da).err = none)
    {v : Grid (Grid Tile)} (hu : Requeried env (g1.gridWith env a da).st v) {zUp : Bool} (hup : up = true ↔ (zUp = true ↔ ¬ StoredUp v)) :
    ∃ arr, (v.getLayersByName env [.depth] (some r) none zUp).2 = .ok (some [arr]) ∧
      (∀ c ∈ A'.names, (v.getLayersByName env [.cont c] (some r) none zUp).2.isOk = true) ∧
      MadeUp up A'.names (fun c => shownBy (v.getLayersByName env [.cont c] (some r) none zUp).2) arr := by
  obtain ⟨e, arr, he, hq, hsurf⟩ := C113_update_surface_vr hs hsub hdiv h (.inr ha0) hr0 hv0 hF hn hok0 hsince ha har hok hu (l := .depth) (nodata := none) (.inl rfl) hup
  have hc := fun c => C120_update_surface_vr hs hsub hdiv h (.inr ha0) hr0 hv0 hF hn hok0 hsince ha har hok hu c none zUp
  rw [ha0] at hsurf
  refine ⟨arr, by rw [hq], fun c _ => ?_, madeUp (pos_of_mul (isPowerOfTwo_pos hsub) hn) hsurf fun c => ?_⟩
  · obtain ⟨-, o, -, ho, -⟩ := hc c
    rw [ho]; rfl
  · obtain ⟨e', o, he', ho, hshown⟩ := hc c
    rw [he] at he'
    cases he'
    rw [ho]; rw [ha0] at hshown; exact hshown

/-! ## the hypotheses can be met -/

private def base : Grid Tile := (demoSR.gridWith demoEnv { alg := .shoalest, res := some 8, clear := true } none).st
private def changed : Grid Tile := ((base.removePoints "b").st.addPoints ⟨demoFields, demoA⟩ "a" {}).st
private def updated : Grid Tile := (changed.gridWith demoEnv { alg := .shoalest, res := some 8, regrid := .update } (some 2)).st

example : ∃ arr, (updated.getLayersByName demoEnv [.depth] (some 8) none false).2 = .ok (some [arr]) ∧
      (∀ c ∈ ((demoStore.remove "b") ++ [("a", demoA)] : Store).names, (updated.getLayersByName demoEnv [.cont c] (some 8) none false).2.isOk = true) ∧
      MadeUp false ((demoStore.remove "b") ++ [("a", demoA)] : Store).names (fun c => shownBy (updated.getLayersByName demoEnv [.cont c] (some 8) none false).2) arr :=
  C125_containers_update_sr (n := 2) (d0 := none) (da := some 2) (a0 := { alg := .shoalest, res := some 8, clear := true }) (a := { alg := .shoalest, res := some 8, regrid := .update }) (by norm_num) demoSR_history rfl rfl
    (.inr rfl) (.inr rfl) (by norm_num) (by decide +kernel) ((Since.refl.remove "b" (by decide +kernel)).add demoA "a" {} (by decide +kernel)) rfl rfl (by decide +kernel) .refl (no_flip (by decide +kernel))

private def baseVR : Grid (Grid Tile) := (demoVR.gridWith demoEnv { alg := .shoalest, res := some 8, clear := true } none).st
private def changedVR : Grid (Grid Tile) := ((baseVR.removePoints "b").st.addPoints ⟨demoFields, demoA⟩ "a" {}).st
private def updatedVR : Grid (Grid Tile) := (changedVR.gridWith demoEnv { alg := .shoalest, res := some 8, regrid := .update } none).st

example : ∃ arr, (updatedVR.getLayersByName demoEnv [.depth] (some 8) none false).2 = .ok (some [arr]) ∧
      (∀ c ∈ ((demoStore.remove "b") ++ [("a", demoA)] : Store).names, (updatedVR.getLayersByName demoEnv [.cont c] (some 8) none false).2.isOk = true) ∧
      MadeUp false ((demoStore.remove "b") ++ [("a", demoA)] : Store).names (fun c => shownBy (updatedVR.getLayersByName demoEnv [.cont c] (some 8) none false).2) arr :=
  C125_containers_update_vr (n := 2) (q := 2) (d0 := none) (da := none) (a0 := { alg := .shoalest, res := some 8, clear := true }) (a := { alg := .shoalest, res := some 8, regrid := .update }) (by norm_num)
    (by decide +kernel) (by norm_num) demoVR_history rfl rfl
    (.inr rfl) (.inr rfl) (by norm_num) (by decide +kernel) ((Since.refl.remove "b" (by decide +kernel)).add demoA "a" {} (by decide +kernel)) rfl rfl (by decide +kernel) .refl (no_flip (by decide +kernel))

end Bathy
