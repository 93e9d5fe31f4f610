import Verif.Props.TileGridding

/-!
# Gridding with `clear_existing` leaves nothing but the new layers
-/

namespace Bathy
namespace Tile

/-- no derived layers are stored -/
def AllCore (t : Tile) : Prop := ∀ r ls, t.cells.get? r = some ls → core ls = ls

theorem allCore_set {t : Tile} (h : t.AllCore) (r : ℚ) {ls : Dict Layer LayerArr} (hls : core ls = ls) : AllCore { t with cells := t.cells.set r ls } := by
  intro r' ls' h'
  have h' : (t.cells.set r ls).get? r' = some ls' := h'
  by_cases hr : r' = r
  · subst hr; rw [Dict.get?_set_self] at h'; cases h'; exact hls
  · rw [Dict.get?_set_ne _ _ hr] at h'; exact h r' ls' h'

theorem newGrid_allCore {t u : Tile} {r : ℚ} {alg : Alg} (h : t.AllCore) (hn : newGrid t r alg = .ok u) : u.AllCore := by
  unfold newGrid at hn
  split at hn
  · simp only at hn
    split at hn
    · cases hn
      refine allCore_set (t := { t with edgesX := _, edgesY := _ }) h r ?_
      have hdk := t.depthKey_cases
      cases alg with
      | mean => rcases hdk with hdk | hdk <;> rw [hdk] <;> simp only [core] <;> (repeat' split) <;> rfl
      | shoalest => rcases hdk with hdk | hdk <;> rw [hdk] <;> simp only [core] <;> (repeat' split) <;> rfl
      | cube => rcases hdk with hdk | hdk <;> rw [hdk] <;> rfl
      | other => rfl
    · cases hn
  · cases hn

theorem prepare_allCore {t u : Tile} {r : ℚ} (h : t.AllCore) (hn : prepare t r = .ok u) : u.AllCore := by
  unfold prepare at hn
  split at hn
  · split at hn
    · split at hn
      · cases hn
      · split at hn
        · cases hn
        · cases hn; exact h
    · split at hn
      · cases hn
      · cases hn
      · rename_i ls _ hls
        split at hn
        · cases hn
        · rename_i ls' hls'
          cases hn
          refine allCore_set (t := { t with cellIdx := _ }) h r ?_
          have := resetLayers_core t.depthKey_core ls
          rw [h r ls hls, hls'] at this
          simpa [Except.map] using this
  · cases hn

theorem runAlg_allCore {env : Env} {t u : Tile} {r : ℚ} {alg : Alg} {params : Option GridParams} {border : Option PtArr} (h : t.AllCore)
    (hn : runAlg env t alg r params border = .ok u) : u.AllCore := by
  have plain : ∀ f, runPlain f t r = .ok u → u.AllCore := by
    intro f hn
    unfold runPlain at hn
    split at hn
    · rename_i d ls cidx hd hls hci
      split at hn
      · cases hn
      · rename_i ls' hls'
        cases hn
        refine allCore_set h r ?_
        have := plainLayers_core (f := f) t.depthKey_core d cidx ls
        rw [h r ls hls, hls'] at this
        simpa [Except.map] using this
    · cases hn
    · cases hn
  cases alg with
  | mean => exact plain _ hn
  | shoalest => exact plain _ hn
  | other => cases hn; exact h
  | cube =>
    have hn : runCube env t r params border = .ok u := hn
    unfold runCube at hn
    split at hn
    · cases hn
    · split at hn
      · cases hn
      · rename_i d hd
        split at hn
        · split at hn
          · rename_i ls cidx hls hci
            split at hn
            · cases hn
            · rename_i ls' hls'
              cases hn
              refine allCore_set h r ?_
              have := cubeLayers_core (env := env) t.depthKey_core t.minX t.maxY d cidx ls r params
              rw [h r ls hls, hls'] at this
              simpa [Except.map] using this
          · cases hn
        · cases hn

/-- gridding with `clear_existing` leaves no derived layers -/
theorem gridAt_allCore {env : Env} {t u : Tile} {r : ℚ} {alg : Alg} {params : Option GridParams} {border : Option PtArr}
    (h : t.gridAt env alg r true params border = .ok u) : u.AllCore := by
  unfold gridAt at h
  split at h
  · simp only [if_true] at h
    have e : t.clearGrid.clearTemp r = t.clearGrid := rfl
    rw [e] at h
    have hhas : t.clearGrid.cells.has r = false := rfl
    rw [hhas] at h
    simp only [Bool.not_false, Bool.true_or, if_true] at h
    unfold Res.andThen at h
    rcases hn : newGrid { t.clearGrid with algorithm := some alg, gridParams := params } r alg with ⟨t3, err⟩
    rw [hn] at h
    cases err with
    | some e => cases h
    | none =>
      simp only at h
      have h3 : AllCore t3 := newGrid_allCore (t := { t.clearGrid with algorithm := some alg, gridParams := params }) (by intro r' ls' h'; cases h') hn
      split at h
      · cases h
      · rename_i t4 h4
        split at h
        · cases h
        · rename_i t5 h5
          cases h
          have h6 : AllCore t5 := runAlg_allCore (prepare_allCore h3 h4) h5
          exact h6
  · cases h

end Tile
end Bathy
