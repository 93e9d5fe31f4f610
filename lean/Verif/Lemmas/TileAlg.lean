import Verif.Lemmas.LeftBehind
import Verif.Lemmas.CellSums

/-!
# the algorithm a tile remembers
-/

namespace Bathy
namespace Tile

theorem prepare_alg {t u : Tile} {r : ℚ} (he : prepare t r = .ok u) : u.algorithm = t.algorithm := by
  unfold prepare at he
  split at he
  · split at he
    · split at he
      · cases he
      · split at he
        · cases he
        · cases he; rfl
    · split at he
      · cases he
      · cases he
      · split at he
        · cases he
        · cases he; rfl
  · cases he

theorem runPlain_alg {f : List ℚ → List Int → GridArrays → List ℚ → List ℚ → Except Err GridArrays} {t u : Tile} {r : ℚ}
    (he : runPlain f t r = .ok u) : u.algorithm = t.algorithm := by
  unfold runPlain at he
  split at he
  · split at he
    · cases he
    · cases he; rfl
  · cases he
  · cases he

theorem runAlg_alg {env : Env} {t u : Tile} {alg : Alg} {r : ℚ} {params : Option GridParams} {border : Option PtArr}
    (he : runAlg env t alg r params border = .ok u) : u.algorithm = t.algorithm := by
  unfold runAlg at he
  cases alg with
  | mean => exact runPlain_alg he
  | shoalest => exact runPlain_alg he
  | other => cases he; rfl
  | cube =>
    simp only at he
    unfold runCube at he
    split at he
    · cases he
    · split at he
      · cases he
      · split at he
        · split at he
          · split at he
            · cases he
            · cases he; rfl
          · cases he
        · cases he

theorem newGrid_alg (t : Tile) (r : ℚ) (alg : Alg) : (newGrid t r alg).st.algorithm = t.algorithm := by
  unfold newGrid
  split
  · simp only
    split <;> rfl
  · rfl

theorem gridAt_alg {env : Env} {t : Tile} {alg : Alg} {r : ℚ} {clear : Bool} {params : Option GridParams} {border : Option PtArr}
    (hok : (gridAt env t alg r clear params border).err = none) : (gridAt env t alg r clear params border).st.algorithm = some alg := by
  unfold gridAt at hok ⊢
  split at hok
  · rename_i hp
    rw [if_pos hp]
    simp only at hok ⊢
    generalize (if clear then t.clearGrid else t).clearTemp r = v at hok ⊢
    have h3 : ∀ w : Res Tile, w = (if (!v.cells.has r || decide (v.algorithm ≠ some alg)) = true then
        newGrid { v with algorithm := some alg, gridParams := params } r alg else .ok v) → w.st.algorithm = some alg := by
      intro w hw
      subst hw
      split
      · exact newGrid_alg _ _ _
      · rename_i hc
        simp only [ne_eq, Bool.or_eq_true, Bool.not_eq_true', decide_eq_true_eq, not_or, not_not] at hc
        exact hc.2
    generalize hw : (if (!v.cells.has r || decide (v.algorithm ≠ some alg)) = true then
        newGrid { v with algorithm := some alg, gridParams := params } r alg else Res.ok v) = w at hok ⊢
    have h4 := h3 w hw.symm
    obtain ⟨w, e⟩ := w
    cases e with
    | some e => cases hok
    | none =>
      simp only [Res.andThen] at hok ⊢
      simp only at h4
      split at hok
      · cases hok
      · rename_i z hz
        split at hok
        · cases hok
        · rename_i z' hz'
          show z'.algorithm = some alg
          rw [runAlg_alg hz', prepare_alg hz, h4]
  · cases hok

theorem ensure_alg {env : Env} {t u : Tile} {l : Layer} {r : ℚ} {nd : Option ℚ} (he : ensureLayer env t l r nd = .ok u) :
    u.algorithm = t.algorithm := by
  have slopes : ∀ u, runSlopes env t r = .ok u → u.algorithm = t.algorithm := by
    intro u he
    unfold runSlopes at he
    split at he
    · cases he
    · split at he
      · cases he; rfl
      · split at he
        · split at he
          · cases he
          · cases he; rfl
        · cases he
        · cases he
  have only : ∀ f c u, runPlainOnly f t r c = .ok u → u.algorithm = t.algorithm := by
    intro f c u he
    unfold runPlainOnly at he
    split at he
    · split at he
      · simp only at he
        split at he
        · cases he
        · cases he; rfl
      · cases he
    · cases he
    · cases he
  unfold ensureLayer fillLayer at he
  split at he
  · exact slopes u he
  · exact slopes u he
  · split at he
    · split at he
      · exact only _ _ u he
      · exact only _ _ u he
      · cases he
      · cases he; rfl
    · split at he
      · cases he
      · split at he
        · cases he; rfl
        · cases he
  · split at he
    · cases he; rfl
    · split at he
      · cases he
      · split at he
        · cases he; rfl
        · cases he
  · cases he; rfl

theorem getLayer_alg (env : Env) (t : Tile) (l : Layer) (res nd : Option ℚ) (zUp : Bool) :
    (getLayer env t l res nd zUp).1.algorithm = t.algorithm := by
  unfold getLayer
  simp only
  split
  · rfl
  · split
    · rfl
    · rfl
    · split
      · rcases leftBehind_cases t l _ with e | ⟨c, ls, a, b, hls, e⟩ <;> rw [e]
      · rename_i t' he
        have := ensure_alg he
        split
        · exact this
        · exact this

end Tile
end Bathy
