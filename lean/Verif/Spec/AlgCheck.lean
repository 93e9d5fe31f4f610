import Verif.Spec.Soundings
import Verif.Model.GridRun

/-!
# When the check of the algorithm lets a `grid` call pass

bathygrid/bgrid.py:1493-1496: a grid that was gridded with another algorithm refuses the call unless `clear_existing` is set; the subgrids of
a variable resolution grid check on their own.
-/

namespace Bathy

class AlgCheck (τ : Type) where
  /-- neither the object nor anything in it refuses the algorithm -/
  passes : τ → Alg → Bool → Prop
  mono : ∀ {t alg c c'}, passes t alg c → (c = true → c' = true) → passes t alg c'

instance : AlgCheck Tile := ⟨fun _ _ _ => True, fun _ _ => trivial⟩

instance {τ : Type} [AlgCheck τ] : AlgCheck (Grid τ) where
  passes g alg clear := (g.gridAlgorithm = none ∨ g.gridAlgorithm = some alg ∨ clear = true) ∧ ∀ r c t, g.TileAt r c t → AlgCheck.passes t alg clear
  mono := by
    rintro g alg c c' ⟨h1, h2⟩ hc
    refine ⟨?_, fun r k t ht => AlgCheck.mono (h2 r k t ht) hc⟩
    rcases h1 with h | h | h
    · exact Or.inl h
    · exact Or.inr (Or.inl h)
    · exact Or.inr (Or.inr (hc h))

end Bathy
