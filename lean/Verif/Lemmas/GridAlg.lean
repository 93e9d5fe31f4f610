import Verif.Model.GridRun

/-!
# The algorithm of a grid and the calls that do not grid
-/

namespace Bathy

namespace Grid
variable {τ : Type}

theorem setTile_alg (g : Grid τ) (k : Nat) (o : Option τ) : (g.setTile k o).gridAlgorithm = g.gridAlgorithm := by
  unfold setTile; split <;> rfl

theorem forEach_alg {α : Type} (f : Grid τ → α → Res (Grid τ)) (hf : ∀ g k, (f g k).st.gridAlgorithm = g.gridAlgorithm) (l : List α) (g : Grid τ) : (Res.forEach l g f).st.gridAlgorithm = g.gridAlgorithm := by
  induction l generalizing g with
  | nil => rfl
  | cons k l ih =>
    rw [Res.forEach_cons]
    unfold Res.andThen
    split
    · exact (ih _).trans (hf g k)
    · exact hf g k

theorem andThen_alg {R : Res (Grid τ)} {f : Grid τ → Res (Grid τ)} (hf : ∀ g, (f g).st.gridAlgorithm = g.gridAlgorithm) : (R.andThen f).st.gridAlgorithm = R.st.gridAlgorithm := by
  unfold Res.andThen
  split
  · exact hf _
  · rfl

theorem buildGrid_alg (g : Grid τ) (e : Extents) : (g.buildGrid e).st.gridAlgorithm = g.gridAlgorithm := by
  unfold buildGrid
  simp only
  repeat' split
  all_goals rfl

theorem updateBase_alg (g : Grid τ) (pts : List Pt) : (g.updateBase pts).st.gridAlgorithm = g.gridAlgorithm := by
  unfold updateBase
  repeat' split
  all_goals first | rfl | exact buildGrid_alg _ _

theorem placeTiles_alg (g : Grid τ) : (g.placeTiles).st.gridAlgorithm = g.gridAlgorithm := by
  unfold placeTiles
  simp only
  repeat' split
  all_goals rfl

theorem addToTile_alg [TileLike τ] (fields : Fields) (pts : List Pt) (bins : List Nat) (c : String) (g : Grid τ) (k : Nat) : (addToTile fields pts bins c g k).st.gridAlgorithm = g.gridAlgorithm := by
  unfold addToTile
  simp only
  split
  · rfl
  · split
    · exact setTile_alg _ _ _
    · exact setTile_alg _ _ _

theorem addToTiles_alg [TileLike τ] (g : Grid τ) (d : PtArr) (c : String) : (g.addToTiles d c).st.gridAlgorithm = g.gridAlgorithm := by
  unfold addToTiles
  split
  · rfl
  · rw [andThen_alg (fun g => rfl)]
    exact forEach_alg _ (addToTile_alg _ _ _ _) _ _

theorem removeTile_alg (g : Grid τ) (k : Nat) : (g.removeTile k).st.gridAlgorithm = g.gridAlgorithm := by
  unfold removeTile
  split
  · simp only
    rw [andThen_alg]
    · repeat' split
      all_goals rfl
    · intro g
      split
      · exact setTile_alg _ _ _
      · rfl
  · rfl

theorem removeFromTile_alg [TileLike τ] (c : String) (g : Grid τ) (k : Nat) : (removeFromTile c g k).st.gridAlgorithm = g.gridAlgorithm := by
  unfold removeFromTile
  split
  · simp only
    split
    · exact setTile_alg _ _ _
    · split
      · rw [removeTile_alg, setTile_alg]
      · exact setTile_alg _ _ _
  · rfl

theorem removePoints_alg [TileLike τ] (g : Grid τ) (c : String) : (g.removePoints c).st.gridAlgorithm = g.gridAlgorithm := by
  unfold removePoints
  split
  · simp only
    rw [andThen_alg]
    · split
      · rfl
      · rw [forEach_alg _ (removeFromTile_alg c)]
    · intro g
      simp only [Res.ok_st]
      split <;> rfl
  · rfl

theorem addPoints_alg [TileLike τ] (g : Grid τ) (d : PtArr) (c : String) (a : AddArgs) : (g.addPoints d c a).st.gridAlgorithm = g.gridAlgorithm := by
  unfold addPoints
  split
  · rfl
  · simp only
    split
    · rfl
    · rw [andThen_alg, updateBase_alg]
      intro g
      rw [andThen_alg, placeTiles_alg]
      intro g
      rw [andThen_alg, addToTiles_alg]
      intro g
      rfl

end Grid
end Bathy
