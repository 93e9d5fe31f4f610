import Verif.Model.GridRun

/-!
# The name of a grid
-/

namespace Bathy

namespace Grid
variable {τ : Type}

theorem setTile_name (g : Grid τ) (k : Nat) (o : Option τ) : (g.setTile k o).name = g.name := by
  unfold setTile; split <;> rfl

theorem forEach_name {α : Type} (f : Grid τ → α → Res (Grid τ)) (hf : ∀ g k, (f g k).st.name = g.name) (l : List α) (g : Grid τ) : (Res.forEach l g f).st.name = g.name := by
  induction l generalizing g with
  | nil => rfl
  | cons k l ih =>
    rw [Res.forEach_cons]
    unfold Res.andThen
    split
    · exact (ih _).trans (hf g k)
    · exact hf g k

theorem andThen_name {R : Res (Grid τ)} {f : Grid τ → Res (Grid τ)} (hf : ∀ g, (f g).st.name = g.name) : (R.andThen f).st.name = R.st.name := by
  unfold Res.andThen
  split
  · exact hf _
  · rfl

theorem buildGrid_name (g : Grid τ) (e : Extents) : (g.buildGrid e).st.name = g.name := by
  unfold buildGrid
  simp only
  repeat' split
  all_goals rfl

theorem updateBase_name (g : Grid τ) (pts : List Pt) : (g.updateBase pts).st.name = g.name := by
  unfold updateBase
  repeat' split
  all_goals first | rfl | exact buildGrid_name _ _

theorem placeTiles_name (g : Grid τ) : (g.placeTiles).st.name = g.name := by
  unfold placeTiles
  simp only
  repeat' split
  all_goals rfl

theorem addToTile_name [TileLike τ] (fields : Fields) (pts : List Pt) (bins : List Nat) (c : String) (g : Grid τ) (k : Nat) : (addToTile fields pts bins c g k).st.name = g.name := by
  unfold addToTile
  simp only
  split
  · rfl
  · split
    · exact setTile_name _ _ _
    · exact setTile_name _ _ _

theorem addToTiles_name [TileLike τ] (g : Grid τ) (d : PtArr) (c : String) : (g.addToTiles d c).st.name = g.name := by
  unfold addToTiles
  split
  · rfl
  · rw [andThen_name (fun g => rfl)]
    exact forEach_name _ (addToTile_name _ _ _ _) _ _

theorem removeTile_name (g : Grid τ) (k : Nat) : (g.removeTile k).st.name = g.name := by
  unfold removeTile
  split
  · simp only
    rw [andThen_name]
    · repeat' split
      all_goals rfl
    · intro g
      split
      · exact setTile_name _ _ _
      · rfl
  · rfl

theorem removeFromTile_name [TileLike τ] (c : String) (g : Grid τ) (k : Nat) : (removeFromTile c g k).st.name = g.name := by
  unfold removeFromTile
  split
  · simp only
    split
    · exact setTile_name _ _ _
    · split
      · rw [removeTile_name, setTile_name]
      · exact setTile_name _ _ _
  · rfl

theorem removePoints_name [TileLike τ] (g : Grid τ) (c : String) : (g.removePoints c).st.name = g.name := by
  unfold removePoints
  split
  · simp only
    rw [andThen_name]
    · split
      · rfl
      · rw [forEach_name _ (removeFromTile_name c)]
    · intro g
      simp only [Res.ok_st]
      split <;> rfl
  · rfl

theorem addPoints_name [TileLike τ] (g : Grid τ) (d : PtArr) (c : String) (a : AddArgs) : (g.addPoints d c a).st.name = g.name := by
  unfold addPoints
  split
  · rfl
  · simp only
    split
    · rfl
    · rw [andThen_name, updateBase_name]
      intro g
      rw [andThen_name, placeTiles_name]
      intro g
      rw [andThen_name, addToTiles_name]
      intro g
      rfl

end Grid
end Bathy
