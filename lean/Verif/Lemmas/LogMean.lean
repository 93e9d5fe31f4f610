import Verif.Lemmas.Log

/-!
# What the calls do to the mean depth
-/

namespace Bathy

namespace Grid
variable {τ : Type}

theorem setTile_mean (g : Grid τ) (k : Nat) (o : Option τ) : (g.setTile k o).meanDepth = g.meanDepth := by
  unfold setTile; split <;> rfl

theorem forEach_mean {α : Type} (f : Grid τ → α → Res (Grid τ)) (hf : ∀ g k, (f g k).st.meanDepth = g.meanDepth) (l : List α) (g : Grid τ) : (Res.forEach l g f).st.meanDepth = g.meanDepth := by
  induction l generalizing g with
  | nil => rfl
  | cons k l ih =>
    rw [Res.forEach_cons]
    unfold Res.andThen
    split
    · exact (ih _).trans (hf g k)
    · exact hf g k

theorem andThen_mean {R : Res (Grid τ)} {f : Grid τ → Res (Grid τ)} (hf : ∀ g, (f g).st.meanDepth = g.meanDepth) : (R.andThen f).st.meanDepth = R.st.meanDepth := by
  unfold Res.andThen
  split
  · exact hf _
  · rfl

theorem buildGrid_mean (g : Grid τ) (e : Extents) : (g.buildGrid e).st.meanDepth = g.meanDepth := by
  unfold buildGrid
  simp only
  repeat' split
  all_goals rfl

theorem updateBase_mean (g : Grid τ) (pts : List Pt) : (g.updateBase pts).st.meanDepth = g.meanDepth := by
  unfold updateBase
  repeat' split
  all_goals first | rfl | exact buildGrid_mean _ _

theorem placeTiles_mean (g : Grid τ) : (g.placeTiles).st.meanDepth = g.meanDepth := by
  unfold placeTiles
  simp only
  repeat' split
  all_goals rfl

theorem addToTile_mean [TileLike τ] (fields : Fields) (pts : List Pt) (bins : List Nat) (c : String) (g : Grid τ) (k : Nat) : (addToTile fields pts bins c g k).st.meanDepth = g.meanDepth := by
  unfold addToTile
  simp only
  split
  · rfl
  · split
    · exact setTile_mean _ _ _
    · exact setTile_mean _ _ _

theorem addToTiles_mean [TileLike τ] (g : Grid τ) (d : PtArr) (c : String) : (g.addToTiles d c).st.meanDepth = g.meanDepth := by
  unfold addToTiles
  split
  · rfl
  · rw [andThen_mean (fun g => rfl)]
    exact forEach_mean _ (addToTile_mean _ _ _ _) _ _

theorem removeTile_mean (g : Grid τ) (k : Nat) : (g.removeTile k).st.meanDepth = g.meanDepth := by
  unfold removeTile
  split
  · simp only
    rw [andThen_mean]
    · repeat' split
      all_goals rfl
    · intro g
      split
      · exact setTile_mean _ _ _
      · rfl
  · rfl

theorem removeFromTile_mean [TileLike τ] (c : String) (g : Grid τ) (k : Nat) : (removeFromTile c g k).st.meanDepth = g.meanDepth := by
  unfold removeFromTile
  split
  · simp only
    split
    · exact setTile_mean _ _ _
    · split
      · rw [removeTile_mean, setTile_mean]
      · exact setTile_mean _ _ _
  · rfl

theorem removePoints_mean [TileLike τ] (g : Grid τ) (c : String) : (g.removePoints c).st.meanDepth = g.meanDepth := by
  unfold removePoints
  split
  · simp only
    rw [andThen_mean]
    · split
      · rfl
      · rw [forEach_mean _ (removeFromTile_mean c)]
    · intro g
      simp only [Res.ok_st]
      split <;> rfl
  · rfl

theorem query_mean [Queried τ] {env : Env} {g u : Grid τ} (h : Queried.queried env g u) : u.meanDepth = g.meanDepth := by
  rcases h with ⟨k, t, v, -, -, rfl⟩ | ⟨-, -, rfl⟩
  · exact setTile_mean _ _ _
  · rfl

theorem gridWith_mean [GridLike τ] [LawfulGrid τ] (env : Env) (g : Grid τ) (a : GridCall) (dask : Option Nat) : (g.gridWith env a dask).st.meanDepth = g.meanDepth := by
  rcases gridWith_spec env g a dask with ⟨al, gr, gp, e, h, -⟩ | ⟨gr, T, -, -, -, -, ⟨-, h⟩ | ⟨-, e, b, R, -, h⟩⟩ <;> rw [h] <;> rfl

/-- a call of `add_points` that raises leaves the mean depth -/
theorem addPoints_fail_mean [TileLike τ] (g : Grid τ) (d : PtArr) (c : String) (a : AddArgs) (hf : (g.addPoints d c a).err ≠ none) : (g.addPoints d c a).st.meanDepth = g.meanDepth := by
  unfold addPoints at hf ⊢
  split
  · rfl
  · rename_i hc
    rw [if_neg hc] at hf
    simp only at hf ⊢
    split
    · rfl
    · rename_i he
      rw [he] at hf
      simp only at hf
      have e1 := updateBase_mean { g with info := (g.info.update c a).st } d.pts
      generalize updateBase { g with info := (g.info.update c a).st } d.pts = R1 at hf e1 ⊢
      unfold Res.andThen at hf ⊢
      split
      · rename_i h1
        rw [h1] at hf
        simp only at hf ⊢
        have e2 := placeTiles_mean R1.st
        generalize placeTiles R1.st = R2 at hf e2 ⊢
        split
        · rename_i h2
          rw [h2] at hf
          simp only at hf ⊢
          split
          · rename_i h3; rw [h3] at hf; exact absurd rfl hf
          · exact (addToTiles_mean _ _ _).trans (e2.trans e1)
        · exact e2.trans e1
      · exact e1

end Grid
end Bathy
