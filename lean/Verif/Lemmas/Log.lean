import Verif.Lemmas.GridHistory
import Verif.Spec.Log
import Verif.Model.Containers

/-!
# What the calls do to the metadata
-/

namespace Bathy

namespace Grid
variable {τ : Type}

theorem setTile_info (g : Grid τ) (k : Nat) (o : Option τ) : (g.setTile k o).info = g.info := by
  unfold setTile; split <;> rfl

theorem forEach_info {α : Type} (f : Grid τ → α → Res (Grid τ)) (hf : ∀ g k, (f g k).st.info = g.info) (l : List α) (g : Grid τ) : (Res.forEach l g f).st.info = g.info := by
  induction l generalizing g with
  | nil => rfl
  | cons k l ih =>
    rw [Res.forEach_cons]
    unfold Res.andThen
    split
    · exact (ih _).trans (hf g k)
    · exact hf g k

theorem andThen_info {R : Res (Grid τ)} {f : Grid τ → Res (Grid τ)} (hf : ∀ g, (f g).st.info = g.info) : (R.andThen f).st.info = R.st.info := by
  unfold Res.andThen
  split
  · exact hf _
  · rfl

theorem buildGrid_info (g : Grid τ) (e : Extents) : (g.buildGrid e).st.info = g.info := by
  unfold buildGrid
  simp only
  repeat' split
  all_goals rfl

theorem updateBase_info (g : Grid τ) (pts : List Pt) : (g.updateBase pts).st.info = g.info := by
  unfold updateBase
  repeat' split
  all_goals first | rfl | exact buildGrid_info _ _

theorem placeTiles_info (g : Grid τ) : (g.placeTiles).st.info = g.info := by
  unfold placeTiles
  simp only
  repeat' split
  all_goals rfl

theorem addToTile_info [TileLike τ] (fields : Fields) (pts : List Pt) (bins : List Nat) (c : String) (g : Grid τ) (k : Nat) : (addToTile fields pts bins c g k).st.info = g.info := by
  unfold addToTile
  simp only
  split
  · rfl
  · split
    · exact setTile_info _ _ _
    · exact setTile_info _ _ _

theorem addToTiles_info [TileLike τ] (g : Grid τ) (d : PtArr) (c : String) : (g.addToTiles d c).st.info = g.info := by
  unfold addToTiles
  split
  · rfl
  · rw [andThen_info (fun g => rfl)]
    exact forEach_info _ (addToTile_info _ _ _ _) _ _

theorem removeTile_info (g : Grid τ) (k : Nat) : (g.removeTile k).st.info = g.info := by
  unfold removeTile
  split
  · simp only
    rw [andThen_info]
    · repeat' split
      all_goals rfl
    · intro g
      split
      · exact setTile_info _ _ _
      · rfl
  · rfl

theorem removeFromTile_info [TileLike τ] (c : String) (g : Grid τ) (k : Nat) : (removeFromTile c g k).st.info = g.info := by
  unfold removeFromTile
  split
  · simp only
    split
    · exact setTile_info _ _ _
    · split
      · rw [removeTile_info, setTile_info]
      · exact setTile_info _ _ _
  · rfl

theorem removePoints_info [TileLike τ] (g : Grid τ) (c : String) : (g.removePoints c).st.info = { g.info with container := g.info.container.pop c } ∨ (g.removePoints c).st.info = g.info := by
  unfold removePoints
  split
  · left
    simp only
    rw [andThen_info]
    · split
      · rfl
      · rw [forEach_info _ (removeFromTile_info c)]
    · intro g
      simp only [Res.ok_st]
      split <;> rfl
  · right; rfl

theorem query_info [Queried τ] {env : Env} {g u : Grid τ} (h : Queried.queried env g u) : u.info = g.info := by
  rcases h with ⟨k, t, v, -, -, rfl⟩ | ⟨-, -, rfl⟩
  · exact setTile_info _ _ _
  · rfl

theorem gridWith_info [GridLike τ] [LawfulGrid τ] (env : Env) (g : Grid τ) (a : GridCall) (dask : Option Nat) : (g.gridWith env a dask).st.info = g.info := by
  rcases gridWith_spec env g a dask with ⟨al, gr, gp, e, h, -⟩ | ⟨gr, T, -, -, -, -, ⟨-, h⟩ | ⟨-, e, b, R, -, h⟩⟩ <;> rw [h] <;> rfl

/-- what `add_points` does to the metadata -/
theorem addPoints_info [TileLike τ] (g : Grid τ) (d : PtArr) (c : String) (a : AddArgs) :
    ((g.addPoints d c a).err ≠ none ∧ (g.addPoints d c a).st.info = g.info) ∨
    ((g.addPoints d c a).st.info = (g.info.update c a).st ∧ ((g.addPoints d c a).err = none → (g.info.update c a).err = none)) := by
  unfold addPoints
  split
  · left; exact ⟨by simp, rfl⟩
  · right
    simp only
    split
    · exact ⟨rfl, fun h => by cases h⟩
    · rename_i he
      refine ⟨?_, fun _ => he⟩
      rw [andThen_info, updateBase_info]
      intro g
      rw [andThen_info, placeTiles_info]
      intro g
      rw [andThen_info, addToTiles_info]
      intro g
      rfl

/-- an invariant of the metadata: `P` relates the calls of `add_points` so far to the metadata without the container names -/
theorem logged_inv [GridLike τ] [LawfulGrid τ] [Queried τ] {env : Env} {g0 : Grid τ} {P : List AddCall → Meta → Prop} (h0 : P [] g0.info)
    (hcont : ∀ {log m k}, P log m → P log { m with container := k })
    (hfail : ∀ {log m} (x : AddCall), x.ok = false → P log m → P (log ++ [x]) m)
    (hupd : ∀ {log m} (x : AddCall), (x.ok = true → (m.update x.c x.a).err = none) → P log m → P (log ++ [x]) (m.update x.c x.a).st) {log : List AddCall} {g : Grid τ}
    (h : Logged env g0 log g) : P log g.info := by
  induction h with
  | new => exact h0
  | add h d c a ih =>
    rename_i g
    rcases addPoints_info g d c a with ⟨h1, h2⟩ | ⟨h1, h2⟩
    · rw [h2]; exact hfail _ (by simpa using h1) ih
    · rw [h1]
      exact hupd ⟨c, d, a, decide ((g.addPoints d c a).err = none)⟩ (fun h => h2 (of_decide_eq_true h)) ih
  | remove h c ih =>
    rename_i g
    rcases removePoints_info g c with h1 | h1 <;> rw [h1]
    · exact hcont ih
    · exact ih
  | grid h a dask ih => rw [gridWith_info]; exact ih
  | query h hq ih => rw [query_info hq]; exact ih

end Grid

/-! ### `_update_metadata` -/

namespace Meta

/-- what `_update_metadata` leaves behind: the coordinate system is set or not; then the times; then the rest -/
theorem update_cases (m : Meta) (c : String) (a : AddArgs) :
    ((updateEpsg m a.crs).err ≠ none ∧ (m.update c a).st = m ∧ (m.update c a).err ≠ none) ∨
    (∃ m1, updateEpsg m a.crs = .ok m1 ∧
      ((checkVref m1 a.vref ≠ none ∧ (m.update c a).st = m1 ∧ (m.update c a).err ≠ none) ∨
       (checkVref m1 a.vref = none ∧
         ((∃ e, mergeTime min m1.minTime a.minTime = .error e ∧ (m.update c a).st = m1 ∧ (m.update c a).err ≠ none) ∨
          (∃ t0, mergeTime min m1.minTime a.minTime = .ok t0 ∧
            ((∃ e, mergeTime max m1.maxTime a.maxTime = .error e ∧ (m.update c a).st = { m1 with minTime := t0 } ∧ (m.update c a).err ≠ none) ∨
             (∃ t1, mergeTime max m1.maxTime a.maxTime = .ok t1 ∧ m.update c a =
               .ok { m1 with minTime := t0, maxTime := t1, container := m1.container.set c (if a.files = [] then ["Unknown"] else a.files), vref := a.vref })))))))  := by
  unfold update Res.andThen
  rcases Option.eq_none_or_eq_some (updateEpsg m a.crs).err with he | ⟨e, he⟩
  · right
    obtain ⟨m1, hm1⟩ : ∃ m1, updateEpsg m a.crs = .ok m1 := ⟨(updateEpsg m a.crs).st, by
      generalize updateEpsg m a.crs = X at he
      cases X; simp only at he; subst he; rfl⟩
    refine ⟨m1, hm1, ?_⟩
    rw [hm1]
    simp only [Res.ok_err, Res.ok_st]
    rcases Option.eq_none_or_eq_some (checkVref m1 a.vref) with hv | ⟨e, hv⟩
    · right
      refine ⟨hv, ?_⟩
      rw [hv]
      simp only
      cases h0 : mergeTime min m1.minTime a.minTime with
      | error e => left; exact ⟨e, rfl, rfl, by simp⟩
      | ok t0 =>
        right
        refine ⟨t0, rfl, ?_⟩
        simp only
        cases h1 : mergeTime max m1.maxTime a.maxTime with
        | error e => left; exact ⟨e, rfl, rfl, by simp⟩
        | ok t1 => right; exact ⟨t1, rfl, rfl⟩
    · left
      rw [hv]
      exact ⟨by simp, rfl, by simp⟩
  · left
    refine ⟨by rw [he]; simp, ?_⟩
    rw [he]
    refine ⟨?_, by simp⟩
    have : (updateEpsg m a.crs).st = m := by
      unfold updateEpsg at he ⊢
      repeat' split at he
      all_goals first | (cases he; done) | skip
      all_goals simp_all
    exact this

theorem updateEpsg_ok {m m1 : Meta} {crs : Option Crs} (h : updateEpsg m crs = .ok m1) :
    (crs = none ∨ crs = some (.code 0) ∨ crs = some (.text "")) ∧ m1 = m ∨
    ∃ n, n ≠ 0 ∧ crs = some (.code n) ∧ m1 = { m with epsg := some n } ∧ (m.epsg = none ∨ m.epsg = some 0 ∨ m.epsg = some n) := by
  unfold updateEpsg at h
  by_cases ht : Crs.truthy crs = true
  · right
    rw [if_pos ht] at h
    match crs, ht with
    | some (.code n), ht =>
      have hn : n ≠ 0 := by unfold Crs.truthy at ht; simpa using ht
      refine ⟨n, hn, rfl, ?_⟩
      simp only [Crs.toInt] at h
      cases he : m.epsg with
      | none => rw [he] at h; cases h; exact ⟨rfl, Or.inl rfl⟩
      | some e =>
        rw [he] at h
        simp only at h
        split at h
        · split at h
          · exact absurd (congrArg Res.err h) (by simp)
          · rename_i h1 h2
            have : e = n := by simpa using h2
            subst this
            cases h
            exact ⟨rfl, Or.inr (Or.inr rfl)⟩
        · rename_i h1
          have : e = 0 := by simpa using h1
          subst this
          cases h
          exact ⟨rfl, Or.inr (Or.inl rfl)⟩
    | some (.text s), ht =>
      simp only [Crs.toInt] at h
      repeat' split at h
      all_goals exact absurd (congrArg Res.err h) (by simp)
  · left
    rw [if_neg ht] at h
    cases h
    refine ⟨?_, rfl⟩
    match crs, ht with
    | none, _ => exact Or.inl rfl
    | some (.code n), ht => right; left; unfold Crs.truthy at ht; simp at ht; rw [ht]
    | some (.text s), ht => right; right; unfold Crs.truthy at ht; simp at ht; rw [ht]

end Meta

theorem contains_iff (s : String) : contains s "MLLW" = true ↔ IsMllw s := by
  unfold contains IsMllw
  generalize "MLLW".toList = q
  have key : ∀ l : List Char, hasSub q l = true ↔ ∃ a b, l = a ++ q ++ b := by
    intro l
    induction l with
    | nil =>
      unfold hasSub
      constructor
      · intro h
        have : q = [] := by simpa using h
        exact ⟨[], [], by simp [this]⟩
      · rintro ⟨a, b, h⟩
        have : q = [] := by
          have := congrArg List.length h
          simp at this
          exact List.length_eq_zero_iff.1 (by omega)
        simp [this]
    | cons c cs ih =>
      unfold hasSub
      rw [Bool.or_eq_true, ih]
      constructor
      · rintro (h | ⟨a, b, h⟩)
        · obtain ⟨r, hr⟩ := List.isPrefixOf_iff_prefix.1 h
          exact ⟨[], r, by simp [hr]⟩
        · exact ⟨c :: a, b, by rw [h]; simp⟩
      · rintro ⟨a, b, h⟩
        cases a with
        | nil => left; rw [List.isPrefixOf_iff_prefix, h]; exact ⟨b, by simp⟩
        | cons d a =>
          right
          simp only [List.cons_append, List.cons.injEq] at h
          exact ⟨a, b, h.2⟩
  exact key s.toList

end Bathy
