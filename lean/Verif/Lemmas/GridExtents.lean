import Verif.Lemmas.GridAdd
import Verif.Spec.Soundings

/-!
# The extents after `add_points`, also when it raises
-/

namespace Bathy
namespace Grid

theorem setTile_extents {τ : Type} (g : Grid τ) (k : Nat) (o : Option τ) : (g.setTile k o).extents = g.extents := by
  unfold setTile; split <;> rfl

theorem addToTile_extents {τ : Type} [TileLike τ] (f : Fields) (pts : List Pt) (bins : List Nat) (c : String) (g : Grid τ) (k : Nat) :
    (addToTile f pts bins c g k).st.extents = g.extents := by
  unfold addToTile
  simp only
  split
  · rfl
  · split
    · simp [setTile_extents]
    · simp [setTile_extents]

theorem addLoop_extents {τ : Type} [TileLike τ] (f : Fields) (pts : List Pt) (bins : List Nat) (c : String) (ks : List Nat) (g : Grid τ) :
    (Res.forEach ks g (addToTile f pts bins c)).st.extents = g.extents := by
  induction ks generalizing g with
  | nil => rfl
  | cons k ks ih =>
    rw [Res.forEach_cons]
    rcases Option.eq_none_or_eq_some (addToTile f pts bins c g k).err with h | ⟨e, h⟩
    · unfold Res.andThen
      rw [h]
      exact (ih _).trans (addToTile_extents f pts bins c g k)
    · unfold Res.andThen
      rw [h]
      exact addToTile_extents f pts bins c g k

theorem addToTiles_extents {τ : Type} [TileLike τ] (d : PtArr) (c : String) (g : Grid τ) : (addToTiles g d c).st.extents = g.extents := by
  unfold addToTiles
  split
  · rfl
  · rename_i bins _
    have h1 := addLoop_extents d.fields d.pts bins c (npUnique bins) g
    generalize Res.forEach (npUnique bins) g (addToTile d.fields d.pts bins c) = R at h1 ⊢
    unfold Res.andThen
    split <;> exact h1

theorem placeTiles_extents {τ : Type} (g : Grid τ) : (placeTiles g).st.extents = g.extents := by
  unfold placeTiles
  simp only
  split
  · rfl
  · split
    · split
      · split <;> rfl
      · rfl
    · rfl

theorem buildGrid_extents {τ : Type} (g : Grid τ) (e : Extents) : (buildGrid g e).st.extents = some (g.adjustExtents e) := by
  unfold buildGrid
  simp only
  split
  · split
    · split <;> rfl
    · rfl
  · split <;> rfl

/-- the extents after the first `add_points` of a growing grid, whether it raises or not -/
theorem first_extents {τ : Type} [TileLike τ] {g : Grid τ} (he : g.isEmpty = true) (hg : g.canGrow = true) {d : PtArr} (hd : d.pts ≠ []) {n : String} {a : AddArgs}
    (hn : g.info.container.has n = false) (hm : (g.info.update n a).err = none) :
    ∃ x0 x1 y0 y1, x0 ∈ d.pts.map Pt.x ∧ x1 ∈ d.pts.map Pt.x ∧ y0 ∈ d.pts.map Pt.y ∧ y1 ∈ d.pts.map Pt.y ∧
      (g.addPoints d n a).st.extents = some ⟨(adjust x0 x1 g.originX g.tileSize).1, (adjust x0 x1 g.originX g.tileSize).2,
        (adjust y0 y1 g.originY g.tileSize).1, (adjust y0 y1 g.originY g.tileSize).2⟩ := by
  have hx : d.pts.map Pt.x ≠ [] := by simpa using hd
  have hy : d.pts.map Pt.y ≠ [] := by simpa using hd
  obtain ⟨x0, hx0, mx0, -⟩ := listMin_spec hx
  obtain ⟨x1, hx1, mx1, -⟩ := listMax_spec hx
  obtain ⟨y0, hy0, my0, -⟩ := listMin_spec hy
  obtain ⟨y1, hy1, my1, -⟩ := listMax_spec hy
  refine ⟨x0, x1, y0, y1, mx0, mx1, my0, my1, ?_⟩
  unfold addPoints
  rw [if_neg (by rw [hn]; simp)]
  simp only [hm]
  rw [updateBase_empty (g := { g with info := (g.info.update n a).st }) he hg hx0 hx1 hy0 hy1]
  have hb := buildGrid_extents ({ g with info := (g.info.update n a).st } : Grid τ) ⟨x0, x1, y0, y1⟩
  generalize buildGrid ({ g with info := (g.info.update n a).st } : Grid τ) ⟨x0, x1, y0, y1⟩ = R at hb ⊢
  have hadj : adjustExtents ({ g with info := (g.info.update n a).st } : Grid τ) ⟨x0, x1, y0, y1⟩ = ⟨(adjust x0 x1 g.originX g.tileSize).1,
      (adjust x0 x1 g.originX g.tileSize).2, (adjust y0 y1 g.originY g.tileSize).1, (adjust y0 y1 g.originY g.tileSize).2⟩ := by
    unfold adjustExtents
    rw [if_pos hg]
  rw [hadj] at hb
  have key : ∀ (R : Res (Grid τ)) (f : Grid τ → Res (Grid τ)), (∀ g, (f g).st.extents = g.extents) → (R.andThen f).st.extents = R.st.extents := by
    intro R f hf
    unfold Res.andThen
    split
    · exact hf _
    · rfl
  rw [key, hb]
  intro g'
  rw [key, placeTiles_extents]
  intro g'
  rw [key, addToTiles_extents]
  intro g'
  rfl

/-- a place that is taken -/
theorem exists_tileAt {τ : Type} {g : Grid τ} {r c : Nat} (h : ((g.tiles.bind (fun T => T.get? r c)).join).isSome = true) : ∃ t, g.TileAt r c t := by
  obtain ⟨t, ht⟩ := Option.isSome_iff_exists.1 h
  rw [Option.join_eq_some_iff] at ht
  obtain ⟨T, h1, h2⟩ := Option.bind_eq_some_iff.1 ht
  exact ⟨t, T, h1, h2⟩

/-- a place taken by a tile with the property -/
theorem exists_tileAt_any {τ : Type} {g : Grid τ} {r c : Nat} (P : τ → Bool) (h : ((g.tiles.bind (fun T => T.get? r c)).join).any P = true) :
    ∃ t, g.TileAt r c t ∧ P t = true := by
  obtain ⟨t, ht, hP⟩ := (Option.any_eq_true _ _).1 h
  rw [Option.join_eq_some_iff] at ht
  obtain ⟨T, h1, h2⟩ := Option.bind_eq_some_iff.1 ht
  exact ⟨t, ⟨T, h1, h2⟩, hP⟩

end Grid
end Bathy
