import Verif.Model.Boundaries
import Verif.Lemmas.GridLeaf
import Verif.Lemmas.GridReach
import Verif.Spec.DemoGrid
import Mathlib.Data.List.Chain

/-!
# C81: drawing the tiles

Model: `Grid.tileBoundaries` (bathygrid/bgrid.py:855-890).
-/

namespace Bathy
open Grid

variable {env : Env} {size sub : ℚ} {bs : Bool} {fl : Fields} {F : Family} {s : Bool} {A : Store}

/-- a line between the points is horizontal or vertical -/
def Straight (p q : ℚ × ℚ) : Prop := p.1 = q.1 ∨ p.2 = q.2

/-- the outline of a square, as a line that comes back to its beginning -/
def Outline (x y size : ℚ) : List (ℚ × ℚ) := [(x, y), (x + size, y), (x + size, y + size), (x, y + size), (x, y)]

theorem boxes_straight (size y : ℚ) (xs : List ℚ) : (xs.flatMap (fun x => boxAround size x y)).IsChain Straight ∧
    (∀ p ∈ (xs.flatMap (fun x => boxAround size x y)).head?, ∃ x ∈ xs.head?, p = (x, y)) ∧ ∀ p ∈ (xs.flatMap (fun x => boxAround size x y)).getLast?, ∃ x ∈ xs.getLast?, p = (x, y) := by
  induction xs with
  | nil => exact ⟨List.IsChain.nil, by simp, by simp⟩
  | cons x xs ih =>
    obtain ⟨h1, h2, h3⟩ := ih
    rw [List.flatMap_cons]
    refine ⟨?_, ?_, ?_⟩
    · rw [List.isChain_append]
      refine ⟨?_, h1, ?_⟩
      · simp [boxAround, Straight]
      · intro p hp q hq
        obtain ⟨x', -, rfl⟩ := h2 q hq
        have : p = (x, y) := by simpa [boxAround] using hp.symm
        subst this
        exact Or.inr rfl
    · intro p hp
      refine ⟨x, by simp, ?_⟩
      have : (x, y) = p := by simpa [boxAround] using hp
      exact this.symm
    · intro p hp
      rw [List.getLast?_append] at hp
      cases hl : (xs.flatMap (fun x => boxAround size x y)).getLast? with
      | none =>
        have hxs : xs = [] := by
          rw [List.getLast?_eq_none_iff] at hl
          cases xs with
          | nil => rfl
          | cons a l => simp [boxAround] at hl
        subst hxs
        rw [hl] at hp
        refine ⟨x, by simp, ?_⟩
        have : (x, y) = p := by simpa [boxAround] using hp
        exact this.symm
      | some q =>
        rw [hl] at hp
        have hpq : q = p := by simpa using hp
        obtain ⟨x', hx', e⟩ := h3 q hl
        refine ⟨x', ?_, hpq ▸ e⟩
        cases xs with
        | nil => simp at hx'
        | cons a l => rw [List.getLast?_cons_cons]; exact hx'

theorem row_straight (size : ℚ) (xs : List ℚ) (hx : xs ≠ []) (y : ℚ) : (boundaryRow size xs y).IsChain Straight ∧ (∃ p ∈ (boundaryRow size xs y).head?, p.2 = y) ∧
    (boundaryRow size xs y).getLast? = some (xs.getLastD 0, y + size) ∧ ∃ p, (boundaryRow size xs y).dropLast.getLast? = some p ∧ p.1 = xs.getLastD 0 := by
  obtain ⟨h1, h2, h3⟩ := boxes_straight size y xs
  have hne : xs.flatMap (fun x => boxAround size x y) ≠ [] := by
    cases xs with
    | nil => exact absurd rfl hx
    | cons a l => simp [boxAround]
  have hlast : ∀ p ∈ (xs.flatMap (fun x => boxAround size x y)).getLast?, p.1 = xs.getLastD 0 := by
    intro p hp
    obtain ⟨x', hx', rfl⟩ := h3 p hp
    rw [List.getLastD_eq_getLast?, hx']
    rfl
  unfold boundaryRow
  refine ⟨?_, ?_, by simp, ?_⟩
  · rw [List.isChain_append]
    refine ⟨h1, List.IsChain.singleton _, ?_⟩
    intro p hp q hq
    have : q = (xs.getLastD 0, y + size) := by simpa using hq.symm
    subst this
    exact Or.inl (hlast p hp)
  · obtain ⟨p, hp⟩ := List.ne_nil_iff_exists_cons.1 hne
    obtain ⟨l, hp⟩ := hp
    refine ⟨p, by rw [hp]; simp, ?_⟩
    obtain ⟨x', -, rfl⟩ := h2 p (by rw [hp]; simp)
    rfl
  · rw [List.dropLast_concat]
    exact ⟨_, List.getLast?_eq_some_getLast hne, hlast _ (List.getLast?_eq_some_getLast hne)⟩

theorem rows_straight (size : ℚ) (xs : List ℚ) (hx : xs ≠ []) (ys : List ℚ) (hy : ys.IsChain (fun a b => b = a + size)) : (ys.flatMap (boundaryRow size xs)).IsChain Straight := by
  induction ys with
  | nil => exact List.IsChain.nil
  | cons y ys ih =>
    rw [List.flatMap_cons, List.isChain_append]
    obtain ⟨h1, -, h3, -⟩ := row_straight size xs hx y
    refine ⟨h1, ih hy.tail, ?_⟩
    intro p hp q hq
    rw [h3] at hp
    have hp : (xs.getLastD 0, y + size) = p := by simpa using hp
    subst hp
    cases ys with
    | nil => simp at hq
    | cons y' ys =>
      obtain ⟨-, ⟨q', hq', hy'⟩, -⟩ := row_straight size xs hx y'
      have hne : boundaryRow size xs y' ≠ [] := by unfold boundaryRow; simp
      rw [List.flatMap_cons, List.head?_append_of_ne_nil _ hne] at hq
      have : q = q' := by
        have h1 : (boundaryRow size xs y').head? = some q := hq
        have h2 : (boundaryRow size xs y').head? = some q' := hq'
        rw [h1] at h2
        exact Option.some.inj h2
      subst this
      right
      rw [hy']
      exact (List.isChain_cons_cons.1 hy).1.symm

theorem edges_chain (lo size : ℚ) (n : Nat) : (edgesOf lo size n).IsChain (fun a b => b = a + size) := by
  rw [List.isChain_iff_getElem]
  intro i hi
  simp only [edgesOf, List.getElem_map, List.getElem_range]
  push_cast
  ring

/-- the drawing of a grid with edges at regular distances -/
theorem drawing (size x0 y0 maxY : ℚ) (nx ny : Nat) :
    let l := ((edgesOf y0 size ny).flatMap (boundaryRow size (edgesOf x0 size nx))).dropLast ++ [((edgesOf x0 size nx).getLastD 0, maxY)]
    l.IsChain Straight ∧ ∀ r c, r ≤ ny → c ≤ nx → Outline (x0 + (c : ℚ) * size) (y0 + (r : ℚ) * size) size <:+: l := by
  have hx : edgesOf x0 size nx ≠ [] := by unfold edgesOf; simp
  have hy : edgesOf y0 size ny ≠ [] := by unfold edgesOf; simp
  obtain ⟨ys, y, hys⟩ := List.eq_nil_or_concat (edgesOf y0 size ny) |>.resolve_left hy
  have hall : (edgesOf y0 size ny).flatMap (boundaryRow size (edgesOf x0 size nx)) =
      (ys.flatMap (boundaryRow size (edgesOf x0 size nx)) ++ (edgesOf x0 size nx).flatMap (fun x => boxAround size x y)) ++ [((edgesOf x0 size nx).getLastD 0, y + size)] := by
    rw [hys]
    simp [boundaryRow]
  simp only
  rw [hall, List.dropLast_concat]
  refine ⟨?_, ?_⟩
  · have h := rows_straight size _ hx _ (edges_chain y0 size ny)
    rw [hall] at h
    rw [List.isChain_append] at h ⊢
    refine ⟨h.1, List.IsChain.singleton _, ?_⟩
    intro p hp q hq
    have hq : ((edgesOf x0 size nx).getLastD 0, maxY) = q := by simpa using hq
    subst hq
    left
    obtain ⟨-, -, -, p', hp', hpx⟩ := row_straight size _ hx y
    unfold boundaryRow at hp'
    rw [List.dropLast_concat] at hp'
    rw [List.getLast?_append, hp'] at hp
    have : p' = p := by simpa using hp
    exact this ▸ hpx
  · intro r c hr hc
    have hbox : ∀ y', Outline (x0 + (c : ℚ) * size) y' size <:+: (edgesOf x0 size nx).flatMap (fun x => boxAround size x y') := by
      intro y'
      have hm : x0 + (c : ℚ) * size ∈ edgesOf x0 size nx := List.mem_of_getElem? (edgesOf_get x0 size hc)
      exact List.infix_of_mem_flatten (List.mem_map_of_mem (f := fun x => boxAround size x y') hm)
    have hm : y0 + (r : ℚ) * size ∈ edgesOf y0 size ny := List.mem_of_getElem? (edgesOf_get y0 size hr)
    rw [hys, List.concat_eq_append, List.mem_append, List.mem_singleton] at hm
    refine List.IsInfix.trans ?_ (List.infix_append' [] _ _)
    rcases hm with hm | hm
    · refine List.IsInfix.trans (List.IsInfix.trans (hbox _) ?_) (List.infix_append' [] _ _)
      refine List.IsInfix.trans ?_ (List.infix_of_mem_flatten (List.mem_map_of_mem (f := boundaryRow size (edgesOf x0 size nx)) hm))
      exact (List.prefix_append _ _).isInfix
    · rw [hm]
      exact List.IsInfix.trans (hbox _) (List.suffix_append _ _).isInfix

section
variable {τ : Type} [TileLike τ] {C : ChildSpec τ size sub bs fl}

theorem boundaries_grow {g : Grid τ} (hg : GrowInv C g A) (hA : A ≠ []) :
    ∃ e l nx ny T, g.extents = some e ∧ g.tiles = some T ∧ T.rows = ny ∧ T.cols = nx ∧ e.maxX = e.minX + ((nx : Nat) : ℚ) * size ∧ e.maxY = e.minY + ((ny : Nat) : ℚ) * size ∧
      g.tileBoundaries = .ok l ∧ l.IsChain Straight ∧ ∀ r c, r ≤ ny → c ≤ nx → Outline (e.minX + (c : ℚ) * size) (e.minY + (r : ℚ) * size) size <:+: l := by
  rcases hg.body with ⟨h, -⟩ | ⟨-, i, j, nx, ny, T, hf, he⟩
  · exact absurd h hA
  · obtain ⟨d1, d2⟩ := drawing size ((i : ℚ) * size) ((j : ℚ) * size) ((j : ℚ) * size + (ny : ℚ) * size) nx ny
    refine ⟨_, _, nx, ny, T, he, hf.tiles, hf.rep.1, hf.rep.2.1, rfl, rfl, ?_, d1, d2⟩
    unfold Grid.tileBoundaries
    rw [he]
    simp only
    rw [hf.edgesX, hf.edgesY, hf.tileSize, if_neg]
    unfold edgesOf
    simp
end

/-- **C81, partial** (single resolution): on every reachable grid with points, the line of `get_tile_boundaries` consists of horizontal and vertical pieces only and has the outline of every place
for a tile in one piece.  Missing: it also has squares that are not places for tiles, see `C81_beyond_sr`. -/
theorem C81_drawing_sr_partial (hs : 0 < size) {g : Grid Tile} (h : SRHistory env size bs fl F s g A) (hA : A ≠ []) :
    ∃ e l T, g.extents = some e ∧ g.tiles = some T ∧ g.tileBoundaries = .ok l ∧ l.IsChain Straight ∧
      ∀ r c, r < T.rows → c < T.cols → Outline (e.minX + (c : ℚ) * size) (e.minY + (r : ℚ) * size) size <:+: l := by
  obtain ⟨e, l, nx, ny, T, h1, h2, h3, h4, -, -, h5, h6, h7⟩ := boundaries_grow (sr_inv hs h).1 hA
  exact ⟨e, l, T, h1, h2, h5, h6, fun r c hr hc => h7 r c (by omega) (by omega)⟩

/-- **C81, partial** (variable resolution). -/
theorem C81_drawing_vr_partial (hs : 0 < size) (hpow : isPowerOfTwo sub = true) {g : Grid (Grid Tile)} (h : VRHistory env size sub bs fl F s g A) (hA : A ≠ []) :
    ∃ e l T, g.extents = some e ∧ g.tiles = some T ∧ g.tileBoundaries = .ok l ∧ l.IsChain Straight ∧
      ∀ r c, r < T.rows → c < T.cols → Outline (e.minX + (c : ℚ) * size) (e.minY + (r : ℚ) * size) size <:+: l := by
  obtain ⟨e, l, nx, ny, T, h1, h2, h3, h4, -, -, h5, h6, h7⟩ := boundaries_grow (vr_inv hs hpow h).1 hA
  exact ⟨e, l, T, h1, h2, h5, h6, fun r c hr hc => h7 r c (by omega) (by omega)⟩

/-- **C81, what the code does besides** (single resolution, every reachable grid with points): the line also has the outline of a square outside of the extents of the grid, at each place along the right and
upper edge. -/
theorem C81_beyond_sr (hs : 0 < size) {g : Grid Tile} (h : SRHistory env size bs fl F s g A) (hA : A ≠ []) :
    ∃ e l T, g.extents = some e ∧ g.tiles = some T ∧ g.tileBoundaries = .ok l ∧ (∀ r, r ≤ T.rows → Outline e.maxX (e.minY + (r : ℚ) * size) size <:+: l) ∧
      ∀ c, c ≤ T.cols → Outline (e.minX + (c : ℚ) * size) e.maxY size <:+: l := by
  obtain ⟨e, l, nx, ny, T, h1, h2, h3, h4, h5, h6, h7, -, h8⟩ := boundaries_grow (sr_inv hs h).1 hA
  exact ⟨e, l, T, h1, h2, h7, fun r hr => by rw [h5]; exact h8 r nx (by omega) (le_refl _), fun c hc => by rw [h6]; exact h8 ny c (le_refl _) (by omega)⟩

/-- … and for variable resolution -/
theorem C81_beyond_vr (hs : 0 < size) (hpow : isPowerOfTwo sub = true) {g : Grid (Grid Tile)} (h : VRHistory env size sub bs fl F s g A) (hA : A ≠ []) :
    ∃ e l T, g.extents = some e ∧ g.tiles = some T ∧ g.tileBoundaries = .ok l ∧ (∀ r, r ≤ T.rows → Outline e.maxX (e.minY + (r : ℚ) * size) size <:+: l) ∧
      ∀ c, c ≤ T.cols → Outline (e.minX + (c : ℚ) * size) e.maxY size <:+: l := by
  obtain ⟨e, l, nx, ny, T, h1, h2, h3, h4, h5, h6, h7, -, h8⟩ := boundaries_grow (vr_inv hs hpow h).1 hA
  exact ⟨e, l, T, h1, h2, h7, fun r hr => by rw [h5]; exact h8 r nx (by omega) (le_refl _), fun c hc => by rw [h6]; exact h8 ny c (le_refl _) (by omega)⟩

private def oneTile : Grid Tile := ((newSR 16 false).addPoints ⟨{}, [⟨1, 1, 5, 1, 1⟩]⟩ "a" {}).st

/-- **C81** does not hold: a grid with a single tile is drawn as four squares. -/
theorem C81_violated : SRHistory demoEnv 16 false {} .plain false oneTile [("a", [⟨1, 1, 5, 1, 1⟩])] ∧ oneTile.extents = some ⟨0, 16, 0, 16⟩ ∧
    oneTile.tileBoundaries = .ok (Outline 0 0 16 ++ Outline 16 0 16 ++ [(16, 16)] ++ Outline 0 16 16 ++ Outline 16 16 16 ++ [(16, 16)]) := by
  refine ⟨(GridHistory.new .plain).add [⟨1, 1, 5, 1, 1⟩] "a" {} (by decide +kernel), by decide +kernel, by decide +kernel⟩

/-- the hypotheses of C81 are met -/
example : SRHistory demoEnv 16 false demoFields .plain false demoSR demoStore ∧ VRHistory demoEnv 32 16 false demoFields .plain false demoVR demoStore ∧ demoStore ≠ [] ∧ isPowerOfTwo 16 = true :=
  ⟨demoSR_history, demoVR_history, by decide +kernel, by decide +kernel⟩

end Bathy
