import Verif.Lemmas.GridPts

/-!
# Grids of tiles, whatever the numbers in their layers are

What a tile contains, where it is and which layers it has does not depend on the arithmetic it was gridded with.
-/

namespace Bathy
open Grid

variable {size sub : ℚ} {bs : Bool} {fl : Fields} {F : Family} {A : Store}

/-- children that are tiles at their places, with their soundings, and with layers of the right names and shapes -/
structure Shaped (C : ChildSpec Tile size sub bs fl) (F : Family) : Prop where
  shape : ∀ {x y : ℚ} {t : Tile} {A : Store}, C.Rep x y t A → Tile.sameFrame (Tile.new x y size bs) t ∧ t.Rep A fl ∧ t.GInv fl F
  ne : ∀ {x y : ℚ} {t : Tile} {A : Store}, C.Rep x y t A → A ≠ [] ∧ ∀ q ∈ A, q.2 ≠ []

theorem shaped_tile (env : Env) (F : Family) (hs : 0 < size) : Shaped (tileSpec env F size sub bs fl hs) F :=
  ⟨fun h => history_frame hs h.1, fun h => h.2⟩

/-- the soundings of such tiles -/
def shapedPts {C : ChildSpec Tile size sub bs fl} (S : Shaped C F) : Grid.PtsSpec C where
  can _ _ A c := A.ptsOf c
  eq := fun h c => Tile.under_rep (S.shape h).2.1 c
  remove := fun _ _ A c c' => Store.ptsOf_remove A c c'
  append := by
    intro _ _ A B c hc
    rw [Store.ptsOf_append, Store.ptsOf_not_mem B hc, List.append_nil]
  perm := fun _ _ => List.Perm.refl _
  all := by
    intro x y t A h _
    have := (S.shape h).2.1.pts
    show (Tile.pts t).Perm _
    rw [this]

/-- the tile in row `r`, column `c` of a grid -/
theorem contains_sr {C : ChildSpec Tile size sub bs fl} (S : Shaped C F) {g : Grid Tile} (h : GrowInv C g A) {r c : Nat} {t : Tile} (ht : g.TileAt r c t) :
    ∃ e, g.extents = some e ∧ t.minX = e.minX + (c : ℚ) * size ∧ t.maxX = t.minX + size ∧ t.minY = e.minY + (r : ℚ) * size ∧
      t.maxY = t.minY + size ∧ t.maxX ≤ e.maxX ∧ t.maxY ≤ e.maxY ∧
      ∀ p ∈ t.pts, t.minX ≤ p.x ∧ p.x < t.maxX ∧ t.minY ≤ p.y ∧ p.y < t.maxY := by
  obtain ⟨a, b, e, he, e1, e2, hrep, -, e3, e4⟩ := tileAt_rep h ht
  obtain ⟨hf, hr, -⟩ := S.shape hrep
  have f1 : t.minX = (a : ℚ) * size := hf.1
  have f2 : t.maxX = (a : ℚ) * size + size := hf.2.1
  have f3 : t.minY = (b : ℚ) * size := hf.2.2.1
  have f4 : t.maxY = (b : ℚ) * size + size := hf.2.2.2.1
  refine ⟨e, he, by rw [f1, e1], by rw [f2, f1], by rw [f3, e2], by rw [f4, f3], by rw [f2]; exact e3, by rw [f4]; exact e4, ?_⟩
  intro p hp
  rw [hr.pts] at hp
  have := Store.within_box _ _ _ _ p hp
  rw [f1, f2, f3, f4]
  exact this

/-- the subgrid in row `r`, column `c` of a variable resolution grid, and its tiles -/
theorem contains_vr {C : ChildSpec Tile sub 0 false fl} (S : Shaped C F) (hs : 0 < size) (hsub : isPowerOfTwo sub = true) {g : Grid (Grid Tile)}
    (h : GrowInv (subSpec (bs := bs) C hs hsub) g A) {r c : Nat} {u : Grid Tile} (hu : g.TileAt r c u) :
    ∃ e x y, g.extents = some e ∧ x = e.minX + (c : ℚ) * size ∧ y = e.minY + (r : ℚ) * size ∧ u.extents = some ⟨x, x + size, y, y + size⟩ ∧
      ∀ r' c' t, u.TileAt r' c' t → t.minX = x + (c' : ℚ) * sub ∧ t.maxX = t.minX + sub ∧ t.minY = y + (r' : ℚ) * sub ∧ t.maxY = t.minY + sub ∧
        ∀ p ∈ t.pts, t.minX ≤ p.x ∧ p.x < t.maxX ∧ t.minY ≤ p.y ∧ p.y < t.maxY ∧ InBox x y size p := by
  obtain ⟨a, b, e, he, e1, e2, hrep, -⟩ := tileAt_rep h hu
  have hrep : SubInv _ size _ _ u _ := hrep
  refine ⟨e, (a : ℚ) * size, (b : ℚ) * size, he, e1, e2, hrep.extents, ?_⟩
  intro r' c' t ht
  obtain ⟨T, hf⟩ := hrep.frame
  obtain ⟨-, -, h1, -⟩ := frame_tileAt hf.toReady ht
  obtain ⟨hf, hr, -⟩ := S.shape h1
  have f1 : t.minX = (a : ℚ) * size + (c' : ℚ) * sub := hf.1
  have f2 : t.maxX = (a : ℚ) * size + (c' : ℚ) * sub + sub := hf.2.1
  have f3 : t.minY = (b : ℚ) * size + (r' : ℚ) * sub := hf.2.2.1
  have f4 : t.maxY = (b : ℚ) * size + (r' : ℚ) * sub + sub := hf.2.2.2.1
  refine ⟨f1, by rw [f2, f1], f3, by rw [f4, f3], ?_⟩
  intro p hp
  rw [hr.pts] at hp
  have hb := Store.within_box _ _ _ _ p hp
  rw [Store.allPts_within] at hp
  have hb2 := Store.within_box _ _ _ _ p (List.mem_filter.1 hp).1
  rw [f1, f2, f3, f4]
  exact ⟨hb.1, hb.2.1, hb.2.2.1, hb.2.2.2, hb2⟩

end Bathy
