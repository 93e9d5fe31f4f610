import Verif.Lemmas.StatsLattice
import Verif.Spec.Surface
import Verif.Props.Layers
import Mathlib.Data.List.Pairwise

/-!
# From the cells of the tiles to the soundings of the grid
-/

namespace Bathy

theorem inCell_shift {x x' y y' r : ℚ} {i i' j j' : Nat} (hx : x + (j : ℚ) * r = x' + (j' : ℚ) * r) (hy : y + (i : ℚ) * r = y' + (i' : ℚ) * r) (p : Pt) :
    InCell x y r i j p ↔ InCell x' y' r i' j' p := by
  unfold InCell
  push_cast
  have hx' : x + ((j : ℚ) + 1) * r = x' + ((j' : ℚ) + 1) * r := by rw [add_mul, add_mul]; linarith
  have hy' : y + ((i : ℚ) + 1) * r = y' + ((i' : ℚ) + 1) * r := by rw [add_mul, add_mul]; linarith
  rw [hx, hy, hx', hy']

theorem box_cell {x y r : ℚ} {n : Nat} (hr : 0 < r) {p : Pt} (h : InBox x y ((n : ℚ) * r) p) : ∃ i j, i < n ∧ j < n ∧ InCell x y r i j p := by
  obtain ⟨h1, h2, h3, h4⟩ := h
  have one : ∀ lo v : ℚ, lo ≤ v → v < lo + (n : ℚ) * r → ∃ k : Nat, k < n ∧ lo + (k : ℚ) * r ≤ v ∧ v < lo + ((k + 1 : Nat) : ℚ) * r := by
    intro lo v h1 h2
    have h0 : 0 ≤ (v - lo) / r := div_nonneg (by linarith) hr.le
    have hf := Nat.floor_le h0
    have hf' := Nat.lt_floor_add_one ((v - lo) / r)
    rw [le_div_iff₀ hr] at hf
    rw [div_lt_iff₀ hr] at hf'
    refine ⟨⌊(v - lo) / r⌋₊, ?_, by linarith, by push_cast; linarith⟩
    rw [Nat.floor_lt h0, div_lt_iff₀ hr]
    linarith
  obtain ⟨j, hj, j1, j2⟩ := one x p.x h1 h2
  obtain ⟨i, hi, i1, i2⟩ := one y p.y h3 h4
  exact ⟨i, j, hi, hj, j1, j2, i1, i2⟩

theorem index_unique {x r v : ℚ} (hr : 0 < r) {a b : Nat} (h1 : x + (a : ℚ) * r ≤ v) (h2 : v < x + ((a + 1 : Nat) : ℚ) * r) (h3 : x + (b : ℚ) * r ≤ v) (h4 : v < x + ((b + 1 : Nat) : ℚ) * r) :
    a = b := by
  have k1 : (a : ℚ) * r < ((b + 1 : Nat) : ℚ) * r := by linarith
  have k2 : (b : ℚ) * r < ((a + 1 : Nat) : ℚ) * r := by linarith
  have k1 := lt_of_mul_lt_mul_right k1 hr.le
  have k2 := lt_of_mul_lt_mul_right k2 hr.le
  have k1 : a < b + 1 := by exact_mod_cast k1
  have k2 : b < a + 1 := by exact_mod_cast k2
  omega

theorem Arr2.get?_lt {α : Type} {a : Arr2 α} {i j : Nat} {v : α} (h : a.get? i j = some v) : i < a.rows ∧ j < a.cols := by
  by_contra hn
  rw [Arr2.get?_none_of_not_lt a hn] at h
  cases h

/-- the soundings of a cell of a tile are those of the grid -/
theorem OnLattice.cell_perm {r : ℚ} {n : Nat} {Ls : List Tile} {P : List Pt} (h : OnLattice r n Ls P) {t : Tile} (ht : t ∈ Ls) {i j : Nat} (hi : i < n) (hj : j < n) :
    (inCell t.minX t.minY r i j t.pts).Perm (inCell t.minX t.minY r i j P) := by
  have hP : inCell t.minX t.minY r i j P = inLattice r P (slotKey r (t, i, j)) := by
    unfold inCell inLattice
    apply List.filter_congr
    intro p _
    rw [decide_eq_decide]
    exact h.inCell_iff ht i j p
  by_cases he : inCell t.minX t.minY r i j t.pts = []
  · rw [he]
    have : inCell t.minX t.minY r i j P = [] := by
      by_contra hne
      obtain ⟨p, hp⟩ := List.exists_mem_of_ne_nil _ hne
      obtain ⟨hp1, hp2⟩ := List.mem_filter.1 hp
      have hp2 : InCell t.minX t.minY r i j p := by simpa using hp2
      obtain ⟨u, hu, hpu⟩ := List.mem_flatMap.1 (h.all.mem_iff.2 hp1)
      have hb := inCell_inBox h.pos hi hj hp2
      by_cases htu : t = u
      · subst htu
        have : p ∈ inCell t.minX t.minY r i j t.pts := List.mem_filter.2 ⟨hpu, by simpa using hp2⟩
        rw [he] at this; cases this
      · have : Std.Symm (Apart ((n : ℚ) * r)) := ⟨fun _ _ h => Apart.symm h⟩
        exact h.apart.forall ht hu htu p hb (h.box u hu p hpu)
    rw [this]
  · rw [hP]
    exact h.slotPts_perm (s := (t, i, j)) (mem_slotsOf.2 ⟨ht, hi, hj, he⟩)

/-- a sounding is in a cell that stores a number -/
theorem stored_of_point {τ : Type} [HasLeaves τ] {g : Grid τ} {l : Layer} {r : ℚ} {P : List Pt} {n : Nat} {Ls : List Tile}
    {R : List Pt → Option ℚ → Prop} (hlat : OnLattice r n Ls P) (hmem : ∀ t, t ∈ Ls → g.Leaf t)
    (hcell : ∀ t, t ∈ Ls → ∃ d, t.layerAt r l = some d ∧ EachCell d n t.minX t.minY r t.pts R) (hnone : ∀ ps, R ps none → ps = []) :
    ∀ p ∈ P, ∃ (t : Tile) (i j : Nat) (z : ℚ), t ∈ Ls ∧ InCell t.minX t.minY r i j p ∧ StoredCell g l r (t.minX + (j : ℚ) * r) (t.minY + (i : ℚ) * r) z := by
  have hr := hlat.pos
  intro p hp
  obtain ⟨t, ht, hpt⟩ := List.mem_flatMap.1 (hlat.all.mem_iff.2 hp)
  have hleaf := hmem t ht
  obtain ⟨i, j, hi, hj, hc⟩ := box_cell hr (hlat.box t ht p hpt)
  obtain ⟨d, hd, -, -, -, hE⟩ := hcell t ht
  obtain ⟨v, hv, hR⟩ := hE i j hi hj
  cases v with
  | none =>
    have hin : p ∈ inCell t.minX t.minY r i j t.pts := List.mem_filter.2 ⟨hpt, by simpa using hc⟩
    rw [hnone _ hR] at hin; cases hin
  | some z =>
    unfold Tile.layerAt at hd
    rw [Option.bind_eq_some_iff] at hd
    obtain ⟨ls, h1, h2⟩ := hd
    exact ⟨t, i, j, z, ht, hc, t, ls, d, i, j, hleaf, h1, h2, hv, rfl, rfl⟩

/-- the mosaic of the cells of the tiles `Ls` that have the layer is a surface of their soundings -/
theorem surface_of {τ : Type} [HasLeaves τ] {g : Grid τ} {l : Layer} {r : ℚ} {nodata : Option ℚ} {flip : Bool} {a : LayerArr} {e : Extents} {P : List Pt} {n : Nat} {Ls : List Tile}
    {R : List Pt → Option ℚ → Prop} (hlat : OnLattice r n Ls P) (hmem : ∀ t, t ∈ Ls → g.Leaf t) (hother : ∀ t, g.Leaf t → t ∉ Ls → t.layerAt r l = none)
    (horg : ∀ t, t ∈ Ls → ∃ p q : Nat, t.minX = e.minX + (p : ℚ) * r ∧ t.minY = e.minY + (q : ℚ) * r)
    (hcell : ∀ t, t ∈ Ls → ∃ d, t.layerAt r l = some d ∧ EachCell d n t.minX t.minY r t.pts R)
    (hperm : ∀ ps ps' v, ps.Perm ps' → R ps v → R ps' v) (hnone : ∀ ps, R ps none → ps = [])
    (hfill : ∃ v, R [] v ∧ shownCell l nodata flip v = fillValue l nodata)
    (hsh : ShowsCells g l r nodata flip e.minX e.minY a) (hrows : (a.rows : ℚ) * r = e.maxY - e.minY) (hcols : (a.cols : ℚ) * r = e.maxX - e.minX) :
    SurfaceOf R (shownCell l nodata flip) P r e a := by
  have hr := hlat.pos
  have hst := stored_of_point hlat hmem hcell hnone
  refine ⟨hrows, hcols, ?_, ?_⟩
  · intro i j hi hj
    by_cases hz : ∃ z, StoredCell g l r (e.minX + (j : ℚ) * r) (e.minY + (i : ℚ) * r) z
    · obtain ⟨z, hz⟩ := hz
      refine ⟨some z, ?_, hsh.value i j z hi hj hz⟩
      obtain ⟨u, ls, d, i', j', hu, h1, h2, h3, hx, hy⟩ := hz
      have hu : u ∈ Ls := by
        by_contra hno
        have := hother u hu hno
        unfold Tile.layerAt at this
        rw [h1] at this
        have this : ls.get? l = none := this
        rw [h2] at this
        cases this
      obtain ⟨d', hd', -, hr', hc', hE⟩ := hcell u hu
      unfold Tile.layerAt at hd'
      rw [h1] at hd'
      have hd' : ls.get? l = some d' := hd'
      rw [h2] at hd'
      cases hd'
      obtain ⟨hi', hj'⟩ := Arr2.get?_lt h3
      rw [hr'] at hi'; rw [hc'] at hj'
      obtain ⟨v, hv, hR⟩ := hE i' j' hi' hj'
      rw [h3] at hv
      cases hv
      have := hperm _ _ _ (hlat.cell_perm hu hi' hj') hR
      have heq : inCell u.minX u.minY r i' j' P = inCell e.minX e.minY r i j P := by
        unfold inCell
        apply List.filter_congr
        intro p _
        rw [decide_eq_decide]
        exact inCell_shift hx.symm hy.symm p
      rw [heq] at this
      exact this
    · push Not at hz
      obtain ⟨v, hv, hs⟩ := hfill
      refine ⟨v, ?_, by rw [hs]; exact hsh.empty i j hi hj hz⟩
      have : inCell e.minX e.minY r i j P = [] := by
        by_contra hne
        obtain ⟨p, hp⟩ := List.exists_mem_of_ne_nil _ hne
        obtain ⟨hp1, hp2⟩ := List.mem_filter.1 hp
        have hp2 : InCell e.minX e.minY r i j p := by simpa using hp2
        obtain ⟨t, i', j', z, hleaf, hc, hzz⟩ := hst p hp1
        obtain ⟨a1, b1, ha1, hb1⟩ := horg t hleaf
        have hc' : InCell e.minX e.minY r (b1 + i') (a1 + j') p :=
          (inCell_shift (by rw [ha1]; push_cast; ring) (by rw [hb1]; push_cast; ring) p).1 hc
        have e1 := index_unique hr hc'.1 hc'.2.1 hp2.1 hp2.2.1
        have e2 := index_unique hr hc'.2.2.1 hc'.2.2.2 hp2.2.2.1 hp2.2.2.2
        refine hz z ?_
        have f1 : e.minX + (j : ℚ) * r = t.minX + (j' : ℚ) * r := by rw [ha1, ← e1]; push_cast; ring
        have f2 : e.minY + (i : ℚ) * r = t.minY + (i' : ℚ) * r := by rw [hb1, ← e2]; push_cast; ring
        rw [f1, f2]
        exact hzz
      rw [this]
      exact hv
  · intro p hp
    obtain ⟨t, i', j', z, -, hc, hzz⟩ := hst p hp
    obtain ⟨i, j, hi, hj, hx, hy⟩ := hsh.all _ _ _ hzz
    exact ⟨i, j, hi, hj, (inCell_shift hx hy p).1 hc⟩

/-- the same with what `get_layers_by_name` returns -/
theorem surface_mosaic_part {τ : Type} [HasLeaves τ] {g g' : Grid τ} {l : Layer} {r : ℚ} {nodata : Option ℚ} {zUp flip : Bool} {o : Option (List LayerArr)} {P : List Pt} {n : Nat} {Ls : List Tile}
    {R : List Pt → Option ℚ → Prop} (hlat : OnLattice r n Ls P) (hmem : ∀ t, t ∈ Ls → g.Leaf t) (hother : ∀ t, g.Leaf t → t ∉ Ls → t.layerAt r l = none)
    (horg : ∀ t, t ∈ Ls → ∃ (e : Extents) (p q : Nat), g.extents = some e ∧ t.minX = e.minX + (p : ℚ) * r ∧ t.minY = e.minY + (q : ℚ) * r)
    (hcell : ∀ t, t ∈ Ls → ∃ d, t.layerAt r l = some d ∧ EachCell d n t.minX t.minY r t.pts R)
    (hperm : ∀ ps ps' v, ps.Perm ps' → R ps v → R ps' v) (hnone : ∀ ps, R ps none → ps = [])
    (hfill : ∃ v, R [] v ∧ shownCell l nodata flip v = fillValue l nodata) (hP : P ≠ [])
    (hflip : flip = true ↔ (zUp = true ↔ ¬ StoredUp g)) (hm : MosaicSpec g [l] r nodata zUp g' o) :
    ∃ e a, g.extents = some e ∧ g' = g ∧ o = some [a] ∧ SurfaceOf R (shownCell l nodata flip) P r e a := by
  cases o with
  | none =>
    obtain ⟨p, hp⟩ := List.exists_mem_of_ne_nil _ hP
    obtain ⟨t, i, j, z, -, -, hz⟩ := stored_of_point hlat hmem hcell hnone p hp
    exact absurd hz (hm.none_iff.1 rfl l (by simp) _ _ _)
  | some D =>
    obtain ⟨hlen, e, he, hD⟩ := hm.shows D rfl
    obtain ⟨a, ha, h1, h2, h3⟩ := hD 0 l rfl
    refine ⟨e, a, he, hm.same, ?_, surface_of hlat hmem hother (fun t ht => ?_) hcell hperm hnone hfill (h3 flip hflip) h1 h2⟩
    · cases D with
      | nil => cases ha
      | cons b D =>
        have hb : b = a := by simpa using ha
        have : D = [] := by simpa using hlen
        rw [hb, this]
    · obtain ⟨e', p, q, he', hx, hy⟩ := horg t ht
      rw [he] at he'
      cases he'
      exact ⟨p, q, hx, hy⟩

/-- all tiles have the layer -/
theorem surface_mosaic {τ : Type} [HasLeaves τ] {g g' : Grid τ} {l : Layer} {r : ℚ} {nodata : Option ℚ} {zUp flip : Bool} {o : Option (List LayerArr)} {P : List Pt} {n : Nat} {Ls : List Tile}
    {R : List Pt → Option ℚ → Prop} (hlat : OnLattice r n Ls P) (hmem : ∀ t, t ∈ Ls ↔ g.Leaf t)
    (horg : ∀ t, g.Leaf t → ∃ (e : Extents) (p q : Nat), g.extents = some e ∧ t.minX = e.minX + (p : ℚ) * r ∧ t.minY = e.minY + (q : ℚ) * r)
    (hcell : ∀ t, g.Leaf t → ∃ d, t.layerAt r l = some d ∧ EachCell d n t.minX t.minY r t.pts R)
    (hperm : ∀ ps ps' v, ps.Perm ps' → R ps v → R ps' v) (hnone : ∀ ps, R ps none → ps = [])
    (hfill : ∃ v, R [] v ∧ shownCell l nodata flip v = fillValue l nodata) (hP : P ≠ [])
    (hflip : flip = true ↔ (zUp = true ↔ ¬ StoredUp g)) (hm : MosaicSpec g [l] r nodata zUp g' o) :
    ∃ e a, g.extents = some e ∧ g' = g ∧ o = some [a] ∧ SurfaceOf R (shownCell l nodata flip) P r e a :=
  surface_mosaic_part hlat (fun t => (hmem t).1) (fun t h1 h2 => absurd ((hmem t).2 h1) h2) (fun t ht => horg t ((hmem t).1 ht)) (fun t ht => hcell t ((hmem t).1 ht)) hperm hnone hfill hP hflip hm

end Bathy
