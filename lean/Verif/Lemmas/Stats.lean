import Verif.Model.Stats
import Verif.Spec.Stats
import Verif.Lemmas.GridLeaf
import Verif.Lemmas.CellSums
import Verif.Props.AutoResolution
import Verif.Props.TileQueries

/-!
# Lemmas for the statistics of whole grids
-/

namespace Bathy
open Grid

/-! ### the list of the tiles -/

theorem present_slotList {τ : Type} (g : Grid τ) : g.present = g.slotList.filterMap id := by
  unfold Grid.present Grid.slotList
  cases g.tiles <;> rfl

theorem leaves_present {τ : Type} [LeafList τ] (g : Grid τ) : LeafList.leaves g = g.present.flatMap LeafList.leaves := by
  rw [present_slotList]
  show g.slotList.flatMap _ = _
  induction g.slotList with
  | nil => rfl
  | cons o l ih =>
    rw [List.flatMap_cons, ih]
    cases o with
    | none => rfl
    | some t => rfl

theorem leaves_tiles (g : Grid Tile) : LeafList.leaves g = g.present := by
  rw [leaves_present]
  show g.present.flatMap (fun t => [t]) = _
  simp

theorem all_present {τ : Type} [Holds τ] (g : Grid τ) : Holds.all g = g.present.flatMap Holds.all := by
  rw [present_slotList]
  show g.slotList.flatMap slotAll = _
  induction g.slotList with
  | nil => rfl
  | cons o l ih =>
    rw [List.flatMap_cons, ih]
    cases o with
    | none => rfl
    | some t => rfl

theorem all_leaves_sr (g : Grid Tile) : Holds.all g = (LeafList.leaves g).flatMap Tile.pts := by
  rw [leaves_tiles, all_present]; rfl

theorem all_leaves_vr (g : Grid (Grid Tile)) : Holds.all g = (LeafList.leaves g).flatMap Tile.pts := by
  rw [leaves_present, all_present, List.flatMap_assoc]
  congr 1
  funext u
  exact all_leaves_sr u

theorem mapM_ok_of {α β : Type} {f : α → Except Err β} {h : α → β} : ∀ {l : List α}, (∀ a ∈ l, f a = .ok (h a)) → l.mapM f = .ok (l.map h) := by
  intro l
  induction l with
  | nil => intro _; rfl
  | cons a l ih =>
    intro hl
    rw [List.mapM_cons, hl a List.mem_cons_self, ih (fun b hb => hl b (List.mem_cons_of_mem _ hb))]
    rfl

theorem extendAll_ok {τ β : Type} {f : τ → Except Err (List β)} {h : τ → List β} {g : Grid τ} (hf : ∀ t ∈ g.present, f t = .ok (h t)) :
    g.extendAll f = .ok (g.present.flatMap h) := by
  unfold Grid.extendAll
  rw [mapM_ok_of hf, List.flatMap_def]

theorem addAll_ok {τ : Type} {f : τ → Except Err ℚ} {h : τ → ℚ} {g : Grid τ} (hf : ∀ t ∈ g.present, f t = .ok (h t)) :
    g.addAll f = .ok (g.present.map h).sum := by
  unfold Grid.addAll
  rw [mapM_ok_of hf]

/-- the tiles in the list are those in the slots -/
theorem leaf_of_mem_sr {g : Grid Tile} (hwf : ∀ T, g.tiles = some T → T.WF) {t : Tile} (h : t ∈ LeafList.leaves g) : g.Leaf t := by
  rw [leaves_tiles] at h
  obtain ⟨i, j, h⟩ := (mem_present hwf).1 h
  exact ⟨i, j, t, h, rfl⟩

theorem leaf_of_mem_vr {g : Grid (Grid Tile)} (hwf : ∀ T, g.tiles = some T → T.WF) (hsub : ∀ i j u, g.TileAt i j u → ∀ T, u.tiles = some T → T.WF) {t : Tile}
    (h : t ∈ LeafList.leaves g) : g.Leaf t := by
  rw [leaves_present, List.mem_flatMap] at h
  obtain ⟨u, hu, ht⟩ := h
  obtain ⟨i, j, hu⟩ := (mem_present hwf).1 hu
  exact ⟨i, j, u, hu, leaf_of_mem_sr (hsub i j u hu) ht⟩

/-! ### the cells of a tile that hold soundings -/

theorem occupied_counts (n : Nat) (x y r : ℚ) (pts : List Pt) :
    (countsOf n x y r pts).filter (fun v => decide (0 < v)) = (occupied n x y r pts).map (fun rc => ((inCell x y r rc.1 rc.2 pts).length : ℚ)) := by
  unfold countsOf occupied
  induction cellsOf n with
  | nil => rfl
  | cons rc l ih =>
    rw [List.map_cons, List.filter_cons, List.filter_cons]
    by_cases he : inCell x y r rc.1 rc.2 pts = []
    · simp only [he, List.length_nil, Nat.cast_zero, lt_irrefl, decide_false, Bool.false_eq_true, if_false, ne_eq, not_true_eq_false, ih]
    · have h2 : (0 : ℚ) < ((inCell x y r rc.1 rc.2 pts).length : ℚ) := by exact_mod_cast List.length_pos_iff.2 he
      simp only [h2, he, decide_true, if_true, ne_eq, not_false_eq_true, List.map_cons, ih]

theorem sum_filter_pos (l : List ℚ) (h : ∀ v ∈ l, 0 ≤ v) : (l.filter (fun v => decide (0 < v))).sum = l.sum := by
  induction l with
  | nil => rfl
  | cons v l ih =>
    have ih := ih (fun w hw => h w (List.mem_cons_of_mem _ hw))
    rw [List.filter_cons, List.sum_cons]
    by_cases hv : 0 < v
    · rw [if_pos (by simpa using hv), List.sum_cons, ih]
    · have : v = 0 := le_antisymm (not_lt.1 hv) (h v List.mem_cons_self)
      rw [if_neg (by simpa using hv), ih, this, zero_add]

/-! ### the lattice -/

theorem latticeCell_inCell {r : ℚ} (hr : 0 < r) {i j : ℤ} {a b : Nat} {p : Pt} :
    InCell ((i : ℚ) * r) ((j : ℚ) * r) r a b p ↔ latticeCell r p = (i + b, j + a) := by
  unfold InCell latticeCell
  rw [Prod.mk.injEq, Int.floor_eq_iff, Int.floor_eq_iff, le_div_iff₀ hr, div_lt_iff₀ hr, le_div_iff₀ hr, div_lt_iff₀ hr]
  push_cast
  have e1 : (i : ℚ) * r + (b : ℚ) * r = ((i : ℚ) + b) * r := by ring
  have e2 : (i : ℚ) * r + ((b : ℚ) + 1) * r = ((i : ℚ) + b + 1) * r := by ring
  have e3 : (j : ℚ) * r + (a : ℚ) * r = ((j : ℚ) + a) * r := by ring
  have e4 : (j : ℚ) * r + ((a : ℚ) + 1) * r = ((j : ℚ) + a + 1) * r := by ring
  rw [e1, e2, e3, e4, and_assoc]

/-- no point is in the squares of both tiles -/
def Apart (w : ℚ) (t u : Tile) : Prop := ∀ p, InBox t.minX t.minY w p → ¬ InBox u.minX u.minY w p

theorem Apart.symm {w : ℚ} {t u : Tile} (h : Apart w t u) : Apart w u t := fun p h1 h2 => h p h2 h1

/-- tiles on the lattice with side `r`, apart from each other, that hold the soundings `P` together -/
structure OnLattice (r : ℚ) (n : Nat) (Ls : List Tile) (P : List Pt) : Prop where
  pos : 0 < r
  npos : 0 < n
  origin : ∀ t ∈ Ls, ∃ i j : ℤ, t.minX = i * r ∧ t.minY = j * r
  box : ∀ t ∈ Ls, ∀ p ∈ t.pts, InBox t.minX t.minY (n * r) p
  apart : Ls.Pairwise (Apart (n * r))
  all : (Ls.flatMap Tile.pts).Perm P

/-- the cells with soundings, each with its tile -/
def slotsOf (r : ℚ) (n : Nat) (Ls : List Tile) : List (Tile × Nat × Nat) :=
  Ls.flatMap (fun t => (occupied n t.minX t.minY r t.pts).map (fun rc => (t, rc)))

/-- the square of the lattice -/
def slotKey (r : ℚ) (s : Tile × Nat × Nat) : ℤ × ℤ := (⌊s.1.minX / r⌋ + (s.2.2 : ℤ), ⌊s.1.minY / r⌋ + (s.2.1 : ℤ))

/-- the soundings -/
def slotPts (r : ℚ) (s : Tile × Nat × Nat) : List Pt := inCell s.1.minX s.1.minY r s.2.1 s.2.2 s.1.pts

theorem mem_slotsOf {r : ℚ} {n : Nat} {Ls : List Tile} {s : Tile × Nat × Nat} : s ∈ slotsOf r n Ls ↔ s.1 ∈ Ls ∧ s.2.1 < n ∧ s.2.2 < n ∧ slotPts r s ≠ [] := by
  unfold slotsOf slotPts
  rw [List.mem_flatMap]
  constructor
  · rintro ⟨t, ht, h⟩
    obtain ⟨rc, hrc, rfl⟩ := List.mem_map.1 h
    unfold occupied at hrc
    rw [List.mem_filter, mem_cellsOf] at hrc
    exact ⟨ht, hrc.1.1, hrc.1.2, by simpa using hrc.2⟩
  · rintro ⟨h1, h2, h3, h4⟩
    refine ⟨s.1, h1, List.mem_map.2 ⟨s.2, ?_, rfl⟩⟩
    unfold occupied
    rw [List.mem_filter, mem_cellsOf]
    exact ⟨⟨h2, h3⟩, by simpa using h4⟩

theorem OnLattice.inCell_iff {r : ℚ} {n : Nat} {Ls : List Tile} {P : List Pt} (h : OnLattice r n Ls P) {t : Tile} (ht : t ∈ Ls) (a b : Nat) (p : Pt) :
    InCell t.minX t.minY r a b p ↔ latticeCell r p = slotKey r (t, a, b) := by
  obtain ⟨i, j, hi, hj⟩ := h.origin t ht
  unfold slotKey
  simp only
  rw [hi, hj, mul_div_cancel_right₀ _ h.pos.ne', mul_div_cancel_right₀ _ h.pos.ne', Int.floor_intCast, Int.floor_intCast]
  exact latticeCell_inCell h.pos

theorem inCell_inBox {x y r : ℚ} {n a b : Nat} (hr : 0 < r) (ha : a < n) (hb : b < n) {p : Pt} (h : InCell x y r a b p) : InBox x y (n * r) p := by
  obtain ⟨h1, h2, h3, h4⟩ := h
  have k1 : (0 : ℚ) ≤ (b : ℚ) * r := by positivity
  have k2 : (0 : ℚ) ≤ (a : ℚ) * r := by positivity
  have k3 : ((b + 1 : Nat) : ℚ) * r ≤ (n : ℚ) * r := by
    apply mul_le_mul_of_nonneg_right _ hr.le; exact_mod_cast hb
  have k4 : ((a + 1 : Nat) : ℚ) * r ≤ (n : ℚ) * r := by
    apply mul_le_mul_of_nonneg_right _ hr.le; exact_mod_cast ha
  exact ⟨by linarith, by linarith, by linarith, by linarith⟩

/-- the soundings of a cell are those of the square of the lattice -/
theorem OnLattice.slotPts_perm {r : ℚ} {n : Nat} {Ls : List Tile} {P : List Pt} (h : OnLattice r n Ls P) {s : Tile × Nat × Nat} (hs : s ∈ slotsOf r n Ls) :
    (slotPts r s).Perm (inLattice r P (slotKey r s)) := by
  obtain ⟨h1, h2, h3, h4⟩ := mem_slotsOf.1 hs
  have hkey := h.inCell_iff h1 s.2.1 s.2.2
  have e1 : slotPts r s = inLattice r s.1.pts (slotKey r s) := by
    unfold slotPts inCell inLattice
    apply List.filter_congr
    intro p _
    rw [decide_eq_decide]
    exact hkey p
  have e2 : (inLattice r P (slotKey r s)).Perm (inLattice r (Ls.flatMap Tile.pts) (slotKey r s)) := (h.all.symm).filter _
  refine List.Perm.trans ?_ e2.symm
  obtain ⟨l1, l2, hl⟩ := List.append_of_mem h1
  have hap := h.apart
  rw [hl, List.pairwise_append, List.pairwise_cons] at hap
  obtain ⟨-, ⟨hr2, -⟩, hr1⟩ := hap
  have hother : ∀ u ∈ Ls, Apart (n * r) s.1 u → inLattice r u.pts (slotKey r s) = [] := by
    intro u hu hua
    unfold inLattice
    rw [List.filter_eq_nil_iff]
    intro p hp hk
    have hk : latticeCell r p = slotKey r s := by simpa using hk
    exact hua p (inCell_inBox h.pos h2 h3 ((hkey p).2 hk)) (h.box u hu p hp)
  have hzero : ∀ l : List Tile, (∀ u ∈ l, inLattice r u.pts (slotKey r s) = []) → inLattice r (l.flatMap Tile.pts) (slotKey r s) = [] := by
    intro l hl
    unfold inLattice at hl ⊢
    rw [List.filter_flatMap, List.flatMap_eq_nil_iff]
    exact hl
  rw [e1, hl, List.flatMap_append, List.flatMap_cons]
  have f1 : ∀ a b : List Pt, inLattice r (a ++ b) (slotKey r s) = inLattice r a (slotKey r s) ++ inLattice r b (slotKey r s) := fun a b => List.filter_append ..
  rw [f1, f1, hzero l1 (fun u hu => hother u (by rw [hl]; simp [hu]) (hr1 u hu s.1 List.mem_cons_self).symm),
    hzero l2 (fun u hu => hother u (by rw [hl]; simp [hu]) (hr2 u hu))]
  simp

theorem mem_latticeCells {r : ℚ} {P : List Pt} {k : ℤ × ℤ} : k ∈ latticeCells r P ↔ inLattice r P k ≠ [] := by
  unfold latticeCells inLattice
  rw [List.mem_dedup, List.mem_map, Ne, List.filter_eq_nil_iff]
  push Not
  simp only [decide_eq_true_eq]

theorem floor_cell {x r : ℚ} (hr : 0 < r) {i : ℤ} {n : Nat} {v : ℚ} (hx : x = i * r) (h1 : x ≤ v) (h2 : v < x + n * r) :
    ∃ a : Nat, a < n ∧ ⌊v / r⌋ = i + a := by
  have k1 : i ≤ ⌊v / r⌋ := by rw [Int.le_floor, le_div_iff₀ hr, ← hx]; exact h1
  have k2 : ⌊v / r⌋ < i + n := by
    rw [Int.floor_lt, div_lt_iff₀ hr]
    push_cast
    rw [add_mul, ← hx]; exact h2
  refine ⟨(⌊v / r⌋ - i).toNat, ?_, ?_⟩
  · omega
  · omega

/-- the cells with soundings are the squares of the lattice with soundings -/
theorem OnLattice.keys_perm {r : ℚ} {n : Nat} {Ls : List Tile} {P : List Pt} (h : OnLattice r n Ls P) : ((slotsOf r n Ls).map (slotKey r)).Perm (latticeCells r P) := by
  rw [List.perm_ext_iff_of_nodup]
  · intro k
    rw [List.mem_map, mem_latticeCells]
    constructor
    · rintro ⟨s, hs, rfl⟩ h0
      have := h.slotPts_perm hs
      rw [h0] at this
      exact (mem_slotsOf.1 hs).2.2.2 this.eq_nil
    · intro hk
      obtain ⟨p, hp⟩ := List.exists_mem_of_ne_nil _ hk
      unfold inLattice at hp
      rw [List.mem_filter] at hp
      obtain ⟨hp1, hp2⟩ := hp
      have hp2 : latticeCell r p = k := by simpa using hp2
      have hp1 := h.all.symm.subset hp1
      obtain ⟨t, ht, hpt⟩ := List.mem_flatMap.1 hp1
      obtain ⟨i, j, hi, hj⟩ := h.origin t ht
      obtain ⟨b1, b2, b3, b4⟩ := h.box t ht p hpt
      obtain ⟨b, hb, eb⟩ := floor_cell h.pos hi b1 b2
      obtain ⟨a, ha, ea⟩ := floor_cell h.pos hj b3 b4
      have hkey : latticeCell r p = slotKey r (t, a, b) := by
        unfold latticeCell slotKey
        simp only
        rw [eb, ea, hi, hj, mul_div_cancel_right₀ _ h.pos.ne', mul_div_cancel_right₀ _ h.pos.ne', Int.floor_intCast, Int.floor_intCast]
      refine ⟨(t, a, b), mem_slotsOf.2 ⟨ht, ha, hb, ?_⟩, by rw [← hkey, hp2]⟩
      refine List.ne_nil_of_mem (a := p) ?_
      unfold slotPts inCell
      rw [List.mem_filter]
      exact ⟨hpt, by simpa using (h.inCell_iff ht a b p).2 hkey⟩
  · have hbase : (slotsOf r n Ls).Pairwise (fun s s' => slotKey r s ≠ slotKey r s') := by
      unfold slotsOf
      rw [List.pairwise_flatMap]
      constructor
      · intro t ht
        rw [List.pairwise_map]
        have hn : (occupied n t.minX t.minY r t.pts).Nodup := (cellsOf_nodup n).filter _
        refine List.Pairwise.imp ?_ hn
        rintro ⟨a, b⟩ ⟨a', b'⟩ hne hk
        apply hne
        unfold slotKey at hk
        simp only [Prod.mk.injEq] at hk ⊢
        exact ⟨by have := hk.2; omega, by have := hk.1; omega⟩
      · refine List.Pairwise.imp_of_mem ?_ h.apart
        intro t u ht hu hap s hs s' hs' hk
        obtain ⟨rc, hrc, rfl⟩ := List.mem_map.1 hs
        obtain ⟨rc', hrc', rfl⟩ := List.mem_map.1 hs'
        unfold occupied at hrc hrc'
        rw [List.mem_filter, mem_cellsOf] at hrc hrc'
        have hne : inCell t.minX t.minY r rc.1 rc.2 t.pts ≠ [] := by simpa using hrc.2
        obtain ⟨p, hp⟩ := List.exists_mem_of_ne_nil _ hne
        unfold inCell at hp
        rw [List.mem_filter] at hp
        have hc : InCell t.minX t.minY r rc.1 rc.2 p := by simpa using hp.2
        have hc' : InCell u.minX u.minY r rc'.1 rc'.2 p := (h.inCell_iff hu _ _ p).2 (((h.inCell_iff ht _ _ p).1 hc).trans hk)
        exact hap p (inCell_inBox h.pos hrc.1.1 hrc.1.2 hc) (inCell_inBox h.pos hrc'.1.1 hrc'.1.2 hc')
    unfold List.Nodup
    rw [List.pairwise_map]
    exact hbase
  · exact List.nodup_dedup _

end Bathy
