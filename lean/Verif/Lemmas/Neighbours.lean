import Verif.Lemmas.GridPts
import Verif.Lemmas.GridReach
import Verif.Model.GridRun
import Verif.Spec.Neighbours

/-!
# Lemmas about neighbouring tiles
-/

namespace Bathy

/-- lower left corner of the square on the given side -/
def sideX (s : Side) (x size : ℚ) : ℚ := match s with | .up => x | .right => x + size | .down => x | .left => x - size
/-- lower left corner of the square on the given side -/
def sideY (s : Side) (y size : ℚ) : ℚ := match s with | .up => y - size | .right => y | .down => y + size | .left => y

/-- within `buf` of the edge that the square (X, Y) on the given side has in common with the one in the middle -/
def sideNear (s : Side) (X Y size buf : ℚ) (p : Pt) : Prop :=
  match s with
  | .up => p.y ≥ Y + size - buf
  | .right => p.x ≤ X + buf
  | .down => p.y ≤ Y + buf
  | .left => p.x ≥ X + size - buf

instance (s : Side) (X Y size buf : ℚ) (p : Pt) : Decidable (sideNear s X Y size buf p) := by unfold sideNear; cases s <;> simp only <;> infer_instance

namespace Grid
variable {τ : Type} [TileLike τ] {size sub : ℚ} {bs : Bool} {fl : Fields}

/-- a square outside of the grid holds nothing -/
theorem within_out {A : Store} {x0 y0 X Y : ℚ} {nx ny : Nat} (hin : ∀ p ∈ A.allPts, InRect x0 y0 size nx ny p)
    (h : X + size ≤ x0 ∨ x0 + (nx : ℚ) * size ≤ X ∨ Y + size ≤ y0 ∨ y0 + (ny : ℚ) * size ≤ Y) : A.within X Y size = [] := by
  apply Store.nil_of_allPts (Store.within_ne _ _ _ _)
  rw [Store.allPts_within, List.filter_eq_nil_iff]
  intro p hp
  obtain ⟨h1, h2, h3, h4⟩ := hin p hp
  rw [decide_eq_true_iff]
  rintro ⟨b1, b2, b3, b4⟩
  rcases h with h | h | h | h <;> linarith

/-- a slot inside the grid -/
theorem slot_get (C : ChildSpec τ size sub bs fl) {x0 y0 : ℚ} {nx ny : Nat} {T : Arr2 (Option τ)} {A : Store} (h : TilesRep C x0 y0 nx ny T A)
    {r c : Nat} (hr : r < ny) (hc : c < nx) :
    Slot C (x0 + (c : ℚ) * size) (y0 + (r : ℚ) * size) (T.get? r c).join (A.within (x0 + (c : ℚ) * size) (y0 + (r : ℚ) * size) size) := by
  obtain ⟨h1, h2, h3, h4⟩ := h
  have hk : r * nx + c < T.flat.length := by rw [h3]; exact Arr2.idx_lt hr hc
  have := h4 _ _ (List.getElem?_eq_getElem hk)
  unfold slotX slotY at this
  rw [Arr2.idx_mod hc, Arr2.idx_div hc] at this
  unfold Arr2.get?
  rw [h1, h2, if_pos ⟨hr, hc⟩, List.getElem?_eq_getElem hk]
  exact this

/-- the neighbour on each side is the tile of the square on that side -/
theorem neighbor_slot (C : ChildSpec τ size sub bs fl) {x0 y0 : ℚ} {nx ny : Nat} {T : Arr2 (Option τ)} {g : Grid τ} {A : Store}
    (h : Ready C x0 y0 nx ny T g A) {r c : Nat} (hr : r < ny) (hc : c < nx) (s : Side) :
    Slot C (sideX s (x0 + (c : ℚ) * size) size) (sideY s (y0 + (r : ℚ) * size) size) (g.neighbor (r * nx + c) s)
      (A.within (sideX s (x0 + (c : ℚ) * size) size) (sideY s (y0 + (r : ℚ) * size) size) size) := by
  have h2 : T.cols = nx := h.rep.2.1
  have h1 : T.rows = ny := h.rep.1
  have out : ∀ r' c' : Nat, ¬ (r' < ny ∧ c' < nx) → (T.get? r' c').join = none := by
    intro r' c' hn
    unfold Arr2.get?
    rw [h1, h2, if_neg hn]
    rfl
  have hnx : (c : ℚ) + 1 ≤ nx := by exact_mod_cast hc
  have hny : (r : ℚ) + 1 ≤ ny := by exact_mod_cast hr
  unfold neighbor
  rw [h.tiles]
  simp only [h2, Arr2.idx_div hc, Arr2.idx_mod hc]
  cases s with
  | up =>
    simp only [sideX, sideY]
    by_cases h0 : r = 0
    · subst h0
      rw [if_pos rfl]
      exact .inl ⟨rfl, within_out h.inr (.inr (.inr (.inl (by push_cast; linarith))))⟩
    · rw [if_neg h0]
      have e : y0 + (r : ℚ) * size - size = y0 + ((r - 1 : Nat) : ℚ) * size := by
        have : ((r - 1 : Nat) : ℚ) = (r : ℚ) - 1 := by push_cast [Nat.cast_sub (Nat.one_le_iff_ne_zero.2 h0)]; ring
        rw [this]; ring
      rw [e]
      exact slot_get C h.rep (by omega) hc
  | right =>
    simp only [sideX, sideY]
    have e : x0 + (c : ℚ) * size + size = x0 + ((c + 1 : Nat) : ℚ) * size := by push_cast; ring
    rw [e]
    by_cases h0 : c + 1 < nx
    · exact slot_get C h.rep hr h0
    · rw [out _ _ (fun q => h0 q.2)]
      have : nx = c + 1 := by omega
      exact .inl ⟨rfl, within_out h.inr (.inr (.inl (by rw [this])))⟩
  | down =>
    simp only [sideX, sideY]
    have e : y0 + (r : ℚ) * size + size = y0 + ((r + 1 : Nat) : ℚ) * size := by push_cast; ring
    rw [e]
    by_cases h0 : r + 1 < ny
    · exact slot_get C h.rep h0 hc
    · rw [out _ _ (fun q => h0 q.1)]
      have : ny = r + 1 := by omega
      exact .inl ⟨rfl, within_out h.inr (.inr (.inr (.inr (by rw [this]))))⟩
  | left =>
    simp only [sideX, sideY]
    by_cases h0 : c = 0
    · subst h0
      rw [if_pos rfl]
      exact .inl ⟨rfl, within_out h.inr (.inl (by push_cast; linarith))⟩
    · rw [if_neg h0]
      have e : x0 + (c : ℚ) * size - size = x0 + ((c - 1 : Nat) : ℚ) * size := by
        have : ((c - 1 : Nat) : ℚ) = (c : ℚ) - 1 := by push_cast [Nat.cast_sub (Nat.one_le_iff_ne_zero.2 h0)]; ring
        rw [this]; ring
      rw [e]
      exact slot_get C h.rep hr (by omega)

end Grid

/-- arrays with the same fields can be put together -/
theorem concatPts_ok {fl : Fields} {d : PtArr} {ds : List PtArr} (h : ∀ e ∈ d :: ds, e.fields = fl) :
    concatPts (d :: ds) = .ok ⟨fl, ((d :: ds).map PtArr.pts).flatten⟩ := by
  have hd := h d (by simp)
  unfold concatPts
  simp only
  rw [if_pos]
  · rw [hd]
  · rw [List.all_eq_true]
    intro e he
    rw [decide_eq_true_iff, hd, h e (by simp [he])]

/-- the four sides put together -/
theorem Grid.neighborPoints_of {τ : Type} [GridLike τ] {fl : Fields} {g : Grid τ} {k : Nat} {buf : ℚ} (f : Side → List Pt)
    (h : ∀ s, ∃ ls, g.neighborSide k buf s = .ok ls ∧ (∀ d ∈ ls, d.fields = fl) ∧ (ls.map PtArr.pts).flatten = f s) :
    ∃ o, g.neighborPoints k buf = .ok o ∧
      ((o = none ∧ f .up ++ f .right ++ f .down ++ f .left = []) ∨
        (o = some ⟨fl, f .up ++ f .right ++ f .down ++ f .left⟩ ∧ f .up ++ f .right ++ f .down ++ f .left ≠ [])) := by
  obtain ⟨l1, a1, b1, c1⟩ := h .up
  obtain ⟨l2, a2, b2, c2⟩ := h .right
  obtain ⟨l3, a3, b3, c3⟩ := h .down
  obtain ⟨l4, a4, b4, c4⟩ := h .left
  have hm : [Side.up, .right, .down, .left].mapM (g.neighborSide k buf) = .ok [l1, l2, l3, l4] := by
    simp only [List.mapM_cons, List.mapM_nil, a1, a2, a3, a4]; rfl
  have hp : ((([l1, l2, l3, l4] : List (List PtArr)).flatten).map PtArr.pts).flatten = f .up ++ f .right ++ f .down ++ f .left := by
    simp [c1.symm, c2.symm, c3.symm, c4.symm]
  have hf : ∀ d ∈ ([l1, l2, l3, l4] : List (List PtArr)).flatten, d.fields = fl := by
    intro d hd
    simp only [List.flatten_cons, List.flatten_nil, List.append_nil, List.mem_append] at hd
    rcases hd with hd | hd | hd | hd
    · exact b1 d hd
    · exact b2 d hd
    · exact b3 d hd
    · exact b4 d hd
  unfold neighborPoints
  rw [hm]
  simp only
  generalize ([l1, l2, l3, l4] : List (List PtArr)).flatten = L at hp hf
  cases L with
  | nil =>
    refine ⟨none, rfl, .inl ⟨rfl, ?_⟩⟩
    rw [← hp]; rfl
  | cons d ds =>
    simp only [concatPts_ok hf, hp]
    by_cases h0 : f .up ++ f .right ++ f .down ++ f .left = []
    · exact ⟨none, by rw [h0]; rfl, .inl ⟨rfl, h0⟩⟩
    · refine ⟨some ⟨fl, f .up ++ f .right ++ f .down ++ f .left⟩, ?_, .inr ⟨rfl, h0⟩⟩
      rw [if_neg]
      simpa only [List.length_eq_zero_iff] using h0

/-- the soundings of the four sides are different soundings -/
theorem filter_sides (l : List Pt) (P Q R S : Pt → Bool) (h : ∀ p, (P p → Q p = false ∧ R p = false ∧ S p = false) ∧ (Q p → R p = false ∧ S p = false) ∧ (R p → S p = false)) :
    (l.filter P ++ l.filter Q ++ l.filter R ++ l.filter S).Perm (l.filter (fun p => P p || Q p || R p || S p)) := by
  classical
  rw [List.perm_iff_count]
  intro a
  simp only [List.count_append]
  by_cases ha : a ∈ l
  · have hc : ∀ (b : Pt → Bool), (l.filter b).count a = if b a then l.count a else 0 := by
      intro b
      split
      · rename_i hb; exact List.count_filter hb
      · rename_i hb
        rw [List.count_eq_zero]
        intro hm
        exact hb (List.mem_filter.1 hm).2
    rw [hc, hc, hc, hc, hc]
    obtain ⟨h1, h2, h3⟩ := h a
    cases hP : P a <;> cases hQ : Q a <;> cases hR : R a <;> cases hS : S a <;> simp_all
  · have hz : ∀ b : Pt → Bool, (l.filter b).count a = 0 := fun b => List.count_eq_zero.2 (fun hm => ha (List.mem_filter.1 hm).1)
    rw [hz, hz, hz, hz, hz]

/-- the near soundings on one side -/
def sidePts (s : Side) (x y size buf : ℚ) (l : List Pt) : List Pt :=
  l.filter (fun p => decide (InBox (sideX s x size) (sideY s y size) size p ∧ sideNear s (sideX s x size) (sideY s y size) size buf p))

/-- all sides together -/
theorem sidePts_perm {size : ℚ} (x y buf : ℚ) (l : List Pt) :
    (sidePts .up x y size buf l ++ sidePts .right x y size buf l ++ sidePts .down x y size buf l ++ sidePts .left x y size buf l).Perm
      (l.filter (fun p => decide (NearBorder x y size buf p))) := by
  unfold sidePts
  refine (filter_sides l _ _ _ _ ?_).trans ?_
  · intro p
    simp only [decide_eq_true_eq, decide_eq_false_iff_not]
    simp only [sideX, sideY, InBox]
    refine ⟨?_, ?_, ?_⟩
    · rintro ⟨⟨b1, b2, b3, b4⟩, -⟩
      refine ⟨?_, ?_, ?_⟩ <;> (rintro ⟨⟨d1, d2, d3, d4⟩, -⟩; linarith)
    · rintro ⟨⟨b1, b2, b3, b4⟩, -⟩
      refine ⟨?_, ?_⟩ <;> (rintro ⟨⟨d1, d2, d3, d4⟩, -⟩; linarith)
    · rintro ⟨⟨b1, b2, b3, b4⟩, -⟩
      rintro ⟨⟨d1, d2, d3, d4⟩, -⟩; linarith
  · apply List.Perm.of_eq
    apply List.filter_congr
    intro p _
    rw [Bool.eq_iff_iff]
    simp only [Bool.or_eq_true, decide_eq_true_eq]
    simp only [sideX, sideY, sideNear, NearBorder, ge_iff_le, sub_add_cancel, or_assoc]

/-- one side of a tile of a single resolution grid -/
theorem sidePoints_tile {env : Env} {x y size : ℚ} {bs : Bool} {fl : Fields} {F : Family} {t : Tile} {A : Store} (hs : 0 < size)
    (h : TileHistory env x y size bs fl F t A) (hA : A ≠ []) (s : Side) (buf : ℚ) :
    t.sidePoints s buf = .ok [⟨fl, A.allPts.filter (fun p => decide (sideNear s x y size buf p))⟩] := by
  obtain ⟨hf, hr, -⟩ := history_frame hs h
  have f1 : t.minX = x := hf.1
  have f2 : t.maxX = x + size := hf.2.1
  have f3 : t.minY = y := hf.2.2.1
  have f4 : t.maxY = y + size := hf.2.2.2.1
  unfold Tile.sidePoints
  cases hd : t.data with
  | none => exact absurd (hr.empty hd) hA
  | some d =>
    have hp := hr.pts
    unfold Tile.pts at hp
    rw [hd] at hp
    simp only at hp
    simp only
    rw [boolIndex_filter, hr.fields d hd, hp, f1, f2, f3, f4]
    cases s <;> rfl

end Bathy

namespace Bathy
open Grid

/-- the visit of the tiles of a subgrid fails if a tile is missing, else the parts are put together -/
theorem slots_mapM {f : Option Tile → List Pt} {fl : Fields} {s : Side} {buf : ℚ} {l : List (Option Tile)}
    (h : ∀ o ∈ l, (o = none ∧ slotSide s buf o = .error .attributeError) ∨ (o.isSome ∧ slotSide s buf o = .ok [⟨fl, f o⟩])) :
    ((∃ o ∈ l, o = none) ∧ l.mapM (slotSide s buf) = .error .attributeError) ∨
    ((∀ o ∈ l, o.isSome) ∧ ∃ ls, l.mapM (slotSide s buf) = .ok ls ∧ (∀ d ∈ ls.flatten, d.fields = fl) ∧ (ls.flatten.map PtArr.pts).flatten = l.flatMap f) := by
  induction l with
  | nil => exact .inr ⟨by simp, [], rfl, by simp, by simp⟩
  | cons o l ih =>
    rcases h o (by simp) with ⟨h1, h2⟩ | ⟨h1, h2⟩
    · exact .inl ⟨⟨o, by simp, h1⟩, by simp only [List.mapM_cons, h2]; rfl⟩
    · rcases ih (fun o ho => h o (by simp [ho])) with ⟨⟨o', ho', e⟩, h3⟩ | ⟨h3, ls, h4, h5, h6⟩
      · exact .inl ⟨⟨o', by simp [ho'], e⟩, by simp only [List.mapM_cons, h2, h3]; rfl⟩
      · refine .inr ⟨?_, [⟨fl, f o⟩] :: ls, by simp only [List.mapM_cons, h2, h4]; rfl, ?_, ?_⟩
        · intro o' ho'
          rcases List.mem_cons.1 ho' with rfl | ho'
          · exact h1
          · exact h3 o' ho'
        · intro d hd
          simp only [List.flatten_cons, List.cons_append, List.nil_append, List.mem_cons] at hd
          rcases hd with rfl | hd
          · rfl
          · exact h5 d hd
        · simp only [List.flatten_cons, List.cons_append, List.nil_append, List.map_cons, List.flatMap_cons, h6]

/-- lower left corner, number of tiles in a row, tile size: the near soundings of slot `k` -/
def subNear (s : Side) (x y sub : ℚ) (n : Nat) (buf : ℚ) (l : List Pt) (k : Nat) : List Pt :=
  l.filter (fun p => decide (InBox (slotX x sub n k) (slotY y sub n k) sub p) && decide (sideNear s (slotX x sub n k) (slotY y sub n k) sub buf p))

/-- one side of a subgrid -/
theorem sidePoints_sub {env : Env} {x y size sub : ℚ} {fl : Fields} {F : Family} {u : Grid Tile} {B : Store} (hsub : 0 < sub)
    (h : SubInv (tileSpec env F sub 0 false fl hsub) size x y u B) (s : Side) (buf : ℚ) :
    ((∃ o ∈ u.slotList, o = none) ∧ u.sidePoints s buf = .error .attributeError) ∨
    ((∀ o ∈ u.slotList, o.isSome) ∧ ∃ ls, u.sidePoints s buf = .ok ls ∧ (∀ d ∈ ls, d.fields = fl) ∧
      (ls.map PtArr.pts).flatten = (List.range (ncells size sub * ncells size sub)).flatMap (subNear s x y sub (ncells size sub) buf B.allPts)) := by
  obtain ⟨T, hf⟩ := h.frame
  unfold Grid.sidePoints slotList
  rw [hf.tiles]
  simp only
  have hlen := hf.rep.2.2.1
  have key : ∀ (k : Nat) (o : Option Tile), T.flat[k]? = some o →
      (o = none ∧ slotSide s buf o = .error .attributeError) ∨
        (o.isSome ∧ slotSide s buf o = .ok [⟨fl, subNear s x y sub (ncells size sub) buf B.allPts k⟩]) := by
    intro k o ho
    rcases hf.rep.2.2.2 k o ho with ⟨rfl, -⟩ | ⟨t, rfl, hne, hrep, -⟩
    · exact .inl ⟨rfl, rfl⟩
    · refine .inr ⟨rfl, ?_⟩
      have := sidePoints_tile hsub hrep hne s buf
      rw [Store.allPts_within, List.filter_filter] at this
      show t.sidePoints s buf = _
      rw [this]
      congr 3
      unfold subNear
      apply List.filter_congr
      intro p _
      rw [Bool.and_comm]
  have key2 : ∀ o ∈ T.flat, (o = none ∧ slotSide s buf o = .error .attributeError) ∨
      (o.isSome ∧ slotSide s buf o = .ok [⟨fl, (match slotSide s buf o with | .ok [d] => d.pts | _ => [])⟩]) := by
    intro o ho
    obtain ⟨k, hk⟩ := List.mem_iff_getElem?.1 ho
    rcases key k o hk with h1 | ⟨h1, h2⟩
    · exact .inl h1
    · refine .inr ⟨h1, ?_⟩
      rw [h2]
  rcases slots_mapM (f := fun o => (match slotSide s buf o with | .ok [d] => d.pts | _ => [])) key2 with ⟨h1, h2⟩ | ⟨h1, ls, h2, h3, h4⟩
  · exact .inl ⟨h1, by rw [h2]⟩
  · refine .inr ⟨h1, ls.flatten, by rw [h2], h3, ?_⟩
    rw [h4]
    refine flatMap_slots hf.rep ?_
    intro k o ho
    rcases key k o ho with ⟨h5, -⟩ | ⟨h5, h6⟩
    · have := h1 o (List.mem_of_getElem? ho)
      rw [h5] at this; cases this
    · simp only [h6]

theorem flatMap_sublist {α β : Type} {l : List α} {f g : α → List β} (h : ∀ a ∈ l, (f a).Sublist (g a)) : (l.flatMap f).Sublist (l.flatMap g) := by
  induction l with
  | nil => exact List.Sublist.refl _
  | cons a l ih =>
    simp only [List.flatMap_cons]
    exact (h a (by simp)).append (ih (fun b hb => h b (by simp [hb])))

theorem subperm_append {α : Type} {a b c d : List α} (h : a.Subperm b) (h' : c.Subperm d) : (a ++ c).Subperm (b ++ d) := by
  obtain ⟨l, h1, h2⟩ := h
  obtain ⟨l', h1', h2'⟩ := h'
  exact ⟨l ++ l', h1.append h1', h2.append h2'⟩

/-- what a subgrid contributes: all its near soundings, and only soundings of its square -/
theorem subNear_bounds {x y size sub : ℚ} (hsub : 0 < sub) {m : Nat} (hm : size = (m : ℚ) * sub) (hmp : 0 < m) (s : Side) (buf : ℚ) {l : List Pt}
    (hbox : ∀ p ∈ l, InBox x y size p) :
    (l.filter (fun p => decide (sideNear s x y size buf p))).Subperm
      ((List.range (ncells size sub * ncells size sub)).flatMap (subNear s x y sub (ncells size sub) buf l)) ∧
    ((List.range (ncells size sub * ncells size sub)).flatMap (subNear s x y sub (ncells size sub) buf l)).Subperm l := by
  have hs : 0 < size := by rw [hm]; positivity
  have hn : ncells size sub = m := by
    unfold ncells; rw [hm, mul_div_assoc, div_self hsub.ne', mul_one, Int.ceil_natCast, Int.toNat_natCast]
  rw [hn]
  have hrect : ∀ q ∈ l, InRect x y sub m m q := by
    intro q hq
    have := inRect_of_inBox hs hsub (hbox q hq)
    rwa [hn] at this
  constructor
  · have hp := slots_perm hsub (l.filter (fun p => decide (sideNear s x y size buf p))) (fun p hp => hrect p (List.mem_filter.1 hp).1)
    refine hp.symm.subperm.trans (List.Sublist.subperm (flatMap_sublist ?_))
    intro k hk
    rw [List.filter_filter]
    unfold subNear
    apply List.monotone_filter_right
    intro p hp
    simp only [Bool.and_eq_true, decide_eq_true_eq] at hp ⊢
    refine ⟨hp.1, ?_⟩
    have hk' : k < m * m := List.mem_range.1 hk
    have c1 : ((k % m : Nat) : ℚ) + 1 ≤ m := by exact_mod_cast Nat.mod_lt k hmp
    have c2 : ((k / m : Nat) : ℚ) + 1 ≤ m := by exact_mod_cast Arr2.div_lt_rows hk'
    have c3 : (0 : ℚ) ≤ ((k % m : Nat) : ℚ) := by positivity
    have c4 : (0 : ℚ) ≤ ((k / m : Nat) : ℚ) := by positivity
    have d1 : (((k % m : Nat) : ℚ) + 1) * sub ≤ (m : ℚ) * sub := mul_le_mul_of_nonneg_right c1 hsub.le
    have d2 : (((k / m : Nat) : ℚ) + 1) * sub ≤ (m : ℚ) * sub := mul_le_mul_of_nonneg_right c2 hsub.le
    have d3 : 0 ≤ ((k % m : Nat) : ℚ) * sub := mul_nonneg c3 hsub.le
    have d4 : 0 ≤ ((k / m : Nat) : ℚ) * sub := mul_nonneg c4 hsub.le
    have hq := hp.2
    unfold slotX slotY
    cases s <;> simp only [sideNear, ge_iff_le] at hq ⊢ <;> linarith
  · refine List.Subperm.trans (List.Sublist.subperm (flatMap_sublist ?_)) (slots_perm hsub l hrect).subperm
    intro k _
    unfold subNear
    apply List.monotone_filter_right
    intro p hp
    simp only [Bool.and_eq_true] at hp
    exact hp.1

/-- the soundings of the four squares beside a square -/
theorem beside_perm {size : ℚ} (x y : ℚ) (l : List Pt) :
    (l.filter (fun p => decide (InBox (sideX .up x size) (sideY .up y size) size p)) ++ l.filter (fun p => decide (InBox (sideX .right x size) (sideY .right y size) size p)) ++
      l.filter (fun p => decide (InBox (sideX .down x size) (sideY .down y size) size p)) ++ l.filter (fun p => decide (InBox (sideX .left x size) (sideY .left y size) size p))).Perm
      (l.filter (fun p => decide (Beside x y size p))) := by
  refine (filter_sides l _ _ _ _ ?_).trans ?_
  · intro p
    simp only [decide_eq_true_eq, decide_eq_false_iff_not]
    simp only [sideX, sideY, InBox]
    refine ⟨?_, ?_, ?_⟩
    · rintro ⟨b1, b2, b3, b4⟩
      refine ⟨?_, ?_, ?_⟩ <;> (rintro ⟨d1, d2, d3, d4⟩; linarith)
    · rintro ⟨b1, b2, b3, b4⟩
      refine ⟨?_, ?_⟩ <;> (rintro ⟨d1, d2, d3, d4⟩; linarith)
    · rintro ⟨b1, b2, b3, b4⟩
      rintro ⟨d1, d2, d3, d4⟩; linarith
  · apply List.Perm.of_eq
    apply List.filter_congr
    intro p _
    rw [Bool.eq_iff_iff]
    simp only [Bool.or_eq_true, decide_eq_true_eq]
    simp only [sideX, sideY, Beside, or_assoc]

end Bathy
