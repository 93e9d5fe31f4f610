import Verif.Spec.Coarser
import Mathlib.Algebra.Order.BigOperators.Group.Finset
import Mathlib.Algebra.BigOperators.Ring.Finset
import Mathlib.Tactic.Linarith
import Mathlib.Tactic.Ring

/-!
# Sums over the squares of a block
-/

namespace Bathy

/-- consecutive half open intervals of length `r` -/
theorem sum_intervals {r : ℚ} (hr : 0 < r) (s t c : ℚ) (m : Nat) :
    ∑ y ∈ Finset.range m, (if s + (y : ℚ) * r ≤ t ∧ t < s + ((y + 1 : Nat) : ℚ) * r then c else 0) = if s ≤ t ∧ t < s + (m : ℚ) * r then c else 0 := by
  induction m with
  | zero =>
    rw [if_neg]
    · simp
    · rintro ⟨h1, h2⟩; simp at h2; linarith
  | succ m ih =>
    rw [Finset.sum_range_succ, ih]
    have h1 : (0 : ℚ) ≤ (m : ℚ) * r := mul_nonneg (Nat.cast_nonneg m) hr.le
    have h2 : ((m + 1 : Nat) : ℚ) * r = (m : ℚ) * r + r := by push_cast; ring
    rw [h2]
    by_cases h3 : t < s + (m : ℚ) * r
    · rw [if_neg (c := s + (m : ℚ) * r ≤ t ∧ t < s + ((m : ℚ) * r + r)) (fun h => by linarith [h.1])]
      by_cases h4 : s ≤ t
      · rw [if_pos ⟨h4, h3⟩, if_pos ⟨h4, by linarith⟩, add_zero]
      · rw [if_neg (fun h => h4 h.1), if_neg (fun h => h4 h.1), add_zero]
    · rw [if_neg (c := s ≤ t ∧ t < s + (m : ℚ) * r) (fun h => h3 h.2), zero_add]
      have h3 := not_lt.1 h3
      by_cases h4 : t < s + ((m : ℚ) * r + r)
      · rw [if_pos ⟨h3, h4⟩, if_pos ⟨by linarith, h4⟩]
      · rw [if_neg (fun h => h4 h.2), if_neg (fun h => h4 h.2)]

theorem ite_and_mul {p q : Prop} [Decidable p] [Decidable q] (c : ℚ) : (if p ∧ q then c else 0) = if p then (if q then c else 0) else 0 := by
  by_cases hp : p <;> by_cases hq : q <;> simp [hp, hq]

/-- a sounding of a square is in one of the squares of its block -/
theorem block_one {r : ℚ} (hr : 0 < r) (e : Extents) (k i j : Nat) (p : Pt) (c : ℚ) :
    blockSum k (fun x y => if InCell e.minX e.minY r (i * k + x) (j * k + y) p then c else 0) = if InCell e.minX e.minY (k * r) i j p then c else 0 := by
  unfold blockSum
  have inner : ∀ x, ∑ y ∈ Finset.range k, (if InCell e.minX e.minY r (i * k + x) (j * k + y) p then c else 0) =
      if (e.minY + (i : ℚ) * (k * r)) + (x : ℚ) * r ≤ p.y ∧ p.y < (e.minY + (i : ℚ) * (k * r)) + ((x + 1 : Nat) : ℚ) * r then
        (if e.minX + (j : ℚ) * (k * r) ≤ p.x ∧ p.x < (e.minX + (j : ℚ) * (k * r)) + (k : ℚ) * r then c else 0) else 0 := by
    intro x
    rw [← sum_intervals hr (e.minX + (j : ℚ) * (k * r)) p.x c k]
    have hcell : ∀ y : Nat, InCell e.minX e.minY r (i * k + x) (j * k + y) p ↔
        ((e.minY + (i : ℚ) * (k * r)) + (x : ℚ) * r ≤ p.y ∧ p.y < (e.minY + (i : ℚ) * (k * r)) + ((x + 1 : Nat) : ℚ) * r) ∧
        ((e.minX + (j : ℚ) * (k * r)) + (y : ℚ) * r ≤ p.x ∧ p.x < (e.minX + (j : ℚ) * (k * r)) + ((y + 1 : Nat) : ℚ) * r) := by
      intro y
      unfold InCell
      have e1 : e.minX + ((j * k + y : Nat) : ℚ) * r = (e.minX + (j : ℚ) * (k * r)) + (y : ℚ) * r := by push_cast; ring
      have e2 : e.minX + ((j * k + y + 1 : Nat) : ℚ) * r = (e.minX + (j : ℚ) * (k * r)) + ((y + 1 : Nat) : ℚ) * r := by push_cast; ring
      have e3 : e.minY + ((i * k + x : Nat) : ℚ) * r = (e.minY + (i : ℚ) * (k * r)) + (x : ℚ) * r := by push_cast; ring
      have e4 : e.minY + ((i * k + x + 1 : Nat) : ℚ) * r = (e.minY + (i : ℚ) * (k * r)) + ((x + 1 : Nat) : ℚ) * r := by push_cast; ring
      rw [e1, e2, e3, e4]
      tauto
    rw [show (fun y : Nat => if InCell e.minX e.minY r (i * k + x) (j * k + y) p then c else 0) = fun y : Nat =>
        if ((e.minY + (i : ℚ) * (k * r)) + (x : ℚ) * r ≤ p.y ∧ p.y < (e.minY + (i : ℚ) * (k * r)) + ((x + 1 : Nat) : ℚ) * r) then
          (if ((e.minX + (j : ℚ) * (k * r)) + (y : ℚ) * r ≤ p.x ∧ p.x < (e.minX + (j : ℚ) * (k * r)) + ((y + 1 : Nat) : ℚ) * r) then c else 0) else 0 from
      funext fun y => by rw [← ite_and_mul]; exact if_congr (hcell y) rfl rfl]
    split
    · rfl
    · simp
  rw [show (fun x => ∑ y ∈ Finset.range k, (if InCell e.minX e.minY r (i * k + x) (j * k + y) p then c else 0)) = _ from funext inner, sum_intervals hr]
  rw [← ite_and_mul]
  refine if_congr ?_ rfl rfl
  unfold InCell
  have e2 : e.minX + ((j + 1 : Nat) : ℚ) * (k * r) = (e.minX + (j : ℚ) * (k * r)) + (k : ℚ) * r := by push_cast; ring
  have e4 : e.minY + ((i + 1 : Nat) : ℚ) * (k * r) = (e.minY + (i : ℚ) * (k * r)) + (k : ℚ) * r := by push_cast; ring
  rw [e2, e4]
  tauto

theorem blockSum_add (k : Nat) (f g : Nat → Nat → ℚ) : blockSum k (fun x y => f x y + g x y) = blockSum k f + blockSum k g := by
  unfold blockSum
  simp only [Finset.sum_add_distrib]

theorem blockSum_zero (k : Nat) : blockSum k (fun _ _ => 0) = 0 := by
  unfold blockSum; simp

theorem blockSum_congr {k : Nat} {f g : Nat → Nat → ℚ} (h : ∀ x y, x < k → y < k → f x y = g x y) : blockSum k f = blockSum k g := by
  unfold blockSum
  exact Finset.sum_congr rfl fun x hx => Finset.sum_congr rfl fun y hy => h x y (Finset.mem_range.1 hx) (Finset.mem_range.1 hy)

theorem blockSum_le {k : Nat} {f g : Nat → Nat → ℚ} (h : ∀ x y, x < k → y < k → f x y ≤ g x y) : blockSum k f ≤ blockSum k g := by
  unfold blockSum
  exact Finset.sum_le_sum fun x hx => Finset.sum_le_sum fun y hy => h x y (Finset.mem_range.1 hx) (Finset.mem_range.1 hy)

theorem blockSum_mul (k : Nat) (c : ℚ) (f : Nat → Nat → ℚ) : blockSum k (fun x y => c * f x y) = c * blockSum k f := by
  unfold blockSum
  simp only [Finset.mul_sum]

/-- an attribute of the soundings of a square, summed up square by square of its block -/
theorem block_sum {r : ℚ} (hr : 0 < r) (e : Extents) (k i j : Nat) (f : Pt → ℚ) (P : List Pt) :
    ((inCell e.minX e.minY (k * r) i j P).map f).sum = blockSum k (fun x y => ((inCell e.minX e.minY r (i * k + x) (j * k + y) P).map f).sum) := by
  induction P with
  | nil => unfold inCell; simp [blockSum_zero]
  | cons p t ih =>
    have step : ∀ (res : ℚ) (a b : Nat), ((inCell e.minX e.minY res a b (p :: t)).map f).sum =
        (if InCell e.minX e.minY res a b p then f p else 0) + ((inCell e.minX e.minY res a b t).map f).sum := by
      intro res a b
      unfold inCell
      rw [List.filter_cons]
      by_cases h : InCell e.minX e.minY res a b p <;> simp [h]
    rw [step, ih, ← block_one hr, ← blockSum_add]
    exact blockSum_congr fun x y _ _ => (step _ _ _).symm

/-- the number of soundings of a square -/
theorem block_length {r : ℚ} (hr : 0 < r) (e : Extents) (k i j : Nat) (P : List Pt) :
    ((inCell e.minX e.minY (k * r) i j P).length : ℚ) = blockSum k (fun x y => ((inCell e.minX e.minY r (i * k + x) (j * k + y) P).length : ℚ)) := by
  have h1 : ∀ l : List Pt, (l.length : ℚ) = (l.map (fun _ => (1 : ℚ))).sum := by
    intro l; induction l with
    | nil => simp
    | cons a t ih => simp only [List.length_cons, List.map_cons, List.sum_cons, ← ih]; push_cast; ring
  rw [h1, block_sum hr]
  exact blockSum_congr fun x y _ _ => (h1 _).symm

/-- the soundings of a square are those of the squares of its block -/
theorem block_mem {r : ℚ} (hr : 0 < r) (e : Extents) (k i j : Nat) (P : List Pt) (p : Pt) :
    p ∈ inCell e.minX e.minY (k * r) i j P ↔ ∃ x y, x < k ∧ y < k ∧ p ∈ inCell e.minX e.minY r (i * k + x) (j * k + y) P := by
  unfold inCell
  simp only [List.mem_filter, decide_eq_true_eq]
  have h := block_one hr e k i j p 1
  constructor
  · rintro ⟨hp, hin⟩
    rw [if_pos hin] at h
    by_contra hno
    have : blockSum k (fun x y => if InCell e.minX e.minY r (i * k + x) (j * k + y) p then (1 : ℚ) else 0) = blockSum k (fun _ _ => 0) :=
      blockSum_congr fun x y hx hy => if_neg fun hc => hno ⟨x, y, hx, hy, hp, hc⟩
    rw [this, blockSum_zero] at h
    exact absurd h (by norm_num)
  · rintro ⟨x, y, hx, hy, hp, hin⟩
    refine ⟨hp, ?_⟩
    by_contra hno
    rw [if_neg hno] at h
    have hle : (1 : ℚ) ≤ blockSum k (fun x y => if InCell e.minX e.minY r (i * k + x) (j * k + y) p then (1 : ℚ) else 0) := by
      unfold blockSum
      have nn : ∀ a b, (0 : ℚ) ≤ if InCell e.minX e.minY r (i * k + a) (j * k + b) p then (1 : ℚ) else 0 := fun a b => by split <;> norm_num
      refine le_trans ?_ (Finset.single_le_sum (fun a _ => Finset.sum_nonneg fun b _ => nn a b) (Finset.mem_range.2 hx))
      refine le_trans ?_ (Finset.single_le_sum (fun b _ => nn x b) (Finset.mem_range.2 hy))
      rw [if_pos hin]
    linarith

end Bathy
