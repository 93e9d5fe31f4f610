import Verif.Spec.Slope
import Mathlib.Tactic.Linarith
import Mathlib.Tactic.Ring
import Mathlib.Tactic.FieldSimp
import Mathlib.Algebra.Order.BigOperators.Group.List

/-!
# planes of least square error: order of the points, uniqueness, existence
-/

namespace Bathy

theorem sqErr_perm {qs qs' : List (ℚ × ℚ × ℚ)} (h : qs.Perm qs') (a b c : ℚ) : sqErr qs a b c = sqErr qs' a b c := (h.map _).sum_eq

theorem bestPlane_perm {qs qs' : List (ℚ × ℚ × ℚ)} (h : qs.Perm qs') {s : ℚ × ℚ} (hs : BestPlane qs s) : BestPlane qs' s := by
  obtain ⟨c, hc⟩ := hs
  exact ⟨c, fun a' b' c' => by rw [← sqErr_perm h, ← sqErr_perm h]; exact hc a' b' c'⟩

theorem sqErr_mid (qs : List (ℚ × ℚ × ℚ)) (a b c a' b' c' : ℚ) :
    4 * sqErr qs ((a + a') / 2) ((b + b') / 2) ((c + c') / 2) + (qs.map (fun q => ((a - a') * q.1 + (b - b') * q.2.1 + (c - c')) ^ 2)).sum =
      2 * sqErr qs a b c + 2 * sqErr qs a' b' c' := by
  induction qs with
  | nil => simp [sqErr]
  | cons q qs ih =>
    simp only [sqErr, List.map_cons, List.sum_cons] at ih ⊢
    have : ∀ A B C D x y z w : ℚ, 4 * A + B = 2 * C + 2 * D → 4 * x + y = 2 * z + 2 * w → 4 * (x + A) + (y + B) = 2 * (z + C) + 2 * (w + D) := by
      intros; linarith
    exact this _ _ _ _ _ _ _ _ ih (by ring)

theorem sq_sum_zero {α : Type} (l : List α) (f : α → ℚ) (h : (l.map (fun q => f q ^ 2)).sum ≤ 0) : ∀ q ∈ l, f q = 0 := by
  induction l with
  | nil => simp
  | cons a l ih =>
    rw [List.map_cons, List.sum_cons] at h
    have h1 : 0 ≤ (l.map (fun q => f q ^ 2)).sum := List.sum_nonneg (by simp only [List.mem_map]; rintro x ⟨q, -, rfl⟩; positivity)
    have h2 : 0 ≤ f a ^ 2 := by positivity
    intro q hq
    rcases List.mem_cons.1 hq with rfl | hq
    · have : f q ^ 2 = 0 := by linarith
      exact pow_eq_zero_iff (by norm_num) |>.1 this
    · exact ih (by linarith) q hq

/-- the slopes of the best plane are determined by points that are not on a line -/
theorem bestPlane_unique {qs : List (ℚ × ℚ × ℚ)} (hsp : Spread qs) {s s' : ℚ × ℚ} (h : BestPlane qs s) (h' : BestPlane qs s') : s = s' := by
  obtain ⟨c, hc⟩ := h
  obtain ⟨c', hc'⟩ := h'
  have hm := sqErr_mid qs s.1 s.2 c s'.1 s'.2 c'
  have h1 := hc ((s.1 + s'.1) / 2) ((s.2 + s'.2) / 2) ((c + c') / 2)
  have h2 := hc' ((s.1 + s'.1) / 2) ((s.2 + s'.2) / 2) ((c + c') / 2)
  have hz := sq_sum_zero qs (fun q => (s.1 - s'.1) * q.1 + (s.2 - s'.2) * q.2.1 + (c - c')) (by linarith)
  obtain ⟨p, hp, q, hq, r, hr, hne⟩ := hsp
  have zp := hz p hp
  have zq := hz q hq
  have zr := hz r hr
  have lin : ∀ α β k px py qx qy rx ry : ℚ, (qx - px) * (ry - py) ≠ (rx - px) * (qy - py) → α * px + β * py + k = 0 → α * qx + β * qy + k = 0 →
      α * rx + β * ry + k = 0 → α = 0 ∧ β = 0 := by
    intro α β k px py qx qy rx ry hne h1 h2 h3
    have hd : (qx - px) * (ry - py) - (rx - px) * (qy - py) ≠ 0 := sub_ne_zero.2 hne
    have e1 : α * (qx - px) + β * (qy - py) = 0 := by linarith
    have e2 : α * (rx - px) + β * (ry - py) = 0 := by linarith
    constructor
    · have : α * ((qx - px) * (ry - py) - (rx - px) * (qy - py)) = (α * (qx - px) + β * (qy - py)) * (ry - py) - (α * (rx - px) + β * (ry - py)) * (qy - py) := by ring
      rw [e1, e2, zero_mul, zero_mul, sub_zero] at this
      exact (mul_eq_zero.1 this).resolve_right hd
    · have : β * ((qx - px) * (ry - py) - (rx - px) * (qy - py)) = (α * (rx - px) + β * (ry - py)) * (qx - px) - (α * (qx - px) + β * (qy - py)) * (rx - px) := by ring
      rw [e1, e2, zero_mul, zero_mul, sub_zero] at this
      exact (mul_eq_zero.1 this).resolve_right hd
  obtain ⟨h3, h4⟩ := lin _ _ _ _ _ _ _ _ _ hne zp zq zr
  exact Prod.ext (by linarith) (by linarith)

theorem bestPlane_onPlane {qs : List (ℚ × ℚ × ℚ)} {a b c : ℚ} (h : OnPlane qs a b c) : BestPlane qs (a, b) := by
  have hz : sqErr qs a b c = 0 := by
    unfold sqErr
    apply List.sum_eq_zero
    simp only [List.mem_map]
    rintro x ⟨q, hq, rfl⟩
    rw [h q hq]; ring
  refine ⟨c, fun a' b' c' => ?_⟩
  show sqErr qs a b c ≤ _
  rw [hz]
  exact List.sum_nonneg (by simp only [List.mem_map]; rintro x ⟨q, -, rfl⟩; positivity)

/-! ### existence -/

section
variable {T : Type} (qs : List T)

/-- sum of the products -/
def dotOn (u v : T → ℚ) : ℚ := (qs.map (fun q => u q * v q)).sum

theorem dotOn_lin (u v w : T → ℚ) (k : ℚ) : dotOn qs (fun q => u q + k * v q) w = dotOn qs u w + k * dotOn qs v w := by
  unfold dotOn
  induction qs with
  | nil => simp
  | cons q qs ih => simp only [List.map_cons, List.sum_cons]; rw [ih]; ring

theorem dotOn_comm (u v : T → ℚ) : dotOn qs u v = dotOn qs v u := by
  unfold dotOn
  congr 1
  apply List.map_congr_left
  intro q _
  ring

theorem dotOn_zero {u : T → ℚ} (h : dotOn qs u u = 0) (v : T → ℚ) : dotOn qs v u = 0 := by
  have hz := sq_sum_zero qs u (by
    unfold dotOn at h
    rw [show (fun q => u q ^ 2) = (fun q => u q * u q) from funext (fun q => by ring), h])
  unfold dotOn
  apply List.sum_eq_zero
  simp only [List.mem_map]
  rintro x ⟨q, hq, rfl⟩
  rw [hz q hq, mul_zero]

/-- everything has a projection on `S` -/
def Projects (S : (T → ℚ) → Prop) : Prop := ∀ z : T → ℚ, ∃ w, S w ∧ ∀ v, S v → dotOn qs (fun q => z q + (-1) * w q) v = 0

/-- `S` and the multiples of `u` -/
def withFn (S : (T → ℚ) → Prop) (u : T → ℚ) (w : T → ℚ) : Prop := ∃ v k, S v ∧ w = fun q => v q + k * u q

theorem projects_with {S : (T → ℚ) → Prop} (hS : ∀ u v k, S u → S v → S (fun q => u q + k * v q)) (h : Projects qs S) (u : T → ℚ) :
    Projects qs (withFn S u) := by
  intro z
  obtain ⟨wz, hwz, oz⟩ := h z
  obtain ⟨wu, hwu, ou⟩ := h u
  -- the parts that are orthogonal to S
  by_cases h0 : dotOn qs (fun q => u q + (-1) * wu q) (fun q => u q + (-1) * wu q) = 0
  · refine ⟨wz, ⟨wz, 0, hwz, by funext q; ring⟩, ?_⟩
    rintro _ ⟨v, k, hv, rfl⟩
    have h1 := dotOn_zero qs h0 (fun q => z q + (-1) * wz q)
    have h2 := oz wu hwu
    have h3 := oz v hv
    rw [dotOn_comm, dotOn_lin] at h1
    rw [dotOn_comm, dotOn_lin, dotOn_comm qs v, h3]
    rw [dotOn_comm qs wu, h2] at h1
    have : dotOn qs u (fun q => z q + (-1) * wz q) = 0 := by linarith
    rw [this]; ring
  · let lam := dotOn qs (fun q => z q + (-1) * wz q) (fun q => u q + (-1) * wu q) / dotOn qs (fun q => u q + (-1) * wu q) (fun q => u q + (-1) * wu q)
    refine ⟨fun q => (wz q + (-lam) * wu q) + lam * u q, ⟨_, lam, hS _ _ _ hwz hwu, rfl⟩, ?_⟩
    have hres : (fun q => z q + (-1) * ((wz q + (-lam) * wu q) + lam * u q)) = (fun q => (z q + (-1) * wz q) + (-lam) * (u q + (-1) * wu q)) := by
      funext q; ring
    rw [hres]
    have hort : ∀ v, S v → dotOn qs (fun q => (z q + (-1) * wz q) + (-lam) * (u q + (-1) * wu q)) v = 0 := by
      intro v hv
      rw [dotOn_lin, oz v hv, ou v hv]; ring
    have hu : dotOn qs (fun q => (z q + (-1) * wz q) + (-lam) * (u q + (-1) * wu q)) (fun q => u q + (-1) * wu q) = 0 := by
      rw [dotOn_lin]
      have : lam * dotOn qs (fun q => u q + (-1) * wu q) (fun q => u q + (-1) * wu q) = dotOn qs (fun q => z q + (-1) * wz q) (fun q => u q + (-1) * wu q) := div_mul_cancel₀ _ h0
      linarith
    rintro _ ⟨v, k, hv, rfl⟩
    have h1 := hort v hv
    have h2 := hort wu hwu
    rw [dotOn_comm, dotOn_lin, dotOn_comm qs v, h1]
    rw [dotOn_comm, dotOn_lin, dotOn_comm qs wu, h2] at hu
    have : dotOn qs u (fun q => (z q + (-1) * wz q) + (-lam) * (u q + (-1) * wu q)) = 0 := by linarith
    rw [this]; ring

end

/-- there is a best plane for all points -/
theorem bestPlane_exists (qs : List (ℚ × ℚ × ℚ)) : ∃ s, BestPlane qs s := by
  have p0 : Projects qs (fun w : ℚ × ℚ × ℚ → ℚ => w = fun _ => 0) := by
    intro z
    refine ⟨_, rfl, ?_⟩
    rintro v rfl
    unfold dotOn
    simp
  have c0 : ∀ (u v : ℚ × ℚ × ℚ → ℚ) (k : ℚ), (u = fun _ => 0) → (v = fun _ => 0) → (fun q => u q + k * v q) = fun _ => 0 := by
    rintro u v k rfl rfl; funext q; ring
  have close : ∀ {S : (ℚ × ℚ × ℚ → ℚ) → Prop} (u : ℚ × ℚ × ℚ → ℚ), (∀ u v k, S u → S v → S (fun q => u q + k * v q)) →
      ∀ a b k, withFn S u a → withFn S u b → withFn S u (fun q => a q + k * b q) := by
    rintro S u hS _ _ k ⟨v, l, hv, rfl⟩ ⟨w, m, hw, rfl⟩
    exact ⟨_, l + k * m, hS v w k hv hw, by funext q; ring⟩
  have p1 := projects_with qs c0 p0 (fun _ => 1)
  have c1 := close (fun _ => 1) c0
  have p2 := projects_with qs c1 p1 (fun q => q.2.1)
  have c2 := close (fun q => q.2.1) c1
  have p3 := projects_with qs c2 p2 (fun q => q.1)
  have c3 := close (fun q => q.1) c2
  obtain ⟨w, hw, hort⟩ := p3 (fun q => q.2.2)
  have hw' := hw
  obtain ⟨_, a, ⟨_, b, ⟨_, c, rfl, rfl⟩, rfl⟩, rfl⟩ := hw'
  refine ⟨(a, b), c, fun a' b' c' => ?_⟩
  have hl : withFn (withFn (withFn (fun w : ℚ × ℚ × ℚ → ℚ => w = fun _ => 0) (fun _ => 1)) (fun q => q.2.1)) (fun q => q.1)
      (fun q => ((0 + (c' - c) * 1) + (b' - b) * q.2.1) + (a' - a) * q.1) := ⟨_, a' - a, ⟨_, b' - b, ⟨_, c' - c, rfl, rfl⟩, rfl⟩, rfl⟩
  have h0 := hort _ hl
  have key : ∀ l : List (ℚ × ℚ × ℚ), sqErr l a' b' c' = sqErr l a b c +
      (l.map (fun q => (((0 + (c' - c) * 1) + (b' - b) * q.2.1) + (a' - a) * q.1) ^ 2)).sum -
      2 * dotOn l (fun q => q.2.2 + (-1) * (((0 + c * 1) + b * q.2.1) + a * q.1)) (fun q => ((0 + (c' - c) * 1) + (b' - b) * q.2.1) + (a' - a) * q.1) := by
    intro l
    induction l with
    | nil => simp [sqErr, dotOn]
    | cons q l ih =>
      simp only [sqErr, dotOn, List.map_cons, List.sum_cons] at ih ⊢
      rw [ih]; ring
  have hk := key qs
  rw [h0] at hk
  have hnn : 0 ≤ (qs.map (fun q => (((0 + (c' - c) * 1) + (b' - b) * q.2.1) + (a' - a) * q.1) ^ 2)).sum :=
    List.sum_nonneg (by simp only [List.mem_map]; rintro x ⟨q, -, rfl⟩; positivity)
  show sqErr qs a b c ≤ _
  linarith

/-- the least squares problem can be solved -/
theorem leastSquares_exists : ∃ f, LeastSquares f := ⟨fun qs => (bestPlane_exists qs).choose, fun qs => (bestPlane_exists qs).choose_spec⟩

end Bathy
