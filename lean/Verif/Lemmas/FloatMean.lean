import Verif.Spec.FloatMean
import Verif.Lemmas.GridFns
import Mathlib.Tactic.Linarith
import Mathlib.Tactic.Ring
import Mathlib.Tactic.FieldSimp
import Mathlib.Tactic.Positivity

/-!
# The error of a sum, of a mean, of rounding to 3 decimals
-/

namespace Bathy

theorem one_le_pow_u {u : ℚ} (hu : 0 ≤ u) (k : Nat) : 1 ≤ (1 + u) ^ k := one_le_pow₀ (by linarith)

theorem pow_u_mono {u : ℚ} (hu : 0 ≤ u) {k m : Nat} (h : k ≤ m) : (1 + u) ^ k ≤ (1 + u) ^ m := pow_le_pow_right₀ (by linarith) h

namespace SumTree

/-- the number of additions -/
def nodes : SumTree → Nat
  | leaf _ => 0
  | node a b => a.nodes + b.nodes + 1

theorem leaves_length (T : SumTree) : T.leaves.length = T.nodes + 1 := by
  induction T with
  | leaf i => rfl
  | node a b iha ihb => simp only [leaves, nodes, List.length_append, iha, ihb]; omega

theorem abs_sum_nonneg (l : List ℚ) (is : List Nat) : 0 ≤ (is.map (fun i => |l.getD i 0|)).sum := by
  induction is with
  | nil => simp
  | cons i is ih => rw [List.map_cons, List.sum_cons]; have := abs_nonneg (l.getD i 0); linarith

/-- the error of a bracketed sum -/
theorem eval_err {u η Ω : ℚ} {rnd : ℚ → ℚ} (h : StdRound u η Ω rnd) (l : List ℚ) (T : SumTree) (hi : ∀ i ∈ T.leaves, i < l.length)
    (hΩ : (1 + u) ^ T.nodes * ((T.leaves.map (fun i => |l.getD i 0|)).sum + T.nodes * η) ≤ Ω) :
    ∃ v, T.eval rnd l = some v ∧
      |v - (T.leaves.map (fun i => l.getD i 0)).sum| ≤
        (1 + u) ^ T.nodes * ((T.leaves.map (fun i => |l.getD i 0|)).sum + T.nodes * η) - (T.leaves.map (fun i => |l.getD i 0|)).sum ∧
      |v| ≤ (1 + u) ^ T.nodes * ((T.leaves.map (fun i => |l.getD i 0|)).sum + T.nodes * η) := by
  have hu := h.u_nonneg
  have hη := h.η_nonneg
  induction T with
  | leaf i =>
    have hi' : i < l.length := hi i (by simp [leaves])
    refine ⟨l[i], by simp [eval, hi'], ?_, ?_⟩ <;> simp [leaves, nodes, List.getD, hi']
  | node a b iha ihb =>
    simp only [leaves, nodes, List.map_append, List.sum_append, eval] at hi hΩ ⊢
    have ha0 := abs_sum_nonneg l a.leaves
    have hb0 := abs_sum_nonneg l b.leaves
    generalize hA : (a.leaves.map (fun i => |l.getD i 0|)).sum = A at *
    generalize hB : (b.leaves.map (fun i => |l.getD i 0|)).sum = B at *
    generalize hsa : (a.leaves.map (fun i => l.getD i 0)).sum = sa at *
    generalize hsb : (b.leaves.map (fun i => l.getD i 0)).sum = sb at *
    generalize a.nodes = m at *
    generalize b.nodes = n at *
    have pm := one_le_pow_u hu m
    have pn := one_le_pow_u hu n
    have pmn : (1 + u) ^ (m + n) = (1 + u) ^ m * (1 + u) ^ n := pow_add _ _ _
    have p1 : (1 + u) ^ (m + n + 1) = (1 + u) ^ (m + n) * (1 + u) := pow_succ _ _
    have hmn := one_le_pow_u hu (m + n)
    have m0 : (0 : ℚ) ≤ m := Nat.cast_nonneg m
    have n0 : (0 : ℚ) ≤ n := Nat.cast_nonneg n
    have mη : 0 ≤ (m : ℚ) * η := mul_nonneg m0 hη
    have nη : 0 ≤ (n : ℚ) * η := mul_nonneg n0 hη
    -- the parts are bounded by the whole
    have ca : (1 + u) ^ m * (A + m * η) ≤ (1 + u) ^ (m + n) * (A + m * η) :=
      mul_le_mul_of_nonneg_right (pow_u_mono hu (by omega)) (by linarith)
    have cb : (1 + u) ^ n * (B + n * η) ≤ (1 + u) ^ (m + n) * (B + n * η) :=
      mul_le_mul_of_nonneg_right (pow_u_mono hu (by omega)) (by linarith)
    have whole : (1 + u) ^ (m + n) * (A + m * η) + (1 + u) ^ (m + n) * (B + n * η) ≤ (1 + u) ^ (m + n + 1) * (A + B + ((m + n + 1 : Nat) : ℚ) * η) := by
      have e : (1 + u) ^ (m + n) * (A + m * η) + (1 + u) ^ (m + n) * (B + n * η) = (1 + u) ^ (m + n) * (A + B + (m + n) * η) := by ring
      rw [e]
      apply mul_le_mul (pow_u_mono hu (by omega))
      · push_cast; nlinarith
      · nlinarith
      · have := one_le_pow_u hu (m + n + 1); linarith
    have qa : 0 ≤ (1 + u) ^ (m + n) * (A + m * η) := mul_nonneg (by linarith) (by linarith)
    have qb : 0 ≤ (1 + u) ^ (m + n) * (B + n * η) := mul_nonneg (by linarith) (by linarith)
    obtain ⟨x, hx, ex, bx⟩ := iha (fun i hi' => hi i (List.mem_append_left _ hi')) (by linarith)
    obtain ⟨y, hy, ey, bY⟩ := ihb (fun i hi' => hi i (List.mem_append_right _ hi')) (by linarith)
    rw [hx, hy]
    have bxy : |x + y| ≤ (1 + u) ^ (m + n) * (A + m * η) + (1 + u) ^ (m + n) * (B + n * η) := by
      have := abs_add_le x y; linarith
    have hr := h.err (x + y) (by linarith)
    refine ⟨_, rfl, ?_, ?_⟩
    · have e1 : |rnd (x + y) - (sa + sb)| ≤ |rnd (x + y) - (x + y)| + |(x + y) - (sa + sb)| := abs_sub_le _ _ _
      have e2 : |(x + y) - (sa + sb)| ≤ |x - sa| + |y - sb| := by
        rw [show (x + y) - (sa + sb) = (x - sa) + (y - sb) by ring]; exact abs_add_le _ _
      have e3 : u * |x + y| ≤ u * ((1 + u) ^ (m + n) * (A + m * η) + (1 + u) ^ (m + n) * (B + n * η)) := mul_le_mul_of_nonneg_left bxy hu
      rw [p1]
      push_cast
      have e4 : η ≤ (1 + u) ^ (m + n) * (1 + u) * η := by
        have : 1 ≤ (1 + u) ^ (m + n) * (1 + u) := by rw [← p1]; exact one_le_pow_u hu _
        exact le_mul_of_one_le_left hη this
      linarith
    · have e1 : |rnd (x + y)| ≤ |rnd (x + y) - (x + y)| + |x + y| := by
        have := abs_add_le (rnd (x + y) - (x + y)) (x + y); simpa using this
      have e3 : u * |x + y| ≤ u * ((1 + u) ^ (m + n) * (A + m * η) + (1 + u) ^ (m + n) * (B + n * η)) := mul_le_mul_of_nonneg_left bxy hu
      rw [p1]
      push_cast
      have e4 : η ≤ (1 + u) ^ (m + n) * (1 + u) * η := by
        have : 1 ≤ (1 + u) ^ (m + n) * (1 + u) := by rw [← p1]; exact one_le_pow_u hu _
        exact le_mul_of_one_le_left hη this
      linarith

end SumTree

theorem map_range_getD (l : List ℚ) (f : ℚ → ℚ) : (List.range l.length).map (fun i : Nat => f (l.getD i 0)) = l.map f := by
  apply List.ext_getElem
  · simp
  · intro i h1 h2
    simp only [List.length_map, List.length_range] at h1
    simp [List.getD, h1]

namespace Arith

/-- the error of a sum -/
theorem add_err {u η Ω : ℚ} {A : Arith} (h : StdRound u η Ω A.rnd) {l : List ℚ} (hl : l ≠ [])
    (hΩ : (1 + u) ^ (l.length - 1) * ((l.map (|·|)).sum + ((l.length - 1 : Nat) : ℚ) * η) ≤ Ω) :
    ∃ v, A.add l = some v ∧
      |v - l.sum| ≤ (1 + u) ^ (l.length - 1) * ((l.map (|·|)).sum + ((l.length - 1 : Nat) : ℚ) * η) - (l.map (|·|)).sum ∧
      |v| ≤ (1 + u) ^ (l.length - 1) * ((l.map (|·|)).sum + ((l.length - 1 : Nat) : ℚ) * η) := by
  have hp := A.plan_all l.length (List.length_pos_iff.2 hl)
  have hn : (A.plan l.length).nodes = l.length - 1 := by
    have := hp.length_eq
    rw [SumTree.leaves_length, List.length_range] at this
    omega
  have e1 : ((A.plan l.length).leaves.map (fun i => |l.getD i 0|)).sum = (l.map (|·|)).sum := by
    rw [(hp.map _).sum_eq, map_range_getD l (|·|)]
  have e2 : ((A.plan l.length).leaves.map (fun i => l.getD i 0)).sum = l.sum := by
    rw [(hp.map _).sum_eq]
    have := map_range_getD l id
    simpa using congrArg List.sum this
  have := SumTree.eval_err h l (A.plan l.length) (fun i hi => by simpa using hp.mem_iff.1 hi) (by rw [hn, e1]; exact hΩ)
  rw [hn, e1, e2] at this
  unfold add
  rw [if_neg hl]
  exact this

theorem rint_err (v : ℚ) : |(rint v : ℚ) - v| ≤ 1 / 2 := by
  unfold rint
  have h1 : ((⌊v⌋ : Int) : ℚ) ≤ v := Int.floor_le _
  have h2 : v < (⌊v⌋ : Int) + 1 := Int.lt_floor_add_one _
  simp only
  generalize hf : ⌊v⌋ = f at *
  rw [abs_le]
  split
  · constructor <;> linarith
  · split
    · push_cast; constructor <;> linarith
    · split
      · constructor <;> linarith
      · push_cast; constructor <;> linarith

theorem round3_rint (v : ℚ) : Bathy.round3 v = (rint (v * 1000) : ℚ) / 1000 := by
  unfold Bathy.round3 rint
  simp only
  split
  · rfl
  · split
    · push_cast; rfl
    · split
      · rfl
      · push_cast; rfl

/-- the error of storing and rounding a value up to `B` -/
theorem round3_err {sf : Fmt} {A : Arith} (h : StdRound sf.u sf.η sf.Ω A.sto) {m B : ℚ} (hB : |m| ≤ B) (hΩ : 1000 * ((1 + sf.u) ^ 2 * (B + sf.η)) + sf.η + 1 ≤ sf.Ω) :
    |A.round3 m - m| ≤ roundError sf B := by
  have hu := h.u_nonneg
  have hη := h.η_nonneg
  unfold round3 roundError
  generalize sf.u = u at *
  generalize sf.η = η at *
  generalize sf.Ω = Ω at *
  have hB0 : 0 ≤ B := le_trans (abs_nonneg m) hB
  have uB : 0 ≤ u * B := mul_nonneg hu hB0
  have uη : 0 ≤ u * η := mul_nonneg hu hη
  have uuB : 0 ≤ u * (u * B) := mul_nonneg hu uB
  have uuη : 0 ≤ u * (u * η) := mul_nonneg hu uη
  have x2 : (1 + u) ^ 2 * (B + η) = B + η + 2 * (u * B) + 2 * (u * η) + u * (u * B) + u * (u * η) := by ring
  rw [x2] at hΩ
  -- the value is stored
  have e0 := h.err m (by linarith)
  have um : u * |m| ≤ u * B := mul_le_mul_of_nonneg_left hB hu
  have d0 : |A.sto m - m| ≤ u * B + η := by linarith
  have b0 : |A.sto m| ≤ B + u * B + η := by
    have := abs_add_le (A.sto m - m) m
    rw [sub_add_cancel] at this
    linarith
  generalize A.sto m = s at *
  -- times 1000
  have b1 : |s * 1000| = |s| * 1000 := by rw [abs_mul]; norm_num
  have e1 := h.err (s * 1000) (by rw [b1]; linarith)
  rw [b1] at e1
  have us : u * |s| ≤ u * (B + u * B + η) := mul_le_mul_of_nonneg_left b0 hu
  generalize A.sto (s * 1000) = t at *
  have e2 := rint_err t
  generalize (rint t : ℚ) = k at *
  -- by 1000
  have e3 : |k / 1000 - s| ≤ u * (B + u * B + η) + (η + 1 / 2) / 1000 := by
    have : |k / 1000 - s| = |k - s * 1000| / 1000 := by
      rw [show k / 1000 - s = (k - s * 1000) / 1000 by ring, abs_div]; norm_num
    rw [this]
    have : |k - s * 1000| ≤ |k - t| + |t - s * 1000| := abs_sub_le _ _ _
    linarith
  have b2 : |k / 1000| ≤ B + u * B + η + (u * (B + u * B + η) + (η + 1 / 2) / 1000) := by
    have := abs_add_le (k / 1000 - s) s
    rw [sub_add_cancel] at this
    linarith
  have x3 : u * (B + u * B + η) = u * B + u * (u * B) + u * η := by ring
  have e4 := h.err (k / 1000) (by linarith)
  have e5 : |A.sto (k / 1000) - m| ≤ |A.sto (k / 1000) - k / 1000| + |k / 1000 - s| + |s - m| := by
    have h1 : |A.sto (k / 1000) - m| ≤ |A.sto (k / 1000) - k / 1000| + |k / 1000 - m| := abs_sub_le _ _ _
    have h2 : |k / 1000 - m| ≤ |k / 1000 - s| + |s - m| := abs_sub_le _ _ _
    linarith
  have e6 : u * |k / 1000| ≤ u * (B + u * B + η + (u * (B + u * B + η) + (η + 1 / 2) / 1000)) := mul_le_mul_of_nonneg_left b2 hu
  have x4 : u * (B + u * B + η + (u * (B + u * B + η) + (η + 1 / 2) / 1000)) =
      u * B + 2 * (u * (u * B)) + u * (u * (u * B)) + u * η + u * (u * η) + u * ((η + 1 / 2) / 1000) := by ring
  have x5 : (1 + u) ^ 3 * (B + η) = B + 3 * (u * B) + 3 * (u * (u * B)) + u * (u * (u * B)) + η + 3 * (u * η) + 3 * (u * (u * η)) + u * (u * (u * η)) := by ring
  have x6 : (1 + u) * ((η + 1 / 2) / 1000) = (η + 1 / 2) / 1000 + u * ((η + 1 / 2) / 1000) := by ring
  have uuuη : 0 ≤ u * (u * (u * η)) := mul_nonneg hu uuη
  rw [x5, x6]
  rw [x4] at e6
  rw [x3] at e3
  linarith

/-- the error of a quotient of sums, in terms of the mean -/
theorem quot_err {u η Ω : ℚ} {rnd : ℚ → ℚ} (h : StdRound u η Ω rnd) {s σ S n Q : ℚ} (hn : 1 ≤ n) (hS0 : 0 ≤ S) (q1 : 1 ≤ Q)
    (es : |s - σ| ≤ Q * (S + (n - 1) * η) - S) (bs : |s| ≤ Q * (S + (n - 1) * η)) (hΩ : Q * (S + (n - 1) * η) ≤ Ω) :
    |rnd (s / n) - σ / n| ≤ Q * (1 + u) * (S / n + 2 * η) - S / n ∧ |rnd (s / n)| ≤ Q * (1 + u) * (S / n + 2 * η) := by
  have hu := h.u_nonneg
  have hη := h.η_nonneg
  have hn0 : 0 < n := by linarith
  have Qη : 0 ≤ Q * η := mul_nonneg (by linarith) hη
  have bd : |s / n| ≤ Ω := by
    rw [abs_div, abs_of_pos hn0]
    exact le_trans (div_le_self (abs_nonneg s) hn) (le_trans bs hΩ)
  have ed := h.err (s / n) bd
  have bd' : |s / n| ≤ Q * (S / n + η) := by
    rw [abs_div, abs_of_pos hn0, div_le_iff₀ hn0]
    have : Q * (S / n + η) * n = Q * (S + n * η) := by field_simp
    rw [this]
    linarith
  have esd : |s / n - σ / n| ≤ Q * (S / n + η) - S / n := by
    rw [← sub_div, abs_div, abs_of_pos hn0, div_le_iff₀ hn0]
    have : (Q * (S / n + η) - S / n) * n = Q * (S + n * η) - S := by field_simp
    rw [this]
    linarith
  have hSN : 0 ≤ S / n := div_nonneg hS0 (by linarith)
  generalize S / n = M at *
  have h2 : u * |s / n| ≤ u * (Q * (M + η)) := mul_le_mul_of_nonneg_left bd' hu
  have h3 : η ≤ Q * (1 + u) * η := le_mul_of_one_le_left hη (by nlinarith)
  refine ⟨?_, ?_⟩
  · have h1 : |rnd (s / n) - σ / n| ≤ |rnd (s / n) - s / n| + |s / n - σ / n| := abs_sub_le _ _ _
    linarith
  · have h1 : |rnd (s / n)| ≤ |rnd (s / n) - s / n| + |s / n| := by
      have := abs_add_le (rnd (s / n) - s / n) (s / n); simpa using this
    linarith

theorem abs_sum_le {l : List ℚ} {Z : ℚ} (hZ : ∀ z ∈ l, |z| ≤ Z) : 0 ≤ (l.map (|·|)).sum ∧ (l.map (|·|)).sum ≤ l.length * Z := by
  induction l with
  | nil => simp
  | cons a l ih =>
    obtain ⟨h1, h2⟩ := ih (fun z hz => hZ z (List.mem_cons_of_mem _ hz))
    have h3 := hZ a List.mem_cons_self
    have h4 := abs_nonneg a
    simp only [List.map_cons, List.sum_cons, List.length_cons]
    push_cast
    constructor <;> linarith

theorem roundError_mono {sf : Fmt} (hu : 0 ≤ sf.u) {B B' : ℚ} (h : B ≤ B') : roundError sf B ≤ roundError sf B' := by
  unfold roundError
  have h1 := one_le_pow_u hu 3
  generalize (1 + sf.u) ^ 3 = P at *
  have h2 : 0 ≤ (P - 1) * (B' - B) := mul_nonneg (by linarith) (by linarith)
  have h3 : (P - 1) * (B' - B) = (P * (B' + sf.η) - B') - (P * (B + sf.η) - B) := by ring
  linarith

/-- the error of a mean and of its rounding to 3 decimals -/
theorem mean_err {cf sf : Fmt} {A : Arith} (hA : Machine cf sf A) {l : List ℚ} (hl : l ≠ []) {Z : ℚ} (hZ : ∀ z ∈ l, |z| ≤ Z)
    (hroom : Room cf sf l.length Z) :
    ∃ s, A.add l = some s ∧
      |A.rnd (s / (l.length : ℚ)) - meanOf l| ≤ (1 + cf.u) ^ l.length * (meanOf (l.map (|·|)) + 2 * cf.η) - meanOf (l.map (|·|)) ∧
      |A.round3 (A.rnd (s / (l.length : ℚ))) - meanOf l| ≤ meanError cf sf l.length (meanOf (l.map (|·|))) := by
  have h := hA.calcs
  have hu := h.u_nonneg
  have hη := h.η_nonneg
  obtain ⟨hroom1, hroom2⟩ := hroom
  unfold meanError
  generalize cf.u = u at *
  generalize cf.η = η at *
  generalize cf.Ω = Ω at *
  have hn : 0 < l.length := List.length_pos_iff.2 hl
  have hnq : (1 : ℚ) ≤ l.length := by exact_mod_cast hn
  obtain ⟨hS0, hS⟩ := abs_sum_le hZ
  have hM : meanOf (l.map (|·|)) = (l.map (|·|)).sum / l.length := by simp [meanOf]
  have hm : meanOf l = l.sum / l.length := rfl
  have hn1 : ((l.length - 1 : Nat) : ℚ) = l.length - 1 := by rw [Nat.cast_sub hn]; simp
  have hsucc : l.length - 1 + 1 = l.length := by omega
  have p1 : (1 + u) ^ l.length = (1 + u) ^ (l.length - 1) * (1 + u) := by rw [← pow_succ, hsucc]
  have q1 := one_le_pow_u hu (l.length - 1)
  have q2 := one_le_pow_u hu l.length
  have q3 := pow_u_mono hu (show l.length - 1 ≤ l.length by omega)
  have hadd := add_err h hl
  rw [hn1] at hadd
  rw [hM, hm]
  generalize hSS : (l.map (|·|)).sum = S at *
  generalize l.sum = σ at *
  generalize hNN : (l.length : ℚ) = n at *
  generalize (1 + u) ^ l.length = P at *
  generalize (1 + u) ^ (l.length - 1) = Q at *
  have hnη : 0 ≤ (n - 1) * η := mul_nonneg (by linarith) hη
  have hSZ : S + (n - 1) * η ≤ n * (Z + 2 * η) := by linarith
  have hSn0 : 0 ≤ S + (n - 1) * η := by linarith
  have hQP : Q * (S + (n - 1) * η) ≤ P * (n * (Z + 2 * η)) := mul_le_mul q3 hSZ hSn0 (by linarith)
  have hΩ : Q * (S + (n - 1) * η) ≤ Ω := by linarith
  obtain ⟨s, hs, es, bs⟩ := hadd hΩ
  obtain ⟨em, bm⟩ := quot_err h hnq hS0 q1 es bs hΩ
  rw [← p1] at em bm
  have hSN : 0 ≤ S / n := div_nonneg hS0 (by linarith)
  have hSNZ : S / n ≤ Z := by rw [div_le_iff₀ (by linarith)]; linarith
  refine ⟨s, hs, em, ?_⟩
  generalize S / n = M at *
  generalize A.rnd (s / n) = m at *
  have hPM : P * (M + 2 * η) ≤ P * (Z + 2 * η) := mul_le_mul_of_nonneg_left (by linarith) (by linarith)
  have hr := round3_err (B := P * (M + 2 * η)) hA.stores bm (by
    have h1 := one_le_pow_u hA.stores.u_nonneg 2
    have h2 : (1 + sf.u) ^ 2 * (P * (M + 2 * η) + sf.η) ≤ (1 + sf.u) ^ 2 * (P * (Z + 2 * η) + sf.η) := mul_le_mul_of_nonneg_left (by linarith) (by linarith)
    linarith)
  have h1 : |A.round3 m - σ / n| ≤ |A.round3 m - m| + |m - σ / n| := abs_sub_le _ _ _
  linarith

end Arith
end Bathy
