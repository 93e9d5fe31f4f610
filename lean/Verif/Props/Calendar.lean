import Verif.Props.TimeStrings
import Verif.Spec.Calendar

/-!
# C119: the time strings are those of the civil calendar
-/

namespace Bathy

theorem leapYear_iff (y : Nat) : LeapYear y ↔ isLeap y = true := by
  unfold LeapYear isLeap
  simp only [Bool.and_eq_true, beq_iff_eq, Bool.or_eq_true, bne_iff_ne]
  omega

theorem monthLength_eq {y mo : Nat} (h1 : 1 ≤ mo) (h2 : mo ≤ 12) : monthLength y mo = daysInMonth (isLeap y) mo := by
  unfold monthLength
  by_cases h : LeapYear y
  · rw [if_pos h]; rw [(leapYear_iff y).1 h]; interval_cases mo <;> decide
  · rw [if_neg h]
    have : isLeap y = false := by rw [← Bool.not_eq_true]; exact fun e => h ((leapYear_iff y).2 e)
    rw [this]; interval_cases mo <;> decide

theorem daysBeforeMonth_succ : ∀ leap : Bool, ∀ m < 12, 1 ≤ m → daysBeforeMonth leap (m + 1) = daysBeforeMonth leap m + daysInMonth leap m := by
  decide

theorem daysBeforeMonth_lt : ∀ leap : Bool, ∀ m < 13, ∀ m' < 13, 1 ≤ m → m < m' →
    daysBeforeMonth leap m + daysInMonth leap m ≤ daysBeforeMonth leap m' := by
  decide

theorem daysBeforeYear_succ {y : Nat} (h : 1 ≤ y) : daysBeforeYear (y + 1) = daysBeforeYear y + (if isLeap y then 366 else 365) := by
  obtain ⟨n, rfl⟩ := Nat.exists_eq_add_of_le' h
  have e : isLeap (n + 1) = true ↔ (n + 1) % 4 = 0 ∧ ((n + 1) % 100 ≠ 0 ∨ (n + 1) % 400 = 0) := by
    unfold isLeap; simp only [Bool.and_eq_true, beq_iff_eq, Bool.or_eq_true, bne_iff_ne]
  have step : ∀ k, 0 < k → (n + 1) / k = n / k + if (n + 1) % k = 0 then 1 else 0 := by
    intro k hk
    rw [Nat.succ_div]
    simp only [Nat.dvd_iff_mod_eq_zero]
  have k1 := step 4 (by decide)
  have k2 := step 100 (by decide)
  have k3 := step 400 (by decide)
  have l : n / 100 ≤ n / 4 := Nat.div_le_div_left (by decide) (by decide)
  have i1 : (n + 1) % 100 = 0 → (n + 1) % 4 = 0 := by omega
  have i2 : (n + 1) % 400 = 0 → (n + 1) % 100 = 0 := by omega
  unfold daysBeforeYear
  simp only [Nat.add_sub_cancel]
  rw [k1, k2, k3]
  clear k1 k2 k3 step
  generalize n / 4 = A at *
  generalize n / 100 = B at *
  generalize n / 400 = C at *
  by_cases g4 : (n + 1) % 4 = 0 <;> by_cases g100 : (n + 1) % 100 = 0 <;> by_cases g400 : (n + 1) % 400 = 0 <;>
    first
    | exact absurd (i1 g100) g4
    | exact absurd (i2 g400) g100
    | (simp only [g4, g100, g400, if_true, if_false, e, not_true, not_false_iff, true_and, false_and, or_false, or_true,
        and_self, ne_eq] ; clear e i1 i2 g4 g100 g400; omega)

theorem daysBeforeYear_mono {y y' : Nat} (h : 1 ≤ y) (hy : y ≤ y') : daysBeforeYear y ≤ daysBeforeYear y' := by
  induction y', hy using Nat.le_induction with
  | base => exact Nat.le_refl _
  | succ n hn ih => rw [daysBeforeYear_succ (by omega)]; split <;> omega

theorem yearEnd : ∀ leap : Bool, daysBeforeMonth leap 12 + daysInMonth leap 12 = if leap then 366 else 365 := by decide

theorem dayOfYear_le {leap : Bool} {m d : Nat} (h1 : 1 ≤ m) (h2 : m ≤ 12) (h : d ≤ daysInMonth leap m) :
    daysBeforeMonth leap m + d ≤ if leap then 366 else 365 := by
  rcases Nat.lt_or_ge m 12 with h12 | h12
  · have := daysBeforeMonth_lt leap m (by omega) 12 (by decide) h1 h12
    have e := yearEnd leap
    omega
  · have : m = 12 := by omega
    subst this
    have e := yearEnd leap
    omega

/-- seconds since the epoch of a date -/
def Clock.secs (c : Clock) : Int := ((ymd2ord c.y c.mo c.d : Int) - 719163) * 86400 + (c.h * 3600 + c.mi * 60 + c.s : Nat)

theorem ymd2ord_nextDay {y mo d : Nat} (hy : 1 ≤ y) (h1 : 1 ≤ mo) (h2 : mo ≤ 12) (hd : d ≤ monthLength y mo) :
    ymd2ord (nextDay y mo d).1 (nextDay y mo d).2.1 (nextDay y mo d).2.2 = ymd2ord y mo d + 1 := by
  unfold nextDay
  rw [monthLength_eq h1 h2] at hd ⊢
  split
  · simp only [ymd2ord]; omega
  · split
    · have := daysBeforeMonth_succ (isLeap y) mo (by assumption) h1
      simp only [ymd2ord]; omega
    · have e : mo = 12 := by omega
      subst e
      have e := yearEnd (isLeap y)
      have e' : daysBeforeMonth (isLeap (y + 1)) 1 = 0 := by cases isLeap (y + 1) <;> decide
      simp only [ymd2ord, daysBeforeYear_succ hy, e']
      omega

theorem monthLength_pos (y mo : Nat) : 1 ≤ monthLength y mo := by
  unfold monthLength; split
  · split <;> omega
  · split <;> omega

theorem Clock.Valid.tick {c : Clock} (h : c.Valid) : c.tick.Valid := by
  obtain ⟨a1, a2, a3, a4, a5, a6, a7, a8⟩ := h
  unfold Clock.tick
  split
  · exact ⟨a1, a2, a3, a4, a5, a6, a7, by simp only; omega⟩
  split
  · exact ⟨a1, a2, a3, a4, a5, a6, by simp only; omega, by simp only; omega⟩
  split
  · exact ⟨a1, a2, a3, a4, a5, by simp only; omega, by simp only; omega, by simp only; omega⟩
  unfold nextDay
  split
  · exact ⟨a1, a2, a3, by simp only; omega, by simp only; omega, by simp only; omega, by simp only; omega, by simp only; omega⟩
  split
  · exact ⟨a1, by simp only; omega, by simp only; omega, by simp only; omega, monthLength_pos _ _, by simp only; omega, by simp only; omega,
      by simp only; omega⟩
  · exact ⟨by simp only; omega, by simp only; omega, by simp only; omega, by simp only; omega, monthLength_pos _ _, by simp only; omega,
      by simp only; omega, by simp only; omega⟩

theorem Clock.Valid.secs_tick {c : Clock} (h : c.Valid) : c.tick.secs = c.secs + 1 := by
  obtain ⟨a1, a2, a3, a4, a5, a6, a7, a8⟩ := h
  have hn := ymd2ord_nextDay a1 a2 a3 a5
  unfold Clock.tick
  split
  · simp only [Clock.secs]; omega
  split
  · simp only [Clock.secs]; omega
  split
  · simp only [Clock.secs]; omega
  · simp only [Clock.secs, hn]; omega

theorem Clock.Valid.iterate {c : Clock} (h : c.Valid) (n : Nat) : (Clock.tick^[n] c).Valid ∧ (Clock.tick^[n] c).secs = c.secs + n := by
  induction n with
  | zero => exact ⟨h, by simp⟩
  | succ n ih =>
    rw [Function.iterate_succ_apply']
    exact ⟨ih.1.tick, by rw [ih.1.secs_tick, ih.2]; push_cast; omega⟩

theorem ymd2ord_inj {y mo d y' mo' d' : Nat} (hy : 1 ≤ y) (hy' : 1 ≤ y') (m1 : 1 ≤ mo) (m2 : mo ≤ 12) (m1' : 1 ≤ mo') (m2' : mo' ≤ 12)
    (d1 : 1 ≤ d) (d1' : 1 ≤ d') (d2 : d ≤ daysInMonth (isLeap y) mo) (d2' : d' ≤ daysInMonth (isLeap y') mo')
    (h : ymd2ord y mo d = ymd2ord y' mo' d') : y = y' ∧ mo = mo' ∧ d = d' := by
  have b := dayOfYear_le m1 m2 d2
  have b' := dayOfYear_le m1' m2' d2'
  unfold ymd2ord at h
  have hyy : y = y' := by
    rcases Nat.lt_trichotomy y y' with hl | he | hl
    · have := daysBeforeYear_mono (by omega : 1 ≤ y + 1) hl
      rw [daysBeforeYear_succ hy] at this
      omega
    · exact he
    · have := daysBeforeYear_mono (by omega : 1 ≤ y' + 1) hl
      rw [daysBeforeYear_succ hy'] at this
      omega
  subst hyy
  have hmm : mo = mo' := by
    rcases Nat.lt_trichotomy mo mo' with hl | he | hl
    · have := daysBeforeMonth_lt (isLeap y) mo (by omega) mo' (by omega) m1 hl
      omega
    · exact he
    · have := daysBeforeMonth_lt (isLeap y) mo' (by omega) mo (by omega) m1' hl
      omega
  subst hmm
  exact ⟨rfl, rfl, by omega⟩

theorem Clock.Valid.secs_inj {c c' : Clock} (h : c.Valid) (h' : c'.Valid) (e : c.secs = c'.secs) : c = c' := by
  obtain ⟨a1, a2, a3, a4, a5, a6, a7, a8⟩ := h
  obtain ⟨b1, b2, b3, b4, b5, b6, b7, b8⟩ := h'
  rw [monthLength_eq a2 a3] at a5
  rw [monthLength_eq b2 b3] at b5
  unfold Clock.secs at e
  have ho : ymd2ord c.y c.mo c.d = ymd2ord c'.y c'.mo c'.d := by omega
  obtain ⟨e1, e2, e3⟩ := ymd2ord_inj a1 b1 a2 a3 b2 b3 a4 b4 a5 b5 ho
  rw [ho] at e
  obtain ⟨y, mo, d, h, mi, s⟩ := c
  obtain ⟨y', mo', d', h', mi', s'⟩ := c'
  simp only at e1 e2 e3 e a6 a7 a8 b6 b7 b8
  subst e1 e2 e3
  have r1 : h = h' := by omega
  have r2 : mi = mi' := by omega
  have r3 : s = s' := by omega
  subst r1 r2 r3
  rfl

theorem epoch_valid : epoch.Valid := by constructor <;> decide

theorem epoch_secs : epoch.secs = 0 := by decide

/-- the clock shows a date exactly when the date is that many seconds from the epoch -/
theorem showsAt_iff {t : Int} {c : Clock} (h : c.Valid) : ShowsAt t c ↔ c.secs = t := by
  unfold ShowsAt
  constructor
  · rintro (⟨h0, e⟩ | ⟨h0, e⟩)
    · have := (epoch_valid.iterate t.toNat).2
      rw [e, epoch_secs] at this; omega
    · have := (h.iterate (-t).toNat).2
      rw [e, epoch_secs] at this; omega
  · intro e
    by_cases h0 : 0 ≤ t
    · left
      obtain ⟨v, s⟩ := epoch_valid.iterate t.toNat
      exact ⟨h0, v.secs_inj h (by rw [s, epoch_secs, e]; omega)⟩
    · right
      obtain ⟨v, s⟩ := h.iterate (-t).toNat
      exact ⟨by omega, v.secs_inj epoch_valid (by rw [s, epoch_secs, e]; omega)⟩

theorem digitChar_eq (n : Nat) : digitChar n = Char.ofNat (48 + n % 10) := by
  have h : n % 10 < 10 := Nat.mod_lt _ (by decide)
  unfold digitChar
  generalize n % 10 = k at h
  interval_cases k <;> decide

theorem pad2_eq (n : Nat) : pad2 n = fieldDigits 2 n := by
  simp [pad2, fieldDigits, digitChar_eq]

theorem yearChars_eq {y : Nat} (h1 : 1 ≤ y) (h2 : y ≤ 9999) : ∃ w, yearChars y = fieldDigits w y ∧ 10 ^ w ≤ 10 * y ∧ y < 10 ^ w := by
  unfold yearChars
  split
  · exact ⟨1, by simp [fieldDigits, digitChar_eq], by omega, by omega⟩
  split
  · exact ⟨2, pad2_eq y, by omega, by omega⟩
  split
  · exact ⟨3, by simp [fieldDigits, digitChar_eq, pad2, Nat.div_div_eq_div_mul], by omega, by omega⟩
  · exact ⟨4, by simp [fieldDigits, digitChar_eq, pad2, Nat.div_div_eq_div_mul], by omega, by omega⟩

theorem ord2ymd_le (ord : Nat) (h2 : ord ≤ 3652059) : (ord2ymd ord).1 ≤ 9999 := by
  have key : ∀ y, (ord2ymd ord).1 = y → y ≤ 9999 := by
    intro y hy
    unfold ord2ymd at hy
    simp only at hy
    split at hy
    · simp only at hy; omega
    · simp only at hy; omega
  exact key _ rfl

/-- **C119**: the string written for a second of the years 1 to 9999 is the date the clock of the calendar shows, counted second by
second from 1970-01-01T00:00:00; the year is not padded. -/
theorem C119_written (t : Int) (h1 : -62135596800 ≤ t) (h2 : t < 253402300800) :
    ∃ c w, c.Valid ∧ ShowsAt t c ∧ c.y < 10 ^ w ∧ 10 ^ w ≤ 10 * c.y ∧ utcToString t = .ok (clockText w c) := by
  have ho1 : 1 ≤ t / 86400 + 719163 := by omega
  have ho2 : t / 86400 + 719163 ≤ 3652059 := by omega
  unfold utcToString
  simp only
  rw [if_pos ⟨ho1, ho2⟩]
  obtain ⟨e, m1, m2, d1, d2, y1⟩ := ymd2ord_ord2ymd (t / 86400 + 719163).toNat (by omega)
  obtain ⟨w, w1, w2, w3⟩ := yearChars_eq y1 (ord2ymd_le _ (by omega))
  rw [← monthLength_eq m1 m2] at d2
  let o := ord2ymd (t / 86400 + 719163).toNat
  let c : Clock := ⟨o.1, o.2.1, o.2.2, (t % 86400).toNat / 3600, (t % 86400).toNat % 3600 / 60, (t % 86400).toNat % 60⟩
  have hv : c.Valid := ⟨y1, m1, m2, d1, d2, by simp only [c]; omega, by simp only [c]; omega, by simp only [c]; omega⟩
  refine ⟨c, w, hv, (showsAt_iff hv).2 ?_, w3, w2, ?_⟩
  · simp only [Clock.secs, c, o, e]; omega
  · simp only [clockText, c, o, ← pad2_eq, ← w1]

/-- **C119**: other seconds are refused. -/
theorem C119_outside (t : Int) : utcToString t = .error .valueError ↔ t < -62135596800 ∨ 253402300800 ≤ t := by
  unfold utcToString
  simp only
  split
  · simp only [reduceCtorEq, false_iff]; omega
  · simp only [true_iff]; omega

theorem digitVal_some {c : Char} {n : Nat} (h : digitVal c = some n) : n < 10 ∧ c = digitChar n := by
  unfold digitVal at h
  split at h <;> first | (cases h; exact ⟨by decide, by decide⟩) | cases h

theorem fieldDigits_one (n : Nat) : fieldDigits 1 n = [digitChar n] := by simp [fieldDigits, digitChar_eq]

theorem num2_some {a b : Char} {n : Nat} (h : num2 a b = some n) : n < 100 ∧ [a, b] = fieldDigits 2 n := by
  unfold num2 at h
  cases ha : digitVal a with
  | none => simp [ha] at h
  | some x =>
    cases hb : digitVal b with
    | none => simp [ha, hb] at h
    | some y =>
      simp [ha, hb] at h
      obtain ⟨h1, rfl⟩ := digitVal_some ha
      obtain ⟨h2, rfl⟩ := digitVal_some hb
      subst h
      refine ⟨by omega, ?_⟩
      have e1 : (x * 10 + y) / 10 % 10 = x % 10 := by omega
      have e2 : (x * 10 + y) % 10 = y % 10 := by omega
      simp [fieldDigits, digitChar_eq, e1, e2]

theorem num12_iff (l : List Char) (n : Nat) : num12 l = some n ↔ Digits12 n l := by
  constructor
  · intro h
    unfold num12 at h
    split at h
    · obtain ⟨h1, rfl⟩ := digitVal_some h
      exact Or.inr ⟨h1, (fieldDigits_one n).symm⟩
    · obtain ⟨h1, e⟩ := num2_some h
      exact Or.inl ⟨h1, e⟩
    · cases h
  · rintro (⟨h, rfl⟩ | ⟨h, rfl⟩)
    · rw [← pad2_eq]; exact num12_pad2 h
    · rw [fieldDigits_one, num12, digitVal_digitChar, Nat.mod_eq_of_lt h]

theorem Digits12.digits {n : Nat} {l : List Char} (h : Digits12 n l) : ∀ c ∈ l, ∃ n, c = digitChar n := by
  rcases h with ⟨-, rfl⟩ | ⟨-, rfl⟩
  · rw [← pad2_eq]; exact pad2_digits n
  · rw [fieldDigits_one]; simp

theorem dayNum_iff (l : List Char) (n : Nat) : dayNum l = some n ↔ Digits12 n l ∨ (n < 10 ∧ l = ' ' :: fieldDigits 1 n) := by
  unfold dayNum
  split
  · rename_i b
    constructor
    · intro h
      obtain ⟨h1, rfl⟩ := digitVal_some h
      exact Or.inr ⟨h1, by rw [fieldDigits_one]⟩
    · rintro (h | ⟨h, e⟩)
      · obtain ⟨k, hk⟩ := h.digits ' ' (by simp)
        exact absurd hk.symm (digitChar_ne k).2.2.2.2
      · rw [fieldDigits_one] at e
        cases e
        rw [digitVal_digitChar, Nat.mod_eq_of_lt h]
  · rename_i hn
    rw [num12_iff]
    constructor
    · exact Or.inl
    · rintro (h | ⟨h, e⟩)
      · exact h
      · rw [fieldDigits_one] at e
        exact absurd e (hn _)

theorem fieldDigits_four (n : Nat) : fieldDigits 4 n = [digitChar (n / 1000), digitChar (n / 100), digitChar (n / 10), digitChar n] := by
  simp [fieldDigits, digitChar_eq, Nat.div_div_eq_div_mul]

theorem year4_iff (l : List Char) (n : Nat) : year4 l = some n ↔ n ≤ 9999 ∧ l = fieldDigits 4 n := by
  constructor
  · intro h
    unfold year4 at h
    split at h
    · rename_i a b c d
      cases ha : num2 a b with
      | none => simp [ha] at h
      | some x =>
        cases hb : num2 c d with
        | none => simp [ha, hb] at h
        | some y =>
          simp [ha, hb] at h
          obtain ⟨h1, e1⟩ := num2_some ha
          obtain ⟨h2, e2⟩ := num2_some hb
          subst h
          refine ⟨by omega, ?_⟩
          rw [← pad2_eq, pad2] at e1 e2
          simp only [List.cons.injEq, and_true] at e1 e2
          rw [fieldDigits_four, e1.1, e1.2, e2.1, e2.2]
          simp only [digitChar_eq]
          have q1 : x / 10 % 10 = (x * 100 + y) / 1000 % 10 := by omega
          have q2 : x % 10 = (x * 100 + y) / 100 % 10 := by omega
          have q3 : y / 10 % 10 = (x * 100 + y) / 10 % 10 := by omega
          have q4 : y % 10 = (x * 100 + y) % 10 := by omega
          rw [q1, q2, q3, q4]
    · cases h
  · rintro ⟨h, rfl⟩
    rw [fieldDigits_four]
    simp only [year4, num2_digits, Option.bind_eq_bind, Option.bind_some]
    congr 1; omega

theorem dateField_some {sep : Char → Bool} {s a b : List Char} (h : dateField sep s = some (a, b)) :
    ∃ c, sep c = true ∧ s = a ++ c :: b := by
  unfold dateField at h
  cases hd : s.dropWhile (fun c => !sep c) with
  | nil => rw [hd] at h; cases h
  | cons c r =>
    rw [hd] at h
    simp only [Option.some.injEq, Prod.mk.injEq] at h
    obtain ⟨rfl, rfl⟩ := h
    refine ⟨c, ?_, ?_⟩
    · have := List.head_dropWhile_not (fun c => !sep c) (by rw [hd]; simp : s.dropWhile (fun c => !sep c) ≠ [])
      simpa [hd] using this
    · rw [← hd, List.takeWhile_append_dropWhile]

theorem dateFields_some {s : List Char} {y mo d h mi sec : Nat} (e : dateFields s = some (y, mo, d, h, mi, sec)) :
    ∃ Y M D H I S : List Char, ∃ T : Char, (T = 'T' ∨ T = 't') ∧ s = Y ++ '-' :: M ++ '-' :: D ++ T :: H ++ ':' :: I ++ ':' :: S ∧
      year4 Y = some y ∧ num12 M = some mo ∧ dayNum D = some d ∧ num12 H = some h ∧ num12 I = some mi ∧ num12 S = some sec := by
  unfold dateFields at e
  simp only [Option.bind_eq_bind, Option.bind_eq_some_iff, Prod.exists] at e
  obtain ⟨Y, s1, e1, M, s2, e2, D, s3, e3, H, s4, e4, I, S, e5, y', hy, mo', hmo, d', hd, h', hh, mi', hmi, sec', hs, e⟩ := e
  simp only [Option.some.injEq, Prod.mk.injEq] at e
  obtain ⟨rfl, rfl, rfl, rfl, rfl, rfl⟩ := e
  obtain ⟨c1, k1, rfl⟩ := dateField_some e1
  obtain ⟨c2, k2, rfl⟩ := dateField_some e2
  obtain ⟨c3, k3, rfl⟩ := dateField_some e3
  obtain ⟨c4, k4, rfl⟩ := dateField_some e4
  obtain ⟨c5, k5, rfl⟩ := dateField_some e5
  simp only [beq_iff_eq, Bool.or_eq_true] at k1 k2 k3 k4 k5
  subst k1 k2 k4 k5
  exact ⟨Y, M, D, H, I, S, c3, k3, by simp only [List.append_assoc, List.cons_append], hy, hmo, hd, hh, hmi, hs⟩

/-- **C119**: a string is read as the second `t` exactly when it is a text for the date the clock of the calendar shows at `t`. -/
theorem C119_read (str : String) (t : Int) : stringToUtc str = .ok t ↔ ∃ c : Clock, c.Valid ∧ ShowsAt t c ∧ TextOf c str := by
  constructor
  · intro h
    unfold stringToUtc at h
    split at h
    · rename_i y mo d hh mi s hf
      obtain ⟨Y, M, D, H, I, S, T, hT, e, hY, hM, hD, hH, hI, hS⟩ := dateFields_some hf
      unfold dateToUtc at h
      split at h
      · rename_i hv
        obtain ⟨v1, v2, v3, v4, v5, v6, v7, v8⟩ := hv
        rw [← monthLength_eq v2 v3] at v5
        have hv : Clock.Valid ⟨y, mo, d, hh, mi, s⟩ := ⟨v1, v2, v3, v4, v5, v6, v7, v8⟩
        obtain ⟨y9, rfl⟩ := (year4_iff Y y).1 hY
        refine ⟨⟨y, mo, d, hh, mi, s⟩, hv, (showsAt_iff hv).2 ?_, M, D, H, I, S, T, y9, (num12_iff _ _).1 hM, (dayNum_iff _ _).1 hD,
          (num12_iff _ _).1 hH, (num12_iff _ _).1 hI, (num12_iff _ _).1 hS, hT, ?_⟩
        · simpa [Clock.secs] using h
        · rw [← e, String.ofList_toList]
      · cases h
    · cases h
  · rintro ⟨c, hv, ht, M, D, H, I, S, T, y9, hM, hD, hH, hI, hS, hT, rfl⟩
    rw [showsAt_iff hv] at ht
    have hY := (year4_iff _ c.y).2 ⟨y9, rfl⟩
    have hdig : ∀ x ∈ fieldDigits 4 c.y, ∃ n, x = digitChar n := by rw [fieldDigits_four]; simp only [List.mem_cons, List.not_mem_nil, or_false]; rintro x (rfl | rfl | rfl | rfl) <;> exact ⟨_, rfl⟩
    unfold stringToUtc
    rw [String.toList_ofList, dateFields_written hdig hM.digits (by
      rcases hD with hD | ⟨-, rfl⟩
      · exact fun x hx => Or.inl (hD.digits x hx)
      · rw [fieldDigits_one]
        intro x hx
        simp only [List.mem_cons, List.not_mem_nil, or_false] at hx
        rcases hx with rfl | rfl
        · exact Or.inr rfl
        · exact Or.inl ⟨_, rfl⟩) hH.digits hI.digits hT]
    rw [← num12_iff] at hM hH hI hS
    rw [← dayNum_iff] at hD
    simp only [hY, hM, hD, hH, hI, hS, Option.bind_eq_bind, Option.bind_some]
    obtain ⟨v1, v2, v3, v4, v5, v6, v7, v8⟩ := hv
    rw [monthLength_eq v2 v3] at v5
    unfold dateToUtc
    rw [if_pos ⟨v1, v2, v3, v4, v5, v6, v7, v8⟩, ← ht]
    rfl

/-- a text with one digit fields is read as the same second as the written one; the 29th of February of 1900 is not a date -/
example : stringToUtc "2020-2- 9t1:2:03" = .ok 1581210123 ∧ utcToString 1581210123 = .ok "2020-02-09T01:02:03" ∧
    stringToUtc "1900-02-29T00:00:00" = .error .valueError ∧ utcToString (-62135596800) = .ok "1-01-01T00:00:00" := by decide +kernel

/-- the last second of a leap day, and the one after it -/
example : (Clock.tick ⟨2000, 2, 29, 23, 59, 59⟩) = ⟨2000, 3, 1, 0, 0, 0⟩ ∧ (⟨2000, 2, 29, 23, 59, 59⟩ : Clock).Valid ∧
    utcToString 951868799 = .ok (clockText 4 ⟨2000, 2, 29, 23, 59, 59⟩) ∧ ShowsAt 951868799 ⟨2000, 2, 29, 23, 59, 59⟩ := by
  have hv : (⟨2000, 2, 29, 23, 59, 59⟩ : Clock).Valid := by constructor <;> decide
  exact ⟨by decide, hv, by decide +kernel, (showsAt_iff hv).2 (by decide)⟩

end Bathy
