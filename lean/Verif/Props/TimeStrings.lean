import Verif.Model.Time
import Mathlib.Tactic.IntervalCases
import Mathlib.Tactic.Linarith

/-!
# C52: time strings round trip
-/

namespace Bathy

theorem digitVal_digitChar (n : Nat) : digitVal (digitChar n) = some (n % 10) := by
  have h : n % 10 < 10 := Nat.mod_lt _ (by decide)
  unfold digitChar
  generalize n % 10 = k at h
  interval_cases k <;> rfl

theorem num2_digits (a b : Nat) : num2 (digitChar a) (digitChar b) = some (a % 10 * 10 + b % 10) := by
  simp [num2, digitVal_digitChar]

theorem num2_pad2 {n : Nat} (h : n < 100) : num2 (digitChar (n / 10)) (digitChar n) = some n := by
  rw [num2_digits]; congr 1; omega

/-- month and day of each day of a year, both kinds of year: all 731 cases -/
theorem monthDay_spec : ∀ leap : Bool, ∀ n < 366, (n < 365 ∨ leap = true) →
    let md := monthDay leap n
    1 ≤ md.1 ∧ md.1 ≤ 12 ∧ 1 ≤ md.2 ∧ md.2 ≤ daysInMonth leap md.1 ∧ daysBeforeMonth leap md.1 + md.2 = n + 1 := by
  decide +kernel

/-- the calendar round trip for every day from 0001-01-01 on -/
theorem ymd2ord_ord2ymd (ord : Nat) (h : 1 ≤ ord) :
    let ymd := ord2ymd ord
    ymd2ord ymd.1 ymd.2.1 ymd.2.2 = ord ∧ 1 ≤ ymd.2.1 ∧ ymd.2.1 ≤ 12 ∧ 1 ≤ ymd.2.2 ∧ ymd.2.2 ≤ daysInMonth (isLeap ymd.1) ymd.2.1 ∧
      1 ≤ ymd.1 := by
  intro ymd
  have hymd : ymd = ord2ymd ord := rfl
  unfold ord2ymd at hymd
  simp only at hymd
  generalize hn : ord - 1 = n at hymd
  generalize ha : n / 146097 = a at hymd
  generalize hr : n % 146097 = r at hymd
  generalize hb : r / 36524 = b at hymd
  generalize hr1 : r % 36524 = r1 at hymd
  generalize hc : r1 / 1461 = c at hymd
  generalize hr2 : r1 % 1461 = r2 at hymd
  generalize hd : r2 / 365 = d at hymd
  generalize hr3 : r2 % 365 = r3 at hymd
  have hbl : b ≤ 4 := by omega
  have hcl : c ≤ 24 := by omega
  have hdl : d ≤ 4 := by omega
  have hr3l : r3 < 365 := by omega
  have hdec : n = a * 146097 + b * 36524 + c * 1461 + d * 365 + r3 := by omega
  by_cases hlast : d = 4 ∨ b = 4
  · rw [if_pos hlast] at hymd
    rw [hymd]
    simp only
    have hleap : isLeap (a * 400 + 1 + b * 100 + c * 4 + d - 1) = true := by
      unfold isLeap
      simp only [Bool.and_eq_true, beq_iff_eq, Bool.or_eq_true, bne_iff_ne]
      omega
    rw [hleap]
    refine ⟨?_, by decide, by decide, by decide, by decide, by omega⟩
    unfold ymd2ord daysBeforeYear
    rw [hleap]
    have e : daysBeforeMonth true 12 = 335 := by decide
    rw [e]
    rcases hlast with h4 | h4
    · have hc23 : c ≤ 23 := by omega
      have q1 : (a * 400 + 1 + b * 100 + c * 4 + d - 1 - 1) / 4 = a * 100 + b * 25 + c := by omega
      have q2 : (a * 400 + 1 + b * 100 + c * 4 + d - 1 - 1) / 100 = a * 4 + b := by omega
      have q3 : (a * 400 + 1 + b * 100 + c * 4 + d - 1 - 1) / 400 = a := by omega
      rw [q1, q2, q3]; omega
    · have hc0 : c = 0 := by omega
      have hd0 : d = 0 := by omega
      have q1 : (a * 400 + 1 + b * 100 + c * 4 + d - 1 - 1) / 4 = a * 100 + 99 := by omega
      have q2 : (a * 400 + 1 + b * 100 + c * 4 + d - 1 - 1) / 100 = a * 4 + 3 := by omega
      have q3 : (a * 400 + 1 + b * 100 + c * 4 + d - 1 - 1) / 400 = a := by omega
      rw [q1, q2, q3]; omega
  · rw [if_neg hlast] at hymd
    rw [not_or] at hlast
    have hleap : isLeap (a * 400 + 1 + b * 100 + c * 4 + d) = (d == 3 && (c != 24 || b == 3)) := by
      unfold isLeap
      rw [Bool.eq_iff_iff]
      simp only [Bool.and_eq_true, beq_iff_eq, Bool.or_eq_true, bne_iff_ne]
      omega
    rw [← hleap] at hymd
    rw [hymd]
    simp only
    obtain ⟨h1, h2, h3, h4, h5⟩ := monthDay_spec (isLeap (a * 400 + 1 + b * 100 + c * 4 + d)) r3 (by omega) (Or.inl hr3l)
    refine ⟨?_, h1, h2, h3, h4, by omega⟩
    unfold ymd2ord
    rw [Nat.add_assoc, h5]
    unfold daysBeforeYear
    have q1 : (a * 400 + 1 + b * 100 + c * 4 + d - 1) / 4 = a * 100 + b * 25 + c := by omega
    have q2 : (a * 400 + 1 + b * 100 + c * 4 + d - 1) / 100 = a * 4 + b := by omega
    have q3 : (a * 400 + 1 + b * 100 + c * 4 + d - 1) / 400 = a := by omega
    rw [q1, q2, q3]; omega

theorem daysInMonth_le (leap : Bool) {m : Nat} (h1 : 1 ≤ m) (h2 : m ≤ 12) : daysInMonth leap m ≤ 31 := by
  cases leap <;> interval_cases m <;> decide

theorem dateField_append {sep : Char → Bool} {a : List Char} {c : Char} (ha : ∀ x ∈ a, sep x = false) (hc : sep c = true) (b : List Char) :
    dateField sep (a ++ c :: b) = some (a, b) := by
  have h1 : (a ++ c :: b).dropWhile (fun c => !sep c) = c :: b := by
    rw [List.dropWhile_append_of_pos (by simpa using ha), List.dropWhile_cons]
    simp [hc]
  have h2 : (a ++ c :: b).takeWhile (fun c => !sep c) = a := by
    rw [List.takeWhile_append_of_pos (by simpa using ha), List.takeWhile_cons]
    simp [hc]
  unfold dateField
  rw [h1, h2]

theorem digitChar_ne (n : Nat) : digitChar n ≠ '-' ∧ digitChar n ≠ 'T' ∧ digitChar n ≠ 't' ∧ digitChar n ≠ ':' ∧ digitChar n ≠ ' ' := by
  have h : n % 10 < 10 := Nat.mod_lt _ (by decide)
  unfold digitChar
  generalize n % 10 = k at h
  interval_cases k <;> decide

theorem yearChars_digits (y : Nat) : ∀ c ∈ yearChars y, ∃ n, c = digitChar n := by
  intro c hc
  unfold yearChars pad2 at hc
  split at hc
  · simp at hc; exact ⟨_, hc⟩
  · split at hc
    · simp at hc; rcases hc with h | h <;> exact ⟨_, h⟩
    · split at hc
      · simp at hc; rcases hc with h | h | h <;> exact ⟨_, h⟩
      · simp at hc; rcases hc with h | h | h | h <;> exact ⟨_, h⟩

theorem pad2_digits (n : Nat) : ∀ c ∈ pad2 n, ∃ k, c = digitChar k := by
  intro c hc
  simp [pad2] at hc
  rcases hc with h | h <;> exact ⟨_, h⟩

/-- the fields of written characters: everything between the separators is digits -/
theorem dateFields_written {y mo d h mi s : List Char} (hy : ∀ c ∈ y, ∃ n, c = digitChar n) (hmo : ∀ c ∈ mo, ∃ n, c = digitChar n)
    (hd : ∀ c ∈ d, (∃ n, c = digitChar n) ∨ c = ' ') (hh : ∀ c ∈ h, ∃ n, c = digitChar n) (hmi : ∀ c ∈ mi, ∃ n, c = digitChar n)
    {T : Char} (hT : T = 'T' ∨ T = 't') :
    dateFields (y ++ '-' :: mo ++ '-' :: d ++ T :: h ++ ':' :: mi ++ ':' :: s) =
      (do some (← year4 y, ← num12 mo, ← dayNum d, ← num12 h, ← num12 mi, ← num12 s)) := by
  have dash : ∀ {l : List Char}, (∀ c ∈ l, ∃ n, c = digitChar n) → ∀ x ∈ l, (x == '-') = false := by
    intro l hl x hx; obtain ⟨n, rfl⟩ := hl x hx; simpa using (digitChar_ne n).1
  have colon : ∀ {l : List Char}, (∀ c ∈ l, ∃ n, c = digitChar n) → ∀ x ∈ l, (x == ':') = false := by
    intro l hl x hx; obtain ⟨n, rfl⟩ := hl x hx; simpa using (digitChar_ne n).2.2.2.1
  have tee : ∀ x ∈ d, (x == 'T' || x == 't') = false := by
    intro x hx
    rcases hd x hx with ⟨n, rfl⟩ | rfl
    · simpa using ⟨(digitChar_ne n).2.1, (digitChar_ne n).2.2.1⟩
    · decide
  have hT' : (T == 'T' || T == 't') = true := by rcases hT with rfl | rfl <;> decide
  unfold dateFields
  simp only [List.append_assoc, List.cons_append]
  rw [dateField_append (dash hy) (by decide)]
  simp only [Option.bind_eq_bind, Option.bind_some]
  rw [dateField_append (dash hmo) (by decide)]
  simp only [Option.bind_some]
  rw [dateField_append tee hT']
  simp only [Option.bind_some]
  rw [dateField_append (colon hh) (by decide)]
  simp only [Option.bind_some]
  rw [dateField_append (colon hmi) (by decide)]
  simp only [Option.bind_some]

theorem num12_pad2 {n : Nat} (h : n < 100) : num12 (pad2 n) = some n := num2_pad2 h

theorem dayNum_of_digit {a : Char} (l : List Char) (ha : a ≠ ' ') : dayNum (a :: l) = num12 (a :: l) := by
  unfold dayNum
  split
  · rename_i b heq; cases heq; exact absurd rfl ha
  · rfl

/-- reading back the characters written for a date -/
theorem stringToUtc_render (y mo d h mi s : Nat) (hy : 1000 ≤ y) (hy2 : y ≤ 9999) (hmo : mo < 100) (hd : d < 100) (hh : h < 100) (hmi : mi < 100)
    (hs : s < 100) :
    stringToUtc (String.ofList (yearChars y ++ '-' :: pad2 mo ++ '-' :: pad2 d ++ 'T' :: pad2 h ++ ':' :: pad2 mi ++ ':' :: pad2 s)) =
      dateToUtc y mo d h mi s := by
  unfold stringToUtc
  rw [String.toList_ofList, dateFields_written (yearChars_digits y) (pad2_digits mo) (fun c hc => Or.inl (pad2_digits d c hc)) (pad2_digits h)
    (pad2_digits mi) (Or.inl rfl)]
  have hyc : yearChars y = [digitChar (y / 1000), digitChar (y / 100), digitChar (y / 10), digitChar y] := by
    unfold yearChars
    rw [if_neg (by omega), if_neg (by omega), if_neg (by omega)]; rfl
  have e1 : num2 (digitChar (y / 1000)) (digitChar (y / 100)) = some (y / 100) := by
    rw [num2_digits]; congr 1; omega
  have e2 : num2 (digitChar (y / 10)) (digitChar y) = some (y % 100) := by
    rw [num2_digits]; congr 1; omega
  have ey : year4 (yearChars y) = some y := by
    rw [hyc]
    simp only [year4, e1, e2, Option.bind_eq_bind, Option.bind_some]
    congr 1; omega
  have ed : dayNum (pad2 d) = some d := by
    rw [← num12_pad2 hd]
    exact dayNum_of_digit _ (digitChar_ne _).2.2.2.2
  simp only [ey, ed, num12_pad2 hmo, num12_pad2 hh, num12_pad2 hmi, num12_pad2 hs, Option.bind_eq_bind, Option.bind_some]

/-- year of a day number -/
theorem ord2ymd_year (ord : Nat) (h1 : 364878 ≤ ord) (h2 : ord ≤ 3652059) : 1000 ≤ (ord2ymd ord).1 ∧ (ord2ymd ord).1 ≤ 9999 := by
  have key : ∀ y, (ord2ymd ord).1 = y → 1000 ≤ y ∧ y ≤ 9999 := by
    intro y hy
    unfold ord2ymd at hy
    simp only at hy
    split at hy
    · simp only at hy; omega
    · simp only at hy; omega
  exact key _ rfl

/-- **C52**: for every whole second from 1000-01-01 to the end of the year 9999 the formatted string reads back as the same second. -/
theorem C52_time_round_trip (t : Int) (h1 : -30610224000 ≤ t) (h2 : t < 253402300800) :
    ∃ s, utcToString t = .ok s ∧ stringToUtc s = .ok t := by
  have hs0 : 0 ≤ t % 86400 := Int.emod_nonneg _ (by decide)
  have hs1 : t % 86400 < 86400 := Int.emod_lt_of_pos _ (by decide)
  have ho1 : 364878 ≤ t / 86400 + 719163 := by omega
  have ho2 : t / 86400 + 719163 ≤ 3652059 := by omega
  unfold utcToString
  simp only
  rw [if_pos ⟨by omega, ho2⟩]
  refine ⟨_, rfl, ?_⟩
  generalize ho : (t / 86400 + 719163).toNat = ord
  generalize hsec : (t % 86400).toNat = sec
  obtain ⟨e, m1, m2, d1, d2, -⟩ := ymd2ord_ord2ymd ord (by omega)
  obtain ⟨y1, y2⟩ := ord2ymd_year ord (by omega) (by omega)
  have hd31 := daysInMonth_le (isLeap (ord2ymd ord).1) m1 m2
  rw [stringToUtc_render _ _ _ _ _ _ y1 y2 (by omega) (by omega) (by omega) (by omega) (by omega)]
  unfold dateToUtc
  rw [if_pos ⟨by omega, m1, m2, d1, d2, by omega, by omega, by omega⟩, e]
  congr 1
  omega

/-- **C52**, other side: before the year 1000 the written string is refused when it is read back. -/
theorem C52_early_years_refused (t : Int) (h1 : -62135596800 ≤ t) (h2 : t < -30610224000) :
    ∃ s, utcToString t = .ok s ∧ stringToUtc s = .error .valueError := by
  have ho1 : 1 ≤ t / 86400 + 719163 := by omega
  have ho2 : t / 86400 + 719163 < 364878 := by omega
  unfold utcToString
  simp only
  rw [if_pos ⟨ho1, by omega⟩]
  refine ⟨_, rfl, ?_⟩
  generalize ho : (t / 86400 + 719163).toNat = ord
  generalize hsec : (t % 86400).toNat = sec
  have hy : (ord2ymd ord).1 < 1000 := by
    have key : ∀ y, (ord2ymd ord).1 = y → y < 1000 := by
      intro y hy
      unfold ord2ymd at hy
      simp only at hy
      have ha : (ord - 1) / 146097 ≤ 2 := by omega
      generalize hn : ord - 1 = n at *
      generalize hA : n / 146097 = a at *
      generalize hr : n % 146097 = r at *
      have hb : r / 36524 ≤ 4 := by omega
      generalize hB : r / 36524 = b at *
      interval_cases a <;> interval_cases b <;> split at hy <;> simp only at hy <;> omega
    exact key _ rfl
  have hlen : (yearChars (ord2ymd ord).1).length < 4 := by
    unfold yearChars
    split
    · simp
    · split
      · simp [pad2]
      · simp [pad2]
  have hy4 : year4 (yearChars (ord2ymd ord).1) = none := by
    unfold year4
    split
    · rename_i heq; rw [heq] at hlen; simp at hlen
    · rfl
  unfold stringToUtc
  rw [String.toList_ofList, dateFields_written (yearChars_digits _) (pad2_digits _) (fun c hc => Or.inl (pad2_digits _ c hc)) (pad2_digits _)
    (pad2_digits _) (Or.inl rfl), hy4]
  rfl

/-- one of the seconds: 2020-02-29T12:34:56 -/
example : utcToString 1582979696 = .ok "2020-02-29T12:34:56" ∧ stringToUtc "2020-02-29T12:34:56" = .ok 1582979696 ∧
    stringToUtc "2021-02-29T12:34:56" = .error .valueError := by decide +kernel

end Bathy
