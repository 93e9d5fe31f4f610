import Verif.Basic.Py

/-!
# time strings (bathygrid/utilities.py:410-444)

The two functions wrap python's `datetime`.  The calendar arithmetic is the one of CPython's `datetime` module (`_ord2ymd`, `_ymd2ord`).
-/

namespace Bathy

/-- CPython `datetime._is_leap` -/
def isLeap (y : Nat) : Bool := y % 4 == 0 && (y % 100 != 0 || y % 400 == 0)

/-- CPython `datetime._days_before_year` -/
def daysBeforeYear (y : Nat) : Nat := (y - 1) * 365 + (y - 1) / 4 - (y - 1) / 100 + (y - 1) / 400

/-- CPython `datetime._days_before_month`; entry 0 is unused -/
def daysBeforeMonth (leap : Bool) (m : Nat) : Nat :=
  ([0, 0, 31, 59, 90, 120, 151, 181, 212, 243, 273, 304, 334][m]?).getD 0 + (if m > 2 && leap then 1 else 0)

/-- CPython `datetime._days_in_month` -/
def daysInMonth (leap : Bool) (m : Nat) : Nat :=
  if m = 2 && leap then 29 else ([0, 31, 28, 31, 30, 31, 30, 31, 31, 30, 31, 30, 31][m]?).getD 0

/-- CPython `datetime._ymd2ord` -/
def ymd2ord (y m d : Nat) : Nat := daysBeforeYear y + daysBeforeMonth (isLeap y) m + d

/-- month and day from the day of the year (0 based), the last lines of CPython `datetime._ord2ymd` -/
def monthDay (leap : Bool) (n : Nat) : Nat × Nat :=
  let month := (n + 50) / 32
  if daysBeforeMonth leap month > n then (month - 1, n - daysBeforeMonth leap (month - 1) + 1)
  else (month, n - daysBeforeMonth leap month + 1)

/-- CPython `datetime._ord2ymd` -/
def ord2ymd (ord : Nat) : Nat × Nat × Nat :=
  let n := ord - 1
  let n400 := n / 146097
  let n := n % 146097
  let n100 := n / 36524
  let n := n % 36524
  let n4 := n / 1461
  let n := n % 1461
  let n1 := n / 365
  let n := n % 365
  let year := n400 * 400 + 1 + n100 * 100 + n4 * 4 + n1
  if n1 = 4 ∨ n100 = 4 then (year - 1, 12, 31)
  else
    let md := monthDay (n1 == 3 && (n4 != 24 || n100 == 3)) n
    (year, md.1, md.2)

/-- a decimal digit as a character -/
def digitChar (n : Nat) : Char :=
  (['0', '1', '2', '3', '4', '5', '6', '7', '8', '9'][n % 10]?).getD '0'

/-- the value of a digit character -/
def digitVal (c : Char) : Option Nat :=
  match c with
  | '0' => some 0 | '1' => some 1 | '2' => some 2 | '3' => some 3 | '4' => some 4
  | '5' => some 5 | '6' => some 6 | '7' => some 7 | '8' => some 8 | '9' => some 9
  | _ => none

/-- two digits, zero padded -/
def pad2 (n : Nat) : List Char := [digitChar (n / 10), digitChar n]

/-- `%Y` of strftime: not padded (glibc) -/
def yearChars (y : Nat) : List Char :=
  if y < 10 then [digitChar y]
  else if y < 100 then pad2 y
  else if y < 1000 then digitChar (y / 100) :: pad2 y
  else digitChar (y / 1000) :: digitChar (y / 100) :: pad2 y

/-- bathygrid/utilities.py:410-425 `utc_seconds_to_formatted_string`; ValueError outside the years 1 to 9999 -/
def utcToString (t : Int) : Except Err String :=
  let ord := t / 86400 + 719163
  let s := (t % 86400).toNat
  if 1 ≤ ord ∧ ord ≤ 3652059 then
    let ymd := ord2ymd ord.toNat
    .ok (String.ofList (yearChars ymd.1 ++ '-' :: pad2 ymd.2.1 ++ '-' :: pad2 ymd.2.2 ++ 'T' :: pad2 (s / 3600) ++ ':' :: pad2 (s % 3600 / 60) ++
      ':' :: pad2 (s % 60)))
  else .error .valueError

/-- the date fields given to the `datetime` constructor by strptime, and the seconds since 1970 -/
def dateToUtc (y mo d h mi s : Nat) : Except Err Int :=
  if 1 ≤ y ∧ 1 ≤ mo ∧ mo ≤ 12 ∧ 1 ≤ d ∧ d ≤ daysInMonth (isLeap y) mo ∧ h < 24 ∧ mi < 60 ∧ s < 60 then
    .ok (((ymd2ord y mo d : Int) - 719163) * 86400 + (h * 3600 + mi * 60 + s : Nat))
  else .error .valueError

/-- a number with two digits -/
def num2 (a b : Char) : Option Nat := do (← digitVal a) * 10 + (← digitVal b)

/-- the characters before the first separator, and the ones after it -/
def dateField (sep : Char → Bool) (s : List Char) : Option (List Char × List Char) :=
  match s.dropWhile (fun c => !sep c) with
  | [] => none
  | _ :: rest => some (s.takeWhile (fun c => !sep c), rest)

/-- `%Y` of strptime: four digits -/
def year4 : List Char → Option Nat
  | [a, b, c, d] => do (← num2 a b) * 100 + (← num2 c d)
  | _ => none

/-- `%m`, `%H`, `%M` and `%S` of strptime: one or two digits -/
def num12 : List Char → Option Nat
  | [a] => digitVal a
  | [a, b] => num2 a b
  | _ => none

/-- `%d` of strptime: one or two digits, or a space and a digit -/
def dayNum : List Char → Option Nat
  | [' ', b] => digitVal b
  | l => num12 l

/-- the six numbers of a date written as `%Y-%m-%dT%H:%M:%S`; strptime ignores the case of the `T` -/
def dateFields (s : List Char) : Option (Nat × Nat × Nat × Nat × Nat × Nat) := do
  let (y, s) ← dateField (· == '-') s
  let (mo, s) ← dateField (· == '-') s
  let (d, s) ← dateField (fun c => c == 'T' || c == 't') s
  let (h, s) ← dateField (· == ':') s
  let (mi, s) ← dateField (· == ':') s
  some (← year4 y, ← num12 mo, ← dayNum d, ← num12 h, ← num12 mi, ← num12 s)

/-- bathygrid/utilities.py:428-443 `formatted_string_to_utc_seconds`.  The pattern is the one of CPython's `_strptime`: numbers out of range
are refused there or by the `datetime` constructor, both with ValueError.  Simplification: the digits are `0` to `9` (strptime also takes
the digits of other scripts). -/
def stringToUtc (str : String) : Except Err Int :=
  match dateFields str.toList with
  | some (y, mo, d, h, mi, s) => dateToUtc y mo d h mi s
  | none => .error .valueError

end Bathy
