import Mathlib.Logic.Function.Iterate

/-!
# the civil calendar, second by second

Written without the day numbers of the model: a clock that ticks, started at 1970-01-01T00:00:00.
-/

namespace Bathy

/-- a date and a time of the day -/
structure Clock where
  y : Nat
  mo : Nat
  d : Nat
  h : Nat
  mi : Nat
  s : Nat
deriving DecidableEq, Repr

/-- a leap year of the Gregorian calendar -/
def LeapYear (y : Nat) : Prop := 4 ∣ y ∧ (100 ∣ y → 400 ∣ y)

instance (y : Nat) : Decidable (LeapYear y) := inferInstanceAs (Decidable (_ ∧ _))

/-- thirty days have April, June, September and November -/
def monthLength (y mo : Nat) : Nat :=
  if mo = 2 then (if LeapYear y then 29 else 28)
  else if mo = 4 ∨ mo = 6 ∨ mo = 9 ∨ mo = 11 then 30 else 31

/-- the day after a day -/
def nextDay (y mo d : Nat) : Nat × Nat × Nat :=
  if d < monthLength y mo then (y, mo, d + 1)
  else if mo < 12 then (y, mo + 1, 1)
  else (y + 1, 1, 1)

/-- the second after a second -/
def Clock.tick (c : Clock) : Clock :=
  if c.s < 59 then { c with s := c.s + 1 }
  else if c.mi < 59 then { c with mi := c.mi + 1, s := 0 }
  else if c.h < 23 then { c with h := c.h + 1, mi := 0, s := 0 }
  else ⟨(nextDay c.y c.mo c.d).1, (nextDay c.y c.mo c.d).2.1, (nextDay c.y c.mo c.d).2.2, 0, 0, 0⟩

/-- a date of the calendar -/
structure Clock.Valid (c : Clock) : Prop where
  y1 : 1 ≤ c.y
  mo1 : 1 ≤ c.mo
  mo2 : c.mo ≤ 12
  d1 : 1 ≤ c.d
  d2 : c.d ≤ monthLength c.y c.mo
  h2 : c.h < 24
  mi2 : c.mi < 60
  s2 : c.s < 60

/-- 1970-01-01T00:00:00 -/
def epoch : Clock := ⟨1970, 1, 1, 0, 0, 0⟩

/-- what the clock shows `t` seconds after the epoch, or `-t` seconds before it -/
def ShowsAt (t : Int) (c : Clock) : Prop :=
  (0 ≤ t ∧ Clock.tick^[t.toNat] epoch = c) ∨ (t < 0 ∧ Clock.tick^[(-t).toNat] c = epoch)

/-- the decimal digits of a number, in a field of a fixed width -/
def fieldDigits : Nat → Nat → List Char
  | 0, _ => []
  | w + 1, n => fieldDigits w (n / 10) ++ [Char.ofNat (48 + n % 10)]

/-- the year in `w` digits, all else in two -/
def clockText (w : Nat) (c : Clock) : String :=
  String.ofList (fieldDigits w c.y ++ '-' :: fieldDigits 2 c.mo ++ '-' :: fieldDigits 2 c.d ++ 'T' :: fieldDigits 2 c.h ++ ':' :: fieldDigits 2 c.mi ++
    ':' :: fieldDigits 2 c.s)

/-- the ways a number below 100 may be written: in two digits, or in one -/
def Digits12 (n : Nat) (l : List Char) : Prop := (n < 100 ∧ l = fieldDigits 2 n) ∨ (n < 10 ∧ l = fieldDigits 1 n)

/-- a text for a date: the year in four digits, the others in one or two, the day also behind a space, `T` or `t` before the time -/
def TextOf (c : Clock) (str : String) : Prop :=
  ∃ mo d h mi s : List Char, ∃ T : Char, c.y ≤ 9999 ∧ Digits12 c.mo mo ∧ (Digits12 c.d d ∨ (c.d < 10 ∧ d = ' ' :: fieldDigits 1 c.d)) ∧
    Digits12 c.h h ∧ Digits12 c.mi mi ∧ Digits12 c.s s ∧ (T = 'T' ∨ T = 't') ∧
    str = String.ofList (fieldDigits 4 c.y ++ '-' :: mo ++ '-' :: d ++ T :: h ++ ':' :: mi ++ ':' :: s)

end Bathy
