import Verif.Model.FloatMean
import Verif.Spec.Cells
import Mathlib.Data.Int.Log
import Mathlib.Algebra.Order.Field.Power

/-!
# What is assumed of floating point arithmetic, and how far a gridded depth may be off
-/

namespace Bathy

/-- the standard model of floating point arithmetic: a result up to `Ω` is off by at most the part `u` of it, plus `η` for results too small to be stored with all
digits (binary64, to nearest: `u = 2^-53`, `η = 2^-1075`, `Ω` a little below `2^1024`; binary32: `2^-24`, `2^-150`, `2^128`) -/
structure StdRound (u η Ω : ℚ) (rnd : ℚ → ℚ) : Prop where
  u_nonneg : 0 ≤ u
  η_nonneg : 0 ≤ η
  err : ∀ x, |x| ≤ Ω → |rnd x - x| ≤ u * |x| + η

/-- a floating point format -/
structure Fmt where
  u : ℚ
  η : ℚ
  Ω : ℚ

/-- binary64, to nearest -/
def fmt64 (η Ω : ℚ) : Fmt := ⟨1 / 2 ^ 53, η, Ω⟩

/-- binary32, to nearest -/
def fmt32 (η Ω : ℚ) : Fmt := ⟨1 / 2 ^ 24, η, Ω⟩

/-- the soundings are added up in the format `cf`, the layers are stored in the format `sf` -/
structure Machine (cf sf : Fmt) (A : Arith) : Prop where
  calcs : StdRound cf.u cf.η cf.Ω A.rnd
  stores : StdRound sf.u sf.η sf.Ω A.sto

/-- nothing calculated from `n` values up to `Z` is too large to be stored -/
def Room (cf sf : Fmt) (n : Nat) (Z : ℚ) : Prop :=
  (1 + cf.u) ^ n * (n * (Z + 2 * cf.η)) ≤ cf.Ω ∧ 1000 * ((1 + sf.u) ^ 2 * ((1 + cf.u) ^ n * (Z + 2 * cf.η) + sf.η)) + sf.η + 1 ≤ sf.Ω

/-- how far a value up to `B` may be off after it has been put into a layer and the layer has been rounded to 3 decimals: half a millimetre, and the error of three roundings -/
def roundError (sf : Fmt) (B : ℚ) : ℚ := (1 + sf.u) ^ 3 * (B + sf.η) - B + ((1 + sf.u) * ((sf.η + 1 / 2) / 1000) + sf.η)

/-- how far the rounded mean of `n` values may be off, if the mean of their absolute values is `M` -/
def meanError (cf sf : Fmt) (n : Nat) (M : ℚ) : ℚ := (1 + cf.u) ^ n * (M + 2 * cf.η) - M + roundError sf ((1 + cf.u) ^ n * (M + 2 * cf.η))

/-- a number with 3 decimals, as it is stored -/
def ThreeDecimals (sto : ℚ → ℚ) (w : ℚ) : Prop := ∃ k : Int, w = sto ((k : ℚ) / 1000)

/-- empty cells are NaN, the value of the others has 3 decimals and is at most `meanError` away from the mean of `f` -/
def NearMeanCell (sto : ℚ → ℚ) (cf sf : Fmt) (f : Pt → ℚ) (ps : List Pt) (v : Option ℚ) : Prop :=
  (ps = [] → v = none) ∧
  (ps ≠ [] → ∃ w, v = some w ∧ ThreeDecimals sto w ∧ |w - meanOf (ps.map f)| ≤ meanError cf sf ps.length (meanOf (ps.map (fun p => |f p|))))

/-- empty cells are NaN, the value of the others is at most half a millimetre, and the error of three roundings, away from the least depth -/
def NearShoalCell (sto : ℚ → ℚ) (sf : Fmt) (ps : List Pt) (v : Option ℚ) : Prop :=
  (ps = [] → v = none) ∧ (ps ≠ [] → ∃ m w, IsMin m (ps.map Pt.z) ∧ v = some w ∧ ThreeDecimals sto w ∧ |w - m| ≤ roundError sf |m|)

/-- rounding to the nearest number with `p` binary digits, the even one of two (IEEE 754 without limits of the exponent) -/
def nearestEven (p : Nat) (x : ℚ) : ℚ :=
  let e : ℤ := Int.log 2 |x| - p + 1
  (Arith.rint (x / 2 ^ e) : ℚ) * 2 ^ e

/-- one after the other, as numpy does for fewer than 8 values -/
def leftToRight : Nat → SumTree
  | 0 => .leaf 0
  | n + 1 => .node (leftToRight n) (.leaf (n + 1))

end Bathy
