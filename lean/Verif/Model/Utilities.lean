import Verif.Basic.Np

/-!
# bathygrid/utilities.py — numeric helpers
-/

namespace Bathy

/-- python `round(v)` to an integer, half to even. -/
def pyRound (v : ℚ) : Int :=
  let f := ⌊v⌋
  let d := v - f
  if d < 1/2 then f else if 1/2 < d then f + 1 else if f % 2 = 0 then f else f + 1

/-- bathygrid/utilities.py:118-122, the branch for `n > 1`: reject a fractional part above 1e-5, then the bit test on `int(n)`.
The argument is exact (no float rounding). -/
def isPowerOfTwoBig (n : ℚ) : Bool :=
  if |n - (⌊n⌋ : ℚ)| > 1/100000 then false
  else
    let m := ⌊n⌋.toNat
    (m != 0) && ((m &&& (m - 1)) == 0)

/-- bathygrid/utilities.py:103-133 `is_power_of_two`.
For `0 < n < 1` the code recurses on `1/n` (rounded to an integer if within 1e-10).  That argument is at least 1, so the
recursive call ends in one of the first two branches; the model inlines it (simplification: no general recursion). -/
def isPowerOfTwo (n : ℚ) : Bool :=
  if n > 1 then isPowerOfTwoBig n
  else if n = 1 then true
  else if n > 0 then
    let invnum := 1 / n
    let invnum := if |(pyRound invnum : ℚ) - invnum| < 1/10000000000 then (pyRound invnum : ℚ) else invnum
    if invnum > 1 then isPowerOfTwoBig invnum else decide (invnum = 1)
  else false

/-- bathygrid/utilities.py:187, one entry of the fancy index `base_indices[total_y_idx, total_x_idx]` where
`base_indices = arange(nx*ny).reshape(ny, nx)`; `none` is IndexError. -/
def baseIndex (nx ny : Nat) (yi xi : Int) : Option Nat :=
  match wrapIdx yi ny, wrapIdx xi nx with
  | some r, some c => some (r * nx + c)
  | _, _ => none

/-- bathygrid/utilities.py:136-187 `bin2d_with_indices`.  `xdata`, `ydata` are the lists of partitions (a numpy array is one
partition).  Simplification: if the two concatenated index arrays differ in length the model raises IndexError, numpy would
broadcast when one of them has length one. -/
def bin2d (xdata ydata : List (List ℚ)) (xEdges yEdges : List ℚ) : Except Err (List Nat) :=
  if xEdges.length = 2 ∧ yEdges.length = 2 then
    .ok (List.replicate xdata.flatten.length 0)
  else
    let nx := xEdges.length - 1
    let ny := yEdges.length - 1
    let pairs := xdata.zip ydata
    let totalX := (pairs.map (fun p => p.1.map (fun v => (searchsortedRight xEdges v : Int) - 1))).flatten
    let totalY := (pairs.map (fun p => p.2.map (fun v => (searchsortedRight yEdges v : Int) - 1))).flatten
    if totalX.length = totalY.length then
      match (totalY.zip totalX).mapM (fun p => baseIndex nx ny p.1 p.2) with
      | some l => .ok l
      | none => .error .indexError
    else .error .indexError

end Bathy
