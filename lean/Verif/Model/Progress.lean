import Verif.Model.GridRun

/-!
# the progress bar (bathygrid/utilities.py:190-232, bathygrid/bgrid.py:643-647, 739-743, 1305-1310)
-/

namespace Bathy

/-- what one call of `print_progress_bar` prints: the filled and the empty characters of the bar, the percentage in tenths, and whether a line break
follows -/
structure Bar where
  filled : Nat
  empty : Nat
  tenths : Int
  newline : Bool
deriving DecidableEq, Repr

/-- `'{0:.1f}'.format(v)` as a number of tenths: round half to even (bathygrid/utilities.py:225, `decimals=1`).
Simplification: the percentage is the exact quotient -/
def tenthsOf (v : ℚ) : Int :=
  let s := v * 10
  let f := ⌊s⌋
  let d := s - f
  if d < 1/2 then f else if 1/2 < d then f + 1 else if f % 2 = 0 then f else f + 1

/-- bathygrid/utilities.py:190-232 `print_progress_bar`; `none` is ZeroDivisionError.  A negative number of repetitions of a string gives the empty
string, like the subtraction of natural numbers. -/
def progressBar (iteration total length : Nat) : Option Bar :=
  if total = 0 then none
  else
    let filled := length * iteration / total
    some { filled := filled, empty := length - filled, tenths := tenthsOf (100 * ((iteration : ℚ) / (total : ℚ))), newline := decide (iteration = total) }

/-- the bars of a loop over `n` things: one before the loop, and one at the start of each round (bathygrid/bgrid.py:643-647, 739-743, 1305-1310,
bathygrid/backends.py:260-270), `length=70` -/
def loopBars (n : Nat) : List (Option Bar) := progressBar 0 n 70 :: (List.range n).map (fun cnt : Nat => progressBar (cnt + 1) n 70)

namespace Grid

variable {τ : Type}

/-- bathygrid/bgrid.py:640-647: the number of rounds of the loop of `add_points`; `none` if the loop is not reached -/
def addRounds (g : Grid τ) (d : PtArr) (c : String) (a : AddArgs) : Option Nat :=
  if g.info.container.has c then none
  else
    let r := g.info.update c a
    match r.err with
    | some _ => none
    | none =>
      let b := (updateBase { g with info := r.st } d.pts).andThen placeTiles
      match b.err with
      | some _ => none
      | none =>
        match bin2d [d.pts.map Pt.x] [d.pts.map Pt.y] b.st.edgesX b.st.edgesY with
        | .error _ => none
        | .ok bins => some (npUnique bins).length

/-- bathygrid/bgrid.py:735-743: the number of rounds of the loop of `remove_points`; `none` if the loop is not reached -/
def removeRounds (g : Grid τ) (c : String) : Option Nat :=
  if g.info.container.has c && !g.isEmpty then some g.slots else none

/-- bathygrid/bgrid.py:1493-1521, 1305-1310: the number of rounds of the loop of `grid` in one process; `none` if the loop is not reached -/
def gridRounds [GridLike τ] (env : Env) (g : Grid τ) (a : GridCall) : Option Nat :=
  match (gridPlan env g a).1.err with
  | some _ => none
  | none => some (gridPlan env g a).1.st.slots

end Grid

end Bathy
