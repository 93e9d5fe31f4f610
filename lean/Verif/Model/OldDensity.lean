import Verif.Model.Tile

/-!
# The older density search (bathygrid/tile.py:543-626)
-/

namespace Bathy

/-- the answer of `_assess_resolution`: `(True, '')`, `(False, 'LOW')`, `(False, 'HIGH')` -/
inductive Assessed
  | good | low | high
  deriving DecidableEq

namespace Tile

/-- bathygrid/tile.py:563-578: the decision from the numbers of points in the cells that have points -/
def assessCounts (counts : List Nat) : Assessed :=
  if counts.any (fun c => decide (c < 5)) then .low
  else if counts.all (fun c => decide (c > 5 * 4)) then .high
  else .good

/-- bathygrid/tile.py:543-578 `_assess_resolution`; a tile without points has no array to index (TypeError) -/
def assessResolution (t : Tile) (res : ℚ) : Except Err Assessed :=
  match t.data with
  | none => .error .typeError
  | some d => (cellCounts t d res).map (fun uc => assessCounts (uc.map Prod.snd))

/-- bathygrid/tile.py:606-626: the loop, at most `fuel` rounds; `none` if it did not stop by then -/
def searchLoop (assess : ℚ → Except Err Assessed) (options : List ℚ) : Nat → List ℚ → ℚ → Option (Except Err ℚ)
  | 0, _, _ => none
  | fuel + 1, checked, cur =>
    match assess cur with
    | .error e => some (.error e)
    | .ok a =>
      let checked := checked ++ [cur]
      let i := options.idxOf cur
      if i = options.length then some (.error .valueError)
      else if a = .good ∨ (i = 0 ∧ a = .high) ∨ (i = options.length - 1 ∧ a = .low) then some (.ok cur)
      else
        let next := match a with
          | .high => (options[i - 1]?).getD 0
          | .low => (options[i + 1]?).getD 0
          | .good => cur
        if next ∈ checked then some (.ok (max next cur))
        else searchLoop assess options fuel checked next

/-- bathygrid/tile.py:580-626 `resolution_by_density_old`; a starting resolution of 0 is taken as missing -/
def resolutionByDensityOld (t : Tile) (starting : Option ℚ) (fuel : Nat) : Option (Except Err ℚ) :=
  let options := lookupTable.map Prod.snd
  let start : Except Err ℚ :=
    match starting with
    | none => .ok 16
    | some s => if s = 0 then .ok 16 else if s ∈ options then .ok s else .error .valueError
  match start with
  | .error e => some (.error e)
  | .ok s => searchLoop t.assessResolution options fuel [] s

end Tile
end Bathy
