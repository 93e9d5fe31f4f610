import Verif.Model.Data
import Verif.Model.Time

/-!
# Metadata of a BathyGrid (bathygrid/bgrid.py:345-401)
-/

namespace Bathy

/-- `sub in s` on characters -/
def hasSub (sub : List Char) : List Char → Bool
  | [] => sub.isEmpty
  | c :: cs => sub.isPrefixOf (c :: cs) || hasSub sub cs

/-- `s.find(sub) != -1` -/
def contains (s sub : String) : Bool := hasSub sub.toList s.toList

/-- the `crs` argument of `add_points`: an epsg code (int, or a numeric string) or any other string (proj4) -/
inductive Crs
  | code (n : Int)
  | text (s : String)
  deriving DecidableEq, Repr

/-- python truth value of the argument -/
def Crs.truthy : Option Crs → Bool
  | none => false
  | some (.code n) => n ≠ 0
  | some (.text s) => s ≠ ""

/-- `int(epsg)` -/
def Crs.toInt : Option Crs → Except Err Int
  | some (.code n) => .ok n
  | some (.text _) => .error .valueError
  | none => .error .typeError

/-- optional arguments of `add_points` (bathygrid/bgrid.py:665-667) -/
structure AddArgs where
  files : List String := []
  crs : Option Crs := none
  vref : Option String := none
  minTime : Option ℚ := none
  maxTime : Option ℚ := none
  deriving DecidableEq

/-- metadata attributes of a BathyGrid.  `none` is python `None`, and for the times the empty string.
Simplification: `container_timestamp` (the wall clock time of the add) is left out, it always has the keys of `container`. -/
structure Meta where
  epsg : Option Int := none
  vref : Option String := none
  minTime : Option String := none
  maxTime : Option String := none
  container : Dict String (List String) := []
  deriving DecidableEq

/-- python `int(x)` of a float: towards zero -/
def pyInt (q : ℚ) : Int := if 0 ≤ q then ⌊q⌋ else ⌈q⌉

namespace Meta

/-- bathygrid/bgrid.py:368-373: the coordinate system -/
def updateEpsg (m : Meta) (crs : Option Crs) : Res Meta :=
  if Crs.truthy crs then
    match m.epsg with
    | some e =>
      if e ≠ 0 then
        match Crs.toInt crs with
        | .error x => .fail m x
        | .ok n => if e ≠ n then .fail m .valueError else .ok { m with epsg := some n }
      else
        match Crs.toInt crs with
        | .error x => .fail m x
        | .ok n => .ok { m with epsg := some n }
    | none =>
      match Crs.toInt crs with
      | .error x => .fail m x
      | .ok n => .ok { m with epsg := some n }
  else .ok m

/-- bathygrid/bgrid.py:374-377: the check of the vertical reference (`None.find` is an AttributeError) -/
def checkVref (m : Meta) (vref : Option String) : Option Err :=
  match m.vref with
  | none => none
  | some v =>
    if v ≠ "" ∧ vref ≠ some v then
      if contains v "MLLW" then
        match vref with
        | none => some .attributeError
        | some w => if contains w "MLLW" then none else some .valueError
      else some .valueError
    else none

/-- bathygrid/bgrid.py:378-391: the new least or greatest time; `better a b` is `min` or `max` -/
def mergeTime (better : Int → Int → Int) (old : Option String) (new : Option ℚ) : Except Err (Option String) :=
  match new with
  | none => .ok old
  | some q =>
    if q = 0 then .ok old
    else
      match old with
      | some s =>
        match stringToUtc s with
        | .error e => .error e
        | .ok t => (utcToString (better t (pyInt q))).map some
      | none => (utcToString (pyInt q)).map some

/-- bathygrid/bgrid.py:345-401 `_update_metadata` -/
def update (m : Meta) (c : String) (a : AddArgs) : Res Meta :=
  (updateEpsg m a.crs).andThen (fun m =>
    match checkVref m a.vref with
    | some e => .fail m e
    | none =>
      match mergeTime min m.minTime a.minTime with
      | .error e => .fail m e
      | .ok t0 =>
        let m := { m with minTime := t0 }
        match mergeTime max m.maxTime a.maxTime with
        | .error e => .fail m e
        | .ok t1 =>
          .ok { m with maxTime := t1, container := m.container.set c (if a.files = [] then ["Unknown"] else a.files), vref := a.vref })

end Meta
end Bathy
