import Verif.Model.BagXml
import Verif.Model.ExportPath

/-!
# What is handed over with a BAG besides the layers

The creation options of `_export_bag` (bathygrid/bgrid.py:2340-2358), the registration file written next to a BAG (bathygrid/bgrid.py:2067-2094) and the search for
the vertical reference in a BAG (bathygrid/utilities.py:447-467).  Texts are lists of characters.  gdal, h5py, pyproj and the parsing and printing of xml are not modelled.
-/

namespace Bathy

/-- `text.replace(old, new)` for a text `old` that is not empty: from the left, no overlaps; an empty `old` is not used by the code and leaves the text as it is here.
The first argument bounds the number of steps; the length of the text is enough. -/
def replaceFrom (old new : List Char) : Nat → List Char → List Char
  | 0, s => s
  | _ + 1, [] => []
  | n + 1, c :: s => if old ≠ [] ∧ old <+: c :: s then new ++ replaceFrom old new n ((c :: s).drop old.length) else c :: replaceFrom old new n s

/-- `text.replace(old, new)` -/
def replaceAll (old new s : List Char) : List Char := replaceFrom old new s.length s

/-- the texts of bathygrid/bgrid.py:2348: what is looked for in a WKT2 and what is put in its place.  The second text has no quotation mark behind `(H)`. -/
def wkt2Down : List Char := "\"depth (D)\",down".toList
def wkt2Up : List Char := "\"gravity-related height (H),up".toList

/-- the texts of bathygrid/bgrid.py:2349 -/
def wkt1Down : List Char := "\"Depth\",DOWN".toList
def wkt1Up : List Char := "\"Gravity-related height\",UP".toList

/-- the arguments of `_export_bag` that become options (bathygrid/bgrid.py:2317-2321) -/
structure BagArgs where
  individual : List Char := "unknown".toList
  organisation : List Char := "unknown".toList
  position : List Char := "unknown".toList
  date : List Char := []
  vertCrs : List Char := []
  abstract : List Char := []
  process : List Char := []
  datetime : List Char := []
  restriction : List Char := "otherRestrictions".toList
  constraints : List Char := "unknown".toList
  classification : List Char := "unclassified".toList
  note : List Char := "none".toList

/-- the clock and the version at the time of the call (bathygrid/bgrid.py:2341, 2343, 2345) -/
structure BagNow where
  date : List Char
  datetime : List Char
  gdal : List Char

/-- bathygrid/bgrid.py:2347 -/
def unknownVertical : List Char := "VERT_CS[\"unknown\", VERT_DATUM[\"unknown\", 2000]]".toList

/-- `if not value: value = other` -/
def orElse (value other : List Char) : List Char := if value = [] then other else value

/-- bathygrid/bgrid.py:2346-2349: the replaced texts of lines 2348 and 2349 are not assigned, strings of python do not change, so the two lines have no effect -/
def vertText (vertCrs : List Char) : List Char :=
  let v := orElse vertCrs unknownVertical
  let _ := replaceAll wkt2Down wkt2Up v
  let _ := replaceAll wkt1Down wkt1Up v
  v

/-- `bag_options` (bathygrid/bgrid.py:2340-2358), as pairs of the name and the text behind `=` -/
def bagOptions (now : BagNow) (a : BagArgs) : List (String × List Char) :=
  [("VAR_INDIVIDUAL_NAME", a.individual), ("VAR_ORGANISATION_NAME", a.organisation), ("VAR_POSITION_NAME", a.position), ("VAR_DATE", orElse a.date now.date),
    ("VAR_VERT_WKT", vertText a.vertCrs), ("VAR_ABSTRACT", a.abstract), ("VAR_PROCESS_STEP_DESCRIPTION", orElse a.process ("Generated By GDAL ".toList ++ now.gdal)),
    ("VAR_DATETIME", orElse a.datetime now.datetime), ("VAR_RESTRICTION_CODE", a.restriction), ("VAR_OTHER_CONSTRAINTS", a.constraints),
    ("VAR_CLASSIFICATION", a.classification), ("VAR_SECURITY_USER_NOTE", a.note)]

/-- `rxl_path` (bathygrid/bgrid.py:2084) -/
def rxlName (resfile : Path) : Path := (splitExt resfile).1 ++ ".bag_rxl".toList

/-- the document of bathygrid/bgrid.py:2085-2089 -/
def rxlDoc (wkt : String) : Xml :=
  .node "caris_registration" [("version", "4.0"), ("generation", "USER")] none [.node "coordinate_system" [] none [Xml.leaf "wkt" wkt]]

/-- `_generate_caris_rxl` (bathygrid/bgrid.py:2067-2094): path and document of the file written, when one is written.  Printing of the document is not modelled. -/
def rxlFile (there : Bool) (resfile : Path) (wkt : String) : Option (Path × Xml) :=
  if there ∧ wkt ≠ "" then some (rxlName resfile, rxlDoc wkt) else none

/-- bathygrid/utilities.py:453 -/
def gco : String := "{http://www.isotc211.org/2005/gco}"

/-- `crs_hierarchy` (bathygrid/utilities.py:456-457) -/
def crsHierarchy : List String :=
  [Xml.gmd ++ "referenceSystemInfo", Xml.gmd ++ "MD_ReferenceSystem", Xml.gmd ++ "referenceSystemIdentifier", Xml.gmd ++ "RS_Identifier", Xml.gmd ++ "code", gco ++ "CharacterString"]

/-- the loop of bathygrid/utilities.py:463-467; `vertical` is `CRS.from_wkt(text).is_vertical` or what it raises -/
def firstVertical (vertical : Option String → Except Err Bool) : List Xml → Except Err (Option String)
  | [] => .error .valueError
  | e :: es => match vertical e.text with
    | .error err => .error err
    | .ok true => .ok e.text
    | .ok false => firstVertical vertical es

/-- `return_bag_vertical_wkt` (bathygrid/utilities.py:447-467) for the document of the BAG; `none` when there is no file: the function returns `None` without a word -/
def bagVertical (vertical : Option String → Except Err Bool) : Option Xml → Except Err (Option String)
  | none => .ok none
  | some root =>
    let es := Xml.findAll crsHierarchy root
    if es.length = 2 then firstVertical vertical es else .error .valueError

end Bathy
