import Verif.Model.Containers

/-!
# The printed description of a grid
-/

namespace Bathy

/-- how python writes values: the version, `str` of a list of resolutions, `str` of a float, `str` of a float rounded to three digits; the name that pyproj knows for an EPSG code -/
structure ReprStyle where
  version : String
  list : List ℚ → String
  num : ℚ → String
  rounded : ℚ → String
  crsName : Int → Option String

/-- `str` of a truth value -/
def reprBool (b : Bool) : String := if b then "True" else "False"

/-- `str` of an attribute that may be `None` -/
def reprNum (f : ReprStyle) : Option ℚ → String
  | none => "None"
  | some q => f.num q

namespace Grid
variable {τ : Type}

/-- bathygrid/bgrid.py:62-86 `BathyGrid.__repr__`, line by line.  Reading the extents (lines 74-85) never raises: they are `None` before there are any, and that is what is
printed. -/
def reprBase (f : ReprStyle) (g : Grid τ) : List String :=
  ["Bathygrid Version: " ++ f.version, "Resolutions (meters): " ++ f.list g.resolutions, "Containers:"] ++ g.uniqueContainerEntries.map (" - " ++ ·) ++
  ["Backscatter Mosaic: " ++ reprBool g.isBackscatter,
   if g.isBackscatter then "Mean Intensity: " ++ f.num g.meanDepth else "Mean Depth: " ++ f.rounded g.meanDepth,
   "Minimum Northing: " ++ reprNum f (g.extents.map Extents.minY) ++ " Maximum Northing: " ++ reprNum f (g.extents.map Extents.maxY),
   "Minimum Easting: " ++ reprNum f (g.extents.map Extents.minX) ++ " Maximum Easting: " ++ reprNum f (g.extents.map Extents.maxX)]

/-- bathygrid/bgrid.py:2103-2113 `OperationalGrid.__repr__`.  `int(None)` raises TypeError and an unknown code raises CRSError; both give 'Unknown'. -/
def reprLines (f : ReprStyle) (folder : String) (g : Grid τ) : List String :=
  ["Time of Data (UTC): " ++ g.info.minTime.getD "" ++ " to " ++ g.info.maxTime.getD "",
   "EPSG: " ++ (match g.info.epsg with | none => "None" | some n => toString n) ++ " (" ++ ((g.info.epsg.bind f.crsName).getD "Unknown") ++ ")",
   "Path: " ++ folder] ++ g.reprBase f

/-- bathygrid/bgrid.py:1735-1745 `return_extents`; `None` for extents that are not known yet -/
def returnExtents (g : Grid τ) : (Option ℚ × Option ℚ) × (Option ℚ × Option ℚ) :=
  ((g.extents.map Extents.minX, g.extents.map Extents.minY), (g.extents.map Extents.maxX, g.extents.map Extents.maxY))

end Grid
end Bathy
