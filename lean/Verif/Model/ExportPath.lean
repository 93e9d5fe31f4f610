import Verif.Model.Csv
import Verif.Model.Export
import Mathlib.Data.Nat.Digits.Defs

/-!
# The export call: format, file names (bathygrid/bgrid.py:2192-2229, 2246, 2251, 2293, 2311, 2362, 2376)

Paths are lists of characters, as on a posix system.
-/

namespace Bathy

abbrev Path := List Char

/-- the part of a path up to and with the last `/` -/
def dirPart (p : Path) : Path := (p.reverse.dropWhile (fun c => c != '/')).reverse

/-- the part of a path after the last `/` -/
def filePart (p : Path) : Path := (p.reverse.takeWhile (fun c => c != '/')).reverse

/-- `head.rstrip('/')` -/
def rstripSlash (p : Path) : Path := (p.reverse.dropWhile (fun c => c == '/')).reverse

/-- `os.path.split` (posixpath): the slashes at the end of the head are removed unless it has nothing else -/
def pathSplit (p : Path) : Path × Path :=
  let h := dirPart p
  (if h.all (fun c => c == '/') then h else rstripSlash h, filePart p)

/-- `os.path.join` (posixpath) of two parts -/
def pathJoin (a b : Path) : Path :=
  if b.head? = some '/' then b else if a = [] ∨ a.getLast? = some '/' then a ++ b else a ++ '/' :: b

/-- `os.path.splitext`: the extension begins with the last dot of the file name, dots at its beginning do not count -/
def splitExt (p : Path) : Path × Path :=
  let f := filePart p
  let stem := ((f.reverse.dropWhile (fun c => c != '.')).drop 1).reverse
  if f.contains '.' && !stem.all (fun c => c == '.') then (dirPart p ++ stem, '.' :: (f.reverse.takeWhile (fun c => c != '.')).reverse) else (p, [])

/-- `str(k)` -/
def decimal (k : Nat) : List Char := if k = 0 then ['0'] else ((Nat.digits 10 k).reverse.map Nat.digitChar)

/-- bathygrid/bgrid.py:2251 -/
def csvName (base : Path) (res : List Char) : Path := base ++ '_' :: res ++ ".csv".toList

/-- the extension of the format -/
def RasterKind.ext : RasterKind → List Char
  | .geotiff => ".tif".toList
  | .bag => ".bag".toList

/-- bathygrid/bgrid.py:2311, 2376 -/
def rasterName (kind : RasterKind) (base : Path) (res : List Char) (number : Nat) : Path := base ++ '_' :: res ++ '_' :: decimal number ++ kind.ext

/-- bathygrid/bgrid.py:2215-2219: a path that is taken gets the time (`%Y%m%d_%H%M%S`) into its name -/
def exportPath (taken : Path → Bool) (stamp : List Char) (path : Path) : Path :=
  if taken path then
    let s := pathSplit path
    let e := splitExt s.2
    pathJoin s.1 (e.1 ++ '_' :: stamp ++ e.2)
  else path

/-- what is written -/
inductive ExportFile
  | csv (f : CsvFile)
  | raster (f : RasterFile)
  deriving DecidableEq

/-- bathygrid/bgrid.py:2192-2229 `export`: the grid, the files in the order they are written, and what was raised.  `taken` tells which paths exist,
`stamp` is the time of the call, `fmt` is `'{}'.format` of a resolution.  Simplification: `lower()` for ASCII letters. -/
def Grid.export {τ : Type} [LayerLike τ] [NamesLike τ] [LayerNames τ] (env : Env) (taken : Path → Bool) (stamp : List Char) (fmt : ℚ → List Char) (g : Grid τ) (path : Path) (format : List Char)
    (zUp : Bool) (res : Option ℚ) (override : Option ℚ) : Grid τ × List (Path × ExportFile) × Option Err :=
  let f := format.map Char.toLower
  let base := (splitExt (exportPath taken stamp path)).1
  let raster := fun (kind : RasterKind) =>
    let out := g.exportRaster env kind zUp res override
    (out.1, out.2.1.map (fun r => (rasterName kind base (fmt r.res) r.number, ExportFile.raster r)), out.2.2)
  if f = "csv".toList then
    let out := g.exportCsv env zUp res
    (out.1, out.2.1.map (fun r => (csvName base (fmt r.1), ExportFile.csv r.2)), out.2.2)
  else if f = "geotiff".toList then raster .geotiff
  else if f = "bag".toList then
    if g.isBackscatter then (g, [], some .valueError) else raster .bag
  else (g, [], some .valueError)

end Bathy
