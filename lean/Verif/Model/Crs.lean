import Verif.Basic.Py

/-!
# coordinate systems for GDAL (bathygrid/utilities.py:235-294)

pyproj and GDAL are not modelled: what they make of a text or of an EPSG code are functions that are given.
-/

namespace Bathy

/-- what pyproj and GDAL know: `κ` are the coordinate systems of pyproj (`CRS`), `σ` those of GDAL.  `fromEpsg`, `fromWkt`, `fromProj4` are the
`ImportFrom…` methods, `none` is an error code other than 0; `crsFromEpsg` is `CRS.from_epsg`, `none` is the exception `CRSError` of
pyproj (written as `.environmentError` below; the code does not catch it); `toWkt` is `to_wkt`, the flag is for
`WktVersion.WKT1_GDAL`; `parseInt` is `int(text)`, `none` is ValueError. -/
structure Systems (κ σ : Type) where
  major : Nat
  fromEpsg : Int → Option σ
  fromWkt : String → Option σ
  fromProj4 : String → Option σ
  crsFromEpsg : Int → Option κ
  toWkt : κ → Bool → String
  parseInt : String → Option Int

/-- the argument: a `CRS`, an integer or a text -/
inductive CrsIn (κ : Type)
  | crs (c : κ) | int (n : Int) | text (s : String)

variable {κ σ : Type}

/-- bathygrid/utilities.py:250-259 `pyproj_crs_to_osgeo`.  The result is a `SpatialReference`, `none` if it is empty.  The error code of
`ImportFromWkt` is not looked at.  Simplification: what is left in the reference after an error is written as the empty reference.  For a text
`proj_crs.to_wkt` raises AttributeError. -/
def pyprojToOsgeo (E : Systems κ σ) (c : CrsIn κ) : Except Err (Option σ) :=
  match c with
  | .int n =>
    match E.crsFromEpsg n with
    | none => .error .environmentError
    | some c => .ok (E.fromWkt (E.toWkt c (decide (E.major < 3))))
  | .crs c => .ok (E.fromWkt (E.toWkt c (decide (E.major < 3))))
  | .text _ => .error .attributeError

/-- bathygrid/utilities.py:289-293: `ImportFromWkt`, then `ImportFromProj4`; both raise TypeError for an integer -/
def importText (E : Systems κ σ) (c : CrsIn κ) : Except Err (Option σ) :=
  match c with
  | .text s =>
    match E.fromWkt s with
    | some x => .ok (some x)
    | none =>
      match E.fromProj4 s with
      | some x => .ok (some x)
      | none => .error .valueError
  | _ => .error .typeError

/-- bathygrid/utilities.py:282-288: `int(input_crs)` -/
def asInt (E : Systems κ σ) (c : CrsIn κ) : Option Int :=
  match c with
  | .int n => some n
  | .text s => E.parseInt s
  | .crs _ => none

/-- bathygrid/utilities.py:262-294 `crs_to_osgeo` -/
def crsToOsgeo (E : Systems κ σ) (c : CrsIn κ) : Except Err (Option σ) :=
  match c with
  | .crs c => pyprojToOsgeo E (.crs c)
  | c =>
    match asInt E c with
    | none => importText E c
    | some n =>
      match E.fromEpsg n with
      | some x => .ok (some x)
      | none => importText E c

end Bathy
