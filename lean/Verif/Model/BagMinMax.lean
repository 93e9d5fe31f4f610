import Verif.Model.Export

/-!
# Smallest and largest values in a BAG (bathygrid/bgrid.py:1957-1983)

Simplifications: the conversion to 32 bit floats; that the file or its groups can not be opened.
-/

namespace Bathy

/-- `np.max(v)` and `np.min(v)` of a one dimensional array, with `f` for the comparison: ValueError for no values, NaN if there is one -/
def npExtreme (f : ℚ → ℚ → ℚ) (vs : List (Option ℚ)) : Except Err (Option ℚ) :=
  match vs with
  | [] => .error .valueError
  | v :: vs => .ok (vs.foldl (fun m w => match m, w with | some m, some w => some (f m w) | _, _ => none) v)

/-- bathygrid/bgrid.py:1975: an attribute is assigned the value of an expression that may raise -/
def setAttr (name : String) (v : Except Err (Option ℚ)) (attrs : Dict String (Option ℚ)) : Res (Dict String (Option ℚ)) :=
  match v with
  | .error e => .fail attrs e
  | .ok v => .ok (attrs.set name v)

/-- bathygrid/bgrid.py:1972-1980: the body of the `try`.  `data[0]` of no arrays is an IndexError, and so is a mask of another shape. -/
def layerMinMax (nodata : ℚ) (data : List LayerArr) (attrs : Dict String (Option ℚ)) : Res (Dict String (Option ℚ)) :=
  match data with
  | [] => .fail attrs .indexError
  | a :: rest =>
    let valid := a.flat.map (fun v => decide (v ≠ some nodata))
    (setAttr "Maximum Elevation Value" (npExtreme max (boolIndex a.flat valid)) attrs).andThen fun attrs =>
    (setAttr "Minimum Elevation Value" (npExtreme min (boolIndex a.flat valid)) attrs).andThen fun attrs =>
    match rest with
    | [b] =>
      if a.rows = b.rows ∧ a.cols = b.cols then
        (setAttr "Maximum Uncertainty Value" (npExtreme max (boolIndex b.flat valid)) attrs).andThen fun attrs =>
        setAttr "Minimum Uncertainty Value" (npExtreme min (boolIndex b.flat valid)) attrs
      else .fail attrs .indexError
    | _ => .ok attrs

/-- bathygrid/bgrid.py:1957-1983 `_correct_for_layer_metadata`: what was raised is caught, the attributes set before stay.  bathygrid/bgrid.py:2375-2378
the arrays given are those of the chunk, of which GDAL was given the transposes (bathygrid/utilities.py:329-330). -/
def correctMinMax (nodata : ℚ) (f : RasterFile) (attrs : Dict String (Option ℚ)) : Dict String (Option ℚ) :=
  (layerMinMax nodata (f.bands.map (fun b => transpose b.2)) attrs).st

end Bathy
