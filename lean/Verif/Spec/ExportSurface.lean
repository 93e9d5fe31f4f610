import Verif.Spec.Csv
import Verif.Spec.Export
import Verif.Spec.Surface

/-!
# Specification of exported files in terms of the soundings
-/

namespace Bathy

/-- the sounding is in the square of side `r` with the lower left corner (x, y) -/
def OnSquare (r x y : ℚ) (p : Pt) : Prop := (x ≤ p.x ∧ p.x < x + r) ∧ y ≤ p.y ∧ p.y < y + r

instance (r x y : ℚ) (p : Pt) : Decidable (OnSquare r x y p) := by unfold OnSquare; infer_instance

/-- the soundings in the square -/
def onSquare (r x y : ℚ) (P : List Pt) : List Pt := P.filter fun p => decide (OnSquare r x y p)

/-- The csv table is the surface of the soundings `P`: each line has the centre of a square of side `r` and, for each layer with a rule, the value that the rule gives for the soundings
of `P` in this square; every sounding is in the square of just one line; the lines fill a rectangle and none of them is beyond the soundings.  The corners of
the squares are multiples of `r`, and each square between the outermost soundings has just one line. -/
structure CsvOfSoundings (R : Layer → List Pt → Option ℚ → Prop) (ruled : Layer → Prop) (layers : List Layer) (flip : Bool) (P : List Pt) (r : ℚ) (f : CsvFile) : Prop where
  value : ∀ w ∈ f.rows, ∀ (k : Nat) l, layers[k]? = some l → ruled l → ∃ v, R l (onSquare r (w.x - r / 2) (w.y - r / 2) P) v ∧ w.values[k]? = some (shownCell l none flip v)
  all : ∀ p ∈ P, ∃ w ∈ f.rows, OnSquare r (w.x - r / 2) (w.y - r / 2) p ∧ ∀ w' ∈ f.rows, OnSquare r (w'.x - r / 2) (w'.y - r / 2) p → w' = w
  filled : ∀ w ∈ f.rows, ∀ w' ∈ f.rows, ∃ u ∈ f.rows, u.x = w.x ∧ u.y = w'.y
  within : ∀ w ∈ f.rows, (∃ p ∈ P, p.x < w.x + r / 2) ∧ (∃ p ∈ P, w.x - r / 2 ≤ p.x) ∧ (∃ p ∈ P, p.y < w.y + r / 2) ∧ ∃ p ∈ P, w.y - r / 2 ≤ p.y
  width : ∀ w ∈ f.rows, w.values.length = layers.length
  once : (f.rows.map fun w => (w.x, w.y)).Nodup
  lattice : ∀ w ∈ f.rows, ∃ i j : ℤ, w.x - r / 2 = i * r ∧ w.y - r / 2 = j * r
  full : ∀ i j : ℤ, (∃ p ∈ P, p.x < i * r + r) → (∃ p ∈ P, i * r ≤ p.x) → (∃ p ∈ P, p.y < j * r + r) → (∃ p ∈ P, j * r ≤ p.y) →
    ∃ w ∈ f.rows, w.x - r / 2 = i * r ∧ w.y - r / 2 = j * r

/-- pixel (i, j) of a band of the raster lies over the sounding -/
def RasterFile.OverPoint (f : RasterFile) (name : String) (p : Pt) : Prop :=
  ∃ a, (name, a) ∈ f.bands ∧ ∃ i j : Nat, i < a.rows ∧ j < a.cols ∧ OnSquare f.res (f.geo.x0 + (j : ℚ) * f.res) (f.geo.y0 - (i : ℚ) * f.res - f.res) p

/-- The rasters are the surface of the soundings `P`: each pixel of a band with a rule shows (by the convention of the name) the value of the soundings of `P` below it, or 1000000 if
there are none; the corners of the files are multiples of the resolution, and every sounding lies below a pixel of just one file. -/
structure RastersOfSoundings {τ : Type} (g : Grid τ) (R : Layer → List Pt → Option ℚ → Prop) (ruled : Layer → Prop) (names : List (String × Layer)) (P : List Pt) (r : ℚ)
    (files : List RasterFile) : Prop where
  value : ∀ f ∈ files, f.res = r ∧ ∀ (k : Nat) name l, names[k]? = some (name, l) → ruled l → ∃ a, f.bands[k]? = some (name, a) ∧ ∀ i j : Nat, i < a.rows → j < a.cols →
    (onSquare r (f.geo.x0 + (j : ℚ) * r) (f.geo.y0 - (i : ℚ) * r - r) P = [] → a.get? i j = some (some 1000000)) ∧
    (onSquare r (f.geo.x0 + (j : ℚ) * r) (f.geo.y0 - (i : ℚ) * r - r) P ≠ [] → ∃ z v, R l (onSquare r (f.geo.x0 + (j : ℚ) * r) (f.geo.y0 - (i : ℚ) * r - r) P) (some z) ∧
      a.get? i j = some (some v) ∧ NamedValue g name z v)
  named : ∀ f ∈ files, f.bands.map Prod.fst = names.map Prod.fst
  lattice : ∀ f ∈ files, ∃ i j : ℤ, f.geo.x0 = i * r ∧ f.geo.y0 = j * r
  all : ∀ p ∈ P, ∀ name l, (name, l) ∈ names → ruled l → ∃ f ∈ files, f.OverPoint name p
  once : files.Pairwise fun f f' => ∀ p ∈ P, ∀ name l, (name, l) ∈ names → ruled l → ¬ (f.OverPoint name p ∧ f'.OverPoint name p)

end Bathy
