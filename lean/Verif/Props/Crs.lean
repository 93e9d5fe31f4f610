import Verif.Model.Crs

/-!
# C111: coordinate systems for GDAL

Model: `crsToOsgeo`, `pyprojToOsgeo` (bathygrid/utilities.py:235-294).
-/

namespace Bathy

variable {κ σ : Type}

/-! ### Specification -/

/-- `x` is what the argument means: for a CRS the system of its well known text (of the old kind for GDAL 2), for an integer or a text that is an
integer the system with this EPSG code, for another text (and a text that is no EPSG code) the system of the well known text, or else of the proj4
text. -/
inductive Means (E : Systems κ σ) : CrsIn κ → σ → Prop
  | crs {c : κ} {x : σ} (h : E.fromWkt (E.toWkt c (decide (E.major < 3))) = some x) : Means E (.crs c) x
  | int {n : Int} {x : σ} (h : E.fromEpsg n = some x) : Means E (.int n) x
  | number {s : String} {n : Int} {x : σ} (hs : E.parseInt s = some n) (h : E.fromEpsg n = some x) : Means E (.text s) x
  | wkt {s : String} {x : σ} (hs : ∀ n, E.parseInt s = some n → E.fromEpsg n = none) (h : E.fromWkt s = some x) : Means E (.text s) x
  | proj4 {s : String} {x : σ} (hs : ∀ n, E.parseInt s = some n → E.fromEpsg n = none) (hw : E.fromWkt s = none) (h : E.fromProj4 s = some x) : Means E (.text s) x

/-! ### C111 -/

/-- **C111**: `crs_to_osgeo` returns a coordinate system if and only if the argument means one, and then that one. -/
theorem C111_result (E : Systems κ σ) (c : CrsIn κ) (x : σ) : crsToOsgeo E c = .ok (some x) ↔ Means E c x := by
  constructor
  · intro h
    cases c with
    | crs c => exact .crs (by simpa [crsToOsgeo, pyprojToOsgeo] using h)
    | int n =>
      simp only [crsToOsgeo, asInt] at h
      cases he : E.fromEpsg n with
      | none => rw [he] at h; cases h
      | some y => rw [he] at h; cases h; exact .int he
    | text s =>
      simp only [crsToOsgeo, asInt] at h
      have key : (∀ n, E.parseInt s = some n → E.fromEpsg n = none) → importText E (.text s) = .ok (some x) → Means E (.text s) x := by
        intro hs h
        unfold importText at h
        cases hw : E.fromWkt s with
        | some y => simp only [hw] at h; cases h; exact .wkt hs hw
        | none =>
          simp only [hw] at h
          cases hp : E.fromProj4 s with
          | none => simp only [hp] at h; cases h
          | some y => simp only [hp] at h; cases h; exact .proj4 hs hw hp
      cases hi : E.parseInt s with
      | none => rw [hi] at h; exact key (fun n hn => by rw [hi] at hn; cases hn) h
      | some n =>
        rw [hi] at h
        simp only at h
        cases he : E.fromEpsg n with
        | some y => rw [he] at h; cases h; exact .number hi he
        | none => rw [he] at h; exact key (fun m hm => by rw [hi] at hm; cases hm; exact he) h
  · intro h
    have key : ∀ s, (∀ n, E.parseInt s = some n → E.fromEpsg n = none) → crsToOsgeo E (.text s) = importText E (.text s) := by
      intro s hs
      simp only [crsToOsgeo, asInt]
      cases hi : E.parseInt s with
      | none => rfl
      | some n => simp only [hs n hi]
    cases h with
    | crs h => simp [crsToOsgeo, pyprojToOsgeo, h]
    | int h => simp [crsToOsgeo, asInt, h]
    | number hs h => simp [crsToOsgeo, asInt, hs, h]
    | wkt hs h => rw [key _ hs]; simp [importText, h]
    | proj4 hs hw h => rw [key _ hs]; simp [importText, hw, h]

/-- **C111, partial** (errors): a text that means nothing is ValueError, so that a text never gives an empty reference.  The same is false for integers
and for CRS objects (`C111_int_violated`, `C111_crs_violated`). -/
theorem C111_error_partial (E : Systems κ σ) (s : String) (h : ∀ x, ¬ Means E (.text s) x) : crsToOsgeo E (.text s) = .error .valueError := by
  have hs : ∀ n, E.parseInt s = some n → E.fromEpsg n = none := by
    intro n hn
    cases he : E.fromEpsg n with
    | none => rfl
    | some x => exact absurd (Means.number hn he) (h x)
  have hw : E.fromWkt s = none := by
    cases he : E.fromWkt s with
    | none => rfl
    | some x => exact absurd (Means.wkt hs he) (h x)
  have hp : E.fromProj4 s = none := by
    cases he : E.fromProj4 s with
    | none => rfl
    | some x => exact absurd (Means.proj4 hs hw he) (h x)
  simp only [crsToOsgeo, asInt]
  cases hi : E.parseInt s with
  | none => simp [importText, hw, hp]
  | some n => simp [hs n hi, importText, hw, hp]

/-- **C111 does not hold** for integers that are no EPSG code: always TypeError, and never the ValueError with the message of the code. -/
theorem C111_int_violated (E : Systems κ σ) (n : Int) (h : ∀ x, ¬ Means E (.int n) x) : crsToOsgeo E (.int n) = .error .typeError := by
  have : E.fromEpsg n = none := by
    cases he : E.fromEpsg n with
    | none => rfl
    | some x => exact absurd (Means.int he) (h x)
  simp [crsToOsgeo, asInt, this, importText]

/-- **C111 does not hold** for a CRS whose text GDAL does not read: always an empty reference and no exception.  Rasters are then written without
coordinate system (bathygrid/utilities.py:326). -/
theorem C111_crs_violated (E : Systems κ σ) (c : κ) (h : ∀ x, ¬ Means E (.crs c) x) : crsToOsgeo E (.crs c) = .ok none ∧ pyprojToOsgeo E (.crs c) = .ok none := by
  have : E.fromWkt (E.toWkt c (decide (E.major < 3))) = none := by
    cases he : E.fromWkt (E.toWkt c (decide (E.major < 3))) with
    | none => rfl
    | some x => exact absurd (Means.crs he) (h x)
  simp [crsToOsgeo, pyprojToOsgeo, this]

/-- **C111** (the reference of a raster): for an EPSG code, `pyproj_crs_to_osgeo` gives the reference that `crs_to_osgeo` gives for the CRS of pyproj
with this code, and raises if there is none. -/
theorem C111_raster (E : Systems κ σ) (n : Int) :
    (∀ c, E.crsFromEpsg n = some c → pyprojToOsgeo E (.int n) = crsToOsgeo E (.crs c)) ∧
    (E.crsFromEpsg n = none → ∃ e, pyprojToOsgeo E (.int n) = .error e) := by
  constructor
  · intro c hc; simp [pyprojToOsgeo, crsToOsgeo, hc]
  · intro hc; exact ⟨.environmentError, by simp [pyprojToOsgeo, hc]⟩

/-! ### Examples -/

/-- pyproj systems are EPSG codes, those of GDAL are texts; one code, one WKT and one proj4 text are known -/
private def demo : Systems Int String :=
  { major := 3, fromEpsg := fun n => if n = 26919 then some "utm19" else none, fromWkt := fun s => if s = "WKT" then some "utm19" else none
    fromProj4 := fun s => if s = "+proj=utm" then some "utm19" else none, crsFromEpsg := fun n => if n = 26919 ∨ n = 9999 then some n else none
    toWkt := fun c old => if c = 26919 ∧ old = false then "WKT" else "?", parseInt := fun s => if s = "26919" then some 26919 else if s = "77" then some 77 else none }

example : Means demo (.text "26919") "utm19" ∧ Means demo (.int 26919) "utm19" ∧ Means demo (.text "WKT") "utm19" ∧ Means demo (.text "+proj=utm") "utm19" ∧
    Means demo (.crs 26919) "utm19" := by
  refine ⟨(C111_result _ _ _).1 ?_, (C111_result _ _ _).1 ?_, (C111_result _ _ _).1 ?_, (C111_result _ _ _).1 ?_, (C111_result _ _ _).1 ?_⟩ <;> rfl

example : crsToOsgeo demo (.text "77") = .error .valueError ∧ crsToOsgeo demo (.int 77) = .error .typeError ∧ crsToOsgeo demo (.crs 9999) = .ok none ∧
    pyprojToOsgeo demo (.int 26919) = .ok (some "utm19") := by
  refine ⟨?_, ?_, ?_, ?_⟩ <;> rfl

/-- the hypotheses of the statements about errors can be met -/
example : (∀ x, ¬ Means demo (.text "77") x) ∧ (∀ x, ¬ Means demo (.int 77) x) ∧ (∀ x, ¬ Means demo (.crs 9999) x) := by
  refine ⟨fun x h => ?_, fun x h => ?_, fun x h => ?_⟩
  · have := (C111_result demo _ x).2 h; cases this
  · have := (C111_result demo _ x).2 h; cases this
  · have := (C111_result demo _ x).2 h; cases this

end Bathy
