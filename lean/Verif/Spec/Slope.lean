import Verif.Spec.Cells
import Mathlib.Algebra.BigOperators.Group.List.Basic

/-!
# Specification of the slope layers

The slopes of a cell are the coefficients `a`, `b` of a plane `z = a x + b y + c` that fits the soundings of the cell best (least squares).
-/

namespace Bathy

/-- position and depth of a sounding -/
def Pt.xyz (p : Pt) : ℚ × ℚ × ℚ := (p.x, p.y, p.z)

/-- sum of the squares of the errors of the plane `z = a x + b y + c` -/
def sqErr (qs : List (ℚ × ℚ × ℚ)) (a b c : ℚ) : ℚ := (qs.map (fun q => (a * q.1 + b * q.2.1 + c - q.2.2) ^ 2)).sum

/-- some plane with the slopes `s` has the least error of all planes -/
def BestPlane (qs : List (ℚ × ℚ × ℚ)) (s : ℚ × ℚ) : Prop := ∃ c, ∀ a' b' c', sqErr qs s.1 s.2 c ≤ sqErr qs a' b' c'

/-- the function solves the least squares problem -/
def LeastSquares (f : List (ℚ × ℚ × ℚ) → ℚ × ℚ) : Prop := ∀ qs, BestPlane qs (f qs)

/-- not all on one line, seen from above -/
def Spread (qs : List (ℚ × ℚ × ℚ)) : Prop :=
  ∃ p ∈ qs, ∃ q ∈ qs, ∃ r ∈ qs, (q.1 - p.1) * (r.2.1 - p.2.1) ≠ (r.1 - p.1) * (q.2.1 - p.2.1)

/-- all on the plane -/
def OnPlane (qs : List (ℚ × ℚ × ℚ)) (a b c : ℚ) : Prop := ∀ q ∈ qs, q.2.2 = a * q.1 + b * q.2.1 + c

/-- an empty cell is NaN, the others hold one of the slopes of a best plane -/
def SlopeCell (pick : ℚ × ℚ → ℚ) (ps : List Pt) (v : Option ℚ) : Prop :=
  (ps = [] → v = none) ∧ (ps ≠ [] → ∃ s, BestPlane (ps.map Pt.xyz) s ∧ v = some (pick s))

/-- two `n × n` arrays; in each cell both are NaN if there are no soundings and the two slopes of one best plane otherwise -/
def SlopeCells (ax ay : LayerArr) (n : Nat) (minX minY res : ℚ) (pts : List Pt) : Prop :=
  ax.flat.length = n * n ∧ ax.rows = n ∧ ax.cols = n ∧ ay.flat.length = n * n ∧ ay.rows = n ∧ ay.cols = n ∧
    ∀ r c, r < n → c < n →
      (inCell minX minY res r c pts = [] → ax.get? r c = some none ∧ ay.get? r c = some none) ∧
      (inCell minX minY res r c pts ≠ [] → ∃ s, BestPlane ((inCell minX minY res r c pts).map Pt.xyz) s ∧ ax.get? r c = some (some s.1) ∧ ay.get? r c = some (some s.2))

/-- the slope layers, and which of the two slopes they hold -/
def IsSlope (l : Layer) (pick : ℚ × ℚ → ℚ) : Prop := (l = .xSlope ∧ pick = Prod.fst) ∨ (l = .ySlope ∧ pick = Prod.snd)

end Bathy
