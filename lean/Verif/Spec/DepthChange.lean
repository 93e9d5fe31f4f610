import Verif.Spec.Merged

/-!
# Specification of surfaces of soundings with other depths
-/

namespace Bathy

/-- the depth (positive down) that a shown number stands for -/
def depthShownBy (up : Bool) (v : Option ℚ) : Option ℚ := v.map (fun z => if up = true then -z else z)

/-- no depths, or depths of which the second one is not shoaler -/
def NotShoaler (v w : Option ℚ) : Prop := (v = none ∧ w = none) ∨ ∃ z y, v = some z ∧ w = some y ∧ z ≤ y

/-- no depths, or depths that differ by `d`, give or take `t` -/
def DeeperBy (d t : ℚ) (v w : Option ℚ) : Prop := (v = none ∧ w = none) ∨ ∃ z y, v = some z ∧ w = some y ∧ |y - (z + d)| ≤ t

/-- a depth between the ones of the shoalest and of the deepest sounding of `ps`, as far as three decimals tell -/
def Between (ps : List Pt) (v : Option ℚ) : Prop :=
  ∃ z, v = some z ∧ (∃ p ∈ ps, (∀ q ∈ ps, p.z ≤ q.z) ∧ round3 p.z ≤ z) ∧ ∃ p ∈ ps, (∀ q ∈ ps, q.z ≤ p.z) ∧ z ≤ round3 p.z

/-- the change of the soundings leaves their positions -/
def KeepsPlaces (f : Pt → Pt) (P : List Pt) : Prop := ∀ p ∈ P, (f p).x = p.x ∧ (f p).y = p.y

/-- a sounding `d` deeper -/
def Pt.lowered (d : ℚ) (p : Pt) : Pt := { p with z := p.z + d }

end Bathy
