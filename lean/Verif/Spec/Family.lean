import Verif.Model.Data

/-!
# Families of algorithms
-/

namespace Bathy

/-- the two families of layer sets: mean / shoalest and CUBE -/
inductive Family | plain | cube
  deriving DecidableEq

/-- the family of an algorithm -/
def Alg.family : Alg → Option Family
  | .mean | .shoalest => some .plain
  | .cube => some .cube
  | .other => none

end Bathy
