import Verif.Spec.Histories
import Verif.Spec.Soundings

/-!
# What a grid was told about its data

The calls of `add_points` with their arguments, after any sequence of public calls, whether they return or raise.
-/

namespace Bathy

/-- a call of `add_points`, and whether it returned -/
structure AddCall where
  c : String
  d : PtArr
  a : AddArgs
  ok : Bool

/-- Calls on a grid that starts as `g0`, with the list of the calls of `add_points` -/
inductive Logged {τ : Type} [GridLike τ] [Queried τ] (env : Env) (g0 : Grid τ) : List AddCall → Grid τ → Prop
  | new : Logged env g0 [] g0
  | add {log g} (h : Logged env g0 log g) (d : PtArr) (c : String) (a : AddArgs) :
      Logged env g0 (log ++ [⟨c, d, a, decide ((g.addPoints d c a).err = none)⟩]) (g.addPoints d c a).st
  | remove {log g} (h : Logged env g0 log g) (c : String) : Logged env g0 log (g.removePoints c).st
  | grid {log g} (h : Logged env g0 log g) (a : GridCall) (dask : Option Nat) : Logged env g0 log (g.gridWith env a dask).st
  | query {log g u} (h : Logged env g0 log g) (hq : Queried.queried env g u) : Logged env g0 log u

/-- the text contains 'MLLW' -/
def IsMllw (s : String) : Prop := ∃ l r, s.toList = l ++ "MLLW".toList ++ r

/-- the first '__' of the text comes after `p`, and `l` is what follows it -/
def CutAt (s p l : List Char) : Prop := s = p ++ ['_', '_'] ++ l ∧ ∀ a b, p ++ ['_'] ≠ a ++ ['_', '_'] ++ b

/-- there is no '__' in the text -/
def NoCut (s : List Char) : Prop := ∀ a b, s ≠ a ++ ['_', '_'] ++ b

/-- The name of the dataset a container belongs to: the part before the first '__', or the whole name if there is none -/
def DatasetOf (ky e : String) : Prop :=
  (∃ p l, CutAt ky.toList p l ∧ e = String.ofList p) ∨ (NoCut ky.toList ∧ e = ky)

/-- there are two '__' in the name -/
def CutTwice (ky : String) : Prop := ∃ p l, CutAt ky.toList p l ∧ ¬ NoCut l

/-- the elements of `l`, each once, in the order in which they come first -/
def FirstSeen {α : Type} [DecidableEq α] (l out : List α) : Prop :=
  out.Nodup ∧ (∀ x, x ∈ out ↔ x ∈ l) ∧ out.Pairwise (fun a b => l.idxOf a < l.idxOf b)

end Bathy
