import Verif.Model.Data

/-!
# Specification of the stored soundings

What the user put in: an ordered list of containers, each with its soundings.  Nothing here refers to tiles, slices, masks
or binning.
-/

namespace Bathy

/-- containers in the order they were added, each with its soundings -/
abbrev Store := List (String × List Pt)

namespace Store

/-- names of the containers -/
def names (A : Store) : List String := A.map Prod.fst
/-- all soundings, container after container -/
def allPts (A : Store) : List Pt := (A.map Prod.snd).flatten
/-- remove a container -/
def remove (A : Store) (c : String) : Store := A.filter (fun p => decide (p.1 ≠ c))
/-- add a container at the end, replacing one of the same name -/
def put (A : Store) (c : String) (pts : List Pt) : Store := remove A c ++ [(c, pts)]
/-- soundings of a container, `[]` for an unknown one -/
def ptsOf (A : Store) (c : String) : List Pt := allPts (A.filter (fun p => decide (p.1 = c)))

end Store
end Bathy
