import Verif.Model.Grid

/-!
# Container names
-/

namespace Bathy

/-- python `s.split('__')` on characters: cut at every '__', from the left, without overlaps; `acc` holds the characters of the current part,
last first -/
def splitDU : List Char → List Char → List (List Char)
  | '_' :: '_' :: cs, acc => acc.reverse :: splitDU cs []
  | c :: cs, acc => splitDU cs (c :: acc)
  | [], acc => [acc.reverse]

/-- bathygrid/grids.py:80-86: what a key contributes.  Unpacking the parts into two variables fails (ValueError) unless there are two; then it is the
key itself. -/
def uniqueEntry (ky : String) : String :=
  match splitDU ky.toList [] with
  | [p, _] => String.ofList p
  | _ => ky

/-- bathygrid/grids.py:70-87 `unique_container_entries`, of the keys of the attribute `container` -/
def uniqueContainerEntries (keys : List String) : List String :=
  keys.foldl (fun u ky => if u.contains (uniqueEntry ky) then u else u ++ [uniqueEntry ky]) []

/-- bathygrid/bgrid.py:1921-1936 `return_unique_containers` -/
def returnUniqueContainers (keys : List String) : List String :=
  keys.foldl (fun u ky => if u.contains ky then u else u ++ [ky]) []

namespace Grid
variable {τ : Type}

/-- the property of a grid -/
def uniqueContainerEntries (g : Grid τ) : List String := Bathy.uniqueContainerEntries g.info.container.keys

/-- the method of a grid -/
def returnUniqueContainers (g : Grid τ) : List String := Bathy.returnUniqueContainers g.info.container.keys

end Grid
end Bathy
