import Verif.Model.Containers

/-!
# `return_attribution` (bathygrid/bgrid.py:2384-2418)

Modelled are the entries `source_…`; the others are copies of attributes.  `stamps` is the attribute `container_timestamp`.
-/

namespace Bathy

/-- time of the add and list of files of a container -/
abbrev Source := String × List String

/-- `{'time': self.container_timestamp[k], 'multibeam_lines': self.container[k]}`; `none` is KeyError -/
def sourceOf (stamps : Dict String String) (container : Dict String (List String)) (k : String) : Option Source :=
  match stamps.get? k, container.get? k with
  | some t, some f => some (t, f)
  | _, _ => none

/-- bathygrid/bgrid.py:2402-2417: one round of the loop over the containers.  `nearest_cont_name[0]` of an empty list is IndexError, an empty name is not
true (ValueError). -/
def addSource (stamps : Dict String String) (container : Dict String (List String)) (out : Dict String Source) (c : String) : Except Err (Dict String Source) :=
  match sourceOf stamps container (c ++ "_0") with
  | some v => .ok (out.set ("source_" ++ c) v)
  | none =>
    match sourceOf stamps container c with
    | some v => .ok (out.set ("source_" ++ c) v)
    | none =>
      match container.keys.filter (fun k => contains k c) with
      | [] => .error .indexError
      | k :: _ =>
        if k = "" then .error .valueError
        else
          match sourceOf stamps container k with
          | some v => .ok (out.set ("source_" ++ k) v)
          | none => .error .keyError

/-- bathygrid/bgrid.py:2401-2417: the loop -/
def sourcesFrom (stamps : Dict String String) (container : Dict String (List String)) : Dict String Source → List String → Except Err (Dict String Source)
  | out, [] => .ok out
  | out, c :: cs =>
    match addSource stamps container out c with
    | .error e => .error e
    | .ok out => sourcesFrom stamps container out cs

/-- the entries `source_…` of `return_attribution` -/
def Grid.attribution {τ : Type} (g : Grid τ) (stamps : Dict String String) : Except Err (Dict String Source) :=
  sourcesFrom stamps g.info.container [] g.returnUniqueContainers

end Bathy
