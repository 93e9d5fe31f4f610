import Verif.Model.Storage

/-!
# A process that stops

What is on disk when the process stops between the writes of two tiles of `add_points` or `remove_points`.
-/

namespace Bathy
namespace Grid
variable {τ φ : Type} [DiskLike τ φ]

/-- bathygrid/bgrid.py:665-706 `add_points` (with 615-663 `_add_points_to_tiles`), stopped after the first `m` tiles were written -/
def addStoppedD (b : Backend) (dt : PtArr) (c : String) (a : AddArgs) (m : Nat) (s : Grid τ × Disk (Root φ)) : Res (Grid τ × Disk (Root φ)) :=
  let (g, d) := s
  if g.info.container.has c then .fail s .valueError
  else
    let r := g.info.update c a
    match r.err with
    | some e => .fail ({ g with info := r.st }, d) e
    | none =>
      (inMemory (updateBase { g with info := r.st } dt.pts) d).andThen (fun s =>
        (inMemory (placeTiles s.1) s.2).andThen (fun s =>
          let s := (s.1, saveGrid b s.1 s.2)
          match bin2d [dt.pts.map Pt.x] [dt.pts.map Pt.y] s.1.edgesX s.1.edgesY with
          | .error e => .fail s e
          | .ok bins => Res.forEach ((npUnique bins).take m) s (addToTileD b dt.fields dt.pts bins c)))

/-- bathygrid/bgrid.py:721-751 `remove_points`, stopped after the first `m` slots were visited -/
def removeStoppedD (b : Backend) (c : String) (m : Nat) (s : Grid τ × Disk (Root φ)) : Res (Grid τ × Disk (Root φ)) :=
  let (g, d) := s
  if g.info.container.has c then
    let g := { g with info := { g.info with container := g.info.container.pop c } }
    if g.isEmpty then .ok (g, d) else Res.forEach ((List.range g.slots).take m) (g, d) (removeFromTileD b c)
  else .ok s

end Grid
end Bathy
