import Verif.Model.Storage

/-!
# A grid object, its output folder and the folders on disk

`BaseStorage` (bathygrid/backends.py) defines `save` and `load` itself.  All grid classes derive from it (bathygrid/maingrid.py:6-119, bathygrid/backends.py:355, 527), so the
`save` and `load` of `OperationalGrid` (bathygrid/bgrid.py:2150-2190), which fall back on the output folder, are never the ones that are called.

Simplifications: a folder is known by its path, different paths are different folders and none is inside another one; what is kept of a folder is the root folder of the grid in
it (`Grid.Root`).  Calls that raise leave the grid as the calls of Model/Grid.lean and Model/Storage.lean do.
-/

namespace Bathy

/-- The object: the grid, its attribute `output_folder` (`none` for the empty string), and the folders on disk. -/
structure Session (τ φ : Type) where
  grid : Grid τ
  out : Option String
  disk : String → Disk (Grid.Root φ)

namespace Session
variable {τ φ : Type} [DiskLike τ φ]

/-- other contents of one folder -/
def setFolder (f : String → Disk (Grid.Root φ)) (p : String) (d : Disk (Grid.Root φ)) : String → Disk (Grid.Root φ) := fun q => if q = p then d else f q

/-- A call that writes to the output folder if there is one (`if self.output_folder:`, bathygrid/backends.py:214, 236, 304). -/
def run (mem : Grid τ → Res (Grid τ)) (withFolder : Grid τ × Disk (Grid.Root φ) → Res (Grid τ × Disk (Grid.Root φ))) (s : Session τ φ) : Res (Session τ φ) :=
  match s.out with
  | none => let r := mem s.grid; ⟨{ s with grid := r.st }, r.err⟩
  | some p =>
    let r := withFolder (s.grid, s.disk p)
    ⟨{ s with grid := r.st.1, disk := setFolder s.disk p r.st.2 }, r.err⟩

/-- bathygrid/bgrid.py:665-706 `add_points` -/
def addPoints (b : Backend) (dt : PtArr) (c : String) (a : AddArgs) : Session τ φ → Res (Session τ φ) := run (fun g => g.addPoints dt c a) (Grid.addPointsD b dt c a)

/-- bathygrid/bgrid.py:721-754 `remove_points` -/
def removePoints (b : Backend) (c : String) : Session τ φ → Res (Session τ φ) := run (fun g => g.removePoints c) (Grid.removePointsD b c)

/-- bathygrid/bgrid.py:1461-1521 `grid`: `dask` is `none` for `use_dask=False`, else the number of workers -/
def gridRun (env : Env) (b : Backend) (a : GridCall) (dask : Option Nat) : Session τ φ → Res (Session τ φ) := run (fun g => g.gridWith env a dask) (Grid.gridWithD env b a dask)

/-- `if folderpath:` -/
def named (folder : Option String) : Option String :=
  match folder with
  | none => none
  | some p => if p = "" then none else some p

/-- bathygrid/backends.py:246-275 `save(folderpath=None)` -/
def save (b : Backend) (folder : Option String) (s : Session τ φ) : Res (Session τ φ) :=
  match named folder with
  | none => .ok s
  | some p =>
    let r := Grid.saveAllD b s.grid (s.disk p)
    ⟨{ s with out := some p, disk := setFolder s.disk p r.st }, r.err⟩

/-- bathygrid/backends.py:321-352 `load(folderpath=None)`.  Simplification: if it raises, the grid stays as it was. -/
def load (folder : Option String) (s : Session τ φ) : Res (Session τ φ) :=
  match named folder with
  | none => .ok s
  | some p =>
    match Grid.loadD (s.disk p).now with
    | .error e => .fail { s with out := some p } e
    | .ok u => .ok { s with grid := u, out := some p }

end Session
end Bathy
