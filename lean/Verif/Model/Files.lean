import Verif.Model.Utilities

/-!
# Folders: bathygrid/convenience.py and the folder helpers of bathygrid/utilities.py
-/

namespace Bathy

/-- what is found at a path -/
inductive Entry
  | file
  | dir (listing : List String)
  deriving DecidableEq, Repr

/-- the four names of bathygrid/grid_variables.py:21 `allowable_grid_root_names` -/
def rootNames : List String := ["SRGrid_Root", "VRGridTile_Root", "SRGridZarr_Root", "VRGridTileZarr_Root"]

/-- bathygrid/convenience.py:8-35 `_validate_load_path`, the name of the root folder.  `place` is what is found at the path, `none` if nothing is. -/
def validateLoadPath (place : Option Entry) : Except Err String :=
  match place with
  | none => .error .ioError
  | some .file => .error .notADirectoryError
  | some (.dir subfolders) =>
    if subfolders.length = 0 then .error .ioError
    else
      match subfolders.filter (fun f => rootNames.contains f) with
      | [] => .error .ioError
      | [f] => .ok f
      | _ :: _ :: _ => .error .ioError

/-- the classes of bathygrid/maingrid.py -/
inductive GridClass
  | srGrid | vrGridTile | srGridZarr | vrGridTileZarr
  deriving DecidableEq, Repr

/-- bathygrid/convenience.py:91-101 `load_grid`: the class of the grid that is then loaded -/
def loadClass (place : Option Entry) : Except Err GridClass :=
  match validateLoadPath place with
  | .error e => .error e
  | .ok name =>
    if name = "SRGrid_Root" then .ok .srGrid
    else if name = "VRGridTile_Root" then .ok .vrGridTile
    else if name = "SRGridZarr_Root" then .ok .srGridZarr
    else if name = "VRGridTileZarr_Root" then .ok .vrGridTileZarr
    else .error .notImplemented

/-- bathygrid/convenience.py:56-72 `is_bathygrid` -/
def isBathygrid (place : Option Entry) : Bool :=
  match place with
  | some (.dir subfolders) => subfolders.any (fun f => rootNames.contains f)
  | _ => false

/-- bathygrid/maingrid.py:15, 37, 73, 95: the attribute `name` each class gives to its grids, which is the name of the folder that `_save_grid`
(bathygrid/backends.py:208-217) makes -/
def GridClass.rootName : GridClass → String
  | .srGrid => "SRGrid_Root"
  | .vrGridTile => "VRGridTile_Root"
  | .srGridZarr => "SRGridZarr_Root"
  | .vrGridTileZarr => "VRGridTileZarr_Root"

/-- What is found at the name in the folder `d`; the empty name is the folder itself (`os.path.join(folder, '')`).
Simplification: the name is one path component. -/
def Folder.look (d : Dict String Entry) (name : String) : Option Entry :=
  if name = "" then some (.dir d.keys) else d.get? name

/-- `os.mkdir` in the folder `d` -/
def Folder.mkdir (d : Dict String Entry) (name : String) : Res (Dict String Entry) :=
  match Folder.look d name with
  | none => .ok (d.set name (.dir []))
  | some _ => .fail d .fileExistsError

/-- bathygrid/utilities.py:70-100 `create_folder`: the contents of `output_directory` afterwards, with the name returned.
Simplifications: `output_directory` is a folder, after line 87 (`os.makedirs`); `tstmp` is the formatted clock value. -/
def createFolder (d : Dict String Entry) (fldrname tstmp : String) : Dict String Entry × Except Err String :=
  match (Folder.mkdir d fldrname).err with
  | none => ((Folder.mkdir d fldrname).st, .ok fldrname)
  | some _ =>
    match Folder.look d fldrname with
    | some (.dir []) => (d, .ok fldrname)
    | some (.dir (_ :: _)) =>
      let name := fldrname ++ "_" ++ tstmp
      match (Folder.mkdir d name).err with
      | none => ((Folder.mkdir d name).st, .ok name)
      | some e => (d, .error e)
    | some .file => (d, .error .notADirectoryError)
    | none => (d, .error .fileNotFoundError)

/-- bathygrid/convenience.py:38-53 and 133-148, `create_grid`: the class of the new grid.  The creation of the folder (lines 39-43), which comes first, is
`createFolder`. -/
def createClass (gridType gridBackend : String) (tileSize subtileSize : ℚ) : Except Err GridClass :=
  if gridType ≠ "single_resolution" ∧ gridType ≠ "variable_resolution_tile" then .error .valueError
  else if gridBackend ≠ "numpy" ∧ gridBackend ≠ "zarr" then .error .valueError
  else if isPowerOfTwo tileSize = false then .error .valueError
  else if gridType = "variable_resolution_tile" ∧ isPowerOfTwo subtileSize = false then .error .valueError
  else if gridType = "single_resolution" then (if gridBackend = "numpy" then .ok .srGrid else .ok .srGridZarr)
  else if gridType = "variable_resolution_tile" then (if gridBackend = "numpy" then .ok .vrGridTile else .ok .vrGridTileZarr)
  else .error .notImplemented

/-- bathygrid/convenience.py:38-53 and 133-148 `create_grid`: the contents of the directory that the folder is made in, the class of the new grid and the name of its folder.
The folder is made first (lines 39-41), the options are checked after it.  `none` is `folder_path=''` (lines 42-43); the empty name is a path with a slash at its end, which
`os.path.split` divides into the folder itself and nothing.  The constructors write nothing into the folder (bathygrid/maingrid.py:15-17, 74-76: `os.makedirs` with
`exist_ok` for a folder that is there). -/
def createGrid (d : Dict String Entry) (folder : Option String) (tstmp gridType gridBackend : String) (tileSize subtileSize : ℚ) :
    Dict String Entry × Except Err (GridClass × Option String) :=
  match folder with
  | none =>
    match createClass gridType gridBackend tileSize subtileSize with
    | .error e => (d, .error e)
    | .ok c => (d, .ok (c, none))
  | some name =>
    let f := createFolder d name tstmp
    match f.2 with
    | .error e => (f.1, .error e)
    | .ok n =>
      match createClass gridType gridBackend tileSize subtileSize with
      | .error e => (f.1, .error e)
      | .ok c => (f.1, .ok (c, some n))

/-- one attempt to delete a folder: it works, it raises PermissionError, or it raises another exception -/
inductive Attempt
  | done | denied | other (e : Err)
  deriving DecidableEq, Repr

/-- what a call of `remove_with_permissionserror` did: the number of deletions tried, the number of waits, the exception -/
structure Removal where
  tries : Nat
  waits : Nat
  err : Option Err
  deriving DecidableEq, Repr

/-- bathygrid/utilities.py:397-407, the iterations of the loop from `attempt` on; `k` of them are left.  `outcome n` is the outcome of the `n`-th deletion, counted from 0,
that the call makes. -/
def removeLoop (outcome : Nat → Attempt) (retries attempt tries waits : Nat) : Nat → Removal
  | 0 => ⟨tries, waits, none⟩
  | k + 1 =>
    match outcome tries with
    | .done => ⟨tries + 1, waits, none⟩
    | .other e => ⟨tries + 1, waits, some e⟩
    | .denied =>
      if attempt < retries then removeLoop outcome retries (attempt + 1) (tries + 1) (waits + 1) k
      else
        match outcome (tries + 1) with
        | .done => removeLoop outcome retries (attempt + 1) (tries + 2) waits k
        | .denied => ⟨tries + 2, waits, some .permissionError⟩
        | .other e => ⟨tries + 2, waits, some e⟩

/-- bathygrid/utilities.py:389-407 `remove_with_permissionserror` -/
def removeWithPermissionError (found : Bool) (outcome : Nat → Attempt) (retries : Nat) : Removal :=
  if found then removeLoop outcome retries 1 0 0 retries else ⟨0, 0, none⟩

end Bathy
