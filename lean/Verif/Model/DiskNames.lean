import Verif.Model.Storage

/-!
# Names of files and folders

`Verif/Model/Storage.lean` finds the arrays of a tile by resolution and layer and the folders of the tiles by their origins.  The code makes names
of them (`'cells_{}_depth'.format(resolution)`, `'{}_{}'.format(x, y)`) and reads the resolutions back out of the names in the folder.  Here a folder is a dict from
names to contents, and writing and reading are modelled with these names.  `fmt` is `'{}'.format` of a float and `parse` is `float` of a string.

Simplifications: a name is a list of characters (a string literal is written as such a list); a step that removes and one that writes are not separate states of the disk (they are in Storage.lean).
-/

namespace Bathy

abbrev Name := List Char

/-- python `s.split('_')` -/
def splitU : Name → List Name
  | [] => [[]]
  | c :: cs => if c = '_' then [] :: splitU cs else
    match splitU cs with
    | [] => [[c]]
    | w :: ws => (c :: w) :: ws

/-- the key of a layer in `tile.cells[resolution]` (bathygrid/tile.py:337-351, 532) -/
def Layer.key : Layer → Name
  | .depth => ['d', 'e', 'p', 't', 'h']
  | .intensity => ['i', 'n', 't', 'e', 'n', 's', 'i', 't', 'y']
  | .density => ['d', 'e', 'n', 's', 'i', 't', 'y']
  | .vertical => ['v', 'e', 'r', 't', 'i', 'c', 'a', 'l', '_', 'u', 'n', 'c', 'e', 'r', 't', 'a', 'i', 'n', 't', 'y']
  | .horizontal => ['h', 'o', 'r', 'i', 'z', 'o', 'n', 't', 'a', 'l', '_', 'u', 'n', 'c', 'e', 'r', 't', 'a', 'i', 'n', 't', 'y']
  | .totalUnc => ['t', 'o', 't', 'a', 'l', '_', 'u', 'n', 'c', 'e', 'r', 't', 'a', 'i', 'n', 't', 'y']
  | .hypCount => ['h', 'y', 'p', 'o', 't', 'h', 'e', 's', 'i', 's', '_', 'c', 'o', 'u', 'n', 't']
  | .hypRatio => ['h', 'y', 'p', 'o', 't', 'h', 'e', 's', 'i', 's', '_', 'r', 'a', 't', 'i', 'o']
  | .xSlope => ['x', '_', 's', 'l', 'o', 'p', 'e']
  | .ySlope => ['y', '_', 's', 'l', 'o', 'p', 'e']
  | .cont c => c.toList
  | .contDensity c => c.toList ++ ['_', 'd', 'e', 'n', 's', 'i', 't', 'y']

/-- bathygrid/backends.py:163-180 `_get_new_tile_name`; bathygrid/bgrid.py:652-653 -/
def tileName (fmt : ℚ → Name) (p : ℚ × ℚ) : Name := fmt p.1 ++ '_' :: fmt p.2

/-- bathygrid/backends.py:408-423, 459-475 (594-609, 645-661) -/
def layerPath (fmt : ℚ → Name) (r : ℚ) (l : Layer) : Name := ['c', 'e', 'l', 'l', 's', '_'] ++ fmt r ++ '_' :: l.key
/-- bathygrid/backends.py:424, 476 (610, 662) -/
def edgesXPath (fmt : ℚ → Name) (r : ℚ) : Name := ['c', 'e', 'l', 'l', '_', 'e', 'd', 'g', 'e', 's', '_', 'x', '_'] ++ fmt r
/-- bathygrid/backends.py:425, 477 (611, 663) -/
def edgesYPath (fmt : ℚ → Name) (r : ℚ) : Name := ['c', 'e', 'l', 'l', '_', 'e', 'd', 'g', 'e', 's', '_', 'y', '_'] ++ fmt r
/-- bathygrid/backends.py:428, 479 (614, 665) -/
def indicesPath (fmt : ℚ → Name) (r : ℚ) : Name := ['c', 'e', 'l', 'l', '_'] ++ fmt r ++ ['_', 'i', 'n', 'd', 'i', 'c', 'e', 's']
/-- bathygrid/backends.py:93, 113 -/
def metaPath : Name := ['m', 'e', 't', 'a', 'd', 'a', 't', 'a', '.', 'j', 's', 'o', 'n']
/-- bathygrid/backends.py:400, 456 (586, 642) -/
def dataPath : Name := ['d', 'a', 't', 'a']

/-- what is under a name in the folder of a tile -/
inductive Item
  | info (m : Json TileMeta)
  | pts (a : Stored PtArr)
  | layer (a : Stored LayerArr)
  | nums (a : Stored (List ℚ))
  | ints (a : Stored (List Int))
  deriving DecidableEq

/-- the folder of a tile -/
abbrev Dir := Dict Name Item

namespace Dir

/-- `_save_array`: remove what is there, then write (bathygrid/backends.py:376-378, 550-560) -/
def saveItem (n : Name) (i : Item) (D : Dir) : Dir := Dict.set (Dict.pop D n) n i

/-- bathygrid/backends.py:81-99 `_save_tile_metadata` -/
def saveMeta (t : Tile) (D : Dir) : Dir := Dict.set D metaPath (.info (.full t.toMeta))

/-- bathygrid/backends.py:404-406, 590-592: `names` is what `os.listdir` returns -/
def removeCells (names : List Name) (D : Dir) : Dir := names.foldl (fun D n => if n.take 4 = ['c', 'e', 'l', 'l'] then Dict.pop D n else D) D

/-- bathygrid/backends.py:408-423, 594-609 -/
def saveLayers (fmt : ℚ → Name) (b : Backend) (r : ℚ) (ls : Dict Layer LayerArr) (D : Dir) : Dir :=
  Tile.writtenLayers.foldl (fun D l =>
    match ls.get? l with
    | some a => saveItem (layerPath fmt r l) (.layer (b.store (some a))) D
    | none => D) D

/-- bathygrid/backends.py:407-425, 593-611 -/
def saveRes (fmt : ℚ → Name) (b : Backend) (t : Tile) (D : Dir) (r : ℚ) : Res Dir :=
  match t.cells.get? r with
  | none => .fail D .keyError
  | some ls =>
    let D := saveLayers fmt b r ls D
    match t.edgesX.get? r with
    | none => .fail D .keyError
    | some ex =>
      let D := saveItem (edgesXPath fmt r) (.nums (b.store (some ex))) D
      match t.edgesY.get? r with
      | none => .fail D .keyError
      | some ey => .ok (saveItem (edgesYPath fmt r) (.nums (b.store (some ey))) D)

/-- bathygrid/backends.py:427-428, 613-614 -/
def saveIndices (fmt : ℚ → Name) (b : Backend) (t : Tile) (D : Dir) : Dir :=
  t.cellIdx.foldl (fun D p => saveItem (indicesPath fmt p.1) (.ints (b.store (some p.2))) D) D

/-- bathygrid/backends.py:383-428, 569-614 `_save_tile_data`: `listdir` gives the names of a folder, in any order -/
def saveData (fmt : ℚ → Name) (listdir : Dir → List Name) (b : Backend) (t : Tile) (part : Tile.Part) (D : Dir) : Res Dir :=
  let D := if part = .grid then D else saveItem dataPath (.pts (b.store t.data)) D
  let r : Res Dir := if part = .points then .ok D else Res.forEach t.cells.keys (removeCells (listdir D) D) (saveRes fmt b t)
  r.andThen (fun D => .ok (saveIndices fmt b t D))

/-- bathygrid/backends.py:448-453, 634-639: one name of the folder -/
def scanStep (parse : Name → Option ℚ) (found : List ℚ) (n : Name) : Except Err (List ℚ) :=
  match splitU n with
  | w :: ws =>
    if w = ['c', 'e', 'l', 'l', 's'] then
      match ws with
      | [] => .error .indexError
      | s :: _ =>
        match parse s with
        | none => .error .valueError
        | some r => .ok (if r ∈ found then found else found ++ [r])
    else .ok found
  | [] => .ok found

/-- bathygrid/backends.py:446-454, 632-640: the resolutions in the names (`sort` is that of Storage.lean: sorted without repetition) -/
def scan (parse : Name → Option ℚ) (names : List Name) : Except Err (List ℚ) := (names.foldlM (scanStep parse) []).map npUnique

/-- `_load_array` (bathygrid/backends.py:380-381, 562-567).  An array of another kind is not modelled: it does not occur. -/
def readPts (D : Dir) (n : Name) : Except Err PtArr :=
  match D.get? n with
  | none => .error .fileNotFoundError
  | some (.pts a) => .ok a.value
  | some _ => .error .valueError

def readNums (D : Dir) (n : Name) : Except Err (List ℚ) :=
  match D.get? n with
  | none => .error .fileNotFoundError
  | some (.nums a) => .ok a.value
  | some _ => .error .valueError

def readInts (D : Dir) (n : Name) : Except Err (List Int) :=
  match D.get? n with
  | none => .error .fileNotFoundError
  | some (.ints a) => .ok a.value
  | some _ => .error .valueError

/-- `if os.path.exists(…): … = self._load_array(…)` -/
def readLayer (D : Dir) (n : Name) : Option LayerArr :=
  match D.get? n with
  | some (.layer a) => some a.value
  | _ => none

/-- bathygrid/backends.py:458-477, 644-663 -/
def loadRes (fmt : ℚ → Name) (D : Dir) (t : Tile) (r : ℚ) : Except Err Tile :=
  match readNums D (edgesXPath fmt r), readNums D (edgesYPath fmt r) with
  | .ok ex, .ok ey =>
    .ok { t with cells := t.cells.set r (Tile.savedLayers.filterMap (fun l => (readLayer D (layerPath fmt r l)).map (fun a => (l, a)))),
                 edgesX := t.edgesX.set r ex, edgesY := t.edgesY.set r ey }
  | .error e, _ => .error e
  | _, .error e => .error e

/-- bathygrid/backends.py:478-479, 664-665 -/
def loadIndex (fmt : ℚ → Name) (D : Dir) (t : Tile) (r : ℚ) : Except Err Tile :=
  match readInts D (indicesPath fmt r) with
  | .ok l => .ok { t with cellIdx := t.cellIdx.set r l }
  | .error e => .error e

/-- bathygrid/backends.py:101-121 `_load_tile_metadata` -/
def loadMeta (D : Dir) (t : Tile) : Except Err Tile :=
  match D.get? metaPath with
  | none => .error .environmentError
  | some (.info (.full m)) => .ok (t.setMeta m)
  | some _ => .error .valueError

/-- bathygrid/backends.py:430-479, 616-665 `_load_tile_data` -/
def loadData (fmt : ℚ → Name) (parse : Name → Option ℚ) (listdir : Dir → List Name) (D : Dir) (part : Tile.Part) (t : Tile) : Except Err Tile := do
  let rs ← scan parse (listdir D)
  let t ← if part = .grid then pure t else (readPts D dataPath).map (fun d => { t with data := some d })
  let t ← if part = .points then pure t else rs.foldlM (loadRes fmt D) t
  rs.foldlM (loadIndex fmt D) t

/-- bathygrid/backends.py:219-244 `_save_tile` with an output folder; `none`: no folder -/
def saveTile (fmt : ℚ → Name) (listdir : Dir → List Name) (b : Backend) (t : Option Tile) (part : Tile.Part) (D : Option Dir) : Res (Option Dir) :=
  match t with
  | none => .ok none
  | some t =>
    let r := saveData fmt listdir b t part (saveMeta t (D.getD []))
    ⟨some r.st, r.err⟩

/-- bathygrid/backends.py:289-319 `_load_tile` -/
def loadTile (fmt : ℚ → Name) (parse : Name → Option ℚ) (listdir : Dir → List Name) (old : Option Tile) (part : Tile.Part) (D : Option Dir) : Except Err (Option Tile) :=
  match D with
  | none => .ok none
  | some D => ((loadMeta D (old.getD (Tile.new 0 0 0 false))).bind (loadData fmt parse listdir D part)).map some

end Dir

/-- the files in the root folder of a grid, apart from the folders of the tiles (bathygrid/backends.py:36-43; bathygrid/grid_variables.py:32) -/
def rootFiles : List Name :=
  [['m', 'e', 't', 'a', 'd', 'a', 't', 'a', '.', 'j', 's', 'o', 'n'], ['t', 'i', 'l', 'e', '_', 'x', '_', 'o', 'r', 'i', 'g', 'i', 'n'], ['t', 'i', 'l', 'e', '_', 'y', '_', 'o', 'r', 'i', 'g', 'i', 'n'], ['t', 'i', 'l', 'e', '_', 'e', 'd', 'g', 'e', 's', '_', 'x'], ['t', 'i', 'l', 'e', '_', 'e', 'd', 'g', 'e', 's', '_', 'y'], ['e', 'x', 'i', 's', 't', 'i', 'n', 'g', '_', 't', 'i', 'l', 'e', '_', 'm', 'a', 's', 'k']]

end Bathy
