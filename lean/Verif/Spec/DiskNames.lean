import Verif.Model.DiskNames

/-!
# C103: names on disk

`FloatText`: what is assumed of `'{}'.format(x)` and `float(s)` for floats.  `Named`: the folder `D` with its names is the folder `f` of Storage.lean.
-/

namespace Bathy

/-- python: `float('{}'.format(x)) == x`; the text has no '_' and begins with a digit or '-' (a finite float) -/
structure FloatText (fmt : ℚ → Name) (parse : Name → Option ℚ) : Prop where
  parse_fmt : ∀ q, parse (fmt q) = some q
  plain : ∀ q, '_' ∉ fmt q
  start : ∀ q, ∃ c cs, fmt q = c :: cs ∧ (c = '-' ∨ c.isDigit = true)

/-- `os.listdir` gives every name in the folder, in any order -/
def Lists (listdir : Dir → List Name) : Prop := ∀ D n, n ∈ listdir D ↔ n ∈ Dict.keys D

/-- the things in the folder of a tile -/
inductive TilePart
  | info | data
  | layer (r : ℚ) (l : Layer)
  | edgesX (r : ℚ) | edgesY (r : ℚ) | indices (r : ℚ)
  deriving DecidableEq

namespace TilePart

def path (fmt : ℚ → Name) : TilePart → Name
  | info => metaPath
  | data => dataPath
  | layer r l => layerPath fmt r l
  | edgesX r => edgesXPath fmt r
  | edgesY r => edgesYPath fmt r
  | indices r => indicesPath fmt r

/-- the eight layers that are written -/
def Kept : TilePart → Prop
  | layer _ l => l ∈ Tile.savedLayers
  | _ => True

end TilePart

/-- what Storage.lean has in the folder -/
def TileFolder.item (f : TileFolder) : TilePart → Option Item
  | .info => match f.info with
    | .absent => none
    | j => some (.info j)
  | .data => f.data.map .pts
  | .layer r l => (f.layers.get? (r, l)).map .layer
  | .edgesX r => (f.edgesX.get? r).map .nums
  | .edgesY r => (f.edgesY.get? r).map .nums
  | .indices r => (f.indices.get? r).map .ints

/-- `D` has under each name what `f` has, and no other names -/
structure Named (fmt : ℚ → Name) (f : TileFolder) (D : Dir) : Prop where
  item : ∀ p : TilePart, p.Kept → Dict.get? D (p.path fmt) = f.item p
  only : ∀ n ∈ Dict.keys D, ∃ p : TilePart, p.Kept ∧ n = p.path fmt
  layers : ∀ k ∈ f.layers.keys, k.2 ∈ Tile.savedLayers

/-- both folders are there, or both are not -/
def NamedFolder (fmt : ℚ → Name) : Option TileFolder → Option Dir → Prop
  | none, none => True
  | some f, some D => Named fmt f D
  | _, _ => False

end Bathy
