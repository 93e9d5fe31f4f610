import Verif.Model.Layers

/-!
# Csv export (bathygrid/bgrid.py:1711-1733, 2231-2272)

Not modelled: the text of the numbers (`%.3f`, `%i`) and the name of the file, which is made from the resolution.
-/

namespace Bathy

/-- what `return_layer_names` looks at for a tile that is not None -/
class NamesLike (τ : Type) where
  /-- the names it returns, `none` if it goes on to the next tile -/
  layerNames : τ → Except Err (Option (List Layer))

/-- bathygrid/bgrid.py:1724-1725, 1729-1730: the layers of the first resolution of the tile -/
def Tile.firstNames (t : Tile) : Option (List Layer) := t.cells.head?.map (fun p => p.2.keys)

/-- bathygrid/bgrid.py:1726-1730: the subgrid; `None > 0` is a TypeError, `None.flat` an AttributeError -/
def Grid.subLayerNames (g : Grid Tile) : Except Err (Option (List Layer)) :=
  match g.numberOfTiles with
  | none => .error .typeError
  | some n =>
    if 0 < n then
      match g.tiles with
      | none => .error .attributeError
      | some _ => .ok (g.present.findSome? Tile.firstNames)
    else .ok none

instance : NamesLike Tile := ⟨fun t => .ok t.firstNames⟩
instance : NamesLike (Grid Tile) := ⟨Grid.subLayerNames⟩

/-- bathygrid/bgrid.py:1721-1731: the loop over the tiles -/
def namesLoop {τ : Type} [NamesLike τ] : List τ → Except Err (List Layer)
  | [] => .ok []
  | t :: ts =>
    match NamesLike.layerNames t with
    | .error e => .error e
    | .ok none => namesLoop ts
    | .ok (some ns) => .ok ns

/-- a column of the file: the coordinates, the layer `depth` under the name `elevation`, or a layer under its own name -/
inductive CsvCol
  | x
  | y
  | elevation
  | layer (l : Layer)
  deriving DecidableEq

structure CsvRow where
  x : ℚ
  y : ℚ
  values : List (Option ℚ)
  deriving DecidableEq

structure CsvFile where
  header : List CsvCol
  rows : List CsvRow
  deriving DecidableEq

/-- `np.meshgrid(x, y)[0].ravel()` -/
def meshX (xs ys : List ℚ) : List ℚ := ys.flatMap (fun _ => xs)
/-- `np.meshgrid(x, y)[1].ravel()` -/
def meshY (xs ys : List ℚ) : List ℚ := ys.flatMap (fun y => xs.map (fun _ => y))

/-- bathygrid/bgrid.py:2259-2263: name and numbers of one layer; `lyrdata[cnt] * -1` leaves NaN -/
def csvColumn (zUp : Bool) (meanDepth : ℚ) (l : Layer) (a : LayerArr) : CsvCol × List (Option ℚ) :=
  if l = .depth ∧ zUp = true then (.elevation, if 0 < meanDepth then a.flat.map (Option.map (fun v => -v)) else a.flat)
  else (.layer l, a.flat)

/-- row `k` of the table; an index that is missing in one of the columns is an IndexError -/
def csvRow (xs ys : List ℚ) (cols : List (List (Option ℚ))) (k : Nat) : Except Err CsvRow :=
  match xs[k]?, ys[k]?, cols.mapM (fun c => c[k]?) with
  | some x, some y, some vs => .ok ⟨x, y, vs⟩
  | _, _, _ => .error .indexError

namespace Grid
variable {τ : Type} [LayerLike τ] [NamesLike τ]

/-- bathygrid/bgrid.py:1711-1733 `return_layer_names` -/
def returnLayerNames (g : Grid τ) : Except Err (List Layer) :=
  match g.noGrid with
  | .error e => .error e
  | .ok true => .ok []
  | .ok false => namesLoop g.present

/-- bathygrid/bgrid.py:2251-2272: the table for one resolution, sorted by x (not stable) -/
def csvFile (env : Env) (g : Grid τ) (res : ℚ) (zUp : Bool) : Grid τ × Except Err CsvFile :=
  match g.returnLayerNames with
  | .error e => (g, .error e)
  | .ok lyrs =>
    match g.returnSurf env lyrs (some res) false none with
    | (g, .error e) => (g, .error e)
    | (g, .ok s) =>
      if s.trimmed.data.length < lyrs.length then (g, .error .indexError)
      else
        let cols := List.zipWith (csvColumn zUp g.meanDepth) lyrs s.trimmed.data
        let xs := meshX s.xs s.ys
        let ys := meshY s.xs s.ys
        match (env.argsortQ.run xs).mapM (csvRow xs ys (cols.map Prod.snd)) with
        | .error e => (g, .error e)
        | .ok rows => (g, .ok ⟨.x :: .y :: cols.map Prod.fst, rows⟩)

/-- bathygrid/bgrid.py:2250-2272: the loop over the resolutions; the files that were written so far, and what was raised -/
def csvLoop (env : Env) (zUp : Bool) : List ℚ → Grid τ → List (ℚ × CsvFile) → Grid τ × List (ℚ × CsvFile) × Option Err
  | [], g, fs => (g, fs, none)
  | r :: rs, g, fs =>
    match g.csvFile env r zUp with
    | (g, .error e) => (g, fs, some e)
    | (g, .ok f) => csvLoop env zUp rs g (fs ++ [(r, f)])

/-- bathygrid/bgrid.py:2231-2272 `_export_csv` -/
def exportCsv (env : Env) (g : Grid τ) (zUp : Bool) (res : Option ℚ) : Grid τ × List (ℚ × CsvFile) × Option Err :=
  csvLoop env zUp (match res with | none => g.resolutions | some r => [r]) g []

end Grid

end Bathy
