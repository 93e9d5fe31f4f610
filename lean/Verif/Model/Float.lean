import Verif.Model.Grid
import Verif.Model.Layers

/-!
# The geometry of grids in floating point arithmetic

The functions of `Model/Grid.lean` and `Model/Tile.lean` that calculate with coordinates, with every `+ - * /` followed by a rounding `rnd`.  Comparisons, `floor`,
`ceil`, `min`, `max` do not round.  The depths are not treated here: the mean depth is that of `Model/Grid.lean`.
-/

namespace Bathy

/-- `np.arange(start, stop, step)` as numpy calculates it: the length is `ceil((stop - start) / step)`, the first two elements are `start`, `start + step`, the others
`start + i * delta` with the difference `delta` of the first two -/
def arangeF (rnd : ℚ → ℚ) (start stop step : ℚ) : List ℚ :=
  let next := rnd (start + step)
  let delta := rnd (next - start)
  (List.range ⌈rnd (rnd (stop - start) / step)⌉.toNat).map (fun i : Nat => if i = 0 then start else if i = 1 then next else rnd (start + rnd ((i : ℚ) * delta)))

/-- `np.append(a, a[-1] + step)` -/
def appendEdgeF (rnd : ℚ → ℚ) (a : List ℚ) (step : ℚ) : Option (List ℚ) := a.getLast?.map (fun z => a ++ [rnd (z + step)])

namespace Tile

/-- bathygrid/tile.py:48-51, bathygrid/grids.py:281-302 `_init_from_size` -/
def newF (rnd : ℚ → ℚ) (x y size : ℚ) (isBackscatter : Bool) : Tile := { Tile.new x y size isBackscatter with maxX := rnd (x + size), maxY := rnd (y + size) }

/-- bathygrid/tile.py:316-351 `new_grid` -/
def newGridF (rnd : ℚ → ℚ) (t : Tile) (res : ℚ) (alg : Alg) : Res Tile :=
  if isPowerOfTwo res then
    let gx := arangeF rnd t.minX t.maxX res
    let gy := arangeF rnd t.minY t.maxY res
    match appendEdgeF rnd gx res, appendEdgeF rnd gy res with
    | some ex, some ey =>
      let nan : LayerArr := Arr2.fill gx.length gy.length none
      let zero : LayerArr := Arr2.fill gx.length gy.length (some 0)
      let hasTvu := match t.data with | some d => d.fields.hasTvu | none => false
      let hasThu := match t.data with | some d => d.fields.hasThu | none => false
      let layers : Dict Layer LayerArr :=
        match alg with
        | .mean | .shoalest =>
          [(t.depthKey, nan), (.density, zero)] ++ (if hasTvu then [(.vertical, nan)] else []) ++
            (if hasThu then [(.horizontal, nan)] else [])
        | .cube => [(t.depthKey, nan), (.density, zero), (.hypCount, zero), (.totalUnc, nan), (.hypRatio, nan)]
        | .other => []
      .ok { t with edgesX := t.edgesX.set res ex, edgesY := t.edgesY.set res ey, cells := t.cells.set res layers }
    | _, _ => .fail t .indexError
  else .fail t .valueError

/-- bathygrid/tile.py:534-541 `_return_cell_counts` -/
def cellCountsF (rnd : ℚ → ℚ) (t : Tile) (d : PtArr) (res : ℚ) : Except Err (List (Nat × Nat)) :=
  let gx := arangeF rnd t.minX t.maxX res
  let gy := arangeF rnd t.minY t.maxY res
  match appendEdgeF rnd gx res, appendEdgeF rnd gy res with
  | some ex, some ey => (bin2d [d.pts.map Pt.x] [d.pts.map Pt.y] ex ey).map uniqueCounts
  | _, _ => .error .indexError

end Tile

/-- what a grid does with its tiles, with rounding -/
class TileLikeF (τ : Type) [TileLike τ] where
  build : (ℚ → ℚ) → ℚ → ℚ → Bool → ℚ → ℚ → Except Err τ
  addPoints : (ℚ → ℚ) → τ → PtArr → String → Res τ

namespace Grid
variable {τ : Type}

/-- bathygrid/grids.py:94-101 -/
def adjustF (rnd : ℚ → ℚ) (lo hi origin size : ℚ) : ℚ × ℚ :=
  let l := rnd ((⌊rnd (rnd (lo - origin) / size)⌋ : ℚ) * size)
  let h := rnd ((⌈rnd (rnd (hi - origin) / size)⌉ : ℚ) * size)
  (l, if h = hi then rnd (h + size) else h)

/-- bathygrid/grids.py:89-103 `_adjust_extents` -/
def adjustExtentsF (rnd : ℚ → ℚ) (g : Grid τ) (e : Extents) : Extents :=
  if g.canGrow then
    let x := adjustF rnd e.minX e.maxX g.originX g.tileSize
    let y := adjustF rnd e.minY e.maxY g.originY g.tileSize
    ⟨x.1, x.2, y.1, y.2⟩
  else e

/-- bathygrid/grids.py:105-138 `_build_grid` -/
def buildGridF (rnd : ℚ → ℚ) (g : Grid τ) (e : Extents) : Res (Grid τ) :=
  let e := g.adjustExtentsF rnd e
  let g := { g with extents := some e }
  let xs := arangeF rnd e.minX e.maxX g.tileSize
  let ys := arangeF rnd e.minY e.maxY g.tileSize
  let finish := fun (g : Grid τ) =>
    match appendEdgeF rnd xs g.tileSize, appendEdgeF rnd ys g.tileSize with
    | some ex, some ey =>
      Res.ok { g with txs := xs, tys := ys, edgesX := ex, edgesY := ey, width := some (rnd (e.maxX - e.minX)), height := some (rnd (e.maxY - e.minY)),
                      maximumTiles := some (xs.length * ys.length) }
    | _, _ => .fail g .indexError
  if !g.isEmpty && g.canGrow then
    match existingMask g.txs g.tys xs ys with
    | some m => finish { g with mask := some m }
    | none => .fail g .indexError
  else finish g

/-- bathygrid/bgrid.py:569-588 `_update_base_grid`, with bathygrid/grids.py:140-182 -/
def updateBaseF (rnd : ℚ → ℚ) (g : Grid τ) (pts : List Pt) : Res (Grid τ) :=
  if g.isEmpty then
    if g.canGrow then
      match listMin (pts.map Pt.x), listMax (pts.map Pt.x), listMin (pts.map Pt.y), listMax (pts.map Pt.y) with
      | some x0, some x1, some y0, some y1 => g.buildGridF rnd ⟨x0, x1, y0, y1⟩
      | _, _, _, _ => .fail g .valueError
    else
      match g.extents with
      | some e => g.buildGridF rnd e
      | none => .fail g .valueError
  else if g.canGrow then
    match listMin (pts.map Pt.x), listMax (pts.map Pt.x), listMin (pts.map Pt.y), listMax (pts.map Pt.y), g.extents with
    | some x0, some x1, some y0, some y1, some e => g.buildGridF rnd ⟨min x0 e.minX, max x1 e.maxX, min y0 e.minY, max y1 e.maxY⟩
    | _, _, _, _, none => .fail g .typeError
    | _, _, _, _, _ => .fail g .valueError
  else .ok g

/-- bathygrid/bgrid.py:648-658: one round of the loop of `_add_points_to_tiles` -/
def addToTileF [TileLike τ] [TileLikeF τ] (rnd : ℚ → ℚ) (fields : Fields) (pts : List Pt) (bins : List Nat) (c : String) (g : Grid τ) (k : Nat) : Res (Grid τ) :=
  let sel := boolIndex pts (bins.map (fun b => decide (b = k)))
  let old : Except Err τ :=
    match g.tile? k with
    | none => .error .indexError
    | some (some t) => .ok t
    | some none =>
      match g.tileOrigin k with
      | some (x, y) => TileLikeF.build rnd g.tileSize g.subtileSize g.isBackscatter x y
      | none => .error .indexError
  match old with
  | .error e => .fail g e
  | .ok t =>
    let r := TileLikeF.addPoints rnd t ⟨fields, sel⟩ c
    match r.err with
    | some e => .fail (g.setTile k (some r.st)) e
    | none => .ok (g.setTile k (if TileLike.isEmpty r.st then none else some r.st))

/-- bathygrid/bgrid.py:615-663 `_add_points_to_tiles` -/
def addToTilesF [TileLike τ] [TileLikeF τ] (rnd : ℚ → ℚ) (g : Grid τ) (d : PtArr) (c : String) : Res (Grid τ) :=
  match bin2d [d.pts.map Pt.x] [d.pts.map Pt.y] g.edgesX g.edgesY with
  | .error e => .fail g e
  | .ok bins =>
    (Res.forEach (npUnique bins) g (addToTileF rnd d.fields d.pts bins c)).andThen (fun g =>
      .ok { g with numberOfTiles := some (g.countTiles : Int) })

/-- bathygrid/bgrid.py:665-706 `add_points` -/
def addPointsF [TileLike τ] [TileLikeF τ] (rnd : ℚ → ℚ) (g : Grid τ) (d : PtArr) (c : String) (a : AddArgs) : Res (Grid τ) :=
  if g.info.container.has c then .fail g .valueError
  else
    let r := g.info.update c a
    match r.err with
    | some e => .fail { g with info := r.st } e
    | none =>
      (updateBaseF rnd { g with info := r.st } d.pts).andThen (fun g =>
        (placeTiles g).andThen (fun g =>
          (addToTilesF rnd g d c).andThen (fun g =>
            .ok { g with meanDepth := meanDepthOf d.pts })))

/-- bathygrid/maingrid.py:59-61: the extents of a subgrid -/
def newSubF (rnd : ℚ → ℚ) (x y size tileSize : ℚ) : Except Err (Grid τ) :=
  if isPowerOfTwo tileSize then
    .ok (blank "" false x y tileSize 0 false (some ⟨x, rnd (x + size), y, rnd (y + size)⟩))
  else .error .valueError

/-- bathygrid/bgrid.py:1747-1795 `return_surf_xyz` -/
def returnSurfF [LayerLike τ] (rnd : ℚ → ℚ) (env : Env) (g : Grid τ) (layers : List Layer) (res : Option ℚ) (boundaries : Bool) (nodata : Option ℚ) : Grid τ × Except Err Surf :=
  match g.noGrid with
  | .error e => (g, .error e)
  | .ok true => (g, .error .valueError)
  | .ok false =>
    match g.queryRes res with
    | .error e => (g, .error e)
    | .ok r =>
      match g.getLayersTrimmed env layers (some r) nodata false with
      | (g, .error e) => (g, .error e)
      | (g, .ok s) =>
        match g.extents with
        | none => (g, .error .typeError)
        | some e =>
          let xs := arangeF rnd e.minX e.maxX r
          let ys := arangeF rnd e.minY e.maxY r
          if boundaries then (g, .ok ⟨Tile.slice xs s.cmin (s.cmax + 1), Tile.slice ys s.rmin (s.rmax + 1), s⟩)
          else (g, .ok ⟨Tile.slice (xs.map (fun x => rnd (x + rnd (r / 2)))) s.cmin s.cmax, Tile.slice (ys.map (fun y => rnd (y + rnd (r / 2)))) s.rmin s.rmax, s⟩)

end Grid

/-- bathygrid/bgrid.py:461-479 -/
instance : TileLikeF Tile where
  build rnd size _ bs x y := .ok (Tile.newF rnd x y size bs)
  addPoints _ := Tile.addPoints

/-- bathygrid/maingrid.py:37-61 -/
instance {τ : Type} [TileLike τ] [TileLikeF τ] : TileLikeF (Grid τ) where
  build rnd size sub _ x y := Grid.newSubF rnd x y size sub
  addPoints rnd g d c := g.addPointsF rnd d c {}

end Bathy
