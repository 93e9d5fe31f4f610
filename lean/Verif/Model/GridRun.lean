import Verif.Model.Grid

/-!
# Gridding a grid (bathygrid/bgrid.py)

`Grid.grid` for the single resolution grid (`Grid Tile`), the variable resolution grid (`Grid (Grid Tile)`) and its subgrids, without an
output folder (`_save_tile`, `_load_tile`, `_save_grid` do nothing then), sequential and with Dask workers.
-/

namespace Bathy

/-- the sides of a tile, named as in bathygrid/bgrid.py:892-936: `up` is the previous row (smaller y), `down` the next one -/
inductive Side
  | up | right | down | left
  deriving DecidableEq, Repr

/-- the arguments of `grid` (bathygrid/bgrid.py:1461-1463), without `use_dask` and `progress_bar` -/
structure GridCall where
  alg : Alg
  res : Option ℚ
  clear : Bool := false
  mode : AutoMode := .depth
  regrid : RegridOption := .full
  params : Option GridParams := none
  border : Option PtArr := none

/-- what a grid uses of its tiles when it grids (bathygrid/bgrid.py:1279-1521) -/
class GridLike (τ : Type) extends TileLike τ where
  /-- is it an `SRTile` (not a subgrid)? -/
  isLeaf : Bool
  /-- `tile.grid(…)` and the list of resolutions it returns -/
  grid : Env → τ → GridCall → Res τ × List ℚ
  pointCountChanged : τ → Bool
  resolutions : τ → List ℚ
  width : τ → Option ℚ
  resolutionByDensity : Env → τ → Except Err ℚ
  /-- the soundings within the buffer of the border, see `Tile.sidePoints` -/
  sidePoints : τ → Side → ℚ → Except Err (List PtArr)

/-- bathygrid/bgrid.py:962-992: the soundings of the tile on the given side of another one that are within `buf` of the shared border -/
def Tile.sidePoints (t : Tile) (s : Side) (buf : ℚ) : Except Err (List PtArr) :=
  match t.data with
  | none => .error .typeError
  | some d =>
    let keep : Pt → Bool := fun p =>
      match s with
      | .up => decide (p.y ≥ t.maxY - buf)
      | .right => decide (p.x ≤ t.minX + buf)
      | .down => decide (p.y ≤ t.minY + buf)
      | .left => decide (p.x ≥ t.maxX - buf)
    .ok [⟨d.fields, boolIndex d.pts (d.pts.map keep)⟩]

instance : GridLike Tile where
  isLeaf := true
  grid env t a :=
    let r := t.grid env a.alg a.res a.clear a.mode a.params a.border
    (r.1, r.2.toList)
  pointCountChanged := Tile.pointCountChanged
  resolutions := Tile.resolutions
  width t := some t.width
  resolutionByDensity env t := t.resolutionByDensity env none
  sidePoints := Tile.sidePoints

/-- `np.concatenate` of structured arrays: the fields have to agree (bathygrid/bgrid.py:994, 1326) -/
def concatPts : List PtArr → Except Err PtArr
  | [] => .error .valueError
  | d :: ds => if ds.all (fun e => decide (e.fields = d.fields)) then .ok ⟨d.fields, ((d :: ds).map PtArr.pts).flatten⟩ else .error .typeError

/-- `for rz in rs: if rz not in self.resolutions: append` (bathygrid/bgrid.py:1316-1318, 1342-1344) -/
def addNew (l rs : List ℚ) : List ℚ := rs.foldl (fun acc r => if r ∈ acc then acc else acc ++ [r]) l

namespace Grid
variable {τ : Type}

/-- bathygrid/bgrid.py:313-324 `point_count_changed` -/
def pointCountChanged [GridLike τ] (g : Grid τ) : Bool :=
  match g.tiles with
  | none => false
  | some T => T.flat.any (fun o => match o with | some t => GridLike.pointCountChanged t | none => false)

/-- bathygrid/bgrid.py:413-432 `_calculate_resolution_lookup` -/
def resolutionLookup (g : Grid τ) : Except Err ℚ :=
  if g.meanDepth = 0 then .error .valueError else .ok (min g.tileSize (Tile.lookupArgmax (some g.meanDepth)))

/-- the tiles that exist, in flat order -/
def present (g : Grid τ) : List τ := match g.tiles with | none => [] | some T => T.flat.filterMap id

/-- bathygrid/bgrid.py:434-459 `resolution_by_density`.  Tiles are evaluated in order; the first failure is raised. -/
def resolutionByDensity [GridLike τ] (env : Env) (g : Grid τ) : Except Err ℚ :=
  match g.tiles with
  | none => .error .typeError
  | some _ =>
    match g.present.mapM (GridLike.resolutionByDensity env) with
    | .error e => .error e
    | .ok rs => .ok ((listMax rs).getD 0)

/-- bathygrid/bgrid.py:892-936 `get_tile_neighbors` for the tile with flat index `k`.
Simplification: `np.where(self.tiles == til)` finds the one slot that holds the tile object. -/
def neighbor (g : Grid τ) (k : Nat) (s : Side) : Option τ :=
  match g.tiles with
  | none => none
  | some T =>
    let r := k / T.cols
    let c := k % T.cols
    let at_ : Nat → Nat → Option τ := fun r c => (T.get? r c).join
    match s with
    | .up => if r = 0 then none else at_ (r - 1) c
    | .right => at_ r (c + 1)
    | .down => at_ (r + 1) c
    | .left => if c = 0 then none else at_ r (c - 1)

/-- bathygrid/bgrid.py:958-992: the soundings that `get_tile_neighbor_points` takes from one side -/
def neighborSide [GridLike τ] (g : Grid τ) (k : Nat) (buf : ℚ) (s : Side) : Except Err (List PtArr) :=
  match g.neighbor k s with
  | none => .ok []
  | some t => GridLike.sidePoints t s buf

/-- bathygrid/bgrid.py:938-1002 `get_tile_neighbor_points` for the tile with flat index `k` -/
def neighborPoints [GridLike τ] (g : Grid τ) (k : Nat) (buf : ℚ) : Except Err (Option PtArr) :=
  match [Side.up, .right, .down, .left].mapM (g.neighborSide k buf) with
  | .error e => .error e
  | .ok ls =>
    match ls.flatten with
    | [] => .ok none
    | ds =>
      match concatPts ds with
      | .error e => .error e
      | .ok d => .ok (if d.pts.length = 0 then none else some d)

/-- bathygrid/bgrid.py:1322-1330, 1434-1445: the border soundings passed to the tile with flat index `k`.
`limit` is `some (resolution * 3)` for the parallel run with a fixed resolution. -/
def borderFor [GridLike τ] (g : Grid τ) (k : Nat) (t : τ) (alg : Alg) (limit : Option ℚ) (gridBorder : Option PtArr) : Except Err (Option PtArr) :=
  match alg with
  | .cube =>
    match GridLike.width t with
    | none => .error .typeError
    | some w =>
      let buf := match limit with | none => w / 10 | some l => min (w / 10) l
      match g.neighborPoints k buf, gridBorder with
      | .error e, _ => .error e
      | .ok b, none => .ok b
      | .ok none, some gb => .ok (some gb)
      | .ok (some b), some gb =>
        match concatPts [b, gb] with
        | .error e => .error e
        | .ok d => .ok (some d)
  | _ => .ok none

/-- what `grid` has worked out before the loop over the tiles: `resolution` after line 1514 and `auto_resolution` (`none` is '') -/
structure Plan where
  resolution : Option ℚ
  auto : Option AutoMode

/-- bathygrid/bgrid.py:1331-1339, 1939-1954: the resolution passed on to the tile.
`auto_resolution` is passed on as mode; '' counts as an unknown mode. -/
def childCall [GridLike τ] (g : Grid τ) (a : GridCall) (p : Plan) (clear : Bool) (border : Option PtArr) : GridCall :=
  let own := p.auto.isSome && (!(GridLike.isLeaf (τ := τ)) || !(g.name == "SRGrid_Root" || g.name == "SRGridZarr_Root"))
  { alg := a.alg, res := if own then none else p.resolution, clear := clear, mode := p.auto.getD .other, regrid := a.regrid,
    params := g.gridParams, border := border }

/-- is the tile skipped by an update (bathygrid/bgrid.py:1312-1319)? -/
def skips [GridLike τ] (a : GridCall) (clear : Bool) (t : τ) : Bool := a.regrid == .update && !clear && !GridLike.pointCountChanged t

/-- `clear_existing` after the decision to grid a tile (bathygrid/bgrid.py:1320-1321); the variable keeps this value for the following tiles -/
def clearNext [GridLike τ] (a : GridCall) (clear : Bool) (_t : τ) : Bool := if a.regrid == .update && GridLike.isLeaf (τ := τ) then true else clear

/-- bathygrid/bgrid.py:1308-1348: one round of the loop of `_grid_regular`.  The state is the grid and `clear_existing`. -/
def gridStep [GridLike τ] (env : Env) (a : GridCall) (p : Plan) (s : Grid τ × Bool) (k : Nat) : Res (Grid τ × Bool) :=
  let (g, clear) := s
  match g.tile? k with
  | some (some t) =>
    if skips a clear t then .ok ({ g with resolutions := addNew g.resolutions (GridLike.resolutions t) }, clear)
    else
      let clear := clearNext a clear t
      match g.borderFor k t a.alg none a.border with
      | .error e => .fail (g, clear) e
      | .ok b =>
        let r := GridLike.grid env t (g.childCall a p clear b)
        let g := g.setTile k (some r.1.st)
        match r.1.err with
        | some e => .fail (g, clear) e
        | none => .ok ({ g with resolutions := addNew g.resolutions r.2 }, clear)
  | _ => .ok (g, clear)

/-- bathygrid/bgrid.py:1279-1350 `_grid_regular`; `np.sort(np.unique(resolutions))` -/
def gridRegular [GridLike τ] (env : Env) (g : Grid τ) (a : GridCall) (p : Plan) : Res (Grid τ) :=
  let r := Res.forEach (List.range g.slots) (g, a.clear) (gridStep env a p)
  match r.err with
  | some e => .fail r.st.1 e
  | none => .ok { r.st.1 with resolutions := npUnique r.st.1.resolutions }

/-- bathygrid/bgrid.py:1493-1515: what happens before the loop over the tiles.  The error leaves the attributes that were set before. -/
def gridPlan [GridLike τ] (env : Env) (g : Grid τ) (a : GridCall) : Res (Grid τ) × Plan :=
  match g.gridAlgorithm with
  | some al => if al ≠ a.alg ∧ a.clear = false then (.fail g .valueError, ⟨none, none⟩) else go g
  | none => go g
where
  /-- the part after the check of the algorithm -/
  go (g : Grid τ) : Res (Grid τ) × Plan :=
    let g := { g with gridAlgorithm := some a.alg, gridResolution := (match a.res with | some r => .value r | none => .unset), gridParams := a.params }
    if g.isEmpty then (.fail g .valueError, ⟨none, none⟩)
    else
      match a.res with
      | some r => (.ok { g with resolutions := [] }, ⟨some r, none⟩)
      | none =>
        let g := { g with gridResolution := .auto a.mode }
        if g.name = "VRGridTile_Root" then (.ok { g with resolutions := [] }, ⟨none, some a.mode⟩)
        else
          match a.mode with
          | .depth =>
            match g.resolutionLookup with
            | .error e => (.fail g e, ⟨none, none⟩)
            | .ok r => (.ok { g with resolutions := [] }, ⟨some r, some .depth⟩)
          | .density =>
            match g.resolutionByDensity env with
            | .error e => (.fail g e, ⟨none, none⟩)
            | .ok r => (.ok { g with resolutions := [] }, ⟨some r, some .density⟩)
          | .other => (.ok { g with resolutions := [] }, ⟨none, some .other⟩)

/-- bathygrid/bgrid.py:1461-1521 `grid` with `use_dask=False`.  The list returned is the attribute `resolutions`. -/
def grid [GridLike τ] (env : Env) (g : Grid τ) (a : GridCall) : Res (Grid τ) :=
  let r := gridPlan env g a
  r.1.andThen (fun g => g.gridRegular env a r.2)

/-! ### Dask workers -/

/-- the data sent to a worker: the tile with its flat index, and the arguments of its `grid` call (bathygrid/bgrid.py:1446) -/
structure Job (τ : Type) where
  idx : Nat
  tile : τ
  call : GridCall

/-- bathygrid/bgrid.py:1352-1376 `_grid_parallel_worker`.  The workers get copies of the tiles, and the results are only used once all are
there, so a failing worker leaves the tiles of its group as they were.  Which of several failures is raised is left open by Dask; the
model takes the first. -/
def runJobs [GridLike τ] (env : Env) (g : Grid τ) (jobs : List (Job τ)) : Res (Grid τ) :=
  let rs := jobs.map (fun j => GridLike.grid env j.tile j.call)
  match rs.findSome? (fun r => r.1.err) with
  | some e => .fail g e
  | none =>
    let g := (jobs.zip rs).foldl (fun g jr => g.setTile jr.1.idx (some jr.2.1.st)) g
    .ok { g with resolutions := addNew g.resolutions (rs.map Prod.snd).flatten }

/-- state of the loop of `_grid_parallel`: the grid, `clear_existing`, and the jobs collected so far -/
structure ParState (τ : Type) where
  grid : Grid τ
  clear : Bool
  jobs : List (Job τ)

/-- bathygrid/bgrid.py:1435-1438: the limit of the border buffer in the parallel run -/
def parLimit (a : GridCall) (p : Plan) : Except Err (Option ℚ) :=
  match a.alg, p.auto, p.resolution with
  | .cube, none, some r => .ok (some (r * 3))
  | .cube, none, none => .error .typeError
  | _, _, _ => .ok none

/-- bathygrid/bgrid.py:1419-1454: one round of the loop of `_grid_parallel` with `n` workers -/
def parStep [GridLike τ] (env : Env) (n : Nat) (a : GridCall) (p : Plan) (s : ParState τ) (k : Nat) : Res (ParState τ) :=
  match s.grid.tile? k with
  | some (some t) =>
    if skips a s.clear t then .ok { s with grid := { s.grid with resolutions := addNew s.grid.resolutions (GridLike.resolutions t) } }
    else
      let clear := clearNext a s.clear t
      match parLimit a p with
      | .error e => .fail { s with clear := clear } e
      | .ok limit =>
        match s.grid.borderFor k t a.alg limit a.border with
        | .error e => .fail { s with clear := clear } e
        | .ok b =>
          let jobs := s.jobs ++ [⟨k, t, s.grid.childCall a p clear b⟩]
          if jobs.length = n then
            let r := runJobs env s.grid jobs
            ⟨⟨r.st, clear, []⟩, r.err⟩
          else .ok ⟨s.grid, clear, jobs⟩
  | _ => .ok s

/-- bathygrid/bgrid.py:1455-1457: the jobs left after the loop -/
def lastJobs [GridLike τ] (env : Env) (g : Grid τ) (jobs : List (Job τ)) : Res (Grid τ) := if jobs.isEmpty then .ok g else runJobs env g jobs

/-- bathygrid/bgrid.py:1378-1459 `_grid_parallel` with `n` workers -/
def gridParallel [GridLike τ] (env : Env) (n : Nat) (g : Grid τ) (a : GridCall) (p : Plan) : Res (Grid τ) :=
  let r := Res.forEach (List.range g.slots) (⟨{ g with resolutions := [] }, a.clear, []⟩ : ParState τ) (parStep env n a p)
  match r.err with
  | some e => .fail r.st.grid e
  | none =>
    (lastJobs env r.st.grid r.st.jobs).andThen (fun g =>
      .ok { g with resolutions := npUnique g.resolutions })

/-- bathygrid/bgrid.py:1461-1521 `grid` with `use_dask=True` and `n` workers -/
def gridDask [GridLike τ] (env : Env) (n : Nat) (g : Grid τ) (a : GridCall) : Res (Grid τ) :=
  let r := gridPlan env g a
  r.1.andThen (fun g => g.gridParallel env n a r.2)

/-- bathygrid/bgrid.py:1461-1521 `grid`: `dask` is `none` for `use_dask=False`, else the number of workers -/
def gridWith [GridLike τ] (env : Env) (g : Grid τ) (a : GridCall) (dask : Option Nat) : Res (Grid τ) :=
  match dask with
  | none => g.grid env a
  | some n => g.gridDask env n a

/-- bathygrid/bgrid.py:962-992: one tile of a neighbouring subgrid -/
def slotSide [GridLike τ] (s : Side) (buf : ℚ) (o : Option τ) : Except Err (List PtArr) :=
  match o with
  | none => .error .attributeError
  | some t => GridLike.sidePoints t s buf

/-- bathygrid/bgrid.py:962-992 for a neighbouring subgrid: all its tiles are visited, also the missing ones (AttributeError) -/
def sidePoints [GridLike τ] (g : Grid τ) (s : Side) (buf : ℚ) : Except Err (List PtArr) :=
  match g.tiles with
  | none => .error .attributeError
  | some T =>
    match T.flat.mapM (slotSide s buf) with
    | .error e => .error e
    | .ok ls => .ok ls.flatten

end Grid

instance {τ : Type} [GridLike τ] : GridLike (Grid τ) where
  isLeaf := false
  grid env g a :=
    let r := g.grid env a
    (r, if r.err = none then r.st.resolutions else [])
  pointCountChanged := Grid.pointCountChanged
  resolutions := Grid.resolutions
  width := Grid.width
  resolutionByDensity := Grid.resolutionByDensity
  sidePoints := Grid.sidePoints

end Bathy
