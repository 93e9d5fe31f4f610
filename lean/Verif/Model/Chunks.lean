import Verif.Model.Layers

/-!
# Chunks of tiles and exports (bathygrid/bgrid.py:1004-1187, 2231-2315, bathygrid/utilities.py:297-348)

Not modelled: the files themselves (GDAL and `np.savetxt` are given the arrays of the model), the names of bands, the metadata of BAG files.
-/

namespace Bathy

/-- `np.array_split(a, k)` along an axis of length `n`: the first `n % k` sections have `n // k + 1` entries, the others `n // k`.  This is the
start of section `i`. -/
def splitStart (n k i : Nat) : Nat := i * (n / k) + min i (n % k)

/-- the sections as pairs of start and stop -/
def splitSections (n k : Nat) : List (Nat × Nat) := (List.range k).map (fun i => (splitStart n k i, splitStart n k (i + 1)))

/-- `a[r0:r1, c0:c1]` for an array of objects, indices inside the array -/
def slice2 {α : Type} (a : Arr2 (Option α)) (r0 r1 c0 c1 : Nat) : Arr2 (Option α) := Arr2.ofFn (r1 - r0) (c1 - c0) (fun r c => (a.get? (r0 + r) (c0 + c)).join)

/-- `a[a != None].tolist()` -/
def notNone {α : Type} (a : Arr2 (Option α)) : List α := a.flat.filterMap id

/-- `np.ceil(n / m)` -/
def ceilDiv (n m : Nat) : Nat := (n + m - 1) / m

/-- bathygrid/bgrid.py:1054-1093 `_split_to_approx_shape` for a two dimensional array and the shape `(mr, mc)`.  The comparison of the shapes is
python's comparison of tuples.  `np.array_split` raises ValueError for no sections.  Simplification: `mr` and `mc` are not 0. -/
def splitToApproxShape {α : Type} (a : Arr2 (Option α)) (mr mc : Nat) : Except Err (List (List α)) :=
  if a.rows < mr ∨ a.rows = mr ∧ a.cols ≤ mc then
    .ok (if (notNone a).isEmpty then [] else [notNone a])
  else
    let k := ceilDiv a.rows mr
    let q := ceilDiv a.cols mc
    if q = 0 then .error .valueError
    else .ok (((splitSections a.rows k).flatMap (fun s => (splitSections a.cols q).map (fun t => notNone (slice2 a s.1 s.2 t.1 t.2)))).filter (fun l => !l.isEmpty))

/-- `max(int(np.floor(max_chunk_dimension / tile_size)), 1)` -/
def chunkLength (maxDim tileSize : ℚ) : Nat := max ⌊maxDim / tileSize⌋ 1 |>.toNat

/-- what `get_chunks_of_tiles` yields; the shape of `geo` is `[x0, res, 0, y0, 0, -res]` -/
structure Chunk where
  geo : Option Geo
  maxDim : ℚ
  data : Dict Layer LayerArr
  deriving DecidableEq

/-- `np.fliplr(a.T)` -/
def fliplrT (a : LayerArr) : LayerArr := Arr2.ofFn a.cols a.rows (fun i j => (a.get? (a.rows - 1 - j) i).join)

/-- `a.T` -/
def transpose (a : LayerArr) : LayerArr := Arr2.ofFn a.cols a.rows (fun i j => (a.get? j i).join)

/-- bathygrid/bgrid.py:1047-1049: put the layer of the tiles into the array -/
def pasteTiles (n : Nat) (l : Layer) : LayerArr → List (Nat × Nat × Dict Layer LayerArr) → Except Err LayerArr
  | a, [] => .ok a
  | a, (r, c, d) :: rest =>
    match d.get? l with
    | none => pasteTiles n l a rest
    | some b =>
      match paste a r c n b with
      | .error e => .error e
      | .ok a => pasteTiles n l a rest

/-- bathygrid/bgrid.py:1036-1051: the loop over the layers of `_finalize_chunk`.  The converted `nodatavalue` stays converted for the layers that
follow. -/
def finalizeFrom (rows cols n : Nat) (tiles : List (Nat × Nat × Dict Layer LayerArr)) (forGdal : Bool) : Option ℚ → Dict Layer LayerArr → List Layer → Except Err (Dict Layer LayerArr)
  | _, out, [] => .ok out
  | nodata, out, l :: ls =>
    let nodata := Tile.nodataFor l nodata
    match pasteTiles n l (Arr2.fill rows cols nodata) tiles with
    | .error e => .error e
    | .ok a => finalizeFrom rows cols n tiles forGdal nodata (out.set l (if forGdal then fliplrT a else a)) ls

/-- smallest entry of a list that is not empty -/
def minOf (l : List Nat) : Nat := l.min?.getD 0
/-- largest entry of a list that is not empty -/
def maxOf (l : List Nat) : Nat := l.foldr max 0

/-- bathygrid/bgrid.py:1004-1052 `_finalize_chunk` -/
def finalizeChunk (rows cols : List Nat) (n : Nat) (layers : List Layer) (data : List (Dict Layer LayerArr)) (nodata : Option ℚ) (forGdal : Bool) : Except Err (Dict Layer LayerArr) :=
  let rows := rows.map (· - minOf rows)
  let cols := cols.map (· - minOf cols)
  finalizeFrom (maxOf rows + n) (maxOf cols + n) n (rows.zip (cols.zip data)) forGdal nodata [] layers

/-- state of the inner loop of `get_chunks_of_tiles` -/
structure ChunkState (τ : Type) where
  grid : Grid τ
  geo : Option Geo := none
  data : List (Dict Layer LayerArr) := []
  rows : List Nat := []
  cols : List Nat := []
  counts : List Nat := []
  maxDim : ℚ := 0

namespace Grid
variable {τ : Type} [LayerLike τ]

omit [LayerLike τ] in
/-- bathygrid/bgrid.py:1095-1124 `_tile_chunk_indices`.  `min` of no indices is a ValueError; so is the unpacking of the indices when there is no
array of tiles. -/
def tileChunkIndices (g : Grid τ) (maxDim : ℚ) : Except Err (List (List (Nat × Nat))) :=
  let m := chunkLength maxDim g.tileSize
  match g.tiles with
  | none => .error .valueError
  | some T =>
    let tindex : Arr2 (Option (Nat × Nat)) := Arr2.ofFn T.rows T.cols (fun r c => ((T.get? r c).join).map (fun _ => (r, c)))
    let loc := notNone tindex
    let rs := loc.map Prod.fst
    let cs := loc.map Prod.snd
    if loc.isEmpty then .error .valueError
    else splitToApproxShape (slice2 tindex (minOf rs) (maxOf rs + 1) (minOf cs) (maxOf cs + 1)) m m

/-- bathygrid/bgrid.py:1170-1183: one round of the inner loop of `get_chunks_of_tiles`.  `geo[0]` of None is a TypeError. -/
def chunkTile (env : Env) (res : ℚ) (layers : List Layer) (nodata : Option ℚ) (zUp : Bool) (s : ChunkState τ) (p : Nat × Nat) : Res (ChunkState τ) :=
  match s.grid.getTileData env p.1 p.2 res layers nodata zUp with
  | (g, .error e) => .fail { s with grid := g } e
  | (g, .ok d) =>
    let s := { s with grid := g, data := s.data ++ [d.data], rows := s.rows ++ [d.row0], cols := s.cols ++ [d.col0], counts := s.counts ++ [d.cells] }
    match s.geo, d.geo with
    | none, o => .ok { s with geo := o }
    | some _, none => .fail s .typeError
    | some a, some b =>
      .ok { s with
        geo := some ⟨min a.x0 b.x0, a.res, max a.y0 b.y0⟩
        maxDim := max (((maxOf s.rows - minOf s.rows + d.cells : Nat) : ℚ) * res) (((maxOf s.cols - minOf s.cols + d.cells : Nat) : ℚ) * res) }

/-- bathygrid/bgrid.py:1162-1187: one chunk; the state is the grid and the chunks that were yielded so far -/
def chunkStep (env : Env) (res : ℚ) (layers : List Layer) (nodata : Option ℚ) (zUp forGdal : Bool) (s : Grid τ × List Chunk) (idx : List (Nat × Nat)) : Res (Grid τ × List Chunk) :=
  let r := Res.forEach idx ({ grid := s.1 } : ChunkState τ) (chunkTile env res layers nodata zUp)
  match r.err with
  | some e => .fail (r.st.grid, s.2) e
  | none =>
    if r.st.data.all (fun d => d.isEmpty) then .ok (r.st.grid, s.2)
    else if r.st.counts.all (fun n => n ≠ 0) then
      match finalizeChunk r.st.rows r.st.cols (r.st.counts.headD 0) layers r.st.data nodata forGdal with
      | .error e => .fail (r.st.grid, s.2) e
      | .ok d => .ok (r.st.grid, s.2 ++ [⟨r.st.geo, r.st.maxDim, d⟩])
    else .fail (r.st.grid, s.2) .assertion

/-- bathygrid/bgrid.py:1126-1187 `get_chunks_of_tiles`, with the chunks that were yielded before a possible exception.  0 as maximum dimension counts
as not given; the default is in bathygrid/grid_variables.py:11.  Simplification: the resolution is given (`tile_size / None` is a TypeError). -/
def getChunks (env : Env) (g : Grid τ) (res : ℚ) (layers : List Layer) (nodata : Option ℚ) (zUp : Bool) (override : Option ℚ) (forGdal : Bool) : Res (Grid τ × List Chunk) :=
  let maxDim := match override with | some d => if d = 0 then 32768 else d | none => 32768
  match g.tileChunkIndices maxDim with
  | .error e => .fail (g, []) e
  | .ok idx => Res.forEach idx (g, []) (chunkStep env res layers nodata zUp forGdal)

end Grid

/-- bathygrid/utilities.py:329-330: the bands that are written for the arrays of a chunk -/
def bands (c : Chunk) : List LayerArr := c.data.map (fun p => transpose p.2)

end Bathy
