import Verif.Model.Data

/-!
# bathygrid/algorithms.py
-/

namespace Bathy

/-- `np.unique(a, return_index=True, return_counts=True)` of an already sorted array (bathygrid/algorithms.py:55, 117, 198):
the runs of equal values as (value, index of first occurrence, count).  Simplification: numpy would sort an unsorted
argument first; the model takes the runs of the argument as it is. -/
def runsFrom (start : Nat) : List Int → List (Int × Nat × Nat)
  | [] => []
  | x :: xs =>
    match runsFrom (start + 1) xs with
    | (y, s, c) :: rest => if x = y then (x, start, c + 1) :: rest else (x, start, 1) :: (y, s, c) :: rest
    | [] => [(x, start, 1)]

/-- reduction of a non empty slice; `none` for an empty one -/
def reduce1 {α : Type} (op : α → α → α) : List α → Option α
  | [] => none
  | a :: as => some (as.foldl op a)

/-- `ufunc.reduceat(a, idx)`: reduces `a[idx[i]:idx[i+1]]` (to the end for the last one); if that slice is empty numpy returns
`a[idx[i]]`; `none` is IndexError. -/
def reduceat {α : Type} (op : α → α → α) (a : List α) : List Nat → Option (List α)
  | [] => some []
  | [i] => (reduce1 op (a.drop i)).map ([·])
  | i :: j :: rest =>
    let v := if i < j then reduce1 op ((a.drop i).take (j - i)) else a[i]?
    match v, reduceat op a (j :: rest) with
    | some v, some vs => some (v :: vs)
    | _, _ => none

/-- fancy indexing `a[idx]` with non negative indices; `none` is IndexError -/
def takeIdx {α : Type} (a : List α) (idx : List Nat) : Option (List α) := idx.mapM (fun i => a[i]?)

/-- `np.unravel_index(i, shape)` followed by use as a 2d index, i.e. the flat position; `none` is the ValueError for an index that
is out of bounds -/
def unravel (i : Int) (rows cols : Nat) : Option (Nat × Nat) :=
  if 0 ≤ i ∧ i < (rows * cols : Nat) then some (i.toNat / cols, i.toNat % cols) else none

/-- `grid[urow, ucol] = values` -/
def scatter {α : Type} (g : Arr2 α) : List (Nat × Nat) → List α → Arr2 α
  | (r, c) :: rcs, v :: vs => scatter (g.setFlat (r * g.cols + c) v) rcs vs
  | _, _ => g

/-- the arrays written by the gridding functions -/
structure GridArrays where
  depth : LayerArr
  density : LayerArr
  tvu : Option LayerArr
  thu : Option LayerArr
  deriving DecidableEq, Repr

/-- bathygrid/algorithms.py:47-52: uncertainty is gridded if both the values and the grid are non empty.  The model passes
`some` layer iff the code passes a real grid. -/
def enabled (vals : List ℚ) (g : Option LayerArr) : Bool :=
  match g with
  | some a => decide (vals.length > 0) && decide (a.flat.length > 0)
  | none => false

/-- mean of the groups: bathygrid/algorithms.py:58-60, 63-65, 67-69 -/
def groupMeans (vals : List ℚ) (cellSort : List Nat) (uidx ucounts : List Nat) : Option (List ℚ) :=
  match takeIdx vals cellSort with
  | none => none
  | some sorted =>
    (reduceat (· + ·) sorted uidx).map (fun sums => List.zipWith (fun s (c : Nat) => s / (c : ℚ)) sums ucounts)

/-- bathygrid/algorithms.py:13-71 `np_grid_mean` -/
def npGridMean (env : Env) (depth : List ℚ) (cellIndices : List Int) (g : GridArrays) (tvu thu : List ℚ) :
    Except Err GridArrays :=
  let tvuEnabled := enabled tvu g.tvu
  let thuEnabled := enabled thu g.thu
  let cellSort := env.argsort.run cellIndices
  match takeIdx cellIndices cellSort with
  | none => .error .indexError
  | some sortedIdx =>
    let u := runsFrom 0 sortedIdx
    let uidx := u.map (fun t => t.2.1)
    let ucounts : List Nat := u.map (fun t => t.2.2)
    match (u.map (fun t => t.1)).mapM (fun i => unravel i g.depth.rows g.depth.cols) with
    | none => .error .valueError
    | some rc =>
      match groupMeans depth cellSort uidx ucounts with
      | none => .error .indexError
      | some dm =>
        let depthGrid := scatter g.depth rc (dm.map some)
        let densityGrid := scatter g.density rc (ucounts.map (fun n : Nat => some (n : ℚ)))
        let tvuRes : Option (Option LayerArr) :=
          if tvuEnabled then (groupMeans tvu cellSort uidx ucounts).map (fun m => g.tvu.map (fun a => scatter a rc (m.map some)))
          else some g.tvu
        let thuRes : Option (Option LayerArr) :=
          if thuEnabled then (groupMeans thu cellSort uidx ucounts).map (fun m => g.thu.map (fun a => scatter a rc (m.map some)))
          else some g.thu
        match tvuRes, thuRes with
        | some tv, some th => .ok ⟨depthGrid, densityGrid, tv, th⟩
        | _, _ => .error .indexError

/-- bathygrid/algorithms.py:74-135 `np_grid_shoalest`.  `depth_idx` (line 127) indexes the *sorted* depth array, and lines
129/132 use it on the unsorted uncertainty, as in the code. -/
def npGridShoalest (env : Env) (depth : List ℚ) (cellIndices : List Int) (g : GridArrays) (tvu thu : List ℚ) :
    Except Err GridArrays :=
  let tvuEnabled := enabled tvu g.tvu
  let thuEnabled := enabled thu g.thu
  let cellSort := env.argsort.run cellIndices
  match takeIdx cellIndices cellSort with
  | none => .error .indexError
  | some sortedIdx =>
    let u := runsFrom 0 sortedIdx
    let uidx := u.map (fun t => t.2.1)
    let ucounts : List Nat := u.map (fun t => t.2.2)
    match (u.map (fun t => t.1)).mapM (fun i => unravel i g.depth.rows g.depth.cols) with
    | none => .error .valueError
    | some rc =>
      match (takeIdx depth cellSort).bind (fun s => reduceat min s uidx) with
      | none => .error .indexError
      | some depthMin =>
        let depthGrid := scatter g.depth rc (depthMin.map some)
        let densityGrid := scatter g.density rc (ucounts.map (fun n : Nat => some (n : ℚ)))
        match takeIdx depth (env.argsortQ.run depth) with
        | none => .error .indexError
        | some sortedDepth =>
          let depthIdx := depthMin.map (fun d => searchsortedLeft sortedDepth d)
          let tvuRes : Option (Option LayerArr) :=
            if tvuEnabled then (takeIdx tvu depthIdx).map (fun m => g.tvu.map (fun a => scatter a rc (m.map some)))
            else some g.tvu
          let thuRes : Option (Option LayerArr) :=
            if thuEnabled then (takeIdx thu depthIdx).map (fun m => g.thu.map (fun a => scatter a rc (m.map some)))
            else some g.thu
          match tvuRes, thuRes with
          | some tv, some th => .ok ⟨depthGrid, densityGrid, tv, th⟩
          | _, _ => .error .indexError

/-- `target[valid] = source[valid]` with `valid = ~isnan(depth)`, all flipped (bathygrid/algorithms.py:206-212).  Entry (r, c) is
taken from row `rows-1-r` of the cube result where the cube depth there is not NaN. -/
def cubeMerge (target : LayerArr) (cubeDepth source : LayerArr) : LayerArr :=
  Arr2.ofFn target.rows target.cols (fun r c =>
    match cubeDepth.get? (cubeDepth.rows - 1 - r) c with
    | some (some _) => (source.get? (source.rows - 1 - r) c).join
    | _ => (target.get? r c).join)

/-- the arrays written by `nb_cube` -/
structure CubeArrays where
  depth : LayerArr
  density : LayerArr
  tpu : LayerArr
  numhyp : LayerArr
  ratio : LayerArr
  deriving DecidableEq, Repr

/-- bathygrid/algorithms.py:138-213 `nb_cube` with the bathycube package available.  The cube function is external
(`env.cube`). Simplification: the model assumes the arrays it returns have the shape of the grid (numpy would raise otherwise). -/
def nbCube (env : Env) (args : CubeArgs) (cellIndices : List Int) (g : CubeArrays) : Except Err CubeArrays :=
  let cellSort := env.argsort.run cellIndices
  match takeIdx cellIndices cellSort with
  | none => .error .indexError
  | some sortedIdx =>
    let u := runsFrom 0 sortedIdx
    let ucounts : List Nat := u.map (fun t => t.2.2)
    match (u.map (fun t => t.1)).mapM (fun i => unravel i g.depth.rows g.depth.cols) with
    | none => .error .valueError
    | some rc =>
      let out := env.cube args
      .ok { depth := cubeMerge g.depth out.depth out.depth
            density := scatter g.density rc (ucounts.map (fun n : Nat => some (n : ℚ)))
            tpu := cubeMerge g.tpu out.depth out.unc
            ratio := cubeMerge g.ratio out.depth out.ratio
            numhyp := cubeMerge g.numhyp out.depth out.numhyp }

end Bathy
