import Verif.Model.Tile

/-!
# Gridding a tile in floating point arithmetic

`np_grid_mean` and the rounding to 3 decimals.  The sums and means are calculated in the format of the soundings (float64), every `+ /` is followed by a rounding `rnd`.  The layers are
float32 (bathygrid/tile.py:340-351, 753, 760): a mean that is put into a layer is rounded by `sto`, and so are the results of the `* /` of `np.round` of a layer.  Comparisons do not round.

numpy adds up the values of a cell in an order and with a bracketing that depend on their number only (one after the other below 8 values, 8 running sums and
pairs of blocks above).  Here every bracketing is allowed.

Simplifications: a result too large to be stored is excluded by the hypotheses of the theorems; the rounding of a value that is put into a layer is done by
`round3`, which comes next for every layer; the conversion of the number of soundings of a cell to a float is exact; CUBE is external and taken as in
`Model/Tile.lean`.
-/

namespace Bathy

/-- a bracketed sum; a leaf is the position of the summand -/
inductive SumTree
  | leaf (i : Nat)
  | node (a b : SumTree)

namespace SumTree

/-- the positions that are added up -/
def leaves : SumTree → List Nat
  | leaf i => [i]
  | node a b => a.leaves ++ b.leaves

/-- the value of the sum, every addition rounded; `none`: a position outside of the list -/
def eval (rnd : ℚ → ℚ) (l : List ℚ) : SumTree → Option ℚ
  | leaf i => l[i]?
  | node a b =>
    match a.eval rnd l, b.eval rnd l with
    | some x, some y => some (rnd (x + y))
    | _, _ => none

end SumTree

/-- floating point arithmetic: the rounding of the format of the soundings, the rounding of the format of the layers, and the order in which `n` values are added up -/
structure Arith where
  rnd : ℚ → ℚ
  sto : ℚ → ℚ
  plan : Nat → SumTree
  plan_all : ∀ n, 0 < n → (plan n).leaves.Perm (List.range n)

namespace Arith

/-- the sum of a non empty slice -/
def add (A : Arith) (l : List ℚ) : Option ℚ := if l = [] then none else (A.plan l.length).eval A.rnd l

/-- `np.add.reduceat`, see `reduceat` -/
def addAt (A : Arith) (a : List ℚ) : List Nat → Option (List ℚ)
  | [] => some []
  | [i] => (A.add (a.drop i)).map ([·])
  | i :: j :: rest =>
    let v := if i < j then A.add ((a.drop i).take (j - i)) else a[i]?
    match v, A.addAt a (j :: rest) with
    | some v, some vs => some (v :: vs)
    | _, _ => none

/-- bathygrid/algorithms.py:58-60, 63-65, 67-69 -/
def groupMeans (A : Arith) (vals : List ℚ) (cellSort : List Nat) (uidx ucounts : List Nat) : Option (List ℚ) :=
  match takeIdx vals cellSort with
  | none => none
  | some sorted => (A.addAt sorted uidx).map (fun sums => List.zipWith (fun s (c : Nat) => A.rnd (s / (c : ℚ))) sums ucounts)

/-- bathygrid/algorithms.py:13-71 `np_grid_mean` -/
def npGridMean (A : Arith) (env : Env) (depth : List ℚ) (cellIndices : List Int) (g : GridArrays) (tvu thu : List ℚ) : Except Err GridArrays :=
  let tvuEnabled := enabled tvu g.tvu
  let thuEnabled := enabled thu g.thu
  let cellSort := env.argsort.run cellIndices
  match takeIdx cellIndices cellSort with
  | none => .error .indexError
  | some sortedIdx =>
    let u := runsFrom 0 sortedIdx
    let uidx := u.map (fun t => t.2.1)
    let ucounts : List Nat := u.map (fun t => t.2.2)
    match (u.map (fun t => t.1)).mapM (fun i => unravel i g.depth.rows g.depth.cols) with
    | none => .error .valueError
    | some rc =>
      match A.groupMeans depth cellSort uidx ucounts with
      | none => .error .indexError
      | some dm =>
        let depthGrid := scatter g.depth rc (dm.map some)
        let densityGrid := scatter g.density rc (ucounts.map (fun n : Nat => some (n : ℚ)))
        let tvuRes : Option (Option LayerArr) :=
          if tvuEnabled then (A.groupMeans tvu cellSort uidx ucounts).map (fun m => g.tvu.map (fun a => scatter a rc (m.map some)))
          else some g.tvu
        let thuRes : Option (Option LayerArr) :=
          if thuEnabled then (A.groupMeans thu cellSort uidx ucounts).map (fun m => g.thu.map (fun a => scatter a rc (m.map some)))
          else some g.thu
        match tvuRes, thuRes with
        | some tv, some th => .ok ⟨depthGrid, densityGrid, tv, th⟩
        | _, _ => .error .indexError

/-- `np.rint`: the nearest integer, the even one of two -/
def rint (v : ℚ) : Int :=
  let f := ⌊v⌋
  if v - f < 1 / 2 then f else if 1 / 2 < v - f then f + 1 else if f % 2 = 0 then f else f + 1

/-- a value is put into a layer (bathygrid/algorithms.py:60, 65, 69, 121, 130, 133) and `np.round(layer, 3)` is applied: `np.rint(v * 1000) / 1000` -/
def round3 (A : Arith) (v : ℚ) : ℚ := A.sto ((rint (A.sto (A.sto v * 1000)) : ℚ) / 1000)

/-- `np.round(layer, 3)` with NaN kept -/
def roundLayer (A : Arith) (a : LayerArr) : LayerArr := a.map (Option.map A.round3)

/-- bathygrid/tile.py:364-395 + 431-463, see `Tile.plainLayers` -/
def plainLayers (A : Arith) (f : List ℚ → List Int → GridArrays → List ℚ → List ℚ → Except Err GridArrays) (depthKey : Layer) (d : PtArr)
    (cidx : List Int) (ls : Dict Layer LayerArr) : Except Err (Dict Layer LayerArr) :=
  let vert := if d.fields.hasTvu then d.pts.map Pt.tvu else []
  let horiz := if d.fields.hasThu then d.pts.map Pt.thu else []
  let vgrid := if d.fields.hasTvu then ls.get? .vertical else none
  let hgrid := if d.fields.hasThu then ls.get? .horizontal else none
  if (d.fields.hasTvu && vgrid.isNone) || (d.fields.hasThu && hgrid.isNone) then .error .keyError
  else
    match ls.get? depthKey, ls.get? .density with
    | some dg, some ng =>
      match f (d.pts.map Pt.z) cidx ⟨dg, ng, vgrid, hgrid⟩ vert horiz with
      | .error e => .error e
      | .ok out =>
        let ls1 := (ls.set depthKey (A.roundLayer out.depth)).set .density out.density
        let ls2 := match out.tvu with
          | some a => ls1.set .vertical (if vert.length > 0 then A.roundLayer a else a)
          | none => ls1
        let ls3 := match out.thu with
          | some a => ls2.set .horizontal (if horiz.length > 0 then A.roundLayer a else a)
          | none => ls2
        .ok ls3
    | _, _ => .error .keyError

/-- bathygrid/tile.py:431-463: `_run_mean_grid`, `_run_shoalest_grid` for the whole tile -/
def runPlain (A : Arith) (f : List ℚ → List Int → GridArrays → List ℚ → List ℚ → Except Err GridArrays) (t : Tile) (res : ℚ) : Except Err Tile :=
  match t.data, t.cells.get? res, t.cellIdx.get? res with
  | some d, some ls, some cidx =>
    match A.plainLayers f t.depthKey d cidx ls with
    | .error e => .error e
    | .ok ls' => .ok { t with cells := t.cells.set res ls' }
  | none, _, _ => .error .attributeError
  | _, _, _ => .error .keyError

/-- bathygrid/tile.py:762-767 -/
def runAlg (A : Arith) (env : Env) (t : Tile) (alg : Alg) (res : ℚ) (params : Option GridParams) (border : Option PtArr) : Except Err Tile :=
  match alg with
  | .mean => A.runPlain (A.npGridMean env) t res
  | .shoalest => A.runPlain (npGridShoalest env) t res
  | .cube => Tile.runCube env t res params border
  | .other => .ok t

/-- bathygrid/tile.py:723-769: `grid` once the resolution is known, see `Tile.gridAt`.  The resolutions are powers of two and the corners of the cells are
calculated without error (C106), so `new_grid` and the cell numbers are those of `Model/Tile.lean`. -/
def gridAt (A : Arith) (env : Env) (t : Tile) (alg : Alg) (res : ℚ) (clear : Bool) (params : Option GridParams) (border : Option PtArr) : Res Tile :=
  if isPowerOfTwo res then
    let t1 := if clear then t.clearGrid else t
    let t2 := t1.clearTemp res
    let r3 := if !t2.cells.has res || decide (t2.algorithm ≠ some alg) then
        Tile.newGrid { t2 with algorithm := some alg, gridParams := params } res alg
      else .ok t2
    r3.andThen (fun t3 =>
      match Tile.prepare t3 res with
      | .error e => .fail t3 e
      | .ok t4 =>
        match A.runAlg env t4 alg res params border with
        | .error e => .fail t4 e
        | .ok t5 => .ok { t5 with pointCountChanged := false })
  else .fail t .valueError

end Arith
end Bathy
