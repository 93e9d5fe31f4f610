import Verif.Lemmas.TileGridFrame

/-!
# C15: a tile is an ordered map from container to soundings

Model: `Tile.addPoints`, `Tile.removePoints`, `Tile.grid`, `Tile.getLayer`, … (bathygrid/tile.py).
Specification: `Store` (`Verif/Spec/Points.lean`).
-/

namespace Bathy

/-- the public operations on a tile -/
inductive TileOp
  | add (d : PtArr) (c : String)
  | remove (c : String)
  | grid (alg : Alg) (res : Option ℚ) (clear : Bool) (mode : AutoMode) (params : Option GridParams) (border : Option PtArr)
  | query (layer : Layer) (res nodata : Option ℚ) (zUp : Bool)
  | clearGrid
  | clearPoints

/-- the tile an operation leaves behind, and its exception -/
def TileOp.run (env : Env) (t : Tile) : TileOp → Res Tile
  | .add d c => t.addPoints d c
  | .remove c => t.removePoints c
  | .grid alg res clear mode params border => (t.grid env alg res clear mode params border).1
  | .query l r n z => match t.getLayer env l r n z with
    | (u, .ok _) => .ok u
    | (u, .error e) => .fail u e
  | .clearGrid => .ok t.clearGrid
  | .clearPoints => .ok t.clearPoints

/-- what the operation means for the stored soundings -/
def TileOp.spec (A : Store) : TileOp → Store
  | .add d c => A.put c d.pts
  | .remove c => A.remove c
  | .clearPoints => []
  | _ => A

/-- the data of an add has these fields (numpy refuses to concatenate different dtypes) -/
def TileOp.hasFields (fl : Fields) : TileOp → Prop
  | .add d _ => d.fields = fl
  | _ => True

/-- operations on points, which must never raise -/
def TileOp.isPoints : TileOp → Bool
  | .add _ _ | .remove _ | .clearGrid | .clearPoints => true
  | _ => false

/-- run a sequence; the caller catches exceptions of gridding and queries and goes on with the state left behind -/
def runTileOps (env : Env) (t : Tile) (ops : List TileOp) : Tile := ops.foldl (fun t op => (op.run env t).st) t

theorem tileOp_step (env : Env) {t : Tile} {A : Store} {fl : Fields} (h : t.Rep A fl) (op : TileOp) (hf : op.hasFields fl) :
    (op.run env t).st.Rep (op.spec A) fl ∧ (op.isPoints = true → (op.run env t).err = none) := by
  cases op with
  | add d c =>
    obtain ⟨u, hu, hr, -⟩ := Tile.addPoints_spec h d hf c
    simp only [TileOp.run, hu, TileOp.spec]
    exact ⟨hr, fun _ => rfl⟩
  | remove c =>
    obtain ⟨u, hu, hr, -⟩ := Tile.removePoints_spec h c
    simp only [TileOp.run, hu, TileOp.spec]
    exact ⟨hr, fun _ => rfl⟩
  | grid alg res clear mode params border =>
    have := Tile.grid_same env t alg res clear mode params border h.idx
    exact ⟨Tile.rep_of_same h this.1 this.2, by simp [TileOp.isPoints]⟩
  | query l r n z =>
    have hq := Tile.getLayer_same env t l r n z
    refine ⟨?_, by simp [TileOp.isPoints]⟩
    simp only [TileOp.run, TileOp.spec]
    generalize hg : Tile.getLayer env t l r n z = g at hq
    obtain ⟨u, o⟩ := g
    have hrep : u.Rep A fl := Tile.rep_of_same h hq.1 (Tile.idxLen_of_same hq.1 hq.2 h.idx)
    cases o <;> exact hrep
  | clearGrid =>
    exact ⟨Tile.rep_of_same h (Tile.clearGrid_same t).1 (Tile.idxLen_of_same (Tile.clearGrid_same t).1 rfl h.idx), fun _ => rfl⟩
  | clearPoints =>
    refine ⟨?_, fun _ => rfl⟩
    constructor <;> simp [TileOp.run, TileOp.spec, Tile.clearPoints, Store.names, slicesFrom, Tile.pts, Store.allPts]

theorem tileOps_rep (env : Env) {t : Tile} {A : Store} {fl : Fields} (h : t.Rep A fl) (ops : List TileOp)
    (hf : ∀ op ∈ ops, op.hasFields fl) : (runTileOps env t ops).Rep (ops.foldl TileOp.spec A) fl := by
  induction ops generalizing t A with
  | nil => exact h
  | cons op ops ih =>
    exact ih (tileOp_step env h op (hf op List.mem_cons_self)).1 (fun o ho => hf o (List.mem_cons_of_mem _ ho))

/-- the slice of a container holds its soundings -/
theorem slice_of_rep {t : Tile} {A : Store} {fl : Fields} (h : t.Rep A fl) {c : String} {s e : Nat}
    (hc : t.container.get? c = some (s, e)) : (t.pts.take e).drop s = A.ptsOf c := by
  have hm : c ∈ A.names := by
    rw [← slicesFrom_keys 0 A, ← h.container, ← Dict.has_iff, ← Dict.get?_isSome, hc]; rfl
  obtain ⟨A1, p, A2, rfl, n1, n2⟩ := Store.split_of_mem hm h.names
  rw [h.container, slicesFrom_get A1 A2 c p n1] at hc
  cases hc
  have hp : Store.ptsOf (A1 ++ (c, p) :: A2) c = p := by
    have f : ∀ B : Store, c ∉ B.names → B.filter (fun q => decide (q.1 = c)) = [] := by
      intro B hB
      rw [List.filter_eq_nil_iff]
      intro q hq
      simp only [decide_eq_true_eq]
      intro he; exact hB (he ▸ List.mem_map_of_mem (f := Prod.fst) hq)
    unfold Store.ptsOf
    rw [List.filter_append, f A1 n1, List.filter_cons]
    simp [f A2 n2, Store.allPts]
  rw [hp, h.pts, Store.allPts_append, Store.allPts_cons]
  rw [← List.append_assoc]
  have : A1.allPts.length + p.length = (A1.allPts ++ p).length := by simp
  rw [this, List.take_left, List.drop_left]

/-- **C15**: after any sequence of operations on a new tile (adds with soundings of one dtype, removes, gridding with any
arguments, queries, clears), with `A` the ordered map the add/remove operations describe:
the data array is the concatenation of the containers in insertion order, the container names are those of `A` in that order
and without repetition, and `container[name]` is the slice that holds exactly that container's soundings. -/
theorem C15_tile_is_ordered_map (env : Env) (x y size : ℚ) (bs : Bool) (fl : Fields) (ops : List TileOp)
    (hf : ∀ op ∈ ops, op.hasFields fl) :
    let t := runTileOps env (Tile.new x y size bs) ops
    let A := ops.foldl TileOp.spec []
    t.pts = A.allPts ∧ t.pointsCount = A.allPts.length ∧ t.container.keys = A.names ∧ A.names.Nodup ∧
      ∀ c s e, t.container.get? c = some (s, e) → (t.pts.take e).drop s = A.ptsOf c := by
  intro t A
  have h : t.Rep A fl := tileOps_rep env (Tile.rep_new x y size bs fl) ops hf
  refine ⟨h.pts, ?_, ?_, h.names, fun c s e hc => slice_of_rep h hc⟩
  · rw [← h.pts]; unfold Tile.pointsCount Tile.pts; cases t.data <;> rfl
  · rw [h.container, slicesFrom_keys]

/-- **C15** (no exceptions): in any such sequence the add / remove / clear operations never raise. -/
theorem C15_point_ops_never_raise (env : Env) (x y size : ℚ) (bs : Bool) (fl : Fields) (ops : List TileOp) (op : TileOp)
    (hf : ∀ o ∈ ops ++ [op], o.hasFields fl) (hp : op.isPoints = true) :
    (op.run env (runTileOps env (Tile.new x y size bs) ops)).err = none := by
  have h := tileOps_rep env (Tile.rep_new x y size bs fl) ops (fun o ho => hf o (List.mem_append_left _ ho))
  exact (tileOp_step env h op (hf op (by simp))).2 hp

/-- **C15** (dtype): adding soundings whose fields differ from the stored ones raises TypeError, and the container entry has
already been written, so `container` then names soundings that are not in the data (the code does not roll back). -/
theorem C15_dtype_mismatch_corrupts :
    ∃ (t : Tile) (d : PtArr), (t.addPoints d "b").err = some .typeError ∧ "b" ∈ (t.addPoints d "b").st.container.keys ∧
      (t.addPoints d "b").st.pts = t.pts := by
  refine ⟨((Tile.new 0 0 16 false).addPoints ⟨{}, [⟨1, 1, 5, 0, 0⟩]⟩ "a").st, ⟨{ hasTvu := true }, [⟨2, 2, 5, 1, 0⟩]⟩, ?_⟩
  decide +kernel

/-! ### non-vacuity: add two containers, replace the first, remove one -/

example : (TileOp.add ⟨{}, [⟨1, 1, 5, 0, 0⟩]⟩ "a").hasFields {} := rfl

private def pa : Pt := ⟨1, 1, 5, 0, 0⟩
private def pb : Pt := ⟨2, 2, 6, 0, 0⟩
private def pc : Pt := ⟨3, 3, 7, 0, 0⟩

example : ((((Tile.new 0 0 16 false).addPoints ⟨{}, [pa, pb]⟩ "a").st.addPoints ⟨{}, [pc]⟩ "b").st.addPoints ⟨{}, [pb]⟩ "a").st.container
    = [("b", (0, 1)), ("a", (1, 2))] := by decide +kernel
example : ((((Tile.new 0 0 16 false).addPoints ⟨{}, [pa, pb]⟩ "a").st.addPoints ⟨{}, [pc]⟩ "b").st.removePoints "a").st.pts
    = [pc] := by decide +kernel

end Bathy
