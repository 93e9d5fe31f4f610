import Verif.Lemmas.GridPar
import Verif.Lemmas.GridRemove

/-!
# Gridding keeps the invariants of a grid
-/

namespace Bathy
namespace Grid
variable {τ : Type} [GridLike τ]

/-- the limit exists once the plan is made -/
theorem parLimit_ok (a : GridCall) (p : Plan) (h : p.auto = none → p.resolution ≠ none) : ∃ l, parLimit a p = .ok l := by
  unfold parLimit
  cases ha : a.alg <;> cases hau : p.auto <;> cases hr : p.resolution <;> simp
  exact absurd hr (h hau)

/-- the limit used by a run -/
def limitOf (a : GridCall) (p : Plan) (dask : Option Nat) : Option ℚ :=
  match dask with
  | none => none
  | some _ => match parLimit a p with | .ok l => l | .error _ => none

/-- a whole `grid` call in terms of the outcomes of the tiles -/
theorem gridWith_spec [LawfulGrid τ] (env : Env) (g : Grid τ) (a : GridCall) (dask : Option Nat) :
    (∃ al gr gp e, gridWith env g a dask = .fail (g.withAttrs al gr gp g.resolutions) e ∧ (gridPlan env g a).1.err = some e) ∨
    (∃ gr T, (gridPlan env g a).1 = .ok (g.withAttrs (some a.alg) gr a.params []) ∧ g.isEmpty = false ∧ g.tiles = some T ∧
      (g.gridAlgorithm = none ∨ g.gridAlgorithm = some a.alg ∨ a.clear = true) ∧
      (((∀ (k : Nat) o, T.flat[k]? = some o → (outAt env (g.withAttrs (some a.alg) gr a.params []) a (gridPlan env g a).2 (limitOf a (gridPlan env g a).2 dask) T k o).1.err = none) ∧
        gridWith env g a dask = .ok ((g.withAttrs (some a.alg) gr a.params []).withTiles
          (prefixTiles (outAt env (g.withAttrs (some a.alg) gr a.params []) a (gridPlan env g a).2 (limitOf a (gridPlan env g a).2 dask) T) T T.flat.length)
          (npUnique (prefixRes (outAt env (g.withAttrs (some a.alg) gr a.params []) a (gridPlan env g a).2 (limitOf a (gridPlan env g a).2 dask) T) T T.flat.length)))) ∨
       ((∃ (k : Nat) (o : Option τ), T.flat[k]? = some o ∧ (outAt env (g.withAttrs (some a.alg) gr a.params []) a (gridPlan env g a).2 (limitOf a (gridPlan env g a).2 dask) T k o).1.err ≠ none) ∧
        ∃ e b R, b ≤ T.flat.length ∧ gridWith env g a dask = .fail ((g.withAttrs (some a.alg) gr a.params []).withTiles
          (prefixTiles (outAt env (g.withAttrs (some a.alg) gr a.params []) a (gridPlan env g a).2 (limitOf a (gridPlan env g a).2 dask) T) T b) R) e))) := by
  rcases gridPlan_spec env g a with ⟨gr, h1, h2, ⟨T, hT⟩, h4, -, -, h6⟩ | ⟨al, gr, gp, e, h⟩
  · right
    refine ⟨gr, T, h1, h2, hT, h6, ?_⟩
    have hT1 : (g.withAttrs (some a.alg) gr a.params []).tiles = some T := hT
    cases dask with
    | none =>
      have hgw : gridWith env g a none = gridRegular env (g.withAttrs (some a.alg) gr a.params []) a (gridPlan env g a).2 := by
        show grid env g a = _
        unfold grid
        simp only [h1, Res.andThen_ok]
      rw [hgw]
      rcases gridRegular_spec env a (gridPlan env g a).2 hT1 rfl with h | ⟨k, o, e, h5, h6, h7, h8⟩
      · left; exact h
      · right
        refine ⟨⟨k, o, h5, by rw [show limitOf a (gridPlan env g a).2 none = none from rfl, h6]; simp⟩, e, k + 1, _, (List.getElem?_eq_some_iff.1 h5).1, h8⟩
    | some n =>
      obtain ⟨l, hl⟩ := parLimit_ok a (gridPlan env g a).2 (fun h => by obtain ⟨h7, h8⟩ := h4 h; rw [h7]; exact h8)
      have hlim : limitOf a (gridPlan env g a).2 (some n) = l := by unfold limitOf; simp only [hl]
      have hgw : gridWith env g a (some n) = gridParallel env n (g.withAttrs (some a.alg) gr a.params []) a (gridPlan env g a).2 := by
        show gridDask env n g a = _
        unfold gridDask
        simp only [h1, Res.andThen_ok]
      rw [hgw, hlim]
      rcases gridParallel_spec env n a (gridPlan env g a).2 hl hT1 with h | h
      · left; exact h
      · right; exact h
  · left
    refine ⟨al, gr, gp, e, ?_, by rw [h]; rfl⟩
    cases dask with
    | none => show grid env g a = _; unfold grid; simp only [h, Res.andThen_fail]
    | some n => show gridDask env n g a = _; unfold gridDask; simp only [h, Res.andThen_fail]

/-! ### gridding does not change the soundings near the border -/

omit [GridLike τ] in
theorem mapM_eq_of_map_eq {α β : Type} {f : α → Except Err β} {l l' : List α} (h : l.map f = l'.map f) : l.mapM f = l'.mapM f := by
  have : ∀ l : List α, l.mapM f = (l.map f).mapM id := by
    intro l
    rw [List.mapM_map]
    rfl
  rw [this l, this l', h]

/-- the slots of the array after a run have the same border soundings -/
theorem sidePoints_prefix [LawfulGrid τ] (env : Env) {g u : Grid τ} {g1 : Grid τ} {a : GridCall} {p : Plan} {limit : Option ℚ} {T : Arr2 (Option τ)} (hg : g.tiles = some T) {m : Nat}
    (hu : u.tiles = some (prefixTiles (outAt env g1 a p limit T) T m)) (s : Side) (buf : ℚ) : u.sidePoints s buf = g.sidePoints s buf := by
  unfold sidePoints
  rw [hg, hu]
  simp only
  have : (prefixTiles (outAt env g1 a p limit T) T m).flat.mapM (slotSide s buf) =
      T.flat.mapM (slotSide s buf) := by
    apply mapM_eq_of_map_eq
    apply List.ext_getElem?
    intro k
    rw [List.getElem?_map, List.getElem?_map, prefixTiles_get]
    cases hk : T.flat[k]? with
    | none => rfl
    | some o =>
      simp only [Option.map_some, Option.some.injEq]
      have h1 : SameSide o (if k < m then (outAt env g1 a p limit T k o).1.st else o) := by
        split
        · exact sameSide_outcome _ _ _ _ _ _ _ _
        · exact sameSide_refl _
      generalize (if k < m then (outAt env g1 a p limit T k o).1.st else o) = o' at h1
      cases o with
      | none => cases o' with
        | none => rfl
        | some t => exact h1.elim
      | some t => cases o' with
        | none => exact h1.elim
        | some t' => exact h1 s buf
  rw [this]

instance [LawfulGrid τ] : LawfulGrid (Grid τ) where
  side env g a s buf := by
    show sidePoints (g.grid env a).st s buf = sidePoints g s buf
    have h := gridWith_spec env g a none
    rw [show gridWith env g a none = grid env g a from rfl] at h
    rcases h with ⟨al, gr, gp, e, h, -⟩ | ⟨gr, T, -, -, hT, -, ⟨-, h⟩ | ⟨-, e, b, R, -, h⟩⟩
    · rw [h]; rfl
    · rw [h]; exact sidePoints_prefix env hT rfl s buf
    · rw [h]; exact sidePoints_prefix env hT rfl s buf
  width env g a := by
    show (g.grid env a).st.width = g.width
    have h := gridWith_spec env g a none
    rw [show gridWith env g a none = grid env g a from rfl] at h
    rcases h with ⟨al, gr, gp, e, h, -⟩ | ⟨gr, T, -, -, hT, -, ⟨-, h⟩ | ⟨-, e, b, R, -, h⟩⟩
    · rw [h]; rfl
    · rw [h]; rfl
    · rw [h]; rfl

/-! ### invariants -/

variable {size sub : ℚ} {bs : Bool} {fl : Fields}

/-- Gridding the tiles with algorithm `alg` leads from `C.Rep` to `C'.Rep`.  With `must`, only for calls that clear the existing layers and
succeed. -/
structure Runs (env : Env) (C C' : ChildSpec τ size sub bs fl) (alg : Alg) (must : Bool) : Prop where
  run : ∀ {x y : ℚ} {t : τ} {A : Store} (a : GridCall), a.alg = alg → (must = true → a.clear = true) → C.Rep x y t A →
    (must = true → (GridLike.grid env t a).1.err = none) → C'.Rep x y (GridLike.grid env t a).1.st A
  keep : must = false → ∀ {x y : ℚ} {t : τ} {A : Store}, C.Rep x y t A → C'.Rep x y t A

/-- slot by slot, the soundings stay represented -/
def SlotsTo (C C' : ChildSpec τ size sub bs fl) (T T' : Arr2 (Option τ)) : Prop :=
  T'.rows = T.rows ∧ T'.cols = T.cols ∧ T'.flat.length = T.flat.length ∧
    ∀ (k : Nat) o o', T.flat[k]? = some o → T'.flat[k]? = some o' → (o'.isSome = o.isSome) ∧
      ∀ t t', o = some t → o' = some t' → ∀ x y B, C.Rep x y t B → C'.Rep x y t' B

theorem slotsTo_outcome {env : Env} {C C' : ChildSpec τ size sub bs fl} {a : GridCall} {must : Bool} (hr : Runs env C C' a.alg must) (g : Grid τ)
    (p : Plan) (limit : Option ℚ) (T : Arr2 (Option τ)) (m : Nat) (hm : must = true → a.clear = true ∧ T.flat.length ≤ m ∧
      ∀ (k : Nat) o, T.flat[k]? = some o → (outAt env g a p limit T k o).1.err = none) :
    SlotsTo C C' T (prefixTiles (outAt env g a p limit T) T m) := by
  refine ⟨rfl, rfl, by simp [prefixTiles], ?_⟩
  intro k o o' ho ho'
  rw [prefixTiles_get, ho, Option.map_some] at ho'
  cases ho'
  by_cases hk : k < m
  · simp only [hk, if_true]
    cases o with
    | none => exact ⟨rfl, fun t t' h => by cases h⟩
    | some t =>
      by_cases hsk : skips a (clearAt a (T.flat.take k)) t = true
      · have hout : (outAt env g a p limit T k (some t)).1.st = some t := by unfold outAt outcome; simp only [hsk, if_true]; rfl
        rw [hout]
        refine ⟨rfl, ?_⟩
        intro t1 t2 h1 h2 x y B hB
        cases h1; cases h2
        have hmf : must = false := by
          cases hmu : must with
          | false => rfl
          | true =>
            obtain ⟨h1, -⟩ := hm hmu
            unfold skips at hsk
            have : clearAt a (T.flat.take k) = true := by unfold clearAt; rw [h1]; rfl
            rw [this] at hsk
            simp at hsk
        exact hr.keep hmf hB
      · cases hb : g.borderFor k t a.alg limit a.border with
        | error e =>
          have hout : (outAt env g a p limit T k (some t)).1 = .fail (some t) e := by unfold outAt outcome; simp only [hsk, hb]; rfl
          have hmf : must = false := by
            cases hmu : must with
            | false => rfl
            | true =>
              obtain ⟨-, -, h1⟩ := hm hmu
              have := h1 k _ ho
              rw [hout] at this
              cases this
          rw [hout]
          refine ⟨rfl, ?_⟩
          intro t1 t2 h1 h2 x y B hB
          cases h1; cases h2
          exact hr.keep hmf hB
        | ok bd =>
          have hout : (outAt env g a p limit T k (some t)).1 =
              ⟨some (GridLike.grid env t (g.childCall a p (clearNext a (clearAt a (T.flat.take k)) t) bd)).1.st,
                (GridLike.grid env t (g.childCall a p (clearNext a (clearAt a (T.flat.take k)) t) bd)).1.err⟩ := by
            unfold outAt outcome; simp only [hsk, hb]; rfl
          rw [hout]
          refine ⟨rfl, ?_⟩
          intro t1 t2 h1 h2 x y B hB
          cases h1; cases h2
          refine hr.run _ rfl ?_ hB ?_
          · intro hmu
            obtain ⟨h1, -⟩ := hm hmu
            have : clearAt a (T.flat.take k) = true := by unfold clearAt; rw [h1]; rfl
            show clearNext a (clearAt a (T.flat.take k)) t = true
            unfold clearNext; rw [this]; simp
          · intro hmu
            obtain ⟨-, -, h1⟩ := hm hmu
            have := h1 k _ ho
            rw [hout] at this
            exact this
  · rw [if_neg hk]
    refine ⟨rfl, ?_⟩
    intro t1 t2 h1 h2 x y B hB
    rw [h1] at h2; cases h2
    have hmf : must = false := by
      cases hmu : must with
      | false => rfl
      | true =>
        obtain ⟨-, h1, -⟩ := hm hmu
        have := (List.getElem?_eq_some_iff.1 ho).1
        omega
    exact hr.keep hmf hB

theorem slotsTo_refl (C : ChildSpec τ size sub bs fl) (T : Arr2 (Option τ)) : SlotsTo C C T T :=
  ⟨rfl, rfl, rfl, fun k o o' h1 h2 => by rw [h1] at h2; cases h2; exact ⟨rfl, fun t t' h h' => by rw [h] at h'; cases h'; exact fun _ _ _ h => h⟩⟩

theorem slotsTo_count {C C' : ChildSpec τ size sub bs fl} {T T' : Arr2 (Option τ)} (h : SlotsTo C C' T T') :
    T'.flat.countP Option.isSome = T.flat.countP Option.isSome := by
  have : T'.flat.map Option.isSome = T.flat.map Option.isSome := by
    apply List.ext_getElem?
    intro k
    rw [List.getElem?_map, List.getElem?_map]
    cases h1 : T.flat[k]? with
    | none =>
      have : T'.flat[k]? = none := by rw [List.getElem?_eq_none_iff, h.2.2.1, ← List.getElem?_eq_none_iff]; exact h1
      rw [this]
    | some o =>
      cases h2 : T'.flat[k]? with
      | none =>
        have : T.flat[k]? = none := by rw [List.getElem?_eq_none_iff, ← h.2.2.1, ← List.getElem?_eq_none_iff]; exact h2
        rw [this] at h1; cases h1
      | some o' => simp only [Option.map_some, (h.2.2.2 k o o' h1 h2).1]
  have hc : ∀ l : List (Option τ), l.countP Option.isSome = (l.map Option.isSome).countP id := by
    intro l; rw [List.countP_map]; rfl
  rw [hc, hc, this]

theorem slotsTo_rep {C C' : ChildSpec τ size sub bs fl} {T T' : Arr2 (Option τ)} (h : SlotsTo C C' T T') {x0 y0 : ℚ} {nx ny : Nat} {A : Store}
    (hr : TilesRep C x0 y0 nx ny T A) : TilesRep C' x0 y0 nx ny T' A := by
  obtain ⟨h1, h2, h3, h4⟩ := hr
  refine ⟨h.1.trans h1, h.2.1.trans h2, h.2.2.1.trans h3, ?_⟩
  intro k o' ho'
  have hk : k < T.flat.length := by rw [← h.2.2.1]; exact (List.getElem?_eq_some_iff.1 ho').1
  have ho := List.getElem?_eq_getElem hk
  obtain ⟨h5, h6⟩ := h.2.2.2 k _ o' ho ho'
  rcases h4 k _ ho with ⟨h7, h8⟩ | ⟨t, h7, h8, h9⟩
  · left
    refine ⟨?_, h8⟩
    rw [h7] at h5
    cases o' with
    | none => rfl
    | some t => cases h5
  · right
    rw [h7] at h5
    cases o' with
    | none => cases h5
    | some t' => exact ⟨t', rfl, h8, h6 t t' h7 rfl _ _ _ h9⟩

/-- other attributes, other tiles with the same soundings -/
theorem frame_to {C C' : ChildSpec τ size sub bs fl} {T T' : Arr2 (Option τ)} (h : SlotsTo C C' T T') {x0 y0 : ℚ} {nx ny : Nat} {g : Grid τ} {A : Store}
    (hf : Frame C x0 y0 nx ny T g A) (al : Option Alg) (gr : GridRes) (gp : Option GridParams) (R0 R : List ℚ) :
    Frame C' x0 y0 nx ny T' ((g.withAttrs al gr gp R0).withTiles T' R) A :=
  ⟨⟨hf.tileSize, hf.subtileSize, hf.backscatter, hf.txs, hf.tys, hf.edgesX, hf.edgesY, rfl, slotsTo_rep h hf.rep, hf.inr, hf.nx_pos, hf.ny_pos, hf.dims⟩,
    by rw [slotsTo_count h]; exact hf.num⟩

theorem grow_to {C C' : ChildSpec τ size sub bs fl} {T T' : Arr2 (Option τ)} (h : SlotsTo C C' T T') {g : Grid τ} {A : Store} (hT : g.tiles = some T)
    (hg : GrowInv C g A) (al : Option Alg) (gr : GridRes) (gp : Option GridParams) (R0 R : List ℚ) :
    GrowInv C' ((g.withAttrs al gr gp R0).withTiles T' R) A := by
  refine ⟨hg.canGrow, hg.ox, hg.oy, hg.tileSize, hg.subtileSize, hg.backscatter, hg.names, hg.ne, hg.cont, ?_⟩
  rcases hg.body with ⟨-, h2, -⟩ | ⟨h1, i, j, nx, ny, T0, hf, he⟩
  · rw [hT] at h2; cases h2
  · right
    have : T0 = T := by have := hf.tiles; rw [hT] at this; cases this; rfl
    subst this
    exact ⟨h1, i, j, nx, ny, T', frame_to h hf al gr gp R0 R, he⟩

/-- only gridding attributes change -/
theorem grow_attrs {C : ChildSpec τ size sub bs fl} {g : Grid τ} {A : Store} (hg : GrowInv C g A) (al : Option Alg) (gr : GridRes)
    (gp : Option GridParams) (R : List ℚ) : GrowInv C (g.withAttrs al gr gp R) A := by
  refine ⟨hg.canGrow, hg.ox, hg.oy, hg.tileSize, hg.subtileSize, hg.backscatter, hg.names, hg.ne, hg.cont, ?_⟩
  rcases hg.body with h | ⟨h1, i, j, nx, ny, T0, hf, he⟩
  · exact Or.inl h
  · right
    exact ⟨h1, i, j, nx, ny, T0, ⟨⟨hf.tileSize, hf.subtileSize, hf.backscatter, hf.txs, hf.tys, hf.edgesX, hf.edgesY, hf.tiles, hf.rep, hf.inr, hf.nx_pos, hf.ny_pos, hf.dims⟩, hf.num⟩, he⟩

/-- the change of the tile array by a `grid` call -/
theorem gridWith_slots [LawfulGrid τ] {env : Env} {C C' : ChildSpec τ size sub bs fl} {a : GridCall} {must : Bool} (hr : Runs env C C' a.alg must) (g : Grid τ)
    (dask : Option Nat) (hm : must = true → a.clear = true ∧ (gridWith env g a dask).err = none) :
    (must = false ∧ ∃ al gr gp, (gridWith env g a dask).st = g.withAttrs al gr gp g.resolutions) ∨
    (∃ T T' al gr gp R, g.tiles = some T ∧ SlotsTo C C' T T' ∧ (gridWith env g a dask).st = (g.withAttrs al gr gp []).withTiles T' R) := by
  rcases gridWith_spec env g a dask with ⟨al, gr, gp, e, h, -⟩ | ⟨gr, T, -, -, hT, -, ⟨hall, h⟩ | ⟨-, e, b, R, -, h⟩⟩
  · left
    refine ⟨?_, al, gr, gp, by rw [h]; rfl⟩
    cases hmu : must with
    | false => rfl
    | true => have := (hm hmu).2; rw [h] at this; cases this
  · right
    refine ⟨T, _, some a.alg, gr, a.params, _, hT, slotsTo_outcome hr _ _ _ T T.flat.length ?_, by rw [h]; rfl⟩
    intro hmu
    exact ⟨(hm hmu).1, le_refl _, hall⟩
  · right
    refine ⟨T, _, some a.alg, gr, a.params, R, hT, slotsTo_outcome hr _ _ _ T b ?_, by rw [h]; rfl⟩
    intro hmu
    have := (hm hmu).2; rw [h] at this; cases this

theorem grow_gridWith [LawfulGrid τ] {env : Env} {C C' : ChildSpec τ size sub bs fl} {a : GridCall} {must : Bool} (hr : Runs env C C' a.alg must) {g : Grid τ} {A : Store}
    (hg : GrowInv C g A) (dask : Option Nat) (hm : must = true → a.clear = true ∧ (gridWith env g a dask).err = none) :
    GrowInv C' (gridWith env g a dask).st A := by
  rcases gridWith_slots hr g dask hm with ⟨hmu, al, gr, gp, h⟩ | ⟨T, T', al, gr, gp, R, hT, hs, h⟩
  · rw [h]
    have h1 := grow_attrs hg al gr gp g.resolutions
    rcases Option.eq_none_or_eq_some g.tiles with ht | ⟨T, ht⟩
    · refine ⟨h1.canGrow, h1.ox, h1.oy, h1.tileSize, h1.subtileSize, h1.backscatter, h1.names, h1.ne, h1.cont, Or.inl ?_⟩
      rcases h1.body with h2 | ⟨-, i, j, nx, ny, T0, hf, -⟩
      · exact h2
      · have := hf.tiles
        rw [show (g.withAttrs al gr gp g.resolutions).tiles = g.tiles from rfl, ht] at this; cases this
    · have hs : SlotsTo C C' T T := ⟨rfl, rfl, rfl, fun k o o' h1 h2 => by
        rw [h1] at h2; cases h2
        exact ⟨rfl, fun t t' h h' => by rw [h] at h'; cases h'; exact fun _ _ _ h => hr.keep hmu h⟩⟩
      have := grow_to hs ht hg al gr gp [] g.resolutions
      have he : (g.withAttrs al gr gp []).withTiles T g.resolutions = g.withAttrs al gr gp g.resolutions := by
        cases g; simp only at ht; subst ht; rfl
      rw [he] at this
      exact this
  · rw [h]
    exact grow_to hs hT hg al gr gp [] R

/-- subgrids -/
theorem runs_sub [LawfulGrid τ] {env : Env} {C C' : ChildSpec τ sub 0 false fl} {alg : Alg} {must : Bool} (hr : Runs env C C' alg must) (hs : 0 < size)
    (hpow : isPowerOfTwo sub = true) : Runs (size := size) (bs := bs) env (subSpec C hs hpow) (subSpec C' hs hpow) alg must where
  run := by
    intro x y g A a ha hcl hrep herr
    subst ha
    have hrep : SubInv C size x y g A := hrep
    show SubInv C' size x y (g.grid env a).st A
    obtain ⟨T0, hf⟩ := hrep.frame
    have key : ∀ {T T' : Arr2 (Option τ)} {al gr gp R0 R}, g.tiles = some T → SlotsTo C C' T T' → SubInv C' size x y ((g.withAttrs al gr gp R0).withTiles T' R) A := by
      intro T T' al gr gp R0 R hT hsl
      have : T0 = T := by have := hf.tiles; rw [hT] at this; cases this; rfl
      subst this
      exact ⟨hrep.name, hrep.canGrow, hrep.extents, hrep.mask, hrep.vref, hrep.names, hrep.ne, hrep.cont, hrep.nonempty, T', frame_to hsl hf al gr gp R0 R⟩
    rcases gridWith_slots hr g none (fun hmu => ⟨hcl hmu, herr hmu⟩) with ⟨hmu, al, gr, gp, h⟩ | ⟨T, T', al, gr, gp, R, hT, hsl, h⟩
    · rw [show (g.grid env a).st = g.withAttrs al gr gp g.resolutions from h]
      have hsl : SlotsTo C C' T0 T0 := ⟨rfl, rfl, rfl, fun k o o' h1 h2 => by
        rw [h1] at h2; cases h2
        exact ⟨rfl, fun t t' h h' => by rw [h] at h'; cases h'; exact fun _ _ _ h => hr.keep hmu h⟩⟩
      have := key (al := al) (gr := gr) (gp := gp) (R0 := []) (R := g.resolutions) hf.tiles hsl
      have he : (g.withAttrs al gr gp []).withTiles T0 g.resolutions = g.withAttrs al gr gp g.resolutions := by
        have ht := hf.tiles
        cases g; simp only at ht; subst ht; rfl
      rw [he] at this
      exact this
    · rw [show (g.grid env a).st = (g.withAttrs al gr gp []).withTiles T' R from h]
      exact key hT hsl
  keep := by
    intro hmu x y g A hrep
    have hrep : SubInv C size x y g A := hrep
    show SubInv C' size x y g A
    obtain ⟨T0, hf⟩ := hrep.frame
    have hsl : SlotsTo C C' T0 T0 := ⟨rfl, rfl, rfl, fun k o o' h1 h2 => by
        rw [h1] at h2; cases h2
        exact ⟨rfl, fun t t' h h' => by rw [h] at h'; cases h'; exact fun _ _ _ h => hr.keep hmu h⟩⟩
    exact ⟨hrep.name, hrep.canGrow, hrep.extents, hrep.mask, hrep.vref, hrep.names, hrep.ne, hrep.cont, hrep.nonempty, T0,
      ⟨⟨hf.tileSize, hf.subtileSize, hf.backscatter, hf.txs, hf.tys, hf.edgesX, hf.edgesY, hf.tiles, slotsTo_rep hsl hf.rep, hf.inr, hf.nx_pos, hf.ny_pos, hf.dims⟩, hf.num⟩⟩

end Grid

open Grid in
/-- tiles, same family of algorithms -/
theorem runs_tile (env : Env) {F : Family} {alg : Alg} (ha : alg.family = some F) {size sub : ℚ} {bs : Bool} {fl : Fields} (hs : 0 < size) :
    Runs env (tileSpec env F size sub bs fl hs) (tileSpec env F size sub bs fl hs) alg false where
  run := by
    intro x y t A a hal _ hrep _
    obtain ⟨h1, h2, h3⟩ := hrep
    exact ⟨TileHistory.grid h1 a.alg (by rw [hal]; exact ha) a.res a.clear a.mode a.params a.border, h2, h3⟩
  keep := fun _ _ _ _ _ h => h

open Grid in
/-- tiles, other family of algorithms -/
theorem runs_tile_switch (env : Env) (F : Family) {F' : Family} {alg : Alg} (ha : alg.family = some F') {size sub : ℚ} {bs : Bool} {fl : Fields} (hs : 0 < size) :
    Runs env (tileSpec env F size sub bs fl hs) (tileSpec env F' size sub bs fl hs) alg true where
  run := by
    intro x y t A a hal hcl hrep herr
    obtain ⟨h1, h2, h3⟩ := hrep
    have hc := hcl rfl
    have he := herr rfl
    have he' : (t.grid env a.alg a.res a.clear a.mode a.params a.border).1.err = none := he
    refine ⟨?_, h2, h3⟩
    show TileHistory env x y size bs fl F' (t.grid env a.alg a.res a.clear a.mode a.params a.border).1.st A
    rw [hc] at he' ⊢
    exact TileHistory.switch h1 a.alg (by rw [hal]; exact ha) a.res a.mode a.params a.border he'
  keep := fun h => by cases h

end Bathy
