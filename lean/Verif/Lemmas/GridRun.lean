import Verif.Model.GridRun
import Verif.Lemmas.TileGridFrame

/-!
# What a gridding run does to each tile

`Grid.outcome` is the result for one tile in terms of the grid before the run; `gridRegular` and `gridParallel` are described by it.
-/

namespace Bathy

namespace Tile

theorem prepare_samePts {t u : Tile} {r : ℚ} (h : prepare t r = .ok u) : samePoints t u := by
  unfold prepare at h
  split at h
  · split at h
    · split at h
      · cases h
      · split at h
        · cases h
        · cases h; exact ⟨rfl, rfl, by simp [sameFrame]⟩
    · split at h
      · cases h
      · cases h
      · split at h
        · cases h
        · cases h; exact ⟨rfl, rfl, by simp [sameFrame]⟩
  · cases h

theorem gridAt_samePts (env : Env) (t : Tile) (alg : Alg) (r : ℚ) (clear : Bool) (p : Option GridParams) (b : Option PtArr) :
    samePoints t (gridAt env t alg r clear p b).st := by
  unfold gridAt
  split
  · have h1 : samePoints t (if clear then t.clearGrid else t) := by
      cases clear
      · exact samePoints_refl t
      · exact (clearGrid_same t).1
    simp only
    generalize hu1 : (if clear then t.clearGrid else t) = u1 at h1
    have h2 := clearTemp_same u1 r
    generalize hu2 : u1.clearTemp r = u2 at h2
    have e2 : samePoints t u2 := samePoints_trans h1 h2.1
    generalize hr3 : (if (!u2.cells.has r || decide (u2.algorithm ≠ some alg)) = true then
        newGrid { u2 with algorithm := some alg, gridParams := p } r alg else Res.ok u2) = r3
    have h3 : samePoints u2 r3.st := by
      rw [← hr3]
      split
      · have := newGrid_same { u2 with algorithm := some alg, gridParams := p } r alg
        exact samePoints_trans ⟨rfl, rfl, by simp [sameFrame]⟩ this.1
      · exact samePoints_refl _
    have e3 : samePoints t r3.st := samePoints_trans e2 h3
    unfold Res.andThen
    cases hr : r3.err with
    | some e => exact e3
    | none =>
      simp only
      split
      · exact e3
      · rename_i u4 hp
        have e4 := samePoints_trans e3 (prepare_samePts hp)
        split
        · exact e4
        · rename_i u5 hra
          have e5 := samePoints_trans e4 (runAlg_same hra).1
          exact ⟨e5.1, e5.2.1, e5.2.2⟩
  · exact samePoints_refl t

theorem grid_samePts (env : Env) (t : Tile) (alg : Alg) (r : Option ℚ) (clear : Bool) (m : AutoMode) (p : Option GridParams)
    (b : Option PtArr) : samePoints t (grid env t alg r clear m p b).1.st := by
  unfold grid
  split
  · exact samePoints_refl t
  · exact gridAt_samePts _ _ _ _ _ _ _

end Tile

/-- gridding does not change the soundings near the border nor the width -/
class LawfulGrid (τ : Type) [GridLike τ] : Prop where
  side : ∀ (env : Env) (t : τ) (a : GridCall) (s : Side) (buf : ℚ), GridLike.sidePoints (GridLike.grid env t a).1.st s buf = GridLike.sidePoints t s buf
  width : ∀ (env : Env) (t : τ) (a : GridCall), GridLike.width (GridLike.grid env t a).1.st = GridLike.width t

instance : LawfulGrid Tile where
  side env t a s buf := by
    obtain ⟨hd, -, h1, h2, h3, h4, -⟩ := Tile.grid_samePts env t a.alg a.res a.clear a.mode a.params a.border
    show Tile.sidePoints (t.grid env a.alg a.res a.clear a.mode a.params a.border).1.st s buf = Tile.sidePoints t s buf
    unfold Tile.sidePoints
    rw [hd, h1, h2, h3, h4]
  width env t a := by
    obtain ⟨-, -, -, -, -, -, h5, -⟩ := Tile.grid_samePts env t a.alg a.res a.clear a.mode a.params a.border
    show some (t.grid env a.alg a.res a.clear a.mode a.params a.border).1.st.width = some t.width
    rw [h5]

theorem mem_addNew (l rs : List ℚ) (r : ℚ) : r ∈ addNew l rs ↔ r ∈ l ∨ r ∈ rs := by
  unfold addNew
  induction rs generalizing l with
  | nil => simp
  | cons x xs ih =>
    simp only [List.foldl_cons]
    rw [ih]
    by_cases hx : x ∈ l
    · simp only [hx, if_true, List.mem_cons]
      constructor
      · rintro (h | h)
        · exact Or.inl h
        · exact Or.inr (Or.inr h)
      · rintro (h | h | h)
        · exact Or.inl h
        · subst h; exact Or.inl hx
        · exact Or.inr h
    · simp only [hx, if_false, List.mem_append, List.mem_cons, List.not_mem_nil, or_false]
      tauto

namespace Grid
variable {τ : Type} [GridLike τ]

/-- the result of a run for the tile in slot `k`, in terms of the grid before the run; `clear` is the value of `clear_existing` there -/
def outcome (env : Env) (g : Grid τ) (a : GridCall) (p : Plan) (limit : Option ℚ) (clear : Bool) (k : Nat) (o : Option τ) : Res (Option τ) × List ℚ :=
  match o with
  | none => (.ok none, [])
  | some t =>
    if skips a clear t then (.ok (some t), GridLike.resolutions t)
    else
      match g.borderFor k t a.alg limit a.border with
      | .error e => (.fail (some t) e, [])
      | .ok b =>
        let r := GridLike.grid env t (g.childCall a p (clearNext a clear t) b)
        (⟨some r.1.st, r.1.err⟩, r.2)

/-- `clear_existing` after the tiles `l` were visited -/
def clearAt (a : GridCall) (l : List (Option τ)) : Bool :=
  a.clear || (a.regrid == .update && GridLike.isLeaf (τ := τ) && l.any (fun o => match o with | some t => GridLike.pointCountChanged t | none => false))

theorem clearAt_none (a : GridCall) (l : List (Option τ)) : clearAt a (l ++ [none]) = clearAt a l := by
  simp [clearAt]

theorem clearAt_skip {a : GridCall} {l : List (Option τ)} {t : τ} (h : skips a (clearAt a l) t = true) : clearAt a (l ++ [some t]) = clearAt a l := by
  unfold skips at h
  simp only [Bool.and_eq_true, Bool.not_eq_true', beq_iff_eq] at h
  simp [clearAt, h.2]

theorem clearAt_run {a : GridCall} {l : List (Option τ)} {t : τ} (h : skips a (clearAt a l) t = false) :
    clearAt a (l ++ [some t]) = clearNext a (clearAt a l) t := by
  unfold skips at h
  unfold clearNext
  by_cases hu : a.regrid = .update
  · simp only [hu, beq_self_eq_true, Bool.true_and, Bool.and_eq_false_iff, Bool.not_eq_false'] at h ⊢
    cases hl : GridLike.isLeaf (τ := τ)
    · simp [clearAt, hl]
    · simp only [if_true]
      rcases h with h | h
      · unfold clearAt at h ⊢
        simp only [Bool.or_eq_true, Bool.and_eq_true, List.any_append] at h ⊢
        rcases h with h | ⟨h1, h2⟩
        · exact Or.inl h
        · exact Or.inr ⟨h1, Or.inl h2⟩
      · simp [clearAt, hl, hu, h]
  · have : (a.regrid == RegridOption.update) = false := by simp [hu]
    simp [clearAt, this]

/-- the two slots hold the same soundings near their borders -/
def SameSide (o o' : Option τ) : Prop :=
  match o, o' with
  | none, none => True
  | some t, some u => ∀ s buf, GridLike.sidePoints u s buf = GridLike.sidePoints t s buf
  | _, _ => False

theorem sameSide_refl (o : Option τ) : SameSide o o := by cases o <;> simp [SameSide]

theorem sameSide_outcome [LawfulGrid τ] (env : Env) (g : Grid τ) (a : GridCall) (p : Plan) (limit : Option ℚ) (clear : Bool) (k : Nat) (o : Option τ) :
    SameSide o (outcome env g a p limit clear k o).1.st := by
  cases o with
  | none => trivial
  | some t =>
    unfold outcome
    simp only
    split
    · exact sameSide_refl _
    · split
      · exact sameSide_refl _
      · simp only [SameSide]
        intro s buf
        exact LawfulGrid.side env t _ s buf

/-- the tile array after the first `m` slots were visited -/
def prefixTiles (out : Nat → Option τ → Res (Option τ) × List ℚ) (T : Arr2 (Option τ)) (m : Nat) : Arr2 (Option τ) :=
  ⟨T.rows, T.cols, T.flat.mapIdx (fun j o => if j < m then (out j o).1.st else o)⟩

/-- the resolutions collected from the first `m` slots -/
def prefixRes (out : Nat → Option τ → Res (Option τ) × List ℚ) (T : Arr2 (Option τ)) (m : Nat) : List ℚ :=
  (List.range m).foldl (fun R j => addNew R (out j (T.flat[j]?).join).2) []

omit [GridLike τ] in
theorem prefixTiles_zero (out : Nat → Option τ → Res (Option τ) × List ℚ) (T : Arr2 (Option τ)) : prefixTiles out T 0 = T := by
  unfold prefixTiles
  cases T with
  | mk r c f =>
    simp only [Arr2.mk.injEq, true_and]
    apply List.ext_getElem?
    intro i
    rw [List.getElem?_mapIdx]
    cases f[i]? <;> simp

omit [GridLike τ] in
theorem prefixTiles_get (out : Nat → Option τ → Res (Option τ) × List ℚ) (T : Arr2 (Option τ)) (m k : Nat) :
    (prefixTiles out T m).flat[k]? = (T.flat[k]?).map (fun o => if k < m then (out k o).1.st else o) := by
  unfold prefixTiles
  rw [List.getElem?_mapIdx]

omit [GridLike τ] in
theorem prefixTiles_succ (out : Nat → Option τ → Res (Option τ) × List ℚ) (T : Arr2 (Option τ)) {m : Nat} {o : Option τ} (ho : T.flat[m]? = some o) :
    (prefixTiles out T m).setFlat m (out m o).1.st = prefixTiles out T (m + 1) := by
  unfold Arr2.setFlat
  have hlen : ∀ m, (prefixTiles out T m).flat.length = T.flat.length := by intro m; simp [prefixTiles]
  have hm : m < T.flat.length := (List.getElem?_eq_some_iff.1 ho).1
  have : (prefixTiles out T m).flat.set m (out m o).1.st = (prefixTiles out T (m + 1)).flat := by
    apply List.ext_getElem?
    intro i
    rw [List.getElem?_set, prefixTiles_get, prefixTiles_get]
    by_cases hi : m = i
    · subst hi
      rw [ho]
      simp [hlen, hm]
    · simp only [hi, if_false]
      cases T.flat[i]? with
      | none => rfl
      | some v =>
        simp only [Option.map_some, Option.some.injEq]
        by_cases h1 : i < m
        · rw [if_pos h1, if_pos (by omega)]
        · rw [if_neg h1, if_neg (by omega)]
  rw [this]
  rfl

omit [GridLike τ] in
theorem prefixRes_succ (out : Nat → Option τ → Res (Option τ) × List ℚ) (T : Arr2 (Option τ)) {m : Nat} {o : Option τ} (ho : T.flat[m]? = some o) :
    prefixRes out T (m + 1) = addNew (prefixRes out T m) (out m o).2 := by
  unfold prefixRes
  rw [List.range_succ, List.foldl_append, List.foldl_cons, List.foldl_nil, ho]
  rfl

omit [GridLike τ] in
theorem mem_prefixRes (out : Nat → Option τ → Res (Option τ) × List ℚ) (T : Arr2 (Option τ)) (m : Nat) (r : ℚ) :
    r ∈ prefixRes out T m ↔ ∃ k, k < m ∧ r ∈ (out k (T.flat[k]?).join).2 := by
  induction m with
  | zero => simp [prefixRes]
  | succ m ih =>
    unfold prefixRes at ih ⊢
    rw [List.range_succ, List.foldl_append, List.foldl_cons, List.foldl_nil, mem_addNew, ih]
    constructor
    · rintro (⟨k, hk, h⟩ | h)
      · exact ⟨k, by omega, h⟩
      · exact ⟨m, by omega, h⟩
    · rintro ⟨k, hk, h⟩
      rcases Nat.lt_succ_iff_lt_or_eq.1 hk with h1 | rfl
      · exact Or.inl ⟨k, h1, h⟩
      · exact Or.inr h

/-- the grid with other tiles and resolutions -/
def withTiles (g : Grid τ) (T : Arr2 (Option τ)) (R : List ℚ) : Grid τ := { g with tiles := some T, resolutions := R }

theorem neighborPoints_congr {g u : Grid τ} {T U : Arr2 (Option τ)} (hg : g.tiles = some T) (hu : u.tiles = some U) (hr : U.rows = T.rows)
    (hc : U.cols = T.cols) (hl : U.flat.length = T.flat.length)
    (hs : ∀ (k : Nat) o o', T.flat[k]? = some o → U.flat[k]? = some o' → SameSide o o') (k : Nat) (buf : ℚ) :
    u.neighborPoints k buf = g.neighborPoints k buf := by
  have hget : ∀ r c, SameSide ((T.get? r c).join) ((U.get? r c).join) := by
    intro r c
    unfold Arr2.get?
    rw [hr, hc]
    split
    · rename_i hrc
      have hk : ∀ k : Nat, (T.flat[k]? = none ↔ U.flat[k]? = none) := by
        intro k; rw [List.getElem?_eq_none_iff, List.getElem?_eq_none_iff, hl]
      cases h1 : T.flat[r * T.cols + c]? with
      | none => rw [(hk _).1 h1]; exact sameSide_refl _
      | some o =>
        cases h2 : U.flat[r * T.cols + c]? with
        | none => rw [(hk _).2 h2] at h1; cases h1
        | some o' => exact hs _ _ _ h1 h2
    · exact sameSide_refl _
  have hn : ∀ s, SameSide (g.neighbor k s) (u.neighbor k s) := by
    intro s
    unfold neighbor
    rw [hg, hu]
    simp only [hc]
    cases s with
    | up => simp only; split; exacts [trivial, hget _ _]
    | right => exact hget _ _
    | down => exact hget _ _
    | left => simp only; split; exacts [trivial, hget _ _]
  unfold neighborPoints
  have : u.neighborSide k buf = g.neighborSide k buf := by
    funext s
    have h := hn s
    unfold neighborSide
    cases h1 : g.neighbor k s with
    | none =>
      cases h2 : u.neighbor k s with
      | none => rfl
      | some t => rw [h1, h2] at h; exact h.elim
    | some t =>
      cases h2 : u.neighbor k s with
      | none => rw [h1, h2] at h; exact h.elim
      | some t' => rw [h1, h2] at h; exact h s buf
  rw [this]

theorem borderFor_congr {g u : Grid τ} (h : ∀ k buf, u.neighborPoints k buf = g.neighborPoints k buf) (k : Nat) (t : τ) (alg : Alg)
    (limit : Option ℚ) (gb : Option PtArr) : u.borderFor k t alg limit gb = g.borderFor k t alg limit gb := by
  unfold borderFor
  cases alg <;> simp only [h]

/-- the outcome for slot `k` of a run over the tile array `T` -/
def outAt (env : Env) (g : Grid τ) (a : GridCall) (p : Plan) (limit : Option ℚ) (T : Arr2 (Option τ)) (k : Nat) (o : Option τ) : Res (Option τ) × List ℚ :=
  outcome env g a p limit (clearAt a (T.flat.take k)) k o

theorem neighborPoints_prefix [LawfulGrid τ] (env : Env) {g : Grid τ} (a : GridCall) (p : Plan) (limit : Option ℚ) {T : Arr2 (Option τ)} (hg : g.tiles = some T)
    (m : Nat) (R : List ℚ) (k : Nat) (buf : ℚ) :
    (g.withTiles (prefixTiles (outAt env g a p limit T) T m) R).neighborPoints k buf = g.neighborPoints k buf := by
  refine neighborPoints_congr (U := prefixTiles (outAt env g a p limit T) T m) hg rfl rfl rfl (by simp [prefixTiles]) ?_ k buf
  intro k o o' h1 h2
  rw [prefixTiles_get, h1, Option.map_some] at h2
  cases h2
  split
  · exact sameSide_outcome _ _ _ _ _ _ _ _
  · exact sameSide_refl _

omit [GridLike τ] in
theorem setTile_withTiles (g : Grid τ) (T : Arr2 (Option τ)) (R : List ℚ) (k : Nat) (o : Option τ) :
    (g.withTiles T R).setTile k o = g.withTiles (T.setFlat k o) R := rfl

omit [GridLike τ] in
theorem setFlat_self {T : Arr2 (Option τ)} {k : Nat} {o : Option τ} (h : T.flat[k]? = some o) : T.setFlat k o = T := by
  unfold Arr2.setFlat
  have : T.flat.set k o = T.flat := by
    apply List.ext_getElem?
    intro i
    rw [List.getElem?_set]
    by_cases hi : k = i
    · subst hi
      rw [if_pos rfl, if_pos (List.getElem?_eq_some_iff.1 h).1, h]
    · rw [if_neg hi]
  rw [this]

omit [GridLike τ] in
theorem take_succ_eq {l : List (Option τ)} {m : Nat} {o : Option τ} (h : l[m]? = some o) : l.take (m + 1) = l.take m ++ [o] := by
  rw [List.take_add_one, h]; rfl

/-- one round of `_grid_regular` -/
theorem gridStep_eq [LawfulGrid τ] (env : Env) {g : Grid τ} (a : GridCall) (p : Plan) {T : Arr2 (Option τ)} (hg : g.tiles = some T) {m : Nat} {o : Option τ}
    (ho : T.flat[m]? = some o) (R : List ℚ) :
    gridStep env a p (g.withTiles (prefixTiles (outAt env g a p none T) T m) R, clearAt a (T.flat.take m)) m =
      ⟨(g.withTiles (prefixTiles (outAt env g a p none T) T (m + 1)) (if (outAt env g a p none T m o).1.err = none then addNew R (outAt env g a p none T m o).2 else R),
        clearAt a (T.flat.take (m + 1))), (outAt env g a p none T m o).1.err⟩ := by
  have hnb := neighborPoints_prefix env (g := g) a p none hg m R
  have hown : (prefixTiles (outAt env g a p none T) T m).flat[m]? = some o := by
    rw [prefixTiles_get, ho]; simp
  have hsucc := prefixTiles_succ (outAt env g a p none T) T ho
  have htk := take_succ_eq ho
  unfold gridStep
  simp only
  have htile : (g.withTiles (prefixTiles (outAt env g a p none T) T m) R).tile? m = some o := hown
  rw [htile]
  cases o with
  | none =>
    have hout : outAt env g a p none T m none = (.ok none, []) := rfl
    rw [hout] at hsucc ⊢
    rw [htk, clearAt_none, ← hsucc]
    have : (prefixTiles (outAt env g a p none T) T m).setFlat m (Res.ok (none : Option τ)).st = prefixTiles (outAt env g a p none T) T m := setFlat_self hown
    simp only [Res.ok_st] at this
    simp only [Res.ok_st, Res.ok_err, if_true, this]
    rfl
  | some t =>
    simp only
    by_cases hsk : skips a (clearAt a (T.flat.take m)) t = true
    · have hout : outAt env g a p none T m (some t) = (.ok (some t), GridLike.resolutions t) := by
        unfold outAt outcome; simp only [hsk, if_true]
      rw [hout] at hsucc ⊢
      rw [if_pos hsk, htk, clearAt_skip hsk, ← hsucc]
      have : (prefixTiles (outAt env g a p none T) T m).setFlat m (some t) = prefixTiles (outAt env g a p none T) T m := setFlat_self hown
      simp only [Res.ok_st, Res.ok_err, if_true, this]
      rfl
    · rw [if_neg hsk, htk, clearAt_run (by simpa using hsk), borderFor_congr hnb]
      cases hb : g.borderFor m t a.alg none a.border with
      | error e =>
        have hout : outAt env g a p none T m (some t) = (.fail (some t) e, []) := by
          unfold outAt outcome; simp only [hsk, hb]; rfl
        rw [hout] at hsucc ⊢
        rw [← hsucc]
        have : (prefixTiles (outAt env g a p none T) T m).setFlat m (some t) = prefixTiles (outAt env g a p none T) T m := setFlat_self hown
        simp only [Res.fail_st, Res.fail_err, this]
        rfl
      | ok b =>
        have hcall : (g.withTiles (prefixTiles (outAt env g a p none T) T m) R).childCall a p (clearNext a (clearAt a (T.flat.take m)) t) b =
          g.childCall a p (clearNext a (clearAt a (T.flat.take m)) t) b := rfl
        have hout : outAt env g a p none T m (some t) =
            (⟨some (GridLike.grid env t (g.childCall a p (clearNext a (clearAt a (T.flat.take m)) t) b)).1.st,
              (GridLike.grid env t (g.childCall a p (clearNext a (clearAt a (T.flat.take m)) t) b)).1.err⟩,
              (GridLike.grid env t (g.childCall a p (clearNext a (clearAt a (T.flat.take m)) t) b)).2) := by
          unfold outAt outcome; simp only [hsk, hb]; rfl
        simp only [hcall]
        rw [hout] at hsucc ⊢
        simp only at hsucc ⊢
        rw [setTile_withTiles, hsucc]
        cases he : (GridLike.grid env t (g.childCall a p (clearNext a (clearAt a (T.flat.take m)) t) b)).1.err with
        | none => rfl
        | some e => rfl

/-- the loop of `_grid_regular` over the first `m` slots -/
theorem gridLoop_spec [LawfulGrid τ] (env : Env) {g : Grid τ} (a : GridCall) (p : Plan) {T : Arr2 (Option τ)} (hg : g.tiles = some T) (hres : g.resolutions = [])
    {m : Nat} (hm : m ≤ T.flat.length) :
    ((∀ (k : Nat) o, k < m → T.flat[k]? = some o → (outAt env g a p none T k o).1.err = none) ∧
      Res.forEach (List.range m) (g, a.clear) (gridStep env a p) =
        .ok (g.withTiles (prefixTiles (outAt env g a p none T) T m) (prefixRes (outAt env g a p none T) T m), clearAt a (T.flat.take m))) ∨
    (∃ (k : Nat) (o : Option τ) (e : Err), k < m ∧ T.flat[k]? = some o ∧ (outAt env g a p none T k o).1.err = some e ∧
      (∀ (k' : Nat) o, k' < k → T.flat[k']? = some o → (outAt env g a p none T k' o).1.err = none) ∧
      Res.forEach (List.range m) (g, a.clear) (gridStep env a p) =
        .fail (g.withTiles (prefixTiles (outAt env g a p none T) T (k + 1)) (prefixRes (outAt env g a p none T) T k), clearAt a (T.flat.take (k + 1))) e) := by
  induction m with
  | zero =>
    left
    refine ⟨fun k o hk => by omega, ?_⟩
    simp only [List.range_zero, Res.forEach_nil, prefixTiles_zero, List.take_zero]
    have h1 : g.withTiles T (prefixRes (outAt env g a p none T) T 0) = g := by
      cases g; simp only at hg hres; subst hg hres; rfl
    have h2 : clearAt a ([] : List (Option τ)) = a.clear := by simp [clearAt]
    rw [h1, h2]
  | succ m ih =>
    have hm' : m < T.flat.length := by omega
    obtain ⟨o, ho⟩ : ∃ o, T.flat[m]? = some o := ⟨_, List.getElem?_eq_getElem hm'⟩
    rw [List.range_succ, Res.forEach_append]
    rcases ih (by omega) with ⟨h1, h2⟩ | ⟨k, ok, e, hk, h1, h2, h3, h4⟩
    · rw [h2, Res.andThen_ok, Res.forEach_cons, gridStep_eq env a p hg ho]
      cases he : (outAt env g a p none T m o).1.err with
      | none =>
        left
        refine ⟨?_, ?_⟩
        · intro k o' hk ho'
          rcases Nat.lt_succ_iff_lt_or_eq.1 hk with h | rfl
          · exact h1 k o' h ho'
          · rw [ho] at ho'; cases ho'; exact he
        · rw [prefixRes_succ _ T ho]
          rfl
      | some e =>
        right
        refine ⟨m, o, e, by omega, ho, he, h1, ?_⟩
        rfl
    · right
      refine ⟨k, ok, e, by omega, h1, h2, h3, ?_⟩
      rw [h4]
      rfl

omit [GridLike τ] in
theorem slots_eq {g : Grid τ} {T : Arr2 (Option τ)} (hg : g.tiles = some T) : g.slots = T.flat.length := by
  unfold slots; rw [hg]

/-- `_grid_regular` in terms of the outcomes of the tiles -/
theorem gridRegular_spec [LawfulGrid τ] (env : Env) {g : Grid τ} (a : GridCall) (p : Plan) {T : Arr2 (Option τ)} (hg : g.tiles = some T) (hres : g.resolutions = []) :
    ((∀ (k : Nat) o, T.flat[k]? = some o → (outAt env g a p none T k o).1.err = none) ∧
      gridRegular env g a p =
        .ok (g.withTiles (prefixTiles (outAt env g a p none T) T T.flat.length) (npUnique (prefixRes (outAt env g a p none T) T T.flat.length)))) ∨
    (∃ (k : Nat) (o : Option τ) (e : Err), T.flat[k]? = some o ∧ (outAt env g a p none T k o).1.err = some e ∧
      (∀ (k' : Nat) o, k' < k → T.flat[k']? = some o → (outAt env g a p none T k' o).1.err = none) ∧
      gridRegular env g a p =
        .fail (g.withTiles (prefixTiles (outAt env g a p none T) T (k + 1)) (prefixRes (outAt env g a p none T) T k)) e) := by
  unfold gridRegular
  simp only [slots_eq hg]
  rcases gridLoop_spec env a p hg hres (le_refl _) with ⟨h1, h2⟩ | ⟨k, o, e, -, h1, h2, h3, h4⟩
  · left
    refine ⟨fun k o ho => h1 k o (List.getElem?_eq_some_iff.1 ho).1 ho, ?_⟩
    rw [h2]; rfl
  · right
    refine ⟨k, o, e, h1, h2, h3, ?_⟩
    rw [h4]; rfl

end Grid
end Bathy
