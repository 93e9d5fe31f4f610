import Verif.Props.Client

/-!
# C110: the groups of tiles in updates

`C110_groups_sr` and `C110_groups_vr` are for calls that grid all tiles; here the calls that leave tiles out.
-/

namespace Bathy
open Grid

variable {τ : Type}

/-! ### Specification -/

/-- the tile `t` at position `k` is gridded: all tiles are to be gridded, or it has new or removed soundings, or (for tiles that are not subgrids) one of the tiles before has -/
def IsRegridded [GridLike τ] (a : GridCall) (l : List (Option τ)) (k : Nat) : Prop :=
  ∃ t, l[k]? = some (some t) ∧
    (a.regrid = .full ∨ a.clear = true ∨ GridLike.pointCountChanged t = true ∨
      GridLike.isLeaf τ = true ∧ ∃ (j : Nat) (u : τ), j < k ∧ l[j]? = some (some u) ∧ GridLike.pointCountChanged u = true)

open Classical in
/-- the number of tiles that are gridded -/
noncomputable def regriddedTiles [GridLike τ] (a : GridCall) (l : List (Option τ)) : Nat := (List.range l.length).countP (fun k => decide (IsRegridded a l k))

/-- `lines` are the lines for `J` out of `N` tiles in groups of `n`: the groups are numbered from 1, there are as many as the `J` tiles need, and each line names the number of groups of
eight of all tiles -/
def LinesOutOf (n J N : Nat) (lines : List (Nat × Int)) : Prop :=
  ∃ (G : Nat) (E : Int), lines = (List.range G).map (fun i : Nat => (i + 1, E)) ∧ J ≤ G * n ∧ (0 < G → (G - 1) * n < J) ∧ (N : Int) ≤ E * 8 ∧ (E - 1) * 8 < N

/-! ### Helper lemmas -/

private theorem clearAt_eq [GridLike τ] (a : GridCall) (hr : a.regrid = .update) (l : List (Option τ)) :
    clearAt a l = true ↔ a.clear = true ∨ GridLike.isLeaf τ = true ∧ ∃ u, some u ∈ l ∧ GridLike.pointCountChanged u = true := by
  unfold clearAt
  rw [hr]
  simp only [beq_self_eq_true, Bool.true_and, Bool.or_eq_true, Bool.and_eq_true, List.any_eq_true]
  refine or_congr Iff.rfl (and_congr Iff.rfl ⟨?_, ?_⟩)
  · rintro ⟨o, ho, h⟩
    cases o with
    | none => cases h
    | some u => exact ⟨u, ho, h⟩
  · rintro ⟨u, hu, h⟩
    exact ⟨some u, hu, h⟩

private theorem regridded_iff [GridLike τ] (a : GridCall) {l : List (Option τ)} {k : Nat} {t : τ} (ht : l[k]? = some (some t)) :
    IsRegridded a l k ↔ skips a (clearAt a (l.take k)) t = false := by
  have hm : ∀ u, some u ∈ l.take k ↔ ∃ j, j < k ∧ l[j]? = some (some u) := by
    intro u
    rw [List.mem_iff_getElem?]
    constructor
    · rintro ⟨j, hj⟩
      rw [List.getElem?_take] at hj
      split at hj
      · exact ⟨j, ‹_›, hj⟩
      · cases hj
    · rintro ⟨j, hj, hl⟩
      exact ⟨j, by rw [List.getElem?_take, if_pos hj]; exact hl⟩
  unfold IsRegridded skips
  cases hr : a.regrid with
  | full => simp [ht]
  | update =>
    rw [Bool.and_eq_false_iff, Bool.and_eq_false_iff]
    simp only [beq_self_eq_true, Bool.true_eq_false, false_or, Bool.not_eq_false']
    rw [clearAt_eq a hr]
    constructor
    · rintro ⟨t', ht', h | h | h | ⟨h, j, u, hj, hu, hc⟩⟩
      · cases h
      · exact .inl (.inl h)
      · rw [ht] at ht'; cases ht'; exact .inr h
      · exact .inl (.inr ⟨h, u, (hm u).2 ⟨j, hj, hu⟩, hc⟩)
    · rintro ((h | ⟨h, u, hu, hc⟩) | h)
      · exact ⟨t, ht, .inr (.inl h)⟩
      · obtain ⟨j, hj, hu⟩ := (hm u).1 hu
        exact ⟨t, ht, .inr (.inr (.inr ⟨h, j, u, hj, hu, hc⟩))⟩
      · exact ⟨t, ht, .inr (.inr (.inl h))⟩

open Classical in
private theorem loop_groups [GridLike τ] [LawfulGrid τ] (env : Env) {n : Nat} (hn : 0 < n) (total : Int) {g : Grid τ} {a : GridCall} (p : Plan)
    {limit : Option ℚ} (hlim : parLimit a p = .ok limit) {T : Arr2 (Option τ)} (hg : g.tiles = some T) {m : Nat} (hm : m ≤ T.flat.length)
    (hok : (Res.forEach (List.range m) (⟨⟨{ g with resolutions := [] }, a.clear, []⟩, 1, []⟩ : ParPrint τ) (parStepPrint env n total a p)).err = none) :
    ∃ q, (Res.forEach (List.range m) (⟨⟨{ g with resolutions := [] }, a.clear, []⟩, 1, []⟩ : ParPrint τ) (parStepPrint env n total a p)).st.printed = groupLines q total ∧
      (Res.forEach (List.range m) (⟨⟨{ g with resolutions := [] }, a.clear, []⟩, 1, []⟩ : ParPrint τ) (parStepPrint env n total a p)).st.run = q + 1 ∧
      (Res.forEach (List.range m) (⟨⟨{ g with resolutions := [] }, a.clear, []⟩, 1, []⟩ : ParPrint τ) (parStepPrint env n total a p)).st.par.jobs.length < n ∧
      (Res.forEach (List.range m) (⟨⟨{ g with resolutions := [] }, a.clear, []⟩, 1, []⟩ : ParPrint τ) (parStepPrint env n total a p)).st.par.jobs.length + q * n =
        (List.range m).countP (fun k => decide (IsRegridded a T.flat k)) := by
  induction m with
  | zero => exact ⟨0, rfl, rfl, hn, by simp⟩
  | succ m ih =>
    have hm' : m < T.flat.length := by omega
    obtain ⟨o, ho⟩ : ∃ o, T.flat[m]? = some o := ⟨_, List.getElem?_eq_getElem hm'⟩
    rw [List.range_succ, Res.forEach_append] at hok ⊢
    obtain ⟨h1, h2⟩ := Res.andThen_err_none hok
    obtain ⟨q, e1, e2, e3, e4⟩ := ih (by omega) h1
    obtain ⟨f1, f2⟩ := parLoopPrint_par env n total a p (List.range m) (⟨⟨{ g with resolutions := [] }, a.clear, []⟩, 1, []⟩ : ParPrint τ)
    rw [Res.andThen_of_err_none h1]
    generalize (Res.forEach (List.range m) (⟨⟨{ g with resolutions := [] }, a.clear, []⟩, 1, []⟩ : ParPrint τ) (parStepPrint env n total a p)) = r at *
    rcases parLoop_spec env n a p hlim hg (m := m) (by omega) with ⟨b, R, hbm, h3, -, -, -⟩ | ⟨b, R, e, -, h3, -⟩
    swap
    · rw [h1] at f1
      rw [h3] at f1; cases f1
    rw [h3] at f2
    have htile : r.st.par.grid.tile? m = some o := by
      rw [f2]
      show (prefixTiles (outAt env g a p limit T) T b).flat[m]? = some o
      rw [prefixTiles_get, ho, Option.map_some, if_neg (by omega)]
    have hclear : r.st.par.clear = clearAt a (T.flat.take m) := by rw [f2]; rfl
    rw [List.countP_append]
    simp only [Res.forEach_cons, Res.forEach_nil] at h2 ⊢
    obtain ⟨h2, -⟩ := Res.andThen_err_none h2
    rw [Res.andThen_of_err_none h2]
    simp only [Res.ok_st]
    unfold parStepPrint at h2 ⊢
    simp only [htile] at h2 ⊢
    cases o with
    | none =>
      have hno : ¬ IsRegridded a T.flat m := by rintro ⟨t, ht, -⟩; rw [ho] at ht; cases ht
      exact ⟨q, e1, e2, e3, by simpa [hno] using e4⟩
    | some t =>
      have hiff := regridded_iff a ho
      rw [← hclear] at hiff
      simp only at h2 ⊢
      by_cases hs : skips a r.st.par.clear t = true
      · have hno : ¬ IsRegridded a T.flat m := by rw [hiff, hs]; simp
        rw [if_pos hs]
        exact ⟨q, e1, e2, e3, by simpa [hno] using e4⟩
      · have hyes : IsRegridded a T.flat m := hiff.2 (by simpa using hs)
        rw [if_neg hs] at h2 ⊢
        simp only [hlim] at h2 ⊢
        cases hb : r.st.par.grid.borderFor m t a.alg limit a.border with
        | error e => rw [hb] at h2; cases h2
        | ok bd =>
          simp only [List.length_append, List.length_singleton]
          by_cases hq : r.st.par.jobs.length + 1 = n
          · rw [if_pos hq]
            refine ⟨q + 1, ?_, ?_, hn, ?_⟩
            · simp only [e1, e2]
              unfold groupLines
              rw [List.range_succ, List.map_append]
              rfl
            · simp only [e2]
            · simp only [List.length_nil, List.countP_singleton, hyes, decide_true, if_true, ← e4]
              rw [Nat.add_mul]
              omega
          · rw [if_neg hq]
            refine ⟨q, e1, e2, ?_, ?_⟩
            · show (r.st.par.jobs ++ [_]).length < n
              rw [List.length_append, List.length_singleton]; omega
            · show (r.st.par.jobs ++ [_]).length + q * n = _
              simp only [List.length_append, List.length_singleton, List.countP_singleton, hyes, decide_true, if_true, ← e4]
              omega

private theorem lines_out_of [GridLike τ] [LawfulGrid τ] (env : Env) {n : Nat} (hn : 0 < n) (g : Grid τ) {a : GridCall}
    (hN : g.numberOfTiles = some (g.tileObjects : Int)) (hok : (gridDask env n g a).err = none) :
    LinesOutOf n (regriddedTiles a g.slotList) g.tileObjects (gridDaskPrint env n g a).1 ∧ (gridDaskPrint env n g a).2 = gridDask env n g a := by
  rcases gridPlan_spec env g a with ⟨gr, h1, h2, ⟨T, hT⟩, h4, -⟩ | ⟨al, gr, gp, e, h⟩
  swap
  · unfold gridDask at hok
    simp only [h] at hok
    cases hok
  have hN' : (gridPlan env g a).1.st.numberOfTiles = some (g.tileObjects : Int) := by rw [h1]; exact hN
  refine ⟨?_, gridDaskPrint_grid env n g a hN'⟩
  have hslots : g.slotList = T.flat := by unfold slotList; rw [hT]
  have hlim : ∃ limit, parLimit a (gridPlan env g a).2 = .ok limit := by
    unfold parLimit
    cases ha : a.alg <;> cases hau : (gridPlan env g a).2.auto <;> try exact ⟨_, rfl⟩
    obtain ⟨h5, h6⟩ := h4 hau
    rw [h5]
    cases hr : a.res with
    | none => exact absurd hr h6
    | some r => exact ⟨_, rfl⟩
  obtain ⟨limit, hlim⟩ := hlim
  rw [← gridDaskPrint_grid env n g a hN'] at hok
  unfold gridDaskPrint at hok ⊢
  simp only [h1, Res.ok_err, Res.ok_st] at hok ⊢
  have hT' : (g.withAttrs (some a.alg) gr a.params []).tiles = some T := hT
  have hN2 : (g.withAttrs (some a.alg) gr a.params []).numberOfTiles = some (g.tileObjects : Int) := hN
  have hsl : (g.withAttrs (some a.alg) gr a.params []).slots = T.flat.length := by unfold slots; rw [hT']
  generalize g.withAttrs (some a.alg) gr a.params [] = g' at *
  unfold gridParallelPrint at hok ⊢
  rw [hN2] at hok ⊢
  unfold parRuns at hok ⊢
  simp only [hsl] at hok ⊢
  have hl := loop_groups env hn (totalRuns g.tileObjects) (g := g') (a := a) (gridPlan env g a).2 hlim hT' (le_refl T.flat.length)
  generalize (Res.forEach (List.range T.flat.length) (⟨⟨{ g' with resolutions := [] }, a.clear, []⟩, 1, []⟩ : ParPrint τ)
    (parStepPrint env n (totalRuns g.tileObjects) a (gridPlan env g a).2)) = r at *
  cases he : r.err with
  | some e => rw [he] at hok; cases hok
  | none =>
    obtain ⟨q, e1, e2, e3, e4⟩ := hl he
    have e4 : r.st.par.jobs.length + q * n = regriddedTiles a T.flat := e4
    simp only
    have hlast := groupLines_last hn e3 e4 (totalRuns g.tileObjects)
    have hpr : (if r.st.par.jobs.isEmpty = true then r.st.printed else r.st.printed ++ [(r.st.run, totalRuns g.tileObjects)]) =
        groupLines ((regriddedTiles a T.flat + n - 1) / n) (totalRuns g.tileObjects) := by
      rw [← hlast, e1, e2]
      cases hj : r.st.par.jobs <;> simp
    rw [hpr, hslots]
    exact ⟨_, _, rfl, (groups_bounds _ hn).1, (groups_bounds _ hn).2, (totalRuns_bounds _).1, (totalRuns_bounds _).2⟩

/-! ### C110 -/

variable {env : Env} {size sub : ℚ} {bs s : Bool} {fl : Fields} {F : Family} {A : Store}

/-- **C110** (groups, single resolution, any `grid` call with `n` workers): there is a line for each group of the tiles that are gridded, numbered from 1 in steps of 1 -/
theorem C110_groups_any_sr (hs : 0 < size) {g : Grid Tile} (h : SRHistory env size bs fl F s g A) (hA : A ≠ []) {n : Nat} (hn : 0 < n) {a : GridCall}
    (hok : (gridDask env n g a).err = none) :
    LinesOutOf n (regriddedTiles a g.slotList) g.tileObjects (gridDaskPrint env n g a).1 ∧ (gridDaskPrint env n g a).2 = gridDask env n g a :=
  lines_out_of env hn g ((C09_tile_count_sr hs h).1 hA) hok

/-- **C110** (groups, variable resolution, any `grid` call with `n` workers) -/
theorem C110_groups_any_vr (hs : 0 < size) (hsub : isPowerOfTwo sub = true) {g : Grid (Grid Tile)} (h : VRHistory env size sub bs fl F s g A) (hA : A ≠ [])
    {n : Nat} (hn : 0 < n) {a : GridCall} (hok : (gridDask env n g a).err = none) :
    LinesOutOf n (regriddedTiles a g.slotList) g.tileObjects (gridDaskPrint env n g a).1 ∧ (gridDaskPrint env n g a).2 = gridDask env n g a :=
  lines_out_of env hn g ((C09_tile_count_vr hs hsub h).1 hA) hok

/-- **C110 does not hold** for updates, also with eight workers: if the tiles that are gridded need fewer groups of eight than all tiles, the last line names a group before the number of
groups it shows, although no group follows. -/
theorem C110_update_violated {J N : Nat} {lines : List (Nat × Int)} (h : LinesOutOf 8 J N lines) (hJ : 0 < J) {k : Nat} (hk : J ≤ k * 8) (hN : k * 8 < N) :
    ∃ l, lines.getLast? = some l ∧ (l.1 : Int) < l.2 := by
  obtain ⟨G, E, rfl, h1, h2, h3, h4⟩ := h
  cases G with
  | zero => omega
  | succ G =>
    refine ⟨(G + 1, E), by rw [List.range_succ, List.map_append, List.map_singleton, List.getLast?_append_cons, List.getLast?_singleton], ?_⟩
    have := h2 (by omega)
    simp only
    push_cast
    omega

/-! ### Examples -/

private def nine : Grid Tile := ((newSR 16 false).addPoints ⟨{}, (List.range 9).map (fun k : Nat => ⟨16 * (k : ℚ) + 1, 1, 5, 1, 1⟩)⟩ "a" {}).st
private def more : Grid Tile := (((nine.gridWith demoEnv { alg := .mean, res := some 16 } none).st).addPoints ⟨{}, [⟨130, 2, 6, 1, 1⟩]⟩ "b" {}).st

/-- nine tiles, the last one has new soundings, and eight workers: group 1 out of 2, and no other group -/
example : (gridDaskPrint demoEnv 8 more { alg := .mean, res := some 16, regrid := .update }).1 = [(1, 2)] ∧
    (gridDask demoEnv 8 more { alg := .mean, res := some 16, regrid := .update }).err = none ∧ more.tileObjects = 9 := by
  refine ⟨?_, ?_, ?_⟩ <;> decide +kernel

/-- the hypotheses of `C110_update_violated` can be met -/
example : LinesOutOf 8 1 9 [(1, 2)] ∧ 1 ≤ 1 * 8 ∧ 1 * 8 < 9 := ⟨⟨1, 2, rfl, by norm_num, by norm_num, by norm_num, by norm_num⟩, by norm_num, by norm_num⟩

/-- the hypotheses of `C110_groups_any_sr` can be met -/
example : ∃ A, SRHistory demoEnv 16 false {} .plain false more A ∧ A ≠ [] :=
  ⟨_, ((((GridHistory.new .plain).add _ "a" {} (by decide +kernel)).grid { alg := .mean, res := some 16 } rfl none).add _ "b" {} (by decide +kernel)), by decide +kernel⟩

end Bathy
