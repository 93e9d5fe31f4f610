import Verif.Model.Client
import Verif.Lemmas.GridHistory
import Verif.Props.GridPoints

/-!
# C110: the Dask client and the groups of tiles

Model: `findOrStart` (bathygrid/utilities.py:20-67), `Grid.gridDaskPrint` (bathygrid/bgrid.py:1378-1459).
-/

namespace Bathy
open Grid

variable {τ : Type}

/-! ### Helper lemmas: the printing loop -/

theorem parStepPrint_par [GridLike τ] (env : Env) (n : Nat) (total : Int) (a : GridCall) (p : Plan) (s : ParPrint τ) (k : Nat) :
    (parStepPrint env n total a p s k).err = (parStep env n a p s.par k).err ∧ (parStepPrint env n total a p s k).st.par = (parStep env n a p s.par k).st := by
  unfold parStepPrint parStep
  simp only
  rcases s.par.grid.tile? k with _ | _ | t
  · exact ⟨rfl, rfl⟩
  · exact ⟨rfl, rfl⟩
  · simp only
    by_cases hs : skips a s.par.clear t = true
    · rw [if_pos hs, if_pos hs]; exact ⟨rfl, rfl⟩
    · rw [if_neg hs, if_neg hs]
      cases parLimit a p with
      | error e => exact ⟨rfl, rfl⟩
      | ok limit =>
        simp only
        cases s.par.grid.borderFor k t a.alg limit a.border with
        | error e => exact ⟨rfl, rfl⟩
        | ok b =>
          simp only
          split <;> exact ⟨rfl, rfl⟩

theorem parLoopPrint_par [GridLike τ] (env : Env) (n : Nat) (total : Int) (a : GridCall) (p : Plan) (l : List Nat) (s : ParPrint τ) :
    (Res.forEach l s (parStepPrint env n total a p)).err = (Res.forEach l s.par (parStep env n a p)).err ∧
    (Res.forEach l s (parStepPrint env n total a p)).st.par = (Res.forEach l s.par (parStep env n a p)).st := by
  induction l generalizing s with
  | nil => exact ⟨rfl, rfl⟩
  | cons k l ih =>
    obtain ⟨h1, h2⟩ := parStepPrint_par env n total a p s k
    simp only [Res.forEach_cons]
    cases he : (parStep env n a p s.par k).err with
    | none =>
      rw [Res.andThen_of_err_none (h1.trans he), Res.andThen_of_err_none he, ← h2]
      exact ih _
    | some e =>
      unfold Res.andThen
      rw [h1, he]
      exact ⟨rfl, h2⟩

/-- the lines printed for `q` groups -/
def groupLines (q : Nat) (total : Int) : List (Nat × Int) := (List.range q).map (fun i : Nat => (i + 1, total))

theorem parLoopPrint_groups [GridLike τ] [LawfulGrid τ] (env : Env) {n : Nat} (hn : 0 < n) (total : Int) {g : Grid τ} {a : GridCall} (hfull : a.regrid = .full) (p : Plan)
    {limit : Option ℚ} (hlim : parLimit a p = .ok limit) {T : Arr2 (Option τ)} (hg : g.tiles = some T) {m : Nat} (hm : m ≤ T.flat.length)
    (hok : (Res.forEach (List.range m) (⟨⟨{ g with resolutions := [] }, a.clear, []⟩, 1, []⟩ : ParPrint τ) (parStepPrint env n total a p)).err = none) :
    ∃ q, (Res.forEach (List.range m) (⟨⟨{ g with resolutions := [] }, a.clear, []⟩, 1, []⟩ : ParPrint τ) (parStepPrint env n total a p)).st.printed = groupLines q total ∧
      (Res.forEach (List.range m) (⟨⟨{ g with resolutions := [] }, a.clear, []⟩, 1, []⟩ : ParPrint τ) (parStepPrint env n total a p)).st.run = q + 1 ∧
      (Res.forEach (List.range m) (⟨⟨{ g with resolutions := [] }, a.clear, []⟩, 1, []⟩ : ParPrint τ) (parStepPrint env n total a p)).st.par.jobs.length < n ∧
      (Res.forEach (List.range m) (⟨⟨{ g with resolutions := [] }, a.clear, []⟩, 1, []⟩ : ParPrint τ) (parStepPrint env n total a p)).st.par.jobs.length + q * n =
        (T.flat.take m).countP Option.isSome := by
  induction m with
  | zero => exact ⟨0, rfl, rfl, hn, by simp⟩
  | succ m ih =>
    have hm' : m < T.flat.length := by omega
    obtain ⟨o, ho⟩ : ∃ o, T.flat[m]? = some o := ⟨_, List.getElem?_eq_getElem hm'⟩
    rw [List.range_succ, Res.forEach_append] at hok ⊢
    obtain ⟨h1, h2⟩ := Res.andThen_err_none hok
    obtain ⟨q, e1, e2, e3, e4⟩ := ih (by omega) h1
    obtain ⟨f1, f2⟩ := parLoopPrint_par env n total a p (List.range m) (⟨⟨{ g with resolutions := [] }, a.clear, []⟩, 1, []⟩ : ParPrint τ)
    rw [Res.andThen_of_err_none h1]
    generalize (Res.forEach (List.range m) (⟨⟨{ g with resolutions := [] }, a.clear, []⟩, 1, []⟩ : ParPrint τ) (parStepPrint env n total a p)) = r at *
    rcases parLoop_spec env n a p hlim hg (m := m) (by omega) with ⟨b, R, hbm, h3, -, -, -⟩ | ⟨b, R, e, -, h3, -⟩
    swap
    · rw [h1] at f1
      rw [h3] at f1; cases f1
    rw [h3] at f2
    have htile : r.st.par.grid.tile? m = some o := by
      rw [f2]
      show (prefixTiles (outAt env g a p limit T) T b).flat[m]? = some o
      rw [prefixTiles_get, ho, Option.map_some, if_neg (by omega)]
    have hsk : ∀ c (t : τ), skips a c t = false := by intro c t; unfold skips; rw [hfull]; rfl
    rw [take_succ_eq ho, List.countP_append]
    simp only [Res.forEach_cons, Res.forEach_nil] at h2 ⊢
    obtain ⟨h2, -⟩ := Res.andThen_err_none h2
    rw [Res.andThen_of_err_none h2]
    simp only [Res.ok_st]
    unfold parStepPrint at h2 ⊢
    simp only [htile] at h2 ⊢
    cases o with
    | none => exact ⟨q, e1, e2, e3, by simpa using e4⟩
    | some t =>
      simp only [hsk, Bool.false_eq_true, if_false, hlim] at h2 ⊢
      cases hb : r.st.par.grid.borderFor m t a.alg limit a.border with
      | error e => rw [hb] at h2; cases h2
      | ok bd =>
        simp only [List.length_append, List.length_singleton]
        by_cases hq : r.st.par.jobs.length + 1 = n
        · rw [if_pos hq]
          refine ⟨q + 1, ?_, ?_, hn, ?_⟩
          · simp only [e1, e2]
            unfold groupLines
            rw [List.range_succ, List.map_append]
            rfl
          · simp only [e2]
          · simp only [List.length_nil, List.countP_singleton, Option.isSome_some, if_true, ← e4]
            rw [Nat.add_mul]
            omega
        · rw [if_neg hq]
          refine ⟨q, e1, e2, ?_, ?_⟩
          · show (r.st.par.jobs ++ [_]).length < n
            rw [List.length_append, List.length_singleton]; omega
          · show (r.st.par.jobs ++ [_]).length + q * n = _
            simp only [List.length_append, List.length_singleton, List.countP_singleton, Option.isSome_some, if_true, ← e4]
            omega

theorem groupLines_last {n N q l : Nat} (hn : 0 < n) (hl : l < n) (h : l + q * n = N) (total : Int) :
    (if l = 0 then groupLines q total else groupLines q total ++ [(q + 1, total)]) = groupLines ((N + n - 1) / n) total := by
  by_cases h0 : l = 0
  · rw [if_pos h0]
    congr 1
    subst h0 h
    rw [Nat.zero_add, show q * n + n - 1 = (n - 1) + n * q by rw [Nat.mul_comm]; omega, Nat.add_mul_div_left _ _ hn, Nat.div_eq_of_lt (by omega)]
    omega
  · rw [if_neg h0]
    have : (N + n - 1) / n = q + 1 := by
      subst h
      rw [show l + q * n + n - 1 = (l - 1) + n * (q + 1) by rw [Nat.mul_comm, Nat.mul_add]; omega, Nat.add_mul_div_left _ _ hn, Nat.div_eq_of_lt (by omega)]
      omega
    rw [this]
    unfold groupLines
    rw [List.range_succ, List.map_append]
    rfl

/-- what is printed does not change the grid -/
theorem gridDaskPrint_grid [GridLike τ] (env : Env) (n : Nat) (g : Grid τ) (a : GridCall) {N : Int} (hN : (gridPlan env g a).1.st.numberOfTiles = some N) :
    (gridDaskPrint env n g a).2 = gridDask env n g a := by
  unfold gridDaskPrint gridDask
  simp only
  cases he : (gridPlan env g a).1.err with
  | some e => unfold Res.andThen; rw [he]; rfl
  | none =>
    rw [Res.andThen_of_err_none he]
    unfold gridParallelPrint
    rw [hN]
    unfold parRuns gridParallel
    simp only
    generalize (gridPlan env g a).1.st = g' at *
    obtain ⟨f1, f2⟩ := parLoopPrint_par env n (totalRuns N) a (gridPlan env g a).2 (List.range g'.slots) (⟨⟨{ g' with resolutions := [] }, a.clear, []⟩, 1, []⟩ : ParPrint τ)
    rw [f1, f2]
    cases (Res.forEach (List.range g'.slots) (⟨{ g' with resolutions := [] }, a.clear, []⟩ : ParState τ) (parStep env n a (gridPlan env g a).2)).err <;> rfl

theorem gridDaskPrint_lines [GridLike τ] [LawfulGrid τ] (env : Env) {n : Nat} (hn : 0 < n) (g : Grid τ) {a : GridCall} (hfull : a.regrid = .full)
    (hN : g.numberOfTiles = some (g.tileObjects : Int)) (hok : (gridDask env n g a).err = none) :
    (gridDaskPrint env n g a).1 = groupLines ((g.tileObjects + n - 1) / n) (totalRuns g.tileObjects) ∧ (gridDaskPrint env n g a).2 = gridDask env n g a := by
  rcases gridPlan_spec env g a with ⟨gr, h1, h2, ⟨T, hT⟩, h4, -⟩ | ⟨al, gr, gp, e, h⟩
  swap
  · unfold gridDask at hok
    simp only [h] at hok
    cases hok
  have hN' : (gridPlan env g a).1.st.numberOfTiles = some (g.tileObjects : Int) := by rw [h1]; exact hN
  refine ⟨?_, gridDaskPrint_grid env n g a hN'⟩
  have hobj : g.tileObjects = T.flat.countP Option.isSome := by
    unfold tileObjects slotList
    rw [hT, List.countP_eq_length_filter]
  have hlim : ∃ limit, parLimit a (gridPlan env g a).2 = .ok limit := by
    unfold parLimit
    cases ha : a.alg <;> cases hau : (gridPlan env g a).2.auto <;> try exact ⟨_, rfl⟩
    obtain ⟨h5, h6⟩ := h4 hau
    rw [h5]
    cases hr : a.res with
    | none => exact absurd hr h6
    | some r => exact ⟨_, rfl⟩
  obtain ⟨limit, hlim⟩ := hlim
  rw [← gridDaskPrint_grid env n g a hN'] at hok
  unfold gridDaskPrint at hok ⊢
  simp only [h1, Res.ok_err, Res.ok_st] at hok ⊢
  have hT' : (g.withAttrs (some a.alg) gr a.params []).tiles = some T := hT
  have hN2 : (g.withAttrs (some a.alg) gr a.params []).numberOfTiles = some (g.tileObjects : Int) := hN
  have hsl : (g.withAttrs (some a.alg) gr a.params []).slots = T.flat.length := by unfold slots; rw [hT']
  generalize g.withAttrs (some a.alg) gr a.params [] = g' at *
  unfold gridParallelPrint at hok ⊢
  rw [hN2] at hok ⊢
  unfold parRuns at hok ⊢
  simp only [hsl] at hok ⊢
  have hl := parLoopPrint_groups env hn (totalRuns g.tileObjects) (g := g') hfull (gridPlan env g a).2 hlim hT' (le_refl T.flat.length)
  generalize (Res.forEach (List.range T.flat.length) (⟨⟨{ g' with resolutions := [] }, a.clear, []⟩, 1, []⟩ : ParPrint τ)
    (parStepPrint env n (totalRuns g.tileObjects) a (gridPlan env g a).2)) = r at *
  cases he : r.err with
  | some e => rw [he] at hok; cases hok
  | none =>
    obtain ⟨q, e1, e2, e3, e4⟩ := hl he
    simp only
    rw [List.take_length, ← hobj] at e4
    rw [← groupLines_last hn e3 e4, e1, e2]
    cases hj : r.st.par.jobs <;> simp

theorem groups_bounds {n : Nat} (N : Nat) (hn : 0 < n) : N ≤ (N + n - 1) / n * n ∧ (0 < (N + n - 1) / n → ((N + n - 1) / n - 1) * n < N) := by
  have h1 := Nat.div_add_mod (N + n - 1) n
  have h2 := Nat.mod_lt (N + n - 1) hn
  generalize (N + n - 1) / n = G at *
  cases G with
  | zero => simp only [Nat.mul_zero] at h1; constructor <;> omega
  | succ G =>
    rw [Nat.add_sub_cancel, Nat.mul_comm (G + 1), Nat.mul_comm G]
    rw [Nat.mul_add, Nat.mul_one] at h1 ⊢
    omega

theorem totalRuns_bounds (N : Nat) : (N : Int) ≤ totalRuns N * 8 ∧ (totalRuns N - 1) * 8 < N := by
  unfold totalRuns
  have h1 := Int.le_ceil (((N : Int) : ℚ) / 8)
  have h2 := Int.ceil_lt_add_one (((N : Int) : ℚ) / 8)
  rw [div_le_iff₀ (by norm_num)] at h1
  have h3 : ((⌈((N : Int) : ℚ) / 8⌉ : Int) : ℚ) - 1 < ((N : Int) : ℚ) / 8 := by linarith
  rw [lt_div_iff₀ (by norm_num)] at h3
  exact ⟨by exact_mod_cast h1, by exact_mod_cast h3⟩

/-! ### Specification -/

/-- `lines` are the lines for `N` tiles in groups of `n`: the groups are numbered from 1, there are as many as are needed, and each line names the
number of groups of eight -/
def LinesFor (n N : Nat) (lines : List (Nat × Int)) : Prop :=
  ∃ (G : Nat) (E : Int), lines = (List.range G).map (fun i : Nat => (i + 1, E)) ∧ N ≤ G * n ∧ (0 < G → (G - 1) * n < N) ∧ (N : Int) ≤ E * 8 ∧ (E - 1) * 8 < N

theorem linesFor_of {n : Nat} (N : Nat) (hn : 0 < n) : LinesFor n N (groupLines ((N + n - 1) / n) (totalRuns N)) :=
  ⟨_, _, rfl, (groups_bounds N hn).1, (groups_bounds N hn).2, (totalRuns_bounds N).1, (totalRuns_bounds N).2⟩

variable {env : Env} {size sub : ℚ} {bs s : Bool} {fl : Fields} {F : Family} {A : Store}

/-! ### C110 -/

/-- **C110** (the client): an existing client is used; only if `get_client` says that there is none (ValueError) one is started, at the same address, with
the largest number of workers that is not above the number of cores, eight, and, unless there are more than 24 GB of memory, four; any other exception
is passed on. -/
theorem C110_client {κ : Type} (h : Host κ) (address : Option String) (silent : Bool) :
    (∀ c, h.getClient address = .ok c → (findOrStart h address silent).2 = .ok c) ∧
    (∀ e, e ≠ .valueError → h.getClient address = .error e → (findOrStart h address silent).2 = .error e) ∧
    (∀ k, h.getClient address = .error .valueError → h.cores = some k → ∃ n, (findOrStart h address silent).2 = h.newClient address n ∧ n ≤ k ∧ n ≤ 8 ∧
      (h.memory ≤ 24 → n ≤ 4) ∧ (n = k ∨ n = 8 ∨ n = 4 ∧ h.memory ≤ 24)) ∧
    (h.getClient address = .error .valueError → h.cores = none → (findOrStart h address silent).2 = .error .typeError) := by
  refine ⟨?_, ?_, ?_, ?_⟩
  · intro c hc; unfold findOrStart; rw [hc]
  · intro e he hc
    unfold findOrStart; rw [hc]
    cases e <;> first | rfl | exact absurd rfl he
  · intro k hc hk
    unfold findOrStart Host.workers
    rw [hc, hk]
    simp only
    refine ⟨if 24 < h.memory then min k 8 else min k 4, ?_, ?_, ?_, ?_, ?_⟩
    · cases h.newClient address (if 24 < h.memory then min k 8 else min k 4) <;> rfl
    · split <;> omega
    · split <;> omega
    · intro hm; rw [if_neg (not_lt.2 hm)]; omega
    · split
      · omega
      · rename_i hm
        have := not_lt.1 hm
        by_cases hk4 : k ≤ 4
        · left; omega
        · right; right; exact ⟨by omega, this⟩
  · intro hc hk
    unfold findOrStart Host.workers
    rw [hc, hk]

/-- **C110 does not hold** in that `silent` suppresses all messages: whenever a client is returned it is printed. -/
theorem C110_silent_violated {κ : Type} (h : Host κ) (address : Option String) {c : κ} (hc : (findOrStart h address true).2 = .ok c) :
    (findOrStart h address true).1 = [.shows c] := by
  unfold findOrStart at hc ⊢
  cases h1 : h.getClient address with
  | ok c' => rw [h1] at hc; cases hc; rfl
  | error e =>
    rw [h1] at hc
    cases e <;> try (cases hc)
    simp only at hc ⊢
    cases h2 : h.workers with
    | error e => rw [h2] at hc; cases hc
    | ok n =>
      rw [h2] at hc
      simp only at hc ⊢
      cases h3 : h.newClient address n with
      | error e => rw [h3] at hc; cases hc
      | ok c' => rw [h3] at hc; cases hc; rfl

/-- **C110** (messages): without `silent` the first line says whether a client is used or started and where, the second one shows the client; after an exception no client is shown, and
with `silent` nothing is printed then. -/
theorem C110_messages {κ : Type} (h : Host κ) (address : Option String) :
    (∀ c, h.getClient address = .ok c →
      (address = none → (findOrStart h address false).1 = [.usingLocal, .shows c]) ∧ ∀ ad, address = some ad → (findOrStart h address false).1 = [.usingAt ad, .shows c]) ∧
    (∀ c e, h.getClient address = .error e → (findOrStart h address false).2 = .ok c →
      (address = none → (findOrStart h address false).1 = [.startingLocal, .shows c]) ∧ ∀ ad, address = some ad → (findOrStart h address false).1 = [.startingAt ad, .shows c]) ∧
    (∀ silent e, (findOrStart h address silent).2 = .error e → (∀ c, .shows c ∉ (findOrStart h address silent).1) ∧ (silent = true → (findOrStart h address silent).1 = [])) := by
  unfold findOrStart
  refine ⟨fun c hc => ?_, fun c e he hc => ?_, fun silent e he => ?_⟩
  · rw [hc]
    exact ⟨fun ha => by subst ha; rfl, fun ad ha => by subst ha; rfl⟩
  · rw [he] at hc ⊢
    cases e <;> try (cases hc)
    simp only at hc ⊢
    cases h2 : h.workers with
    | error e => rw [h2] at hc; cases hc
    | ok n =>
      rw [h2] at hc
      simp only at hc ⊢
      cases h3 : h.newClient address n with
      | error e => rw [h3] at hc; cases hc
      | ok c' =>
        rw [h3] at hc; cases hc
        exact ⟨fun ha => by subst ha; rfl, fun ad ha => by subst ha; rfl⟩
  · cases h1 : h.getClient address with
    | ok c => rw [h1] at he; cases he
    | error e' =>
      rw [h1] at he
      cases e' <;> try (exact ⟨fun c hc => (nomatch hc), fun _ => rfl⟩)
      simp only at he ⊢
      cases h2 : h.workers with
      | error e => exact ⟨fun c hc => (nomatch hc), fun _ => rfl⟩
      | ok n =>
        rw [h2] at he
        simp only at he ⊢
        cases h3 : h.newClient address n with
        | ok c => rw [h3] at he; cases he
        | error e =>
          refine ⟨fun c hc => ?_, fun hs => by subst hs; rfl⟩
          cases silent <;> cases address <;> simp at hc

/-- **C110** (groups, single resolution): a full `grid` with `n` workers that returns has printed one line for every group of `n` tiles, numbered from 1
in steps of 1, and its result is that of the model without lines (C24). -/
theorem C110_groups_sr (hs : 0 < size) {g : Grid Tile} (h : SRHistory env size bs fl F s g A) (hA : A ≠ []) {n : Nat} (hn : 0 < n) {a : GridCall}
    (hfull : a.regrid = .full) (hok : (gridDask env n g a).err = none) :
    LinesFor n g.tileObjects (gridDaskPrint env n g a).1 ∧ (gridDaskPrint env n g a).2 = gridDask env n g a := by
  obtain ⟨h1, h2⟩ := gridDaskPrint_lines env hn g hfull ((C09_tile_count_sr hs h).1 hA) hok
  rw [h1]
  exact ⟨linesFor_of _ hn, h2⟩

/-- **C110** (groups, variable resolution) -/
theorem C110_groups_vr (hs : 0 < size) (hsub : isPowerOfTwo sub = true) {g : Grid (Grid Tile)} (h : VRHistory env size sub bs fl F s g A) (hA : A ≠ [])
    {n : Nat} (hn : 0 < n) {a : GridCall} (hfull : a.regrid = .full) (hok : (gridDask env n g a).err = none) :
    LinesFor n g.tileObjects (gridDaskPrint env n g a).1 ∧ (gridDaskPrint env n g a).2 = gridDask env n g a := by
  obtain ⟨h1, h2⟩ := gridDaskPrint_lines env hn g hfull ((C09_tile_count_vr hs hsub h).1 hA) hok
  rw [h1]
  exact ⟨linesFor_of _ hn, h2⟩

/-- **C110, partial** (the number of groups): with eight workers or more no line names a group beyond the number of groups it shows; with exactly eight
the last line names that number. -/
theorem C110_total_partial {n N : Nat} {lines : List (Nat × Int)} (h : LinesFor n N lines) (hn : 8 ≤ n) :
    (∀ l ∈ lines, (l.1 : Int) ≤ l.2) ∧ (n = 8 → ∀ l, lines.getLast? = some l → (l.1 : Int) = l.2) := by
  obtain ⟨G, E, rfl, h1, h2, h3, h4⟩ := h
  have hGE : (G : Int) ≤ E := by
    rcases Nat.eq_zero_or_pos G with rfl | hG
    · omega
    · have h5 := h2 hG
      have h6 : (G - 1) * 8 ≤ (G - 1) * n := Nat.mul_le_mul_left _ hn
      omega
  refine ⟨?_, ?_⟩
  · intro l hl
    obtain ⟨i, hi, rfl⟩ := List.mem_map.1 hl
    have := List.mem_range.1 hi
    simp only
    omega
  · rintro rfl l hl
    cases G with
    | zero => cases hl
    | succ G =>
      rw [List.range_succ, List.map_append, List.map_singleton, List.getLast?_append_cons, List.getLast?_singleton] at hl
      cases hl
      have := h2 (by omega)
      simp only
      omega

/-- **C110 does not hold** for fewer workers: with up to four workers, the most that are started with up to 24 GB of memory, and more tiles than workers,
the last line always names a group beyond the number of groups it shows. -/
theorem C110_total_violated {n N : Nat} {lines : List (Nat × Int)} (h : LinesFor n N lines) (hn0 : 0 < n) (hn : n ≤ 4) (hN : n < N) :
    ∃ l, lines.getLast? = some l ∧ l.2 < (l.1 : Int) := by
  obtain ⟨G, E, rfl, h1, h2, h3, h4⟩ := h
  cases G with
  | zero => omega
  | succ G =>
    refine ⟨(G + 1, E), by rw [List.range_succ, List.map_append, List.map_singleton, List.getLast?_append_cons, List.getLast?_singleton], ?_⟩
    have h5 : (G + 1) * n ≤ (G + 1) * 4 := Nat.mul_le_mul_left _ hn
    have hG : 0 < G := by
      rcases Nat.eq_zero_or_pos G with rfl | hG
      · omega
      · exact hG
    simp only
    push_cast
    omega

/-! ### Examples -/

private def five : Grid Tile := ((newSR 16 false).addPoints ⟨{}, [⟨1, 1, 5, 1, 1⟩, ⟨17, 1, 5, 1, 1⟩, ⟨33, 1, 5, 1, 1⟩, ⟨49, 1, 5, 1, 1⟩, ⟨65, 1, 5, 1, 1⟩]⟩ "a" {}).st

/-- five tiles and four workers: group 1 out of 1, group 2 out of 1 -/
example : (gridDaskPrint demoEnv 4 five { alg := .mean, res := some 1 }).1 = [(1, 1), (2, 1)] := by decide +kernel

/-- eight workers: one group out of one; two workers: three groups -/
example : (gridDaskPrint demoEnv 8 five { alg := .mean, res := some 1 }).1 = [(1, 1)] ∧ (gridDaskPrint demoEnv 2 five { alg := .mean, res := some 1 }).1 = [(1, 1), (2, 1), (3, 1)] := by
  decide +kernel

/-- the hypotheses of `C110_groups_sr` and `C110_total_violated` can be met -/
example : ∃ A, SRHistory demoEnv 16 false {} .plain false five A ∧ A ≠ [] ∧ (gridDask demoEnv 4 five { alg := .mean, res := some 1 }).err = none ∧ five.tileObjects = 5 := by
  refine ⟨_, (GridHistory.new .plain).add _ "a" {} (by decide +kernel), ?_, ?_, ?_⟩ <;> decide +kernel

private def host (cores : Option Nat) (memory : ℚ) : Host (Option String × Nat) :=
  { getClient := fun _ => .error .valueError, newClient := fun a n => .ok (a, n), cores := cores, memory := memory }

/-- twelve cores: four workers with 16 GB, eight with 32 GB; two cores: two workers -/
example : (findOrStart (host (some 12) 16) none false) = ([.startingLocal, .shows (none, 4)], .ok (none, 4)) ∧
    (findOrStart (host (some 12) 32) none true) = ([.shows (none, 8)], .ok (none, 8)) ∧
    (findOrStart (host (some 2) 32) (some "tcp://10.0.0.1:8786") false).2 = .ok (some "tcp://10.0.0.1:8786", 2) := by
  refine ⟨?_, ?_, ?_⟩ <;> rfl

/-- a client that is there, and one that can not be started -/
example : (findOrStart { host (some 2) 8 with getClient := fun a => .ok (a, 3) } (some "tcp://10.0.0.1:8786") false).1 = [.usingAt "tcp://10.0.0.1:8786", .shows (some "tcp://10.0.0.1:8786", 3)] ∧
    (findOrStart { host (some 2) 8 with newClient := fun _ _ => .error .typeError } none false) = ([.startingLocal], .error .typeError) :=
  ⟨((C110_messages _ _).1 _ rfl).2 _ rfl, rfl⟩

end Bathy
