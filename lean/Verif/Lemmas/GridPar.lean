import Verif.Lemmas.GridRun

/-!
# The parallel run in terms of the outcomes of the tiles, and the run of a whole grid
-/

namespace Bathy
namespace Grid
variable {τ : Type} [GridLike τ]

/-- the job of slot `k`, if there is one -/
def jobAt (g : Grid τ) (a : GridCall) (p : Plan) (limit : Option ℚ) (T : Arr2 (Option τ)) (k : Nat) (o : Option τ) : Option (Job τ) :=
  match o with
  | none => none
  | some t =>
    if skips a (clearAt a (T.flat.take k)) t then none
    else
      match g.borderFor k t a.alg limit a.border with
      | .error _ => none
      | .ok b => some ⟨k, t, g.childCall a p (clearNext a (clearAt a (T.flat.take k)) t) b⟩

/-- no error in collecting the border of slot `k` -/
def BorderOk (g : Grid τ) (a : GridCall) (limit : Option ℚ) (T : Arr2 (Option τ)) (k : Nat) (o : Option τ) : Prop :=
  match o with
  | none => True
  | some t => skips a (clearAt a (T.flat.take k)) t = true ∨ ∃ b, g.borderFor k t a.alg limit a.border = .ok b

/-- a slot with a job: the outcome is that of the job -/
theorem outAt_job (env : Env) {g : Grid τ} {a : GridCall} {p : Plan} {limit : Option ℚ} {T : Arr2 (Option τ)} {k : Nat} {o : Option τ} {j : Job τ}
    (h : jobAt g a p limit T k o = some j) :
    j.idx = k ∧ outAt env g a p limit T k o = (⟨some (GridLike.grid env j.tile j.call).1.st, (GridLike.grid env j.tile j.call).1.err⟩, (GridLike.grid env j.tile j.call).2) := by
  unfold jobAt at h
  cases o with
  | none => cases h
  | some t =>
    simp only at h
    split at h
    · cases h
    · rename_i hsk
      cases hb : g.borderFor k t a.alg limit a.border with
      | error e => rw [hb] at h; cases h
      | ok b =>
        rw [hb] at h
        cases h
        refine ⟨rfl, ?_⟩
        unfold outAt outcome
        simp only [hsk, hb]
        rfl

/-- a slot without a job stays as it is -/
theorem outAt_noJob (env : Env) {g : Grid τ} {a : GridCall} {p : Plan} {limit : Option ℚ} {T : Arr2 (Option τ)} {k : Nat} {o : Option τ}
    (hb : BorderOk g a limit T k o) (h : jobAt g a p limit T k o = none) :
    (outAt env g a p limit T k o).1 = .ok o := by
  unfold jobAt at h
  cases o with
  | none => rfl
  | some t =>
    simp only at h
    by_cases hsk : skips a (clearAt a (T.flat.take k)) t = true
    · unfold outAt outcome; simp only [hsk, if_true]
    · rcases hb with hb | ⟨b, hb⟩
      · exact absurd hb hsk
      · rw [if_neg hsk, hb] at h; cases h

/-- the jobs of the slots from `b` on, before `m` -/
def jobsIn (g : Grid τ) (a : GridCall) (p : Plan) (limit : Option ℚ) (T : Arr2 (Option τ)) (b m : Nat) : List (Job τ) :=
  (List.range' b (m - b)).filterMap (fun k => jobAt g a p limit T k (T.flat[k]?).join)

theorem jobsIn_self (g : Grid τ) (a : GridCall) (p : Plan) (limit : Option ℚ) (T : Arr2 (Option τ)) (b : Nat) : jobsIn g a p limit T b b = [] := by
  simp [jobsIn]

theorem jobsIn_succ (g : Grid τ) (a : GridCall) (p : Plan) (limit : Option ℚ) {T : Arr2 (Option τ)} {b m : Nat} (hbm : b ≤ m) {o : Option τ}
    (ho : T.flat[m]? = some o) : jobsIn g a p limit T b (m + 1) = jobsIn g a p limit T b m ++ (jobAt g a p limit T m o).toList := by
  unfold jobsIn
  have : m + 1 - b = (m - b) + 1 := by omega
  rw [this, List.range'_concat, List.filterMap_append]
  have h2 : b + 1 * (m - b) = m := by omega
  rw [h2]
  congr 1
  have h3 : (T.flat[m]?).join = o := by rw [ho]; rfl
  cases hj : jobAt g a p limit T m o <;> simp [h3, hj]

theorem mem_jobsIn {g : Grid τ} {a : GridCall} {p : Plan} {limit : Option ℚ} {T : Arr2 (Option τ)} {b m : Nat} {j : Job τ}
    (h : j ∈ jobsIn g a p limit T b m) : ∃ k o, b ≤ k ∧ k < m ∧ (T.flat[k]?).join = o ∧ jobAt g a p limit T k o = some j := by
  unfold jobsIn at h
  rw [List.mem_filterMap] at h
  obtain ⟨k, hk, hj⟩ := h
  rw [List.mem_range'_1] at hk
  exact ⟨k, _, hk.1, by omega, rfl, hj⟩

theorem jobsIn_mem {g : Grid τ} {a : GridCall} {p : Plan} {limit : Option ℚ} {T : Arr2 (Option τ)} {b m k : Nat} {o : Option τ} {j : Job τ}
    (h1 : b ≤ k) (h2 : k < m) (ho : T.flat[k]? = some o) (hj : jobAt g a p limit T k o = some j) : j ∈ jobsIn g a p limit T b m := by
  unfold jobsIn
  rw [List.mem_filterMap]
  refine ⟨k, List.mem_range'_1.2 ⟨h1, by omega⟩, ?_⟩
  rw [ho]; exact hj

omit [GridLike τ] in
theorem foldl_zip_map {α β γ : Type} (f : α → β) (h : γ → α × β → γ) (l : List α) (x : γ) :
    (l.zip (l.map f)).foldl h x = l.foldl (fun g j => h g (j, f j)) x := by
  induction l generalizing x with
  | nil => rfl
  | cons y ys ih => simp only [List.map_cons, List.zip_cons_cons, List.foldl_cons, ih]

/-- writing the results of the jobs into the tile array -/
theorem jobs_tiles (env : Env) (g : Grid τ) (a : GridCall) (p : Plan) (limit : Option ℚ) (T : Arr2 (Option τ)) (R : List ℚ) (b : Nat) :
    ∀ n, b + n ≤ T.flat.length → (∀ (k : Nat) o, k < b + n → T.flat[k]? = some o → BorderOk g a limit T k o) →
    (jobsIn g a p limit T b (b + n)).foldl (fun g j => g.setTile j.idx (some (GridLike.grid env j.tile j.call).1.st))
        (g.withTiles (prefixTiles (outAt env g a p limit T) T b) R) =
      g.withTiles (prefixTiles (outAt env g a p limit T) T (b + n)) R := by
  intro n
  induction n with
  | zero => intro _ _; rw [Nat.add_zero, jobsIn_self]; rfl
  | succ n ih =>
    intro hlen hbo
    have hm : b + n < T.flat.length := by omega
    obtain ⟨o, ho⟩ : ∃ o, T.flat[b + n]? = some o := ⟨_, List.getElem?_eq_getElem hm⟩
    have hsucc := prefixTiles_succ (outAt env g a p limit T) T ho
    have hown : (prefixTiles (outAt env g a p limit T) T (b + n)).flat[b + n]? = some o := by rw [prefixTiles_get, ho]; simp
    rw [← Nat.add_assoc, jobsIn_succ g a p limit (by omega) ho, List.foldl_append, ih (by omega) (fun k o hk => hbo k o (by omega))]
    cases hj : jobAt g a p limit T (b + n) o with
    | none =>
      rw [outAt_noJob env (hbo _ _ (by omega) ho) hj] at hsucc
      rw [← hsucc]
      simp only [Option.toList_none, List.foldl_nil, Res.ok_st]
      rw [setFlat_self hown]
    | some j =>
      obtain ⟨h1, h2⟩ := outAt_job env hj
      rw [h2] at hsucc
      simp only [Option.toList_some, List.foldl_cons, List.foldl_nil]
      rw [setTile_withTiles, h1, ← hsucc]

/-- the jobs succeed iff the outcomes of their slots do -/
theorem jobs_err (env : Env) {g : Grid τ} {a : GridCall} {p : Plan} {limit : Option ℚ} {T : Arr2 (Option τ)} {b m : Nat} (hm : m ≤ T.flat.length)
    (hbo : ∀ (k : Nat) o, k < m → T.flat[k]? = some o → BorderOk g a limit T k o) :
    ((jobsIn g a p limit T b m).map (fun j => GridLike.grid env j.tile j.call)).findSome? (fun r => r.1.err) = none ↔
      ∀ (k : Nat) o, b ≤ k → k < m → T.flat[k]? = some o → (outAt env g a p limit T k o).1.err = none := by
  rw [List.findSome?_eq_none_iff]
  constructor
  · intro h k o h1 h2 ho
    cases hj : jobAt g a p limit T k o with
    | none => rw [outAt_noJob env (hbo k o h2 ho) hj]; rfl
    | some j =>
      rw [(outAt_job env hj).2]
      exact h _ (List.mem_map.2 ⟨j, jobsIn_mem h1 h2 ho hj, rfl⟩)
  · intro h r hr
    obtain ⟨j, hj, rfl⟩ := List.mem_map.1 hr
    obtain ⟨k, o, h1, h2, h3, h4⟩ := mem_jobsIn hj
    have hk : k < T.flat.length := by omega
    obtain ⟨o', ho'⟩ : ∃ o', T.flat[k]? = some o' := ⟨_, List.getElem?_eq_getElem hk⟩
    rw [ho'] at h3
    have : o' = o := h3
    subst this
    have := h k _ h1 h2 ho'
    rw [(outAt_job env h4).2] at this
    exact this

/-- the resolutions in `R` are those of the slots before `m` that were skipped or are before `b` -/
def ResInv (env : Env) (g : Grid τ) (a : GridCall) (p : Plan) (limit : Option ℚ) (T : Arr2 (Option τ)) (b m : Nat) (R : List ℚ) : Prop :=
  ∀ r, r ∈ R ↔ ∃ (k : Nat) (o : Option τ), k < m ∧ T.flat[k]? = some o ∧ (k < b ∨ jobAt g a p limit T k o = none) ∧ r ∈ (outAt env g a p limit T k o).2

theorem resInv_jobs {env : Env} {g : Grid τ} {a : GridCall} {p : Plan} {limit : Option ℚ} {T : Arr2 (Option τ)} {b m : Nat} {R : List ℚ}
    (hm : m ≤ T.flat.length) (h : ResInv env g a p limit T b m R) :
    ResInv env g a p limit T m m (addNew R ((jobsIn g a p limit T b m).map (fun j => GridLike.grid env j.tile j.call) |>.map Prod.snd).flatten) := by
  intro r
  rw [mem_addNew, h r]
  constructor
  · rintro (⟨k, o, h1, h2, h3, h4⟩ | h1)
    · exact ⟨k, o, h1, h2, Or.inl h1, h4⟩
    · simp only [List.mem_flatten, List.mem_map] at h1
      obtain ⟨l, ⟨_, ⟨j, hj, rfl⟩, rfl⟩, hr⟩ := h1
      obtain ⟨k, o, h1, h2, h3, h4⟩ := mem_jobsIn hj
      obtain ⟨o', ho'⟩ : ∃ o', T.flat[k]? = some o' := ⟨_, List.getElem?_eq_getElem (by omega)⟩
      rw [ho'] at h3
      have : o' = o := h3
      subst this
      exact ⟨k, _, h2, ho', Or.inl h2, by rw [(outAt_job env h4).2]; exact hr⟩
  · rintro ⟨k, o, h1, h2, -, h4⟩
    by_cases hk : k < b
    · exact Or.inl ⟨k, o, h1, h2, Or.inl hk, h4⟩
    · cases hj : jobAt g a p limit T k o with
      | none => exact Or.inl ⟨k, o, h1, h2, Or.inr hj, h4⟩
      | some j =>
        right
        rw [(outAt_job env hj).2] at h4
        simp only [List.mem_flatten, List.mem_map]
        exact ⟨_, ⟨_, ⟨j, jobsIn_mem (by omega) h1 h2 hj, rfl⟩, rfl⟩, h4⟩

/-- `_grid_parallel_worker` -/
theorem runJobs_spec (env : Env) {g : Grid τ} {a : GridCall} {p : Plan} {limit : Option ℚ} {T : Arr2 (Option τ)} {b m : Nat} {R : List ℚ}
    (hm : m ≤ T.flat.length) (hbm : b ≤ m) (hbo : ∀ (k : Nat) o, k < m → T.flat[k]? = some o → BorderOk g a limit T k o)
    (hR : ResInv env g a p limit T b m R) :
    ((∀ (k : Nat) o, b ≤ k → k < m → T.flat[k]? = some o → (outAt env g a p limit T k o).1.err = none) ∧ ∃ R', ResInv env g a p limit T m m R' ∧
      runJobs env (g.withTiles (prefixTiles (outAt env g a p limit T) T b) R) (jobsIn g a p limit T b m) =
        .ok (g.withTiles (prefixTiles (outAt env g a p limit T) T m) R')) ∨
    (∃ e, runJobs env (g.withTiles (prefixTiles (outAt env g a p limit T) T b) R) (jobsIn g a p limit T b m) =
        .fail (g.withTiles (prefixTiles (outAt env g a p limit T) T b) R) e ∧
      ∃ (k : Nat) (o : Option τ), b ≤ k ∧ k < m ∧ T.flat[k]? = some o ∧ (outAt env g a p limit T k o).1.err ≠ none) := by
  have herr := jobs_err env (p := p) (b := b) hm hbo
  have htiles := jobs_tiles env g a p limit T R b (m - b) (by omega) (by rw [Nat.add_sub_cancel' hbm]; exact hbo)
  rw [Nat.add_sub_cancel' hbm] at htiles
  unfold runJobs
  simp only
  cases hf : ((jobsIn g a p limit T b m).map (fun j => GridLike.grid env j.tile j.call)).findSome? (fun r => r.1.err) with
  | none =>
    left
    refine ⟨herr.1 hf, _, resInv_jobs hm hR, ?_⟩
    rw [foldl_zip_map, htiles]
    rfl
  | some e =>
    right
    refine ⟨e, rfl, ?_⟩
    by_contra hcon
    have : ((jobsIn g a p limit T b m).map (fun j => GridLike.grid env j.tile j.call)).findSome? (fun r => r.1.err) = none := by
      rw [herr]
      intro k o h1 h2 h3
      by_contra h4
      exact hcon ⟨k, o, h1, h2, h3, h4⟩
    rw [hf] at this
    cases this

/-- the loop of `_grid_parallel` over the first `m` slots -/
theorem parLoop_spec [LawfulGrid τ] (env : Env) (n : Nat) {g : Grid τ} (a : GridCall) (p : Plan) {limit : Option ℚ} (hlim : parLimit a p = .ok limit)
    {T : Arr2 (Option τ)} (hg : g.tiles = some T) {m : Nat} (hm : m ≤ T.flat.length) :
    (∃ b R, b ≤ m ∧ Res.forEach (List.range m) (⟨{ g with resolutions := [] }, a.clear, []⟩ : ParState τ) (parStep env n a p) =
        .ok ⟨g.withTiles (prefixTiles (outAt env g a p limit T) T b) R, clearAt a (T.flat.take m), jobsIn g a p limit T b m⟩ ∧
      (∀ (k : Nat) o, k < b → T.flat[k]? = some o → (outAt env g a p limit T k o).1.err = none) ∧
      (∀ (k : Nat) o, k < m → T.flat[k]? = some o → BorderOk g a limit T k o) ∧ ResInv env g a p limit T b m R) ∨
    (∃ b R e, b ≤ m ∧ (Res.forEach (List.range m) (⟨{ g with resolutions := [] }, a.clear, []⟩ : ParState τ) (parStep env n a p)).err = some e ∧
      (Res.forEach (List.range m) (⟨{ g with resolutions := [] }, a.clear, []⟩ : ParState τ) (parStep env n a p)).st.grid =
        g.withTiles (prefixTiles (outAt env g a p limit T) T b) R ∧
      ∃ (k : Nat) (o : Option τ), k < m ∧ T.flat[k]? = some o ∧ (outAt env g a p limit T k o).1.err ≠ none) := by
  induction m with
  | zero =>
    left
    refine ⟨0, [], le_refl _, ?_, fun k o hk => by omega, fun k o hk => by omega, ?_⟩
    · simp only [List.range_zero, Res.forEach_nil, prefixTiles_zero, List.take_zero, jobsIn_self]
      have h1 : g.withTiles T [] = { g with resolutions := [] } := by cases g; simp only at hg; subst hg; rfl
      have h2 : clearAt a ([] : List (Option τ)) = a.clear := by simp [clearAt]
      rw [h1, h2]
    · intro r; simp
  | succ m ih =>
    have hm' : m < T.flat.length := by omega
    obtain ⟨o, ho⟩ : ∃ o, T.flat[m]? = some o := ⟨_, List.getElem?_eq_getElem hm'⟩
    rw [List.range_succ, Res.forEach_append]
    rcases ih (by omega) with ⟨b, R, hbm, h1, h2, h3, h4⟩ | ⟨b, R, e, hbm, h1, h2, k, ok, hk, h3, h4⟩
    · rw [h1, Res.andThen_ok, Res.forEach_cons]
      have htile : (g.withTiles (prefixTiles (outAt env g a p limit T) T b) R).tile? m = some o := by
        show (prefixTiles (outAt env g a p limit T) T b).flat[m]? = some o
        rw [prefixTiles_get, ho, Option.map_some, if_neg (by omega)]
      have hnb := neighborPoints_prefix env (g := g) a p limit hg b R
      have hjs := jobsIn_succ g a p limit hbm ho
      have htk := take_succ_eq ho
      -- the state after the round, given what happens in it
      have hextend : ∀ (hbo : BorderOk g a limit T m o), ∀ (k : Nat) o, k < m + 1 → T.flat[k]? = some o → BorderOk g a limit T k o := by
        intro hbo k o' hk ho'
        rcases Nat.lt_succ_iff_lt_or_eq.1 hk with h | rfl
        · exact h3 k o' h ho'
        · rw [ho] at ho'; cases ho'; exact hbo
      unfold parStep
      simp only [htile]
      have hresNo : jobAt g a p limit T m o = none → ResInv env g a p limit T b (m + 1) (addNew R (outAt env g a p limit T m o).2) := by
        intro hj r
        rw [mem_addNew, h4 r]
        constructor
        · rintro (⟨k, o', h5, h6, h7, h8⟩ | h5)
          · exact ⟨k, o', by omega, h6, h7, h8⟩
          · exact ⟨m, o, by omega, ho, Or.inr hj, h5⟩
        · rintro ⟨k, o', h5, h6, h7, h8⟩
          rcases Nat.lt_succ_iff_lt_or_eq.1 h5 with h | rfl
          · exact Or.inl ⟨k, o', h, h6, h7, h8⟩
          · rw [ho] at h6; cases h6; exact Or.inr h8
      cases o with
      | none =>
        left
        have hj : jobAt g a p limit T m none = none := rfl
        refine ⟨b, R, by omega, ?_, h2, hextend trivial, ?_⟩
        · simp only [Res.andThen_ok, Res.forEach_nil]
          rw [hjs, hj, htk, clearAt_none]
          simp
        · have := hresNo hj
          exact this
      | some t =>
        simp only
        by_cases hsk : skips a (clearAt a (T.flat.take m)) t = true
        · left
          have hj : jobAt g a p limit T m (some t) = none := by unfold jobAt; simp only [hsk, if_true]
          have hout : (outAt env g a p limit T m (some t)).2 = GridLike.resolutions t := by
            unfold outAt outcome; simp only [hsk, if_true]
          have hr := hresNo hj
          rw [hout] at hr
          refine ⟨b, addNew R (GridLike.resolutions t), by omega, ?_, h2, hextend (Or.inl hsk), hr⟩
          rw [if_pos hsk]
          simp only [Res.andThen_ok, Res.forEach_nil]
          rw [hjs, hj, htk, clearAt_skip hsk]
          simp only [Option.toList_none, List.append_nil]
          rfl
        · rw [if_neg hsk, hlim]
          simp only
          rw [borderFor_congr hnb]
          cases hb : g.borderFor m t a.alg limit a.border with
          | error e =>
            right
            refine ⟨b, R, e, by omega, rfl, rfl, m, some t, by omega, ho, ?_⟩
            unfold outAt outcome
            simp only [hsk, hb]
            simp
          | ok bd =>
            have hcall : (g.withTiles (prefixTiles (outAt env g a p limit T) T b) R).childCall a p (clearNext a (clearAt a (T.flat.take m)) t) bd =
              g.childCall a p (clearNext a (clearAt a (T.flat.take m)) t) bd := rfl
            have hj : jobAt g a p limit T m (some t) = some ⟨m, t, g.childCall a p (clearNext a (clearAt a (T.flat.take m)) t) bd⟩ := by
              unfold jobAt; simp only [hsk, hb]; rfl
            have hbo' := hextend (Or.inr ⟨bd, hb⟩)
            have hR' : ResInv env g a p limit T b (m + 1) R := by
              intro r
              rw [h4 r]
              constructor
              · rintro ⟨k, o', h5, h6, h7, h8⟩
                exact ⟨k, o', by omega, h6, h7, h8⟩
              · rintro ⟨k, o', h5, h6, h7, h8⟩
                rcases Nat.lt_succ_iff_lt_or_eq.1 h5 with h | rfl
                · exact ⟨k, o', h, h6, h7, h8⟩
                · rw [ho] at h6; cases h6
                  rcases h7 with h7 | h7
                  · omega
                  · rw [hj] at h7; cases h7
            simp only [hcall]
            have hjl : jobsIn g a p limit T b m ++ [⟨m, t, g.childCall a p (clearNext a (clearAt a (T.flat.take m)) t) bd⟩] = jobsIn g a p limit T b (m + 1) := by
              rw [hjs, hj]; rfl
            rw [hjl, ← clearAt_run (by simpa using hsk), ← htk]
            by_cases hn : (jobsIn g a p limit T b (m + 1)).length = n
            · rw [if_pos hn]
              rcases runJobs_spec env (b := b) hm (by omega) hbo' hR' with ⟨h5, R', h6, h7⟩ | ⟨e, h5, k, o', h6, h7, h8, h9⟩
              · left
                refine ⟨m + 1, R', le_refl _, ?_, ?_, hbo', h6⟩
                · rw [h7, jobsIn_self]
                  rfl
                · intro k o' hk ho'
                  by_cases hkb : k < b
                  · exact h2 k o' hkb ho'
                  · exact h5 k o' (by omega) hk ho'
              · right
                rw [h5]
                exact ⟨b, R, e, by omega, rfl, rfl, k, o', h7, h8, h9⟩
            · rw [if_neg hn]
              left
              exact ⟨b, R, by omega, rfl, h2, hbo', hR'⟩
    · right
      refine ⟨b, R, e, by omega, ?_, ?_, k, ok, by omega, h3, h4⟩
      · unfold Res.andThen; rw [h1]
      · unfold Res.andThen; rw [h1]; exact h2

/-- `_grid_parallel` in terms of the outcomes of the tiles -/
theorem gridParallel_spec [LawfulGrid τ] (env : Env) (n : Nat) {g : Grid τ} (a : GridCall) (p : Plan) {limit : Option ℚ} (hlim : parLimit a p = .ok limit)
    {T : Arr2 (Option τ)} (hg : g.tiles = some T) :
    ((∀ (k : Nat) o, T.flat[k]? = some o → (outAt env g a p limit T k o).1.err = none) ∧
      gridParallel env n g a p =
        .ok (g.withTiles (prefixTiles (outAt env g a p limit T) T T.flat.length) (npUnique (prefixRes (outAt env g a p limit T) T T.flat.length)))) ∨
    ((∃ (k : Nat) (o : Option τ), T.flat[k]? = some o ∧ (outAt env g a p limit T k o).1.err ≠ none) ∧ ∃ e b R, b ≤ T.flat.length ∧
      gridParallel env n g a p = .fail (g.withTiles (prefixTiles (outAt env g a p limit T) T b) R) e) := by
  have fin : ∀ {R}, ResInv env g a p limit T T.flat.length T.flat.length R → npUnique R = npUnique (prefixRes (outAt env g a p limit T) T T.flat.length) := by
    intro R hR
    apply npUnique_congr
    intro r
    rw [hR r, mem_prefixRes]
    constructor
    · rintro ⟨k, o, h1, h2, -, h4⟩
      exact ⟨k, h1, by rw [h2]; exact h4⟩
    · rintro ⟨k, h1, h2⟩
      refine ⟨k, T.flat[k], h1, List.getElem?_eq_getElem h1, Or.inl h1, ?_⟩
      rw [List.getElem?_eq_getElem h1] at h2; exact h2
  unfold gridParallel
  simp only [slots_eq hg]
  rcases parLoop_spec env n a p hlim hg (le_refl _) with ⟨b, R, hbm, h1, h2, h3, h4⟩ | ⟨b, R, e, hbm, h1, h2, k, o, hk, h3, h4⟩
  · rw [h1]
    simp only [Res.ok_err, Res.ok_st]
    rcases Bool.eq_false_or_eq_true (jobsIn g a p limit T b T.flat.length).isEmpty with hj | hj
    · left
      have hnil : jobsIn g a p limit T b T.flat.length = [] := List.isEmpty_iff.1 hj
      rcases runJobs_spec env (p := p) (b := b) (le_refl _) hbm h3 h4 with ⟨h5, R', h6, h7⟩ | ⟨e, h5, k, o, h6, h7, h8, h9⟩
      · refine ⟨?_, ?_⟩
        · intro k o ho
          by_cases hkb : k < b
          · exact h2 k o hkb ho
          · exact h5 k o (by omega) (List.getElem?_eq_some_iff.1 ho).1 ho
        · rw [hnil] at h7
          have h8 : runJobs env (g.withTiles (prefixTiles (outAt env g a p limit T) T b) R) [] = .ok (g.withTiles (prefixTiles (outAt env g a p limit T) T b) R) := rfl
          rw [h8] at h7
          have h9 : g.withTiles (prefixTiles (outAt env g a p limit T) T b) R = g.withTiles (prefixTiles (outAt env g a p limit T) T T.flat.length) R' := by
            have := congrArg Res.st h7; exact this
          unfold lastJobs
          rw [if_pos hj, h9, Res.andThen_ok, ← fin h6]
          rfl
      · rw [hnil] at h5
        have := congrArg Res.err h5
        cases this
    · unfold lastJobs
      rw [if_neg (by rw [hj]; simp)]
      rcases runJobs_spec env (b := b) (le_refl _) hbm h3 h4 with ⟨h5, R', h6, h7⟩ | ⟨e, h5, k, o, h6, h7, h8, h9⟩
      · left
        refine ⟨?_, ?_⟩
        · intro k o ho
          by_cases hkb : k < b
          · exact h2 k o hkb ho
          · exact h5 k o (by omega) (List.getElem?_eq_some_iff.1 ho).1 ho
        · rw [h7, Res.andThen_ok, ← fin h6]
          rfl
      · right
        refine ⟨⟨k, o, h8, h9⟩, e, b, R, hbm, ?_⟩
        rw [h5]
        rfl
  · right
    refine ⟨⟨k, o, h3, h4⟩, e, b, R, hbm, ?_⟩
    rw [h1]
    simp only
    rw [h2]

/-! ### before the loop -/

omit [GridLike τ] in
/-- the grid with other gridding attributes -/
def withAttrs (g : Grid τ) (al : Option Alg) (gr : GridRes) (gp : Option GridParams) (R : List ℚ) : Grid τ :=
  { g with gridAlgorithm := al, gridResolution := gr, gridParams := gp, resolutions := R }

/-- what `grid` does before the loop over the tiles -/
theorem gridPlan_spec (env : Env) (g : Grid τ) (a : GridCall) :
    (∃ gr, (gridPlan env g a).1 = .ok (g.withAttrs (some a.alg) gr a.params []) ∧ g.isEmpty = false ∧ (∃ T, g.tiles = some T) ∧
      ((gridPlan env g a).2.auto = none → (gridPlan env g a).2.resolution = a.res ∧ a.res ≠ none) ∧ (a.res ≠ none → (gridPlan env g a).2 = ⟨a.res, none⟩) ∧
      (a.res = none → (gridPlan env g a).2.auto = some a.mode) ∧
      (g.gridAlgorithm = none ∨ g.gridAlgorithm = some a.alg ∨ a.clear = true)) ∨
    (∃ al gr gp e, (gridPlan env g a).1 = .fail (g.withAttrs al gr gp g.resolutions) e) := by
  have key : (∃ gr, (gridPlan.go env a g).1 = .ok (g.withAttrs (some a.alg) gr a.params []) ∧ g.isEmpty = false ∧ (∃ T, g.tiles = some T) ∧
      ((gridPlan.go env a g).2.auto = none → (gridPlan.go env a g).2.resolution = a.res ∧ a.res ≠ none) ∧ (a.res ≠ none → (gridPlan.go env a g).2 = ⟨a.res, none⟩) ∧
      (a.res = none → (gridPlan.go env a g).2.auto = some a.mode)) ∨
    (∃ al gr gp e, (gridPlan.go env a g).1 = .fail (g.withAttrs al gr gp g.resolutions) e) := by
    unfold gridPlan.go
    simp only
    have hie : ∀ al gr gp, isEmpty { g with gridAlgorithm := al, gridResolution := gr, gridParams := gp } = g.isEmpty := fun _ _ _ => rfl
    rw [hie]
    cases he : g.isEmpty with
    | true => right; exact ⟨_, _, _, _, rfl⟩
    | false =>
      have hT : ∃ T, g.tiles = some T := by
        cases ht : g.tiles with
        | none => rw [isEmpty, ht] at he; cases he
        | some T => exact ⟨T, rfl⟩
      rw [if_neg (by simp)]
      cases hr : a.res with
      | some r => left; exact ⟨_, rfl, rfl, hT, fun _ => ⟨rfl, by simp⟩, fun _ => rfl, fun h => by cases h⟩
      | none =>
        simp only
        split
        · left; exact ⟨_, rfl, trivial, hT, fun h => by simp at h, fun h => absurd rfl h, fun _ => rfl⟩
        · cases hm : a.mode with
          | depth =>
            simp only
            split
            · right; exact ⟨_, _, _, _, rfl⟩
            · left; exact ⟨_, rfl, trivial, hT, fun h => by simp at h, fun h => absurd rfl h, fun _ => rfl⟩
          | density =>
            simp only
            split
            · right; exact ⟨_, _, _, _, rfl⟩
            · left; exact ⟨_, rfl, trivial, hT, fun h => by simp at h, fun h => absurd rfl h, fun _ => rfl⟩
          | other => left; exact ⟨_, rfl, trivial, hT, fun h => by simp at h, fun h => absurd rfl h, fun _ => rfl⟩
  unfold gridPlan
  cases hal : g.gridAlgorithm with
  | none =>
    simp only
    rcases key with ⟨gr, h1, h2, h3, h4, h5, h6⟩ | h
    · left; exact ⟨gr, h1, h2, h3, h4, h5, h6, Or.inl trivial⟩
    · right; exact h
  | some al =>
    simp only
    split
    · right
      refine ⟨some al, g.gridResolution, g.gridParams, .valueError, ?_⟩
      cases g; simp only at hal; subst hal; rfl
    · rename_i hno
      rcases key with ⟨gr, h1, h2, h3, h4, h5, h6⟩ | h
      · left
        refine ⟨gr, h1, h2, h3, h4, h5, h6, ?_⟩
        by_cases h7 : al = a.alg
        · right; left; rw [h7]
        · right; right
          cases hc : a.clear with
          | true => rfl
          | false => exact absurd ⟨h7, hc⟩ hno
      · right; exact h

end Grid
end Bathy
