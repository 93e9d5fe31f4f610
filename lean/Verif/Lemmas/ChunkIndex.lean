import Verif.Spec.Chunks
import Mathlib.Data.List.Nodup
import Mathlib.Algebra.Order.Floor.Ring
import Mathlib.Tactic.Linarith

/-!
# Splitting the array of tiles
-/

namespace Bathy

theorem splitStart_zero (n k : Nat) : splitStart n k 0 = 0 := by simp [splitStart]

theorem splitStart_last (n k : Nat) (hk : 0 < k) : splitStart n k k = n := by
  unfold splitStart
  rw [Nat.min_eq_right (Nat.mod_lt n hk).le]
  exact Nat.div_add_mod n k

theorem splitStart_succ (n k i : Nat) : splitStart n k (i + 1) = splitStart n k i + (n / k + if i < n % k then 1 else 0) := by
  unfold splitStart
  rw [Nat.add_mul, Nat.one_mul]
  split <;> omega

theorem splitStart_mono (n k : Nat) {i j : Nat} (h : i ≤ j) : splitStart n k i ≤ splitStart n k j := by
  induction j, h using Nat.le_induction with
  | base => exact le_rfl
  | succ j _ ih => rw [splitStart_succ]; exact ih.trans (Nat.le_add_right _ _)

theorem splitStart_find (n k : Nat) (j : Nat) {x : Nat} (hx : x < splitStart n k j) : ∃ i < j, splitStart n k i ≤ x ∧ x < splitStart n k (i + 1) := by
  induction j with
  | zero => rw [splitStart_zero] at hx; omega
  | succ j ih =>
    by_cases h : x < splitStart n k j
    · obtain ⟨i, hi, h1⟩ := ih h; exact ⟨i, by omega, h1⟩
    · exact ⟨j, by omega, by omega, hx⟩

theorem mem_splitSections {n k : Nat} {s : Nat × Nat} (h : s ∈ splitSections n k) : ∃ i < k, s = (splitStart n k i, splitStart n k (i + 1)) := by
  unfold splitSections at h
  obtain ⟨i, hi, rfl⟩ := List.mem_map.1 h
  exact ⟨i, List.mem_range.1 hi, rfl⟩

/-- the sections lie in the array -/
theorem splitSections_le {n k : Nat} {s : Nat × Nat} (h : s ∈ splitSections n k) : s.2 ≤ n := by
  obtain ⟨i, hi, rfl⟩ := mem_splitSections h
  have := splitStart_mono n k (show i + 1 ≤ k by omega)
  rwa [splitStart_last n k (by omega)] at this

/-- every index is in a section -/
theorem splitSections_cover {n k x : Nat} (hk : 0 < k) (hx : x < n) : ∃ s ∈ splitSections n k, s.1 ≤ x ∧ x < s.2 := by
  rw [← splitStart_last n k hk] at hx
  obtain ⟨i, hi, h1, h2⟩ := splitStart_find n k k hx
  exact ⟨_, List.mem_map.2 ⟨i, List.mem_range.2 hi, rfl⟩, h1, h2⟩

/-- the sections come one after the other -/
theorem splitSections_pairwise (n k : Nat) : (splitSections n k).Pairwise (fun s t => s.2 ≤ t.1) := by
  unfold splitSections
  rw [List.pairwise_map]
  refine List.Pairwise.imp ?_ List.pairwise_lt_range
  intro i j hij
  exact splitStart_mono n k (show i + 1 ≤ j by omega)

/-- length of the sections -/
theorem splitSections_len {n m : Nat} (hm : 0 < m) {s : Nat × Nat} (h : s ∈ splitSections n (ceilDiv n m)) : s.2 - s.1 ≤ m := by
  obtain ⟨i, hi, rfl⟩ := mem_splitSections h
  have hk : 0 < ceilDiv n m := by omega
  have hnm : n ≤ ceilDiv n m * m := by
    unfold ceilDiv
    have := Nat.div_add_mod (n + m - 1) m
    have h2 := Nat.mod_lt (n + m - 1) hm
    rw [Nat.mul_comm] at this
    omega
  show splitStart n _ (i + 1) - splitStart n _ i ≤ m
  rw [splitStart_succ]
  generalize ceilDiv n m = k at *
  have hd := Nat.div_add_mod n k
  have hle : n / k ≤ m := by
    have : n / k < m + 1 := (Nat.div_lt_iff_lt_mul hk).2 (by rw [Nat.add_mul, Nat.mul_comm m k]; omega)
    omega
  split
  · have : n / k < m := by
      rcases Nat.lt_or_ge (n / k) m with h | h
      · exact h
      · have := Nat.mul_le_mul_left k h
        omega
    omega
  · omega

variable {α : Type}

theorem mem_notNone_ofFn {R C : Nat} {f : Nat → Nat → Option α} {p : α} : p ∈ notNone (Arr2.ofFn R C f) ↔ ∃ r c, r < R ∧ c < C ∧ f r c = some p := by
  unfold notNone Arr2.ofFn
  simp only [List.mem_filterMap, List.mem_map, List.mem_range, id_eq]
  constructor
  · rintro ⟨o, ⟨k, hk, rfl⟩, h⟩
    exact ⟨_, _, Arr2.div_lt_rows hk, Arr2.mod_lt_cols hk, h⟩
  · rintro ⟨r, c, hr, hc, h⟩
    refine ⟨_, ⟨r * C + c, Arr2.idx_lt hr hc, rfl⟩, ?_⟩
    rw [Arr2.idx_div hc, Arr2.idx_mod hc]; exact h

theorem nodup_notNone_ofFn {R C : Nat} {f : Nat → Nat → Option α} (hf : ∀ r c r' c' p, f r c = some p → f r' c' = some p → r = r' ∧ c = c') : (notNone (Arr2.ofFn R C f)).Nodup := by
  unfold notNone Arr2.ofFn
  simp only
  rw [List.filterMap_map]
  refine List.Nodup.filterMap ?_ List.nodup_range
  intro k k' p h1 h2
  obtain ⟨h3, h4⟩ := hf _ _ _ _ p h1 h2
  rw [← Nat.div_add_mod' k C, ← Nat.div_add_mod' k' C, h3, h4]

theorem mem_slice {a : Arr2 (Option α)} {r0 r1 c0 c1 : Nat} {p : α} :
    p ∈ notNone (slice2 a r0 r1 c0 c1) ↔ ∃ r c, r0 ≤ r ∧ r < r1 ∧ c0 ≤ c ∧ c < c1 ∧ a.get? r c = some (some p) := by
  unfold slice2
  rw [mem_notNone_ofFn]
  constructor
  · rintro ⟨r, c, hr, hc, h⟩
    refine ⟨r0 + r, c0 + c, by omega, by omega, by omega, by omega, ?_⟩
    cases hg : a.get? (r0 + r) (c0 + c) with
    | none => rw [hg] at h; cases h
    | some o => rw [hg] at h; exact congrArg some h
  · rintro ⟨r, c, h1, h2, h3, h4, h⟩
    refine ⟨r - r0, c - c0, by omega, by omega, ?_⟩
    rw [show r0 + (r - r0) = r by omega, show c0 + (c - c0) = c by omega, h]; rfl

/-- no entry occurs twice -/
def Distinct (a : Arr2 (Option α)) : Prop := ∀ r c r' c' p, a.get? r c = some (some p) → a.get? r' c' = some (some p) → r = r' ∧ c = c'

theorem join_some {o : Option (Option α)} {p : α} (h : o.join = some p) : o = some (some p) := by
  cases o with
  | none => cases h
  | some o => exact congrArg some h

theorem get_slice {a : Arr2 (Option α)} {r0 r1 c0 c1 r c : Nat} {p : α} (h : (slice2 a r0 r1 c0 c1).get? r c = some (some p)) :
    r < r1 - r0 ∧ c < c1 - c0 ∧ a.get? (r0 + r) (c0 + c) = some (some p) := by
  by_cases hb : r < r1 - r0 ∧ c < c1 - c0
  · refine ⟨hb.1, hb.2, ?_⟩
    unfold slice2 at h
    rw [Arr2.get?_ofFn _ hb.1 hb.2] at h
    exact join_some (Option.some.inj h)
  · rw [Arr2.get?_none_of_not_lt _ (by exact hb)] at h; cases h

theorem distinct_slice {a : Arr2 (Option α)} (h : Distinct a) (r0 r1 c0 c1 : Nat) : Distinct (slice2 a r0 r1 c0 c1) := by
  intro r c r' c' p h1 h2
  obtain ⟨-, -, h1⟩ := get_slice h1
  obtain ⟨-, -, h2⟩ := get_slice h2
  obtain ⟨e1, e2⟩ := h _ _ _ _ p h1 h2
  exact ⟨by omega, by omega⟩

theorem nodup_slice {a : Arr2 (Option α)} (h : Distinct a) (r0 r1 c0 c1 : Nat) : (notNone (slice2 a r0 r1 c0 c1)).Nodup := by
  unfold slice2
  apply nodup_notNone_ofFn
  intro r c r' c' p h1 h2
  obtain ⟨e1, e2⟩ := h _ _ _ _ p (join_some h1) (join_some h2)
  exact ⟨by omega, by omega⟩

/-- what `_split_to_approx_shape` gives: the entries of disjoint rectangles that cover the array -/
structure SplitSpec (a : Arr2 (Option α)) (mr mc : Nat) (L : List (List α)) : Prop where
  rect : ∀ l ∈ L, l ≠ [] ∧ ∃ r0 r1 c0 c1, (r1 - r0 ≤ mr) ∧ (mr ≤ a.rows ∨ a.cols ≤ mc → c1 - c0 ≤ mc) ∧ ∀ p, p ∈ l ↔ ∃ r c, r0 ≤ r ∧ r < r1 ∧ c0 ≤ c ∧ c < c1 ∧ a.get? r c = some (some p)
  nodup : L.flatten.Nodup
  cover : ∀ r c p, a.get? r c = some (some p) → ∃ l ∈ L, p ∈ l
  one : a.rows < mr → L.length ≤ 1

theorem notNone_eq_slice (a : Arr2 (Option α)) (hw : a.WF) : notNone a = notNone (slice2 a 0 a.rows 0 a.cols) := by
  congr 1
  refine Arr2.ext_get hw (Arr2.ofFn_wf _ _ _) (by simp [slice2]) (by simp [slice2]) ?_
  intro r c hr hc
  unfold slice2
  rw [Arr2.get?_ofFn _ (by simpa using hr) (by simpa using hc)]
  obtain ⟨v, hv⟩ := Arr2.get?_isSome a hw hr hc
  simp only [Nat.zero_add, hv, Option.join_some]

theorem lt_of_get {a : Arr2 (Option α)} {r c : Nat} {v : Option α} (h : a.get? r c = some v) : r < a.rows ∧ c < a.cols := by
  unfold Arr2.get? at h
  split at h
  · assumption
  · cases h

theorem splitToApproxShape_spec {a : Arr2 (Option α)} (hw : a.WF) (hd : Distinct a) {mr mc : Nat} (hmr : 0 < mr) (hmc : 0 < mc) {L : List (List α)}
    (h : splitToApproxShape a mr mc = .ok L) : SplitSpec a mr mc L := by
  unfold splitToApproxShape at h
  split at h
  · rename_i hcond
    rw [notNone_eq_slice a hw] at h
    have hL : L = if (notNone (slice2 a 0 a.rows 0 a.cols)).isEmpty then [] else [notNone (slice2 a 0 a.rows 0 a.cols)] := (Except.ok.inj h).symm
    subst hL
    refine ⟨?_, ?_, ?_, fun _ => by split <;> simp⟩
    · intro l hl
      split at hl
      · cases hl
      · rename_i hne
        obtain rfl := List.mem_singleton.1 hl
        refine ⟨by simpa using hne, 0, a.rows, 0, a.cols, by omega, ?_, fun p => mem_slice⟩
        intro hh; omega
    · split
      · simp
      · simpa using nodup_slice hd _ _ _ _
    · intro r c p hp
      have hb := lt_of_get hp
      have hm : p ∈ notNone (slice2 a 0 a.rows 0 a.cols) := mem_slice.2 ⟨r, c, by omega, hb.1, by omega, hb.2, hp⟩
      rw [if_neg (by simpa using List.ne_nil_of_mem hm)]
      exact ⟨_, List.mem_singleton.2 rfl, hm⟩
  · rename_i hcond
    simp only at h
    split at h
    · cases h
    · rename_i hq
      have hL := (Except.ok.inj h).symm
      subst hL
      have hrows : mr ≤ a.rows := by omega
      have hk : 0 < ceilDiv a.rows mr := by unfold ceilDiv; exact Nat.div_pos (by omega) hmr
      refine ⟨?_, ?_, ?_, fun hlt => by omega⟩
      · intro l hl
        obtain ⟨hl, hne⟩ := List.mem_filter.1 hl
        obtain ⟨s, hs, hl⟩ := List.mem_flatMap.1 hl
        obtain ⟨t, ht, rfl⟩ := List.mem_map.1 hl
        refine ⟨by simpa using hne, s.1, s.2, t.1, t.2, splitSections_len hmr hs, fun _ => splitSections_len hmc ht, fun p => mem_slice⟩
      · rw [List.nodup_flatten]
        constructor
        · intro l hl
          obtain ⟨hl, -⟩ := List.mem_filter.1 hl
          obtain ⟨s, -, hl⟩ := List.mem_flatMap.1 hl
          obtain ⟨t, -, rfl⟩ := List.mem_map.1 hl
          exact nodup_slice hd _ _ _ _
        · apply List.Pairwise.filter
          rw [List.pairwise_flatMap]
          constructor
          · intro s hs
            rw [List.pairwise_map]
            refine List.Pairwise.imp ?_ (splitSections_pairwise _ _)
            intro t t' htt p hp hp'
            obtain ⟨r, c, -, -, -, h1, h2⟩ := mem_slice.1 hp
            obtain ⟨r', c', -, -, h3, -, h4⟩ := mem_slice.1 hp'
            have := (hd _ _ _ _ p h2 h4).2
            omega
          · refine List.Pairwise.imp ?_ (splitSections_pairwise _ _)
            intro s s' hss l hl l' hl' p hp hp'
            obtain ⟨t, -, rfl⟩ := List.mem_map.1 hl
            obtain ⟨t', -, rfl⟩ := List.mem_map.1 hl'
            obtain ⟨r, c, -, h1, -, -, h2⟩ := mem_slice.1 hp
            obtain ⟨r', c', h3, -, -, -, h4⟩ := mem_slice.1 hp'
            have := (hd _ _ _ _ p h2 h4).1
            omega
      · intro r c p hp
        have hb := lt_of_get hp
        obtain ⟨s, hs, h1, h2⟩ := splitSections_cover hk hb.1
        obtain ⟨t, ht, h3, h4⟩ := splitSections_cover (Nat.pos_of_ne_zero hq) hb.2
        have hm : p ∈ notNone (slice2 a s.1 s.2 t.1 t.2) := mem_slice.2 ⟨r, c, h1, h2, h3, h4, hp⟩
        refine ⟨_, List.mem_filter.2 ⟨List.mem_flatMap.2 ⟨s, hs, List.mem_map.2 ⟨t, ht, rfl⟩⟩, ?_⟩, hm⟩
        simpa using List.ne_nil_of_mem hm

theorem minOf_le {l : List Nat} {x : Nat} (h : x ∈ l) : minOf l ≤ x := by
  unfold minOf
  cases hm : l.min? with
  | none => rw [List.min?_eq_none_iff] at hm; subst hm; cases h
  | some m => exact (List.min?_eq_some_iff.1 hm).2 x h

theorem minOf_mem {l : List Nat} (h : l ≠ []) : minOf l ∈ l := by
  unfold minOf
  cases hm : l.min? with
  | none => rw [List.min?_eq_none_iff] at hm; exact absurd hm h
  | some m => exact (List.min?_eq_some_iff.1 hm).1

theorem le_maxOf {l : List Nat} {x : Nat} (h : x ∈ l) : x ≤ maxOf l := by
  unfold maxOf
  induction l with
  | nil => cases h
  | cons y l ih =>
    rcases List.mem_cons.1 h with rfl | h
    · exact le_max_left _ _
    · exact (ih h).trans (le_max_right _ _)

theorem maxOf_mem {l : List Nat} (h : l ≠ []) : maxOf l ∈ l := by
  unfold maxOf
  induction l with
  | nil => exact absurd rfl h
  | cons y l ih =>
    by_cases hl : l = []
    · subst hl; simp
    · rw [List.foldr_cons]
      rcases max_choice y (l.foldr max 0) with e | e
      · rw [e]; simp
      · rw [e]; exact List.mem_cons_of_mem _ (ih hl)

theorem chunkLength_pos (d s : ℚ) : 0 < chunkLength d s := by unfold chunkLength; omega

/-- the number of tiles along a chunk fits into the maximum dimension -/
theorem chunkLength_le {d s : ℚ} (hs : 0 < s) : (chunkLength d s : ℚ) * s ≤ max d s := by
  unfold chunkLength
  by_cases h : 1 ≤ ⌊d / s⌋
  · rw [max_eq_left h]
    have e : ((⌊d / s⌋.toNat : Nat) : ℚ) = ((⌊d / s⌋ : ℤ) : ℚ) := by exact_mod_cast congrArg (Int.cast (R := ℚ)) (Int.toNat_of_nonneg (by omega))
    rw [e]
    refine le_max_of_le_left ?_
    calc ((⌊d / s⌋ : ℤ) : ℚ) * s ≤ d / s * s := mul_le_mul_of_nonneg_right (Int.floor_le _) hs.le
      _ = d := by field_simp
  · rw [max_eq_right (by omega)]
    simp

theorem chunkLength_lt {d s : ℚ} (hs : 0 < s) : d < ((chunkLength d s : ℚ) + 1) * s := by
  have h1 := Int.lt_floor_add_one (d / s)
  have h2 : (⌊d / s⌋ : ℚ) ≤ (chunkLength d s : ℚ) := by
    unfold chunkLength
    have : ⌊d / s⌋ ≤ ((max ⌊d / s⌋ 1).toNat : ℤ) := by omega
    exact_mod_cast this
  calc d = d / s * s := by field_simp
    _ < ((chunkLength d s : ℚ) + 1) * s := mul_lt_mul_of_pos_right (by linarith) hs

namespace Grid
variable {τ : Type}

/-- what `_tile_chunk_indices` gives: the tiles of disjoint rectangles of slots that cover the grid, `rows` and `cols` are the extent of the tiles -/
structure ChunkSpec (g : Grid τ) (m rows cols : Nat) (L : List (List (Nat × Nat))) : Prop where
  rect : ∀ l ∈ L, l ≠ [] ∧ ∃ r0 r1 c0 c1, (r1 - r0 ≤ m) ∧ (m ≤ rows ∨ cols ≤ m → c1 - c0 ≤ m) ∧ ∀ r c, (r, c) ∈ l ↔ r0 ≤ r ∧ r < r1 ∧ c0 ≤ c ∧ c < c1 ∧ g.Filled r c
  nodup : L.flatten.Nodup
  cover : ∀ r c, g.Filled r c → ∃ l ∈ L, (r, c) ∈ l
  one : rows < m → L.length ≤ 1

/-- the array of indices -/
def tindex (T : Arr2 (Option τ)) : Arr2 (Option (Nat × Nat)) := Arr2.ofFn T.rows T.cols (fun r c => ((T.get? r c).join).map (fun _ => (r, c)))

theorem tindex_get {T : Arr2 (Option τ)} {r c : Nat} {p : Nat × Nat} : (tindex T).get? r c = some (some p) ↔ p = (r, c) ∧ ∃ t, T.get? r c = some (some t) := by
  constructor
  · intro h
    have hb := lt_of_get h
    unfold tindex at h
    rw [Arr2.get?_ofFn _ (show r < T.rows from hb.1) (show c < T.cols from hb.2)] at h
    obtain ⟨t, ht, e⟩ := Option.map_eq_some_iff.1 (Option.some.inj h)
    exact ⟨e.symm, t, join_some ht⟩
  · rintro ⟨rfl, t, ht⟩
    have hb := lt_of_get ht
    unfold tindex
    rw [Arr2.get?_ofFn _ hb.1 hb.2, ht]; rfl

theorem tindex_distinct (T : Arr2 (Option τ)) : Distinct (tindex T) := by
  intro r c r' c' p h1 h2
  obtain ⟨rfl, -⟩ := tindex_get.1 h1
  obtain ⟨h, -⟩ := tindex_get.1 h2
  exact Prod.mk.inj h

theorem filled_iff {g : Grid τ} {T : Arr2 (Option τ)} (hT : g.tiles = some T) {r c : Nat} : g.Filled r c ↔ ∃ t, T.get? r c = some (some t) := by
  constructor
  · rintro ⟨t, T', hT', h⟩
    rw [hT] at hT'; cases hT'
    exact ⟨t, h⟩
  · rintro ⟨t, h⟩; exact ⟨t, T, hT, h⟩

theorem mem_loc {T : Arr2 (Option τ)} {r c : Nat} : (r, c) ∈ notNone (tindex T) ↔ ∃ t, T.get? r c = some (some t) := by
  rw [notNone_eq_slice (tindex T) (Arr2.ofFn_wf _ _ _), mem_slice]
  constructor
  · rintro ⟨r', c', -, -, -, -, h⟩
    obtain ⟨h1, h2⟩ := tindex_get.1 h
    cases h1; exact h2
  · intro h
    have hg := tindex_get.2 ⟨rfl, h⟩
    have hb := lt_of_get hg
    exact ⟨r, c, by omega, hb.1, by omega, hb.2, hg⟩

theorem tileChunkIndices_spec {g : Grid τ} {d : ℚ} {L : List (List (Nat × Nat))} (h : g.tileChunkIndices d = .ok L) :
    ∃ rows cols, g.RowSpan rows ∧ g.ColSpan cols ∧ ChunkSpec g (chunkLength d g.tileSize) rows cols L := by
  unfold tileChunkIndices at h
  simp only at h
  split at h
  · cases h
  · rename_i T hT
    split at h
    · cases h
    · rename_i hne
      have hloc : ∀ {r c}, (r, c) ∈ notNone (tindex T) ↔ g.Filled r c := by intro r c; rw [mem_loc, filled_iff hT]
      change splitToApproxShape (slice2 (tindex T) _ _ _ _) _ _ = _ at h
      have hfold : (Arr2.ofFn T.rows T.cols (fun r c => ((T.get? r c).join).map (fun _ => (r, c)))) = tindex T := rfl
      rw [hfold] at h hne
      have hne' : notNone (tindex T) ≠ [] := by simpa using hne
      generalize hrs : (notNone (tindex T)).map Prod.fst = rs at h
      generalize hcs : (notNone (tindex T)).map Prod.snd = cs at h
      have hmr : ∀ r, r ∈ rs ↔ ∃ c, g.Filled r c := by
        intro r; rw [← hrs, List.mem_map]
        exact ⟨fun ⟨p, hp, e⟩ => ⟨p.2, hloc.1 (by rw [← e]; exact hp)⟩, fun ⟨c, hc⟩ => ⟨(r, c), hloc.2 hc, rfl⟩⟩
      have hmc : ∀ c, c ∈ cs ↔ ∃ r, g.Filled r c := by
        intro c; rw [← hcs, List.mem_map]
        exact ⟨fun ⟨p, hp, e⟩ => ⟨p.1, hloc.1 (by rw [← e]; exact hp)⟩, fun ⟨r, hr⟩ => ⟨(r, c), hloc.2 hr, rfl⟩⟩
      have hrne : rs ≠ [] := by rw [← hrs]; simpa using hne'
      have hcne : cs ≠ [] := by rw [← hcs]; simpa using hne'
      have sp := splitToApproxShape_spec (Arr2.ofFn_wf _ _ _) (distinct_slice (tindex_distinct T) _ _ _ _) (chunkLength_pos _ _) (chunkLength_pos _ _) h
      have rle := minOf_le (maxOf_mem hrne)
      have cle := minOf_le (maxOf_mem hcne)
      have hget : ∀ r c p, (slice2 (tindex T) (minOf rs) (maxOf rs + 1) (minOf cs) (maxOf cs + 1)).get? r c = some (some p) ↔
          p = (minOf rs + r, minOf cs + c) ∧ g.Filled p.1 p.2 := by
        intro r c p
        constructor
        · intro hp
          obtain ⟨-, -, hp⟩ := get_slice hp
          obtain ⟨rfl, hf⟩ := tindex_get.1 hp
          exact ⟨rfl, (filled_iff hT).2 hf⟩
        · rintro ⟨rfl, hf⟩
          have h1 := le_maxOf ((hmr _).2 ⟨_, hf⟩)
          have h2 := le_maxOf ((hmc _).2 ⟨_, hf⟩)
          unfold slice2
          simp only at h1 h2
          rw [Arr2.get?_ofFn _ (by omega) (by omega), tindex_get.2 ⟨rfl, (filled_iff hT).1 hf⟩]; rfl
      refine ⟨maxOf rs + 1 - minOf rs, maxOf cs + 1 - minOf cs, ?_, ?_, ?_, sp.nodup, ?_, sp.one⟩
      · refine ⟨minOf rs, (hmr _).1 (minOf_mem hrne), ?_, by omega, ?_⟩
        · rw [show minOf rs + (maxOf rs + 1 - minOf rs) - 1 = maxOf rs by omega]
          exact (hmr _).1 (maxOf_mem hrne)
        · intro r c hf
          have h1 := minOf_le ((hmr _).2 ⟨_, hf⟩)
          have h2 := le_maxOf ((hmr _).2 ⟨_, hf⟩)
          exact ⟨h1, by omega⟩
      · refine ⟨minOf cs, (hmc _).1 (minOf_mem hcne), ?_, by omega, ?_⟩
        · rw [show minOf cs + (maxOf cs + 1 - minOf cs) - 1 = maxOf cs by omega]
          exact (hmc _).1 (maxOf_mem hcne)
        · intro r c hf
          have h1 := minOf_le ((hmc _).2 ⟨_, hf⟩)
          have h2 := le_maxOf ((hmc _).2 ⟨_, hf⟩)
          exact ⟨h1, by omega⟩
      · intro l hl
        obtain ⟨h0, r0, r1, c0, c1, h1, h2, h3⟩ := sp.rect l hl
        refine ⟨h0, minOf rs + r0, minOf rs + r1, minOf cs + c0, minOf cs + c1, by omega, ?_, ?_⟩
        · intro hh
          have := h2 hh
          omega
        · intro r c
          rw [h3]
          constructor
          · rintro ⟨r', c', k1, k2, k3, k4, k5⟩
            obtain ⟨e, hf⟩ := (hget _ _ _).1 k5
            cases e
            exact ⟨by omega, by omega, by omega, by omega, hf⟩
          · rintro ⟨k1, k2, k3, k4, k5⟩
            have m1 := minOf_le ((hmr _).2 ⟨_, k5⟩)
            have m2 := minOf_le ((hmc _).2 ⟨_, k5⟩)
            refine ⟨r - minOf rs, c - minOf cs, by omega, by omega, by omega, by omega, (hget _ _ _).2 ⟨?_, k5⟩⟩
            rw [Prod.mk.injEq]; omega
      · intro r c hf
        have m1 := minOf_le ((hmr _).2 ⟨_, hf⟩)
        have m2 := minOf_le ((hmc _).2 ⟨_, hf⟩)
        refine sp.cover (r - minOf rs) (c - minOf cs) (r, c) ((hget _ _ _).2 ⟨?_, hf⟩)
        rw [Prod.mk.injEq]; omega

/-- the call succeeds as soon as there is a tile -/
theorem tileChunkIndices_ok {g : Grid τ} (d : ℚ) {r c : Nat} (hf : g.Filled r c) : ∃ L, g.tileChunkIndices d = .ok L := by
  obtain ⟨t, T, hT, ht⟩ := hf
  have hm : (r, c) ∈ notNone (tindex T) := mem_loc.2 ⟨t, ht⟩
  unfold tileChunkIndices
  simp only [hT]
  have hfold : (Arr2.ofFn T.rows T.cols (fun r c => ((T.get? r c).join).map (fun _ => (r, c)))) = tindex T := rfl
  rw [hfold, if_neg (by simpa using List.ne_nil_of_mem hm)]
  unfold splitToApproxShape
  split
  · exact ⟨_, rfl⟩
  · simp only
    have hcs : maxOf ((notNone (tindex T)).map Prod.snd) ∈ (notNone (tindex T)).map Prod.snd := maxOf_mem (by simpa using List.ne_nil_of_mem hm)
    have := minOf_le hcs
    rw [if_neg]
    · exact ⟨_, rfl⟩
    · have hp := chunkLength_pos d g.tileSize
      unfold ceilDiv
      have : 0 < ((slice2 (tindex T) (minOf ((notNone (tindex T)).map Prod.fst)) (maxOf ((notNone (tindex T)).map Prod.fst) + 1) (minOf ((notNone (tindex T)).map Prod.snd))
        (maxOf ((notNone (tindex T)).map Prod.snd) + 1)).cols + chunkLength d g.tileSize - 1) / chunkLength d g.tileSize := by
        refine Nat.div_pos ?_ hp
        simp only [slice2, Arr2.ofFn_cols]
        omega
      omega

end Grid
end Bathy
