import Verif.Lemmas.GridSpec
import Verif.Spec.Cells

/-!
# `np_grid_mean`, `np_grid_shoalest`: the value of every cell
-/

namespace Bathy

/-- shape of a layer -/
def HasShape {α : Type} (a : Arr2 α) (rows cols : Nat) : Prop := a.WF ∧ a.rows = rows ∧ a.cols = cols

theorem cellVals_eq_nil {α : Type} (cells : List Int) (vals : List α) (hlen : cells.length = vals.length) (k : Int) :
    cellVals cells vals k = [] ↔ k ∉ cells := by
  unfold cellVals
  rw [valsAt_eq_nil, List.map_fst_zip (by omega)]

theorem cellVals_length {α : Type} (cells : List Int) (vals : List α) (hlen : cells.length = vals.length) (k : Int) :
    (cellVals cells vals k).length = cells.count k := by
  unfold cellVals valsAt
  rw [List.length_map]
  induction cells generalizing vals with
  | nil => simp
  | cons c cells ih =>
    cases vals with
    | nil => simp at hlen
    | cons v vals =>
      have := ih vals (by simpa using hlen)
      rw [List.zip_cons_cons, List.filter_cons, List.count_cons]
      by_cases h : c = k <;> simp [h, this]

/-- the positions the code writes to -/
def rcOf (cols : Nat) (ks : List Int) : List (Nat × Nat) := ks.map (fun k => (k.toNat / cols, k.toNat % cols))

theorem layer_scatter (env : Env) (cells : List Int) (a : LayerArr) (rows cols : Nat) (ha : HasShape a rows cols)
    (hrange : ∀ k ∈ cells, 0 ≤ k ∧ k < (rows * cols : Nat)) (vs : List ℚ) (P : Int → ℚ → Prop)
    (hl : vs.length = (cellKeys env cells).length)
    (hP : ∀ (i : Nat) k v, (cellKeys env cells)[i]? = some k → vs[i]? = some v → P k v) :
    HasShape (scatter a (rcOf cols (cellKeys env cells)) (vs.map some)) rows cols ∧
    ∀ r c, r < rows → c < cols →
      (((r * cols + c : Nat) : Int) ∉ cells →
        (scatter a (rcOf cols (cellKeys env cells)) (vs.map some)).get? r c = a.get? r c) ∧
      (((r * cols + c : Nat) : Int) ∈ cells →
        ∃ v, (scatter a (rcOf cols (cellKeys env cells)) (vs.map some)).get? r c = some (some v) ∧
          P ((r * cols + c : Nat) : Int) v) := by
  obtain ⟨hw, h1, h2⟩ := ha
  subst h1; subst h2
  have hs := scatter_shape a (rcOf a.cols (cellKeys env cells)) (vs.map some)
  refine ⟨⟨hs.2.2 hw, hs.1, hs.2.1⟩, ?_⟩
  intro r c hr hc
  have hk : ∀ k ∈ cellKeys env cells, 0 ≤ k ∧ k < (a.rows * a.cols : Nat) :=
    fun k hk => hrange k ((cellKeys_mem env cells k).1 hk)
  have hsc := scatter_keys a hw (cellKeys env cells) (vs.map some) hk (cellKeys_nodup env cells) (by simpa using hl) hr hc
  refine ⟨?_, ?_⟩
  · intro hn
    exact hsc.1 (fun hm => hn ((cellKeys_mem env cells _).1 hm))
  · intro hm
    obtain ⟨i, hi⟩ := List.mem_iff_getElem?.1 ((cellKeys_mem env cells _).2 hm)
    have hil : i < vs.length := by rw [hl]; exact (List.getElem?_eq_some_iff.1 hi).1
    have hv : vs[i]? = some vs[i] := List.getElem?_eq_getElem hil
    refine ⟨vs[i], hsc.2 i _ hi (by rw [List.getElem?_map, hv]; rfl), hP i _ _ hi hv⟩

theorem density_scatter (env : Env) (cells : List Int) (a : LayerArr) (rows cols : Nat) (ha : HasShape a rows cols)
    (hrange : ∀ k ∈ cells, 0 ≤ k ∧ k < (rows * cols : Nat)) :
    let out := scatter a (rcOf cols (cellKeys env cells)) (((cellKeys env cells).map (fun k => cells.count k)).map (fun n : Nat => some (n : ℚ)))
    HasShape out rows cols ∧ ∀ r c, r < rows → c < cols →
      out.get? r c = if ((r * cols + c : Nat) : Int) ∈ cells then some (some ((cells.count ((r * cols + c : Nat) : Int) : Nat) : ℚ))
        else a.get? r c := by
  intro out
  have h := layer_scatter env cells a rows cols ha hrange ((cellKeys env cells).map (fun k => ((cells.count k : Nat) : ℚ)))
    (fun k v => v = ((cells.count k : Nat) : ℚ)) (by simp)
    (by
      intro i k v hk hv
      rw [List.getElem?_map, hk] at hv
      simpa using hv.symm)
  have e : ((cellKeys env cells).map (fun k => ((cells.count k : Nat) : ℚ))).map some =
      ((cellKeys env cells).map (fun k => cells.count k)).map (fun n : Nat => some (n : ℚ)) := by
    simp [List.map_map, Function.comp_def]
  rw [e] at h
  refine ⟨h.1, ?_⟩
  intro r c hr hc
  obtain ⟨g1, g2⟩ := h.2 r c hr hc
  by_cases hm : ((r * cols + c : Nat) : Int) ∈ cells
  · rw [if_pos hm]
    obtain ⟨v, hv, rfl⟩ := g2 hm
    exact hv
  · rw [if_neg hm]
    exact g1 hm

theorem foldl_add_sum (l : List ℚ) (a : ℚ) : l.foldl (· + ·) a = a + l.sum := by
  induction l generalizing a with
  | nil => simp
  | cons x l ih => rw [List.foldl_cons, ih, List.sum_cons]; ring

theorem reduce1_add (l : List ℚ) (v : ℚ) (h : reduce1 (· + ·) l = some v) : v = l.sum := by
  cases l with
  | nil => simp [reduce1] at h
  | cons a l =>
    simp only [reduce1, Option.some.injEq] at h
    rw [← h, foldl_add_sum, List.sum_cons]

theorem foldl_min_spec (l : List ℚ) (a : ℚ) :
    (l.foldl min a = a ∨ l.foldl min a ∈ l) ∧ l.foldl min a ≤ a ∧ ∀ x ∈ l, l.foldl min a ≤ x := by
  induction l generalizing a with
  | nil => simp
  | cons x l ih =>
    obtain ⟨h1, h2, h3⟩ := ih (min a x)
    rw [List.foldl_cons]
    refine ⟨?_, le_trans h2 (min_le_left _ _), ?_⟩
    · rcases h1 with h | h
      · rcases min_choice a x with e | e
        · left; rw [h, e]
        · right; rw [h, e]; exact List.mem_cons_self
      · right; exact List.mem_cons_of_mem _ h
    · intro y hy
      rcases List.mem_cons.1 hy with rfl | hy
      · exact le_trans h2 (min_le_right _ _)
      · exact h3 y hy

theorem reduce1_min (l : List ℚ) (v : ℚ) (h : reduce1 min l = some v) : IsMin v l := by
  cases l with
  | nil => simp [reduce1] at h
  | cons a l =>
    simp only [reduce1, Option.some.injEq] at h
    obtain ⟨h1, h2, h3⟩ := foldl_min_spec l a
    rw [h] at h1 h2 h3
    refine ⟨?_, ?_⟩
    · rcases h1 with e | e
      · rw [e]; exact List.mem_cons_self
      · exact List.mem_cons_of_mem _ e
    · intro x hx
      rcases List.mem_cons.1 hx with rfl | hx
      · exact h2
      · exact h3 x hx

theorem isMin_unique {a b : ℚ} {l m : List ℚ} (h : l.Perm m) (ha : IsMin a l) (hb : IsMin b m) : a = b :=
  le_antisymm (ha.2 b (h.mem_iff.2 hb.1)) (hb.2 a (h.mem_iff.1 ha.1))

/-- `out` is `base` with the mean of the values of each non empty cell written in -/
def MeanLayer (cells : List Int) (vals : List ℚ) (base out : LayerArr) (rows cols : Nat) : Prop :=
  HasShape out rows cols ∧ ∀ r c, r < rows → c < cols →
    out.get? r c = if cellVals cells vals ((r * cols + c : Nat) : Int) = [] then base.get? r c
      else some (some (meanOf (cellVals cells vals ((r * cols + c : Nat) : Int))))

theorem groupMeans_spec (env : Env) (cells : List Int) (vals : List ℚ) (hlen : cells.length = vals.length) :
    ∃ ms, groupMeans vals (env.argsort.run cells)
        ((runsFrom 0 ((env.argsort.run cells).filterMap (fun i => cells[i]?))).map (fun t => t.2.1))
        ((cellKeys env cells).map (fun k => cells.count k)) = some ms ∧
      ms.length = (cellKeys env cells).length ∧
      ∀ (i : Nat) k v, (cellKeys env cells)[i]? = some k → ms[i]? = some v → v = meanOf (cellVals cells vals k) := by
  obtain ⟨red, h1, h2, h3⟩ := reduce_spec env cells vals hlen (· + ·)
  unfold groupMeans
  cases ht : takeIdx vals (env.argsort.run cells) with
  | none => rw [ht] at h1; simp at h1
  | some s =>
    rw [ht, Option.bind_some] at h1
    simp only
    rw [h1, Option.map_some]
    refine ⟨_, rfl, by simp [h2], ?_⟩
    intro i k v hk hv
    rw [List.getElem?_zipWith] at hv
    have hi : i < red.length := by rw [h2]; exact (List.getElem?_eq_some_iff.1 hk).1
    have hri : red[i]? = some red[i] := List.getElem?_eq_getElem hi
    rw [List.getElem?_map, hk, hri] at hv
    simp only [Option.map_some, Option.some.injEq] at hv
    obtain ⟨l, -, hp, hr⟩ := h3 i k red[i] hk hri
    rw [← hv, reduce1_add l _ hr, hp.sum_eq, meanOf, cellVals_length cells vals hlen]

theorem mean_layer (env : Env) (cells : List Int) (vals ms : List ℚ) (hlen : cells.length = vals.length) (a : LayerArr)
    (rows cols : Nat) (ha : HasShape a rows cols) (hrange : ∀ k ∈ cells, 0 ≤ k ∧ k < (rows * cols : Nat))
    (hl : ms.length = (cellKeys env cells).length)
    (hP : ∀ (i : Nat) k v, (cellKeys env cells)[i]? = some k → ms[i]? = some v → v = meanOf (cellVals cells vals k)) :
    MeanLayer cells vals a (scatter a (rcOf cols (cellKeys env cells)) (ms.map some)) rows cols := by
  have h := layer_scatter env cells a rows cols ha hrange ms (fun k v => v = meanOf (cellVals cells vals k)) hl hP
  refine ⟨h.1, ?_⟩
  intro r c hr hc
  obtain ⟨g1, g2⟩ := h.2 r c hr hc
  by_cases hm : ((r * cols + c : Nat) : Int) ∈ cells
  · rw [if_neg (by rw [cellVals_eq_nil cells vals hlen]; exact not_not.2 hm)]
    obtain ⟨v, hv, rfl⟩ := g2 hm
    exact hv
  · rw [if_pos ((cellVals_eq_nil cells vals hlen _).2 hm)]
    exact g1 hm

/-- the density of every non empty cell is the number of its points -/
def DensityLayer (cells : List Int) (base out : LayerArr) (rows cols : Nat) : Prop :=
  HasShape out rows cols ∧ ∀ r c, r < rows → c < cols →
    out.get? r c = if ((r * cols + c : Nat) : Int) ∈ cells then some (some ((cells.count ((r * cols + c : Nat) : Int) : Nat) : ℚ))
      else base.get? r c

/-- what happens to an optional uncertainty layer -/
def OptMean (cells : List Int) (vals : List ℚ) (base out : Option LayerArr) (rows cols : Nat) : Prop :=
  match base, out with
  | none, none => True
  | some b, some o => MeanLayer cells vals b o rows cols
  | _, _ => False

theorem mean_opt (env : Env) (cells : List Int) (vals : List ℚ) (base : Option LayerArr) (rows cols : Nat)
    (hlen : ∀ a, base = some a → cells.length = vals.length) (hsh : ∀ a, base = some a → HasShape a rows cols)
    (hrange : ∀ k ∈ cells, 0 ≤ k ∧ k < (rows * cols : Nat)) :
    ∃ o, (if enabled vals base then (groupMeans vals (env.argsort.run cells)
        ((runsFrom 0 ((env.argsort.run cells).filterMap (fun i => cells[i]?))).map (fun t => t.2.1))
        ((cellKeys env cells).map (fun k => cells.count k))).map
          (fun m => base.map (fun a => scatter a (rcOf cols (cellKeys env cells)) (m.map some)))
      else some base) = some o ∧ OptMean cells vals base o rows cols := by
  cases base with
  | none => exact ⟨none, by simp [enabled], trivial⟩
  | some a =>
    have hlen := hlen a rfl
    have hsh := hsh a rfl
    by_cases he : enabled vals (some a) = true
    · rw [if_pos he]
      obtain ⟨ms, h1, h2, h3⟩ := groupMeans_spec env cells vals hlen
      rw [h1]
      exact ⟨_, rfl, mean_layer env cells vals ms hlen a rows cols hsh hrange h2 h3⟩
    · rw [if_neg he]
      refine ⟨some a, rfl, hsh, ?_⟩
      intro r c hr hc
      have : cells = [] := by
        simp only [enabled, Bool.and_eq_true, decide_eq_true_eq, not_and, not_lt, Nat.le_zero] at he
        rcases Nat.eq_zero_or_pos vals.length with h0 | h0
        · rw [h0] at hlen; exact List.length_eq_zero_iff.1 hlen
        · have := he h0
          obtain ⟨hw, e1, e2⟩ := hsh
          rw [hw, e1, e2] at this
          have := Arr2.idx_lt hr hc
          omega
      subst this
      simp [cellVals, valsAt]

/-- `np_grid_mean` never raises on soundings that lie in cells of the grid, and fills every cell with the mean of its soundings -/
theorem npGridMean_spec (env : Env) (depth : List ℚ) (cells : List Int) (g : GridArrays) (tvu thu : List ℚ) (rows cols : Nat)
    (hlen : cells.length = depth.length) (hd : HasShape g.depth rows cols) (hn : HasShape g.density rows cols)
    (htl : ∀ a, g.tvu = some a → cells.length = tvu.length) (hhl : ∀ a, g.thu = some a → cells.length = thu.length)
    (hts : ∀ a, g.tvu = some a → HasShape a rows cols) (hhs : ∀ a, g.thu = some a → HasShape a rows cols)
    (hrange : ∀ k ∈ cells, 0 ≤ k ∧ k < (rows * cols : Nat)) :
    ∃ out, npGridMean env depth cells g tvu thu = .ok out ∧ MeanLayer cells depth g.depth out.depth rows cols ∧
      DensityLayer cells g.density out.density rows cols ∧ OptMean cells tvu g.tvu out.tvu rows cols ∧
      OptMean cells thu g.thu out.thu rows cols := by
  obtain ⟨ms, h1, h2, h3⟩ := groupMeans_spec env cells depth hlen
  obtain ⟨ot, t1, t2⟩ := mean_opt env cells tvu g.tvu rows cols htl hts hrange
  obtain ⟨oh, u1, u2⟩ := mean_opt env cells thu g.thu rows cols hhl hhs hrange
  unfold npGridMean
  simp only
  rw [takeIdx_eq_filterMap cells _ (idx_lt_of_perm (env.argsort.perm cells))]
  simp only
  have hrc : ((runsFrom 0 ((env.argsort.run cells).filterMap (fun i => cells[i]?))).map (fun t => t.1)).mapM
      (fun i => unravel i g.depth.rows g.depth.cols) = some (rcOf cols (cellKeys env cells)) := by
    rw [hd.2.1, hd.2.2]
    exact mapM_unravel (cellKeys env cells) rows cols (fun k hk => hrange k ((cellKeys_mem env cells k).1 hk))
  rw [hrc]
  simp only
  rw [counts_spec env cells, h1, t1, u1]
  refine ⟨_, rfl, mean_layer env cells depth ms hlen g.depth rows cols hd hrange h2 h3, ?_, t2, u2⟩
  exact density_scatter env cells g.density rows cols hn hrange

/-- `out` is `base` with the least value of each non empty cell written in -/
def MinLayer (cells : List Int) (vals : List ℚ) (base out : LayerArr) (rows cols : Nat) : Prop :=
  HasShape out rows cols ∧ ∀ r c, r < rows → c < cols →
    (cellVals cells vals ((r * cols + c : Nat) : Int) = [] → out.get? r c = base.get? r c) ∧
    (cellVals cells vals ((r * cols + c : Nat) : Int) ≠ [] →
      ∃ m, out.get? r c = some (some m) ∧ IsMin m (cellVals cells vals ((r * cols + c : Nat) : Int)))

/-- the uncertainty written by `np_grid_shoalest`: the entry of the uncertainty array at the *rank* of the shoalest depth -/
def RankLayer (cells : List Int) (depth vals : List ℚ) (base out : LayerArr) (rows cols : Nat) : Prop :=
  HasShape out rows cols ∧ ∀ r c, r < rows → c < cols →
    (cellVals cells depth ((r * cols + c : Nat) : Int) = [] → out.get? r c = base.get? r c) ∧
    (cellVals cells depth ((r * cols + c : Nat) : Int) ≠ [] →
      ∃ m v, IsMin m (cellVals cells depth ((r * cols + c : Nat) : Int)) ∧
        vals[depth.countP (fun z => decide (z < m))]? = some v ∧ out.get? r c = some (some v))

/-- as `OptMean` -/
def OptRank (cells : List Int) (depth vals : List ℚ) (base out : Option LayerArr) (rows cols : Nat) : Prop :=
  match base, out with
  | none, none => True
  | some b, some o => RankLayer cells depth vals b o rows cols
  | _, _ => False

theorem cellVals_sub {α : Type} (cells : List Int) (vals : List α) (k : Int) : ∀ v ∈ cellVals cells vals k, v ∈ vals := by
  intro v hv
  unfold cellVals valsAt at hv
  obtain ⟨q, hq, rfl⟩ := List.mem_map.1 hv
  exact (List.of_mem_zip (List.mem_filter.1 hq).1).2

theorem countP_lt_of_mem (l : List ℚ) (m : ℚ) (h : m ∈ l) : l.countP (fun z => decide (z < m)) < l.length := by
  have h1 : l.countP (fun z => decide (z < m)) ≤ l.length := List.countP_le_length
  rcases Nat.lt_or_ge (l.countP (fun z => decide (z < m))) l.length with h2 | h2
  · exact h2
  · have := List.countP_eq_length.1 (le_antisymm h1 h2) m h
    simp at this

theorem rank_opt (env : Env) (cells : List Int) (depth vals mins : List ℚ) (base : Option LayerArr) (rows cols : Nat)
    (hlen0 : cells.length = depth.length) (sd : List ℚ) (hsd : sd.Perm depth)
    (hlen : ∀ a, base = some a → cells.length = vals.length) (hsh : ∀ a, base = some a → HasShape a rows cols)
    (hrange : ∀ k ∈ cells, 0 ≤ k ∧ k < (rows * cols : Nat)) (hl : mins.length = (cellKeys env cells).length)
    (hP : ∀ (i : Nat) k v, (cellKeys env cells)[i]? = some k → mins[i]? = some v → IsMin v (cellVals cells depth k)) :
    ∃ o, (if enabled vals base then (takeIdx vals (mins.map (fun d => searchsortedLeft sd d))).map
          (fun m => base.map (fun a => scatter a (rcOf cols (cellKeys env cells)) (m.map some)))
      else some base) = some o ∧ OptRank cells depth vals base o rows cols := by
  cases base with
  | none => exact ⟨none, by simp [enabled], trivial⟩
  | some a =>
    have hlen := hlen a rfl
    have hsh := hsh a rfl
    by_cases he : enabled vals (some a) = true
    · rw [if_pos he]
      have hcount : ∀ d, searchsortedLeft sd d = depth.countP (fun z => decide (z < d)) := fun d => hsd.countP_eq _
      have hin : ∀ i ∈ mins.map (fun d => searchsortedLeft sd d), i < vals.length := by
        intro i hi
        obtain ⟨d, hd, rfl⟩ := List.mem_map.1 hi
        obtain ⟨j, hj⟩ := List.mem_iff_getElem?.1 hd
        have hjl : j < (cellKeys env cells).length := by rw [← hl]; exact (List.getElem?_eq_some_iff.1 hj).1
        have := hP j _ d (List.getElem?_eq_getElem hjl) hj
        rw [hcount, ← hlen, hlen0]
        exact countP_lt_of_mem depth d (cellVals_sub cells depth _ d this.1)
      have hsome : ∃ us, takeIdx vals (mins.map (fun d => searchsortedLeft sd d)) = some us :=
        ⟨_, takeIdx_eq_filterMap vals _ hin⟩
      obtain ⟨us, hus⟩ := hsome
      rw [hus]
      refine ⟨_, rfl, ?_⟩
      have hul : us.length = mins.length := by
        have := mapM_length (f := fun i => vals[i]?) hus; simpa using this
      have h := layer_scatter env cells a rows cols hsh hrange us
        (fun k v => ∃ m, IsMin m (cellVals cells depth k) ∧ vals[depth.countP (fun z => decide (z < m))]? = some v)
        (by rw [hul, hl])
        (by
          intro i k v hk hv
          have hi : i < mins.length := by rw [hl]; exact (List.getElem?_eq_some_iff.1 hk).1
          have hmi : mins[i]? = some mins[i] := List.getElem?_eq_getElem hi
          refine ⟨mins[i], hP i k _ hk hmi, ?_⟩
          have := congrArg (fun l => l[i]?) ((mapM_eq_some _ _ _).1 hus)
          simp only [List.getElem?_map, hmi, hv, Option.map_some, Option.some.injEq] at this
          rw [hcount] at this
          exact this)
      refine ⟨h.1, ?_⟩
      intro r c hr hc
      obtain ⟨g1, g2⟩ := h.2 r c hr hc
      rw [Ne, cellVals_eq_nil cells depth hlen0, not_not]
      refine ⟨g1, ?_⟩
      intro hm
      obtain ⟨v, hv, m, hm1, hm2⟩ := g2 hm
      exact ⟨m, v, hm1, hm2, hv⟩
    · rw [if_neg he]
      refine ⟨some a, rfl, hsh, ?_⟩
      intro r c hr hc
      have : cells = [] := by
        simp only [enabled, Bool.and_eq_true, decide_eq_true_eq, not_and, not_lt, Nat.le_zero] at he
        rcases Nat.eq_zero_or_pos vals.length with h0 | h0
        · rw [h0] at hlen; exact List.length_eq_zero_iff.1 hlen
        · have := he h0
          obtain ⟨hw, e1, e2⟩ := hsh
          rw [hw, e1, e2] at this
          have := Arr2.idx_lt hr hc
          omega
      subst this
      simp [cellVals, valsAt]

/-- `np_grid_shoalest` never raises on soundings that lie in cells of the grid, and fills every cell with its least depth -/
theorem npGridShoalest_spec (env : Env) (depth : List ℚ) (cells : List Int) (g : GridArrays) (tvu thu : List ℚ) (rows cols : Nat)
    (hlen : cells.length = depth.length) (hd : HasShape g.depth rows cols) (hn : HasShape g.density rows cols)
    (htl : ∀ a, g.tvu = some a → cells.length = tvu.length) (hhl : ∀ a, g.thu = some a → cells.length = thu.length)
    (hts : ∀ a, g.tvu = some a → HasShape a rows cols) (hhs : ∀ a, g.thu = some a → HasShape a rows cols)
    (hrange : ∀ k ∈ cells, 0 ≤ k ∧ k < (rows * cols : Nat)) :
    ∃ out, npGridShoalest env depth cells g tvu thu = .ok out ∧ MinLayer cells depth g.depth out.depth rows cols ∧
      DensityLayer cells g.density out.density rows cols ∧ OptRank cells depth tvu g.tvu out.tvu rows cols ∧
      OptRank cells depth thu g.thu out.thu rows cols := by
  obtain ⟨mins, h1, h2, h3⟩ := reduce_spec env cells depth hlen min
  have h3' : ∀ (i : Nat) k v, (cellKeys env cells)[i]? = some k → mins[i]? = some v → IsMin v (cellVals cells depth k) := by
    intro i k v hk hv
    obtain ⟨l, -, hp, hr⟩ := h3 i k v hk hv
    have := reduce1_min l v hr
    exact ⟨hp.mem_iff.1 this.1, fun x hx => this.2 x (hp.mem_iff.2 hx)⟩
  have hsd := perm_of_idx (env.argsortQ.perm depth)
  obtain ⟨ot, t1, t2⟩ := rank_opt env cells depth tvu mins g.tvu rows cols hlen _ hsd htl hts hrange h2 h3'
  obtain ⟨oh, u1, u2⟩ := rank_opt env cells depth thu mins g.thu rows cols hlen _ hsd hhl hhs hrange h2 h3'
  unfold npGridShoalest
  simp only
  rw [takeIdx_eq_filterMap cells _ (idx_lt_of_perm (env.argsort.perm cells))]
  simp only
  have hrc : ((runsFrom 0 ((env.argsort.run cells).filterMap (fun i => cells[i]?))).map (fun t => t.1)).mapM
      (fun i => unravel i g.depth.rows g.depth.cols) = some (rcOf cols (cellKeys env cells)) := by
    rw [hd.2.1, hd.2.2]
    exact mapM_unravel (cellKeys env cells) rows cols (fun k hk => hrange k ((cellKeys_mem env cells k).1 hk))
  rw [hrc]
  simp only
  rw [h1]
  simp only
  rw [takeIdx_eq_filterMap depth _ (idx_lt_of_perm (env.argsortQ.perm depth))]
  simp only
  rw [counts_spec env cells, t1, u1]
  refine ⟨_, rfl, ?_, density_scatter env cells g.density rows cols hn hrange, t2, u2⟩
  have h := layer_scatter env cells g.depth rows cols hd hrange mins (fun k v => IsMin v (cellVals cells depth k)) h2 h3'
  refine ⟨h.1, ?_⟩
  intro r c hr hc
  obtain ⟨g1, g2⟩ := h.2 r c hr hc
  rw [Ne, cellVals_eq_nil cells depth hlen, not_not]
  exact ⟨g1, g2⟩

end Bathy
