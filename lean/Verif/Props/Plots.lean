import Verif.Model.Plots
import Verif.Lemmas.GridFns
import Verif.Props.Stats

/-!
# C93: the curves of density against depth

Model: `densityCurve` (bathygrid/bgrid.py:1663-1709).
-/

namespace Bathy
open Grid

/-- the cells (density, depth) whose depth lies in the band number `k` of width `w` that starts at `a` -/
def inBand (a w : ℚ) (k : Nat) (ps : List (ℚ × ℚ)) : List (ℚ × ℚ) := ps.filter (fun q => decide (a + k * w ≤ q.2 ∧ q.2 < a + (k + 1) * w))

/-- the points of the curve: for each of `n` bands that holds cells, in increasing order, the upper end of the band and the mean density of its cells -/
def bandMeans (a w : ℚ) (n : Nat) (ps : List (ℚ × ℚ)) : List (ℚ × ℚ) :=
  (List.range n).filterMap (fun k : Nat => if inBand a w k ps = [] then none
    else some (a + (k + 1) * w, ((inBand a w k ps).map Prod.fst).sum / ((inBand a w k ps).length : ℚ)))

/-- the cells with a depth -/
def withDepth (cells : List (ℚ × Option ℚ)) : List (ℚ × ℚ) := cells.filterMap (fun q => q.2.map (fun d => (q.1, d)))

theorem reduce1_lattice (l : List ℚ) (hne : l ≠ []) : ∃ lo hi, reduce1 min l = some lo ∧ reduce1 max l = some hi ∧ lo ∈ l ∧ hi ∈ l ∧ ∀ d ∈ l, lo ≤ d ∧ d ≤ hi := by
  have key : ∀ (l : List ℚ) (a : ℚ), (l.foldl min a ∈ a :: l ∧ ∀ d ∈ a :: l, l.foldl min a ≤ d) ∧ (l.foldl max a ∈ a :: l ∧ ∀ d ∈ a :: l, d ≤ l.foldl max a) := by
    intro l
    induction l with
    | nil => intro a; simp
    | cons b l ih =>
      intro a
      obtain ⟨⟨m1, m2⟩, -⟩ := ih (min a b)
      obtain ⟨-, ⟨M1, M2⟩⟩ := ih (max a b)
      simp only [List.foldl_cons]
      refine ⟨⟨?_, ?_⟩, ?_, ?_⟩
      · rcases List.mem_cons.1 m1 with h | h
        · rw [h]; rcases min_choice a b with e | e <;> rw [e] <;> simp
        · simp [h]
      · intro d hd
        have h0 := m2 _ List.mem_cons_self
        rcases List.mem_cons.1 hd with rfl | hd
        · exact h0.trans (min_le_left _ _)
        · rcases List.mem_cons.1 hd with rfl | hd
          · exact h0.trans (min_le_right _ _)
          · exact m2 d (List.mem_cons_of_mem _ hd)
      · rcases List.mem_cons.1 M1 with h | h
        · rw [h]; rcases max_choice a b with e | e <;> rw [e] <;> simp
        · simp [h]
      · intro d hd
        have h0 := M2 _ List.mem_cons_self
        rcases List.mem_cons.1 hd with rfl | hd
        · exact (le_max_left _ _).trans h0
        · rcases List.mem_cons.1 hd with rfl | hd
          · exact (le_max_right _ _).trans h0
          · exact M2 d (List.mem_cons_of_mem _ hd)
  match l, hne with
  | a :: l, _ =>
    obtain ⟨⟨h1, h2⟩, h3, h4⟩ := key l a
    exact ⟨_, _, rfl, rfl, h1, h3, fun d hd => ⟨h2 d hd, h4 d hd⟩⟩

theorem linspace_get (a b : ℚ) {n : Nat} (hn : 1 ≤ n) : linspace a b (n + 1) = (List.range (n + 1)).map (fun i : Nat => a + (i : ℚ) * ((b - a) / n)) := by
  obtain ⟨m, rfl⟩ : ∃ m, n = m + 1 := ⟨n - 1, by omega⟩
  simp [linspace]

/-- the number that `digitize` gives a depth is one more than the number of its band -/
theorem digitize_band {a b : ℚ} (hab : a < b) {n : Nat} (hn : 1 ≤ n) {d : ℚ} (h1 : a ≤ d) (h2 : d < b) :
    ∃ k < n, searchsortedRight (linspace a b (n + 1)) d = k + 1 ∧ a + (k : ℚ) * ((b - a) / n) ≤ d ∧ d < a + ((k : ℚ) + 1) * ((b - a) / n) ∧
      ∀ j : Nat, a + (j : ℚ) * ((b - a) / n) ≤ d → d < a + ((j : ℚ) + 1) * ((b - a) / n) → j = k := by
  have hn0 : (0 : ℚ) < n := by exact_mod_cast hn
  have hw : 0 < (b - a) / n := div_pos (by linarith) hn0
  generalize hwd : (b - a) / n = w at hw
  have hb : b = a + n * w := by rw [← hwd]; field_simp; ring
  have hlin := linspace_get a b hn
  rw [hwd] at hlin
  have hf1 : 0 ≤ (d - a) / w := div_nonneg (by linarith) hw.le
  have hfl := Nat.floor_le hf1
  have hfl' := Nat.lt_floor_add_one ((d - a) / w)
  rw [le_div_iff₀ hw] at hfl
  rw [div_lt_iff₀ hw] at hfl'
  have hk : ⌊(d - a) / w⌋₊ < n := by
    have : ((⌊(d - a) / w⌋₊ : ℚ)) * w < n * w := by linarith
    exact_mod_cast lt_of_mul_lt_mul_right this hw.le
  refine ⟨⌊(d - a) / w⌋₊, hk, ?_, by linarith, by linarith, ?_⟩
  · rw [hlin]
    have hlen : ⌊(d - a) / w⌋₊ + 1 < ((List.range (n + 1)).map (fun i : Nat => a + (i : ℚ) * w)).length := by simp; omega
    refine searchsortedRight_of_mem _ ?_ d _ hlen ?_ ?_
    · rw [List.pairwise_map]
      refine List.pairwise_lt_range.imp ?_
      intro i j hij
      have : (i : ℚ) < j := by exact_mod_cast hij
      nlinarith
    · simp; linarith
    · simp; linarith
  · intro j hj hj'
    have e1 : (j : ℚ) * w < ((⌊(d - a) / w⌋₊ : ℚ) + 1) * w := by linarith
    have e2 : ((⌊(d - a) / w⌋₊ : ℚ)) * w < ((j : ℚ) + 1) * w := by linarith
    have e1 := lt_of_mul_lt_mul_right e1 hw.le
    have e2 := lt_of_mul_lt_mul_right e2 hw.le
    have e1 : j < ⌊(d - a) / w⌋₊ + 1 := by exact_mod_cast e1
    have e2 : ⌊(d - a) / w⌋₊ < j + 1 := by exact_mod_cast e2
    omega

theorem valsAt_map {ps : List (ℚ × ℚ)} (f : ℚ → Int) (k : Int) :
    cellVals ((ps.map Prod.snd).map f) (ps.map Prod.fst) k = (ps.filter (fun q => decide (f q.2 = k))).map Prod.fst := by
  unfold cellVals
  induction ps with
  | nil => rfl
  | cons q ps ih =>
    simp only [List.map_cons, List.zip_cons_cons, valsAt_cons, List.filter_cons, ih]
    by_cases h : f q.2 = k <;> simp [h]

/-- **C93** (the curve): whatever `argsort` does with ties, for cells of which at least one has a depth, and at least one bin, the curve is the list of the bands that hold cells, with
the mean density of these cells; the bands divide the range of the depths, 0.001 wider at both ends, into equal parts. -/
theorem C93_curve (env : Env) (cells : List (ℚ × Option ℚ)) (hne : withDepth cells ≠ []) {n : Nat} (hn : 1 ≤ n) :
    ∃ lo hi, (∃ q ∈ withDepth cells, q.2 = lo) ∧ (∃ q ∈ withDepth cells, q.2 = hi) ∧ (∀ q ∈ withDepth cells, lo ≤ q.2 ∧ q.2 ≤ hi) ∧
      densityCurve env cells n = .ok (bandMeans (lo - 1 / 1000) ((hi - lo + 2 / 1000) / n) n (withDepth cells)) ∧
      ∀ q ∈ withDepth cells, ∃! k : Nat, k < n ∧ q ∈ inBand (lo - 1 / 1000) ((hi - lo + 2 / 1000) / n) k (withDepth cells) := by
  obtain ⟨lo, hi, r1, r2, m1, m2, hall⟩ := reduce1_lattice ((withDepth cells).map Prod.snd) (by simpa using hne)
  have hall' : ∀ q ∈ withDepth cells, lo ≤ q.2 ∧ q.2 ≤ hi := fun q hq => hall _ (List.mem_map_of_mem hq)
  obtain ⟨q1, hq1, e1⟩ := List.mem_map.1 m1
  obtain ⟨q2, hq2, e2⟩ := List.mem_map.1 m2
  have hlohi : lo ≤ hi := e1 ▸ (hall' q1 hq1).2
  have hw : hi + 1 / 1000 - (lo - 1 / 1000) = hi - lo + 2 / 1000 := by ring
  have hband : ∀ q ∈ withDepth cells, ∃ k < n, searchsortedRight (linspace (lo - 1 / 1000) (hi + 1 / 1000) (n + 1)) q.2 = k + 1 ∧
      lo - 1 / 1000 + (k : ℚ) * ((hi - lo + 2 / 1000) / n) ≤ q.2 ∧ q.2 < lo - 1 / 1000 + ((k : ℚ) + 1) * ((hi - lo + 2 / 1000) / n) ∧
      ∀ j : Nat, lo - 1 / 1000 + (j : ℚ) * ((hi - lo + 2 / 1000) / n) ≤ q.2 → q.2 < lo - 1 / 1000 + ((j : ℚ) + 1) * ((hi - lo + 2 / 1000) / n) → j = k := by
    intro q hq
    obtain ⟨h1, h2⟩ := hall' q hq
    have := digitize_band (a := lo - 1 / 1000) (b := hi + 1 / 1000) (by linarith) hn (d := q.2) (by linarith) (by linarith)
    rwa [hw] at this
  refine ⟨lo, hi, ⟨q1, hq1, e1⟩, ⟨q2, hq2, e2⟩, hall', ?_, ?_⟩
  · unfold densityCurve
    simp only
    rw [show cells.filterMap (fun q => q.2.map (fun d => (q.1, d))) = withDepth cells from rfl, r1, r2]
    simp only
    rw [if_neg (by omega), show ((n : Int) + 1).toNat = n + 1 by omega]
    generalize hps : withDepth cells = ps at *
    generalize hed : linspace (lo - 1 / 1000) (hi + 1 / 1000) (n + 1) = edges at *
    generalize hidx : List.map (fun d => (searchsortedRight edges d : Int)) (List.map Prod.snd ps) = idx
    have hlen : idx.length = (ps.map Prod.fst).length := by rw [← hidx]; simp
    rw [takeIdx_eq_filterMap idx _ (idx_lt_of_perm (env.argsort.perm idx))]
    simp only
    obtain ⟨ms, g1, g2, g3⟩ := groupMeans_spec env idx (ps.map Prod.fst) hlen
    rw [← counts_spec env idx] at g1
    rw [g1]
    simp only
    have hkeys : (runsFrom 0 ((env.argsort.run idx).filterMap (fun i => idx[i]?))).map (fun t => t.1.toNat) = (cellKeys env idx).map Int.toNat := by
      unfold cellKeys; rw [List.map_map]; rfl
    rw [hkeys]
    -- the keys are the bands that hold cells
    have hbands : cellKeys env idx = ((List.range n).filter (fun k : Nat => decide (inBand (lo - 1 / 1000) ((hi - lo + 2 / 1000) / n) k ps ≠ []))).map (fun k : Nat => ((k + 1 : Nat) : Int)) := by
      refine eq_of_pairwise_lt (cellKeys_sorted env idx) ?_ ?_
      · rw [List.pairwise_map]
        refine (List.pairwise_lt_range.filter _).imp ?_
        intro i j h; exact_mod_cast Nat.succ_lt_succ h
      · intro k
        rw [cellKeys_mem, ← hidx, List.map_map, List.mem_map, List.mem_map]
        constructor
        · rintro ⟨q, hq, rfl⟩
          obtain ⟨k, hk, hs, hin1, hin2, -⟩ := hband q hq
          refine ⟨k, List.mem_filter.2 ⟨List.mem_range.2 hk, ?_⟩, by simp only [Function.comp_apply, hs]⟩
          apply decide_eq_true
          intro h0
          have : q ∈ inBand (lo - 1 / 1000) ((hi - lo + 2 / 1000) / n) k ps := List.mem_filter.2 ⟨hq, decide_eq_true ⟨hin1, hin2⟩⟩
          rw [h0] at this; cases this
        · rintro ⟨j, hj, rfl⟩
          obtain ⟨hj1, hj2⟩ := List.mem_filter.1 hj
          obtain ⟨q, hq⟩ := List.exists_mem_of_ne_nil _ (of_decide_eq_true hj2)
          obtain ⟨hq, hin⟩ := List.mem_filter.1 hq
          obtain ⟨k, hk, hs, -, -, hu⟩ := hband q hq
          have hin := of_decide_eq_true hin
          have := hu j hin.1 hin.2
          subst this
          exact ⟨q, hq, by simp only [Function.comp_apply, hs]⟩
    have htake : takeIdx edges ((cellKeys env idx).map Int.toNat) = some ((cellKeys env idx).map (fun k : Int => lo - 1 / 1000 + (k : ℚ) * ((hi - lo + 2 / 1000) / n))) := by
      unfold takeIdx
      rw [mapM_eq_some, List.map_map, List.map_map]
      apply List.map_congr_left
      intro k hk
      rw [hbands] at hk
      obtain ⟨j, hj, rfl⟩ := List.mem_map.1 hk
      have hj := List.mem_range.1 (List.mem_filter.1 hj).1
      rw [← hed, linspace_get _ _ hn, hw]
      simp only [Function.comp_apply, Int.toNat_natCast, List.getElem?_map, List.getElem?_range (show j + 1 < n + 1 by omega), Option.map_some, Int.cast_natCast]
    rw [htake]
    simp only [Except.ok.injEq]
    have hms : ms = (cellKeys env idx).map (fun k => meanOf (cellVals idx (ps.map Prod.fst) k)) := by
      apply List.ext_getElem (by simp [g2])
      intro i h1 h2
      have hi : i < (cellKeys env idx).length := by omega
      rw [List.getElem_map]
      exact g3 i _ _ (List.getElem?_eq_getElem hi) (List.getElem?_eq_getElem h1)
    rw [hms, List.zip_map', hbands, List.map_map, bandMeans, ← List.filterMap_eq_map, List.filterMap_filter]
    apply List.filterMap_congr
    intro k hk
    by_cases h0 : inBand (lo - 1 / 1000) ((hi - lo + 2 / 1000) / n) k ps = []
    · simp only [h0, ne_eq, not_true_eq_false, decide_false, Bool.false_eq_true, if_true, if_false]
    · simp only [h0, ne_eq, not_false_eq_true, decide_true, if_true, if_false, Function.comp_apply, Option.some.injEq, Prod.mk.injEq]
      refine ⟨by push_cast; ring, ?_⟩
      have hv : cellVals idx (ps.map Prod.fst) ((k + 1 : Nat) : Int) = (inBand (lo - 1 / 1000) ((hi - lo + 2 / 1000) / n) k ps).map Prod.fst := by
        rw [← hidx, valsAt_map (fun d => (searchsortedRight edges d : Int)), inBand]
        congr 1
        apply List.filter_congr
        intro q hq
        obtain ⟨j, hj, hs, hin1, hin2, hu⟩ := hband q hq
        rw [decide_eq_decide]
        simp only [hs]
        constructor
        · intro h
          have : j = k := by omega
          subst this; exact ⟨hin1, hin2⟩
        · intro h
          rw [hu k h.1 h.2]
      rw [hv, meanOf, List.length_map]
  · intro q hq
    obtain ⟨k, hk, -, hin1, hin2, hu⟩ := hband q hq
    refine ⟨k, ⟨hk, List.mem_filter.2 ⟨hq, decide_eq_true ⟨hin1, hin2⟩⟩⟩, ?_⟩
    rintro j ⟨-, hj⟩
    have := of_decide_eq_true (List.mem_filter.1 hj).2
    exact hu j this.1 this.2

/-- **C93** (nothing to draw): without a cell that has a depth the plot is refused with a ValueError, whatever the number of bins -/
theorem C93_no_cells (env : Env) (cells : List (ℚ × Option ℚ)) (hne : ∀ q ∈ cells, q.2 = none) (bins : Int) : densityCurve env cells bins = .error .valueError := by
  have : cells.filterMap (fun q => q.2.map (fun d => (q.1, d))) = [] := by
    rw [List.filterMap_eq_nil_iff]
    intro q hq
    rw [hne q hq]; rfl
  unfold densityCurve
  simp only
  rw [this]
  rfl

/-- **C93** (no bins): with cells to draw, a number of bins of zero or −1 is an IndexError (there is no upper end to take), a smaller one a ValueError -/
theorem C93_no_bins (env : Env) (cells : List (ℚ × Option ℚ)) (hne : withDepth cells ≠ []) {bins : Int} (hb : bins ≤ 0) :
    densityCurve env cells bins = .error (if bins < -1 then .valueError else .indexError) := by
  obtain ⟨lo, hi, r1, r2, m1, m2, hall⟩ := reduce1_lattice ((withDepth cells).map Prod.snd) (by simpa using hne)
  unfold densityCurve
  simp only
  rw [show cells.filterMap (fun q => q.2.map (fun d => (q.1, d))) = withDepth cells from rfl, r1, r2]
  simp only
  by_cases hlt : bins < -1
  · rw [if_pos (by omega), if_pos hlt]
  · rw [if_neg (by omega), if_neg hlt]
    generalize hed : linspace (lo - 1 / 1000) (hi + 1 / 1000) (bins + 1).toNat = edges
    have hall2 : ∀ d ∈ (withDepth cells).map Prod.snd, searchsortedRight edges d = edges.length := by
      intro d hd
      have h1 := (hall d hd).1
      rcases (by omega : bins = 0 ∨ bins = -1) with rfl | rfl
      · rw [← hed]
        simp only [show ((0 : Int) + 1).toNat = 1 by rfl, linspace, searchsortedRight]
        simp
        linarith
      · rw [← hed]; rfl
    generalize hidx : List.map (fun d => (searchsortedRight edges d : Int)) (List.map Prod.snd (withDepth cells)) = idx
    have hlen : idx.length = ((withDepth cells).map Prod.fst).length := by rw [← hidx]; simp
    rw [takeIdx_eq_filterMap idx _ (idx_lt_of_perm (env.argsort.perm idx))]
    simp only
    obtain ⟨ms, g1, g2, g3⟩ := groupMeans_spec env idx ((withDepth cells).map Prod.fst) hlen
    rw [← counts_spec env idx] at g1
    rw [g1]
    simp only
    have hkeys : (runsFrom 0 ((env.argsort.run idx).filterMap (fun i => idx[i]?))).map (fun t => t.1.toNat) = (cellKeys env idx).map Int.toNat := by
      unfold cellKeys; rw [List.map_map]; rfl
    rw [hkeys]
    have hk : cellKeys env idx = [(edges.length : Int)] := by
      refine eq_of_pairwise_lt (cellKeys_sorted env idx) (List.pairwise_singleton _ _) ?_
      intro k
      rw [cellKeys_mem, ← hidx, List.mem_map, List.mem_singleton]
      constructor
      · rintro ⟨d, hd, rfl⟩; rw [hall2 d hd]
      · rintro rfl; exact ⟨lo, m1, by rw [hall2 lo m1]⟩
    rw [hk]
    simp [takeIdx]

variable {env : Env} {size sub : ℚ} {bs : Bool} {fl : Fields} {F : Family} {s : Bool} {A : Store}

theorem withDepth_of_some {cells : List (ℚ × Option ℚ)} (h : ∀ q ∈ cells, q.2 ≠ none) : (withDepth cells).map (fun q => (q.1, some q.2)) = cells := by
  unfold withDepth
  induction cells with
  | nil => rfl
  | cons q l ih =>
    obtain ⟨d, o⟩ := q
    cases o with
    | none => exact absurd rfl (h _ List.mem_cons_self)
    | some v =>
      simp only [List.filterMap_cons, Option.map_some, List.map_cons]
      rw [ih (fun q hq => h q (List.mem_cons_of_mem _ hq))]

theorem depths_some {alg : Alg} {area r : ℚ} {pts : List Pt} {L : List (ℚ × Option ℚ)} (h : DensityDepths alg area r pts L) : ∀ q ∈ L, q.2 ≠ none := by
  obtain ⟨cs, hp, hf⟩ := h
  have hcs : ∀ k ∈ cs, inLattice r pts k ≠ [] := fun k hk => mem_latticeCells.1 (hp.mem_iff.1 hk)
  clear hp
  induction hf with
  | nil => intro q hq; cases hq
  | cons hq _ ih =>
    intro q' hq'
    rcases List.mem_cons.1 hq' with rfl | hq'
    · exact fun h0 => hcs _ List.mem_cons_self ((plainCell_none hq.2).1 h0)
    · exact ih (fun k hk => hcs k (List.mem_cons_of_mem _ hk)) q' hq'

/-- the points drawn for the soundings `pts` on the lattice of step `r`, with `bins` bands: the cells, one for each square that holds soundings, are gathered by bands of depth -/
def CurveOf (alg : Alg) (area r : ℚ) (pts : List Pt) (bins : Nat) (out : List (ℚ × ℚ)) : Prop :=
  ∃ ps : List (ℚ × ℚ), DensityDepths alg area r pts (ps.map (fun q => (q.1, some q.2))) ∧
    ∃ lo hi, (∃ q ∈ ps, q.2 = lo) ∧ (∃ q ∈ ps, q.2 = hi) ∧ (∀ q ∈ ps, lo ≤ q.2 ∧ q.2 ≤ hi) ∧
      out = bandMeans (lo - 1 / 1000) ((hi - lo + 2 / 1000) / bins) bins ps

theorem curve_of (env : Env) {alg : Alg} {area r : ℚ} {pts : List Pt} {L : List (ℚ × Option ℚ)} (h : DensityDepths alg area r pts L) (hne : pts ≠ []) {bins : Nat} (hb : 1 ≤ bins) :
    ∃ out, densityCurve env L bins = .ok out ∧ CurveOf alg area r pts bins out := by
  have hm := withDepth_of_some (depths_some h)
  have hw : withDepth L ≠ [] := by
    intro h0
    rw [h0] at hm
    obtain ⟨cs, hp, hf⟩ := h
    rw [← hm] at hf
    have hcs : cs = [] := List.length_eq_zero_iff.1 (by simpa using hf.length_eq.symm)
    obtain ⟨p, hpts⟩ := List.exists_mem_of_ne_nil _ hne
    have : latticeCell r p ∈ cs := hp.mem_iff.2 (List.mem_dedup.2 (List.mem_map_of_mem hpts))
    rw [hcs] at this; cases this
  obtain ⟨lo, hi, h1, h2, h3, h4, -⟩ := C93_curve env L hw hb
  exact ⟨_, h4, withDepth L, by rw [hm]; exact h, lo, hi, h1, h2, h3, rfl⟩

/-- **C93** (single resolution), the part that holds: for grids of depths with soundings, gridded with 'mean' or 'shoalest' and `clear_existing` at one resolution that divides
the tile size, both plots draw the mean density of the occupied squares by bands of depth.
Missing: backscatter grids (`C93_fails_backscatter`); CUBE, whose depths are not specified. -/
theorem C93_grid_sr_partial (hs : 0 < size) {g : Grid Tile} (h : SRHistory env size false fl F s g A) {a : GridCall} {dask : Option Nat}
    (ha : a.alg.family = some .plain) (hc : a.clear = true) (hok : (g.gridWith env a dask).err = none) {r : ℚ} {n : Nat}
    (hr : (g.gridWith env a dask).st.resolutions = [r]) (hn : size = n * r) (hne : A.allPts ≠ []) {bins : Nat} (hb : 1 ≤ bins) :
    (∃ out, plotDensityVsDepth env (g.gridWith env a dask).st bins = .ok out ∧ CurveOf a.alg 1 r A.allPts bins out) ∧
    (∃ out, plotDensityPerSquareMeterVsDepth env (g.gridWith env a dask).st bins = .ok out ∧ CurveOf a.alg (r ^ 2) r A.allPts bins out) := by
  obtain ⟨⟨L, h1, h2⟩, L', h1', h2'⟩ := C73_density_depth_sr_partial hs h ha hc hok hr hn
  unfold plotDensityVsDepth plotDensityPerSquareMeterVsDepth
  rw [h1, h1']
  exact ⟨curve_of env h2 hne hb, curve_of env h2' hne hb⟩

/-- **C93** (variable resolution): as `C93_grid_sr_partial`, for subgrids whose size the resolution divides -/
theorem C93_grid_vr_partial (hs : 0 < size) (hsub : isPowerOfTwo sub = true) {g : Grid (Grid Tile)} (h : VRHistory env size sub bs fl F s g A) {a : GridCall}
    {dask : Option Nat} (ha : a.alg.family = some .plain) (hc : a.clear = true) (hok : (g.gridWith env a dask).err = none) {r : ℚ} {n m : Nat}
    (hr : (g.gridWith env a dask).st.resolutions = [r]) (hn : sub = n * r) (hm : size = m * sub) (hne : A.allPts ≠ []) {bins : Nat} (hb : 1 ≤ bins) :
    (∃ out, plotDensityVsDepth env (g.gridWith env a dask).st bins = .ok out ∧ CurveOf a.alg 1 r A.allPts bins out) ∧
    (∃ out, plotDensityPerSquareMeterVsDepth env (g.gridWith env a dask).st bins = .ok out ∧ CurveOf a.alg (r ^ 2) r A.allPts bins out) := by
  obtain ⟨⟨L, h1, h2⟩, L', h1', h2'⟩ := C73_density_depth_vr_partial hs hsub h ha hc hok hr hn hm
  unfold plotDensityVsDepth plotDensityPerSquareMeterVsDepth
  rw [h1, h1']
  exact ⟨curve_of env h2 hne hb, curve_of env h2' hne hb⟩

/-- **C93** fails for gridded backscatter grids of single resolution: both plots raise ValueError -/
theorem C93_fails_backscatter (hs : 0 < size) {g : Grid Tile} (h : SRHistory env size true fl F s g A) (hg : ∃ i j t, g.TileAt i j t ∧ t.cells ≠ []) (bins : Int) :
    plotDensityVsDepth env g bins = .error .valueError ∧ plotDensityPerSquareMeterVsDepth env g bins = .error .valueError := by
  obtain ⟨h1, h2⟩ := C73_fails_backscatter hs h hg
  unfold plotDensityVsDepth plotDensityPerSquareMeterVsDepth
  rw [h1, h2]
  exact ⟨rfl, rfl⟩

/-- the hypotheses are met: two bands out of two, and two bands out of four, hold cells -/
example : plotDensityVsDepth demoEnv (demoSR.gridWith demoEnv statCall none).st 2 = .ok [(49 / 2, 4 / 3), (40001 / 1000, 1)] ∧
    plotDensityPerSquareMeterVsDepth demoEnv (demoVR.gridWith demoEnv statCall none).st 4 = .ok [(33499 / 2000, 1 / 48), (40001 / 1000, 1 / 64)] ∧
    (demoSR.gridWith demoEnv statCall none).err = none ∧ (demoSR.gridWith demoEnv statCall none).st.resolutions = [8] ∧ (16 : ℚ) = (2 : Nat) * 8 ∧ demoStore.allPts ≠ [] := by
  decide +kernel

/-- the refusals: cells without depth, no bins -/
example : densityCurve demoEnv [(2, none)] 5 = .error .valueError ∧ densityCurve demoEnv [(2, some 3), (1, none)] 0 = .error .indexError ∧
    densityCurve demoEnv [(2, some 3)] (-1) = .error .indexError ∧ densityCurve demoEnv [(2, some 3)] (-2) = .error .valueError := by
  decide +kernel

end Bathy
