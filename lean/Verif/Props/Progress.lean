import Verif.Model.Progress
import Verif.Lemmas.StatsLattice
import Verif.Lemmas.TileGridFrame
import Verif.Spec.DemoGrid

/-!
# C96: the progress bar shows the part that is done
-/

namespace Bathy

/-- the bar for `i` of `n` shows the part that is done: `len` characters, of which as many are filled as fit into `i / n`, the percentage to the nearest
tenth, and a line break at the end only -/
structure Bar.Shows (b : Bar) (i n len : Nat) : Prop where
  length : b.filled + b.empty = len
  part : (b.filled : ℚ) / len ≤ (i : ℚ) / n
  next : (i : ℚ) / n < ((b.filled : ℚ) + 1) / len
  percent : |(b.tenths : ℚ) / 10 - 100 * ((i : ℚ) / n)| ≤ 1 / 20
  range : 0 ≤ b.tenths ∧ b.tenths ≤ 1000
  newline : b.newline = true ↔ i = n

theorem tenthsOf_near (v : ℚ) : |(tenthsOf v : ℚ) - v * 10| ≤ 1 / 2 := by
  have h1 := Int.floor_le (v * 10)
  have h2 := Int.lt_floor_add_one (v * 10)
  unfold tenthsOf
  simp only
  split_ifs <;> rw [abs_le] <;> push_cast <;> constructor <;> linarith

theorem tenthsOf_int {v : ℚ} {k : Int} (h : v * 10 = k) : tenthsOf v = k := by
  unfold tenthsOf
  rw [h]
  simp

theorem tenthsOf_mono {v w : ℚ} (h : v ≤ w) : tenthsOf v ≤ tenthsOf w := by
  have hf : ⌊v * 10⌋ ≤ ⌊w * 10⌋ := Int.floor_le_floor (by linarith)
  rcases lt_or_eq_of_le hf with hl | he
  · have : tenthsOf v ≤ ⌊v * 10⌋ + 1 := by unfold tenthsOf; simp only; split_ifs <;> omega
    have : ⌊w * 10⌋ ≤ tenthsOf w := by unfold tenthsOf; simp only; split_ifs <;> omega
    omega
  · unfold tenthsOf
    simp only
    rw [he]
    split_ifs <;> first | omega | (exfalso; linarith)

/-- **C96**: every call inside a loop over `n` things prints the part that is done. -/
theorem C96_bar {i n len : Nat} (hn : 0 < n) (hi : i ≤ n) (hlen : 0 < len) : ∃ b, progressBar i n len = some b ∧ b.Shows i n len := by
  have hnq : (0 : ℚ) < n := by exact_mod_cast hn
  have hlq : (0 : ℚ) < len := by exact_mod_cast hlen
  refine ⟨_, if_neg (by omega), ?_, ?_, ?_, ?_, ?_, ?_⟩
  · have : len * i / n ≤ len := by
      apply Nat.div_le_of_le_mul
      rw [Nat.mul_comm n]
      exact Nat.mul_le_mul_left _ hi
    simp only
    omega
  · simp only
    rw [div_le_div_iff₀ hlq hnq]
    have := Nat.div_mul_le_self (len * i) n
    rw [Nat.mul_comm len i] at this ⊢
    exact_mod_cast this
  · simp only
    rw [div_lt_div_iff₀ hnq hlq]
    have := Nat.lt_div_mul_add hn (a := len * i)
    rw [Nat.mul_comm len i] at this ⊢
    have h2 : i * len < (i * len / n + 1) * n := by rw [Nat.add_mul, Nat.one_mul]; exact this
    exact_mod_cast h2
  · have := tenthsOf_near (100 * ((i : ℚ) / n))
    rw [abs_le] at this ⊢
    simp only
    constructor <;> linarith [this.1, this.2]
  · have h0 : tenthsOf (100 * 0) = 0 := tenthsOf_int (by norm_num)
    have h1 : tenthsOf (100 * 1) = 1000 := tenthsOf_int (by norm_num)
    simp only
    constructor
    · rw [← h0]
      exact tenthsOf_mono (by have : (0 : ℚ) ≤ (i : ℚ) / n := by positivity
                              linarith)
    · rw [← h1]
      have : (i : ℚ) / n ≤ 1 := by rw [div_le_one hnq]; exact_mod_cast hi
      exact tenthsOf_mono (by linarith)
  · simp

/-- **C96**: the bar is full exactly at the end. -/
theorem C96_full {i n len : Nat} (hn : 0 < n) (hi : i ≤ n) (hlen : 0 < len) {b : Bar} (hb : progressBar i n len = some b) : b.empty = 0 ↔ i = n := by
  obtain ⟨b', hb', h⟩ := C96_bar hn hi hlen
  obtain rfl : b = b' := by rw [hb] at hb'; exact Option.some.inj hb'
  have hnq : (0 : ℚ) < n := by exact_mod_cast hn
  have hlq : (0 : ℚ) < len := by exact_mod_cast hlen
  constructor
  · intro he
    have hl := h.length
    have hp := h.part
    rw [show b.filled = len by omega, div_self hlq.ne', le_div_iff₀ hnq] at hp
    have : n ≤ i := by exact_mod_cast (by linarith : (n : ℚ) ≤ i)
    omega
  · rintro rfl
    have hx := h.next
    rw [div_self hnq.ne', lt_div_iff₀ hlq] at hx
    have : len < b.filled + 1 := by exact_mod_cast (by linarith : (len : ℚ) < (b.filled : ℚ) + 1)
    have hl := h.length
    omega

/-- **C96**: the bar and the percentage never go back. -/
theorem C96_monotone {i j n len : Nat} (hij : i ≤ j) {b b' : Bar} (hb : progressBar i n len = some b) (hb' : progressBar j n len = some b') :
    b.filled ≤ b'.filled ∧ b.tenths ≤ b'.tenths := by
  unfold progressBar at hb hb'
  split at hb
  · cases hb
  · rename_i h0
    rw [if_neg h0] at hb'
    cases hb; cases hb'
    refine ⟨Nat.div_le_div_right (Nat.mul_le_mul_left _ hij), tenthsOf_mono ?_⟩
    have hnq : (0 : ℚ) < n := by exact_mod_cast Nat.pos_of_ne_zero h0
    have : (i : ℚ) ≤ j := by exact_mod_cast hij
    have := div_le_div_of_nonneg_right this hnq.le
    linarith

/-- **C96, what holds of "100.0% is shown at the end only"**: it does for loops of less than 2000 rounds.  Missing: longer loops. -/
theorem C96_hundred_partial {i n len : Nat} (hn : 0 < n) (hi : i ≤ n) (hlen : 0 < len) (hs : n < 2000) {b : Bar} (hb : progressBar i n len = some b) :
    b.tenths = 1000 ↔ i = n := by
  obtain ⟨b', hb', h⟩ := C96_bar hn hi hlen
  obtain rfl : b = b' := by rw [hb] at hb'; exact Option.some.inj hb'
  have hnq : (0 : ℚ) < n := by exact_mod_cast hn
  have hp := abs_le.1 h.percent
  constructor
  · intro he
    by_contra hne
    have hlt : (i : ℚ) + 1 ≤ n := by exact_mod_cast (by omega : i + 1 ≤ n)
    have hsq : (n : ℚ) < 2000 := by exact_mod_cast hs
    rw [he] at hp
    have h3 : (1999 : ℚ) / 2000 ≤ (i : ℚ) / n := by push_cast at hp; linarith [hp.2]
    rw [div_le_div_iff₀ (by norm_num) hnq] at h3
    linarith
  · rintro rfl
    rw [div_self hnq.ne'] at hp
    have h1 : (b.tenths : ℚ) ≥ 1000 - 1 / 2 := by linarith [hp.1]
    have h2 : ((999 : Int) : ℚ) < b.tenths := by push_cast; linarith
    have h3 : (999 : Int) < b.tenths := by exact_mod_cast h2
    have := h.range.2
    omega

/-- **C96 is violated for long loops**: one round before the end of every loop of 2000 rounds or more, 100.0% is shown. -/
theorem C96_violated {n len : Nat} (hn : 2000 ≤ n) : ∃ b, progressBar (n - 1) n len = some b ∧ b.tenths = 1000 ∧ b.newline = false := by
  have hnq : (2000 : ℚ) ≤ n := by exact_mod_cast hn
  have hc : ((n - 1 : Nat) : ℚ) = n - 1 := by rw [Nat.cast_sub (by omega)]; simp
  refine ⟨_, if_neg (by omega), ?_, by simp; omega⟩
  simp only
  rw [hc, sub_div, div_self (by linarith)]
  have hle : 1 / (n : ℚ) ≤ 1 / 2000 := one_div_le_one_div_of_le (by norm_num) hnq
  have hpos : 0 < 1 / (n : ℚ) := by positivity
  have hfl : ⌊100 * (1 - 1 / (n : ℚ)) * 10⌋ = 999 := by
    rw [Int.floor_eq_iff]
    push_cast
    constructor <;> linarith
  unfold tenthsOf
  simp only
  rw [hfl]
  split_ifs with h1 h2
  · exfalso; push_cast at h1; linarith
  · rfl
  · rename_i h3; simp at h3
  · rfl

/-- **C96**: a loop over at least one thing prints an empty bar first, a full bar last, and one line break, at the end. -/
theorem C96_loop {n : Nat} (hn : 0 < n) : ∃ bs : List Bar, loopBars n = bs.map some ∧ bs.length = n + 1 ∧
    (∀ (i : Nat) (b : Bar), bs[i]? = some b → b.Shows i n 70) ∧ bs.map Bar.newline = List.replicate n false ++ [true] := by
  have key : ∀ i : Nat, i ≤ n → ∃ b, progressBar i n 70 = some b ∧ b.Shows i n 70 := fun i hi => C96_bar hn hi (by norm_num)
  have hall : loopBars n = (List.range (n + 1)).map (fun i : Nat => progressBar i n 70) := by
    rw [List.range_succ_eq_map, List.map_cons, List.map_map]
    rfl
  let f : Nat → Bar := fun i => (progressBar i n 70).getD ⟨0, 0, 0, false⟩
  have hf : ∀ i : Nat, i ≤ n → progressBar i n 70 = some (f i) ∧ (f i).Shows i n 70 := by
    intro i hi
    obtain ⟨b, hb, h⟩ := key i hi
    have : f i = b := by simp [f, hb]
    rw [this]
    exact ⟨hb, h⟩
  refine ⟨(List.range (n + 1)).map f, ?_, by simp, ?_, ?_⟩
  · rw [hall, List.map_map]
    apply List.map_congr_left
    intro i hi
    exact (hf i (by have := List.mem_range.1 hi; omega)).1
  · intro i b hb
    rw [List.getElem?_map] at hb
    obtain ⟨j, hj, rfl⟩ := Option.map_eq_some_iff.1 hb
    rw [List.getElem?_eq_some_iff] at hj
    obtain ⟨hj1, hj2⟩ := hj
    simp only [List.getElem_range] at hj2
    subst hj2
    simp at hj1
    exact (hf i (by omega)).2
  · rw [List.map_map, List.range_succ, List.map_append]
    congr 1
    · rw [List.eq_replicate_iff]
      refine ⟨by simp, ?_⟩
      intro x hx
      obtain ⟨i, hi, rfl⟩ := List.mem_map.1 hx
      have hi := List.mem_range.1 hi
      have := (hf i (by omega)).2.newline
      simp only [Function.comp]
      by_contra hc
      rw [Bool.not_eq_false] at hc
      have := this.1 hc
      omega
    · simp only [List.map_cons, List.map_nil, Function.comp]
      rw [(hf n le_rfl).2.newline.2 rfl]

theorem npUnique_length {α : Type} [LinearOrder α] (l : List α) : (npUnique l).length ≤ l.length := by
  have hi : ∀ (x : α) (l : List α), (insertUniq x l).length ≤ l.length + 1 := by
    intro x l
    induction l with
    | nil => simp [insertUniq]
    | cons y ys ih =>
      unfold insertUniq
      split_ifs <;> simp only [List.length_cons] <;> omega
  induction l with
  | nil => simp [npUnique]
  | cons y ys ih =>
    rw [npUnique]
    have := hi y (npUnique ys)
    simp only [List.length_cons]
    omega

section

variable {τ : Type}

theorem slots_pos {g : Grid τ} (h : g.isEmpty = false) : 0 < g.slots := by
  unfold Grid.isEmpty at h
  unfold Grid.slots
  cases ht : g.tiles with
  | none => rw [ht] at h; cases h
  | some T =>
    rw [ht] at h
    simp only at h ⊢
    cases hf : T.flat with
    | nil => rw [hf] at h; cases h
    | cons a l => simp

/-- **C96** (every grid): removing soundings never divides by zero. -/
theorem C96_remove (g : Grid τ) (c : String) (n : Nat) (h : g.removeRounds c = some n) : 0 < n := by
  unfold Grid.removeRounds at h
  split at h
  · rename_i hc
    cases h
    simp only [Bool.and_eq_true, Bool.not_eq_true'] at hc
    exact slots_pos hc.2
  · cases h

/-- **C96** (every grid): gridding never divides by zero. -/
theorem C96_grid [GridLike τ] (env : Env) (g : Grid τ) (a : GridCall) (n : Nat) (h : g.gridRounds env a = some n) : 0 < n := by
  unfold Grid.gridRounds at h
  rcases Grid.gridPlan_spec env g a with ⟨gr, h1, h2, -⟩ | ⟨al, gr, gp, e, h1⟩
  · rw [h1] at h
    cases h
    exact slots_pos (g := g.withAttrs (some a.alg) gr a.params []) h2
  · rw [h1] at h
    cases h

/-- **C96** (every grid that can grow): adding soundings never divides by zero, and an `add_points` that returns reached the loop. -/
theorem C96_add [TileLike τ] (g : Grid τ) (hg : g.canGrow = true) (d : PtArr) (c : String) (a : AddArgs) :
    (∀ n, g.addRounds d c a = some n → 0 < n ∧ n ≤ d.pts.length) ∧ ((g.addPoints d c a).err = none → ∃ n, g.addRounds d c a = some n) := by
  have hempty : d.pts = [] → ∀ g' : Grid τ, g'.canGrow = true → (Grid.updateBase g' d.pts).err ≠ none := by
    intro hd g' hg'
    rw [hd]
    unfold Grid.updateBase
    rw [if_pos hg', if_pos hg']
    simp only [List.map_nil, Grid.listMin, Grid.listMax, reduce1]
    split
    · simp
    · cases g'.extents <;> simp
  refine ⟨?_, ?_⟩
  · intro n h
    unfold Grid.addRounds at h
    split at h
    · cases h
    · simp only at h
      split at h
      · cases h
      · split at h
        · cases h
        · rename_i herr
          split at h
          · cases h
          · rename_i bins hb
            cases h
            have hlen := bin2d_length (by simp) hb
            rw [List.length_map] at hlen
            have hne : d.pts ≠ [] := by
              intro hd
              have := hempty hd { g with info := (g.info.update c a).st } hg
              apply this
              cases hu : (Grid.updateBase { g with info := (g.info.update c a).st } d.pts).err with
              | none => rfl
              | some e => rw [Res.andThen, hu] at herr; cases herr
            refine ⟨?_, by rw [← hlen]; exact npUnique_length bins⟩
            cases hbn : bins with
            | nil => rw [hbn] at hlen; exact absurd (List.length_eq_zero_iff.1 hlen.symm) hne
            | cons b l => exact List.length_pos_of_mem ((mem_npUnique b (b :: l)).2 List.mem_cons_self)
  · have hloop : ∀ G : Grid τ, (∀ e, (Grid.addToTiles G d c).err ≠ some e) → ∃ bins, bin2d [d.pts.map Pt.x] [d.pts.map Pt.y] G.edgesX G.edgesY = .ok bins := by
      intro G hG
      unfold Grid.addToTiles at hG
      cases hb : bin2d [d.pts.map Pt.x] [d.pts.map Pt.y] G.edgesX G.edgesY with
      | error e => rw [hb] at hG; exact absurd rfl (hG e)
      | ok bins => exact ⟨bins, rfl⟩
    intro h
    unfold Grid.addPoints at h
    unfold Grid.addRounds
    split at h
    · cases h
    · rename_i hc
      rw [if_neg hc]
      simp only at h ⊢
      cases hu : (g.info.update c a).err with
      | some e => rw [hu] at h; cases h
      | none =>
        rw [hu] at h
        simp only at h ⊢
        cases h1 : (Grid.updateBase { g with info := (g.info.update c a).st } d.pts).err with
        | some e => rw [Res.andThen, h1] at h; cases h
        | none =>
          rw [Res.andThen, h1] at h
          simp only [Res.andThen, h1] at h ⊢
          cases h2 : (Grid.placeTiles (Grid.updateBase { g with info := (g.info.update c a).st } d.pts).st).err with
          | some e => rw [h2] at h; cases h
          | none =>
            simp only [h2] at h ⊢
            obtain ⟨bins, hb⟩ := hloop _ (by
              intro e he
              rw [he] at h
              cases h)
            rw [hb]
            exact ⟨_, rfl⟩

end

/-- **C96** (single resolution grids): in every reachable grid, adding soundings never divides by zero. -/
theorem C96_add_sr {env : Env} {size : ℚ} {bs : Bool} {fl : Fields} {F : Family} {s : Bool} {A : Store} (hs : 0 < size) {g : Grid Tile} (h : SRHistory env size bs fl F s g A)
    (d : PtArr) (c : String) (a : AddArgs) (n : Nat) (hn : g.addRounds d c a = some n) : 0 < n ∧ n ≤ d.pts.length :=
  (C96_add g (sr_inv hs h).1.canGrow d c a).1 n hn

/-- **C96** (variable resolution grids): in every reachable grid, adding soundings never divides by zero. -/
theorem C96_add_vr {env : Env} {size sub : ℚ} {bs : Bool} {fl : Fields} {F : Family} {s : Bool} {A : Store} (hs : 0 < size) (hsub : isPowerOfTwo sub = true) {g : Grid (Grid Tile)}
    (h : VRHistory env size sub bs fl F s g A) (d : PtArr) (c : String) (a : AddArgs) (n : Nat) (hn : g.addRounds d c a = some n) : 0 < n ∧ n ≤ d.pts.length :=
  (C96_add g (vr_inv hs hsub h).1.canGrow d c a).1 n hn

/-- the hypotheses are met: the bars of a loop of three rounds, and the rounds of the demonstration grids -/
example : progressBar 1 3 70 = some ⟨23, 47, 333, false⟩ ∧ progressBar 3 3 70 = some ⟨70, 0, 1000, true⟩ ∧ progressBar 2 4 70 = some ⟨35, 35, 500, false⟩ ∧ progressBar 0 0 70 = none := by
  decide +kernel

example : demoSR.addRounds ⟨demoFields, [⟨1, 1, 5, 1, 1⟩, ⟨100, 1, 7, 1, 1⟩]⟩ "new" {} = some 2 ∧ demoSR.removeRounds "b" = some 36 ∧
    demoSR.gridRounds demoEnv { alg := .mean, res := some 8, clear := true } = some 36 := by
  decide +kernel

end Bathy
