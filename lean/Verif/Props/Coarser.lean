import Verif.Lemmas.Blocks
import Verif.Props.LayerShown
import Verif.Props.ShoalSafe

/-!
# C123: surfaces at different resolutions agree

Two surfaces of the same soundings over the same rectangle, one with `k` times larger squares, from whatever grids they come: the counts of the larger squares are the sums of the
counts of the smaller ones, the shoalest depths are the shoalest of theirs, the means are their means weighted with the counts, up to the rounding of the stored numbers.
-/

namespace Bathy
open Grid

variable {env env' env'' : Env} {alg alg' : Alg} {l : Layer} {P P2 P3 : List Pt} {r : ℚ} {up up' : Bool} {nodata : Option ℚ} {e : Extents} {a1 a2 c2 : LayerArr} {k i j : Nat}

theorem cells_perm {x0 y0 res : ℚ} {pts pts' : List Pt} (h : pts.Perm pts') (i j : Nat) : (inCell x0 y0 res i j pts).Perm (inCell x0 y0 res i j pts') := h.filter _

/-- the block of a square lies in the array with the smaller squares -/
theorem block_inside {R R' : List Pt → Option ℚ → Prop} {f g : Option ℚ → Option ℚ} (hr : 0 < r) (s1 : SurfaceOf R f P (k * r) e a1) (s2 : SurfaceOf R' g P2 r e a2)
    (hi : i < a1.rows) (hj : j < a1.cols) {x y : Nat} (hx : x < k) (hy : y < k) : i * k + x < a2.rows ∧ j * k + y < a2.cols := by
  have hrows : a1.rows * k = a2.rows := by
    have := s1.rows.trans s2.rows.symm
    rw [← mul_assoc] at this
    exact_mod_cast mul_right_cancel₀ (ne_of_gt hr) this
  have hcols : a1.cols * k = a2.cols := by
    have := s1.cols.trans s2.cols.symm
    rw [← mul_assoc] at this
    exact_mod_cast mul_right_cancel₀ (ne_of_gt hr) this
  have step : ∀ {a n b : Nat}, a < n → b < k → a * k + b < n * k := by
    intro a n b h1 h2
    calc a * k + b < a * k + k := by omega
      _ = (a + 1) * k := by ring
      _ ≤ n * k := Nat.mul_le_mul_right _ h1
  exact ⟨hrows ▸ step hi hx, hcols ▸ step hj hy⟩

/-- **C123**: the count of a square is the sum of the counts of the squares it consists of -/
theorem C123_counts (h1 : LayerShown env alg .density P (k * r) up none e a1) (h2 : LayerShown env' alg' .density P2 r up' none e a2) (ha : alg = .mean ∨ alg = .shoalest)
    (ha' : alg' = .mean ∨ alg' = .shoalest) (hp : P.Perm P2) (hi : i < a1.rows) (hj : j < a1.cols) :
    ∃ n : Nat → Nat → ℚ, ShowsBlock a2 k i j n some ∧ a1.get? i j = some (some (blockSum k n)) := by
  obtain ⟨-, s1, -⟩ := layerShown_surface h1 ha
  obtain ⟨hr, s2, -⟩ := layerShown_surface h2 ha'
  refine ⟨fun x y => ((inCell e.minX e.minY r (i * k + x) (j * k + y) P).length : ℚ), fun x y hx hy => ?_, ?_⟩
  · obtain ⟨hi', hj'⟩ := block_inside hr s1 s2 hi hj hx hy
    obtain ⟨v, hv, hg⟩ := s2.cell _ _ hi' hj'
    have hv : v = some _ := hv
    rw [hg, hv, ← (cells_perm hp _ _).length_eq]
    simp [shownCell, shownValue]
  · obtain ⟨v, hv, hg⟩ := s1.cell i j hi hj
    have hv : v = some _ := hv
    rw [hg, hv, block_length hr]
    simp [shownCell, shownValue]

/-- **C123**: the shoalest depth of a square is the shoalest of the shoalest depths of the squares it consists of; without soundings in all of them it is NaN -/
theorem C123_shoalest (h1 : LayerShown env .shoalest .depth P (k * r) up none e a1) (h2 : LayerShown env' .shoalest .depth P2 r up none e a2) (hp : P.Perm P2)
    (hi : i < a1.rows) (hj : j < a1.cols) :
    ∃ f v, ShowsBlock a2 k i j f id ∧ a1.get? i j = some v ∧ ShoalestOf up k f v := by
  obtain ⟨-, s1, -⟩ := layerShown_surface h1 (.inr rfl)
  obtain ⟨hr, s2, -⟩ := layerShown_surface h2 (.inr rfl)
  have hfine : ∀ x y, x < k → y < k → ∃ v, ShoalCell round3 (inCell e.minX e.minY r (i * k + x) (j * k + y) P2) v ∧ a2.get? (i * k + x) (j * k + y) = some (shownCell .depth none up v) := by
    intro x y hx hy
    obtain ⟨hi', hj'⟩ := block_inside hr s1 s2 hi hj hx hy
    exact s2.cell _ _ hi' hj'
  have hfun : ∃ g : Nat → Nat → Option ℚ, ∀ x y, x < k → y < k →
      ShoalCell round3 (inCell e.minX e.minY r (i * k + x) (j * k + y) P2) (g x y) ∧ a2.get? (i * k + x) (j * k + y) = some (shownCell .depth none up (g x y)) := by
    classical
    refine ⟨fun x y => if h : x < k ∧ y < k then (hfine x y h.1 h.2).choose else none, fun x y hx hy => ?_⟩
    simp only [dif_pos (And.intro hx hy)]
    exact (hfine x y hx hy).choose_spec
  obtain ⟨g, hg⟩ := hfun
  obtain ⟨v, hv, hgv⟩ := s1.cell i j hi hj
  have hv : ShoalCell round3 (inCell e.minX e.minY (k * r) i j P) v := hv
  refine ⟨fun x y => shownCell .depth none up (g x y), _, fun x y hx hy => (hg x y hx hy).2, hgv, ?_, ?_⟩
  · intro hno
    have hnil : inCell e.minX e.minY (k * r) i j P = [] := by
      rw [List.eq_nil_iff_forall_not_mem]
      intro p hpm
      obtain ⟨x, y, hx, hy, hin⟩ := (block_mem hr e k i j P p).1 hpm
      have hin := (cells_perm hp _ _).mem_iff.1 hin
      obtain ⟨m, -, hm⟩ := (hg x y hx hy).1.2 (List.ne_nil_of_mem hin)
      have := hno x y hx hy
      simp only [hm] at this
      cases this
    rw [hv.1 hnil]; rfl
  · intro x y w hx hy hw
    have hne : inCell e.minX e.minY r (i * k + x) (j * k + y) P2 ≠ [] := by
      intro h0
      simp only [(hg x y hx hy).1.1 h0] at hw
      cases hw
    obtain ⟨p0, hp0⟩ := List.exists_mem_of_ne_nil _ hne
    have hp0' := (block_mem hr e k i j P p0).2 ⟨x, y, hx, hy, (cells_perm hp _ _).mem_iff.2 hp0⟩
    obtain ⟨m, hm, rfl⟩ := hv.2 (List.ne_nil_of_mem hp0')
    obtain ⟨m2, hm2, h2⟩ := (hg x y hx hy).1.2 hne
    simp only [h2] at hw
    have hw : shownValue .depth up (round3 m2) = w := by simpa [shownCell] using hw
    have hle : m ≤ m2 := by
      obtain ⟨q, hq, rfl⟩ := List.mem_map.1 hm2.1
      exact hm.2 _ (List.mem_map_of_mem ((block_mem hr e k i j P q).2 ⟨x, y, hx, hy, (cells_perm hp _ _).mem_iff.2 hq⟩))
    refine ⟨shownValue .depth up (round3 m), rfl, ?_, ?_⟩
    · rw [← hw]
      have := round3_mono hle
      unfold NotDeeper shownValue
      cases up <;> simpa using this
    · obtain ⟨q, hq, hqm⟩ := List.mem_map.1 hm.1
      obtain ⟨x', y', hx', hy', hin⟩ := (block_mem hr e k i j P q).1 hq
      have hin := (cells_perm hp _ _).mem_iff.1 hin
      obtain ⟨m3, hm3, h3⟩ := (hg x' y' hx' hy').1.2 (List.ne_nil_of_mem hin)
      have e1 : m3 ≤ m := hqm ▸ hm3.2 _ (List.mem_map_of_mem hin)
      have e2 : m ≤ m3 := by
        obtain ⟨q', hq', rfl⟩ := List.mem_map.1 hm3.1
        exact hm.2 _ (List.mem_map_of_mem ((block_mem hr e k i j P q').2 ⟨x', y', hx', hy', (cells_perm hp _ _).mem_iff.2 hq'⟩))
      have e3 : m3 = m := le_antisymm e1 e2
      subst e3
      exact ⟨x', y', hx', hy', by simp only [h3]; rfl⟩

/-- the attribute of the soundings whose mean a layer of the algorithm 'mean' holds -/
def attrOf : Layer → Pt → ℚ
  | .vertical => Pt.tvu
  | .horizontal => Pt.thu
  | _ => Pt.z

theorem meanRule (hl : l ≠ .density) : CellRule .mean l = MeanCell round3 (attrOf l) := by
  cases l <;> first | rfl | exact absurd rfl hl

theorem round3_off (v : ℚ) : |round3 v - v| ≤ 1 / 2000 := by
  rw [Arith.round3_rint]
  have h := abs_le.1 (Arith.rint_err (v * 1000))
  rw [abs_le]
  constructor <;> linarith [h.1, h.2]

theorem mean_mul {q : List ℚ} (h : q ≠ []) : meanOf q * (q.length : ℚ) = q.sum := by
  unfold meanOf
  exact div_mul_cancel₀ _ (by exact_mod_cast (List.length_pos_iff.2 h).ne')

/-- **C123**: the mean of a square (depth, intensity or an uncertainty) is the mean of the means of the squares it consists of, weighted with their counts, within a millimetre: half
of one for the rounding of the larger square, half of one for the rounding of the smaller ones.  It is NaN if all counts are 0. -/
theorem C123_means (h1 : LayerShown env .mean l P (k * r) up none e a1) (h2 : LayerShown env' .mean l P2 r up none e a2) (h3 : LayerShown env'' alg .density P3 r up' none e c2)
    (ha : alg = .mean ∨ alg = .shoalest) (hl : l ≠ .density) (hp : P.Perm P2) (hp3 : P.Perm P3) (hi : i < a1.rows) (hj : j < a1.cols) :
    ∃ (n : Nat → Nat → ℚ) (d : Nat → Nat → Option ℚ), ShowsBlock c2 k i j n some ∧ ShowsBlock a2 k i j d id ∧ (∀ x y, x < k → y < k → (n x y = 0 ↔ d x y = none)) ∧
      (blockSum k n = 0 → a1.get? i j = some none) ∧
      (blockSum k n ≠ 0 → ∃ z, a1.get? i j = some (some z) ∧ |z * blockSum k n - blockSum k (fun x y => n x y * (d x y).getD 0)| ≤ blockSum k n / 1000) := by
  obtain ⟨-, s1, -⟩ := layerShown_surface h1 (.inl rfl)
  obtain ⟨hr, s2, -⟩ := layerShown_surface h2 (.inl rfl)
  obtain ⟨-, s3, -⟩ := layerShown_surface h3 ha
  rw [meanRule hl] at s1 s2
  set Q : Nat → Nat → List Pt := fun x y => inCell e.minX e.minY r (i * k + x) (j * k + y) P with hQ
  set sgn : ℚ := if l = .depth ∧ up = true then -1 else 1 with hsgn
  have hshow : ∀ v, shownValue l up v = sgn * v := by
    intro v; unfold shownValue; rw [hsgn]; split <;> ring
  have habs : |sgn| = 1 := by rw [hsgn]; split <;> norm_num
  set d : Nat → Nat → Option ℚ := fun x y => if Q x y = [] then none else some (sgn * round3 (meanOf ((Q x y).map (attrOf l)))) with hd
  refine ⟨fun x y => ((Q x y).length : ℚ), d, ?_, ?_, ?_, ?_, ?_⟩
  · intro x y hx hy
    obtain ⟨hi', hj'⟩ := block_inside hr s1 s3 hi hj hx hy
    obtain ⟨v, hv, hg⟩ := s3.cell _ _ hi' hj'
    have hv : v = some _ := hv
    rw [hg, hv, hQ]
    simp only
    rw [(cells_perm hp3 _ _).length_eq]
    simp [shownCell, shownValue]
  · intro x y hx hy
    obtain ⟨hi', hj'⟩ := block_inside hr s1 s2 hi hj hx hy
    obtain ⟨v, hv, hg⟩ := s2.cell _ _ hi' hj'
    have hv := meanCell_perm (cells_perm hp.symm _ _) hv
    rw [hg]
    show some _ = some (d x y)
    congr 1
    by_cases h0 : Q x y = []
    · rw [hv.1 h0, hd]; simp only [if_pos h0]; rfl
    · rw [hv.2 h0, hd]; simp only [if_neg h0]; rw [← hshow]; rfl
  · intro x y _ _
    rw [hd]
    constructor
    · intro h0
      have h0 : ((Q x y).length : ℚ) = 0 := h0
      have h0 : (Q x y).length = 0 := by exact_mod_cast h0
      simp only [if_pos (List.length_eq_zero_iff.1 h0)]
    · intro h0
      by_contra hne
      have : Q x y ≠ [] := fun h => hne (by show ((Q x y).length : ℚ) = 0; rw [h]; rfl)
      simp only [if_neg this] at h0
      cases h0
  · intro h0
    obtain ⟨v, hv, hg⟩ := s1.cell i j hi hj
    have hlen : ((inCell e.minX e.minY (k * r) i j P).length : ℚ) = 0 := by rw [block_length hr]; exact h0
    have hnil : inCell e.minX e.minY (k * r) i j P = [] := List.length_eq_zero_iff.1 (by exact_mod_cast hlen)
    rw [hg, hv.1 hnil]; rfl
  · intro h0
    obtain ⟨v, hv, hg⟩ := s1.cell i j hi hj
    have hlen : ((inCell e.minX e.minY (k * r) i j P).length : ℚ) = blockSum k (fun x y => ((Q x y).length : ℚ)) := block_length hr e k i j P
    have hsum : ((inCell e.minX e.minY (k * r) i j P).map (attrOf l)).sum = blockSum k (fun x y => ((Q x y).map (attrOf l)).sum) := block_sum hr e k i j (attrOf l) P
    have hne : inCell e.minX e.minY (k * r) i j P ≠ [] := by
      intro h; rw [h] at hlen; exact h0 (by rw [← hlen]; simp)
    rw [hv.2 hne] at hg
    refine ⟨_, hg, ?_⟩
    have hneM : (inCell e.minX e.minY (k * r) i j P).map (attrOf l) ≠ [] := by simpa using hne
    have hN := mean_mul hneM
    rw [List.length_map, hlen, hsum] at hN
    have hNpos : 0 ≤ blockSum k (fun x y => ((Q x y).length : ℚ)) := by rw [← hlen]; exact Nat.cast_nonneg _
    set M := meanOf ((inCell e.minX e.minY (k * r) i j P).map (attrOf l))
    set N := blockSum k (fun x y => ((Q x y).length : ℚ)) with hNdef
    have hfine : ∀ x y, |((Q x y).length : ℚ) * (d x y).getD 0 - sgn * ((Q x y).map (attrOf l)).sum| ≤ 1 / 2000 * ((Q x y).length : ℚ) := by
      intro x y
      by_cases hq : Q x y = []
      · rw [hd]; simp [hq]
      · have hm := mean_mul (q := (Q x y).map (attrOf l)) (by simpa using hq)
        rw [List.length_map] at hm
        have hdv : (d x y).getD 0 = sgn * round3 (meanOf ((Q x y).map (attrOf l))) := by rw [hd]; simp only [if_neg hq]; rfl
        rw [hdv, ← hm]
        rw [show ((Q x y).length : ℚ) * (sgn * round3 (meanOf ((Q x y).map (attrOf l)))) - sgn * (meanOf ((Q x y).map (attrOf l)) * ((Q x y).length : ℚ)) =
          sgn * ((round3 (meanOf ((Q x y).map (attrOf l))) - meanOf ((Q x y).map (attrOf l))) * ((Q x y).length : ℚ)) by ring, abs_mul, habs, one_mul, abs_mul,
          abs_of_nonneg (Nat.cast_nonneg _ : (0 : ℚ) ≤ ((Q x y).length : ℚ))]
        exact mul_le_mul_of_nonneg_right (round3_off _) (Nat.cast_nonneg _)
    have hlo : sgn * (M * N) - 1 / 2000 * N ≤ blockSum k (fun x y => ((Q x y).length : ℚ) * (d x y).getD 0) := by
      rw [hN, hNdef, ← blockSum_mul, ← blockSum_mul, sub_le_iff_le_add, ← blockSum_add]
      exact blockSum_le fun x y _ _ => by linarith [(abs_le.1 (hfine x y)).1]
    have hhi : blockSum k (fun x y => ((Q x y).length : ℚ) * (d x y).getD 0) ≤ sgn * (M * N) + 1 / 2000 * N := by
      rw [hN, hNdef, ← blockSum_mul, ← blockSum_mul, ← blockSum_add]
      exact blockSum_le fun x y _ _ => by linarith [(abs_le.1 (hfine x y)).2]
    have hcoarse : |sgn * (round3 M * N) - sgn * (M * N)| ≤ 1 / 2000 * N := by
      rw [show sgn * (round3 M * N) - sgn * (M * N) = sgn * ((round3 M - M) * N) by ring, abs_mul, habs, one_mul, abs_mul, abs_of_nonneg hNpos]
      exact mul_le_mul_of_nonneg_right (round3_off _) hNpos
    rw [hshow, abs_le]
    have := abs_le.1 hcoarse
    constructor <;> linarith [this.1, this.2]

/-! ## the hypotheses can be met -/

/-- what a query returns, if it returns one layer -/
private def answer : Except Err (Option (List LayerArr)) → LayerArr
  | .ok (some [a]) => a
  | _ => ⟨0, 0, []⟩

private theorem answered {x : Except Err (Option (List LayerArr))} (h : 0 < (answer x).rows) : x = .ok (some [answer x]) := by
  unfold answer at *
  split at h
  · rfl
  · exact absurd h (by decide)

private theorem heights {τ : Type} {g : Grid τ} (h : g.info.vref = none) : (true = true) ↔ ((true = true) ↔ ¬ StoredUp g) :=
  ⟨fun _ => ⟨fun _ ⟨_, hs, _⟩ => (nomatch h.symm.trans hs), fun _ => rfl⟩, fun _ => rfl⟩

private def callAt (alg : Alg) (r : ℚ) : GridCall := { alg := alg, res := some r, clear := true }
private def demoAt (alg : Alg) (r : ℚ) : Grid Tile := (demoSR.gridWith demoEnv (callAt alg r) none).st
private def shownAt (alg : Alg) (l : Layer) (r : ℚ) : LayerArr := answer ((demoAt alg r).getLayersByName demoEnv [l] (some r) none true).2
private def demoVRAt (alg : Alg) (r : ℚ) : Grid (Grid Tile) := (demoVR.gridWith demoEnv (callAt alg r) none).st
private def shownVRAt (alg : Alg) (l : Layer) (r : ℚ) : LayerArr := answer ((demoVRAt alg r).getLayersByName demoEnv [l] (some r) none true).2

/-- shoalest depths of the demo grid at 8 and 4, heights shown: the square (0, 4) shows 12 as its quarter (1, 9) does, its quarter (1, 8) shows 13 -/
example : ∃ e a1 a2, LayerShown demoEnv .shoalest .depth demoStore.allPts ((2 : Nat) * 4) true none e a1 ∧ LayerShown demoEnv .shoalest .depth demoStore.allPts 4 true none e a2 ∧
    0 < a1.rows ∧ 4 < a1.cols ∧ a1.get? 0 4 = some (some (-12)) ∧ a2.get? (0 * 2 + 1) (4 * 2 + 1) = some (some (-12)) ∧ a2.get? (0 * 2 + 1) (4 * 2) = some (some (-13)) := by
  refine ⟨⟨-32, 64, 0, 96⟩, shownAt .shoalest .depth 8, shownAt .shoalest .depth 4, ?_, ?_, ?_⟩
  · rw [show ((2 : Nat) : ℚ) * 4 = 8 by norm_num]
    exact .sr (n := 2) (size := 16) (zUp := true) (a := callAt .shoalest 8) (dask := none) (by norm_num) demoSR_history (.inl rfl) rfl (.inl rfl) (.inl rfl) (by decide +kernel) (by norm_num)
      (by decide +kernel) (heights (by decide +kernel)) (by decide +kernel) (answered (by decide +kernel))
  · exact .sr (n := 4) (size := 16) (zUp := true) (a := callAt .shoalest 4) (dask := none) (by norm_num) demoSR_history (.inl rfl) rfl (.inl rfl) (.inl rfl) (by decide +kernel) (by norm_num)
      (by decide +kernel) (heights (by decide +kernel)) (by decide +kernel) (answered (by decide +kernel))
  · decide +kernel

/-- the same for means, and counts of the same squares; the counts at 4 are those of a grid gridded with 'shoalest' -/
example : ∃ e a1 a2 c1 c2, LayerShown demoEnv .mean .depth demoStore.allPts ((2 : Nat) * 4) true none e a1 ∧ LayerShown demoEnv .mean .depth demoStore.allPts 4 true none e a2 ∧
    LayerShown demoEnv .mean .density demoStore.allPts ((2 : Nat) * 4) true none e c1 ∧ LayerShown demoEnv .shoalest .density demoStore.allPts 4 true none e c2 ∧
    0 < a1.rows ∧ 4 < a1.cols ∧ a1.get? 0 4 = some (some (-25 / 2)) ∧ c1.get? 0 4 = some (some 2) ∧ c2.get? (0 * 2 + 1) (4 * 2 + 1) = some (some 1) := by
  refine ⟨⟨-32, 64, 0, 96⟩, shownAt .mean .depth 8, shownAt .mean .depth 4, shownAt .mean .density 8, shownAt .shoalest .density 4, ?_, ?_, ?_, ?_, ?_⟩
  · rw [show ((2 : Nat) : ℚ) * 4 = 8 by norm_num]
    exact .sr (n := 2) (size := 16) (zUp := true) (a := callAt .mean 8) (dask := none) (by norm_num) demoSR_history (.inl rfl) rfl (.inl rfl) (.inl rfl) (by decide +kernel) (by norm_num)
      (by decide +kernel) (heights (by decide +kernel)) (by decide +kernel) (answered (by decide +kernel))
  · exact .sr (n := 4) (size := 16) (zUp := true) (a := callAt .mean 4) (dask := none) (by norm_num) demoSR_history (.inl rfl) rfl (.inl rfl) (.inl rfl) (by decide +kernel) (by norm_num)
      (by decide +kernel) (heights (by decide +kernel)) (by decide +kernel) (answered (by decide +kernel))
  · rw [show ((2 : Nat) : ℚ) * 4 = 8 by norm_num]
    exact .sr (n := 2) (size := 16) (zUp := true) (a := callAt .mean 8) (dask := none) (by norm_num) demoSR_history (.inr (.inl ⟨rfl, rfl⟩)) rfl (.inl rfl) (.inl rfl) (by decide +kernel) (by norm_num)
      (by decide +kernel) (heights (by decide +kernel)) (by decide +kernel) (answered (by decide +kernel))
  · exact .sr (n := 4) (size := 16) (zUp := true) (a := callAt .shoalest 4) (dask := none) (by norm_num) demoSR_history (.inr (.inl ⟨rfl, rfl⟩)) rfl (.inl rfl) (.inl rfl) (by decide +kernel) (by norm_num)
      (by decide +kernel) (heights (by decide +kernel)) (by decide +kernel) (answered (by decide +kernel))
  · decide +kernel

/-- a grid with variable resolution at 2 and at 1 -/
example : ∃ e a1 a2, LayerShown demoEnv .shoalest .depth demoStore.allPts ((2 : Nat) * 1) true none e a1 ∧ LayerShown demoEnv .shoalest .depth demoStore.allPts 1 true none e a2 ∧
    0 < a1.rows ∧ 0 < a1.cols := by
  refine ⟨((demoVRAt .shoalest 2).extents).getD ⟨0, 0, 0, 0⟩, shownVRAt .shoalest .depth 2, shownVRAt .shoalest .depth 1, ?_, ?_, ?_⟩
  · rw [show ((2 : Nat) : ℚ) * 1 = 2 by norm_num]
    exact .vr (n := 8) (q := 2) (size := 32) (sub := 16) (zUp := true) (a := callAt .shoalest 2) (dask := none) (by norm_num) (by decide +kernel) (by norm_num) demoVR_history (.inl rfl) rfl
      (.inr rfl) (.inl rfl) (by decide +kernel) (by norm_num) (by decide +kernel) (heights (by decide +kernel)) (by decide +kernel) (answered (by decide +kernel))
  · exact .vr (n := 16) (q := 2) (size := 32) (sub := 16) (zUp := true) (a := callAt .shoalest 1) (dask := none) (by norm_num) (by decide +kernel) (by norm_num) demoVR_history (.inl rfl) rfl
      (.inr rfl) (.inl rfl) (by decide +kernel) (by norm_num) (by decide +kernel) (heights (by decide +kernel)) (by decide +kernel) (answered (by decide +kernel))
  · decide +kernel

end Bathy
