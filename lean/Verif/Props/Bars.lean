import Verif.Props.Histogram
import Verif.Props.Plots

/-!
# C117: the bars of the density histograms

Model: `npHistogram`, `plotDensityHistogram`, `plotDensityPerSquareMeterHistogram` (bathygrid/bgrid.py:1550-1580).  Specification: `Bars`, and the squares of the
lattice that hold soundings (`latticeCells`, `inLattice`).
-/

namespace Bathy
open Grid

variable {env : Env} {size sub : ℚ} {bs : Bool} {fl : Fields} {F F' : Family} {s : Bool} {A : Store} {a : GridCall} {dask : Option Nat}

/-- `n` bars of equal width over the values: bar `k` counts the values from its left edge on and below its right edge, the last bar those on its right edge too; every value is
between the outer edges, and if the values differ the outer edges are values. -/
structure Bars (n : Nat) (vs : List ℚ) (counts : List Nat) (edges : List ℚ) : Prop where
  even : ∃ lo w : ℚ, 0 < w ∧ edges = (List.range (n + 1)).map (fun i : Nat => lo + i * w) ∧
    counts = (List.range n).map (fun k : Nat => vs.countP (fun v => decide (lo + k * w ≤ v ∧ (v < lo + (k + 1) * w ∨ k + 1 = n ∧ v = lo + n * w)))) ∧
    (∀ v ∈ vs, lo ≤ v ∧ v ≤ lo + n * w) ∧ ((∃ v ∈ vs, ∃ v' ∈ vs, v ≠ v') → lo ∈ vs ∧ lo + n * w ∈ vs)
  all : counts.sum = vs.length

theorem Bars.perm {n : Nat} {vs vs' : List ℚ} {counts : List Nat} {edges : List ℚ} (h : Bars n vs counts edges) (hp : vs.Perm vs') : Bars n vs' counts edges := by
  obtain ⟨⟨lo, w, h1, h2, h3, h4, h5⟩, h6⟩ := h
  refine ⟨⟨lo, w, h1, h2, ?_, fun v hv => h4 v (hp.mem_iff.2 hv), ?_⟩, by rw [h6, hp.length_eq]⟩
  · rw [h3]
    refine List.map_congr_left (fun k _ => hp.countP_eq _)
  · rintro ⟨v, hv, v', hv', hne⟩
    obtain ⟨a, b⟩ := h5 ⟨v, hp.mem_iff.2 hv, v', hp.mem_iff.2 hv', hne⟩
    exact ⟨hp.mem_iff.1 a, hp.mem_iff.1 b⟩

theorem sum_one_bar (n : Nat) (x : Int) (h0 : 0 ≤ x) (h1 : x < n) : ((List.range n).map (fun k : Nat => if x = (k : Int) then 1 else 0)).sum = 1 := by
  induction n with
  | zero => omega
  | succ n ih =>
    rw [List.range_succ, List.map_append, List.sum_append]
    by_cases hx : x = n
    · have : ((List.range n).map (fun k : Nat => if x = (k : Int) then 1 else 0)) = (List.range n).map (fun _ => 0) := by
        refine List.map_congr_left (fun k hk => if_neg ?_)
        have := List.mem_range.1 hk
        omega
      rw [this]
      simp [hx]
    · rw [ih (by push_cast at h1; omega)]
      simp [hx]

theorem sum_counts (n : Nat) (l : List Int) (h : ∀ x ∈ l, 0 ≤ x ∧ x < n) : ((List.range n).map (fun k : Nat => l.count (k : Int))).sum = l.length := by
  induction l with
  | nil => simp
  | cons x l ih =>
    have e : ((List.range n).map (fun k : Nat => (x :: l).count (k : Int))) = (List.range n).map (fun k : Nat => l.count (k : Int) + if x = (k : Int) then 1 else 0) := by
      refine List.map_congr_left (fun k _ => ?_)
      rw [List.count_cons]
      simp
    rw [e, List.sum_map_add, ih (fun y hy => h y (List.mem_cons_of_mem _ hy)), sum_one_bar n x (h x List.mem_cons_self).1 (h x List.mem_cons_self).2, List.length_cons]

/-- the bin numpy puts a value in -/
theorem bin_of {lo w v : ℚ} {n : Nat} (hw : 0 < w) (hn : 1 ≤ n) (h1 : lo ≤ v) (h2 : v ≤ lo + n * w) {x : Int}
    (hx : x = (if ⌊(v - lo) * (n / (lo + n * w - lo))⌋ = (n : Int) then ⌊(v - lo) * (n / (lo + n * w - lo))⌋ - 1 else ⌊(v - lo) * (n / (lo + n * w - lo))⌋)) :
    (0 ≤ x ∧ x < n) ∧ ∀ k : Nat, k < n → (x = k ↔ lo + k * w ≤ v ∧ (v < lo + (k + 1) * w ∨ k + 1 = n ∧ v = lo + n * w)) := by
  have hn0 : (0 : ℚ) < n := by exact_mod_cast hn
  have hq : (v - lo) * (n / (lo + n * w - lo)) = (v - lo) / w := by field_simp; ring
  rw [hq] at hx
  have f0 : 0 ≤ ⌊(v - lo) / w⌋ := Int.floor_nonneg.2 (div_nonneg (by linarith) hw.le)
  have fl := Int.floor_le ((v - lo) / w)
  have fl' := Int.lt_floor_add_one ((v - lo) / w)
  generalize ⌊(v - lo) / w⌋ = m at *
  rw [le_div_iff₀ hw] at fl
  rw [div_lt_iff₀ hw] at fl'
  have hm : m ≤ n := by
    have : (m : ℚ) * w ≤ (n : ℚ) * w := by linarith
    exact_mod_cast le_of_mul_le_mul_right this hw
  by_cases hmn : m = n
  · rw [if_pos hmn] at hx
    subst hx
    have hv : v = lo + n * w := by
      have : (m : ℚ) = n := by exact_mod_cast hmn
      rw [this] at fl
      linarith
    refine ⟨by omega, fun k hk => ⟨fun h => ?_, fun h => ?_⟩⟩
    · have hkn : k + 1 = n := by omega
      refine ⟨?_, Or.inr ⟨hkn, hv⟩⟩
      have : (k : ℚ) ≤ n := by exact_mod_cast hk.le
      nlinarith
    · rcases h.2 with h' | h'
      · have : (n : ℚ) * w < ((k : ℚ) + 1) * w := by linarith
        have := lt_of_mul_lt_mul_right this hw.le
        have : n < k + 1 := by exact_mod_cast this
        omega
      · omega
  · rw [if_neg hmn] at hx
    subst hx
    refine ⟨⟨f0, lt_of_le_of_ne hm hmn⟩, fun k hk => ⟨fun h => ?_, fun h => ?_⟩⟩
    · have : (x : ℚ) = k := by exact_mod_cast h
      rw [this] at fl fl'
      exact ⟨by linarith, Or.inl (by linarith)⟩
    · have a1 : (k : ℚ) * w < ((x : ℚ) + 1) * w := by linarith [h.1]
      have a1 := lt_of_mul_lt_mul_right a1 hw.le
      have a1 : (k : Int) < x + 1 := by exact_mod_cast a1
      have a2 : x < (k : Int) + 1 := by
        rcases h.2 with h' | ⟨h', h''⟩
        · have a2 : (x : ℚ) * w < ((k : ℚ) + 1) * w := by linarith
          have a2 := lt_of_mul_lt_mul_right a2 hw.le
          exact_mod_cast a2
        · omega
      omega

/-- **C117** (any values): the histogram of values with one bin or more has that many bars, each counting the values between its edges; no value is lost or counted twice. -/
theorem C117_bars (vs : List ℚ) {n : Nat} (hn : 1 ≤ n) : ∃ counts edges, npHistogram vs n = .ok (counts, edges) ∧ Bars n vs counts edges := by
  obtain ⟨lo, hi, hlt, hcov, hdiff, heq⟩ : ∃ lo hi : ℚ, lo < hi ∧ (∀ v ∈ vs, lo ≤ v ∧ v ≤ hi) ∧ ((∃ v ∈ vs, ∃ v' ∈ vs, v ≠ v') → lo ∈ vs ∧ hi ∈ vs) ∧
      npHistogram vs n = .ok ((List.range n).map (fun k : Nat => (vs.map (fun v => if ⌊(v - lo) * (n / (hi - lo))⌋ = (n : Int) then ⌊(v - lo) * (n / (hi - lo))⌋ - 1
        else ⌊(v - lo) * (n / (hi - lo))⌋)).count (k : Int)), linspace lo hi (n + 1)) := by
    by_cases hne : vs = []
    · subst hne
      refine ⟨0, 1, by norm_num, by simp, by simp, ?_⟩
      unfold npHistogram
      rw [if_neg (by omega)]
      simp [reduce1]
    · obtain ⟨lo, hi, e1, e2, m1, m2, hb⟩ := reduce1_lattice vs hne
      unfold npHistogram
      rw [if_neg (by omega), e1, e2]
      by_cases hq : lo = hi
      · refine ⟨lo - 1 / 2, hi + 1 / 2, by linarith, fun v hv => ⟨by linarith [(hb v hv).1], by linarith [(hb v hv).2]⟩, ?_, by simp [hq]⟩
        rintro ⟨v, hv, v', hv', hne'⟩
        have := hb v hv
        have := hb v' hv'
        exact absurd (by linarith) hne'
      · exact ⟨lo, hi, lt_of_le_of_ne (hb lo m1).2 hq, hb, fun _ => ⟨m1, m2⟩, by simp [hq]⟩
  have hn0 : (0 : ℚ) < n := by exact_mod_cast hn
  obtain ⟨w, hw⟩ : ∃ w, w = (hi - lo) / n := ⟨_, rfl⟩
  have hw0 : 0 < w := by rw [hw]; exact div_pos (by linarith) hn0
  have hhi : hi = lo + n * w := by rw [hw]; field_simp; ring
  have hlin := linspace_get lo hi hn
  rw [← hw] at hlin
  subst hhi
  refine ⟨_, _, heq, ⟨lo, w, hw0, hlin, ?_, hcov, hdiff⟩, ?_⟩
  · refine List.map_congr_left (fun k hk => ?_)
    rw [List.count, List.countP_map]
    refine List.countP_congr (fun v hv => ?_)
    have := (bin_of hw0 hn (hcov v hv).1 (hcov v hv).2 rfl).2 k (List.mem_range.1 hk)
    simp only [Function.comp, beq_iff_eq, decide_eq_true_eq]
    exact this
  · rw [sum_counts, List.length_map]
    intro x hx
    obtain ⟨v, hv, rfl⟩ := List.mem_map.1 hx
    exact (bin_of hw0 hn (hcov v hv).1 (hcov v hv).2 rfl).1

/-- **C117** (no bins): nothing is drawn with less than one bin -/
theorem C117_no_bins (vs : List ℚ) {bins : Int} (h : bins ≤ 0) : npHistogram vs bins = .error .valueError := by
  unfold npHistogram
  rw [if_pos (by omega)]

/-- the bars over the numbers of soundings of the squares, and over these numbers divided by the area of a square -/
structure DensityBars {τ : Type} [HasStats τ] (g : τ) (r : ℚ) (P : List Pt) (n : Nat) : Prop where
  perCell : ∃ counts edges, plotDensityHistogram g n = .ok (counts, edges) ∧
    Bars n ((latticeCells r P).map (fun k => ((inLattice r P k).length : ℚ))) counts edges ∧ counts.sum = (latticeCells r P).length
  perMeter : ∃ counts edges, plotDensityPerSquareMeterHistogram g n = .ok (counts, edges) ∧
    Bars n ((latticeCells r P).map (fun k => ((inLattice r P k).length : ℚ) / r ^ 2)) counts edges ∧ counts.sum = (latticeCells r P).length

theorem densityBars_of {τ : Type} [HasStats τ] {g : τ} {r : ℚ} {P : List Pt} {L : List ℚ} (h1 : HasStats.densityCount g = .ok L)
    (h2 : L.Perm ((latticeCells r P).map (fun k => ((inLattice r P k).length : ℚ)))) (h3 : HasStats.densityPerSquareMeter g = .ok (L.map (fun v => v / r ^ 2)))
    {n : Nat} (hn : 1 ≤ n) : DensityBars g r P n := by
  constructor
  · obtain ⟨c, e, he, hb⟩ := C117_bars L hn
    refine ⟨c, e, ?_, hb.perm h2, ?_⟩
    · unfold plotDensityHistogram
      rw [h1]
      exact he
    · rw [hb.all, h2.length_eq, List.length_map]
  · obtain ⟨c, e, he, hb⟩ := C117_bars (L.map (fun v => v / r ^ 2)) hn
    have hp := h2.map (fun v => v / r ^ 2)
    rw [List.map_map] at hp
    refine ⟨c, e, ?_, hb.perm hp, ?_⟩
    · unfold plotDensityPerSquareMeterHistogram
      rw [h3]
      exact he
    · rw [hb.all, hp.length_eq, List.length_map]

/-- **C117** (single resolution): after a call with `clear_existing` that leaves one resolution, which divides the tile size, both density histograms have one count for each square that
holds soundings, in the bar of its density. -/
theorem C117_density_sr (hs : 0 < size) {g : Grid Tile} (h : SRHistory env size bs fl F s g A) (ha : a.alg.family = some F') (hc : a.clear = true)
    (hok : (g.gridWith env a dask).err = none) {r : ℚ} {m : Nat} (hr : (g.gridWith env a dask).st.resolutions = [r]) (hm : size = m * r) {n : Nat} (hn : 1 ≤ n) :
    DensityBars (g.gridWith env a dask).st r A.allPts n := by
  obtain ⟨L, h1, -, -, -, h2⟩ := C71_density_count_sr_partial hs h ha hc hok
  obtain ⟨h3, h4⟩ := h2 r m hr hm
  exact densityBars_of h1 h3 h4 hn

/-- **C117** (variable resolution): as `C117_density_sr` -/
theorem C117_density_vr (hs : 0 < size) (hsub : isPowerOfTwo sub = true) {g : Grid (Grid Tile)} (h : VRHistory env size sub bs fl F s g A) (ha : a.alg.family = some F')
    (hc : a.clear = true) (hok : (g.gridWith env a dask).err = none) {r : ℚ} {m m' : Nat} (hr : (g.gridWith env a dask).st.resolutions = [r]) (hm : sub = m * r)
    (hm' : size = m' * sub) {n : Nat} (hn : 1 ≤ n) : DensityBars (g.gridWith env a dask).st r A.allPts n := by
  obtain ⟨L, h1, -, -, -, h2⟩ := C71_density_count_vr_partial hs hsub h ha hc hok
  obtain ⟨h3, h4⟩ := h2 r m m' hr hm hm'
  exact densityBars_of h1 h3 h4 hn

/-! ## The hypotheses are met -/

example : plotDensityHistogram (demoSR.gridWith demoEnv statCall none).st 2 = .ok ([3, 1], [1, 3 / 2, 2]) ∧
    plotDensityPerSquareMeterHistogram (demoVR.gridWith demoEnv statCall (some 2)).st 4 = .ok ([3, 0, 0, 1], [1 / 64, 5 / 256, 3 / 128, 7 / 256, 1 / 32]) := by
  decide +kernel
example : npHistogram [] 2 = .ok ([0, 0], [0, 1 / 2, 1]) ∧ npHistogram [3, 3] 2 = .ok ([0, 2], [5 / 2, 3, 7 / 2]) ∧ npHistogram [1] 0 = .error .valueError := by decide +kernel

end Bathy
