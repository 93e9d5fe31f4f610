import Verif.Spec.Merged
import Verif.Props.SameSoundings
import Verif.Props.ContainerGrid

/-!
# C125: the surface of two surveys together

Three grids: one with the soundings `P1`, one with the soundings `P2`, one with all of them.  In each square the counts add up, the shoaler of the shoalest depths is shown, the means
are averaged with the counts as weights, and where the second survey has no soundings nothing changes.  Within one grid: the shoalest surface is made up of the surfaces of its containers.
-/

namespace Bathy
open Grid

variable {env env1 env2 env3 : Env} {alg alg1 alg2 alg3 : Alg} {l : Layer} {P1 P2 P3 : List Pt} {r : ℚ} {up up1 up2 up3 : Bool} {nodata : Option ℚ} {e1 e2 e3 : Extents}
  {a1 a2 a3 : LayerArr} {i1 j1 i2 j2 i3 j3 : Nat}

theorem inCell_same {e e' : Extents} {i j i' j' : Nat} (h : SamePlace r e i j e' i' j') (P : List Pt) : inCell e.minX e.minY r i j P = inCell e'.minX e'.minY r i' j' P := by
  unfold inCell
  exact List.filter_congr fun p _ => by rw [decide_eq_decide]; exact inCell_place h.1 h.2 p

/-- the soundings of a square -/
theorem inCell_merged (hp : P3.Perm (P1 ++ P2)) (h13 : SamePlace r e1 i1 j1 e3 i3 j3) (h23 : SamePlace r e2 i2 j2 e3 i3 j3) :
    (inCell e3.minX e3.minY r i3 j3 P3).Perm (inCell e1.minX e1.minY r i1 j1 P1 ++ inCell e2.minX e2.minY r i2 j2 P2) := by
  rw [inCell_same h13, inCell_same h23]
  refine (cells_perm hp _ _).trans ?_
  unfold inCell
  rw [List.filter_append]

/-- **C125**: the counts add up -/
theorem C125_counts (h1 : LayerShown env1 alg1 .density P1 r up1 none e1 a1) (h2 : LayerShown env2 alg2 .density P2 r up2 none e2 a2)
    (h3 : LayerShown env3 alg3 .density P3 r up3 none e3 a3) (ha1 : alg1 = .mean ∨ alg1 = .shoalest) (ha2 : alg2 = .mean ∨ alg2 = .shoalest) (ha3 : alg3 = .mean ∨ alg3 = .shoalest)
    (hp : P3.Perm (P1 ++ P2)) (h13 : SamePlace r e1 i1 j1 e3 i3 j3) (h23 : SamePlace r e2 i2 j2 e3 i3 j3) (hi1 : i1 < a1.rows) (hj1 : j1 < a1.cols) (hi2 : i2 < a2.rows)
    (hj2 : j2 < a2.cols) (hi3 : i3 < a3.rows) (hj3 : j3 < a3.cols) :
    ∃ n1 n2, a1.get? i1 j1 = some (some n1) ∧ a2.get? i2 j2 = some (some n2) ∧ a3.get? i3 j3 = some (some (n1 + n2)) := by
  obtain ⟨-, s1, -⟩ := layerShown_surface h1 ha1
  obtain ⟨-, s2, -⟩ := layerShown_surface h2 ha2
  obtain ⟨-, s3, -⟩ := layerShown_surface h3 ha3
  obtain ⟨v1, k1, g1⟩ := s1.cell i1 j1 hi1 hj1
  obtain ⟨v2, k2, g2⟩ := s2.cell i2 j2 hi2 hj2
  obtain ⟨v3, k3, g3⟩ := s3.cell i3 j3 hi3 hj3
  have k1 : v1 = some _ := k1
  have k2 : v2 = some _ := k2
  have k3 : v3 = some _ := k3
  refine ⟨_, _, by rw [g1, k1]; rfl, by rw [g2, k2]; rfl, ?_⟩
  rw [g3, k3, (inCell_merged hp h13 h23).length_eq, List.length_append]
  simp [shownCell, shownValue]

private theorem isMin_append {l1 l2 : List ℚ} {m1 m2 : ℚ} (h1 : IsMin m1 l1) (h2 : IsMin m2 l2) : IsMin (min m1 m2) (l1 ++ l2) := by
  constructor
  · rcases min_choice m1 m2 with h | h <;> rw [h]
    · exact List.mem_append_left _ h1.1
    · exact List.mem_append_right _ h2.1
  · intro x hx
    rcases List.mem_append.1 hx with hx | hx
    · exact (min_le_left _ _).trans (h1.2 x hx)
    · exact (min_le_right _ _).trans (h2.2 x hx)

private theorem round3_min (v w : ℚ) : round3 (min v w) = min (round3 v) (round3 w) := by
  rcases le_total v w with h | h
  · rw [min_eq_left h, min_eq_left (round3_mono h)]
  · rw [min_eq_right h, min_eq_right (round3_mono h)]

/-- **C125**: the shoaler of the two shoalest depths is shown -/
theorem C125_shoalest (h1 : LayerShown env1 .shoalest .depth P1 r up none e1 a1) (h2 : LayerShown env2 .shoalest .depth P2 r up none e2 a2)
    (h3 : LayerShown env3 .shoalest .depth P3 r up none e3 a3) (hp : P3.Perm (P1 ++ P2)) (h13 : SamePlace r e1 i1 j1 e3 i3 j3) (h23 : SamePlace r e2 i2 j2 e3 i3 j3)
    (hi1 : i1 < a1.rows) (hj1 : j1 < a1.cols) (hi2 : i2 < a2.rows) (hj2 : j2 < a2.cols) (hi3 : i3 < a3.rows) (hj3 : j3 < a3.cols) :
    ∃ v1 v2, a1.get? i1 j1 = some v1 ∧ a2.get? i2 j2 = some v2 ∧ a3.get? i3 j3 = some (shoaler up v1 v2) := by
  obtain ⟨-, s1, -⟩ := layerShown_surface h1 (.inr rfl)
  obtain ⟨-, s2, -⟩ := layerShown_surface h2 (.inr rfl)
  obtain ⟨-, s3, -⟩ := layerShown_surface h3 (.inr rfl)
  obtain ⟨v1, k1, g1⟩ := s1.cell i1 j1 hi1 hj1
  obtain ⟨v2, k2, g2⟩ := s2.cell i2 j2 hi2 hj2
  obtain ⟨v3, k3, g3⟩ := s3.cell i3 j3 hi3 hj3
  refine ⟨_, _, g1, g2, ?_⟩
  rw [g3]
  congr 1
  have hc := inCell_merged hp h13 h23
  have k1 : ShoalCell round3 _ v1 := k1
  have k2 : ShoalCell round3 _ v2 := k2
  have k3 : ShoalCell round3 _ v3 := k3
  generalize inCell e1.minX e1.minY r i1 j1 P1 = Q1 at *
  generalize inCell e2.minX e2.minY r i2 j2 P2 = Q2 at *
  generalize inCell e3.minX e3.minY r i3 j3 P3 = Q3 at *
  by_cases q1 : Q1 = []
  · subst q1
    rw [shoalCell_det _ _ _ _ (by simpa using hc) k3 k2, k1.1 rfl]; rfl
  · by_cases q2 : Q2 = []
    · subst q2
      rw [shoalCell_det _ _ _ _ (by simpa using hc) k3 k1, k2.1 rfl]
      cases v1 <;> rfl
    · obtain ⟨m1, hm1, rfl⟩ := k1.2 q1
      obtain ⟨m2, hm2, rfl⟩ := k2.2 q2
      have k4 : ShoalCell round3 (Q1 ++ Q2) (some (round3 (min m1 m2))) :=
        ⟨fun h => absurd (List.append_eq_nil_iff.1 h).1 q1, fun _ => ⟨_, by rw [List.map_append]; exact isMin_append hm1 hm2, rfl⟩⟩
      rw [shoalCell_det _ _ _ _ hc k3 k4, round3_min]
      simp only [shownCell, shoaler, shownValue]
      congr 1
      cases up
      · simp
      · simp only [and_self, if_true]
        rcases le_total (round3 m1) (round3 m2) with h | h
        · rw [min_eq_left h, max_eq_left (neg_le_neg h)]
        · rw [min_eq_right h, max_eq_right (neg_le_neg h)]

/-- **C125**: the mean of all soundings (depth, intensity or an uncertainty) is the mean of the two means, weighted with the numbers of soundings, within a millimetre -/
theorem C125_mean (h1 : LayerShown env1 .mean l P1 r up none e1 a1) (h2 : LayerShown env2 .mean l P2 r up none e2 a2) (h3 : LayerShown env3 .mean l P3 r up none e3 a3)
    (hl : l ≠ .density) (hp : P3.Perm (P1 ++ P2)) (h13 : SamePlace r e1 i1 j1 e3 i3 j3) (h23 : SamePlace r e2 i2 j2 e3 i3 j3)
    (hi1 : i1 < a1.rows) (hj1 : j1 < a1.cols) (hi2 : i2 < a2.rows) (hj2 : j2 < a2.cols) (hi3 : i3 < a3.rows) (hj3 : j3 < a3.cols) {n1 n2 : Nat}
    (hn1 : n1 = (inCell e1.minX e1.minY r i1 j1 P1).length) (hn2 : n2 = (inCell e2.minX e2.minY r i2 j2 P2).length) :
    ∃ v1 v2 v3, a1.get? i1 j1 = some v1 ∧ a2.get? i2 j2 = some v2 ∧ a3.get? i3 j3 = some v3 ∧ (v1 = none ↔ n1 = 0) ∧ (v2 = none ↔ n2 = 0) ∧ (v3 = none ↔ n1 + n2 = 0) ∧
      |v3.getD 0 * (n1 + n2) - (n1 * v1.getD 0 + n2 * v2.getD 0)| ≤ (n1 + n2) / 1000 := by
  obtain ⟨-, s1, -⟩ := layerShown_surface h1 (.inl rfl)
  obtain ⟨-, s2, -⟩ := layerShown_surface h2 (.inl rfl)
  obtain ⟨-, s3, -⟩ := layerShown_surface h3 (.inl rfl)
  rw [meanRule hl] at s1 s2 s3
  obtain ⟨v1, k1, g1⟩ := s1.cell i1 j1 hi1 hj1
  obtain ⟨v2, k2, g2⟩ := s2.cell i2 j2 hi2 hj2
  obtain ⟨v3, k3, g3⟩ := s3.cell i3 j3 hi3 hj3
  refine ⟨_, _, _, g1, g2, g3, ?_⟩
  have k3 := meanCell_perm (inCell_merged hp h13 h23) k3
  generalize inCell e1.minX e1.minY r i1 j1 P1 = Q1 at *
  generalize inCell e2.minX e2.minY r i2 j2 P2 = Q2 at *
  set sgn : ℚ := if l = .depth ∧ up = true then -1 else 1 with hsgn
  have hshow : ∀ v, shownValue l up v = sgn * v := by
    intro v; unfold shownValue; rw [hsgn]; split <;> ring
  have habs : |sgn| = 1 := by rw [hsgn]; split <;> norm_num
  have part : ∀ {Q : List Pt} {v : Option ℚ}, MeanCell round3 (attrOf l) Q v → (shownCell l none up v = none ↔ Q.length = 0) ∧
      |(Q.length : ℚ) * (shownCell l none up v).getD 0 - sgn * (Q.map (attrOf l)).sum| ≤ (Q.length : ℚ) / 2000 := by
    intro Q v k
    by_cases hq : Q = []
    · rw [k.1 hq, hq]; exact ⟨⟨fun _ => rfl, fun _ => rfl⟩, by simp⟩
    · rw [k.2 hq]
      refine ⟨⟨fun h => (by cases h), fun h => absurd (List.length_eq_zero_iff.1 h) hq⟩, ?_⟩
      have hm := mean_mul (q := Q.map (attrOf l)) (by simpa using hq)
      rw [List.length_map] at hm
      show |(Q.length : ℚ) * shownValue l up _ - _| ≤ _
      rw [hshow, ← hm, show (Q.length : ℚ) * (sgn * round3 (meanOf (Q.map (attrOf l)))) - sgn * (meanOf (Q.map (attrOf l)) * (Q.length : ℚ)) =
          sgn * ((round3 (meanOf (Q.map (attrOf l))) - meanOf (Q.map (attrOf l))) * (Q.length : ℚ)) by ring, abs_mul, habs, one_mul, abs_mul,
          abs_of_nonneg (Nat.cast_nonneg _ : (0 : ℚ) ≤ (Q.length : ℚ))]
      have := mul_le_mul_of_nonneg_right (round3_off (meanOf (Q.map (attrOf l)))) (Nat.cast_nonneg Q.length : (0 : ℚ) ≤ (Q.length : ℚ))
      linarith
  obtain ⟨b1, c1⟩ := part k1
  obtain ⟨b2, c2⟩ := part k2
  obtain ⟨b3, c3⟩ := part k3
  rw [List.length_append] at b3 c3
  rw [List.map_append, List.sum_append] at c3
  push_cast at c3
  rw [hn1, hn2]
  refine ⟨b1, b2, b3, ?_⟩
  rw [abs_le] at *
  constructor <;> nlinarith [c1.1, c1.2, c2.1, c2.2, c3.1, c3.2]

/-- **C125**: where the second survey has no soundings, nothing changes, in any of the layers -/
theorem C125_unchanged (h1 : LayerShown env1 alg l P1 r up nodata e1 a1) (h3 : LayerShown env3 alg l P3 r up nodata e3 a3) (ha : alg = .mean ∨ alg = .shoalest)
    (hp : P3.Perm (P1 ++ P2)) (h13 : SamePlace r e1 i1 j1 e3 i3 j3) (hi1 : i1 < a1.rows) (hj1 : j1 < a1.cols) (hi3 : i3 < a3.rows) (hj3 : j3 < a3.cols)
    (hno : ∀ p ∈ P2, ¬ InCell e1.minX e1.minY r i1 j1 p) : a3.get? i3 j3 = a1.get? i1 j1 := by
  obtain ⟨-, s1, -⟩ := layerShown_surface h1 ha
  obtain ⟨-, s3, -⟩ := layerShown_surface h3 ha
  obtain ⟨v1, k1, g1⟩ := s1.cell i1 j1 hi1 hj1
  obtain ⟨v3, k3, g3⟩ := s3.cell i3 j3 hi3 hj3
  have hnil : inCell e1.minX e1.minY r i1 j1 P2 = [] := by
    unfold inCell
    rw [List.filter_eq_nil_iff]
    intro p hp; simpa using hno p hp
  have hc := inCell_merged hp h13 h13
  rw [hnil, List.append_nil] at hc
  rw [g1, g3, rule_det ha hc k3 k1]

/-- the shoalest surface `arr` over `e` (shown with the sign `up`) is made up of what the containers show (`shows c`): nowhere is a container shoaler, and everywhere one of them is as
shoal as the surface -/
def MadeUp (up : Bool) (names : List String) (shows : String → Option (List LayerArr)) (arr : LayerArr) : Prop :=
  ∀ i j, i < arr.rows → j < arr.cols → ∃ v, arr.get? i j = some (shownCell .depth none up v) ∧
    (∀ c w, NumberAt (shows c) i j w → ∃ z, v = some z ∧ z ≤ w) ∧ (∀ z, v = some z → ∃ c ∈ names, NumberAt (shows c) i j z)

private theorem mem_ptsOf {A : Store} {p : Pt} (h : p ∈ A.allPts) : ∃ c ∈ A.names, p ∈ A.ptsOf c := by
  unfold Store.allPts at h
  obtain ⟨l, hl, hp⟩ := List.mem_flatten.1 h
  obtain ⟨q, hq, rfl⟩ := List.mem_map.1 hl
  exact ⟨q.1, List.mem_map_of_mem hq, List.mem_flatten.2 ⟨q.2, List.mem_map.2 ⟨q, List.mem_filter.2 ⟨hq, by simp⟩, rfl⟩, hp⟩⟩

private theorem ptsOf_sub {A : Store} {c : String} {p : Pt} (h : p ∈ A.ptsOf c) : p ∈ A.allPts := by
  unfold Store.ptsOf Store.allPts at *
  obtain ⟨l, hl, hp⟩ := List.mem_flatten.1 h
  obtain ⟨q, hq, rfl⟩ := List.mem_map.1 hl
  exact List.mem_flatten.2 ⟨q.2, List.mem_map_of_mem (List.mem_of_mem_filter hq), hp⟩

theorem madeUp {A : Store} {e : Extents} {arr : LayerArr} {shows : String → Option (List LayerArr)} (hr : 0 < r)
    (h1 : SurfaceOf (CellRule .shoalest .depth) (shownCell .depth none up) A.allPts r e arr) (h2 : ∀ c, ContainerShown .shoalest (A.ptsOf c) r none e (shows c)) :
    MadeUp up A.names shows arr := by
  intro i j hi hj
  obtain ⟨v, k, g⟩ := h1.cell i j hi hj
  have k : ShoalCell round3 _ v := k
  have hcell : ∀ (P : List Pt) (p : Pt), p ∈ inCell e.minX e.minY r i j P ↔ p ∈ P ∧ InCell e.minX e.minY r i j p := by
    intro P p; unfold inCell; rw [List.mem_filter, decide_eq_true_eq]
  refine ⟨v, g, ?_, ?_⟩
  · rintro c w ⟨a, ha, hi', hj', hw⟩
    rcases h2 c with ⟨-, -, h0⟩ | ⟨-, a', ha', s⟩
    · rw [h0] at ha; cases ha
    · rw [ha'] at ha; cases ha
      obtain ⟨vc, kc, gc⟩ := s.cell i j hi' hj'
      have kc : ShoalCell round3 _ vc := kc
      rw [gc] at hw
      have hvc : vc = some w := by cases vc <;> simp_all
      have hne : inCell e.minX e.minY r i j (A.ptsOf c) ≠ [] := by
        intro h0; rw [kc.1 h0] at hvc; cases hvc
      obtain ⟨mc, hmc, hmcv⟩ := kc.2 hne
      rw [hmcv] at hvc; cases hvc
      obtain ⟨q, hq, hqz⟩ := List.mem_map.1 hmc.1
      have hq' := (hcell _ _).1 hq
      have hmem : q ∈ inCell e.minX e.minY r i j A.allPts := (hcell _ _).2 ⟨ptsOf_sub hq'.1, hq'.2⟩
      obtain ⟨m, hm, rfl⟩ := k.2 (List.ne_nil_of_mem hmem)
      exact ⟨_, rfl, round3_mono (hqz ▸ hm.2 _ (List.mem_map_of_mem hmem))⟩
  · rintro z rfl
    have hne : inCell e.minX e.minY r i j A.allPts ≠ [] := by
      intro h0; have := k.1 h0; cases this
    obtain ⟨m, hm, hmz⟩ := k.2 hne
    cases hmz
    obtain ⟨q, hq, hqz⟩ := List.mem_map.1 hm.1
    have hq' := (hcell _ _).1 hq
    obtain ⟨c, hc, hqc⟩ := mem_ptsOf hq'.1
    refine ⟨c, hc, ?_⟩
    rcases h2 c with ⟨h0, -, -⟩ | ⟨-, a, ha, s⟩
    · rw [h0] at hqc; cases hqc
    · have hrows : a.rows = arr.rows := by exact_mod_cast mul_right_cancel₀ (ne_of_gt hr) (s.rows.trans h1.rows.symm)
      have hcols : a.cols = arr.cols := by exact_mod_cast mul_right_cancel₀ (ne_of_gt hr) (s.cols.trans h1.cols.symm)
      obtain ⟨vc, kc, gc⟩ := s.cell i j (hrows ▸ hi) (hcols ▸ hj)
      have kc : ShoalCell round3 _ vc := kc
      have hmem : q ∈ inCell e.minX e.minY r i j (A.ptsOf c) := (hcell _ _).2 ⟨hqc, hq'.2⟩
      obtain ⟨mc, hmc, rfl⟩ := kc.2 (List.ne_nil_of_mem hmem)
      have le1 : mc ≤ m := hqz ▸ hmc.2 _ (List.mem_map_of_mem hmem)
      have le2 : m ≤ mc := by
        obtain ⟨q2, hq2, rfl⟩ := List.mem_map.1 hmc.1
        have hq2' := (hcell _ _).1 hq2
        exact hm.2 _ (List.mem_map_of_mem ((hcell _ _).2 ⟨ptsOf_sub hq2'.1, hq2'.2⟩))
      rw [le_antisymm le1 le2] at gc
      exact ⟨a, ha, hrows ▸ hi, hcols ▸ hj, gc⟩

variable {size sub : ℚ} {bs : Bool} {fl : Fields} {F : Family} {s : Bool} {A : Store} {a : GridCall} {dask : Option Nat}

/-- the array a query returns -/
def shownBy (x : Except Err (Option (List LayerArr))) : Option (List LayerArr) :=
  match x with
  | .ok o => o
  | .error _ => none

/-- **C125** (single resolution grids): after a `grid` call of all tiles with 'shoalest' the surface is made up of the surfaces of the containers, each of which is returned -/
theorem C125_containers_sr (hs : 0 < size) {g : Grid Tile} (h : SRHistory env size false fl F s g A) (ha : a.alg = .shoalest) (hF : F = .plain ∨ a.clear = true)
    (hv : a.regrid = .full ∨ a.clear = true) {r : ℚ} (hr : a.res = some r) {n : Nat} (hn : size = n * r) (hok : (g.gridWith env a dask).err = none) {zUp : Bool}
    (hup : up = true ↔ (zUp = true ↔ ¬ StoredUp (g.gridWith env a dask).st)) :
    ∃ arr, ((g.gridWith env a dask).st.getLayersByName env [.depth] (some r) none zUp).2 = .ok (some [arr]) ∧
      (∀ c ∈ A.names, ((g.gridWith env a dask).st.getLayersByName env [.cont c] (some r) none zUp).2.isOk = true) ∧
      MadeUp up A.names (fun c => shownBy ((g.gridWith env a dask).st.getLayersByName env [.cont c] (some r) none zUp).2) arr := by
  obtain ⟨e, arr, he, hq, hsurf⟩ := C100_surface_sr hs h (.inr ha) hF hv hr hn hok (l := .depth) (nodata := none) (.inl rfl) hup
  have hc := fun c => C120_surface_sr hs h (.inr ha) hF hv hr hn hok c none zUp
  rw [ha] at hsurf
  refine ⟨arr, by rw [hq], fun c _ => ?_, madeUp (pos_of_mul hs hn) hsurf fun c => ?_⟩
  · obtain ⟨-, o, -, ho, -⟩ := hc c
    rw [ho]; rfl
  · obtain ⟨e', o, he', ho, hshown⟩ := hc c
    rw [he] at he'; cases he'
    rw [ho]; rw [ha] at hshown; exact hshown

/-- **C125** (variable resolution grids) -/
theorem C125_containers_vr (hs : 0 < size) (hsub : isPowerOfTwo sub = true) {q : Nat} (hdiv : size = (q : ℚ) * sub) {g : Grid (Grid Tile)} (h : VRHistory env size sub bs fl F s g A)
    (ha : a.alg = .shoalest) (hF : F = .plain ∨ a.clear = true)
    (hv : a.regrid = .full ∨ a.clear = true) {r : ℚ} (hr : a.res = some r) {n : Nat} (hn : sub = n * r) (hok : (g.gridWith env a dask).err = none) {zUp : Bool}
    (hup : up = true ↔ (zUp = true ↔ ¬ StoredUp (g.gridWith env a dask).st)) :
    ∃ arr, ((g.gridWith env a dask).st.getLayersByName env [.depth] (some r) none zUp).2 = .ok (some [arr]) ∧
      (∀ c ∈ A.names, ((g.gridWith env a dask).st.getLayersByName env [.cont c] (some r) none zUp).2.isOk = true) ∧
      MadeUp up A.names (fun c => shownBy ((g.gridWith env a dask).st.getLayersByName env [.cont c] (some r) none zUp).2) arr := by
  obtain ⟨e, arr, he, hq, hsurf⟩ := C100_surface_vr hs hsub hdiv h (.inr ha) hF hv hr hn hok (l := .depth) (nodata := none) (.inl rfl) hup
  have hc := fun c => C120_surface_vr hs hsub hdiv h (.inr ha) hF hv hr hn hok c none zUp
  rw [ha] at hsurf
  refine ⟨arr, by rw [hq], fun c _ => ?_, madeUp (pos_of_mul (isPowerOfTwo_pos hsub) hn) hsurf fun c => ?_⟩
  · obtain ⟨-, o, -, ho, -⟩ := hc c
    rw [ho]; rfl
  · obtain ⟨e', o, he', ho, hshown⟩ := hc c
    rw [he] at he'; cases he'
    rw [ho]; rw [ha] at hshown; exact hshown

/-! ## the hypotheses can be met -/

/-- what a query returns, if it returns one layer -/
private def answer : Except Err (Option (List LayerArr)) → LayerArr
  | .ok (some [a]) => a
  | _ => ⟨0, 0, []⟩

private theorem answered {x : Except Err (Option (List LayerArr))} (h : 0 < (answer x).rows) : x = .ok (some [answer x]) := by
  unfold answer at *
  split at h
  · rfl
  · exact absurd h (by decide)

private def callAt (alg : Alg) : GridCall := { alg := alg, res := some 16, clear := true }
private def gridOf (pts : List Pt) : Grid Tile := ((newSR 32 false).addPoints ⟨demoFields, pts⟩ "all" demoArgs).st
private def shownOf (pts : List Pt) (alg : Alg) (l : Layer) : LayerArr :=
  answer (((gridOf pts).gridWith demoEnv (callAt alg) none).st.getLayersByName demoEnv [l] (some 16) none false).2
private def extentsOf (pts : List Pt) (alg : Alg) : Extents := (((gridOf pts).gridWith demoEnv (callAt alg) none).st.extents).getD ⟨0, 0, 0, 0⟩

private theorem shown_of {pts : List Pt} {alg : Alg} {l : Layer} (hadd : ((newSR 32 false).addPoints ⟨demoFields, pts⟩ "all" demoArgs).err = none) (hl : Ruled alg false demoFields none l)
    (hok : ((gridOf pts).gridWith demoEnv (callAt alg) none).err = none) (hv : ((gridOf pts).gridWith demoEnv (callAt alg) none).st.info.vref = none)
    (he : ((gridOf pts).gridWith demoEnv (callAt alg) none).st.extents = some (extentsOf pts alg)) (hq : 0 < (shownOf pts alg l).rows) :
    LayerShown demoEnv alg l (pts ++ []) 16 false none (extentsOf pts alg) (shownOf pts alg l) :=
  .sr (n := 2) (size := 32) (zUp := false) (a := callAt alg) (dask := none) (fl := demoFields) (F := .plain) (s := false) (g := gridOf pts) (A := [("all", pts)]) (by norm_num)
    ((GridHistory.new .plain).add pts "all" demoArgs hadd) hl rfl (.inr rfl) (.inl rfl) rfl (by norm_num) hok (no_flip hv) he (answered hq)

/-- grids of `demoA`, of `demoB`, and of both: in the square of side 16 at (0, 0) there are one and two soundings; 10 m and 12 m are the shoalest ones -/
example : LayerShown demoEnv .shoalest .depth (demoA ++ []) 16 false none (extentsOf demoA .shoalest) (shownOf demoA .shoalest .depth) ∧
    LayerShown demoEnv .shoalest .depth (demoB ++ []) 16 false none (extentsOf demoB .shoalest) (shownOf demoB .shoalest .depth) ∧
    LayerShown demoEnv .shoalest .depth ((demoA ++ demoB) ++ []) 16 false none (extentsOf (demoA ++ demoB) .shoalest) (shownOf (demoA ++ demoB) .shoalest .depth) ∧
    SamePlace 16 (extentsOf demoA .shoalest) 0 0 (extentsOf (demoA ++ demoB) .shoalest) 0 2 ∧ SamePlace 16 (extentsOf demoB .shoalest) 0 2 (extentsOf (demoA ++ demoB) .shoalest) 0 2 ∧
    (shownOf demoA .shoalest .depth).get? 0 0 = some (some 10) ∧ (shownOf demoB .shoalest .depth).get? 0 2 = some (some 12) ∧
    (shownOf (demoA ++ demoB) .shoalest .depth).get? 0 2 = some (some 10) :=
  ⟨shown_of (by decide +kernel) (.inl rfl) (by decide +kernel) (by decide +kernel) (by decide +kernel) (by decide +kernel),
    shown_of (by decide +kernel) (.inl rfl) (by decide +kernel) (by decide +kernel) (by decide +kernel) (by decide +kernel),
    shown_of (by decide +kernel) (.inl rfl) (by decide +kernel) (by decide +kernel) (by decide +kernel) (by decide +kernel),
    (by unfold SamePlace; decide +kernel), (by unfold SamePlace; decide +kernel), (by decide +kernel), (by decide +kernel), (by decide +kernel)⟩

/-- the same for the mean uncertainties and the counts; the square at (16, 0) has a sounding of `demoA` and none of `demoB` -/
example : LayerShown demoEnv .mean .horizontal (demoA ++ []) 16 false none (extentsOf demoA .mean) (shownOf demoA .mean .horizontal) ∧
    LayerShown demoEnv .mean .horizontal ((demoA ++ demoB) ++ []) 16 false none (extentsOf (demoA ++ demoB) .mean) (shownOf (demoA ++ demoB) .mean .horizontal) ∧
    LayerShown demoEnv .mean .density ((demoA ++ demoB) ++ []) 16 false none (extentsOf (demoA ++ demoB) .mean) (shownOf (demoA ++ demoB) .mean .density) ∧
    (∀ p ∈ demoB, ¬ InCell (extentsOf demoA .mean).minX (extentsOf demoA .mean).minY 16 0 1 p) ∧
    SamePlace 16 (extentsOf demoA .mean) 0 1 (extentsOf (demoA ++ demoB) .mean) 0 3 ∧ (shownOf (demoA ++ demoB) .mean .horizontal).get? 0 3 = (shownOf demoA .mean .horizontal).get? 0 1 ∧
    (shownOf demoA .mean .horizontal).get? 0 1 = some (some 2) ∧ (shownOf (demoA ++ demoB) .mean .density).get? 0 2 = some (some 3) :=
  ⟨shown_of (by decide +kernel) (.inr (.inr ⟨rfl, .inr ⟨rfl, rfl⟩⟩)) (by decide +kernel) (by decide +kernel) (by decide +kernel) (by decide +kernel),
    shown_of (by decide +kernel) (.inr (.inr ⟨rfl, .inr ⟨rfl, rfl⟩⟩)) (by decide +kernel) (by decide +kernel) (by decide +kernel) (by decide +kernel),
    shown_of (by decide +kernel) (.inr (.inl ⟨rfl, rfl⟩)) (by decide +kernel) (by decide +kernel) (by decide +kernel) (by decide +kernel),
    (by decide +kernel), (by unfold SamePlace; decide +kernel), (by decide +kernel), (by decide +kernel), (by decide +kernel)⟩

private def shoalCall : GridCall := { alg := .shoalest, res := some 8, clear := true }

private def shoal8 : Grid Tile := (demoSR.gridWith demoEnv shoalCall none).st
private def shoalVR8 : Grid (Grid Tile) := (demoVR.gridWith demoEnv shoalCall none).st

/-- the containers "b" and "c" of the demo grids -/
example : ∃ arr, (shoal8.getLayersByName demoEnv [.depth] (some 8) none false).2 = .ok (some [arr]) ∧
    MadeUp false ["b", "c"] (fun c => shownBy (shoal8.getLayersByName demoEnv [.cont c] (some 8) none false).2) arr := by
  obtain ⟨arr, h1, -, h2⟩ := C125_containers_sr (n := 2) (size := 16) (a := shoalCall) (dask := none) (zUp := false) (up := false) (by norm_num) demoSR_history rfl (.inr rfl) (.inl rfl)
    rfl (by norm_num) (by decide +kernel) (no_flip (by decide +kernel))
  exact ⟨arr, h1, h2⟩

example : ∃ arr, (shoalVR8.getLayersByName demoEnv [.depth] (some 8) none false).2 = .ok (some [arr]) ∧
    MadeUp false ["b", "c"] (fun c => shownBy (shoalVR8.getLayersByName demoEnv [.cont c] (some 8) none false).2) arr := by
  obtain ⟨arr, h1, -, h2⟩ := C125_containers_vr (n := 2) (q := 2) (size := 32) (sub := 16) (a := shoalCall) (dask := none) (zUp := false) (up := false) (by norm_num) (by decide +kernel)
    (by norm_num) demoVR_history rfl (.inr rfl) (.inl rfl) rfl (by norm_num) (by decide +kernel) (no_flip (by decide +kernel))
  exact ⟨arr, h1, h2⟩

end Bathy
