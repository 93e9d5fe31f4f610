import Verif.Props.SameSoundings
import Verif.Props.Merged
import Verif.Spec.Axes

/-!
# C127: the surface does not depend on the axes and the unit of the map

Exchanging eastings and northings exchanges the rows and columns of the surface.  Soundings and squares enlarged by the same factor show the same numbers.  Exchanging east and west
reverses the order of the columns, unless soundings lie on the lines between them.
-/

namespace Bathy
open Grid

variable {env env' : Env} {alg : Alg} {l : Layer} {P P2 : List Pt} {r r' c : ℚ} {up : Bool} {nodata : Option ℚ} {e1 e2 : Extents} {a1 a2 : LayerArr} {i1 j1 i2 j2 : Nat}

/-- the rules look at the depths and uncertainties only -/
private theorem rule_mapped (f : Pt → Pt) (fz : ∀ p, (f p).z = p.z) (fv : ∀ p, (f p).tvu = p.tvu) (fh : ∀ p, (f p).thu = p.thu) (ha : alg = .mean ∨ alg = .shoalest) {Q : List Pt}
    {v : Option ℚ} (h : CellRule alg l (Q.map f) v) : CellRule alg l Q v := by
  have hz : ∀ g : Pt → ℚ, (∀ p, g (f p) = g p) → (Q.map f).map g = Q.map g := by
    intro g hg; rw [List.map_map]; exact List.map_congr_left fun p _ => hg p
  have hm : ∀ g : Pt → ℚ, (∀ p, g (f p) = g p) → MeanCell round3 g (Q.map f) v → MeanCell round3 g Q v := by
    intro g hg k
    exact ⟨fun h0 => k.1 (by rw [h0]; rfl), fun h0 => by rw [← hz g hg]; exact k.2 (by simpa using h0)⟩
  have hs : ShoalCell round3 (Q.map f) v → ShoalCell round3 Q v := by
    intro k
    exact ⟨fun h0 => k.1 (by rw [h0]; rfl), fun h0 => by rw [← hz Pt.z fz]; exact k.2 (by simpa using h0)⟩
  have hc : CountCell (Q.map f) v → CountCell Q v := by
    intro k; unfold CountCell at *; rw [k, List.length_map]
  rcases ha with rfl | rfl
  · cases l <;> first | exact hc h | exact hm _ fz h | exact hm _ fv h | exact hm _ fh h
  · cases l <;> first | exact hc h | exact hs h | exact hm _ fz h | exact hm _ fv h | exact hm _ fh h

/-- a square that holds the images of the soundings of another square shows the same -/
private theorem cell_mapped (f : Pt → Pt) (fz : ∀ p, (f p).z = p.z) (fv : ∀ p, (f p).tvu = p.tvu) (fh : ∀ p, (f p).thu = p.thu)
    (h1 : LayerShown env alg l P r up nodata e1 a1) (h2 : LayerShown env' alg l P2 r' up nodata e2 a2) (ha : alg = .mean ∨ alg = .shoalest)
    (hp : P2.Perm (P.map f)) (hi1 : i1 < a1.rows) (hj1 : j1 < a1.cols) (hi2 : i2 < a2.rows) (hj2 : j2 < a2.cols)
    (hin : ∀ p ∈ P, InCell e2.minX e2.minY r' i2 j2 (f p) ↔ InCell e1.minX e1.minY r i1 j1 p) : a2.get? i2 j2 = a1.get? i1 j1 := by
  obtain ⟨-, s1, -⟩ := layerShown_surface h1 ha
  obtain ⟨-, s2, -, bs, fl, hl⟩ := layerShown_surface h2 ha
  obtain ⟨v1, k1, g1⟩ := s1.cell i1 j1 hi1 hj1
  obtain ⟨v2, k2, g2⟩ := s2.cell i2 j2 hi2 hj2
  have hperm : (inCell e2.minX e2.minY r' i2 j2 P2).Perm ((inCell e1.minX e1.minY r i1 j1 P).map f) := by
    refine (hp.filter _).trans ?_
    unfold inCell
    rw [List.filter_map]
    refine List.Perm.of_eq (congrArg _ (List.filter_congr fun p hmem => ?_))
    simp only [Function.comp_apply, decide_eq_decide]
    exact hin p hmem
  have k2 := rule_mapped f fz fv fh ha (rule_perm hl _ _ _ hperm k2)
  rw [g1, g2, rule_det ha (List.Perm.refl _) k2 k1]

/-- two intervals of a line divided at the multiples of `r` that have a point in common are the same -/
private theorem one_interval (hr : 0 < r) {c1 c2 : ℤ} {k1 k2 : Nat} {t : ℚ} (u1 : (c1 : ℚ) * r + (k1 : ℚ) * r ≤ t) (u2 : t < (c1 : ℚ) * r + ((k1 + 1 : Nat) : ℚ) * r)
    (u3 : (c2 : ℚ) * r + (k2 : ℚ) * r ≤ t) (u4 : t < (c2 : ℚ) * r + ((k2 + 1 : Nat) : ℚ) * r) : (c1 : ℚ) * r + (k1 : ℚ) * r = (c2 : ℚ) * r + (k2 : ℚ) * r := by
  have lt1 : ((c1 + k1 : ℤ) : ℚ) * r < ((c2 + k2 + 1 : ℤ) : ℚ) * r := by push_cast at *; linarith
  have lt2 : ((c2 + k2 : ℤ) : ℚ) * r < ((c1 + k1 + 1 : ℤ) : ℚ) * r := by push_cast at *; linarith
  have lt1 : c1 + k1 < c2 + k2 + 1 := by exact_mod_cast lt_of_mul_lt_mul_right lt1 hr.le
  have lt2 : c2 + k2 < c1 + k1 + 1 := by exact_mod_cast lt_of_mul_lt_mul_right lt2 hr.le
  have : (c2 : ℤ) = c1 + k1 - k2 := by omega
  rw [this]; push_cast; ring

/-- **C127**: a square of the turned map shows what the square at its place shows -/
theorem C127_turned (h1 : LayerShown env alg l P r up nodata e1 a1) (h2 : LayerShown env' alg l P2 r up nodata e2 a2) (ha : alg = .mean ∨ alg = .shoalest)
    (hp : P2.Perm (P.map Pt.turned)) (hi1 : i1 < a1.rows) (hj1 : j1 < a1.cols) (hi2 : i2 < a2.rows) (hj2 : j2 < a2.cols)
    (hx : e1.minX + (j1 : ℚ) * r = e2.minY + (i2 : ℚ) * r) (hy : e1.minY + (i1 : ℚ) * r = e2.minX + (j2 : ℚ) * r) : a2.get? i2 j2 = a1.get? i1 j1 := by
  refine cell_mapped Pt.turned (fun _ => rfl) (fun _ => rfl) (fun _ => rfl) h1 h2 ha hp hi1 hj1 hi2 hj2 fun p _ => ?_
  have hx' : e1.minX + ((j1 + 1 : Nat) : ℚ) * r = e2.minY + ((i2 + 1 : Nat) : ℚ) * r := by push_cast; linarith
  have hy' : e1.minY + ((i1 + 1 : Nat) : ℚ) * r = e2.minX + ((j2 + 1 : Nat) : ℚ) * r := by push_cast; linarith
  unfold InCell Pt.turned
  simp only
  rw [hx, hx', hy, hy']
  tauto

/-- **C127**: on the turned map, the square of each sounding shows what its square shows -/
theorem C127_turned_sounding (h1 : LayerShown env alg l P r up nodata e1 a1) (h2 : LayerShown env' alg l P2 r up nodata e2 a2) (ha : alg = .mean ∨ alg = .shoalest)
    (hp : P2.Perm (P.map Pt.turned)) {p : Pt} (hmem : p ∈ P) :
    ∃ i1 j1 i2 j2, i1 < a1.rows ∧ j1 < a1.cols ∧ i2 < a2.rows ∧ j2 < a2.cols ∧ InCell e1.minX e1.minY r i1 j1 p ∧ InCell e2.minX e2.minY r i2 j2 p.turned ∧
      a2.get? i2 j2 = a1.get? i1 j1 := by
  obtain ⟨hr, s1, ⟨cx1, cy1, hcx1, hcy1⟩, -⟩ := layerShown_surface h1 ha
  obtain ⟨-, s2, ⟨cx2, cy2, hcx2, hcy2⟩, -⟩ := layerShown_surface h2 ha
  obtain ⟨i1, j1, hi1, hj1, hin1⟩ := s1.all p hmem
  obtain ⟨i2, j2, hi2, hj2, hin2⟩ := s2.all p.turned (hp.mem_iff.2 (List.mem_map_of_mem hmem))
  refine ⟨i1, j1, i2, j2, hi1, hj1, hi2, hj2, hin1, hin2, C127_turned h1 h2 ha hp hi1 hj1 hi2 hj2 ?_ ?_⟩
  · rw [hcx1, hcy1] at hin1; rw [hcx2, hcy2] at hin2; rw [hcx1, hcy2]
    exact one_interval hr hin1.1 hin1.2.1 hin2.2.2.1 hin2.2.2.2
  · rw [hcx1, hcy1] at hin1; rw [hcx2, hcy2] at hin2; rw [hcy1, hcx2]
    exact one_interval hr hin1.2.2.1 hin1.2.2.2 hin2.1 hin2.2.1

/-- **C127**: over the turned extents, the array is the transposed one -/
theorem C127_transposed (h1 : LayerShown env alg l P r up nodata e1 a1) (h2 : LayerShown env' alg l P2 r up nodata e1.turned a2) (ha : alg = .mean ∨ alg = .shoalest)
    (hp : P2.Perm (P.map Pt.turned)) : a2.rows = a1.cols ∧ a2.cols = a1.rows ∧ ∀ i j, i < a1.rows → j < a1.cols → a2.get? j i = a1.get? i j := by
  obtain ⟨hr, s1, -⟩ := layerShown_surface h1 ha
  obtain ⟨-, s2, -⟩ := layerShown_surface h2 ha
  have hrows : a2.rows = a1.cols := by exact_mod_cast mul_right_cancel₀ (ne_of_gt hr) (s2.rows.trans s1.cols.symm)
  have hcols : a2.cols = a1.rows := by exact_mod_cast mul_right_cancel₀ (ne_of_gt hr) (s2.cols.trans s1.rows.symm)
  exact ⟨hrows, hcols, fun i j hi hj => C127_turned h1 h2 ha hp hi hj (hrows ▸ hj) (hcols ▸ hi) rfl rfl⟩

/-- **C127**: an enlarged square of the enlarged map shows what the square at its place shows -/
theorem C127_enlarged (h1 : LayerShown env alg l P r up nodata e1 a1) (h2 : LayerShown env' alg l P2 (c * r) up nodata e2 a2) (ha : alg = .mean ∨ alg = .shoalest)
    (hp : P2.Perm (P.map (Pt.enlarged c))) (hi1 : i1 < a1.rows) (hj1 : j1 < a1.cols) (hi2 : i2 < a2.rows) (hj2 : j2 < a2.cols)
    (hx : c * (e1.minX + (j1 : ℚ) * r) = e2.minX + (j2 : ℚ) * (c * r)) (hy : c * (e1.minY + (i1 : ℚ) * r) = e2.minY + (i2 : ℚ) * (c * r)) : a2.get? i2 j2 = a1.get? i1 j1 := by
  obtain ⟨hr, -⟩ := layerShown_surface h1 ha
  obtain ⟨hcr, -⟩ := layerShown_surface h2 ha
  have hc : 0 < c := (pos_iff_pos_of_mul_pos hcr).2 hr
  refine cell_mapped (Pt.enlarged c) (fun _ => rfl) (fun _ => rfl) (fun _ => rfl) h1 h2 ha hp hi1 hj1 hi2 hj2 fun p _ => ?_
  have hx' : c * (e1.minX + ((j1 + 1 : Nat) : ℚ) * r) = e2.minX + ((j2 + 1 : Nat) : ℚ) * (c * r) := by push_cast; linarith
  have hy' : c * (e1.minY + ((i1 + 1 : Nat) : ℚ) * r) = e2.minY + ((i2 + 1 : Nat) : ℚ) * (c * r) := by push_cast; linarith
  unfold InCell Pt.enlarged
  simp only
  rw [← hx, ← hx', ← hy, ← hy', mul_le_mul_iff_right₀ hc, mul_le_mul_iff_right₀ hc, mul_lt_mul_iff_right₀ hc, mul_lt_mul_iff_right₀ hc]

/-- **C127**: on the enlarged map, the square of each sounding shows what its square shows -/
theorem C127_enlarged_sounding (h1 : LayerShown env alg l P r up nodata e1 a1) (h2 : LayerShown env' alg l P2 (c * r) up nodata e2 a2) (ha : alg = .mean ∨ alg = .shoalest)
    (hp : P2.Perm (P.map (Pt.enlarged c))) {p : Pt} (hmem : p ∈ P) :
    ∃ i1 j1 i2 j2, i1 < a1.rows ∧ j1 < a1.cols ∧ i2 < a2.rows ∧ j2 < a2.cols ∧ InCell e1.minX e1.minY r i1 j1 p ∧ InCell e2.minX e2.minY (c * r) i2 j2 (p.enlarged c) ∧
      a2.get? i2 j2 = a1.get? i1 j1 := by
  obtain ⟨hr, s1, ⟨cx1, cy1, hcx1, hcy1⟩, -⟩ := layerShown_surface h1 ha
  obtain ⟨hcr, s2, ⟨cx2, cy2, hcx2, hcy2⟩, -⟩ := layerShown_surface h2 ha
  have hc : 0 < c := (pos_iff_pos_of_mul_pos hcr).2 hr
  obtain ⟨i1, j1, hi1, hj1, hin1⟩ := s1.all p hmem
  obtain ⟨i2, j2, hi2, hj2, hin2⟩ := s2.all (p.enlarged c) (hp.mem_iff.2 (List.mem_map_of_mem hmem))
  have big : ∀ {k : ℤ} {m : Nat} {t : ℚ}, (k : ℚ) * r + (m : ℚ) * r ≤ t → (k : ℚ) * (c * r) + (m : ℚ) * (c * r) ≤ c * t := by
    intro k m t h; nlinarith [mul_le_mul_of_nonneg_left h hc.le]
  have big' : ∀ {k : ℤ} {m : Nat} {t : ℚ}, t < (k : ℚ) * r + (m : ℚ) * r → c * t < (k : ℚ) * (c * r) + (m : ℚ) * (c * r) := by
    intro k m t h; nlinarith [mul_lt_mul_of_pos_left h hc]
  refine ⟨i1, j1, i2, j2, hi1, hj1, hi2, hj2, hin1, hin2, C127_enlarged h1 h2 ha hp hi1 hj1 hi2 hj2 ?_ ?_⟩
  · rw [hcx1, hcy1] at hin1; rw [hcx2, hcy2] at hin2; rw [hcx1, hcx2]
    rw [← one_interval hcr (big hin1.1) (big' hin1.2.1) hin2.1 hin2.2.1]; ring
  · rw [hcx1, hcy1] at hin1; rw [hcx2, hcy2] at hin2; rw [hcy1, hcy2]
    rw [← one_interval hcr (big hin1.2.2.1) (big' hin1.2.2.2) hin2.2.2.1 hin2.2.2.2]; ring

/-- **C127**: a square of the mirrored map shows what the square at its place shows, as long as no soundings lie on the lines between the columns -/
theorem C127_mirrored (h1 : LayerShown env alg l P r up nodata e1 a1) (h2 : LayerShown env' alg l P2 r up nodata e2 a2) (ha : alg = .mean ∨ alg = .shoalest)
    (hp : P2.Perm (P.map Pt.mirrored)) (hoff : OffLines r P) (hi1 : i1 < a1.rows) (hj1 : j1 < a1.cols) (hi2 : i2 < a2.rows) (hj2 : j2 < a2.cols)
    (hx : e2.minX + (j2 : ℚ) * r = -(e1.minX + ((j1 + 1 : Nat) : ℚ) * r)) (hy : e1.minY + (i1 : ℚ) * r = e2.minY + (i2 : ℚ) * r) : a2.get? i2 j2 = a1.get? i1 j1 := by
  obtain ⟨hr, s1, ⟨cx1, cy1, hcx1, hcy1⟩, -⟩ := layerShown_surface h1 ha
  refine cell_mapped Pt.mirrored (fun _ => rfl) (fun _ => rfl) (fun _ => rfl) h1 h2 ha hp hi1 hj1 hi2 hj2 fun p hmem => ?_
  have hx' : e2.minX + ((j2 + 1 : Nat) : ℚ) * r = -(e1.minX + (j1 : ℚ) * r) := by push_cast at *; linarith
  have hy' : e1.minY + ((i1 + 1 : Nat) : ℚ) * r = e2.minY + ((i2 + 1 : Nat) : ℚ) * r := by push_cast; linarith
  have n1 : p.x ≠ e1.minX + (j1 : ℚ) * r := by
    have := hoff p hmem (cx1 + j1); rw [hcx1]; intro h; exact this (by rw [h]; push_cast; ring)
  have n2 : p.x ≠ e1.minX + ((j1 + 1 : Nat) : ℚ) * r := by
    have := hoff p hmem (cx1 + (j1 + 1)); rw [hcx1]; intro h; exact this (by rw [h]; push_cast; ring)
  unfold InCell Pt.mirrored
  simp only
  rw [hx, hx', hy, hy']
  constructor
  · rintro ⟨q1, q2, q3, q4⟩; exact ⟨by linarith, lt_of_le_of_ne (by linarith) n2, q3, q4⟩
  · rintro ⟨q1, q2, q3, q4⟩; exact ⟨by linarith, by linarith [lt_of_le_of_ne q1 (Ne.symm n1)], q3, q4⟩

/-- **C127**: on the mirrored map, the square of each sounding shows what its square shows, as long as no soundings lie on the lines between the columns -/
theorem C127_mirrored_sounding (h1 : LayerShown env alg l P r up nodata e1 a1) (h2 : LayerShown env' alg l P2 r up nodata e2 a2) (ha : alg = .mean ∨ alg = .shoalest)
    (hp : P2.Perm (P.map Pt.mirrored)) (hoff : OffLines r P) {p : Pt} (hmem : p ∈ P) :
    ∃ i1 j1 i2 j2, i1 < a1.rows ∧ j1 < a1.cols ∧ i2 < a2.rows ∧ j2 < a2.cols ∧ InCell e1.minX e1.minY r i1 j1 p ∧ InCell e2.minX e2.minY r i2 j2 p.mirrored ∧
      a2.get? i2 j2 = a1.get? i1 j1 := by
  obtain ⟨hr, s1, ⟨cx1, cy1, hcx1, hcy1⟩, -⟩ := layerShown_surface h1 ha
  obtain ⟨-, s2, ⟨cx2, cy2, hcx2, hcy2⟩, -⟩ := layerShown_surface h2 ha
  obtain ⟨i1, j1, hi1, hj1, hin1⟩ := s1.all p hmem
  obtain ⟨i2, j2, hi2, hj2, hin2⟩ := s2.all p.mirrored (hp.mem_iff.2 (List.mem_map_of_mem hmem))
  refine ⟨i1, j1, i2, j2, hi1, hj1, hi2, hj2, hin1, hin2, C127_mirrored h1 h2 ha hp hoff hi1 hj1 hi2 hj2 ?_ ?_⟩
  · rw [hcx1, hcy1] at hin1; rw [hcx2, hcy2] at hin2; rw [hcx1, hcx2]
    have n1 : p.x ≠ (cx1 : ℚ) * r + (j1 : ℚ) * r := fun h => hoff p hmem (cx1 + j1) (by rw [h]; push_cast; ring)
    have w1 := lt_of_le_of_ne hin1.1 (Ne.symm n1)
    have w2 := hin1.2.1
    have w3 : (cx2 : ℚ) * r + (j2 : ℚ) * r ≤ -p.x := hin2.1
    have w4 : -p.x < (cx2 : ℚ) * r + ((j2 + 1 : Nat) : ℚ) * r := hin2.2.1
    have lt1 : ((cx2 + j2 : ℤ) : ℚ) * r < ((-cx1 - j1 : ℤ) : ℚ) * r := by push_cast at *; linarith
    have lt2 : ((-cx1 - j1 - 1 : ℤ) : ℚ) * r < ((cx2 + j2 + 1 : ℤ) : ℚ) * r := by push_cast at *; linarith
    have lt1 : cx2 + j2 < -cx1 - j1 := by exact_mod_cast lt_of_mul_lt_mul_right lt1 hr.le
    have lt2 : -cx1 - j1 - 1 < cx2 + j2 + 1 := by exact_mod_cast lt_of_mul_lt_mul_right lt2 hr.le
    have : (cx2 : ℤ) = -cx1 - j1 - 1 - j2 := by omega
    rw [this]; push_cast; ring
  · rw [hcx1, hcy1] at hin1; rw [hcx2, hcy2] at hin2; rw [hcy1, hcy2]
    exact one_interval hr hin1.2.2.1 hin1.2.2.2 hin2.2.2.1 hin2.2.2.2

/-! ## the hypotheses can be met -/

private def answer : Except Err (Option (List LayerArr)) → LayerArr
  | .ok (some [a]) => a
  | _ => ⟨0, 0, []⟩

private theorem answered {x : Except Err (Option (List LayerArr))} (h : 0 < (answer x).rows) : x = .ok (some [answer x]) := by
  unfold answer at *
  split at h
  · rfl
  · exact absurd h (by decide)

private def callAt (r : ℚ) : GridCall := { alg := .mean, res := some r, clear := true }
private def newOf (pts : List Pt) : Grid Tile := ((newSR 32 false).addPoints ⟨demoFields, pts⟩ "all" demoArgs).st
private def shownAt (pts : List Pt) (r : ℚ) : LayerArr := answer (((newOf pts).gridWith demoEnv (callAt r) none).st.getLayersByName demoEnv [.depth] (some r) none false).2
private def extentsAt (pts : List Pt) (r : ℚ) : Extents := (((newOf pts).gridWith demoEnv (callAt r) none).st.extents).getD ⟨0, 0, 0, 0⟩

private theorem shown_at {pts : List Pt} {r : ℚ} {n : Nat} (hn : (32 : ℚ) = n * r) (hadd : ((newSR 32 false).addPoints ⟨demoFields, pts⟩ "all" demoArgs).err = none)
    (hok : ((newOf pts).gridWith demoEnv (callAt r) none).err = none) (hv : ((newOf pts).gridWith demoEnv (callAt r) none).st.info.vref = none)
    (he : ((newOf pts).gridWith demoEnv (callAt r) none).st.extents = some (extentsAt pts r)) (hq : 0 < (shownAt pts r).rows) :
    LayerShown demoEnv .mean .depth (pts ++ []) r false none (extentsAt pts r) (shownAt pts r) :=
  .sr (n := n) (size := 32) (zUp := false) (a := callAt r) (dask := none) (fl := demoFields) (F := .plain) (s := false) (g := newOf pts) (A := [("all", pts)]) (by norm_num)
    ((GridHistory.new .plain).add pts "all" demoArgs hadd) (.inl rfl) rfl (.inr rfl) (.inl rfl) rfl (by rw [hn]) hok (no_flip hv) he (answered hq)

private def turned : List Pt := (demoA ++ demoB).map Pt.turned
private def enlarged : List Pt := (demoA ++ demoB).map (Pt.enlarged 2)
private def mirrored : List Pt := (demoA ++ demoB).map Pt.mirrored

/-- six soundings in squares of side 16, the same with eastings and northings exchanged and in another order; the array has 6 rows and 4 columns, the turned one has 4 rows and 6 columns -/
example : LayerShown demoEnv .mean .depth ((demoA ++ demoB) ++ []) 16 false none (extentsAt (demoA ++ demoB) 16) (shownAt (demoA ++ demoB) 16) ∧
    LayerShown demoEnv .mean .depth (turned.reverse ++ []) 16 false none (extentsAt (demoA ++ demoB) 16).turned (shownAt turned.reverse 16) ∧
    (turned.reverse ++ []).Perm (((demoA ++ demoB) ++ []).map Pt.turned) ∧ (shownAt (demoA ++ demoB) 16).rows = 6 ∧ (shownAt (demoA ++ demoB) 16).cols = 4 ∧
    (shownAt turned.reverse 16).get? 3 2 = some (some 32) ∧ (shownAt turned.reverse 16).get? 2 3 = some none :=
  ⟨shown_at (n := 2) (by norm_num) (by decide +kernel) (by decide +kernel) (by decide +kernel) (by decide +kernel) (by decide +kernel),
    (show extentsAt turned.reverse 16 = (extentsAt (demoA ++ demoB) 16).turned by decide +kernel) ▸
      shown_at (n := 2) (by norm_num) (by decide +kernel) (by decide +kernel) (by decide +kernel) (by decide +kernel) (by decide +kernel),
    (by rw [List.append_nil, List.append_nil]; exact List.reverse_perm _), (by decide +kernel), (by decide +kernel), (by decide +kernel), (by decide +kernel)⟩

/-- the six soundings in squares of side 8, and their places doubled in squares of side 16 -/
example : LayerShown demoEnv .mean .depth ((demoA ++ demoB) ++ []) 8 false none (extentsAt (demoA ++ demoB) 8) (shownAt (demoA ++ demoB) 8) ∧
    LayerShown demoEnv .mean .depth (enlarged.reverse ++ []) (2 * 8) false none (extentsAt enlarged.reverse (2 * 8)) (shownAt enlarged.reverse (2 * 8)) ∧
    (enlarged.reverse ++ []).Perm (((demoA ++ demoB) ++ []).map (Pt.enlarged 2)) ∧
    2 * ((extentsAt (demoA ++ demoB) 8).minX + ((4 : Nat) : ℚ) * 8) = (extentsAt enlarged.reverse (2 * 8)).minX + ((4 : Nat) : ℚ) * (2 * 8) ∧
    (shownAt (demoA ++ demoB) 8).get? 0 4 = some (some (11667 / 1000)) ∧ (shownAt enlarged.reverse (2 * 8)).get? 0 4 = some (some (11667 / 1000)) :=
  ⟨shown_at (n := 4) (by norm_num) (by decide +kernel) (by decide +kernel) (by decide +kernel) (by decide +kernel) (by decide +kernel),
    shown_at (n := 2) (by norm_num) (by decide +kernel) (by decide +kernel) (by decide +kernel) (by decide +kernel) (by decide +kernel),
    (by rw [List.append_nil, List.append_nil]; exact List.reverse_perm _), (by decide +kernel), (by decide +kernel), (by decide +kernel)⟩

/-- the six soundings in squares of side 16, and with east and west exchanged; none lies on a line -/
example : LayerShown demoEnv .mean .depth ((demoA ++ demoB) ++ []) 16 false none (extentsAt (demoA ++ demoB) 16) (shownAt (demoA ++ demoB) 16) ∧
    LayerShown demoEnv .mean .depth (mirrored.reverse ++ []) 16 false none (extentsAt mirrored.reverse 16) (shownAt mirrored.reverse 16) ∧
    (mirrored.reverse ++ []).Perm (((demoA ++ demoB) ++ []).map Pt.mirrored) ∧ OffLines 16 ((demoA ++ demoB) ++ []) ∧
    (extentsAt mirrored.reverse 16).minX + ((1 : Nat) : ℚ) * 16 = -((extentsAt (demoA ++ demoB) 16).minX + ((2 + 1 : Nat) : ℚ) * 16) ∧
    (shownAt mirrored.reverse 16).get? 0 1 = some (some (11667 / 1000)) ∧ (shownAt (demoA ++ demoB) 16).get? 0 2 = some (some (11667 / 1000)) :=
  ⟨shown_at (n := 2) (by norm_num) (by decide +kernel) (by decide +kernel) (by decide +kernel) (by decide +kernel) (by decide +kernel),
    shown_at (n := 2) (by norm_num) (by decide +kernel) (by decide +kernel) (by decide +kernel) (by decide +kernel) (by decide +kernel),
    (by rw [List.append_nil, List.append_nil]; exact List.reverse_perm _),
    (by
      intro p hp k h
      have hx : p.x ∈ [3, 20, 21, 3, -20, (4 : ℚ)] := List.mem_map_of_mem (f := Pt.x) hp
      rw [h] at hx
      simp only [List.mem_cons, List.not_mem_nil, or_false] at hx
      rcases hx with hx | hx | hx | hx | hx | hx <;> norm_cast at hx <;> omega),
    (by decide +kernel), (by decide +kernel), (by decide +kernel)⟩

end Bathy
