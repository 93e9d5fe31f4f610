import Verif.Spec.Safe
import Verif.Lemmas.FloatMean
import Verif.Props.UpdateSurface

/-!
# C121: a shoalest surface hides no shoal

Surfaces are compared cell by cell: the one gridded with 'shoalest' is nowhere deeper than any surface of some of its soundings at the same or a finer resolution, be it
gridded with 'mean' or 'shoalest', in one grid or another, single or variable resolution, all tiles or an update.
-/

namespace Bathy
open Grid

variable {env env' : Env} {alg : Alg} {P P1 P2 : List Pt} {r r1 r2 : ℚ} {up : Bool} {nodata nodata1 nodata2 : Option ℚ} {e e1 e2 : Extents} {arr a1 a2 : LayerArr}

/-- `arr`, over the extents `e`, is what a grid answers when it is asked for the depths after soundings `P` were gridded at resolution `r` with the algorithm `alg`.  Single and
variable resolution grids in every reachable state, all tiles gridded or an update of a grid kept up to date since a call for all tiles; the resolution divides the tile size. -/
inductive DepthShown (env : Env) (alg : Alg) : List Pt → ℚ → Bool → Option ℚ → Extents → LayerArr → Prop
  | sr {size r fl F s g A a dask nodata zUp up e arr} {n : Nat} (hs : 0 < size) (h : SRHistory env size false fl F s g A) (ha : a.alg = alg) (hF : F = .plain ∨ a.clear = true)
      (hv : a.regrid = .full ∨ a.clear = true) (hr : a.res = some r) (hn : size = n * r) (hok : (g.gridWith env a dask).err = none)
      (hup : up = true ↔ (zUp = true ↔ ¬ StoredUp (g.gridWith env a dask).st)) (he : (g.gridWith env a dask).st.extents = some e)
      (hq : ((g.gridWith env a dask).st.getLayersByName env [.depth] (some r) nodata zUp).2 = .ok (some [arr])) : DepthShown env alg A.allPts r up nodata e arr
  | vr {size sub r fl F s g A a dask nodata zUp up e arr} {n q : Nat} (hs : 0 < size) (hsub : isPowerOfTwo sub = true) (hdiv : size = (q : ℚ) * sub) (h : VRHistory env size sub false fl F s g A)
      (ha : a.alg = alg) (hF : F = .plain ∨ a.clear = true) (hv : a.regrid = .full ∨ a.clear = true) (hr : a.res = some r) (hn : sub = n * r)
      (hok : (g.gridWith env a dask).err = none) (hup : up = true ↔ (zUp = true ↔ ¬ StoredUp (g.gridWith env a dask).st)) (he : (g.gridWith env a dask).st.extents = some e)
      (hq : ((g.gridWith env a dask).st.getLayersByName env [.depth] (some r) nodata zUp).2 = .ok (some [arr])) : DepthShown env alg A.allPts r up nodata e arr
  | updateSR {size r fl F s g g1 v A A' a a0 d0 da nodata zUp up e arr} {n : Nat} (hs : 0 < size) (h : SRHistory env size false fl F s g A) (ha0 : a0.alg = alg) (hr0 : a0.res = some r)
      (hv0 : a0.regrid = .full ∨ a0.clear = true) (hF : F = .plain ∨ a0.clear = true) (hn : size = n * r) (hok0 : (g.gridWith env a0 d0).err = none)
      (hsince : Since env fl alg r (g.gridWith env a0 d0).st A g1 A') (ha : a.alg = alg) (har : a.res = some r) (hok : (g1.gridWith env a da).err = none)
      (hu : Requeried env (g1.gridWith env a da).st v) (hup : up = true ↔ (zUp = true ↔ ¬ StoredUp v)) (he : v.extents = some e)
      (hq : (v.getLayersByName env [.depth] (some r) nodata zUp).2 = .ok (some [arr])) : DepthShown env alg A'.allPts r up nodata e arr
  | updateVR {size sub r fl F s g g1 v A A' a a0 d0 da nodata zUp up e arr} {n q : Nat} (hs : 0 < size) (hsub : isPowerOfTwo sub = true) (hdiv : size = (q : ℚ) * sub)
      (h : VRHistory env size sub false fl F s g A) (ha0 : a0.alg = alg) (hr0 : a0.res = some r)
      (hv0 : a0.regrid = .full ∨ a0.clear = true) (hF : F = .plain ∨ a0.clear = true) (hn : sub = n * r) (hok0 : (g.gridWith env a0 d0).err = none)
      (hsince : Since env fl alg r (g.gridWith env a0 d0).st A g1 A') (ha : a.alg = alg) (har : a.res = some r) (hok : (g1.gridWith env a da).err = none)
      (hu : Requeried env (g1.gridWith env a da).st v) (hup : up = true ↔ (zUp = true ↔ ¬ StoredUp v)) (he : v.extents = some e)
      (hq : (v.getLayersByName env [.depth] (some r) nodata zUp).2 = .ok (some [arr])) : DepthShown env alg A'.allPts r up nodata e arr

theorem depthShown_surface (h : DepthShown env alg P r up nodata e arr) (ha : alg = .mean ∨ alg = .shoalest) :
    0 < r ∧ SurfaceOf (CellRule alg .depth) (shownCell .depth nodata up) P r e arr := by
  cases h with
  | sr hs h ha' hF hv hr hn hok hup he hq =>
    subst ha'
    obtain ⟨e', arr', h1, h2, h3⟩ := C100_surface_sr hs h ha hF hv hr hn hok (l := .depth) (nodata := nodata) (.inl rfl) hup
    rw [h2] at hq; rw [h1] at he; cases hq; cases he
    exact ⟨pos_of_mul hs hn, h3⟩
  | vr hs hsub hdiv h ha' hF hv hr hn hok hup he hq =>
    subst ha'
    obtain ⟨e', arr', h1, h2, h3⟩ := C100_surface_vr hs hsub hdiv h ha hF hv hr hn hok (l := .depth) (nodata := nodata) (.inl rfl) hup
    rw [h2] at hq; rw [h1] at he; cases hq; cases he
    exact ⟨pos_of_mul (isPowerOfTwo_pos hsub) hn, h3⟩
  | updateSR hs h ha0 hr0 hv0 hF hn hok0 hsince ha' har hok hu hup he hq =>
    subst ha0
    obtain ⟨e', arr', h1, h2, h3⟩ := C113_update_surface_sr hs h ha hr0 hv0 hF hn hok0 hsince ha' har hok hu (l := .depth) (nodata := nodata) (.inl rfl) hup
    rw [h2] at hq; rw [h1] at he; cases hq; cases he
    exact ⟨pos_of_mul hs hn, h3⟩
  | updateVR hs hsub hdiv h ha0 hr0 hv0 hF hn hok0 hsince ha' har hok hu hup he hq =>
    subst ha0
    obtain ⟨e', arr', h1, h2, h3⟩ := C113_update_surface_vr hs hsub hdiv h ha hr0 hv0 hF hn hok0 hsince ha' har hok hu (l := .depth) (nodata := nodata) (.inl rfl) hup
    rw [h2] at hq; rw [h1] at he; cases hq; cases he
    exact ⟨pos_of_mul (isPowerOfTwo_pos hsub) hn, h3⟩

theorem rint_mono {v w : ℚ} (h : v ≤ w) : Arith.rint v ≤ Arith.rint w := by
  have hf : ⌊v⌋ ≤ ⌊w⌋ := Int.floor_mono h
  rcases Int.lt_or_eq_of_le hf with hlt | heq
  · have h1 : Arith.rint v ≤ ⌊v⌋ + 1 := by
      unfold Arith.rint; simp only; split
      · omega
      · split
        · omega
        · split <;> omega
    have h2 : ⌊w⌋ ≤ Arith.rint w := by
      unfold Arith.rint; simp only; split
      · omega
      · split
        · omega
        · split <;> omega
    omega
  · unfold Arith.rint
    simp only [heq]
    generalize ((⌊w⌋ : ℤ) : ℚ) = f
    split
    · split
      · omega
      · split
        · omega
        · split <;> omega
    · split
      · rename_i k1 k2
        rw [if_neg (fun k => by linarith), if_pos (by linarith)]
      · rename_i k1 k2
        split
        · split
          · linarith
          · split <;> omega
        · split
          · linarith
          · split <;> omega

theorem round3_mono {v w : ℚ} (h : v ≤ w) : round3 v ≤ round3 w := by
  rw [Arith.round3_rint, Arith.round3_rint]
  have := rint_mono (v := v * 1000) (w := w * 1000) (by linarith)
  have h2 : ((Arith.rint (v * 1000) : ℤ) : ℚ) ≤ Arith.rint (w * 1000) := by exact_mod_cast this
  linarith

theorem round3_near (v : ℚ) : round3 v ≤ v + 1 / 2000 := by
  rw [Arith.round3_rint]
  have := abs_le.1 (Arith.rint_err (v * 1000))
  linarith [this.2]

/-- the least number is not above the mean -/
theorem min_le_mean {l : List ℚ} {m : ℚ} (hl : l ≠ []) (h : ∀ x ∈ l, m ≤ x) : m ≤ meanOf l := by
  have hpos : (0 : ℚ) < l.length := by exact_mod_cast List.length_pos_iff.2 hl
  unfold meanOf
  rw [le_div_iff₀ hpos]
  clear hl hpos
  induction l with
  | nil => simp
  | cons x t ih =>
    have h1 := ih (fun y hy => h y (List.mem_cons_of_mem _ hy))
    have h2 := h x List.mem_cons_self
    simp only [List.sum_cons, List.length_cons]
    push_cast
    linarith

/-- the shoalest value of more soundings is not above any value of some of them -/
theorem shoal_le (ha : alg = .mean ∨ alg = .shoalest) {Q1 Q2 : List Pt} (hsub : ∀ p ∈ Q2, p ∈ Q1) (hne : Q2 ≠ []) {v1 v2 : Option ℚ} (h1 : ShoalCell round3 Q1 v1)
    (h2 : CellRule alg .depth Q2 v2) : ∃ z1 z2, v1 = some z1 ∧ v2 = some z2 ∧ z1 ≤ z2 := by
  have hne1 : Q1 ≠ [] := by
    obtain ⟨p, hp⟩ := List.exists_mem_of_ne_nil _ hne
    exact List.ne_nil_of_mem (hsub p hp)
  obtain ⟨m, hm, rfl⟩ := h1.2 hne1
  have hle : ∀ x ∈ Q2.map Pt.z, m ≤ x := by
    intro x hx
    obtain ⟨p, hp, rfl⟩ := List.mem_map.1 hx
    exact hm.2 _ (List.mem_map_of_mem (hsub p hp))
  rcases ha with rfl | rfl
  · exact ⟨_, _, rfl, h2.2 hne, round3_mono (min_le_mean (by simpa using hne) hle)⟩
  · obtain ⟨m2, hm2, rfl⟩ := h2.2 hne
    exact ⟨_, _, rfl, rfl, round3_mono (hle _ hm2.1)⟩

theorem covers_inCell {i1 j1 i2 j2 : Nat} (h : Covers e1 r1 i1 j1 e2 r2 i2 j2) {p : Pt} (hp : InCell e2.minX e2.minY r2 i2 j2 p) : InCell e1.minX e1.minY r1 i1 j1 p :=
  ⟨h.left.trans hp.1, hp.2.1.trans_le h.right, h.bottom.trans hp.2.2.1, hp.2.2.2.trans_le h.top⟩

/-- **C121**: of two surfaces the first one was gridded with 'shoalest' and has all soundings of the second one, which was gridded with 'mean' or 'shoalest'.  Where a cell of
the second one lies in a cell of the first one, and has soundings, both show depths and the first one is not the deeper one; if it has no soundings, it shows the nodata value. -/
theorem C121_not_deeper (h1 : DepthShown env .shoalest P1 r1 up nodata1 e1 a1) (h2 : DepthShown env' alg P2 r2 up nodata2 e2 a2) (ha : alg = .mean ∨ alg = .shoalest)
    (hsub : ∀ p ∈ P2, p ∈ P1) {i1 j1 i2 j2 : Nat} (hi1 : i1 < a1.rows) (hj1 : j1 < a1.cols) (hi2 : i2 < a2.rows) (hj2 : j2 < a2.cols) (hc : Covers e1 r1 i1 j1 e2 r2 i2 j2) :
    ((∀ p ∈ P2, ¬ InCell e2.minX e2.minY r2 i2 j2 p) → a2.get? i2 j2 = some nodata2) ∧
    ((∃ p ∈ P2, InCell e2.minX e2.minY r2 i2 j2 p) → ∃ z1 z2, a1.get? i1 j1 = some (some z1) ∧ a2.get? i2 j2 = some (some z2) ∧ NotDeeper up z1 z2) := by
  obtain ⟨-, s1⟩ := depthShown_surface h1 (.inr rfl)
  obtain ⟨-, s2⟩ := depthShown_surface h2 ha
  obtain ⟨v1, k1, g1⟩ := s1.cell i1 j1 hi1 hj1
  obtain ⟨v2, k2, g2⟩ := s2.cell i2 j2 hi2 hj2
  constructor
  · intro hno
    have hnil : inCell e2.minX e2.minY r2 i2 j2 P2 = [] := by
      unfold inCell
      rw [List.filter_eq_nil_iff]
      intro p hp
      simpa using hno p hp
    have : v2 = none := by
      rcases ha with rfl | rfl
      · exact k2.1 hnil
      · exact k2.1 hnil
    rw [g2, this]; rfl
  · rintro ⟨p, hp, hin⟩
    obtain ⟨z1, z2, rfl, rfl, hle⟩ := shoal_le (alg := alg) ha (Q1 := inCell e1.minX e1.minY r1 i1 j1 P1) (Q2 := inCell e2.minX e2.minY r2 i2 j2 P2)
      (fun x hx => by
        unfold inCell at hx ⊢
        rw [List.mem_filter] at hx ⊢
        exact ⟨hsub x hx.1, by simpa using covers_inCell hc (by simpa using hx.2)⟩)
      (List.ne_nil_of_mem (a := p) (by unfold inCell; rw [List.mem_filter]; exact ⟨hp, by simpa using hin⟩)) k1 k2
    refine ⟨_, _, g1, g2, ?_⟩
    unfold NotDeeper shownValue
    cases up
    · simpa using hle
    · simpa using hle

/-- **C121**: the same rectangle gridded with 'shoalest' at a `k` times larger cell size: the cell (i / k, j / k) is not deeper than the cell (i, j) -/
theorem C121_coarser (h1 : DepthShown env .shoalest P1 r1 up nodata1 e a1) (h2 : DepthShown env' alg P2 r2 up nodata2 e a2) (ha : alg = .mean ∨ alg = .shoalest)
    (hsub : ∀ p ∈ P2, p ∈ P1) {k : Nat} (hk : r1 = k * r2) {i j : Nat} (hi : i < a2.rows) (hj : j < a2.cols) (hin : ∃ p ∈ P2, InCell e.minX e.minY r2 i j p) :
    ∃ z1 z2, a1.get? (i / k) (j / k) = some (some z1) ∧ a2.get? i j = some (some z2) ∧ NotDeeper up z1 z2 := by
  obtain ⟨p1, s1⟩ := depthShown_surface h1 (.inr rfl)
  obtain ⟨p2, s2⟩ := depthShown_surface h2 ha
  have hkpos : 0 < k := by
    rcases Nat.eq_zero_or_pos k with rfl | h
    · rw [hk] at p1; simp at p1
    · exact h
  have hrows : a1.rows * k = a2.rows := by
    have := s1.rows.trans s2.rows.symm
    rw [hk, ← mul_assoc] at this
    exact_mod_cast mul_right_cancel₀ (ne_of_gt p2) this
  have hcols : a1.cols * k = a2.cols := by
    have := s1.cols.trans s2.cols.symm
    rw [hk, ← mul_assoc] at this
    exact_mod_cast mul_right_cancel₀ (ne_of_gt p2) this
  have lo : ∀ m : Nat, ((m / k : Nat) : ℚ) * (k * r2) ≤ (m : ℚ) * r2 := by
    intro m
    rw [← mul_assoc]
    exact mul_le_mul_of_nonneg_right (by exact_mod_cast Nat.div_mul_le_self m k) p2.le
  have hi' : ∀ m : Nat, ((m + 1 : Nat) : ℚ) * r2 ≤ ((m / k + 1 : Nat) : ℚ) * (k * r2) := by
    intro m
    rw [← mul_assoc]
    exact mul_le_mul_of_nonneg_right (by exact_mod_cast Nat.lt_mul_of_div_lt (Nat.lt_succ_self (m / k)) hkpos) p2.le
  refine (C121_not_deeper h1 h2 ha hsub ((Nat.div_lt_iff_lt_mul hkpos).2 (hrows ▸ hi)) ((Nat.div_lt_iff_lt_mul hkpos).2 (hcols ▸ hj)) hi hj ?_).2 hin
  subst hk
  exact ⟨by linarith [lo j], by linarith [hi' j], by linarith [lo i], by linarith [hi' i]⟩

/-- **C121**: every sounding lies in a cell that shows a depth, and this depth is at most half a millimetre below the sounding -/
theorem C121_no_shoal_hidden (h : DepthShown env .shoalest P r up nodata e arr) {p : Pt} (hp : p ∈ P) :
    ∃ i j v, InCell e.minX e.minY r i j p ∧ arr.get? i j = some (some v) ∧ depthOf up v ≤ p.z + 1 / 2000 := by
  obtain ⟨-, s⟩ := depthShown_surface h (.inr rfl)
  obtain ⟨i, j, hi, hj, hin⟩ := s.all p hp
  obtain ⟨v, k, hg⟩ := s.cell i j hi hj
  have hmem : p ∈ inCell e.minX e.minY r i j P := by unfold inCell; rw [List.mem_filter]; exact ⟨hp, by simpa using hin⟩
  obtain ⟨m, hm, rfl⟩ := k.2 (List.ne_nil_of_mem hmem)
  refine ⟨i, j, _, hin, hg, ?_⟩
  have h1 := hm.2 _ (List.mem_map_of_mem hmem)
  have h2 := round3_near m
  unfold depthOf shownValue
  cases up <;> simp <;> linarith

/-! ## the hypotheses can be met -/

private def shoalCall : GridCall := { alg := .shoalest, res := some 8, clear := true }
private def meanCall : GridCall := { alg := .mean, res := some 4 }
private def shoal8 : Grid Tile := (demoSR.gridWith demoEnv shoalCall none).st
private def mean4 : Grid Tile := (demoSR.gridWith demoEnv meanCall (some 2)).st

/-- what a query returns, if it returns one layer -/
private def answer : Except Err (Option (List LayerArr)) → LayerArr
  | .ok (some [a]) => a
  | _ => ⟨0, 0, []⟩

private theorem answered {x : Except Err (Option (List LayerArr))} (h : 0 < (answer x).rows) : x = .ok (some [answer x]) := by
  unfold answer at *
  split at h
  · rfl
  · exact absurd h (by decide)

private theorem heights {τ : Type} {g : Grid τ} (h : g.info.vref = none) : (true = true) ↔ ((true = true) ↔ ¬ StoredUp g) :=
  ⟨fun _ => ⟨fun _ ⟨_, hs, _⟩ => (nomatch h.symm.trans hs), fun _ => rfl⟩, fun _ => rfl⟩

/-- the demo grid gridded with 'shoalest' at 8 and with 'mean' at 4 (by workers), heights shown: the cell around (3, 6) and (4, 6) shows 12, its quarters 13 and 12 -/
example : ∃ e a1 a2, DepthShown demoEnv .shoalest demoStore.allPts 8 true none e a1 ∧ DepthShown demoEnv .mean demoStore.allPts 4 true (some 1000) e a2 ∧
    (∃ p ∈ demoStore.allPts, InCell e.minX e.minY 4 1 8 p) ∧ 1 < a2.rows ∧ 8 < a2.cols ∧ a1.get? (1 / 2) (8 / 2) = some (some (-12)) ∧ a2.get? 1 8 = some (some (-13)) := by
  refine ⟨⟨-32, 64, 0, 96⟩, answer (shoal8.getLayersByName demoEnv [.depth] (some 8) none true).2, answer (mean4.getLayersByName demoEnv [.depth] (some 4) (some 1000) true).2, ?_, ?_, ?_⟩
  · exact .sr (n := 2) (size := 16) (zUp := true) (a := shoalCall) (dask := none) (by norm_num) demoSR_history rfl (.inl rfl) (.inl rfl) rfl (by norm_num) (by decide +kernel)
      (heights (by decide +kernel)) (by decide +kernel) (answered (by decide +kernel))
  · exact .sr (n := 4) (size := 16) (zUp := true) (a := meanCall) (dask := some 2) (by norm_num) demoSR_history rfl (.inl rfl) (.inl rfl) rfl (by norm_num) (by decide +kernel)
      (heights (by decide +kernel)) (by decide +kernel) (answered (by decide +kernel))
  · decide +kernel

private def shoalVR : GridCall := { alg := .shoalest, res := some 1, clear := true }
private def baseVR : Grid (Grid Tile) := (demoVR.gridWith demoEnv shoalVR none).st
private def changedVR : Grid (Grid Tile) := ((baseVR.removePoints "b").st.addPoints ⟨demoFields, demoA⟩ "a" {}).st
private def updateVR : GridCall := { alg := .shoalest, res := some 1, regrid := .update }
private def updatedVR : Grid (Grid Tile) := (changedVR.gridWith demoEnv updateVR none).st

/-- an updated grid with variable resolution: all its soundings are found in the surface -/
example : ∃ e arr, DepthShown demoEnv .shoalest ((demoStore.remove "b") ++ [("a", demoA)] : Store).allPts 1 false none e arr ∧
    ∀ p ∈ ((demoStore.remove "b") ++ [("a", demoA)] : Store).allPts, ∃ i j v, InCell e.minX e.minY 1 i j p ∧ arr.get? i j = some (some v) ∧ v ≤ p.z + 1 / 2000 := by
  have h : ∃ e arr, updatedVR.extents = some e ∧ updatedVR.getLayersByName demoEnv [.depth] (some 1) none false = (updatedVR, .ok (some [arr])) ∧ _ :=
    C113_update_surface_vr (n := 16) (q := 2) (d0 := none) (da := none) (a0 := shoalVR) (a := updateVR)
      (by norm_num) (by decide +kernel) (by norm_num) demoVR_history (.inr rfl) rfl
      (.inr rfl) (.inr rfl) (by norm_num) (by decide +kernel) ((Since.refl.remove "b" (by decide +kernel)).add demoA "a" {} (by decide +kernel)) rfl rfl (by decide +kernel) .refl
      (.inl rfl) (no_flip (by decide +kernel))
  obtain ⟨e, arr, h1, h2, -⟩ := h
  have hd : DepthShown demoEnv .shoalest ((demoStore.remove "b") ++ [("a", demoA)] : Store).allPts 1 false none e arr :=
    .updateVR (n := 16) (q := 2) (d0 := none) (da := none) (a0 := shoalVR) (a := updateVR) (zUp := false) (size := 32) (sub := 16) (v := updatedVR)
      (by norm_num) (by decide +kernel) (by norm_num) demoVR_history rfl rfl
      (.inr rfl) (.inr rfl) (by norm_num) (by decide +kernel) ((Since.refl.remove "b" (by decide +kernel)).add demoA "a" {} (by decide +kernel)) rfl rfl (by decide +kernel) .refl
      (no_flip (by decide +kernel)) h1 (congrArg Prod.snd h2)
  exact ⟨e, arr, hd, fun p hp => C121_no_shoal_hidden hd hp⟩

/-! ## without the half millimetre -/

private def shallow : Pt := ⟨3, 5, 10006 / 10000, 1, 1⟩
private def shallowSR : Grid Tile := ((newSR 16 false).addPoints ⟨demoFields, [shallow]⟩ "a" demoArgs).st
private def shallowCall : GridCall := { alg := .shoalest, res := some 2 }
private def shallowG : Grid Tile := (shallowSR.gridWith demoEnv shallowCall none).st

/-- the layers are rounded to the millimetre, up or down: a sounding of 1.0006 m is shown as 1.001 m, deeper than the only sounding there is -/
theorem C121_exact_violated : ∃ (P : List Pt) (e : Extents) (arr : LayerArr) (p : Pt) (i j : Nat) (v : ℚ), DepthShown demoEnv .shoalest P 2 false none e arr ∧ p ∈ P ∧
    InCell e.minX e.minY 2 i j p ∧ arr.get? i j = some (some v) ∧ p.z < v := by
  refine ⟨Store.allPts [("a", [shallow])], ⟨0, 16, 0, 16⟩, answer (shallowG.getLayersByName demoEnv [.depth] (some 2) none false).2, shallow, 2, 1, 1001 / 1000, ?_, ?_⟩
  · exact .sr (n := 8) (size := 16) (zUp := false) (a := shallowCall) (dask := none) (fl := demoFields) (F := .plain) (s := false) (g := shallowSR) (by norm_num)
      ((GridHistory.new .plain).add [shallow] "a" demoArgs (by decide +kernel)) rfl (.inl rfl) (.inl rfl) rfl (by norm_num) (by decide +kernel)
      (no_flip (by decide +kernel)) (by decide +kernel) (answered (by decide +kernel))
  · decide +kernel

end Bathy
