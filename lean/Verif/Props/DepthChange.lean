import Verif.Spec.DepthChange
import Verif.Props.Merged

/-!
# C126: surfaces follow the depths of the soundings

A depth in a surface lies between the depths of the shoalest and of the deepest sounding in its square; a shoalest surface is nowhere deeper than a mean surface of the same soundings;
deeper soundings at the same places never give a shoaler surface; soundings that are all lowered by the same amount (another vertical datum) give the surface lowered by this amount.
-/

namespace Bathy
open Grid

variable {env1 env2 : Env} {alg : Alg} {l : Layer} {P P2 : List Pt} {r d : ℚ} {up1 up2 : Bool} {e1 e2 : Extents} {a1 a2 : LayerArr} {i1 j1 i2 j2 : Nat} {f : Pt → Pt}

/-- the rule for the depth of a square, in terms of the shown number -/
private theorem depth_cell (h : LayerShown env1 alg .depth P r up1 none e1 a1) (ha : alg = .mean ∨ alg = .shoalest) (hi : i1 < a1.rows) (hj : j1 < a1.cols) :
    ∃ v, a1.get? i1 j1 = some v ∧ CellRule alg .depth (inCell e1.minX e1.minY r i1 j1 P) (depthShownBy up1 v) := by
  obtain ⟨-, s, -⟩ := layerShown_surface h ha
  obtain ⟨v, k, g⟩ := s.cell i1 j1 hi hj
  refine ⟨_, g, ?_⟩
  have : depthShownBy up1 (shownCell .depth none up1 v) = v := by
    cases v with
    | none => rfl
    | some z => cases up1 <;> simp [depthShownBy, shownCell, shownValue]
  rw [this]; exact k

private theorem exists_min : ∀ {q : List Pt}, q ≠ [] → ∃ p ∈ q, ∀ x ∈ q, p.z ≤ x.z
  | [], h => absurd rfl h
  | [a], _ => ⟨a, by simp, by simp⟩
  | a :: b :: q, _ => by
    obtain ⟨p, hp, hmin⟩ := exists_min (q := b :: q) (by simp)
    by_cases hap : a.z ≤ p.z
    · refine ⟨a, by simp, fun x hx => ?_⟩
      rcases List.mem_cons.1 hx with rfl | hx
      · exact le_refl _
      · exact hap.trans (hmin x hx)
    · refine ⟨p, List.mem_cons_of_mem _ hp, fun x hx => ?_⟩
      rcases List.mem_cons.1 hx with rfl | hx
      · exact (not_le.1 hap).le
      · exact hmin x hx

private theorem exists_max {q : List Pt} (h : q ≠ []) : ∃ p ∈ q, ∀ x ∈ q, x.z ≤ p.z := by
  obtain ⟨p, hp, hmin⟩ := exists_min (q := q.map fun p => { p with z := -p.z }) (by simpa using h)
  obtain ⟨p, hp', rfl⟩ := List.mem_map.1 hp
  exact ⟨p, hp', fun x hx => neg_le_neg_iff.1 (hmin _ (List.mem_map_of_mem hx))⟩

private theorem le_mean {q : List ℚ} {m : ℚ} (h : q ≠ []) (hm : ∀ x ∈ q, m ≤ x) : m ≤ meanOf q := by
  have hn : (0 : ℚ) < q.length := by exact_mod_cast List.length_pos_iff.2 h
  have hs : q.length • m ≤ q.sum := List.card_nsmul_le_sum q m hm
  rw [nsmul_eq_mul] at hs
  unfold meanOf
  rw [le_div_iff₀ hn]; linarith

private theorem mean_le {q : List ℚ} {m : ℚ} (h : q ≠ []) (hm : ∀ x ∈ q, x ≤ m) : meanOf q ≤ m := by
  have hn : (0 : ℚ) < q.length := by exact_mod_cast List.length_pos_iff.2 h
  have hs : q.sum ≤ q.length • m := List.sum_le_card_nsmul q m hm
  rw [nsmul_eq_mul] at hs
  unfold meanOf
  rw [div_le_iff₀ hn]; linarith

private theorem rule_between (ha : alg = .mean ∨ alg = .shoalest) {Q : List Pt} {v : Option ℚ} (hq : Q ≠ []) (h : CellRule alg .depth Q v) : Between Q v := by
  obtain ⟨p, hp, hmin⟩ := exists_min hq
  obtain ⟨p', hp', hmax⟩ := exists_max hq
  rcases ha with rfl | rfl
  · have h : MeanCell round3 Pt.z Q v := h
    refine ⟨_, h.2 hq, ⟨p, hp, hmin, round3_mono (le_mean (by simpa using hq) ?_)⟩, p', hp', hmax, round3_mono (mean_le (by simpa using hq) ?_)⟩
    · rintro x hx; obtain ⟨y, hy, rfl⟩ := List.mem_map.1 hx; exact hmin y hy
    · rintro x hx; obtain ⟨y, hy, rfl⟩ := List.mem_map.1 hx; exact hmax y hy
  · have h : ShoalCell round3 Q v := h
    obtain ⟨m, hm, hv⟩ := h.2 hq
    obtain ⟨y, hy, rfl⟩ := List.mem_map.1 hm.1
    exact ⟨_, hv, ⟨p, hp, hmin, round3_mono (hmin y hy)⟩, p', hp', hmax, round3_mono (hmax y hy)⟩

/-- **C126**: the depth of a square lies between the ones of the shoalest and the deepest sounding in it -/
theorem C126_between (h : LayerShown env1 alg .depth P r up1 none e1 a1) (ha : alg = .mean ∨ alg = .shoalest) (hi : i1 < a1.rows) (hj : j1 < a1.cols)
    (hne : ∃ p ∈ P, InCell e1.minX e1.minY r i1 j1 p) : ∃ v, a1.get? i1 j1 = some v ∧ Between (P.filter fun p => decide (InCell e1.minX e1.minY r i1 j1 p)) (depthShownBy up1 v) := by
  obtain ⟨v, g, k⟩ := depth_cell h ha hi hj
  obtain ⟨p, hp, hin⟩ := hne
  exact ⟨v, g, rule_between ha (List.ne_nil_of_mem (List.mem_filter.2 ⟨hp, decide_eq_true hin⟩)) k⟩

/-- the soundings of one square of two surfaces -/
private theorem cell_changed (hp : P2.Perm (P.map f)) (hf : KeepsPlaces f P) (hs : SamePlace r e1 i1 j1 e2 i2 j2) :
    (inCell e2.minX e2.minY r i2 j2 P2).Perm ((inCell e1.minX e1.minY r i1 j1 P).map f) := by
  rw [inCell_same hs]
  refine (cells_perm hp _ _).trans ?_
  unfold inCell
  rw [List.filter_map]
  refine List.Perm.of_eq (congrArg _ (List.filter_congr fun p hp => ?_))
  simp only [Function.comp_apply, decide_eq_decide]
  unfold InCell
  rw [(hf p hp).1, (hf p hp).2]

private theorem depth_perm {Q Q' : List Pt} {v : Option ℚ} (hq : Q.Perm Q') (h : CellRule alg .depth Q v) : CellRule alg .depth Q' v :=
  rule_perm (bs := false) (fl := demoFields) (nodata := none) (.inl rfl) _ _ _ hq h

private theorem depth_none (ha : alg = .mean ∨ alg = .shoalest) {v : Option ℚ} (h : CellRule alg .depth [] v) : v = none := by
  rcases ha with rfl | rfl <;> exact h.1 rfl

/-- **C126**: a shoalest surface is nowhere deeper than a mean surface of the same soundings -/
theorem C126_shoalest_mean (h1 : LayerShown env1 .shoalest .depth P r up1 none e1 a1) (h2 : LayerShown env2 .mean .depth P2 r up2 none e2 a2) (hp : P2.Perm P)
    (hs : SamePlace r e1 i1 j1 e2 i2 j2) (hi1 : i1 < a1.rows) (hj1 : j1 < a1.cols) (hi2 : i2 < a2.rows) (hj2 : j2 < a2.cols) :
    ∃ v1 v2, a1.get? i1 j1 = some v1 ∧ a2.get? i2 j2 = some v2 ∧ NotShoaler (depthShownBy up1 v1) (depthShownBy up2 v2) := by
  obtain ⟨v1, g1, k1⟩ := depth_cell h1 (.inr rfl) hi1 hj1
  obtain ⟨v2, g2, k2⟩ := depth_cell h2 (.inl rfl) hi2 hj2
  refine ⟨v1, v2, g1, g2, ?_⟩
  have hc := cell_changed (f := id) (r := r) (by simpa using hp) (fun _ _ => ⟨rfl, rfl⟩) hs
  rw [List.map_id] at hc
  have k2 := depth_perm hc k2
  generalize inCell e1.minX e1.minY r i1 j1 P = Q at *
  by_cases hq : Q = []
  · subst hq
    exact .inl ⟨depth_none (.inr rfl) k1, depth_none (.inl rfl) k2⟩
  · have k1 : ShoalCell round3 Q _ := k1
    have k2 : MeanCell round3 Pt.z Q _ := k2
    obtain ⟨m, hm, hv⟩ := k1.2 hq
    exact .inr ⟨_, _, hv, k2.2 hq, round3_mono (le_mean (by simpa using hq) hm.2)⟩

/-- **C126**: soundings that are not shoaler, at the same places, give a surface that is nowhere shoaler -/
theorem C126_monotone (h1 : LayerShown env1 alg .depth P r up1 none e1 a1) (h2 : LayerShown env2 alg .depth P2 r up2 none e2 a2) (ha : alg = .mean ∨ alg = .shoalest)
    (hp : P2.Perm (P.map f)) (hf : KeepsPlaces f P) (hz : ∀ p ∈ P, p.z ≤ (f p).z) (hs : SamePlace r e1 i1 j1 e2 i2 j2)
    (hi1 : i1 < a1.rows) (hj1 : j1 < a1.cols) (hi2 : i2 < a2.rows) (hj2 : j2 < a2.cols) :
    ∃ v1 v2, a1.get? i1 j1 = some v1 ∧ a2.get? i2 j2 = some v2 ∧ NotShoaler (depthShownBy up1 v1) (depthShownBy up2 v2) := by
  obtain ⟨v1, g1, k1⟩ := depth_cell h1 ha hi1 hj1
  obtain ⟨v2, g2, k2⟩ := depth_cell h2 ha hi2 hj2
  refine ⟨v1, v2, g1, g2, ?_⟩
  have k2 := depth_perm (cell_changed hp hf hs) k2
  have hz : ∀ p ∈ inCell e1.minX e1.minY r i1 j1 P, p.z ≤ (f p).z := fun p hp => hz p (List.mem_filter.1 hp).1
  generalize inCell e1.minX e1.minY r i1 j1 P = Q at *
  by_cases hq : Q = []
  · subst hq
    exact .inl ⟨depth_none ha k1, depth_none ha k2⟩
  have hq2 : Q.map f ≠ [] := by simpa using hq
  rcases ha with rfl | rfl
  · have k1 : MeanCell round3 Pt.z Q _ := k1
    have k2 : MeanCell round3 Pt.z (Q.map f) _ := k2
    refine .inr ⟨_, _, k1.2 hq, k2.2 hq2, round3_mono ?_⟩
    unfold meanOf
    rw [List.map_map, List.length_map, List.length_map]
    have : (Q.map Pt.z).sum ≤ (Q.map (Pt.z ∘ f)).sum := List.sum_le_sum hz
    exact div_le_div_of_nonneg_right this (Nat.cast_nonneg _)
  · have k1 : ShoalCell round3 Q _ := k1
    have k2 : ShoalCell round3 (Q.map f) _ := k2
    obtain ⟨m1, hm1, hv1⟩ := k1.2 hq
    obtain ⟨m2, hm2, hv2⟩ := k2.2 hq2
    refine .inr ⟨_, _, hv1, hv2, round3_mono ?_⟩
    have hmem := hm2.1
    rw [List.map_map] at hmem
    obtain ⟨p, hp, rfl⟩ := List.mem_map.1 hmem
    exact (hm1.2 _ (List.mem_map_of_mem hp)).trans (hz p hp)

private theorem round3_add (v : ℚ) (k : ℤ) : round3 (v + k / 500) = round3 v + k / 500 := by
  unfold round3
  have h1 : (v + (k : ℚ) / 500) * 1000 = v * 1000 + ((2 * k : ℤ) : ℚ) := by push_cast; ring
  simp only
  rw [h1, Int.floor_add_intCast]
  have h2 : v * 1000 + ((2 * k : ℤ) : ℚ) - ((⌊v * 1000⌋ + 2 * k : ℤ) : ℚ) = v * 1000 - (⌊v * 1000⌋ : ℚ) := by push_cast; ring
  have h3 : (⌊v * 1000⌋ + 2 * k) % 2 = ⌊v * 1000⌋ % 2 := by omega
  rw [h2, h3]
  push_cast
  split
  · ring
  · split
    · ring
    · split <;> ring

/-- the depth before rounding is lowered by `d` -/
private theorem lowered_rule (ha : alg = .mean ∨ alg = .shoalest) {Q : List Pt} {v w : Option ℚ} (h1 : CellRule alg .depth Q v) (h2 : CellRule alg .depth (Q.map (Pt.lowered d)) w) :
    (v = none ∧ w = none) ∨ ∃ m, v = some (round3 m) ∧ w = some (round3 (m + d)) := by
  by_cases hq : Q = []
  · subst hq; exact .inl ⟨depth_none ha h1, depth_none ha h2⟩
  have hq2 : Q.map (Pt.lowered d) ≠ [] := by simpa using hq
  rcases ha with rfl | rfl
  · have k1 : MeanCell round3 Pt.z Q _ := h1
    have k2 : MeanCell round3 Pt.z (Q.map (Pt.lowered d)) _ := h2
    refine .inr ⟨_, k1.2 hq, ?_⟩
    rw [k2.2 hq2]
    congr 2
    unfold meanOf
    rw [List.map_map, List.length_map, List.length_map]
    have hn : (Q.length : ℚ) ≠ 0 := by exact_mod_cast fun h => hq (List.length_eq_zero_iff.1 h)
    have hsum : ∀ Q : List Pt, (Q.map (Pt.z ∘ Pt.lowered d)).sum = (Q.map Pt.z).sum + Q.length * d := by
      intro Q
      induction Q with
      | nil => simp
      | cons p Q ih =>
        rw [List.map_cons, List.map_cons, List.sum_cons, List.sum_cons, ih, List.length_cons]
        show p.z + d + _ = _
        push_cast; ring
    rw [hsum]; field_simp
  · have k1 : ShoalCell round3 Q _ := h1
    have k2 : ShoalCell round3 (Q.map (Pt.lowered d)) _ := h2
    obtain ⟨m, hm, hv⟩ := k1.2 hq
    obtain ⟨m2, hm2, hv2⟩ := k2.2 hq2
    refine .inr ⟨m, hv, ?_⟩
    rw [hv2]
    congr 2
    refine isMin_unique (List.Perm.refl _) hm2 ?_
    rw [List.map_map]
    obtain ⟨p, hp, rfl⟩ := List.mem_map.1 hm.1
    refine ⟨List.mem_map.2 ⟨p, hp, rfl⟩, fun x hx => ?_⟩
    obtain ⟨q, hq, rfl⟩ := List.mem_map.1 hx
    exact add_le_add_left (hm.2 _ (List.mem_map_of_mem hq)) d

/-- **C126**: soundings lowered by `d` give the surface lowered by `d`, within a millimetre because of the rounding, and exactly if `d` is a multiple of two millimetres -/
theorem C126_lowered (h1 : LayerShown env1 alg .depth P r up1 none e1 a1) (h2 : LayerShown env2 alg .depth P2 r up2 none e2 a2) (ha : alg = .mean ∨ alg = .shoalest)
    (hp : P2.Perm (P.map (Pt.lowered d))) (hs : SamePlace r e1 i1 j1 e2 i2 j2) (hi1 : i1 < a1.rows) (hj1 : j1 < a1.cols) (hi2 : i2 < a2.rows) (hj2 : j2 < a2.cols) :
    ∃ v1 v2, a1.get? i1 j1 = some v1 ∧ a2.get? i2 j2 = some v2 ∧ DeeperBy d (1 / 1000) (depthShownBy up1 v1) (depthShownBy up2 v2) ∧
      ((∃ k : ℤ, d = k / 500) → DeeperBy d 0 (depthShownBy up1 v1) (depthShownBy up2 v2)) := by
  obtain ⟨v1, g1, k1⟩ := depth_cell h1 ha hi1 hj1
  obtain ⟨v2, g2, k2⟩ := depth_cell h2 ha hi2 hj2
  refine ⟨v1, v2, g1, g2, ?_⟩
  have k2 := depth_perm (cell_changed hp (fun _ _ => ⟨rfl, rfl⟩) hs) k2
  rcases lowered_rule ha k1 k2 with ⟨n1, n2⟩ | ⟨m, n1, n2⟩
  · exact ⟨.inl ⟨n1, n2⟩, fun _ => .inl ⟨n1, n2⟩⟩
  · refine ⟨.inr ⟨_, _, n1, n2, ?_⟩, ?_⟩
    · have a := abs_le.1 (round3_off m)
      have b := abs_le.1 (round3_off (m + d))
      rw [abs_le]
      constructor <;> linarith [a.1, a.2, b.1, b.2]
    · rintro ⟨k, rfl⟩
      refine .inr ⟨_, _, n1, n2, ?_⟩
      rw [round3_add]; simp

/-! ## the hypotheses can be met -/

/-- what a query returns, if it returns one layer -/
private def answer : Except Err (Option (List LayerArr)) → LayerArr
  | .ok (some [a]) => a
  | _ => ⟨0, 0, []⟩

private theorem answered {x : Except Err (Option (List LayerArr))} (h : 0 < (answer x).rows) : x = .ok (some [answer x]) := by
  unfold answer at *
  split at h
  · rfl
  · exact absurd h (by decide)

private def callAt (alg : Alg) : GridCall := { alg := alg, res := some 16, clear := true }
private def gridOf (pts : List Pt) : Grid Tile := ((newSR 32 false).addPoints ⟨demoFields, pts⟩ "all" demoArgs).st
private def shownOf (pts : List Pt) (alg : Alg) : LayerArr :=
  answer (((gridOf pts).gridWith demoEnv (callAt alg) none).st.getLayersByName demoEnv [.depth] (some 16) none false).2
private def extentsOf (pts : List Pt) (alg : Alg) : Extents := (((gridOf pts).gridWith demoEnv (callAt alg) none).st.extents).getD ⟨0, 0, 0, 0⟩

private theorem shown_of {pts : List Pt} {alg : Alg} (hadd : ((newSR 32 false).addPoints ⟨demoFields, pts⟩ "all" demoArgs).err = none)
    (hok : ((gridOf pts).gridWith demoEnv (callAt alg) none).err = none) (hv : ((gridOf pts).gridWith demoEnv (callAt alg) none).st.info.vref = none)
    (he : ((gridOf pts).gridWith demoEnv (callAt alg) none).st.extents = some (extentsOf pts alg)) (hq : 0 < (shownOf pts alg).rows) :
    LayerShown demoEnv alg .depth (pts ++ []) 16 false none (extentsOf pts alg) (shownOf pts alg) :=
  .sr (n := 2) (size := 32) (zUp := false) (a := callAt alg) (dask := none) (fl := demoFields) (F := .plain) (s := false) (g := gridOf pts) (A := [("all", pts)]) (by norm_num)
    ((GridHistory.new .plain).add pts "all" demoArgs hadd) (.inl rfl) rfl (.inr rfl) (.inl rfl) rfl (by norm_num) hok (no_flip hv) he (answered hq)

/-- the square at (0, 0) of the soundings `demoA ++ demoB` has three soundings: 10 m is the shoalest of them -/
example : LayerShown demoEnv .shoalest .depth ((demoA ++ demoB) ++ []) 16 false none (extentsOf (demoA ++ demoB) .shoalest) (shownOf (demoA ++ demoB) .shoalest) ∧
    LayerShown demoEnv .mean .depth ((demoA ++ demoB) ++ []) 16 false none (extentsOf (demoA ++ demoB) .mean) (shownOf (demoA ++ demoB) .mean) ∧
    SamePlace 16 (extentsOf (demoA ++ demoB) .shoalest) 0 2 (extentsOf (demoA ++ demoB) .mean) 0 2 ∧
    ((demoA ++ demoB).filter fun p => decide (InCell (extentsOf (demoA ++ demoB) .mean).minX (extentsOf (demoA ++ demoB) .mean).minY 16 0 2 p)).length = 3 ∧
    (shownOf (demoA ++ demoB) .shoalest).get? 0 2 = some (some 10) ∧ (shownOf (demoA ++ demoB) .mean).get? 0 2 = some (some (11667 / 1000)) :=
  ⟨shown_of (by decide +kernel) (by decide +kernel) (by decide +kernel) (by decide +kernel) (by decide +kernel),
    shown_of (by decide +kernel) (by decide +kernel) (by decide +kernel) (by decide +kernel) (by decide +kernel),
    (by unfold SamePlace; decide +kernel), (by decide +kernel), (by decide +kernel), (by decide +kernel)⟩

private def lowered : List Pt := (demoA ++ demoB).map (Pt.lowered (3 / 250))

/-- the same soundings 12 mm deeper -/
example : LayerShown demoEnv .mean .depth (lowered.reverse ++ []) 16 false none (extentsOf lowered.reverse .mean) (shownOf lowered.reverse .mean) ∧
    (lowered.reverse ++ []).Perm (((demoA ++ demoB) ++ []).map (Pt.lowered (3 / 250))) ∧ (∃ k : ℤ, (3 / 250 : ℚ) = k / 500) ∧
    KeepsPlaces (Pt.lowered (3 / 250)) ((demoA ++ demoB) ++ []) ∧ (∀ p ∈ (demoA ++ demoB) ++ [], p.z ≤ (Pt.lowered (3 / 250) p).z) ∧
    SamePlace 16 (extentsOf (demoA ++ demoB) .mean) 0 2 (extentsOf lowered.reverse .mean) 0 2 ∧
    (shownOf lowered.reverse .mean).get? 0 2 = ((shownOf (demoA ++ demoB) .mean).get? 0 2).map (Option.map (· + 3 / 250)) :=
  ⟨shown_of (by decide +kernel) (by decide +kernel) (by decide +kernel) (by decide +kernel) (by decide +kernel),
    (by rw [List.append_nil, List.append_nil]; exact List.reverse_perm _), ⟨6, by norm_num⟩, (by unfold KeepsPlaces; decide +kernel), (by decide +kernel),
    (by unfold SamePlace; decide +kernel), (by decide +kernel)⟩

end Bathy
