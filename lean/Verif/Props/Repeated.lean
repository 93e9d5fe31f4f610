import Verif.Props.Merged

/-!
# C125: soundings that come several times

A survey that is added `n` times (under other names, say) shows the same depths and uncertainties as once, and `n` times the counts.
-/

namespace Bathy
open Grid

variable {env env' : Env} {alg alg' : Alg} {l : Layer} {P P2 : List Pt} {r : ℚ} {up up' : Bool} {nodata : Option ℚ} {e1 e2 : Extents} {a1 a2 : LayerArr} {i1 j1 i2 j2 : Nat}

private theorem copies_map {α β : Type} (f : α → β) (n : Nat) (Q : List α) : ((List.replicate n Q).flatten).map f = (List.replicate n (Q.map f)).flatten := by
  rw [List.map_flatten, List.map_replicate]

private theorem copies_sum (n : Nat) (q : List ℚ) : ((List.replicate n q).flatten).sum = n * q.sum := by
  induction n with
  | zero => simp
  | succ n ih => rw [List.replicate_succ, List.flatten_cons, List.sum_append, ih]; push_cast; ring

private theorem copies_length {α : Type} (n : Nat) (q : List α) : ((List.replicate n q).flatten).length = n * q.length := by
  rw [List.length_flatten, List.map_replicate, List.sum_replicate_nat]

private theorem copies_mem {α : Type} {n : Nat} (hn : n ≠ 0) {q : List α} {x : α} : x ∈ (List.replicate n q).flatten ↔ x ∈ q := by
  rw [List.mem_flatten]
  exact ⟨fun ⟨y, hy, hx⟩ => (List.eq_of_mem_replicate hy) ▸ hx, fun hx => ⟨q, List.mem_replicate.2 ⟨hn, rfl⟩, hx⟩⟩

/-- copies of the soundings do not change what a rule gives, except for counts -/
private theorem rule_copies (ha : alg = .mean ∨ alg = .shoalest) (hl : l ≠ .density) {n : Nat} (hn : n ≠ 0) {Q : List Pt} {v : Option ℚ}
    (h : CellRule alg l ((List.replicate n Q).flatten) v) : CellRule alg l Q v := by
  have hne : Q ≠ [] → (List.replicate n Q).flatten ≠ [] := by
    intro hq h0
    obtain ⟨p, hp⟩ := List.exists_mem_of_ne_nil Q hq
    have := (copies_mem (q := Q) hn).2 hp
    rw [h0] at this; cases this
  have hnil : Q = [] → (List.replicate n Q).flatten = [] := by
    rintro rfl; rw [List.flatten_eq_nil_iff]; exact fun q hq => List.eq_of_mem_replicate hq
  have hm : ∀ f : Pt → ℚ, MeanCell round3 f ((List.replicate n Q).flatten) v → MeanCell round3 f Q v := by
    intro f k
    refine ⟨fun h0 => k.1 (hnil h0), fun h0 => ?_⟩
    rw [k.2 (hne h0)]
    congr 2
    unfold meanOf
    rw [copies_map, copies_sum, copies_length]
    have h1 : (n : ℚ) ≠ 0 := by exact_mod_cast hn
    push_cast
    rw [mul_div_mul_left _ _ h1]
  have hs : ShoalCell round3 ((List.replicate n Q).flatten) v → ShoalCell round3 Q v := by
    intro k
    refine ⟨fun h0 => k.1 (hnil h0), fun h0 => ?_⟩
    obtain ⟨m, hmin, hv⟩ := k.2 (hne h0)
    rw [copies_map] at hmin
    exact ⟨m, ⟨(copies_mem hn).1 hmin.1, fun x hx => hmin.2 x ((copies_mem hn).2 hx)⟩, hv⟩
  rcases ha with rfl | rfl
  · cases l <;> first | exact absurd rfl hl | exact hm _ h
  · cases l <;> first | exact absurd rfl hl | exact hm _ h | exact hs h

/-- the soundings of a square -/
private theorem inCell_copies {n : Nat} (hp : P2.Perm ((List.replicate n P).flatten)) (h12 : SamePlace r e1 i1 j1 e2 i2 j2) :
    (inCell e2.minX e2.minY r i2 j2 P2).Perm ((List.replicate n (inCell e1.minX e1.minY r i1 j1 P)).flatten) := by
  rw [inCell_same h12]
  refine (cells_perm hp _ _).trans (List.Perm.of_eq ?_)
  unfold inCell
  rw [List.filter_flatten, List.map_replicate]

/-- **C125**: soundings that come `n` times show the same depths, intensities and uncertainties as once -/
theorem C125_repeated (h1 : LayerShown env alg l P r up nodata e1 a1) (h2 : LayerShown env' alg l P2 r up nodata e2 a2) (ha : alg = .mean ∨ alg = .shoalest) (hl : l ≠ .density)
    {n : Nat} (hn : n ≠ 0) (hp : P2.Perm ((List.replicate n P).flatten)) (h12 : SamePlace r e1 i1 j1 e2 i2 j2) (hi1 : i1 < a1.rows) (hj1 : j1 < a1.cols) (hi2 : i2 < a2.rows)
    (hj2 : j2 < a2.cols) : a2.get? i2 j2 = a1.get? i1 j1 := by
  obtain ⟨-, s1, -⟩ := layerShown_surface h1 ha
  obtain ⟨-, s2, -, bs, fl, hr⟩ := layerShown_surface h2 ha
  obtain ⟨v1, k1, g1⟩ := s1.cell i1 j1 hi1 hj1
  obtain ⟨v2, k2, g2⟩ := s2.cell i2 j2 hi2 hj2
  have k2 := rule_copies ha hl hn (rule_perm hr _ _ _ (inCell_copies hp h12) k2)
  rw [g1, g2, rule_det ha (List.Perm.refl _) k2 k1]

/-- **C125**: and `n` times the counts -/
theorem C125_repeated_counts (h1 : LayerShown env alg .density P r up none e1 a1) (h2 : LayerShown env' alg' .density P2 r up' none e2 a2) (ha : alg = .mean ∨ alg = .shoalest)
    (ha' : alg' = .mean ∨ alg' = .shoalest) {n : Nat} (hp : P2.Perm ((List.replicate n P).flatten)) (h12 : SamePlace r e1 i1 j1 e2 i2 j2) (hi1 : i1 < a1.rows) (hj1 : j1 < a1.cols)
    (hi2 : i2 < a2.rows) (hj2 : j2 < a2.cols) : ∃ m, a1.get? i1 j1 = some (some m) ∧ a2.get? i2 j2 = some (some (n * m)) := by
  obtain ⟨-, s1, -⟩ := layerShown_surface h1 ha
  obtain ⟨-, s2, -⟩ := layerShown_surface h2 ha'
  obtain ⟨v1, k1, g1⟩ := s1.cell i1 j1 hi1 hj1
  obtain ⟨v2, k2, g2⟩ := s2.cell i2 j2 hi2 hj2
  have k1 : v1 = some _ := k1
  have k2 : v2 = some _ := k2
  refine ⟨_, by rw [g1, k1]; rfl, ?_⟩
  rw [g2, k2, (inCell_copies hp h12).length_eq, copies_length]
  simp [shownCell, shownValue]

/-! ## the hypotheses can be met -/

private def answer : Except Err (Option (List LayerArr)) → LayerArr
  | .ok (some [a]) => a
  | _ => ⟨0, 0, []⟩

private theorem answered {x : Except Err (Option (List LayerArr))} (h : 0 < (answer x).rows) : x = .ok (some [answer x]) := by
  unfold answer at *
  split at h
  · rfl
  · exact absurd h (by decide)

private def mean16 : GridCall := { alg := .mean, res := some 16, clear := true }
private def once : Grid Tile := ((newSR 32 false).addPoints ⟨demoFields, demoA ++ demoB⟩ "one" demoArgs).st
private def twice : Grid Tile := (once.addPoints ⟨demoFields, demoB.reverse ++ demoA⟩ "two" {}).st
private def arrOf (g : Grid Tile) (l : Layer) : LayerArr := answer ((g.gridWith demoEnv mean16 none).st.getLayersByName demoEnv [l] (some 16) none false).2
private def extentsOf (g : Grid Tile) : Extents := ((g.gridWith demoEnv mean16 none).st.extents).getD ⟨0, 0, 0, 0⟩

private theorem shown_by {g : Grid Tile} {A : Store} {l : Layer} (h : SRHistory demoEnv 32 false demoFields .plain false g A) (hl : Ruled .mean false demoFields none l)
    (hok : (g.gridWith demoEnv mean16 none).err = none) (hv : (g.gridWith demoEnv mean16 none).st.info.vref = none)
    (he : (g.gridWith demoEnv mean16 none).st.extents = some (extentsOf g)) (hq : 0 < (arrOf g l).rows) :
    LayerShown demoEnv .mean l A.allPts 16 false none (extentsOf g) (arrOf g l) :=
  .sr (n := 2) (size := 32) (zUp := false) (a := mean16) (dask := none) (by norm_num) h hl rfl (.inr rfl) (.inl rfl) rfl (by norm_num) hok (no_flip hv) he (answered hq)

private theorem once_history : SRHistory demoEnv 32 false demoFields .plain false once [("one", demoA ++ demoB)] := (GridHistory.new .plain).add _ "one" demoArgs (by decide +kernel)
private theorem twice_history : SRHistory demoEnv 32 false demoFields .plain false twice [("one", demoA ++ demoB), ("two", demoB.reverse ++ demoA)] :=
  once_history.add _ "two" {} (by decide +kernel)

/-- a survey added a second time under another name, in another order: the square at (0, 0) has three soundings with the mean 11.667, then six with the same mean -/
example : LayerShown demoEnv .mean .depth (Store.allPts [("one", demoA ++ demoB)]) 16 false none (extentsOf once) (arrOf once .depth) ∧
    LayerShown demoEnv .mean .depth (Store.allPts [("one", demoA ++ demoB), ("two", demoB.reverse ++ demoA)]) 16 false none (extentsOf twice) (arrOf twice .depth) ∧
    LayerShown demoEnv .mean .density (Store.allPts [("one", demoA ++ demoB)]) 16 false none (extentsOf once) (arrOf once .density) ∧
    LayerShown demoEnv .mean .density (Store.allPts [("one", demoA ++ demoB), ("two", demoB.reverse ++ demoA)]) 16 false none (extentsOf twice) (arrOf twice .density) ∧
    (Store.allPts [("one", demoA ++ demoB), ("two", demoB.reverse ++ demoA)]).Perm ((List.replicate 2 (Store.allPts [("one", demoA ++ demoB)])).flatten) ∧
    SamePlace 16 (extentsOf once) 0 2 (extentsOf twice) 0 2 ∧ (arrOf once .depth).get? 0 2 = some (some (11667 / 1000)) ∧ (arrOf twice .depth).get? 0 2 = some (some (11667 / 1000)) ∧
    (arrOf once .density).get? 0 2 = some (some 3) ∧ (arrOf twice .density).get? 0 2 = some (some 6) :=
  ⟨shown_by once_history (.inl rfl) (by decide +kernel) (by decide +kernel) (by decide +kernel) (by decide +kernel),
    shown_by twice_history (.inl rfl) (by decide +kernel) (by decide +kernel) (by decide +kernel) (by decide +kernel),
    shown_by once_history (.inr (.inl ⟨rfl, rfl⟩)) (by decide +kernel) (by decide +kernel) (by decide +kernel) (by decide +kernel),
    shown_by twice_history (.inr (.inl ⟨rfl, rfl⟩)) (by decide +kernel) (by decide +kernel) (by decide +kernel) (by decide +kernel),
    (by
      show ((demoA ++ demoB) ++ ((demoB.reverse ++ demoA) ++ [])).Perm (((demoA ++ demoB) ++ []) ++ (((demoA ++ demoB) ++ []) ++ []))
      simp only [List.append_nil]
      exact (List.Perm.refl _).append (((List.reverse_perm demoB).append (List.Perm.refl demoA)).trans List.perm_append_comm)),
    (by unfold SamePlace; decide +kernel), (by decide +kernel), (by decide +kernel), (by decide +kernel), (by decide +kernel)⟩

end Bathy
