import Verif.Props.Coarser

/-!
# C124: a surface depends on the soundings only

Two grids that hold the same soundings show the same surface at the same resolution, whatever their tile sizes and classes (single or variable resolution), in whatever containers, order
and sessions the soundings came to them, gridded as a whole or updated.  Soundings moved by whole squares show the same surface at the place they were moved to.
-/

namespace Bathy
open Grid

variable {env env' : Env} {alg : Alg} {l : Layer} {P P2 : List Pt} {r dx dy : ℚ} {up : Bool} {nodata : Option ℚ} {e1 e2 : Extents} {a1 a2 : LayerArr}

theorem moved_inCell {x0 y0 : ℚ} {i j : Nat} {p : Pt} : InCell (x0 + dx) (y0 + dy) r i j (p.moved dx dy) ↔ InCell x0 y0 r i j p := by
  unfold InCell Pt.moved
  simp only
  constructor
  · rintro ⟨h1, h2, h3, h4⟩; exact ⟨by linarith, by linarith, by linarith, by linarith⟩
  · rintro ⟨h1, h2, h3, h4⟩; exact ⟨by linarith, by linarith, by linarith, by linarith⟩

/-- squares at the same place, counted from different corners -/
theorem inCell_place {x1 y1 x2 y2 : ℚ} {i1 j1 i2 j2 : Nat} (hx : x1 + (j1 : ℚ) * r = x2 + (j2 : ℚ) * r) (hy : y1 + (i1 : ℚ) * r = y2 + (i2 : ℚ) * r) (p : Pt) :
    InCell x1 y1 r i1 j1 p ↔ InCell x2 y2 r i2 j2 p := by
  unfold InCell
  have hx' : x1 + ((j1 + 1 : Nat) : ℚ) * r = x2 + ((j2 + 1 : Nat) : ℚ) * r := by push_cast; linarith
  have hy' : y1 + ((i1 + 1 : Nat) : ℚ) * r = y2 + ((i2 + 1 : Nat) : ℚ) * r := by push_cast; linarith
  rw [hx, hx', hy, hy']

/-- the soundings of a square after the move are the moved soundings of the square -/
theorem inCell_moved {i1 j1 i2 j2 : Nat} (hp : P2.Perm (P.map (Pt.moved dx dy))) (hx : e1.minX + dx + (j1 : ℚ) * r = e2.minX + (j2 : ℚ) * r)
    (hy : e1.minY + dy + (i1 : ℚ) * r = e2.minY + (i2 : ℚ) * r) :
    (inCell e2.minX e2.minY r i2 j2 P2).Perm ((inCell e1.minX e1.minY r i1 j1 P).map (Pt.moved dx dy)) := by
  refine (cells_perm hp _ _).trans ?_
  unfold inCell
  rw [List.filter_map]
  refine List.Perm.of_eq (congrArg _ (List.filter_congr fun p _ => ?_))
  simp only [Function.comp_apply, decide_eq_decide]
  rw [← inCell_place hx hy, moved_inCell]

/-- the rules look at the depths and uncertainties only, which a move keeps -/
theorem rule_moved (ha : alg = .mean ∨ alg = .shoalest) {Q : List Pt} {v : Option ℚ} (h : CellRule alg l (Q.map (Pt.moved dx dy)) v) : CellRule alg l Q v := by
  have hz : ∀ f : Pt → ℚ, (∀ p, f (Pt.moved dx dy p) = f p) → (Q.map (Pt.moved dx dy)).map f = Q.map f := by
    intro f hf; rw [List.map_map]; exact List.map_congr_left fun p _ => hf p
  have hm : ∀ f : Pt → ℚ, (∀ p, f (Pt.moved dx dy p) = f p) → MeanCell round3 f (Q.map (Pt.moved dx dy)) v → MeanCell round3 f Q v := by
    intro f hf k
    exact ⟨fun h0 => k.1 (by rw [h0]; rfl), fun h0 => by rw [← hz f hf]; exact k.2 (by simpa using h0)⟩
  have hs : ShoalCell round3 (Q.map (Pt.moved dx dy)) v → ShoalCell round3 Q v := by
    intro k
    exact ⟨fun h0 => k.1 (by rw [h0]; rfl), fun h0 => by rw [← hz Pt.z fun _ => rfl]; exact k.2 (by simpa using h0)⟩
  have hc : CountCell (Q.map (Pt.moved dx dy)) v → CountCell Q v := by
    intro k; unfold CountCell at *; rw [k, List.length_map]
  rcases ha with rfl | rfl
  · cases l <;> first | exact hc h | exact hm _ (fun _ => rfl) h
  · cases l <;> first | exact hc h | exact hm _ (fun _ => rfl) h | exact hs h

/-- a rule leaves no choice -/
theorem rule_det (ha : alg = .mean ∨ alg = .shoalest) {Q Q' : List Pt} {v w : Option ℚ} (hq : Q.Perm Q') (h1 : CellRule alg l Q v) (h2 : CellRule alg l Q' w) : v = w := by
  rcases ha with rfl | rfl
  · cases l <;> first | exact countCell_det _ _ _ _ hq h1 h2 | exact meanCell_det _ _ _ _ _ hq h1 h2
  · cases l <;> first | exact countCell_det _ _ _ _ hq h1 h2 | exact meanCell_det _ _ _ _ _ hq h1 h2 | exact shoalCell_det _ _ _ _ hq h1 h2

/-- **C124**: where two surfaces of the same soundings, the ones of the second grid moved by (dx, dy), have a square at the same place (moved by (dx, dy)), they show the same -/
theorem C124_same_place (h1 : LayerShown env alg l P r up nodata e1 a1) (h2 : LayerShown env' alg l P2 r up nodata e2 a2) (ha : alg = .mean ∨ alg = .shoalest)
    (hp : P2.Perm (P.map (Pt.moved dx dy))) {i1 j1 i2 j2 : Nat} (hi1 : i1 < a1.rows) (hj1 : j1 < a1.cols) (hi2 : i2 < a2.rows) (hj2 : j2 < a2.cols)
    (hx : e1.minX + dx + (j1 : ℚ) * r = e2.minX + (j2 : ℚ) * r) (hy : e1.minY + dy + (i1 : ℚ) * r = e2.minY + (i2 : ℚ) * r) :
    a2.get? i2 j2 = a1.get? i1 j1 := by
  obtain ⟨-, s1, -⟩ := layerShown_surface h1 ha
  obtain ⟨-, s2, -, bs, fl, hl⟩ := layerShown_surface h2 ha
  obtain ⟨v1, k1, g1⟩ := s1.cell i1 j1 hi1 hj1
  obtain ⟨v2, k2, g2⟩ := s2.cell i2 j2 hi2 hj2
  have k2 := rule_moved ha (rule_perm hl _ _ _ (inCell_moved hp hx hy) k2)
  rw [g1, g2, rule_det ha (List.Perm.refl _) k2 k1]

/-- **C124**: every sounding is in a square of both surfaces, and both show the same there.  It does not matter how far the extents of the grids reach beyond the soundings, nor how
large their tiles are, if the soundings were moved by whole squares (for instance not at all). -/
theorem C124_every_sounding (h1 : LayerShown env alg l P r up nodata e1 a1) (h2 : LayerShown env' alg l P2 r up nodata e2 a2) (ha : alg = .mean ∨ alg = .shoalest)
    {m n : ℤ} (hp : P2.Perm (P.map (Pt.moved (m * r) (n * r)))) {p : Pt} (hmem : p ∈ P) :
    ∃ i1 j1 i2 j2, i1 < a1.rows ∧ j1 < a1.cols ∧ i2 < a2.rows ∧ j2 < a2.cols ∧ InCell e1.minX e1.minY r i1 j1 p ∧ InCell e2.minX e2.minY r i2 j2 (p.moved (m * r) (n * r)) ∧
      a2.get? i2 j2 = a1.get? i1 j1 := by
  obtain ⟨hr, s1, ⟨cx1, cy1, hcx1, hcy1⟩, -⟩ := layerShown_surface h1 ha
  obtain ⟨-, s2, ⟨cx2, cy2, hcx2, hcy2⟩, -⟩ := layerShown_surface h2 ha
  obtain ⟨i1, j1, hi1, hj1, hin1⟩ := s1.all p hmem
  obtain ⟨i2, j2, hi2, hj2, hin2⟩ := s2.all (p.moved (m * r) (n * r)) (hp.mem_iff.2 (List.mem_map_of_mem hmem))
  have one : ∀ {c1 c2 d : ℤ} {k1 k2 : Nat} {t : ℚ}, (c1 : ℚ) * r + (k1 : ℚ) * r ≤ t → t < (c1 : ℚ) * r + ((k1 + 1 : Nat) : ℚ) * r →
      (c2 : ℚ) * r + (k2 : ℚ) * r ≤ t + d * r → t + d * r < (c2 : ℚ) * r + ((k2 + 1 : Nat) : ℚ) * r → (c1 : ℚ) * r + d * r + (k1 : ℚ) * r = (c2 : ℚ) * r + (k2 : ℚ) * r := by
    intro c1 c2 d k1 k2 t u1 u2 u3 u4
    have lt1 : ((c1 + k1 + d : ℤ) : ℚ) * r < ((c2 + k2 + 1 : ℤ) : ℚ) * r := by push_cast at *; linarith
    have lt2 : ((c2 + k2 : ℤ) : ℚ) * r < ((c1 + k1 + d + 1 : ℤ) : ℚ) * r := by push_cast at *; linarith
    have lt1 : c1 + k1 + d < c2 + k2 + 1 := by exact_mod_cast lt_of_mul_lt_mul_right lt1 hr.le
    have lt2 : c2 + k2 < c1 + k1 + d + 1 := by exact_mod_cast lt_of_mul_lt_mul_right lt2 hr.le
    have : (c2 : ℤ) = c1 + k1 + d - k2 := by omega
    rw [this]; push_cast; ring
  refine ⟨i1, j1, i2, j2, hi1, hj1, hi2, hj2, hin1, hin2, C124_same_place h1 h2 ha hp hi1 hj1 hi2 hj2 ?_ ?_⟩
  · rw [hcx1, hcx2]
    rw [hcx1, hcy1] at hin1; rw [hcx2, hcy2] at hin2
    exact one hin1.1 hin1.2.1 hin2.1 hin2.2.1
  · rw [hcy1, hcy2]
    rw [hcx1, hcy1] at hin1; rw [hcx2, hcy2] at hin2
    exact one hin1.2.2.1 hin1.2.2.2 hin2.2.2.1 hin2.2.2.2

/-- **C124**: grids with the same soundings and extents return the same arrays -/
theorem C124_same_surface {e : Extents} (h1 : LayerShown env alg l P r up nodata e a1) (h2 : LayerShown env' alg l P2 r up nodata e a2) (ha : alg = .mean ∨ alg = .shoalest)
    (hp : P2.Perm P) : a2.rows = a1.rows ∧ a2.cols = a1.cols ∧ ∀ i j, i < a1.rows → j < a1.cols → a2.get? i j = a1.get? i j := by
  obtain ⟨hr, s1, -⟩ := layerShown_surface h1 ha
  obtain ⟨-, s2, -⟩ := layerShown_surface h2 ha
  have hrows : a2.rows = a1.rows := by exact_mod_cast mul_right_cancel₀ (ne_of_gt hr) (s2.rows.trans s1.rows.symm)
  have hcols : a2.cols = a1.cols := by exact_mod_cast mul_right_cancel₀ (ne_of_gt hr) (s2.cols.trans s1.cols.symm)
  refine ⟨hrows, hcols, fun i j hi hj => ?_⟩
  have hid : P.map (Pt.moved 0 0) = P := by
    conv_rhs => rw [← List.map_id P]
    exact List.map_congr_left fun p _ => by unfold Pt.moved; simp
  exact C124_same_place (dx := 0) (dy := 0) h1 h2 ha (hp.trans (List.Perm.of_eq hid.symm)) hi hj (hrows ▸ hi) (hcols ▸ hj) (by ring) (by ring)

/-! ## the hypotheses can be met -/

/-- what a query returns, if it returns one layer -/
private def answer : Except Err (Option (List LayerArr)) → LayerArr
  | .ok (some [a]) => a
  | _ => ⟨0, 0, []⟩

private theorem answered {x : Except Err (Option (List LayerArr))} (h : 0 < (answer x).rows) : x = .ok (some [answer x]) := by
  unfold answer at *
  split at h
  · rfl
  · exact absurd h (by decide)

private def meanAt4 : GridCall := { alg := .mean, res := some 4, clear := true }
private def movedPts : List Pt := (demoC.reverse ++ demoB).map (Pt.moved ((2 : ℤ) * 4) ((-1 : ℤ) * 4))
private def movedSR : Grid Tile := ((newSR 8 false).addPoints ⟨demoFields, movedPts⟩ "all" demoArgs).st
private def moved4 : Grid Tile := (movedSR.gridWith demoEnv meanAt4 (some 3)).st
private def demoVR4 : Grid (Grid Tile) := (demoVR.gridWith demoEnv meanAt4 none).st

/-- a grid with variable resolution (tiles of 32, sub-tiles of 16) after a session, and a new single resolution grid (tiles of 8) with one container that has all soundings in another
order, moved two squares to the right and one down -/
example : ∃ e1 a1 e2 a2, LayerShown demoEnv .mean .depth demoStore.allPts 4 false none e1 a1 ∧
    LayerShown demoEnv .mean .depth (Store.allPts [("all", movedPts)]) 4 false none e2 a2 ∧ e1.minX ≠ e2.minX ∧
    (Store.allPts [("all", movedPts)]).Perm (demoStore.allPts.map (Pt.moved ((2 : ℤ) * 4) ((-1 : ℤ) * 4))) ∧ demoStore.allPts.length = 5 := by
  refine ⟨⟨-32, 96, 0, 128⟩, answer (demoVR4.getLayersByName demoEnv [.depth] (some 4) none false).2, (moved4.extents).getD ⟨0, 0, 0, 0⟩,
    answer (moved4.getLayersByName demoEnv [.depth] (some 4) none false).2, ?_, ?_, ?_, ?_, ?_⟩
  · exact .vr (n := 4) (q := 2) (size := 32) (sub := 16) (zUp := false) (a := meanAt4) (dask := none) (by norm_num) (by decide +kernel) (by norm_num) demoVR_history (.inl rfl) rfl
      (.inr rfl) (.inl rfl) rfl (by norm_num) (by decide +kernel) (no_flip (by decide +kernel)) (by decide +kernel) (answered (by decide +kernel))
  · exact .sr (n := 2) (size := 8) (zUp := false) (a := meanAt4) (dask := some 3) (fl := demoFields) (F := .plain) (s := false) (g := movedSR) (by norm_num)
      ((GridHistory.new .plain).add movedPts "all" demoArgs (by decide +kernel)) (.inl rfl) rfl
      (.inr rfl) (.inl rfl) rfl (by norm_num) (by decide +kernel) (no_flip (by decide +kernel)) (by decide +kernel) (answered (by decide +kernel))
  · decide +kernel
  · show (movedPts ++ []).Perm _
    rw [List.append_nil]
    exact List.Perm.map _ ((List.perm_append_comm).trans ((List.Perm.refl demoB).append (List.reverse_perm demoC)))
  · decide +kernel

private def otherSR : Grid Tile :=
  (((((newSR 16 false).addPoints ⟨demoFields, demoA⟩ "x" demoArgs).st.addPoints ⟨demoFields, demoB.reverse⟩ "y" {}).st.removePoints "x").st.addPoints ⟨demoFields, demoC⟩ "z" {}).st
private def other4 : Grid Tile := (otherSR.gridWith demoEnv meanAt4 (some 2)).st
private def demo4 : Grid Tile := (demoSR.gridWith demoEnv meanAt4 none).st

/-- the demo grid and a grid with the same soundings under other names, not gridded in between; counts of the squares -/
example : ∃ e a1 a2, LayerShown demoEnv .mean .density demoStore.allPts 4 false none e a1 ∧
    LayerShown demoEnv .mean .density (Store.allPts [("y", demoB.reverse), ("z", demoC)]) 4 false none e a2 ∧
    (Store.allPts [("y", demoB.reverse), ("z", demoC)]).Perm demoStore.allPts ∧ a1.get? 1 8 = some (some 1) := by
  refine ⟨⟨-32, 64, 0, 96⟩, answer (demo4.getLayersByName demoEnv [.density] (some 4) none false).2, answer (other4.getLayersByName demoEnv [.density] (some 4) none false).2, ?_, ?_, ?_, ?_⟩
  · exact .sr (n := 4) (size := 16) (zUp := false) (a := meanAt4) (dask := none) (by norm_num) demoSR_history (.inr (.inl ⟨rfl, rfl⟩)) rfl
      (.inr rfl) (.inl rfl) rfl (by norm_num) (by decide +kernel) (no_flip (by decide +kernel)) (by decide +kernel) (answered (by decide +kernel))
  · exact .sr (n := 4) (size := 16) (zUp := false) (a := meanAt4) (dask := some 2) (fl := demoFields) (F := .plain) (s := false) (g := otherSR)
      (A := [("y", demoB.reverse), ("z", demoC)]) (by norm_num)
      (((((GridHistory.new .plain).add demoA "x" demoArgs (by decide +kernel)).add demoB.reverse "y" {} (by decide +kernel)).remove "x" (by decide +kernel)).add demoC "z" {} (by decide +kernel))
      (.inr (.inl ⟨rfl, rfl⟩)) rfl
      (.inr rfl) (.inl rfl) rfl (by norm_num) (by decide +kernel) (no_flip (by decide +kernel)) (by decide +kernel) (answered (by decide +kernel))
  · exact ((List.reverse_perm demoB).append (List.Perm.refl (demoC ++ [])))
  · decide +kernel

end Bathy
