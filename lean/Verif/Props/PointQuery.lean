import Verif.Props.LayerTrim
import Verif.Lemmas.Surf
import Verif.Lemmas.Recorded

/-!
# C37: values at locations

Model: `Grid.layerValuesAtXY` (bathygrid/bgrid.py:1828-1898).
-/

namespace Bathy

/-- `v` is what a query for the location should give when these resolutions are looked at: the shown value of the finest cell with a number that
contains the location, NaN if there is none -/
def QueryAnswer {τ : Type} [HasLeaves τ] (g : Grid τ) (l : Layer) (rs : List ℚ) (flip : Bool) (p : ℚ × ℚ) (v : Option ℚ) : Prop :=
  (∃ r ∈ rs, ∃ z, CellAt g l r p z ∧ (∀ r' ∈ rs, r' < r → ∀ z', ¬ CellAt g l r' p z') ∧ v = some (shownValue l flip z)) ∨
    ((∀ r ∈ rs, ∀ z, ¬ CellAt g l r p z) ∧ v = none)

/-- the location lies in the last row or the last column of cells of the grid -/
def InLastCells {τ : Type} (g : Grid τ) (r : ℚ) (p : ℚ × ℚ) : Prop :=
  ∃ e, g.extents = some e ∧ ((e.maxX - r ≤ p.1 ∧ p.1 < e.maxX) ∨ (e.maxY - r ≤ p.2 ∧ p.2 < e.maxY))

/-- no NaN among stored numbers and no other number stands for "nothing": the layers for which 0 is not shown for empty cells -/
def NanLayer (l : Layer) : Prop := l ≠ .density ∧ l ≠ .hypCount

theorem fill_nan {l : Layer} (h : NanLayer l) : fillValue l none = none := by
  unfold fillValue; rw [if_neg]; rintro (e | e); exacts [h.1 e, h.2 e]

section
variable {τ : Type} [LayerLike τ] [HasLeaves τ] {env : Env}

theorem returnSurf_spec {g g' : Grid τ} {l : Layer} {r : ℚ} (hr : 0 < r) {nodata : Option ℚ} {s : Surf}
    (hm : ∀ g' o, g.getLayersByName env [l] (some r) nodata false = (g', .ok o) → MosaicSpec g [l] r nodata false g' o)
    (hq : g.returnSurf env [l] (some r) true nodata = (g', .ok s)) :
    TrimSpec g l r nodata false g' s.trimmed ∧ ∃ e, g.extents = some e ∧ s.xs = Tile.slice (arange e.minX e.maxX r) s.trimmed.cmin (s.trimmed.cmax + 1) ∧
      s.ys = Tile.slice (arange e.minY e.maxY r) s.trimmed.rmin (s.trimmed.rmax + 1) := by
  unfold Grid.returnSurf at hq
  have hqr : g.queryRes (some r) = .ok r := by unfold Grid.queryRes; simp [hr.ne']
  rw [hqr] at hq
  split at hq
  · cases hq
  · cases hq
  · simp only at hq
    split at hq
    · cases hq
    · rename_i g1 t ht
      have hsp := trimSpec_of hm ht
      split at hq
      · cases hq
      · rename_i e he
        simp only [if_true] at hq
        cases hq
        refine ⟨hsp, e, ?_, rfl, rfl⟩
        rw [← hsp.1]; exact he

/-- the value at one location of the surface of one resolution -/
theorem surfAt_spec {g g' : Grid τ} {l : Layer} (hl : NanLayer l) {r : ℚ} (hr : 0 < r) {s : Surf} {flip : Bool} (hflip : flip = true ↔ StoredUp g)
    (hm : ∀ g' o, g.getLayersByName env [l] (some r) none false = (g', .ok o) → MosaicSpec g [l] r none false g' o)
    (hq : g.returnSurf env [l] (some r) true none = (g', .ok s)) {p : ℚ × ℚ} (hp : ¬ InLastCells g r p) {o : Option (Option ℚ)} (ho : surfAt s p = .ok o) :
    (∃ z, CellAt g l r p z ∧ o = some (some (shownValue l flip z))) ∨ ((∀ z, ¬ CellAt g l r p z) ∧ (o = none ∨ o = some none)) := by
  obtain ⟨⟨-, e, a, b, he, hd, hrows, hcols, hsh, hbox, hpart⟩, e', he', hxs, hys⟩ := returnSurf_spec hr hm hq
  rw [he] at he'; cases he'
  have hsh := hsh flip (by simp [hflip])
  have hcr : s.trimmed.cmin < s.trimmed.cmax := by obtain ⟨i, hi⟩ := hbox.left; exact (hbox.all _ _ hi).2.2.2
  have hrr : s.trimmed.rmin < s.trimmed.rmax := by obtain ⟨i, hi⟩ := hbox.top; exact (hbox.all _ _ hi).2.1
  have hfx := axis_spec hr hcols hcr hbox.inside.2 p.1 hxs
  have hfy := axis_spec hr hrows hrr hbox.inside.1 p.2 hys
  -- a cell with a number is in the box
  have hcell : ∀ z, CellAt g l r p z → ∃ i j : Nat, StoredCell g l r (e.minX + (j : ℚ) * r) (e.minY + (i : ℚ) * r) z ∧ s.trimmed.rmin ≤ i ∧ i < s.trimmed.rmax ∧ s.trimmed.cmin ≤ j ∧ j < s.trimmed.cmax ∧
      (e.minX + (j : ℚ) * r ≤ p.1 ∧ p.1 < e.minX + (j : ℚ) * r + r) ∧ (e.minY + (i : ℚ) * r ≤ p.2 ∧ p.2 < e.minY + (i : ℚ) * r + r) := by
    rintro z ⟨x, y, hst, h1, h2, h3, h4⟩
    obtain ⟨i, j, hi, hj, rfl, rfl⟩ := hsh.all x y z hst
    obtain ⟨k1, k2, k3, k4⟩ := hbox.all i j ⟨_, hsh.value i j z hi hj hst⟩
    exact ⟨i, j, hst, k1, k2, k3, k4, ⟨h1, h2⟩, h3, h4⟩
  have hpx : ¬ (e.maxX - r ≤ p.1 ∧ p.1 < e.maxX) := fun h => hp ⟨e, he, Or.inl h⟩
  have hpy : ¬ (e.maxY - r ≤ p.2 ∧ p.2 < e.maxY) := fun h => hp ⟨e, he, Or.inr h⟩
  have huniq : ∀ (lo x : ℚ) (i j : Nat), lo + (i : ℚ) * r ≤ x ∧ x < lo + (i : ℚ) * r + r → lo + (j : ℚ) * r ≤ x ∧ x < lo + (j : ℚ) * r + r → i = j := by
    intro lo x i j h1 h2
    have a1 : (i : ℚ) * r < (j + 1 : ℚ) * r := by linarith [h1.1, h2.2]
    have a2 : (j : ℚ) * r < (i + 1 : ℚ) * r := by linarith [h2.1, h1.2]
    have a1 := lt_of_mul_lt_mul_right a1 hr.le
    have a2 := lt_of_mul_lt_mul_right a2 hr.le
    have a1 : i < j + 1 := by exact_mod_cast a1
    have a2 : j < i + 1 := by exact_mod_cast a2
    omega
  unfold surfAt at ho
  simp only at ho
  split at ho
  · rename_i hout
    cases ho
    refine Or.inr ⟨fun z hz => ?_, Or.inl rfl⟩
    obtain ⟨i, j, -, k1, k2, k3, k4, h1, h2⟩ := hcell z hz
    rcases hout with h | h | h | h
    · exact hfx.1 (Or.inl h) hpx j k3 k4 h1
    · exact hfy.1 (Or.inl h) hpy i k1 k2 h2
    · exact hfx.1 (Or.inr h) hpx j k3 k4 h1
    · exact hfy.1 (Or.inr h) hpy i k1 k2 h2
  · rename_i hin
    push Not at hin
    obtain ⟨n1, n2, n3, n4⟩ := hin
    obtain ⟨j, j1, j2, j3, j4⟩ := hfx.2 n1 n3
    obtain ⟨i, i1, i2, i3, i4⟩ := hfy.2 n2 n4
    rw [hd] at ho
    simp only at ho
    rw [i3, j3] at ho
    rw [hpart.2.2 (i - s.trimmed.rmin) (j - s.trimmed.cmin) (by rw [hpart.1]; omega) (by rw [hpart.2.1]; omega),
      show s.trimmed.rmin + (i - s.trimmed.rmin) = i by omega, show s.trimmed.cmin + (j - s.trimmed.cmin) = j by omega] at ho
    have hir : i < a.rows := lt_of_lt_of_le i2 hbox.inside.1
    have hjc : j < a.cols := lt_of_lt_of_le j2 hbox.inside.2
    by_cases hz : ∃ z, StoredCell g l r (e.minX + (j : ℚ) * r) (e.minY + (i : ℚ) * r) z
    · obtain ⟨z, hz⟩ := hz
      rw [hsh.value i j z hir hjc hz] at ho
      cases ho
      exact Or.inl ⟨z, ⟨_, _, hz, j4.1, j4.2, i4.1, i4.2⟩, rfl⟩
    · push Not at hz
      rw [hsh.empty i j hir hjc hz, fill_nan hl] at ho
      cases ho
      refine Or.inr ⟨fun z hc => ?_, Or.inr rfl⟩
      obtain ⟨i', j', hst, -, -, -, -, h1, h2⟩ := hcell z hc
      rw [huniq _ _ _ _ h1 j4, huniq _ _ _ _ h2 i4] at hst
      exact hz z hst

/-- `v` is the value of the first resolution in the list that has one -/
def FirstOf (g : Grid τ) (l : Layer) (rs : List ℚ) (flip : Bool) (p : ℚ × ℚ) (v : Option ℚ) : Prop :=
  (∃ pre r post z, rs = pre ++ r :: post ∧ (∀ r' ∈ pre, ∀ z', ¬ CellAt g l r' p z') ∧ CellAt g l r p z ∧ v = some (shownValue l flip z)) ∨
    ((∀ r ∈ rs, ∀ z, ¬ CellAt g l r p z) ∧ v = none)

theorem valuesLoop_spec {g g' : Grid τ} {l : Layer} (hl : NanLayer l) {flip : Bool} (hflip : flip = true ↔ StoredUp g) {locs : List (ℚ × ℚ)} {rs : List ℚ} (hr : ∀ r ∈ rs, 0 < r)
    (hm : ∀ r ∈ rs, ∀ g' o, g.getLayersByName env [l] (some r) none false = (g', .ok o) → MosaicSpec g [l] r none false g' o)
    {vals out : List (Option ℚ)} (hlen : vals.length = locs.length) (hq : Grid.valuesLoop env l none locs rs g vals = (g', .ok out)) :
    g' = g ∧ out.length = locs.length ∧ ∀ (k : Nat) p v, locs[k]? = some p → vals[k]? = some v → (∀ r ∈ rs, ¬ InLastCells g r p) →
      ∃ v', out[k]? = some v' ∧ (∀ z, v = some z → v' = some z) ∧ (v = none → FirstOf g l rs flip p v') := by
  induction rs generalizing vals with
  | nil =>
    unfold Grid.valuesLoop at hq
    cases hq
    exact ⟨rfl, hlen, fun k p v _ hv _ => ⟨v, hv, fun _ h => h, fun h => Or.inr ⟨fun r hr => absurd hr (by simp), h⟩⟩⟩
  | cons r rs ih =>
    unfold Grid.valuesLoop at hq
    split at hq
    · split at hq
      · cases hq
      · rename_i g1 s hs
        have hr0 := hr r List.mem_cons_self
        have hm0 := hm r List.mem_cons_self
        obtain ⟨hsp, -⟩ := returnSurf_spec hr0 hm0 hs
        have hg1 := hsp.1
        subst hg1
        split at hq
        · cases hq
        · rename_i vals' hvals
          obtain ⟨hlm, hmap⟩ := mapM_ok_get hvals
          have hl' : vals'.length = locs.length := by rw [hlm]; simp [hlen]
          obtain ⟨k1, k2, k3⟩ := ih (fun r h => hr r (List.mem_cons_of_mem _ h)) (fun r h => hm r (List.mem_cons_of_mem _ h)) hl' hq
          refine ⟨k1, k2, fun k p v hp hv hin => ?_⟩
          have hz : (locs.zip vals)[k]? = some (p, v) := by rw [List.getElem?_zip_eq_some]; exact ⟨hp, hv⟩
          obtain ⟨v1, hv1, hu⟩ := hmap k _ hz
          obtain ⟨v', m1, m2, m3⟩ := k3 k p v1 hp hv1 (fun r h => hin r (List.mem_cons_of_mem _ h))
          refine ⟨v', m1, ?_, ?_⟩
          · intro z hz
            rw [hz] at hu
            simp only [surfUpdate, isUnset, Option.isNone_some, Bool.false_eq_true, if_false] at hu
            cases hu
            exact m2 z rfl
          · intro hn
            rw [hn] at hu
            simp only [surfUpdate, isUnset, Option.isNone_none, if_true] at hu
            split at hu
            · cases hu
            · rename_i ho
              cases hu
              rcases surfAt_spec hl hr0 hflip hm0 hs (hin r List.mem_cons_self) ho with ⟨z, -, h⟩ | ⟨hno, -⟩
              · cases h
              · rcases m3 rfl with ⟨pre, r', post, z, e1, e2, e3, e4⟩ | ⟨e1, e2⟩
                · refine Or.inl ⟨r :: pre, r', post, z, by rw [e1]; rfl, ?_, e3, e4⟩
                  intro r'' h''
                  rcases List.mem_cons.1 h'' with rfl | h''
                  · exact hno
                  · exact e2 r'' h''
                · refine Or.inr ⟨?_, e2⟩
                  intro r'' h''
                  rcases List.mem_cons.1 h'' with rfl | h''
                  · exact hno
                  · exact e1 r'' h''
            · rename_i w ho
              cases hu
              rcases surfAt_spec hl hr0 hflip hm0 hs (hin r List.mem_cons_self) ho with ⟨z, hc, h⟩ | ⟨hno, h | h⟩
              · cases h
                exact Or.inl ⟨[], r, rs, z, rfl, by simp, hc, m2 _ rfl⟩
              · cases h
              · cases h
                rcases m3 rfl with ⟨pre, r', post, z, e1, e2, e3, e4⟩ | ⟨e1, e2⟩
                · refine Or.inl ⟨r :: pre, r', post, z, by rw [e1]; rfl, ?_, e3, e4⟩
                  intro r'' h''
                  rcases List.mem_cons.1 h'' with rfl | h''
                  · exact hno
                  · exact e2 r'' h''
                · refine Or.inr ⟨?_, e2⟩
                  intro r'' h''
                  rcases List.mem_cons.1 h'' with rfl | h''
                  · exact hno
                  · exact e1 r'' h''
    · rename_i hany
      cases hq
      refine ⟨rfl, hlen, fun k p v _ hv _ => ⟨v, hv, fun _ h => h, fun h => ?_⟩⟩
      exfalso; apply hany
      rw [List.any_eq_true]
      exact ⟨v, List.mem_of_getElem? hv, by rw [h]; rfl⟩

omit [LayerLike τ] in
theorem queryAnswer_of_first {g : Grid τ} {l : Layer} {rs : List ℚ} (hrs : rs.Pairwise (· ≤ ·)) {flip : Bool} {p : ℚ × ℚ} {v : Option ℚ} (h : FirstOf g l rs flip p v) :
    QueryAnswer g l rs flip p v := by
  rcases h with ⟨pre, r, post, z, rfl, h2, h3, h4⟩ | h
  · refine Or.inl ⟨r, by simp, z, h3, ?_, h4⟩
    intro r' hr' hlt
    rcases List.mem_append.1 hr' with h | h
    · exact h2 r' h
    · rcases List.mem_cons.1 h with rfl | h
      · exact absurd hlt (lt_irrefl _)
      · exact absurd hlt (not_lt.2 ((List.pairwise_cons.1 (List.pairwise_append.1 hrs).2.1).1 r' h))
  · exact Or.inr h

omit [LayerLike τ] [HasLeaves τ] in
theorem queryList_sorted (g : Grid τ) (res : Option ℚ) : (g.queryList res).Pairwise (· ≤ ·) := by
  unfold Grid.queryList
  have h := List.pairwise_insertionSort (· ≤ ·) g.resolutions
  split
  · exact h
  · split
    · exact h
    · simp

theorem query_of {g g' : Grid τ} {l : Layer} (hl : NanLayer l) {flip : Bool} (hflip : flip = true ↔ StoredUp g) {locs : List (ℚ × ℚ)} {res : Option ℚ}
    (hr : ∀ r ∈ g.queryList res, 0 < r)
    (hm : ∀ r ∈ g.queryList res, ∀ g' o, g.getLayersByName env [l] (some r) none false = (g', .ok o) → MosaicSpec g [l] r none false g' o)
    {out : List (Option ℚ)} (hq : g.layerValuesAtXY env locs l res none = (g', .ok out)) :
    g' = g ∧ out.length = locs.length ∧ ∀ (k : Nat) p, locs[k]? = some p → (∀ r ∈ g.queryList res, ¬ InLastCells g r p) →
      ∃ v, out[k]? = some v ∧ QueryAnswer g l (g.queryList res) flip p v := by
  unfold Grid.layerValuesAtXY at hq
  obtain ⟨h1, h2, h3⟩ := valuesLoop_spec hl hflip hr hm (by simp) hq
  refine ⟨h1, h2, fun k p hp hin => ?_⟩
  obtain ⟨v, k1, -, k2⟩ := h3 k p none hp (by rw [List.getElem?_map, hp]; rfl) hin
  exact ⟨v, k1, queryAnswer_of_first (queryList_sorted g res) (k2 rfl)⟩

end

theorem queryList_pos {τ : Type} [GridLike τ] [Queried τ] [Recorded τ] {g : Grid τ} (h : g.ResOk) {res : Option ℚ} (hr : ∀ r, res = some r → 0 ≤ r) :
    ∀ r ∈ g.queryList res, 0 < r := by
  have hg : ∀ r ∈ g.resolutions.insertionSort (· ≤ ·), 0 < r := fun r hm => isPowerOfTwo_pos (h.res r ((List.mem_insertionSort _).1 hm))
  cases res with
  | none => exact hg
  | some r0 =>
    intro r hm
    unfold Grid.queryList at hm
    simp only at hm
    split at hm
    · exact hg r hm
    · rename_i h0
      rw [List.mem_singleton] at hm
      subst hm
      exact lt_of_le_of_ne (hr _ rfl) (Ne.symm h0)

/-- **C37** (single resolution grids), partial: for layers other than the counts, with NaN for nodata, a query that returns gives for every
location the value of the finest cell with a number that contains it and NaN if there is none, and does not change the grid, for locations outside
the last row and the last column of cells of the grid.  Missing: those cells and the count layers, see `C37_violated`. -/
theorem C37_point_query_sr_partial {env : Env} {size : ℚ} {bs : Bool} {fl : Fields} (hs : 0 < size) {F : Family} {s : Bool} {g : Grid Tile} {A : Store}
    (h : SRHistory env size bs fl F s g A) {l : Layer} (hl : l.isCore = true) (hn : NanLayer l) {flip : Bool} (hflip : flip = true ↔ StoredUp g) {locs : List (ℚ × ℚ)} {res : Option ℚ}
    (hr : ∀ r, res = some r → 0 ≤ r) {g' : Grid Tile} {out : List (Option ℚ)} (hq : g.layerValuesAtXY env locs l res none = (g', .ok out)) :
    g' = g ∧ out.length = locs.length ∧ ∀ (k : Nat) p, locs[k]? = some p → (∀ r ∈ g.queryList res, ¬ InLastCells g r p) →
      ∃ v, out[k]? = some v ∧ QueryAnswer g l (g.queryList res) flip p v :=
  have hr := queryList_pos (Grid.resOk_history (Grid.resOk_blank _ _ _ _ _ _ _ _) h) hr
  query_of hn hflip hr (fun r hr' _ _ hh => C34_mosaic_sr hs h hl (hr r hr') hh) hq

/-- **C37** (variable resolution grids), partial. -/
theorem C37_point_query_vr_partial {env : Env} {size sub : ℚ} {bs : Bool} {fl : Fields} (hs : 0 < size) (hpow : isPowerOfTwo sub = true) {q : Nat} (hdiv : size = (q : ℚ) * sub)
    {F : Family} {s : Bool} {g : Grid (Grid Tile)} {A : Store} (h : VRHistory env size sub bs fl F s g A) {l : Layer} (hl : l.isCore = true) (hn : NanLayer l) {flip : Bool}
    (hflip : flip = true ↔ StoredUp g) {locs : List (ℚ × ℚ)} {res : Option ℚ} (hr : ∀ r, res = some r → 0 ≤ r) {g' : Grid (Grid Tile)} {out : List (Option ℚ)}
    (hq : g.layerValuesAtXY env locs l res none = (g', .ok out)) :
    g' = g ∧ out.length = locs.length ∧ ∀ (k : Nat) p, locs[k]? = some p → (∀ r ∈ g.queryList res, ¬ InLastCells g r p) →
      ∃ v, out[k]? = some v ∧ QueryAnswer g l (g.queryList res) flip p v :=
  have hr := queryList_pos (Grid.resOk_history (Grid.resOk_blank _ _ _ _ _ _ _ _) h) hr
  query_of hn hflip hr (fun r hr' _ _ hh => C34_mosaic_vr hs hpow hdiv h hl (hr r hr') hh) hq

/-- a variable resolution grid with two resolutions -/
def fineGrid : Grid (Grid Tile) :=
  (((newVR 32 16 false).addPoints ⟨demoFields, [⟨1, 1, 100, 1, 1⟩, ⟨20, 1, 200, 1, 1⟩, ⟨40, 40, 200, 1, 1⟩]⟩ "a" {}).st.gridWith demoEnv { alg := .mean, res := none } none).st

theorem fineGrid_history : VRHistory demoEnv 32 16 false demoFields .plain false fineGrid [("a", [⟨1, 1, 100, 1, 1⟩, ⟨20, 1, 200, 1, 1⟩, ⟨40, 40, 200, 1, 1⟩])] :=
  ((GridHistory.new .plain).add _ "a" _ (by decide +kernel)).grid { alg := .mean, res := none } rfl none

/-- the hypotheses of C37 are met: two resolutions; a location in a fine cell, one in a coarse cell, one in none -/
example : VRHistory demoEnv 32 16 false demoFields .plain false fineGrid [("a", [⟨1, 1, 100, 1, 1⟩, ⟨20, 1, 200, 1, 1⟩, ⟨40, 40, 200, 1, 1⟩])] ∧ fineGrid.queryList none = [8, 16] ∧
    (∀ r, (none : Option ℚ) = some r → 0 ≤ r) ∧ (∀ r ∈ fineGrid.queryList none, ¬ InLastCells fineGrid r (1, 1)) ∧
    (fineGrid.layerValuesAtXY demoEnv [(1, 1), (9, 1)] .depth none none).2 = .ok [some 100, none] ∧
    (fineGrid.layerValuesAtXY demoEnv [(20, 1), (40, 1)] .depth none none).2 = .ok [some 200, none] := by
  have he : fineGrid.extents = some ⟨0, 64, 0, 64⟩ := by decide +kernel
  have hl : fineGrid.queryList none = [8, 16] := by decide +kernel
  refine ⟨fineGrid_history, hl, by simp, ?_, by decide +kernel, by decide +kernel⟩
  rintro r hr ⟨e, h1, h2⟩
  rw [hl] at hr
  rw [he] at h1
  cases h1
  simp at hr
  rcases hr with rfl | rfl <;> norm_num at h2

theorem mem_flat_of_get? {α : Type} {a : Arr2 α} {r c : Nat} {v : α} (h : a.get? r c = some v) : v ∈ a.flat := by
  unfold Arr2.get? at h
  split at h
  · exact List.mem_of_getElem? h
  · cases h

/-- a tile with a sounding in the last column of the grid -/
def edgeGrid : Grid Tile :=
  (((newSR 16 false).addPoints ⟨demoFields, [⟨1, 1, 5, 1, 1⟩, ⟨15, 1, 7, 1, 1⟩]⟩ "a" {}).st.gridWith demoEnv { alg := .mean, res := some 8 } none).st

/-- **C37 is violated** in the last column (and row) of the grid: the cell of the sounding at (15, 1) has the depth 7, the query for this location
gives NaN.  It is also violated for the counts: 0 stands for "nothing" in the finest resolution, so the density 1 of the coarse cell that contains
(20, 1) is not found. -/
theorem C37_violated :
    (SRHistory demoEnv 16 false demoFields .plain false edgeGrid [("a", [⟨1, 1, 5, 1, 1⟩, ⟨15, 1, 7, 1, 1⟩])] ∧ CellAt edgeGrid .depth 8 (15, 1) 7 ∧
      (edgeGrid.layerValuesAtXY demoEnv [(1, 1), (15, 1)] .depth none none).2 = .ok [some 5, none]) ∧
    (CellAt fineGrid .density 16 (20, 1) 1 ∧ (∀ z, CellAt fineGrid .density 8 (20, 1) z → False) ∧
      (fineGrid.layerValuesAtXY demoEnv [(20, 1)] .density none none).2 = .ok [some 0]) := by
  refine ⟨⟨((GridHistory.new .plain).add _ "a" _ (by decide +kernel)).grid { alg := .mean, res := some 8 } rfl none, ?_, by decide +kernel⟩, ?_, ?_, by decide +kernel⟩
  · obtain ⟨t, ht, hP⟩ := Grid.exists_tileAt_any (g := edgeGrid) (r := 0) (c := 0) (fun t : Tile => decide (t.minX = 0 ∧ t.minY = 0) && ((t.cells.get? 8).bind (fun ls : Dict Layer LayerArr => ls.get? .depth)).any (fun a : LayerArr =>
      decide (a.get? 0 1 = some (some 7)))) (by decide +kernel)
    simp only [Bool.and_eq_true, decide_eq_true_eq, Option.any_eq_true] at hP
    obtain ⟨⟨hx, hy⟩, a, ha, hz⟩ := hP
    obtain ⟨ls, h1, h2⟩ := Option.bind_eq_some_iff.1 ha
    exact ⟨8, 0, ⟨t, ls, a, 0, 1, ⟨0, 0, t, ht, rfl⟩, h1, h2, hz, by rw [hx]; norm_num, by rw [hy]; norm_num⟩, by norm_num, by norm_num, by norm_num, by norm_num⟩
  · obtain ⟨t, ht, hP⟩ := Grid.exists_tileAt_any (g := fineGrid) (r := 0) (c := 0) (fun t : Grid Tile => ((t.tiles.bind (fun T => T.get? 0 1)).join).any (fun u : Tile =>
      decide (u.minX = 16 ∧ u.minY = 0) && ((u.cells.get? 16).bind (fun ls : Dict Layer LayerArr => ls.get? .density)).any (fun a : LayerArr => decide (a.get? 0 0 = some (some 1))))) (by decide +kernel)
    obtain ⟨u, hu, hP⟩ := Grid.exists_tileAt_any _ hP
    simp only [Bool.and_eq_true, decide_eq_true_eq, Option.any_eq_true] at hP
    obtain ⟨⟨hx, hy⟩, a, ha, hz⟩ := hP
    obtain ⟨ls, h1, h2⟩ := Option.bind_eq_some_iff.1 ha
    exact ⟨16, 0, ⟨u, ls, a, 0, 0, ⟨0, 0, t, ht, 0, 1, u, hu, rfl⟩, h1, h2, hz, by rw [hx]; norm_num, by rw [hy]; norm_num⟩, by norm_num, by norm_num, by norm_num, by norm_num⟩
  · -- only the leaf at the origin has layers at resolution 8
    rintro z ⟨x, y, ⟨u, ls, a, i, j, ⟨r, c, t, ⟨T, hT, htt⟩, r', c', u', ⟨T', hT', huu⟩, hu⟩, h1, h2, h3, hx, hy⟩, k1, k2, k3, k4⟩
    have hu : u = u' := hu
    subst hu
    have hall : fineGrid.tiles.all (fun T => T.flat.all (fun o => o.all (fun t : Grid Tile => t.tiles.all (fun T' => T'.flat.all (fun o' => o'.all (fun u : Tile =>
        (u.cells.get? 8).all (fun ls : Dict Layer LayerArr => (ls.get? .density).all (fun a : LayerArr => decide (u.minX = 0 ∧ a.cols = 2)))))))))  = true := by
      decide +kernel
    simp only [Option.all_eq_true, List.all_eq_true, decide_eq_true_eq] at hall
    obtain ⟨e1, e2⟩ := hall T hT _ (mem_flat_of_get? htt) t rfl T' hT' _ (mem_flat_of_get? huu) u rfl ls h1 a h2
    have hj := (get?_bounds h3).2
    rw [e2] at hj
    have hj : (j : ℚ) ≤ 1 := by exact_mod_cast Nat.le_of_lt_succ hj
    rw [e1] at hx
    norm_num at k2
    linarith

end Bathy
