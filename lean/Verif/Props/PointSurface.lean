import Verif.Spec.PointSurface
import Verif.Props.LayerShown
import Verif.Props.PointQuery

/-!
# C37: values at locations in terms of the soundings

After gridding, `layer_values_at_xy` answers for every list of locations, and each answer is the value of the soundings in the square around the location.
-/

namespace Bathy
open Grid

variable {env : Env} {alg : Alg} {l : Layer} {P : List Pt} {r : ℚ} {flip : Bool} {e : Extents} {arr : LayerArr}

private theorem square_axis {lo r x : ℚ} {c : ℤ} {j : Nat} (hr : 0 < r) (hlo : lo = c * r) : (lo + (j : ℚ) * r ≤ x ∧ x < lo + ((j + 1 : Nat) : ℚ) * r) ↔ ⌊x / r⌋ = c + j := by
  rw [Int.floor_eq_iff, le_div_iff₀ hr, div_lt_iff₀ hr, hlo]
  push_cast
  constructor <;> rintro ⟨h1, h2⟩ <;> constructor <;> linarith

/-- a square of the array is the square around every location in it -/
private theorem inCell_around {cx cy : ℤ} (hr : 0 < r) (hx : e.minX = cx * r) (hy : e.minY = cy * r) {i j : Nat} {p : ℚ × ℚ}
    (h1 : e.minX + (j : ℚ) * r ≤ p.1 ∧ p.1 < e.minX + (j : ℚ) * r + r) (h2 : e.minY + (i : ℚ) * r ≤ p.2 ∧ p.2 < e.minY + (i : ℚ) * r + r) (q : Pt) :
    InCell e.minX e.minY r i j q ↔ AroundLocation r p q := by
  have k1 : ⌊p.1 / r⌋ = cx + j := (square_axis hr hx).1 ⟨h1.1, by push_cast; linarith [h1.2]⟩
  have k2 : ⌊p.2 / r⌋ = cy + i := (square_axis hr hy).1 ⟨h2.1, by push_cast; linarith [h2.2]⟩
  unfold InCell AroundLocation
  rw [k1, k2, ← square_axis hr hx, ← square_axis hr hy, and_assoc]

private theorem mapM_all_ok {α β : Type} {f : α → Except Err β} {h : α → β} : ∀ {xs : List α}, (∀ x ∈ xs, f x = .ok (h x)) → xs.mapM f = .ok (xs.map h)
  | [], _ => rfl
  | x :: xs, hx => by
    rw [List.mapM_cons, hx x List.mem_cons_self, mapM_all_ok fun y hy => hx y (List.mem_cons_of_mem _ hy)]
    rfl

/-- the answers of a grid whose array is a surface of `P` -/
theorem point_values {τ : Type} [LayerLike τ] {R : List Pt → Option ℚ → Prop} {g : Grid τ} (hr : 0 < r) (hR : R [] none) (hRn : ∀ Q, R Q none → Q = []) (hP : P ≠ [])
    (hget : g.getLayersByName env [l] (some r) none false = (g, .ok (some [arr]))) (he : g.extents = some e) (hs : SurfaceOf R (shownCell l none flip) P r e arr)
    (hc : ∃ i j : ℤ, e.minX = i * r ∧ e.minY = j * r) (locs : List (ℚ × ℚ)) :
    ∃ out, g.layerValuesAtXY env locs l (some r) none = (g, .ok out) ∧ AnswersFrom R (shownCell l none flip) P r e locs out := by
  obtain ⟨cx, cy, hx, hy⟩ := hc
  have hqr : g.queryRes (some r) = .ok r := by unfold Grid.queryRes; simp [hr.ne']
  have hno : g.noGrid = .ok false := by
    unfold Grid.getLayersByName at hget
    match hg : g.noGrid with
    | .error e => rw [hg] at hget; cases (Prod.ext_iff.1 hget).2
    | .ok true => rw [hg] at hget; cases (Prod.ext_iff.1 hget).2
    | .ok false => rfl
  have hval : ∀ {i j q}, i < arr.rows → j < arr.cols → q ∈ P → InCell e.minX e.minY r i j q → HasValue arr i j := by
    intro i j q hi hj hq hin
    obtain ⟨v, hv, hg⟩ := hs.cell i j hi hj
    cases v with
    | none => exact absurd (hRn _ hv) (List.ne_nil_of_mem (List.mem_filter.2 ⟨hq, decide_eq_true hin⟩))
    | some z => exact ⟨_, hg⟩
  obtain ⟨t, ht⟩ := (C36_trim_ok arr []).2 (by
    obtain ⟨q, hq⟩ := List.exists_mem_of_ne_nil P hP
    obtain ⟨i, j, hi, hj, hin⟩ := hs.all q hq
    exact ⟨i, j, hval hi hj hq hin⟩)
  obtain ⟨hbox, hdl, hpt⟩ := trim_of (d := arr) (ds := []) (fun a ha i j hi hj => by
    rw [List.mem_singleton.1 ha]
    obtain ⟨v, -, hg⟩ := hs.cell i j hi hj
    exact ⟨_, hg⟩) ht
  obtain ⟨b, hb, hpart⟩ := hpt 0 arr rfl
  have hd : t.data = [b] := by
    match hsd : t.data, hdl, hb with
    | [b'], _, hb => cases hb; rfl
  set s : Surf := ⟨Tile.slice (arange e.minX e.maxX r) t.cmin (t.cmax + 1), Tile.slice (arange e.minY e.maxY r) t.rmin (t.rmax + 1), t⟩ with hsdef
  have hret : g.returnSurf env [l] (some r) true none = (g, .ok s) := by
    unfold Grid.returnSurf
    rw [hno, hqr]
    simp only
    unfold Grid.getLayersTrimmed
    rw [hget]
    simp only
    rw [ht]
    simp only
    rw [he]
    simp [hsdef]
  have hcr : t.cmin < t.cmax := by obtain ⟨i, hi⟩ := hbox.left; exact (hbox.all _ _ hi).2.2.2
  have hrr : t.rmin < t.rmax := by obtain ⟨i, hi⟩ := hbox.top; exact (hbox.all _ _ hi).2.1
  -- what one location gets
  have hat : ∀ p : ℚ × ℚ, ∃ o, surfAt s p = .ok o ∧ (¬ (e.maxX - r ≤ p.1 ∧ p.1 < e.maxX) → ¬ (e.maxY - r ≤ p.2 ∧ p.2 < e.maxY) →
      ∃ v, o.join = shownCell l none flip v ∧ R (P.filter fun q => decide (AroundLocation r p q)) v) := by
    intro p
    have hfx := axis_spec hr hs.cols hcr hbox.inside.2 p.1 (xs := s.xs) rfl
    have hfy := axis_spec hr hs.rows hrr hbox.inside.1 p.2 (xs := s.ys) rfl
    unfold surfAt
    simp only
    split
    · rename_i hout
      refine ⟨none, rfl, fun hpx hpy => ⟨none, rfl, ?_⟩⟩
      have : P.filter (fun q => decide (AroundLocation r p q)) = [] := by
        rw [List.filter_eq_nil_iff]
        intro q hq hin
        have hin : AroundLocation r p q := of_decide_eq_true hin
        obtain ⟨i, j, hi, hj, hcell⟩ := hs.all q hq
        obtain ⟨k1, k2, k3, k4⟩ := hbox.all i j (hval hi hj hq hcell)
        have h1 := (square_axis (x := q.x) hr hx).1 ⟨hcell.1, hcell.2.1⟩
        have h2 := (square_axis (x := q.y) hr hy).1 ⟨hcell.2.2.1, hcell.2.2.2⟩
        have h1 := (square_axis (x := p.1) hr hx).2 (hin.1.symm.trans h1)
        have h2 := (square_axis (x := p.2) hr hy).2 (hin.2.symm.trans h2)
        have h1 : e.minX + (j : ℚ) * r ≤ p.1 ∧ p.1 < e.minX + (j : ℚ) * r + r := ⟨h1.1, by have := h1.2; push_cast at this; linarith⟩
        have h2 : e.minY + (i : ℚ) * r ≤ p.2 ∧ p.2 < e.minY + (i : ℚ) * r + r := ⟨h2.1, by have := h2.2; push_cast at this; linarith⟩
        rcases hout with h | h | h | h
        · exact hfx.1 (Or.inl h) hpx j k3 k4 h1
        · exact hfy.1 (Or.inl h) hpy i k1 k2 h2
        · exact hfx.1 (Or.inr h) hpx j k3 k4 h1
        · exact hfy.1 (Or.inr h) hpy i k1 k2 h2
      rw [this]; exact hR
    · rename_i hin
      push Not at hin
      obtain ⟨n1, n2, n3, n4⟩ := hin
      obtain ⟨j, j1, j2, j3, j4⟩ := hfx.2 n1 n3
      obtain ⟨i, i1, i2, i3, i4⟩ := hfy.2 n2 n4
      have hir : i < arr.rows := lt_of_lt_of_le i2 hbox.inside.1
      have hjc : j < arr.cols := lt_of_lt_of_le j2 hbox.inside.2
      obtain ⟨v, hv, hg⟩ := hs.cell i j hir hjc
      have hbg : b.get? (i - t.rmin) (j - t.cmin) = some (shownCell l none flip v) := by
        rw [hpart.2.2 (i - t.rmin) (j - t.cmin) (by rw [hpart.1]; omega) (by rw [hpart.2.1]; omega),
          show t.rmin + (i - t.rmin) = i by omega, show t.cmin + (j - t.cmin) = j by omega, hg]
      refine ⟨some (shownCell l none flip v), ?_, fun _ _ => ⟨v, rfl, ?_⟩⟩
      · show (match t.data with | [] => _ | a :: _ => _) = _
        rw [hd]
        simp only
        rw [i3, j3, hbg]
      · have : P.filter (fun q => decide (AroundLocation r p q)) = inCell e.minX e.minY r i j P := by
          unfold inCell
          exact List.filter_congr fun q _ => by rw [decide_eq_decide, inCell_around hr hx hy j4 i4]
        rw [this]; exact hv
  choose o ho hspec using hat
  have hql : g.queryList (some r) = [r] := by unfold Grid.queryList; simp [hr.ne']
  refine ⟨locs.map fun p => (o p).join, ?_, by simp, ?_⟩
  · unfold Grid.layerValuesAtXY
    rw [hql]
    unfold Grid.valuesLoop
    cases locs with
    | nil => rfl
    | cons p0 locs =>
      rw [if_pos (by simp [isUnset]), hret]
      simp only
      have hzip : ((p0 :: locs).zip ((p0 :: locs).map fun _ => (none : Option ℚ))) = (p0 :: locs).map fun p => (p, none) := by
        generalize p0 :: locs = ls
        induction ls with
        | nil => rfl
        | cons a ls ih => rw [List.map_cons, List.zip_cons_cons, ih, List.map_cons]
      rw [hzip, mapM_all_ok (h := fun pv : (ℚ × ℚ) × Option ℚ => (o pv.1).join)]
      · simp only [Grid.valuesLoop, List.map_map]
        rfl
      · intro x hx
        obtain ⟨p, -, rfl⟩ := List.mem_map.1 hx
        unfold surfUpdate
        simp only [isUnset, Option.isNone_none, if_true]
        rw [ho p]
        cases o p <;> rfl
  · intro k p hk hpx hpy
    obtain ⟨v, hv1, hv2⟩ := hspec p hpx hpy
    exact ⟨v, by rw [List.getElem?_map, hk, ← hv1]; rfl, hv2⟩

private theorem rule_nil (ha : alg = .mean ∨ alg = .shoalest) (hl : l ≠ .density) : CellRule alg l [] none := by
  rcases ha with rfl | rfl <;> cases l <;> first | exact absurd rfl hl | exact ⟨fun _ => rfl, fun h => absurd rfl h⟩

variable {size sub : ℚ} {bs : Bool} {fl : Fields} {F : Family} {s : Bool} {A A' : Store} {a a0 : GridCall} {dask d0 da : Option Nat}

/-- **C37** (single resolution grids), partial: right after all tiles were gridded by mean or shoalest the query answers for all locations, and outside the last row and column of cells
with the value of the soundings around the location -/
theorem C37_after_gridding_sr_partial (hs : 0 < size) {g : Grid Tile} (h : SRHistory env size bs fl F s g A) (ha : a.alg = .mean ∨ a.alg = .shoalest) (hF : F = .plain ∨ a.clear = true)
    (hv : a.regrid = .full ∨ a.clear = true) (hr : a.res = some r) {n : Nat} (hn : size = n * r) (hok : (g.gridWith env a dask).err = none)
    (hl : Ruled a.alg bs fl none l) (hd : l ≠ .density) (hflip : flip = true ↔ StoredUp (g.gridWith env a dask).st) (locs : List (ℚ × ℚ)) :
    ∃ e out, (g.gridWith env a dask).st.extents = some e ∧ (g.gridWith env a dask).st.layerValuesAtXY env locs l (some r) none = ((g.gridWith env a dask).st, .ok out) ∧
      AnswersFrom (CellRule a.alg l) (shownCell l none flip) A.allPts r e locs out := by
  have hup : flip = true ↔ (false = true ↔ ¬ StoredUp (g.gridWith env a dask).st) := by rw [hflip]; simp
  obtain ⟨e, arr, h1, h2, -⟩ := C100_surface_sr hs h ha hF hv hr hn hok (l := l) (nodata := none) (zUp := false) hl hup
  obtain ⟨hrp, h3, h4, -⟩ := layerShown_surface (.sr hs h hl rfl hF hv hr hn hok hup h1 (by rw [h2])) ha
  have hP := allPts_ne (store_ne (sr_inv hs h).1 hok) (sr_inv hs h).1.ne
  obtain ⟨out, h5, h6⟩ := point_values hrp (rule_nil ha hd) (fun Q => rule_none hl Q) hP h2 h1 h3 h4 locs
  exact ⟨e, out, h1, h5, h6⟩

/-- **C37** (variable resolution grids), partial: the same -/
theorem C37_after_gridding_vr_partial (hs : 0 < size) (hsub : isPowerOfTwo sub = true) {q : Nat} (hdiv : size = (q : ℚ) * sub) {g : Grid (Grid Tile)}
    (h : VRHistory env size sub bs fl F s g A) (ha : a.alg = .mean ∨ a.alg = .shoalest) (hF : F = .plain ∨ a.clear = true)
    (hv : a.regrid = .full ∨ a.clear = true) (hr : a.res = some r) {n : Nat} (hn : sub = n * r) (hok : (g.gridWith env a dask).err = none)
    (hl : Ruled a.alg false fl none l) (hd : l ≠ .density) (hflip : flip = true ↔ StoredUp (g.gridWith env a dask).st) (locs : List (ℚ × ℚ)) :
    ∃ e out, (g.gridWith env a dask).st.extents = some e ∧ (g.gridWith env a dask).st.layerValuesAtXY env locs l (some r) none = ((g.gridWith env a dask).st, .ok out) ∧
      AnswersFrom (CellRule a.alg l) (shownCell l none flip) A.allPts r e locs out := by
  have hup : flip = true ↔ (false = true ↔ ¬ StoredUp (g.gridWith env a dask).st) := by rw [hflip]; simp
  obtain ⟨e, arr, h1, h2, -⟩ := C100_surface_vr hs hsub hdiv h ha hF hv hr hn hok (l := l) (nodata := none) (zUp := false) hl hup
  obtain ⟨hrp, h3, h4, -⟩ := layerShown_surface (.vr hs hsub hdiv h hl rfl hF hv hr hn hok hup h1 (by rw [h2])) ha
  have hP := allPts_ne (store_ne (vr_inv hs hsub h).1 hok) (vr_inv hs hsub h).1.ne
  obtain ⟨out, h5, h6⟩ := point_values hrp (rule_nil ha hd) (fun Q => rule_none hl Q) hP h2 h1 h3 h4 locs
  exact ⟨e, out, h1, h5, h6⟩

/-- **C37** (single resolution grids), partial: the same for a grid kept up to date by updates, also after queries -/
theorem C37_after_update_sr_partial (hs : 0 < size) {g g1 v : Grid Tile} (h : SRHistory env size bs fl F s g A) (ha0 : a0.alg = .mean ∨ a0.alg = .shoalest) (hr0 : a0.res = some r)
    (hv0 : a0.regrid = .full ∨ a0.clear = true) (hF : F = .plain ∨ a0.clear = true) {n : Nat} (hn : size = n * r) (hok0 : (g.gridWith env a0 d0).err = none)
    (hsince : Since env fl a0.alg r (g.gridWith env a0 d0).st A g1 A') (ha : a.alg = a0.alg) (har : a.res = some r) (hok : (g1.gridWith env a da).err = none)
    (hu : Requeried env (g1.gridWith env a da).st v) (hl : Ruled a0.alg bs fl none l) (hd : l ≠ .density) (hflip : flip = true ↔ StoredUp v) (locs : List (ℚ × ℚ)) :
    ∃ e out, v.extents = some e ∧ v.layerValuesAtXY env locs l (some r) none = (v, .ok out) ∧
      AnswersFrom (CellRule a0.alg l) (shownCell l none flip) A'.allPts r e locs out := by
  have hup : flip = true ↔ (false = true ↔ ¬ StoredUp v) := by rw [hflip]; simp
  obtain ⟨e, arr, h1, h2, -⟩ := C113_update_surface_sr hs h ha0 hr0 hv0 hF hn hok0 hsince ha har hok hu (l := l) (nodata := none) (zUp := false) hl hup
  obtain ⟨hrp, h3, h4, -⟩ := layerShown_surface (.updateSR hs h hl rfl hr0 hv0 hF hn hok0 hsince ha har hok hu hup h1 (by rw [h2])) ha0
  obtain ⟨f1, f2⟩ := plain_family ha0
  have k1 : GrowInv (curSpec env .plain size 0 bs fl hs a0.alg r) (g.gridWith env a0 d0).st A :=
    grow_did (sr_inv hs h).1 (fun hB hd => (regrids_full hs f1 f2 r).did rfl hr0 ⟨hv0, hF⟩ hB hd) hok0
  have k2 : GrowInv (curSpec env .plain size 0 bs fl hs a0.alg r) g1 A' := since_inv hs (curSpec_query hs) (regrids_update hs f1 f2 r) k1 hsince
  have hne := allPts_ne (store_ne k2 hok) k2.ne
  obtain ⟨out, h5, h6⟩ := point_values hrp (rule_nil ha0 hd) (fun Q => rule_none hl Q) hne h2 h1 h3 h4 locs
  exact ⟨e, out, h1, h5, h6⟩

/-- **C37** (variable resolution grids), partial: the same for a grid kept up to date by updates -/
theorem C37_after_update_vr_partial (hs : 0 < size) (hsub : isPowerOfTwo sub = true) {q : Nat} (hdiv : size = (q : ℚ) * sub) {g g1 v : Grid (Grid Tile)}
    (h : VRHistory env size sub bs fl F s g A) (ha0 : a0.alg = .mean ∨ a0.alg = .shoalest) (hr0 : a0.res = some r)
    (hv0 : a0.regrid = .full ∨ a0.clear = true) (hF : F = .plain ∨ a0.clear = true) {n : Nat} (hn : sub = n * r) (hok0 : (g.gridWith env a0 d0).err = none)
    (hsince : Since env fl a0.alg r (g.gridWith env a0 d0).st A g1 A') (ha : a.alg = a0.alg) (har : a.res = some r) (hok : (g1.gridWith env a da).err = none)
    (hu : Requeried env (g1.gridWith env a da).st v) (hl : Ruled a0.alg false fl none l) (hd : l ≠ .density) (hflip : flip = true ↔ StoredUp v)
    (locs : List (ℚ × ℚ)) :
    ∃ e out, v.extents = some e ∧ v.layerValuesAtXY env locs l (some r) none = (v, .ok out) ∧
      AnswersFrom (CellRule a0.alg l) (shownCell l none flip) A'.allPts r e locs out := by
  have hup : flip = true ↔ (false = true ↔ ¬ StoredUp v) := by rw [hflip]; simp
  obtain ⟨e, arr, h1, h2, -⟩ := C113_update_surface_vr hs hsub hdiv h ha0 hr0 hv0 hF hn hok0 hsince ha har hok hu (l := l) (nodata := none) (zUp := false) hl hup
  obtain ⟨hrp, h3, h4, -⟩ := layerShown_surface (.updateVR hs hsub hdiv h hl rfl hr0 hv0 hF hn hok0 hsince ha har hok hu hup h1 (by rw [h2])) ha0
  obtain ⟨f1, f2⟩ := plain_family ha0
  have hp := isPowerOfTwo_pos hsub
  have k1 : GrowInv (subSpec (bs := bs) (curSpec env .plain sub 0 false fl hp a0.alg r) hs hsub) (g.gridWith env a0 d0).st A :=
    grow_did (vr_inv hs hsub h).1 (fun hB hd => (regrids_sub (regrids_full hp f1 f2 r) hs hsub).did rfl hr0 ⟨hv0, hF⟩ hB hd) hok0
  have k2 : GrowInv (subSpec (bs := bs) (curSpec env .plain sub 0 false fl hp a0.alg r) hs hsub) g1 A' :=
    since_inv hs (sub_query (curSpec_query hp) hs hsub) (regrids_sub (regrids_update hp f1 f2 r) hs hsub) k1 hsince
  have hne := allPts_ne (store_ne k2 hok) k2.ne
  obtain ⟨out, h5, h6⟩ := point_values hrp (rule_nil ha0 hd) (fun Q => rule_none hl Q) hne h2 h1 h3 h4 locs
  exact ⟨e, out, h1, h5, h6⟩

/-! ## the hypotheses can be met -/

private theorem not_up {τ : Type} {g : Grid τ} (h : g.info.vref = none) : (false = true) ↔ StoredUp g :=
  ⟨fun h => (nomatch h), fun ⟨_, hs, _⟩ => nomatch h.symm.trans hs⟩

private def meanCall : GridCall := { alg := .mean, res := some 8, clear := true }

/-- the demo grid: at (3, 1) the mean of 13 m and 12 m, at (19, 23) a sounding, at (60, 50) nothing, far outside nothing -/
example : (∃ e out, (demoSR.gridWith demoEnv meanCall none).st.extents = some e ∧
      (demoSR.gridWith demoEnv meanCall none).st.layerValuesAtXY demoEnv [(3, 1), (19, 23), (60, 50), (1000, -1000)] .depth (some 8) none = ((demoSR.gridWith demoEnv meanCall none).st, .ok out) ∧
      AnswersFrom (CellRule .mean .depth) (shownCell .depth none false) demoStore.allPts 8 e [(3, 1), (19, 23), (60, 50), (1000, -1000)] out) ∧
    ((demoSR.gridWith demoEnv meanCall none).st.layerValuesAtXY demoEnv [(3, 1), (19, 23), (60, 50), (1000, -1000)] .depth (some 8) none).2 =
      .ok [some (25 / 2), some 9, none, none] ∧ (demoStore.allPts.filter fun q => decide (AroundLocation 8 (3, 1) q)).length = 2 :=
  ⟨C37_after_gridding_sr_partial (size := 16) (n := 2) (a := meanCall) (by norm_num) demoSR_history (.inl rfl) (.inr rfl) (.inl rfl) rfl (by norm_num) (by decide +kernel) (.inl rfl) (by decide)
    (not_up (by decide +kernel)) _, (by decide +kernel), (by decide +kernel)⟩

example : ∃ e out, (demoVR.gridWith demoEnv meanCall (some 3)).st.extents = some e ∧
      (demoVR.gridWith demoEnv meanCall (some 3)).st.layerValuesAtXY demoEnv [(3, 1), (19, 23)] .vertical (some 8) none = ((demoVR.gridWith demoEnv meanCall (some 3)).st, .ok out) ∧
      AnswersFrom (CellRule .mean .vertical) (shownCell .vertical none false) demoStore.allPts 8 e [(3, 1), (19, 23)] out :=
  C37_after_gridding_vr_partial (size := 32) (sub := 16) (n := 2) (q := 2) (a := meanCall) (by norm_num) (by decide +kernel) (by norm_num) demoVR_history (.inl rfl) (.inr rfl) (.inl rfl) rfl
    (by norm_num) (by decide +kernel) (.inr (.inr ⟨rfl, .inl ⟨rfl, rfl⟩⟩)) (by decide) (not_up (by decide +kernel)) _

private def base : Grid Tile := (demoSR.gridWith demoEnv { alg := .shoalest, res := some 4, clear := true } none).st
private def changed : Grid Tile := ((base.removePoints "b").st.addPoints ⟨demoFields, demoA⟩ "a" {}).st
private def updated : Grid Tile := (changed.gridWith demoEnv { alg := .shoalest, res := some 4, regrid := .update } (some 2)).st

example : ∃ e out, updated.extents = some e ∧ updated.layerValuesAtXY demoEnv [(3, 5), (3, 6)] .depth (some 4) none = (updated, .ok out) ∧
    AnswersFrom (ShoalCell round3) (shownCell .depth none false) ((demoStore.remove "b") ++ [("a", demoA)] : Store).allPts 4 e [(3, 5), (3, 6)] out :=
  C37_after_update_sr_partial (size := 16) (n := 4) (d0 := none) (da := some 2) (a0 := { alg := .shoalest, res := some 4, clear := true })
    (a := { alg := .shoalest, res := some 4, regrid := .update }) (by norm_num) demoSR_history (.inr rfl) rfl (.inr rfl) (.inr rfl) (by norm_num) (by decide +kernel)
    ((Since.refl.remove "b" (by decide +kernel)).add demoA "a" {} (by decide +kernel)) rfl rfl (by decide +kernel) .refl (.inl rfl) (by decide) (not_up (by decide +kernel)) _

private def baseVR : Grid (Grid Tile) := (demoVR.gridWith demoEnv { alg := .shoalest, res := some 4, clear := true } none).st
private def changedVR : Grid (Grid Tile) := ((baseVR.removePoints "b").st.addPoints ⟨demoFields, demoA⟩ "a" {}).st
private def updatedVR : Grid (Grid Tile) := (changedVR.gridWith demoEnv { alg := .shoalest, res := some 4, regrid := .update } none).st

example : ∃ e out, updatedVR.extents = some e ∧ updatedVR.layerValuesAtXY demoEnv [(3, 5), (3, 6)] .depth (some 4) none = (updatedVR, .ok out) ∧
    AnswersFrom (ShoalCell round3) (shownCell .depth none false) ((demoStore.remove "b") ++ [("a", demoA)] : Store).allPts 4 e [(3, 5), (3, 6)] out :=
  C37_after_update_vr_partial (size := 32) (sub := 16) (n := 4) (q := 2) (d0 := none) (da := none) (a0 := { alg := .shoalest, res := some 4, clear := true })
    (a := { alg := .shoalest, res := some 4, regrid := .update }) (by norm_num) (by decide +kernel) (by norm_num) demoVR_history (.inr rfl) rfl (.inr rfl) (.inr rfl) (by norm_num)
    (by decide +kernel) ((Since.refl.remove "b" (by decide +kernel)).add demoA "a" {} (by decide +kernel)) rfl rfl (by decide +kernel) .refl (.inl rfl) (by decide)
    (not_up (by decide +kernel)) _

end Bathy
