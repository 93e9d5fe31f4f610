import Verif.Spec.TrimmedSurface
import Verif.Props.PointSurface
import Verif.Lemmas.Csv

/-!
# C128: the surface that is exported, in terms of the soundings

After gridding, `return_surf_xyz` answers, and its coordinates and its array are the smallest surface with all soundings.
-/

namespace Bathy
open Grid

variable {env : Env} {alg : Alg} {l : Layer} {P : List Pt} {r : ℚ} {flip : Bool} {e : Extents} {arr : LayerArr}

private theorem near_iff {lo r x : ℚ} {j : Nat} : WithinHalf r (lo + (j : ℚ) * r + r / 2) x ↔ lo + (j : ℚ) * r ≤ x ∧ x < lo + ((j + 1 : Nat) : ℚ) * r := by
  unfold WithinHalf
  push_cast
  constructor <;> rintro ⟨h1, h2⟩ <;> constructor <;> linarith

private theorem inCell_centre {i j : Nat} {q : Pt} :
    InCell e.minX e.minY r i j q ↔ AroundCentre r (e.minX + (j : ℚ) * r + r / 2) (e.minY + (i : ℚ) * r + r / 2) q := by
  unfold InCell AroundCentre
  rw [near_iff, near_iff, and_assoc]

private theorem centres_get {lo r : ℚ} {c0 n k : Nat} {x : ℚ} (h : ((List.range n).map (fun k : Nat => lo + ((c0 + k : Nat) : ℚ) * r + r / 2))[k]? = some x) :
    k < n ∧ x = lo + ((c0 + k : Nat) : ℚ) * r + r / 2 := by
  rw [List.getElem?_map] at h
  by_cases hk : k < n
  · rw [List.getElem?_range hk] at h
    exact ⟨hk, (Option.some.inj h).symm⟩
  · rw [List.getElem?_eq_none (by simpa using hk)] at h
    cases h

/-- the exported surface of a grid whose array is a surface of `P` -/
theorem surf_trimmed {τ : Type} [LayerLike τ] {R : List Pt → Option ℚ → Prop} {g : Grid τ} (hr : 0 < r) (hR : ∀ z, ¬ R [] (some z)) (hRn : ∀ Q, R Q none → Q = []) (hP : P ≠ [])
    (hget : g.getLayersByName env [l] (some r) none false = (g, .ok (some [arr]))) (he : g.extents = some e) (hs : SurfaceOf R (shownCell l none flip) P r e arr) :
    ∃ t b, g.returnSurf env [l] (some r) false none = (g, .ok t) ∧ g.getLayersTrimmed env [l] (some r) none false = (g, .ok t.trimmed) ∧ t.trimmed.data = [b] ∧
      TrimmedSurface R (shownCell l none flip) P r t.xs t.ys b := by
  have hqr : g.queryRes (some r) = .ok r := by unfold Grid.queryRes; simp [hr.ne']
  have hno : g.noGrid = .ok false := by
    unfold Grid.getLayersByName at hget
    match hg : g.noGrid with
    | .error e => rw [hg] at hget; cases (Prod.ext_iff.1 hget).2
    | .ok true => rw [hg] at hget; cases (Prod.ext_iff.1 hget).2
    | .ok false => rfl
  have hval : ∀ {i j q}, i < arr.rows → j < arr.cols → q ∈ P → InCell e.minX e.minY r i j q → HasValue arr i j := by
    intro i j q hi hj hq hin
    obtain ⟨v, hv, hg⟩ := hs.cell i j hi hj
    cases v with
    | none => exact absurd (hRn _ hv) (List.ne_nil_of_mem (List.mem_filter.2 ⟨hq, decide_eq_true hin⟩))
    | some z => exact ⟨_, hg⟩
  have hpt : ∀ {i j}, HasValue arr i j → ∃ q ∈ P, InCell e.minX e.minY r i j q := by
    intro i j hv
    obtain ⟨hi, hj⟩ := hasValue_bounds hv
    obtain ⟨z, hz⟩ := hv
    obtain ⟨v, hv, hg⟩ := hs.cell i j hi hj
    rw [hz] at hg
    cases v with
    | none => cases hg
    | some w =>
      by_contra hcon
      push Not at hcon
      have : inCell e.minX e.minY r i j P = [] := by
        unfold inCell
        exact List.filter_eq_nil_iff.2 fun q hq => by simpa using hcon q hq
      rw [this] at hv
      exact hR w hv
  obtain ⟨t, ht⟩ := (C36_trim_ok arr []).2 (by
    obtain ⟨q, hq⟩ := List.exists_mem_of_ne_nil P hP
    obtain ⟨i, j, hi, hj, hin⟩ := hs.all q hq
    exact ⟨i, j, hval hi hj hq hin⟩)
  obtain ⟨hbox, hdl, hpart⟩ := trim_of (d := arr) (ds := []) (fun a ha i j hi hj => by
    rw [List.mem_singleton.1 ha]
    obtain ⟨v, -, hg⟩ := hs.cell i j hi hj
    exact ⟨_, hg⟩) ht
  obtain ⟨b, hb, hpart⟩ := hpart 0 arr rfl
  have hd : t.data = [b] := by
    match hsd : t.data, hdl, hb with
    | [b'], _, hb => cases hb; rfl
  have htr : g.getLayersTrimmed env [l] (some r) none false = (g, .ok t) := by
    unfold Grid.getLayersTrimmed
    rw [hget]
    simp only
    rw [ht]
  have hcr : t.cmin < t.cmax := by obtain ⟨i, hi⟩ := hbox.left; exact (hbox.all _ _ hi).2.2.2
  have hrr : t.rmin < t.rmax := by obtain ⟨i, hi⟩ := hbox.top; exact (hbox.all _ _ hi).2.1
  have hret : g.returnSurf env [l] (some r) false none =
      (g, .ok ⟨(List.range (t.cmax - t.cmin)).map (fun k : Nat => e.minX + ((t.cmin + k : Nat) : ℚ) * r + r / 2),
        (List.range (t.rmax - t.rmin)).map (fun k : Nat => e.minY + ((t.rmin + k : Nat) : ℚ) * r + r / 2), t⟩) := by
    unfold Grid.returnSurf
    rw [hno, hqr]
    simp only
    rw [htr]
    simp only
    rw [he]
    simp only
    rw [← slice_centres hr hs.cols hbox.inside.2 hcr, ← slice_centres hr hs.rows hbox.inside.1 hrr]
    simp
  have hhead : ∀ (lo : ℚ) {c0 c1 : Nat}, c0 < c1 →
      ((List.range (c1 - c0)).map (fun k : Nat => lo + ((c0 + k : Nat) : ℚ) * r + r / 2)).head? = some (lo + (c0 : ℚ) * r + r / 2) ∧
      ((List.range (c1 - c0)).map (fun k : Nat => lo + ((c0 + k : Nat) : ℚ) * r + r / 2)).getLast? = some (lo + ((c1 - 1 : Nat) : ℚ) * r + r / 2) := by
    intro lo c0 c1 h
    obtain ⟨m, rfl⟩ : ∃ m, c1 = c0 + (m + 1) := ⟨c1 - c0 - 1, by omega⟩
    rw [show c0 + (m + 1) - c0 = m + 1 by omega]
    constructor
    · rw [List.range_succ_eq_map]; simp
    · rw [List.range_succ]; simp
  refine ⟨_, b, hret, htr, hd, ?_⟩
  constructor
  · simp [hpart.1]
  · simp [hpart.2.1]
  · intro k x x' h h'
    rw [(centres_get h).2, (centres_get h').2]; push_cast; ring
  · intro k x x' h h'
    rw [(centres_get h).2, (centres_get h').2]; push_cast; ring
  · intro i j x y hx hy
    obtain ⟨hj, rfl⟩ := centres_get hx
    obtain ⟨hi, rfl⟩ := centres_get hy
    have hin := hbox.inside
    obtain ⟨v, hv, hg⟩ := hs.cell (t.rmin + i) (t.cmin + j) (by omega) (by omega)
    refine ⟨v, ?_, ?_⟩
    · have : (P.filter fun p => decide (AroundCentre r (e.minX + ((t.cmin + j : Nat) : ℚ) * r + r / 2) (e.minY + ((t.rmin + i : Nat) : ℚ) * r + r / 2) p)) =
          inCell e.minX e.minY r (t.rmin + i) (t.cmin + j) P := by
        unfold inCell
        exact List.filter_congr fun q _ => by rw [decide_eq_decide, inCell_centre]
      rw [this]; exact hv
    · rw [hpart.2.2 i j (by rw [hpart.1]; exact hi) (by rw [hpart.2.1]; exact hj), hg]
  · intro p hp
    obtain ⟨i, j, hi, hj, hin⟩ := hs.all p hp
    obtain ⟨k1, k2, k3, k4⟩ := hbox.all i j (hval hi hj hp hin)
    refine ⟨_, List.mem_map.2 ⟨j - t.cmin, List.mem_range.2 (by omega), rfl⟩, _, List.mem_map.2 ⟨i - t.rmin, List.mem_range.2 (by omega), rfl⟩, ?_⟩
    rw [show t.cmin + (j - t.cmin) = j by omega, show t.rmin + (i - t.rmin) = i by omega]
    exact inCell_centre.1 hin
  · obtain ⟨i, hi⟩ := hbox.left
    obtain ⟨j, hj⟩ := hbox.top
    obtain ⟨p, hp, hpi⟩ := hpt hi
    obtain ⟨q, hq, hqj⟩ := hpt hj
    exact ⟨⟨_, (hhead _ hcr).1, p, hp, (inCell_centre.1 hpi).1⟩, ⟨_, (hhead _ hrr).1, q, hq, (inCell_centre.1 hqj).2⟩⟩
  · obtain ⟨i, j, hc, hi⟩ := hbox.right
    obtain ⟨i', j', hc', hj⟩ := hbox.bottom
    obtain ⟨p, hp, hpi⟩ := hpt hi
    obtain ⟨q, hq, hqj⟩ := hpt hj
    refine ⟨⟨_, (hhead _ hcr).2, p, hp, ?_⟩, ⟨_, (hhead _ hrr).2, q, hq, ?_⟩⟩
    · rw [show t.cmax - 1 = j by omega]; exact (inCell_centre.1 hpi).1
    · rw [show t.rmax - 1 = i' by omega]; exact (inCell_centre.1 hqj).2

private theorem rule_some (ha : alg = .mean ∨ alg = .shoalest) (hl : l ≠ .density) (z : ℚ) : ¬ CellRule alg l [] (some z) := by
  intro h
  rcases ha with rfl | rfl <;> cases l <;> first | exact absurd rfl hl | exact absurd (h.1 rfl) (by simp)

variable {size sub : ℚ} {bs : Bool} {fl : Fields} {F : Family} {s : Bool} {A A' : Store} {a a0 : GridCall} {dask d0 da : Option Nat}

/-- **C128** (single resolution grids): right after all tiles were gridded by mean or shoalest `return_surf_xyz` and `get_layers_trimmed` answer, with the smallest surface of all
soundings -/
theorem C128_gridded_sr (hs : 0 < size) {g : Grid Tile} (h : SRHistory env size bs fl F s g A) (ha : a.alg = .mean ∨ a.alg = .shoalest) (hF : F = .plain ∨ a.clear = true)
    (hv : a.regrid = .full ∨ a.clear = true) (hr : a.res = some r) {n : Nat} (hn : size = n * r) (hok : (g.gridWith env a dask).err = none)
    (hl : Ruled a.alg bs fl none l) (hd : l ≠ .density) (hflip : flip = true ↔ StoredUp (g.gridWith env a dask).st) :
    ∃ t b, (g.gridWith env a dask).st.returnSurf env [l] (some r) false none = ((g.gridWith env a dask).st, .ok t) ∧
      (g.gridWith env a dask).st.getLayersTrimmed env [l] (some r) none false = ((g.gridWith env a dask).st, .ok t.trimmed) ∧ t.trimmed.data = [b] ∧
      TrimmedSurface (CellRule a.alg l) (shownCell l none flip) A.allPts r t.xs t.ys b := by
  have hup : flip = true ↔ (false = true ↔ ¬ StoredUp (g.gridWith env a dask).st) := by rw [hflip]; simp
  obtain ⟨e, arr, h1, h2, -⟩ := C100_surface_sr hs h ha hF hv hr hn hok (l := l) (nodata := none) (zUp := false) hl hup
  obtain ⟨hrp, h3, -⟩ := layerShown_surface (.sr hs h hl rfl hF hv hr hn hok hup h1 (by rw [h2])) ha
  have hP := allPts_ne (store_ne (sr_inv hs h).1 hok) (sr_inv hs h).1.ne
  exact surf_trimmed hrp (rule_some ha hd) (fun Q => rule_none hl Q) hP h2 h1 h3

/-- **C128** (variable resolution grids): the same -/
theorem C128_gridded_vr (hs : 0 < size) (hsub : isPowerOfTwo sub = true) {q : Nat} (hdiv : size = (q : ℚ) * sub) {g : Grid (Grid Tile)}
    (h : VRHistory env size sub bs fl F s g A) (ha : a.alg = .mean ∨ a.alg = .shoalest) (hF : F = .plain ∨ a.clear = true)
    (hv : a.regrid = .full ∨ a.clear = true) (hr : a.res = some r) {n : Nat} (hn : sub = n * r) (hok : (g.gridWith env a dask).err = none)
    (hl : Ruled a.alg false fl none l) (hd : l ≠ .density) (hflip : flip = true ↔ StoredUp (g.gridWith env a dask).st) :
    ∃ t b, (g.gridWith env a dask).st.returnSurf env [l] (some r) false none = ((g.gridWith env a dask).st, .ok t) ∧
      (g.gridWith env a dask).st.getLayersTrimmed env [l] (some r) none false = ((g.gridWith env a dask).st, .ok t.trimmed) ∧ t.trimmed.data = [b] ∧
      TrimmedSurface (CellRule a.alg l) (shownCell l none flip) A.allPts r t.xs t.ys b := by
  have hup : flip = true ↔ (false = true ↔ ¬ StoredUp (g.gridWith env a dask).st) := by rw [hflip]; simp
  obtain ⟨e, arr, h1, h2, -⟩ := C100_surface_vr hs hsub hdiv h ha hF hv hr hn hok (l := l) (nodata := none) (zUp := false) hl hup
  obtain ⟨hrp, h3, -⟩ := layerShown_surface (.vr hs hsub hdiv h hl rfl hF hv hr hn hok hup h1 (by rw [h2])) ha
  have hP := allPts_ne (store_ne (vr_inv hs hsub h).1 hok) (vr_inv hs hsub h).1.ne
  exact surf_trimmed hrp (rule_some ha hd) (fun Q => rule_none hl Q) hP h2 h1 h3

/-- **C128** (single resolution grids): the same for a grid kept up to date by updates, also after queries: soundings that were removed do not enlarge the surface -/
theorem C128_updated_sr (hs : 0 < size) {g g1 v : Grid Tile} (h : SRHistory env size bs fl F s g A) (ha0 : a0.alg = .mean ∨ a0.alg = .shoalest) (hr0 : a0.res = some r)
    (hv0 : a0.regrid = .full ∨ a0.clear = true) (hF : F = .plain ∨ a0.clear = true) {n : Nat} (hn : size = n * r) (hok0 : (g.gridWith env a0 d0).err = none)
    (hsince : Since env fl a0.alg r (g.gridWith env a0 d0).st A g1 A') (ha : a.alg = a0.alg) (har : a.res = some r) (hok : (g1.gridWith env a da).err = none)
    (hu : Requeried env (g1.gridWith env a da).st v) (hl : Ruled a0.alg bs fl none l) (hd : l ≠ .density) (hflip : flip = true ↔ StoredUp v) :
    ∃ t b, v.returnSurf env [l] (some r) false none = (v, .ok t) ∧ v.getLayersTrimmed env [l] (some r) none false = (v, .ok t.trimmed) ∧ t.trimmed.data = [b] ∧
      TrimmedSurface (CellRule a0.alg l) (shownCell l none flip) A'.allPts r t.xs t.ys b := by
  have hup : flip = true ↔ (false = true ↔ ¬ StoredUp v) := by rw [hflip]; simp
  obtain ⟨e, arr, h1, h2, -⟩ := C113_update_surface_sr hs h ha0 hr0 hv0 hF hn hok0 hsince ha har hok hu (l := l) (nodata := none) (zUp := false) hl hup
  obtain ⟨hrp, h3, -⟩ := layerShown_surface (.updateSR hs h hl rfl hr0 hv0 hF hn hok0 hsince ha har hok hu hup h1 (by rw [h2])) ha0
  obtain ⟨f1, f2⟩ := plain_family ha0
  have k1 : GrowInv (curSpec env .plain size 0 bs fl hs a0.alg r) (g.gridWith env a0 d0).st A :=
    grow_did (sr_inv hs h).1 (fun hB hd => (regrids_full hs f1 f2 r).did rfl hr0 ⟨hv0, hF⟩ hB hd) hok0
  have k2 : GrowInv (curSpec env .plain size 0 bs fl hs a0.alg r) g1 A' := since_inv hs (curSpec_query hs) (regrids_update hs f1 f2 r) k1 hsince
  exact surf_trimmed hrp (rule_some ha0 hd) (fun Q => rule_none hl Q) (allPts_ne (store_ne k2 hok) k2.ne) h2 h1 h3

/-- **C128** (variable resolution grids): the same -/
theorem C128_updated_vr (hs : 0 < size) (hsub : isPowerOfTwo sub = true) {q : Nat} (hdiv : size = (q : ℚ) * sub) {g g1 v : Grid (Grid Tile)}
    (h : VRHistory env size sub bs fl F s g A) (ha0 : a0.alg = .mean ∨ a0.alg = .shoalest) (hr0 : a0.res = some r)
    (hv0 : a0.regrid = .full ∨ a0.clear = true) (hF : F = .plain ∨ a0.clear = true) {n : Nat} (hn : sub = n * r) (hok0 : (g.gridWith env a0 d0).err = none)
    (hsince : Since env fl a0.alg r (g.gridWith env a0 d0).st A g1 A') (ha : a.alg = a0.alg) (har : a.res = some r) (hok : (g1.gridWith env a da).err = none)
    (hu : Requeried env (g1.gridWith env a da).st v) (hl : Ruled a0.alg false fl none l) (hd : l ≠ .density) (hflip : flip = true ↔ StoredUp v) :
    ∃ t b, v.returnSurf env [l] (some r) false none = (v, .ok t) ∧ v.getLayersTrimmed env [l] (some r) none false = (v, .ok t.trimmed) ∧ t.trimmed.data = [b] ∧
      TrimmedSurface (CellRule a0.alg l) (shownCell l none flip) A'.allPts r t.xs t.ys b := by
  have hup : flip = true ↔ (false = true ↔ ¬ StoredUp v) := by rw [hflip]; simp
  obtain ⟨e, arr, h1, h2, -⟩ := C113_update_surface_vr hs hsub hdiv h ha0 hr0 hv0 hF hn hok0 hsince ha har hok hu (l := l) (nodata := none) (zUp := false) hl hup
  obtain ⟨hrp, h3, -⟩ := layerShown_surface (.updateVR hs hsub hdiv h hl rfl hr0 hv0 hF hn hok0 hsince ha har hok hu hup h1 (by rw [h2])) ha0
  obtain ⟨f1, f2⟩ := plain_family ha0
  have hp := isPowerOfTwo_pos hsub
  have k1 : GrowInv (subSpec (bs := bs) (curSpec env .plain sub 0 false fl hp a0.alg r) hs hsub) (g.gridWith env a0 d0).st A :=
    grow_did (vr_inv hs hsub h).1 (fun hB hd => (regrids_sub (regrids_full hp f1 f2 r) hs hsub).did rfl hr0 ⟨hv0, hF⟩ hB hd) hok0
  have k2 : GrowInv (subSpec (bs := bs) (curSpec env .plain sub 0 false fl hp a0.alg r) hs hsub) g1 A' :=
    since_inv hs (sub_query (curSpec_query hp) hs hsub) (regrids_sub (regrids_update hp f1 f2 r) hs hsub) k1 hsince
  exact surf_trimmed hrp (rule_some ha0 hd) (fun Q => rule_none hl Q) (allPts_ne (store_ne k2 hok) k2.ne) h2 h1 h3

/-! ## the hypotheses can be met -/

private theorem not_up {τ : Type} {g : Grid τ} (h : g.info.vref = none) : (false = true) ↔ StoredUp g :=
  ⟨fun h => (nomatch h), fun ⟨_, hs, _⟩ => nomatch h.symm.trans hs⟩

private def meanCall : GridCall := { alg := .mean, res := some 8, clear := true }

example : ∃ t b, (demoSR.gridWith demoEnv meanCall none).st.returnSurf demoEnv [.depth] (some 8) false none = ((demoSR.gridWith demoEnv meanCall none).st, .ok t) ∧
    (demoSR.gridWith demoEnv meanCall none).st.getLayersTrimmed demoEnv [.depth] (some 8) none false = ((demoSR.gridWith demoEnv meanCall none).st, .ok t.trimmed) ∧
    t.trimmed.data = [b] ∧ TrimmedSurface (MeanCell round3 Pt.z) (shownCell .depth none false) demoStore.allPts 8 t.xs t.ys b :=
  C128_gridded_sr (size := 16) (n := 2) (a := meanCall) (by norm_num) demoSR_history (.inl rfl) (.inr rfl) (.inl rfl) rfl (by norm_num) (by decide +kernel) (.inl rfl) (by decide)
    (not_up (by decide +kernel))

example : ∃ t b, (demoVR.gridWith demoEnv meanCall (some 3)).st.returnSurf demoEnv [.vertical] (some 8) false none = ((demoVR.gridWith demoEnv meanCall (some 3)).st, .ok t) ∧
    (demoVR.gridWith demoEnv meanCall (some 3)).st.getLayersTrimmed demoEnv [.vertical] (some 8) none false = ((demoVR.gridWith demoEnv meanCall (some 3)).st, .ok t.trimmed) ∧
    t.trimmed.data = [b] ∧ TrimmedSurface (MeanCell round3 Pt.tvu) (shownCell .vertical none false) demoStore.allPts 8 t.xs t.ys b :=
  C128_gridded_vr (size := 32) (sub := 16) (n := 2) (q := 2) (a := meanCall) (by norm_num) (by decide +kernel) (by norm_num) demoVR_history (.inl rfl) (.inr rfl) (.inl rfl) rfl
    (by norm_num) (by decide +kernel) (.inr (.inr ⟨rfl, .inl ⟨rfl, rfl⟩⟩)) (by decide) (not_up (by decide +kernel))

private def base : Grid Tile := (demoSR.gridWith demoEnv { alg := .shoalest, res := some 4, clear := true } none).st
private def updated : Grid Tile := ((base.removePoints "b").st.gridWith demoEnv { alg := .shoalest, res := some 4, regrid := .update } (some 2)).st

/-- after the container "b" was taken away and the grid updated -/
example : ∃ t b, updated.returnSurf demoEnv [.depth] (some 4) false none = (updated, .ok t) ∧ updated.getLayersTrimmed demoEnv [.depth] (some 4) none false = (updated, .ok t.trimmed) ∧
    t.trimmed.data = [b] ∧ TrimmedSurface (ShoalCell round3) (shownCell .depth none false) (demoStore.remove "b").allPts 4 t.xs t.ys b :=
  C128_updated_sr (size := 16) (n := 4) (d0 := none) (da := some 2) (a0 := { alg := .shoalest, res := some 4, clear := true })
    (a := { alg := .shoalest, res := some 4, regrid := .update }) (by norm_num) demoSR_history (.inr rfl) rfl (.inr rfl) (.inr rfl) (by norm_num) (by decide +kernel)
    (Since.refl.remove "b" (by decide +kernel)) rfl rfl (by decide +kernel) .refl (.inl rfl) (by decide) (not_up (by decide +kernel))

private def baseVR : Grid (Grid Tile) := (demoVR.gridWith demoEnv { alg := .shoalest, res := some 4, clear := true } none).st
private def updatedVR : Grid (Grid Tile) :=
  (((baseVR.removePoints "b").st.addPoints ⟨demoFields, demoA⟩ "a" {}).st.gridWith demoEnv { alg := .shoalest, res := some 4, regrid := .update } none).st

example : ∃ t b, updatedVR.returnSurf demoEnv [.depth] (some 4) false none = (updatedVR, .ok t) ∧ updatedVR.getLayersTrimmed demoEnv [.depth] (some 4) none false = (updatedVR, .ok t.trimmed) ∧
    t.trimmed.data = [b] ∧ TrimmedSurface (ShoalCell round3) (shownCell .depth none false) ((demoStore.remove "b") ++ [("a", demoA)] : Store).allPts 4 t.xs t.ys b :=
  C128_updated_vr (size := 32) (sub := 16) (n := 4) (q := 2) (d0 := none) (da := none) (a0 := { alg := .shoalest, res := some 4, clear := true })
    (a := { alg := .shoalest, res := some 4, regrid := .update }) (by norm_num) (by decide +kernel) (by norm_num) demoVR_history (.inr rfl) rfl (.inr rfl) (.inr rfl) (by norm_num)
    (by decide +kernel) ((Since.refl.remove "b" (by decide +kernel)).add demoA "a" {} (by decide +kernel)) rfl rfl (by decide +kernel) .refl (.inl rfl) (by decide)
    (not_up (by decide +kernel))

end Bathy
