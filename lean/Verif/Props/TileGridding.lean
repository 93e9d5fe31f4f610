import Verif.Lemmas.CellSums
import Verif.Spec.DemoEnv

/-!
# C17, C18, C19, C20, C21, C26, C27, C32: what gridding a tile computes

Model: `Tile.grid` (bathygrid/tile.py:686-769) with `npGridMean`, `npGridShoalest`, `nbCube` (bathygrid/algorithms.py).
Specification: `Verif/Spec/Cells.lean`.  `TileHistory` describes the tiles reachable by adds, removes, queries and gridding calls.
The number of cells per side is `⌈size / res⌉`.
-/

namespace Bathy

/-- `tile.cells[res][layer]` -/
def Tile.layerAt (t : Tile) (res : ℚ) (l : Layer) : Option LayerArr := (t.cells.get? res).bind (fun ls => ls.get? l)

/-- the name of the main layer -/
def mainLayer (isBackscatter : Bool) : Layer := if isBackscatter then .intensity else .depth

theorem layerAt_of_core {t : Tile} {res : ℚ} {L : Dict Layer LayerArr} (h : t.coreAt res = some L) {l : Layer} (hl : l.isCore = true) :
    t.layerAt res l = L.get? l := by
  unfold Tile.coreAt at h
  rw [Option.map_eq_some_iff] at h
  obtain ⟨ls, h1, rfl⟩ := h
  unfold Tile.layerAt
  rw [h1, Option.bind_some, core_get? ls hl]

theorem layerAt_of_none {t : Tile} {res : ℚ} (h : t.coreAt res = none) (l : Layer) : t.layerAt res l = none := by
  unfold Tile.coreAt at h
  rw [Option.map_eq_none_iff] at h
  unfold Tile.layerAt; rw [h]; rfl

theorem mainLayer_new (x y size : ℚ) (bs : Bool) : (Tile.new x y size bs).depthKey = mainLayer bs := rfl

theorem mainLayer_core (bs : Bool) : (mainLayer bs).isCore = true := by cases bs <;> rfl
theorem mainLayer_cases (bs : Bool) : mainLayer bs = .depth ∨ mainLayer bs = .intensity := by cases bs <;> simp [mainLayer]

theorem history_box {env : Env} {x y size : ℚ} {bs : Bool} {fl : Fields} {F : Family} {t : Tile} {A : Store} (hw : 0 < size)
    (h : TileHistory env x y size bs fl F t A) : ∀ p ∈ A.allPts, InBox x y size p := by
  obtain ⟨hf, hr, hg⟩ := history_frame hw h
  have := hg.box
  rw [hr.pts, hf.1, hf.2.2.1, hf.2.2.2.2.1] at this
  exact this

theorem grid_some (env : Env) (t : Tile) (alg : Alg) (res : ℚ) (clear : Bool) (mode : AutoMode) (params : Option GridParams)
    (border : Option PtArr) :
    (t.grid env alg (some res) clear mode params border).1 = t.gridAt env alg res clear params border ∧
    (t.grid env alg (some res) clear mode params border).2 =
      if (t.gridAt env alg res clear params border).err = none then some res else none := ⟨rfl, rfl⟩

/-! ## C17 -/

/-- **C17**: whatever happened to the tile before, `grid(algorithm='mean', resolution=res)` succeeds, and afterwards the value of
each cell of the main layer is the mean of the z values of the soundings inside that cell, rounded to 3 decimals, and NaN iff there is no
sounding in the cell; the vertical / horizontal uncertainty layers hold the rounded means of tvu / thu. -/
theorem C17_mean_is_cell_mean {env : Env} {x y size : ℚ} {bs : Bool} {fl : Fields} {F : Family} {t : Tile} {A : Store} (hw : 0 < size)
    (h : TileHistory env x y size bs fl F t A) {res : ℚ} (hres : isPowerOfTwo res = true) {clear : Bool}
    (hF : F = .plain ∨ clear = true) (mode : AutoMode) (params : Option GridParams) (border : Option PtArr) :
    let out := t.grid env .mean (some res) clear mode params border
    out.1.err = none ∧ out.2 = some res ∧
      (∃ a, out.1.st.layerAt res (mainLayer bs) = some a ∧
        EachCell a ⌈size / res⌉.toNat x y res A.allPts (MeanCell round3 Pt.z)) ∧
      (fl.hasTvu = true → ∃ a, out.1.st.layerAt res .vertical = some a ∧
        EachCell a ⌈size / res⌉.toNat x y res A.allPts (MeanCell round3 Pt.tvu)) ∧
      (fl.hasThu = true → ∃ a, out.1.st.layerAt res .horizontal = some a ∧
        EachCell a ⌈size / res⌉.toNat x y res A.allPts (MeanCell round3 Pt.thu)) := by
  intro out
  have key := history_grid hw h (alg := .mean) (F' := .plain) rfl (hF.imp Eq.symm id) hres params border
  simp only at key
  obtain ⟨L, hL, ⟨a1, l1, e1⟩, -, hv, hh⟩ := Tile.canon_mean env (dk := mainLayer bs) (mainLayer_cases bs) hw (isPowerOfTwo_pos hres)
    (⟨fl, A.allPts⟩ : PtArr) (history_box hw h) params border
  rw [mainLayer_new, hL] at key
  obtain ⟨k1, k2, -⟩ := key
  refine ⟨k1, ?_, ⟨a1, (layerAt_of_core k2 (mainLayer_core bs)).trans l1, e1⟩, ?_, ?_⟩
  · rw [(grid_some env t .mean res clear mode params border).2, if_pos k1]
  · intro hf
    obtain ⟨a, la, ea⟩ := hv hf
    exact ⟨a, (layerAt_of_core k2 rfl).trans la, ea⟩
  · intro hf
    obtain ⟨a, la, ea⟩ := hh hf
    exact ⟨a, (layerAt_of_core k2 rfl).trans la, ea⟩

/-- rounding to 3 decimals: the result is a multiple of 1/1000 and within half of that of the argument -/
theorem C17_rounding (v : ℚ) : (∃ k : Int, round3 v = (k : ℚ) / 1000) ∧ |round3 v - v| ≤ 1 / 2000 := by
  unfold round3
  simp only
  have h1 : ((⌊v * 1000⌋ : Int) : ℚ) ≤ v * 1000 := Int.floor_le _
  have h2 : v * 1000 < (⌊v * 1000⌋ : Int) + 1 := Int.lt_floor_add_one _
  generalize hf : ⌊v * 1000⌋ = f at *
  have up : |((f : ℚ) + 1) / 1000 - v| ≤ 1 / 2000 ↔ 1/2 ≤ v * 1000 - f ∧ v * 1000 - f ≤ 3/2 := by
    rw [abs_le]; constructor
    · rintro ⟨a, b⟩; constructor <;> linarith
    · rintro ⟨a, b⟩; constructor <;> linarith
  have dn : |(f : ℚ) / 1000 - v| ≤ 1 / 2000 ↔ -(1/2) ≤ v * 1000 - f ∧ v * 1000 - f ≤ 1/2 := by
    rw [abs_le]; constructor
    · rintro ⟨a, b⟩; constructor <;> linarith
    · rintro ⟨a, b⟩; constructor <;> linarith
  by_cases c1 : v * 1000 - f < 1/2
  · rw [if_pos c1]; exact ⟨⟨f, rfl⟩, dn.2 ⟨by linarith, by linarith⟩⟩
  · rw [if_neg c1]
    by_cases c2 : 1/2 < v * 1000 - f
    · rw [if_pos c2]; exact ⟨⟨f + 1, by push_cast; rfl⟩, up.2 ⟨by linarith, by linarith⟩⟩
    · rw [if_neg c2]
      split
      · exact ⟨⟨f, rfl⟩, dn.2 ⟨by linarith, by linarith⟩⟩
      · exact ⟨⟨f + 1, by push_cast; rfl⟩, up.2 ⟨by linarith, by linarith⟩⟩

/-! ## C18, C19 -/

/-- **C18**: as C17 for `grid(algorithm='shoalest')`: each cell holds the least z of its soundings, rounded, NaN iff empty. -/
theorem C18_shoalest_is_cell_minimum {env : Env} {x y size : ℚ} {bs : Bool} {fl : Fields} {F : Family} {t : Tile} {A : Store}
    (hw : 0 < size) (h : TileHistory env x y size bs fl F t A) {res : ℚ} (hres : isPowerOfTwo res = true) {clear : Bool}
    (hF : F = .plain ∨ clear = true) (mode : AutoMode) (params : Option GridParams) (border : Option PtArr) :
    let out := t.grid env .shoalest (some res) clear mode params border
    out.1.err = none ∧ out.2 = some res ∧
      ∃ a, out.1.st.layerAt res (mainLayer bs) = some a ∧
        EachCell a ⌈size / res⌉.toNat x y res A.allPts (ShoalCell round3) := by
  intro out
  have key := history_grid hw h (alg := .shoalest) (F' := .plain) rfl (hF.imp Eq.symm id) hres params border
  simp only at key
  obtain ⟨L, hL, ⟨a1, l1, e1⟩, -⟩ := Tile.canon_shoalest env (dk := mainLayer bs) (mainLayer_cases bs) hw (isPowerOfTwo_pos hres)
    (⟨fl, A.allPts⟩ : PtArr) (history_box hw h) params border
  rw [mainLayer_new, hL] at key
  obtain ⟨k1, k2, -⟩ := key
  refine ⟨k1, ?_, ⟨a1, (layerAt_of_core k2 (mainLayer_core bs)).trans l1, e1⟩⟩
  rw [(grid_some env t .shoalest res clear mode params border).2, if_pos k1]

/-- what the code really stores as shoalest uncertainty (see `Tile.RankCell`) -/
theorem shoalest_uncertainty {env : Env} {x y size : ℚ} {bs : Bool} {fl : Fields} {F : Family} {t : Tile} {A : Store}
    (hw : 0 < size) (h : TileHistory env x y size bs fl F t A) {res : ℚ} (hres : isPowerOfTwo res = true) {clear : Bool}
    (hF : F = .plain ∨ clear = true) (mode : AutoMode) (params : Option GridParams) (border : Option PtArr) :
    let out := t.grid env .shoalest (some res) clear mode params border
    out.1.err = none ∧
    (fl.hasTvu = true → ∃ a, out.1.st.layerAt res .vertical = some a ∧
        EachCell a ⌈size / res⌉.toNat x y res A.allPts (Tile.RankCell A.allPts Pt.tvu)) ∧
    (fl.hasThu = true → ∃ a, out.1.st.layerAt res .horizontal = some a ∧
        EachCell a ⌈size / res⌉.toNat x y res A.allPts (Tile.RankCell A.allPts Pt.thu)) := by
  intro out
  have key := history_grid hw h (alg := .shoalest) (F' := .plain) rfl (hF.imp Eq.symm id) hres params border
  simp only at key
  obtain ⟨L, hL, -, -, hv, hh⟩ := Tile.canon_shoalest env (dk := mainLayer bs) (mainLayer_cases bs) hw (isPowerOfTwo_pos hres)
    (⟨fl, A.allPts⟩ : PtArr) (history_box hw h) params border
  rw [mainLayer_new, hL] at key
  obtain ⟨k1, k2, -⟩ := key
  refine ⟨k1, ?_, ?_⟩
  · intro hf
    obtain ⟨a, la, ea⟩ := hv hf
    exact ⟨a, (layerAt_of_core k2 rfl).trans la, ea⟩
  · intro hf
    obtain ⟨a, la, ea⟩ := hh hf
    exact ⟨a, (layerAt_of_core k2 rfl).trans la, ea⟩

theorem eachCell_imp {a : LayerArr} {n : Nat} {x y res : ℚ} {pts : List Pt} {R R' : List Pt → Option ℚ → Prop}
    (h : EachCell a n x y res pts R) (hi : ∀ r c v, R (inCell x y res r c pts) v → R' (inCell x y res r c pts) v) :
    EachCell a n x y res pts R' := by
  obtain ⟨h0, h1, h2, h3⟩ := h
  refine ⟨h0, h1, h2, fun r c hr hc => ?_⟩
  obtain ⟨v, hv, hR⟩ := h3 r c hr hc
  exact ⟨v, hv, hi r c v hR⟩

theorem rank_of_sorted (pts : List Pt) (hs : pts.Pairwise (fun a b => a.z < b.z)) (p : Pt) (hp : p ∈ pts) :
    pts[pts.countP (fun q => decide (q.z < p.z))]? = some p := by
  induction pts with
  | nil => simp at hp
  | cons a pts ih =>
    rw [List.pairwise_cons] at hs
    rcases List.mem_cons.1 hp with rfl | hp'
    · have : (p :: pts).countP (fun q => decide (q.z < p.z)) = 0 := by
        rw [List.countP_eq_zero]
        intro q hq
        rcases List.mem_cons.1 hq with rfl | hq
        · simp
        · have := hs.1 q hq; simp; linarith
      rw [this]; rfl
    · have hlt := hs.1 p hp'
      rw [List.countP_cons_of_pos (by simpa using hlt), List.getElem?_cons_succ]
      exact ih hs.2 hp'

/-- **C19, partial**: the full property (for every point set) is false, see `C19_violated`.  It holds if the soundings of the
tile are stored in strictly increasing order of depth. -/
theorem C19_shoalest_uncertainty_partial {env : Env} {x y size : ℚ} {bs : Bool} {fl : Fields} {F : Family} {t : Tile} {A : Store}
    (hw : 0 < size) (h : TileHistory env x y size bs fl F t A) (hs : A.allPts.Pairwise (fun a b => a.z < b.z))
    {res : ℚ} (hres : isPowerOfTwo res = true) {clear : Bool}
    (hF : F = .plain ∨ clear = true) (mode : AutoMode) (params : Option GridParams) (border : Option PtArr) :
    let out := t.grid env .shoalest (some res) clear mode params border
    out.1.err = none ∧
    (fl.hasTvu = true → ∃ a, out.1.st.layerAt res .vertical = some a ∧
        EachCell a ⌈size / res⌉.toNat x y res A.allPts (ShoalUncCell round3 Pt.tvu)) ∧
    (fl.hasThu = true → ∃ a, out.1.st.layerAt res .horizontal = some a ∧
        EachCell a ⌈size / res⌉.toNat x y res A.allPts (ShoalUncCell round3 Pt.thu)) := by
  have conv : ∀ (f : Pt → ℚ) r c v, Tile.RankCell A.allPts f (inCell x y res r c A.allPts) v →
      ShoalUncCell round3 f (inCell x y res r c A.allPts) v := by
    intro f r c v hv
    refine ⟨hv.1, fun hne => ?_⟩
    obtain ⟨m, q, hm, hq, hv'⟩ := hv.2 hne
    obtain ⟨p, hp, hpz⟩ := List.mem_map.1 hm.1
    have hpm : p ∈ A.allPts := (List.mem_filter.1 hp).1
    have := rank_of_sorted A.allPts hs p hpm
    rw [hpz, hq] at this
    cases this
    exact ⟨q, hp, by rw [hpz]; exact hm, hv'⟩
  obtain ⟨h1, h2, h3⟩ := shoalest_uncertainty hw h hres hF mode params border
  refine ⟨h1, fun hf => ?_, fun hf => ?_⟩
  · obtain ⟨a, la, ea⟩ := h2 hf
    exact ⟨a, la, eachCell_imp ea (conv _)⟩
  · obtain ⟨a, la, ea⟩ := h3 hf
    exact ⟨a, la, eachCell_imp ea (conv _)⟩

private def q0 : Pt := ⟨1/2, 1/2, 10, 1, 1⟩
private def q1 : Pt := ⟨3/2, 3/2, 5, 2, 2⟩

/-- **C19 is violated**: two soundings in different cells, the deeper one first.  For every environment the vertical uncertainty stored in
the cell of the second sounding (tvu 2) is the one of the first sounding (tvu 1), so the layer is not the shoalest uncertainty. -/
theorem C19_violated (env : Env) :
    ∃ (t : Tile) (A : Store), TileHistory env 0 0 2 false { hasTvu := true } .plain t A ∧
      ∀ a, (t.grid env .shoalest (some 1) false .depth none none).1.st.layerAt 1 .vertical = some a →
        ¬ EachCell a ⌈(2 : ℚ) / 1⌉.toNat 0 0 1 A.allPts (ShoalUncCell round3 Pt.tvu) := by
  refine ⟨_, _, TileHistory.first .plain [q0, q1] "a" (by decide +kernel), ?_⟩
  intro a ha he
  have h := TileHistory.first (env := env) (x := 0) (y := 0) (size := 2) (bs := false) (fl := { hasTvu := true }) .plain [q0, q1] "a"
    (by decide +kernel)
  have key := (shoalest_uncertainty (by norm_num) h (res := 1) (by decide +kernel) (clear := false) (Or.inl rfl) .depth none none).2.1 rfl
  obtain ⟨b, hb, eb⟩ := key
  rw [ha] at hb
  cases hb
  have hn : ⌈(2 : ℚ) / 1⌉.toNat = 2 := by decide +kernel
  rw [hn] at he eb
  obtain ⟨v, hv, hR⟩ := eb.2.2.2 1 1 (by norm_num) (by norm_num)
  obtain ⟨w, hw', hS⟩ := he.2.2.2 1 1 (by norm_num) (by norm_num)
  rw [hv] at hw'
  cases hw'
  have hin : inCell 0 0 1 1 1 (Store.allPts [("a", [q0, q1])]) = [q1] := by decide +kernel
  rw [hin] at hR hS
  obtain ⟨m, q, hm, hq, e1⟩ := hR.2 (by simp)
  obtain ⟨p, hp, -, e2⟩ := hS.2 (by simp)
  have hm5 : m = 5 := by simpa [q1] using hm.1
  subst hm5
  have hr : (Store.allPts [("a", [q0, q1])])[(Store.allPts [("a", [q0, q1])]).countP (fun p => decide (p.z < 5))]? = some q0 := by
    decide +kernel
  rw [hr] at hq
  cases hq
  have hpq : p = q1 := by simpa using hp
  subst hpq
  rw [e1] at e2
  have : round3 q0.tvu ≠ round3 q1.tvu := by decide +kernel
  exact this (Option.some.inj e2)

/-! ## C21, C26 -/

/-- **C21, partial**: for any tile reached by a history (see `TileHistory`) and a new tile that received the same soundings, calling
`grid` with the same arguments raises the same exception or none, uses the same resolution, and if it succeeds every layer
at that resolution is the same.  Missing from the full property: histories that change between mean/shoalest and CUBE without clearing the
existing layers, for which it is false (`C21_violated`). -/
theorem C21_incremental_equals_scratch_partial {env : Env} {x y size : ℚ} {bs : Bool} {fl : Fields} {F F' : Family} {t : Tile} {A : Store}
    (hw : 0 < size) (h : TileHistory env x y size bs fl F t A) (alg : Alg) (ha : alg.family = some F') (clear : Bool)
    (hF : F' = F ∨ clear = true) (res : Option ℚ) (mode : AutoMode) (params : Option GridParams) (border : Option PtArr) (name : String) :
    let fresh := ((Tile.new x y size bs).addPoints ⟨fl, A.allPts⟩ name).st
    let out := t.grid env alg res clear mode params border
    let out' := fresh.grid env alg res false mode params border
    out.1.err = out'.1.err ∧ out.2 = out'.2 ∧
      ∀ r l, out.2 = some r → l.isCore = true → out.1.st.layerAt r l = out'.1.st.layerAt r l := by
  intro fresh out out'
  have hbox := history_box hw h
  have h' : TileHistory env x y size bs fl F' fresh [(name, A.allPts)] := TileHistory.first F' A.allPts name hbox
  have hA : Store.allPts [(name, A.allPts)] = A.allPts := by simp [Store.allPts]
  have hd := history_data hw h
  have hd' := history_data hw h'
  rw [hA] at hd'
  have hfr := (history_frame hw h).1
  have hfr' := (history_frame hw h').1
  have hch : Tile.chooseResolution env t res mode = Tile.chooseResolution env fresh res mode := by
    have e1 := Tile.chooseResolution_congr env (t := { fresh with container := t.container }) (u := t)
      ⟨hd.trans hd'.symm, rfl, by
        obtain ⟨a1, a2, a3, a4, a5, a6, a7⟩ := hfr
        obtain ⟨b1, b2, b3, b4, b5, b6, b7⟩ := hfr'
        exact ⟨a1.trans b1.symm, a2.trans b2.symm, a3.trans b3.symm, a4.trans b4.symm, a5.trans b5.symm, a6.trans b6.symm, a7.trans b7.symm⟩⟩
      res mode
    exact e1
  have main : ∀ r, Tile.chooseResolution env t res mode = .ok r →
      (t.gridAt env alg r clear params border).err = (fresh.gridAt env alg r false params border).err ∧
      ∀ l, (t.gridAt env alg r clear params border).err = none → l.isCore = true →
        (t.gridAt env alg r clear params border).st.layerAt r l = (fresh.gridAt env alg r false params border).st.layerAt r l := by
    intro r _
    cases hp : isPowerOfTwo r with
    | false =>
      rw [Tile.gridAt_bad env t alg hp, Tile.gridAt_bad env fresh alg hp]
      exact ⟨rfl, fun l h => by cases h⟩
    | true =>
      have k1 := history_grid hw h ha hF hp params border
      have k2 := history_grid hw h' (clear := false) ha (Or.inl rfl) hp params border
      simp only at k1 k2
      rw [hA] at k2
      cases hc : Tile.canonLayers env x y size (Tile.new x y size bs).depthKey ⟨fl, A.allPts⟩ F' alg r params border with
      | error e =>
        rw [hc] at k1 k2
        simp only at k1 k2
        rw [k1, k2]
        exact ⟨rfl, fun l h => by cases h⟩
      | ok L =>
        rw [hc] at k1 k2
        simp only at k1 k2
        rw [k1.1, k2.1]
        exact ⟨rfl, fun l _ hl => by rw [layerAt_of_core k1.2.1 hl, layerAt_of_core k2.2.1 hl]⟩
  simp only [out, out', Tile.grid]
  rw [← hch]
  cases hcr : Tile.chooseResolution env t res mode with
  | error e => exact ⟨rfl, rfl, fun r l h => by cases h⟩
  | ok r =>
    obtain ⟨m1, m2⟩ := main r hcr
    simp only
    rw [← m1]
    refine ⟨rfl, rfl, ?_⟩
    intro r' l hr' hl
    split at hr'
    · rename_i he
      cases hr'
      exact m2 l he hl
    · cases hr'

/-- **C21 is violated** for histories that mix the families without clearing: mean at resolution 1, CUBE at resolution 2, then CUBE at
resolution 1 raises KeyError, while CUBE at resolution 1 on a new tile with the same sounding succeeds. -/
theorem C21_violated :
    let fl : Fields := { hasTvu := true, hasThu := true }
    let t0 := ((Tile.new 0 0 4 false).addPoints ⟨fl, [⟨1, 1, 5, 1, 1⟩]⟩ "a").st
    let t1 := (t0.grid demoEnv .mean (some 1) false .depth none none).1.st
    let t2 := (t1.grid demoEnv .cube (some 2) false .depth none none).1.st
    (t2.grid demoEnv .cube (some 1) false .depth none none).1.err = some .keyError ∧
    (t0.grid demoEnv .cube (some 1) false .depth none none).1.err = none := by
  decide +kernel

/-- **C26** (tile): calling `grid` a second time with the same arguments gives the same resolution, and the same layers at every
resolution, as calling it once. -/
theorem C26_tile_idempotent {env : Env} {x y size : ℚ} {bs : Bool} {fl : Fields} {F F' : Family} {t : Tile} {A : Store}
    (hw : 0 < size) (h : TileHistory env x y size bs fl F t A) (alg : Alg) (ha : alg.family = some F') (clear : Bool)
    (hF : F' = F ∨ clear = true) (res : Option ℚ) (mode : AutoMode) (params : Option GridParams) (border : Option PtArr) :
    let once := t.grid env alg res clear mode params border
    let twice := once.1.st.grid env alg res clear mode params border
    once.1.err = none → twice.1.err = none ∧ twice.2 = once.2 ∧
      ∀ r l, l.isCore = true → twice.1.st.layerAt r l = once.1.st.layerAt r l := by
  intro once twice hok
  obtain ⟨hfr, hrep, hg⟩ := history_frame hw h
  have hpre : ∀ {F} {t : Tile}, t.GInv fl F → F' = F ∨ clear = true → Tile.GInv (if clear then t.clearGrid else t) fl F' := by
    intro F t hg hF
    rcases hF with rfl | rfl
    · exact Tile.ginv_pre hg clear
    · exact Tile.ginv_clearGrid hg
  have hsame : Tile.samePoints t once.1.st := (Tile.grid_same env t alg res clear mode params border hrep.idx).1
  have hch := Tile.chooseResolution_congr env hsame res mode
  have e1 : once.1 = _ := Tile.grid_eq env t alg res clear mode params border
  have e2 : twice.1 = _ := Tile.grid_eq env once.1.st alg res clear mode params border
  rw [hch] at e2
  cases hcr : Tile.chooseResolution env t res mode with
  | error e => rw [hcr] at e1; rw [e1] at hok; cases hok
  | ok r =>
    rw [hcr] at e1 e2
    simp only at e1 e2
    cases hp : isPowerOfTwo r with
    | false => rw [e1, Tile.gridAt_bad env t alg hp] at hok; cases hok
    | true =>
      have hd := history_data hw h
      have k1 := Tile.gridAt_canon env (hpre hg hF) hp hd ha params border
      simp only at k1
      rw [← e1] at k1
      obtain ⟨g1, s1, i1, o1, r1⟩ := k1
      have hd2 : once.1.st.data = some ⟨fl, A.allPts⟩ := s1.1.trans hd
      have k2 := Tile.gridAt_canon env (hpre g1 (Or.inl rfl)) hp hd2 ha params border
      simp only at k2
      rw [← e2] at k2
      obtain ⟨-, -, -, o2, r2⟩ := k2
      obtain ⟨f1, f2, f3, f4, f5, f6, f7⟩ := s1.2.2
      rw [f1, f3, f5, Tile.depthKey_frame s1.2.2] at r2
      have tw2 : twice.2 = if twice.1.err = none then some r else none := by
        have : twice.2 = _ := rfl
        simp only [twice, Tile.grid, hch, hcr]
      have on2 : once.2 = if once.1.err = none then some r else none := by
        simp only [once, Tile.grid, hcr]
      cases hc : Tile.canonLayers env t.minX t.minY t.width t.depthKey ⟨fl, A.allPts⟩ F' alg r params border with
      | error e => rw [hc] at r1; simp only at r1; rw [r1] at hok; cases hok
      | ok L =>
        rw [hc] at r1 r2
        simp only at r1 r2
        refine ⟨r2.1, by rw [tw2, on2, r1.1, r2.1], ?_⟩
        intro r' l hl
        by_cases hr : r' = r
        · subst hr
          rw [layerAt_of_core r1.2.1 hl, layerAt_of_core r2.2.1 hl]
        · have c1 := o1 r' hr
          have c2 := o2 r' hr
          have : twice.1.st.coreAt r' = once.1.st.coreAt r' := by
            rw [c2]
            cases clear
            · rfl
            · simp only [if_true] at c1 ⊢; rw [c1]
          cases ho : once.1.st.coreAt r' with
          | none => rw [ho] at this; rw [layerAt_of_none ho, layerAt_of_none this]
          | some L' => rw [ho] at this; rw [layerAt_of_core ho hl, layerAt_of_core this hl]

/-! ## C27 -/

theorem eachCell_det {a b : LayerArr} {n : Nat} {x y res : ℚ} {pts pts' : List Pt} {R : List Pt → Option ℚ → Prop}
    (hR : ∀ ps ps' v w, ps.Perm ps' → R ps v → R ps' w → v = w) (hp : pts.Perm pts')
    (ha : EachCell a n x y res pts R) (hb : EachCell b n x y res pts' R) : a = b := by
  obtain ⟨a0, a1, a2, a3⟩ := ha
  obtain ⟨b0, b1, b2, b3⟩ := hb
  apply Arr2.ext_get
  · unfold Arr2.WF; rw [a0, a1, a2]
  · unfold Arr2.WF; rw [b0, b1, b2]
  · rw [a1, b1]
  · rw [a2, b2]
  · intro r c hr hc
    rw [a1] at hr; rw [a2] at hc
    obtain ⟨v, hv, h1⟩ := a3 r c hr hc
    obtain ⟨w, hw, h2⟩ := b3 r c hr hc
    rw [hv, hw, hR _ _ v w (hp.filter _) h1 h2]

theorem meanCell_det (f : Pt → ℚ) (ps ps' : List Pt) (v w : Option ℚ) (hp : ps.Perm ps') (h1 : MeanCell round3 f ps v)
    (h2 : MeanCell round3 f ps' w) : v = w := by
  by_cases he : ps = []
  · subst he
    rw [h1.1 rfl, h2.1 hp.nil_eq.symm]
  · have he' : ps' ≠ [] := fun h => he (by rw [h] at hp; exact hp.eq_nil)
    rw [h1.2 he, h2.2 he']
    have : meanOf (ps.map f) = meanOf (ps'.map f) := by
      unfold meanOf
      rw [(hp.map f).sum_eq, (hp.map f).length_eq]
    rw [this]

theorem shoalCell_det (ps ps' : List Pt) (v w : Option ℚ) (hp : ps.Perm ps') (h1 : ShoalCell round3 ps v)
    (h2 : ShoalCell round3 ps' w) : v = w := by
  by_cases he : ps = []
  · subst he
    rw [h1.1 rfl, h2.1 hp.nil_eq.symm]
  · have he' : ps' ≠ [] := fun h => he (by rw [h] at hp; exact hp.eq_nil)
    obtain ⟨m, hm, rfl⟩ := h1.2 he
    obtain ⟨m', hm', rfl⟩ := h2.2 he'
    rw [isMin_unique (hp.map Pt.z) hm hm']

theorem countCell_det (ps ps' : List Pt) (v w : Option ℚ) (hp : ps.Perm ps') (h1 : CountCell ps v) (h2 : CountCell ps' w) : v = w := by
  unfold CountCell at *
  rw [h1, h2, hp.length_eq]

/-- density of a plain or CUBE gridded tile (lemma for C20) -/
theorem canon_density (env : Env) {dk : Layer} (hdk : dk = .depth ∨ dk = .intensity) {x y width res : ℚ} (hw : 0 < width) (hr : 0 < res)
    (d : PtArr) (hbox : ∀ p ∈ d.pts, InBox x y width p) {F : Family} {alg : Alg} (ha : alg.family = some F) (params : Option GridParams)
    (border : Option PtArr) {L : Dict Layer LayerArr} (hL : Tile.canonLayers env x y width dk d F alg res params border = .ok L) :
    ∃ a, L.get? .density = some a ∧ EachCell a (ncells width res) x y res d.pts CountCell := by
  cases alg with
  | mean =>
    cases ha
    obtain ⟨L', hL', -, h2, -⟩ := Tile.canon_mean env hdk hw hr d hbox params border
    rw [hL'] at hL; cases hL; exact h2
  | shoalest =>
    cases ha
    obtain ⟨L', hL', -, h2, -⟩ := Tile.canon_shoalest env hdk hw hr d hbox params border
    rw [hL'] at hL; cases hL; exact h2
  | cube =>
    cases ha
    unfold Tile.canonLayers Tile.algLayers at hL
    simp only at hL
    split at hL
    · cases hL
    · rename_i d' hd'
      split at hL
      · unfold Tile.cubeLayers at hL
        split at hL
        · rename_i dg ng tu hc hr' h1 h2 h3 h4 h5
          simp only at hL
          split at hL
          · cases hL
          · rename_i out hout
            cases hL
            refine ⟨out.density, ?_, ?_⟩
            · rw [Dict.get?_set_ne _ _ (by simp), Dict.get?_set_ne _ _ (by simp), Dict.get?_set_ne _ _ (by simp), Dict.get?_set_self]
            · have hg : ng = Arr2.fill (ncells width res) (ncells width res) (some 0) := by
                have : (Tile.initLayers dk d.fields .cube (ncells width res)).get? .density =
                    some (Arr2.fill (ncells width res) (ncells width res) (some 0)) := by
                  rcases hdk with rfl | rfl <;> simp [Tile.initLayers, Dict.get?]
                rw [this] at h2; exact (Option.some.inj h2).symm
              have hd : dg = Arr2.fill (ncells width res) (ncells width res) none := by
                have : (Tile.initLayers dk d.fields .cube (ncells width res)).get? dk =
                    some (Arr2.fill (ncells width res) (ncells width res) none) := by
                  simp [Tile.initLayers, Dict.get?]
                rw [this] at h1; exact (Option.some.inj h1).symm
              have hrange := Tile.cells_range (res := res) hw hr hbox
              have key := density_scatter env _ _ (ncells width res) (ncells width res) (Tile.fill_shape (ncells width res) (some (0 : ℚ))) hrange
              simp only at key
              apply Tile.density_cells hw hr hbox
              subst hg hd
              unfold nbCube at hout
              simp only at hout
              rw [takeIdx_eq_filterMap _ _ (idx_lt_of_perm (env.argsort.perm _))] at hout
              simp only at hout
              have hun : ((runsFrom 0 ((env.argsort.run (d.pts.map (fun p => ((cellOf x y res (ncells width res) p : Nat) : Int)))).filterMap
                  (fun i => (d.pts.map (fun p => ((cellOf x y res (ncells width res) p : Nat) : Int)))[i]?))).map (fun t => t.1)).mapM
                  (fun i => unravel i (Arr2.fill (ncells width res) (ncells width res) (none : Option ℚ)).rows
                    (Arr2.fill (ncells width res) (ncells width res) (none : Option ℚ)).cols) = some (rcOf (ncells width res) (cellKeys env _)) :=
                mapM_unravel (cellKeys env _) _ _ (fun k hk => hrange k ((cellKeys_mem env _ k).1 hk))
              rw [hun] at hout
              simp only at hout
              rw [counts_spec] at hout
              cases hout
              exact key
        · cases hL
      · cases hL
  | other => cases ha

/-- what a successful gridding call leaves behind (lemma for C20, C32, C45) -/
theorem grid_leaves {env : Env} {x y size : ℚ} {bs : Bool} {fl : Fields} {F F' : Family} {t : Tile} {A : Store} (hw : 0 < size)
    (h : TileHistory env x y size bs fl F t A) {alg : Alg} (ha : alg.family = some F') {clear : Bool} (hF : F' = F ∨ clear = true)
    {res : ℚ} (hres : isPowerOfTwo res = true) (params : Option GridParams) (border : Option PtArr)
    (hok : (t.gridAt env alg res clear params border).err = none) :
    ∃ L ls, Tile.canonLayers env x y size (mainLayer bs) ⟨fl, A.allPts⟩ F' alg res params border = .ok L ∧
      (t.gridAt env alg res clear params border).st.cells.get? res = some ls ∧ core ls = L ∧
      CInv (mainLayer bs) (t.gridAt env alg res clear params border).st.cells ∧
      Tile.samePoints t (t.gridAt env alg res clear params border).st ∧
      (∀ r', r' ≠ res → (t.gridAt env alg res clear params border).st.coreAt r' = if clear then none else t.coreAt r') := by
  obtain ⟨hfr, hrep, hg⟩ := history_frame hw h
  have hpre : Tile.GInv (if clear then t.clearGrid else t) fl F' := by
    rcases hF with rfl | rfl
    · exact Tile.ginv_pre hg clear
    · exact Tile.ginv_clearGrid hg
  have k := Tile.gridAt_canon env hpre hres (history_data hw h) ha params border
  simp only at k
  obtain ⟨-, s1, -, o1, r1⟩ := k
  rw [hfr.1, hfr.2.2.1, hfr.2.2.2.2.1, Tile.depthKey_frame hfr, mainLayer_new] at r1
  simp only [Tile.new] at r1
  have hci := Tile.cinv_gridAt (env := env) (r := res) (clear := clear) (params := params) (border := border) (history_cells hw h) ha
  rw [Tile.depthKey_frame hfr, mainLayer_new] at hci
  cases hc : Tile.canonLayers env x y size (mainLayer bs) ⟨fl, A.allPts⟩ F' alg res params border with
  | error e => rw [hc] at r1; simp only at r1; rw [r1] at hok; cases hok
  | ok L =>
    rw [hc] at r1
    simp only at r1
    have h2 := r1.2.1
    unfold Tile.coreAt at h2
    rw [Option.map_eq_some_iff] at h2
    obtain ⟨ls, hls, hcore⟩ := h2
    refine ⟨L, ls, rfl, hls, hcore, hci, s1, ?_⟩
    intro r' hr'
    have := o1 r' hr'
    rw [this]

/-- **C20**: after any successful gridding call (mean, shoalest or CUBE) on a reachable tile: every sounding lies in exactly one cell,
the density of each cell is the number of soundings of the tile in it, the densities sum to `points_count`, and if no other resolution
is stored `density_count` lists the positive densities. -/
theorem C20_density_counts {env : Env} {x y size : ℚ} {bs : Bool} {fl : Fields} {F F' : Family} {t : Tile} {A : Store} (hw : 0 < size)
    (h : TileHistory env x y size bs fl F t A) (alg : Alg) (ha : alg.family = some F') {clear : Bool} (hF : F' = F ∨ clear = true)
    {res : ℚ} (hres : isPowerOfTwo res = true) (mode : AutoMode) (params : Option GridParams) (border : Option PtArr)
    (hok : (t.grid env alg (some res) clear mode params border).1.err = none) :
    let u := (t.grid env alg (some res) clear mode params border).1.st
    (∀ p ∈ A.allPts, ∃! rc : Nat × Nat, rc.1 < ⌈size / res⌉.toNat ∧ rc.2 < ⌈size / res⌉.toNat ∧ InCell x y res rc.1 rc.2 p) ∧
    ∃ a, u.layerAt res .density = some a ∧ EachCell a ⌈size / res⌉.toNat x y res A.allPts CountCell ∧
      layerSum a = (u.pointsCount : ℚ) ∧ u.pointsCount = A.allPts.length ∧
      ((clear = true ∨ ∀ r, r ≠ res → t.cells.get? r = none) →
        u.densityCount = .ok ((countsOf ⌈size / res⌉.toNat x y res A.allPts).filter (fun v => decide (0 < v)))) := by
  intro u
  have hbox := history_box hw h
  have hr := isPowerOfTwo_pos hres
  have hdata := history_data hw h
  obtain ⟨L, ls, hL, hls, hcore, hci, hsame, hoth⟩ := grid_leaves hw h ha hF hres params border hok
  obtain ⟨a, la, ea⟩ := canon_density env (mainLayer_cases bs) hw hr (⟨fl, A.allPts⟩ : PtArr) hbox ha params border hL
  have hla : ls.get? .density = some a := by rw [← core_get? ls (l := .density) rfl, hcore]; exact la
  refine ⟨fun p hp => cell_unique hw hr (hbox p hp), a, ?_, ea, ?_, ?_, ?_⟩
  · show Tile.layerAt (t.gridAt env alg res clear params border).st res .density = _
    unfold Tile.layerAt
    rw [hls, Option.bind_some, hla]
  · have : (t.gridAt env alg res clear params border).st.pointsCount = A.allPts.length := by
      unfold Tile.pointsCount; rw [hsame.1, hdata]
    show layerSum a = ((t.gridAt env alg res clear params border).st.pointsCount : ℚ)
    rw [this, layerSum_counts ea]
    exact counts_sum hw hr A.allPts hbox
  · show (t.gridAt env alg res clear params border).st.pointsCount = _
    unfold Tile.pointsCount; rw [hsame.1, hdata]
  · intro hs
    show Tile.densityCount (t.gridAt env alg res clear params border).st = _
    have hnone : ∀ r, r ≠ res → (t.gridAt env alg res clear params border).st.cells.get? r = none := by
      intro r hne
      have := hoth r hne
      have hz : (t.gridAt env alg res clear params border).st.coreAt r = none := by
        rw [this]
        rcases hs with rfl | hs
        · rfl
        · unfold Tile.coreAt; rw [hs r hne]; cases clear <;> rfl
      unfold Tile.coreAt at hz
      exact Option.map_eq_none_iff.1 hz
    have hc := cells_single hci hls hnone
    unfold Tile.densityCount
    rw [hc]
    have hd : Dict.get? ls Layer.density = some a := hla
    simp only [List.mapM_cons, List.mapM_nil, hd, Option.map_some]
    rw [positives_flat ea]
    simp [ncells]

/-- **C27**: two tiles with the same extents whose soundings are permutations of each other have, after gridding with the same plain
algorithm at the same resolution, the same main layer and the same density; for `mean` also the same uncertainties. -/
theorem C27_order_of_soundings {env env' : Env} {x y size : ℚ} {bs : Bool} {fl : Fields} {F F' : Family} {t t' : Tile} {A A' : Store}
    (hw : 0 < size) (h : TileHistory env x y size bs fl F t A) (h' : TileHistory env' x y size bs fl F' t' A')
    (hp : A.allPts.Perm A'.allPts) (alg : Alg) (ha : alg = .mean ∨ alg = .shoalest) {res : ℚ} (hres : isPowerOfTwo res = true)
    {clear clear' : Bool} (hF : F = .plain ∨ clear = true) (hF' : F' = .plain ∨ clear' = true) (mode mode' : AutoMode)
    (params params' : Option GridParams) (border border' : Option PtArr) :
    let u := (t.grid env alg (some res) clear mode params border).1.st
    let u' := (t'.grid env' alg (some res) clear' mode' params' border').1.st
    u.layerAt res (mainLayer bs) = u'.layerAt res (mainLayer bs) ∧ u.layerAt res .density = u'.layerAt res .density ∧
      (alg = .mean → fl.hasTvu = true → u.layerAt res .vertical = u'.layerAt res .vertical) ∧
      (alg = .mean → fl.hasThu = true → u.layerAt res .horizontal = u'.layerAt res .horizontal) := by
  intro u u'
  rcases ha with rfl | rfl
  · obtain ⟨k1, -, ⟨a, la, ea⟩, hv, hh⟩ := C17_mean_is_cell_mean hw h hres hF mode params border
    obtain ⟨k1', -, ⟨a', la', ea'⟩, hv', hh'⟩ := C17_mean_is_cell_mean hw h' hres hF' mode' params' border'
    obtain ⟨-, d, ld, ed, -⟩ := C20_density_counts hw h .mean (F' := .plain) rfl (hF.imp Eq.symm id) hres mode params border k1
    obtain ⟨-, d', ld', ed', -⟩ := C20_density_counts hw h' .mean (F' := .plain) rfl (hF'.imp Eq.symm id) hres mode' params' border' k1'
    refine ⟨?_, ?_, ?_, ?_⟩
    · rw [la, la', eachCell_det (meanCell_det Pt.z) hp ea ea']
    · rw [ld, ld', eachCell_det countCell_det hp ed ed']
    · intro _ hf
      obtain ⟨b, lb, eb⟩ := hv hf
      obtain ⟨b', lb', eb'⟩ := hv' hf
      rw [lb, lb', eachCell_det (meanCell_det Pt.tvu) hp eb eb']
    · intro _ hf
      obtain ⟨b, lb, eb⟩ := hh hf
      obtain ⟨b', lb', eb'⟩ := hh' hf
      rw [lb, lb', eachCell_det (meanCell_det Pt.thu) hp eb eb']
  · obtain ⟨k1, -, a, la, ea⟩ := C18_shoalest_is_cell_minimum hw h hres hF mode params border
    obtain ⟨k1', -, a', la', ea'⟩ := C18_shoalest_is_cell_minimum hw h' hres hF' mode' params' border'
    obtain ⟨-, d, ld, ed, -⟩ := C20_density_counts hw h .shoalest (F' := .plain) rfl (hF.imp Eq.symm id) hres mode params border k1
    obtain ⟨-, d', ld', ed', -⟩ := C20_density_counts hw h' .shoalest (F' := .plain) rfl (hF'.imp Eq.symm id) hres mode' params' border' k1'
    refine ⟨?_, ?_, fun hne => absurd hne (by simp), fun hne => absurd hne (by simp)⟩
    · rw [la, la', eachCell_det shoalCell_det hp ea ea']
    · rw [ld, ld', eachCell_det countCell_det hp ed ed']

/-! ## C32 -/

/-- **C32, partial**: after a successful gridding call that cleared the tile or on a tile that has no layers at other resolutions, the only resolution stored is the one
gridded, and every layer stored is the one that gridding a new tile with the current soundings gives.
Without `clear_existing` other resolutions may be stale: `C32_violated`. -/
theorem C32_all_layers_current_partial {env : Env} {x y size : ℚ} {bs : Bool} {fl : Fields} {F F' : Family} {t : Tile} {A : Store}
    (hw : 0 < size) (h : TileHistory env x y size bs fl F t A) (alg : Alg) (ha : alg.family = some F') {clear : Bool}
    (hF : F' = F ∨ clear = true) {res : ℚ} (hres : isPowerOfTwo res = true) (mode : AutoMode) (params : Option GridParams)
    (border : Option PtArr) (name : String) (hok : (t.grid env alg (some res) clear mode params border).1.err = none)
    (hone : clear = true ∨ ∀ r, r ≠ res → t.cells.get? r = none) :
    let fresh := ((Tile.new x y size bs).addPoints ⟨fl, A.allPts⟩ name).st
    let u := (t.grid env alg (some res) clear mode params border).1.st
    let u' := (fresh.grid env alg (some res) false mode params border).1.st
    u.resolutions = [res] ∧ ∀ r l, l.isCore = true → u.layerAt r l = u'.layerAt r l := by
  intro fresh u u'
  obtain ⟨c1, c2, c3⟩ := C21_incremental_equals_scratch_partial hw h alg ha clear hF (some res) mode params border name
  have hr2 : (t.grid env alg (some res) clear mode params border).2 = some res := by
    rw [(grid_some env t alg res clear mode params border).2]; exact if_pos hok
  have hnone : ∀ {t : Tile} {F A clear}, TileHistory env x y size bs fl F t A → (F' = F ∨ clear = true) →
      (t.gridAt env alg res clear params border).err = none → (clear = true ∨ ∀ r, r ≠ res → t.cells.get? r = none) →
      ∃ ls, (t.gridAt env alg res clear params border).st.cells = [(res, ls)] := by
    intro t F A clear h hF hok hs
    obtain ⟨L, ls, hL, hls, hcore, hci, hsame, hoth⟩ := grid_leaves hw h ha hF hres params border hok
    refine ⟨ls, cells_single hci hls ?_⟩
    intro r hne
    have := hoth r hne
    have hz : (t.gridAt env alg res clear params border).st.coreAt r = none := by
      rw [this]
      rcases hs with rfl | hs
      · rfl
      · unfold Tile.coreAt; rw [hs r hne]; cases clear <;> rfl
    unfold Tile.coreAt at hz
    exact Option.map_eq_none_iff.1 hz
  obtain ⟨ls, e1⟩ := hnone h hF hok hone
  have hfh : TileHistory env x y size bs fl F' fresh [(name, A.allPts)] := TileHistory.first F' A.allPts name (history_box hw h)
  have hok' : (fresh.gridAt env alg res false params border).err = none := by
    have : (fresh.grid env alg (some res) false mode params border).1.err = none := by rw [← c1]; exact hok
    exact this
  obtain ⟨ls', e2⟩ := hnone hfh (Or.inl rfl) hok' (Or.inr (fun r _ => rfl))
  have eu : u.cells = [(res, ls)] := e1
  have eu' : u'.cells = [(res, ls')] := e2
  refine ⟨by unfold Tile.resolutions Dict.keys; rw [eu]; rfl, ?_⟩
  intro r l hl
  by_cases hne : r = res
  · subst hne
    exact c3 r l hr2 hl
  · unfold Tile.layerAt
    rw [eu, eu', Dict.get?_cons, Dict.get?_cons, if_neg (Ne.symm hne), if_neg (Ne.symm hne)]

/-- **C32 is violated**: grid at resolution 1, add a sounding, grid at resolution 2.  The layers at resolution 1 still show the old mean. -/
theorem C32_violated :
    let fl : Fields := {}
    let t0 := ((Tile.new 0 0 4 false).addPoints ⟨fl, [⟨1, 1, 5, 1, 1⟩]⟩ "a").st
    let t1 := (t0.grid demoEnv .mean (some 1) false .depth none none).1.st
    let t2 := (t1.addPoints ⟨fl, [⟨1, 1, 7, 1, 1⟩]⟩ "b").st
    let out := t2.grid demoEnv .mean (some 2) false .depth none none
    out.1.err = none ∧ out.1.st.pointCountChanged = false ∧ out.1.st.resolutions = [1, 2] ∧
      ∃ a, out.1.st.layerAt 1 .depth = some a ∧
        ¬ EachCell a ⌈(4 : ℚ) / 1⌉.toNat 0 0 1 [⟨1, 1, 5, 1, 1⟩, ⟨1, 1, 7, 1, 1⟩] (MeanCell round3 Pt.z) := by
  refine ⟨by decide +kernel, by decide +kernel, by decide +kernel, ?_⟩
  refine ⟨Arr2.mk 4 4 [none, none, none, none, none, some 5, none, none, none, none, none, none, none, none, none, none],
    by decide +kernel, ?_⟩
  rintro ⟨-, -, -, h⟩
  obtain ⟨v, hv, hR⟩ := h 1 1 (by decide +kernel) (by decide +kernel)
  have hin : inCell 0 0 1 1 1 [⟨1, 1, 5, 1, 1⟩, ⟨1, 1, 7, 1, 1⟩] = [⟨1, 1, 5, 1, 1⟩, ⟨1, 1, 7, 1, 1⟩] := by decide +kernel
  rw [hin] at hR
  have h2 := hR.2 (by simp)
  have h3 : v = some 5 := by
    have : Arr2.get? (Arr2.mk 4 4 [none, none, none, none, none, some (5 : ℚ), none, none, none, none, none, none, none,
      none, none, none]) 1 1 = some (some 5) := by decide +kernel
    rw [this] at hv
    exact (Option.some.inj hv).symm
  rw [h3] at h2
  have : (5 : ℚ) ≠ round3 (meanOf ([(⟨1, 1, 5, 1, 1⟩ : Pt), ⟨1, 1, 7, 1, 1⟩].map Pt.z)) := by decide +kernel
  exact this (Option.some.inj h2)

/-! ## Examples: the hypotheses can be met by a tile with a history -/

private def fl2 : Fields := { hasTvu := true, hasThu := true }
private def ptsA : List Pt := [⟨1/2, 1/2, 10, 1, 2⟩, ⟨3/4, 1/4, 20, 3, 4⟩, ⟨7/2, 5/2, 4, 1, 1⟩]
private def ptsB : List Pt := [⟨1/2, 3/4, 6, 1, 1⟩, ⟨5/2, 7/2, 9, 2, 2⟩]

/-- add "a", grid with CUBE at 2, add "b", remove "a", add "a" again, then query -/
private theorem demoHistory : ∃ t A, TileHistory demoEnv 0 0 4 false fl2 .cube t A ∧ A.allPts = ptsB ++ ptsA ∧ t.resolutions = [2] := by
  refine ⟨_, _, ((((TileHistory.first .cube ptsA "a" (by decide +kernel)).grid .cube rfl (some 2) false .depth none none).add ptsB "b"
    (by decide +kernel)).remove "a").add ptsA "a" (by decide +kernel), by decide +kernel, by decide +kernel⟩

/-- C17, C18, C19, C20, C21, C26, C32 apply to it; the mean at resolution 1 of the cell in the lower left corner is 12 -/
example : ∃ t A, TileHistory demoEnv 0 0 4 false fl2 .cube t A ∧
    (t.grid demoEnv .mean (some 1) true .depth none none).1.err = none ∧
    (t.grid demoEnv .mean (some 1) true .depth none none).1.st.layerAt 1 .depth =
      some (Arr2.mk 4 4 [some 12, none, none, none, none, none, none, none, none, none, none, some 4, none, none, some 9, none]) ∧
    (t.grid demoEnv .shoalest (some 1) true .depth none none).1.st.layerAt 1 .depth =
      some (Arr2.mk 4 4 [some 6, none, none, none, none, none, none, none, none, none, none, some 4, none, none, some 9, none]) ∧
    (t.grid demoEnv .cube (some 2) false .depth none none).1.err = none ∧
    (t.grid demoEnv .cube (some 2) false .depth none none).1.st.layerAt 2 .density =
      some (Arr2.mk 2 2 [some 3, some 0, some 0, some 2]) ∧
    (t.grid demoEnv .mean (some 1) true .depth none none).1.st.densityCount = .ok [3, 1, 1] := by
  refine ⟨_, _, ((((TileHistory.first .cube ptsA "a" (by decide +kernel)).grid .cube rfl (some 2) false .depth none none).add ptsB "b"
    (by decide +kernel)).remove "a").add ptsA "a" (by decide +kernel), ?_⟩
  decide +kernel

/-- C19: soundings in strictly increasing order of depth exist -/
example : ∃ t A, TileHistory demoEnv 0 0 4 false fl2 .plain t A ∧ A.allPts.Pairwise (fun a b => a.z < b.z) ∧ 2 < A.allPts.length := by
  refine ⟨_, _, TileHistory.first .plain [⟨1/2, 1/2, 3, 1, 2⟩, ⟨3/4, 1/4, 4, 3, 4⟩, ⟨7/2, 5/2, 7, 1, 1⟩] "a" (by decide +kernel), ?_, ?_⟩
  · decide +kernel
  · decide +kernel

/-- C27: two tiles with permuted soundings -/
example : ∃ t A t' A', TileHistory demoEnv 0 0 4 false fl2 .plain t A ∧ TileHistory demoEnv 0 0 4 false fl2 .plain t' A' ∧
    A.allPts.Perm A'.allPts ∧ A.allPts ≠ A'.allPts := by
  refine ⟨_, _, _, _, (TileHistory.first .plain ptsA "a" (by decide +kernel)).add ptsB "b" (by decide +kernel),
    (TileHistory.first .plain ptsB "b" (by decide +kernel)).add ptsA "a" (by decide +kernel), ?_, ?_⟩
  · exact (List.perm_append_comm (l₁ := ptsA) (l₂ := ptsB))
  · decide +kernel

end Bathy
