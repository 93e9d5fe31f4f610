import Verif.Lemmas.Slope
import Verif.Lemmas.LeastSquares
import Verif.Props.TileQueries

/-!
# asking a tile for its slopes
-/

namespace Bathy

namespace Tile

/-- all cell numbers at the resolution are known -/
def Indexed (t : Tile) (r : ℚ) : Prop := ∃ ci, t.cellIdx.get? r = some ci ∧ ∀ i ∈ ci, i ≠ -1

theorem idx_of_known {t : Tile} {r : ℚ} {ci : List Int} {pts : List Pt} (h : List.Forall₂ (fun i p => i = -1 ∨ i = t.cellNo r p) ci pts) (hk : ∀ i ∈ ci, i ≠ -1) :
    ci = pts.map (t.cellNo r) := by
  induction h with
  | nil => rfl
  | cons h1 _ ih =>
    rw [List.map_cons, ← ih (fun i hi => hk i (List.mem_cons_of_mem _ hi))]
    rcases h1 with h1 | h1
    · exact absurd h1 (hk _ List.mem_cons_self)
    · rw [h1]

theorem indexed_nos {t : Tile} {fl : Fields} {F : Family} (hg : GInv t fl F) {r : ℚ} (h : Indexed t r) : t.cellIdx.get? r = some (t.cellNos r) := by
  obtain ⟨ci, h1, h2⟩ := h
  rw [h1, idx_of_known (hg.idx r ci h1) h2]
  rfl

/-- the slopes of the soundings of a tile -/
theorem slopes_of_pts {env : Env} (hls : LeastSquares env.plane) {x y size r : ℚ} (hw : 0 < size) (hr : 0 < r) {pts : List Pt} (hbox : ∀ p ∈ pts, InBox x y size p) :
    ∃ sx sy, calculateSlopes env pts (pts.map (fun p => ((cellOf x y r (ncells size r) p : Nat) : Int))) (edgesOf x r (ncells size r)) (edgesOf y r (ncells size r)) = .ok (sx, sy) ∧
      SlopeCells sx sy (ncells size r) x y r pts := by
  obtain ⟨sx, sy, h1, h2, h3, h4⟩ := calculateSlopes_spec env pts (pts.map (fun p => ((cellOf x y r (ncells size r) p : Nat) : Int))) (by simp)
    (edgesOf x r (ncells size r)) (edgesOf y r (ncells size r)) (ncells size r) (ncells size r) (by rw [edgesOf_length]; omega) (by rw [edgesOf_length]; omega)
    (cells_range hw hr hbox)
  refine ⟨sx, sy, h1, hasShape_len' h2, h2.2.1, h2.2.2, hasShape_len' h3, h3.2.1, h3.2.2, ?_⟩
  intro i j hi hj
  have := h4 i j hi hj
  rw [cellVals_inCell hw hr pts Pt.xyz hbox hj] at this
  refine ⟨fun he => this.1 (by rw [he]; rfl), fun he => ?_⟩
  obtain ⟨qs, hp, k1, k2⟩ := this.2 (by simpa using he)
  exact ⟨env.plane qs, bestPlane_perm hp (hls qs), k1, k2⟩

theorem slopeCells_each {sx sy : LayerArr} {n : Nat} {x y r : ℚ} {pts : List Pt} (h : SlopeCells sx sy n x y r pts) :
    EachCell sx n x y r pts (SlopeCell Prod.fst) ∧ EachCell sy n x y r pts (SlopeCell Prod.snd) := by
  obtain ⟨h1, h2, h3, h4, h5, h6, h7⟩ := h
  constructor
  · refine ⟨h1, h2, h3, fun i j hi hj => ?_⟩
    obtain ⟨k1, k2⟩ := h7 i j hi hj
    by_cases he : inCell x y r i j pts = []
    · exact ⟨none, (k1 he).1, fun _ => rfl, fun hn => absurd he hn⟩
    · obtain ⟨s, b, e1, e2⟩ := k2 he
      exact ⟨some s.1, e1, fun hn => absurd hn he, fun _ => ⟨s, b, rfl⟩⟩
  · refine ⟨h4, h5, h6, fun i j hi hj => ?_⟩
    obtain ⟨k1, k2⟩ := h7 i j hi hj
    by_cases he : inCell x y r i j pts = []
    · exact ⟨none, (k1 he).2, fun _ => rfl, fun hn => absurd he hn⟩
    · obtain ⟨s, b, e1, e2⟩ := k2 he
      exact ⟨some s.2, e2, fun hn => absurd hn he, fun _ => ⟨s, b, rfl⟩⟩

theorem slopeCell_none {pick : ℚ × ℚ → ℚ} {ps : List Pt} {v : Option ℚ} (h : SlopeCell pick ps v) : v = none ↔ ps = [] := by
  constructor
  · intro hv
    by_contra he
    obtain ⟨s, -, e⟩ := h.2 he
    rw [e] at hv; cases hv
  · exact h.1

/-- a layer is all NaN iff there are no soundings in the tile -/
theorem allNone_slope {pick : ℚ × ℚ → ℚ} {a : LayerArr} {x y size res : ℚ} (hw : 0 < size) (hr : 0 < res) {pts : List Pt}
    (hbox : ∀ p ∈ pts, InBox x y size p) (h : EachCell a (ncells size res) x y res pts (SlopeCell pick)) :
    a.flat.all Option.isNone = true → pts = [] := by
  intro hall
  by_contra hne
  obtain ⟨p, hp⟩ := List.exists_mem_of_ne_nil pts hne
  obtain ⟨rc, ⟨h1, h2, h3⟩, -⟩ := cell_unique hw hr (hbox p hp)
  obtain ⟨v, hv, hR⟩ := h.2.2.2 rc.1 rc.2 h1 h2
  have hin : p ∈ inCell x y res rc.1 rc.2 pts := List.mem_filter.2 ⟨hp, by simpa using h3⟩
  have hvn : v = none := by
    rw [Arr2.get?_eq_flat _ (by rw [h.2.1]; exact h1) (by rw [h.2.2.1]; exact h2)] at hv
    have := List.all_eq_true.1 hall v (List.mem_of_getElem? hv)
    simpa using this
  rw [(slopeCell_none hR).1 hvn] at hin
  cases hin

/-- what `_run_slopes` leaves behind -/
theorem runSlopes_has {env : Env} {t u : Tile} {r : ℚ} (he : runSlopes env t r = .ok u) : ∃ ls sx, u.cells.get? r = some ls ∧ ls.get? .xSlope = some sx := by
  unfold runSlopes at he
  split at he
  · cases he
  · rename_i ls hls
    split at he
    · rename_i hx
      cases he
      rw [← Dict.get?_isSome] at hx
      obtain ⟨sx, hsx⟩ := Option.isSome_iff_exists.1 hx
      exact ⟨ls, sx, hls, hsx⟩
    · split at he
      · split at he
        · cases he
        · cases he
          exact ⟨_, _, Dict.get?_set_self _ _ _, by rw [Dict.get?_set_ne _ _ (by simp), Dict.get?_set_self]⟩
      · cases he
      · cases he

theorem ensure_slope {l : Layer} {pick : ℚ × ℚ → ℚ} (hl : IsSlope l pick) (env : Env) (t : Tile) (r : ℚ) (nd : Option ℚ) : ensureLayer env t l r nd = runSlopes env t r := by
  rcases hl with ⟨rfl, -⟩ | ⟨rfl, -⟩ <;> rfl

theorem finish_slope {l : Layer} {pick : ℚ × ℚ → ℚ} (hl : IsSlope l pick) (zUp : Bool) (a : LayerArr) :
    finishLayer l none zUp a = if a.flat.all Option.isNone then none else some a := by
  have : ¬ (l = .depth ∧ zUp = true) := by rcases hl with ⟨rfl, -⟩ | ⟨rfl, -⟩ <;> simp
  unfold finishLayer
  simp only [this, if_false]

theorem nodata_slope {l : Layer} {pick : ℚ × ℚ → ℚ} (hl : IsSlope l pick) (nd : Option ℚ) : nodataFor l nd = nd := by
  rcases hl with ⟨rfl, -⟩ | ⟨rfl, -⟩ <;> rfl

end Tile

/-- the tile of a history, its frame -/
theorem history_slope_state {env : Env} (hls : LeastSquares env.plane) {x y size : ℚ} {bs : Bool} {fl : Fields} {F : Family} {t : Tile} {A : Store} (hw : 0 < size)
    (h : TileHistory env x y size bs fl F t A) {r : ℚ} {ls : Dict Layer LayerArr} {sx : LayerArr} (h1 : t.cells.get? r = some ls) (h2 : ls.get? .xSlope = some sx) :
    0 < r ∧ t.Indexed r ∧ ∃ sy, ls.get? .ySlope = some sy ∧ SlopeCells sx sy (ncells size r) x y r A.allPts := by
  obtain ⟨hfr, hrep, hg⟩ := history_frame hw h
  obtain ⟨sy, ci, d, ex, ey, k1, k2, k3, k4, k5, k6⟩ := history_slopes hw h r ls sx h1 h2
  have hd := history_data hw h
  rw [k3] at hd
  cases hd
  obtain ⟨c1, c2, c3, -, -⟩ := hg.cells r (core ls) (by unfold Tile.coreAt; rw [h1]; rfl)
  rw [k4] at c2; rw [k5] at c3
  cases c2; cases c3
  have hf := hg.idx r ci k2
  rw [hrep.pts] at hf
  have hlen : ci.length = A.allPts.length := hf.length_eq
  have hkn : ∀ i ∈ ci, i ≠ -1 := by
    rintro i hi rfl
    have k6 := k6
    rw [calculateSlopes_fails env A.allPts ci hlen _ _ hi (by simp)] at k6
    cases k6
  have hci : ci = A.allPts.map (fun p => ((cellOf x y r (ncells size r) p : Nat) : Int)) := by
    rw [Tile.idx_of_known hf hkn]
    unfold Tile.cellNo
    rw [hfr.1, hfr.2.2.1, hfr.2.2.2.2.1]
    rfl
  obtain ⟨sx', sy', e1, e2⟩ := Tile.slopes_of_pts hls hw c1 (history_box hw h)
  have hwx : t.width = size := hfr.2.2.2.2.1
  have hmx : t.minX = x := hfr.1
  have hmy : t.minY = y := hfr.2.2.1
  rw [hwx, hmx, hmy, hci, e1] at k6
  cases k6
  exact ⟨c1, ⟨ci, k2, hkn⟩, sy, k1, e2⟩

theorem Store.allPts_isEmpty {env : Env} {x y size : ℚ} {bs : Bool} {fl : Fields} {F : Family} {t : Tile} {A : Store} (hw : 0 < size)
    (h : TileHistory env x y size bs fl F t A) : t.isEmpty = true ↔ A.allPts = [] := by
  unfold Tile.isEmpty Tile.pointsCount
  rw [history_data hw h]
  simp

/-- **what a slope query answers**, if it does -/
theorem slope_answer {env : Env} (hls : LeastSquares env.plane) {x y size : ℚ} {bs : Bool} {fl : Fields} {F : Family} {t : Tile} {A : Store} (hw : 0 < size)
    (h : TileHistory env x y size bs fl F t A) {r : ℚ} (hr : 0 < r) {l : Layer} {pick : ℚ × ℚ → ℚ} (hl : IsSlope l pick) (zUp : Bool) {o : Option LayerArr}
    (hout : (t.getLayer env l (some r) none zUp).2 = .ok o) :
    (∀ a, o = some a → EachCell a (ncells size r) x y r A.allPts (SlopeCell pick)) ∧ (o = none → A.allPts = [] ∨ t.cells.get? r = none) := by
  have hq := TileHistory.query h l (some r) none zUp
  have hemp := Store.allPts_isEmpty hw h
  have hst : ∀ (ls : Dict Layer LayerArr) (sx : LayerArr), _ := fun ls sx => history_slope_state hls hw hq (r := r) (ls := ls) (sx := sx)
  unfold Tile.getLayer at hout hst
  simp only at hout hst
  rw [Tile.nodata_slope hl] at hout hst
  by_cases he : t.isEmpty = true
  · rw [if_pos he] at hout
    cases hout
    exact ⟨fun a ha => (by cases ha), fun _ => Or.inl (hemp.1 he)⟩
  · rw [if_neg he] at hout hst
    have hqr : Tile.queryResolution t (some r) = if t.cells.has r then .ok (some r) else .ok none := by
      unfold Tile.queryResolution
      simp only [ne_of_gt hr, if_false]
    rw [hqr] at hout hst
    by_cases hh : t.cells.has r = true
    · rw [if_pos hh] at hout hst
      simp only at hout hst
      rw [Tile.ensure_slope hl] at hout hst
      cases hrun : Tile.runSlopes env t r with
      | error e => rw [hrun] at hout; cases hout
      | ok u =>
        rw [hrun] at hout hst
        simp only at hout hst
        obtain ⟨ls, sx, hu, hsx⟩ := Tile.runSlopes_has hrun
        rw [hu] at hout hst
        simp only [Option.bind_some] at hout hst
        have key : ∃ sy, ls.get? .ySlope = some sy ∧ SlopeCells sx sy (ncells size r) x y r A.allPts := by
          cases hll : ls.get? l with
          | none => rw [hll] at hst; exact (hst ls sx hu hsx).2.2
          | some a => rw [hll] at hst; exact (hst ls sx hu hsx).2.2
        obtain ⟨sy, hsy, hc⟩ := key
        have hcell : ∃ a, ls.get? l = some a ∧ EachCell a (ncells size r) x y r A.allPts (SlopeCell pick) := by
          rcases hl with ⟨rfl, rfl⟩ | ⟨rfl, rfl⟩
          · exact ⟨sx, hsx, (Tile.slopeCells_each hc).1⟩
          · exact ⟨sy, hsy, (Tile.slopeCells_each hc).2⟩
        obtain ⟨a, ha, hE⟩ := hcell
        rw [ha] at hout
        simp only at hout
        rw [Tile.finish_slope hl] at hout
        split at hout
        · rename_i hall
          cases hout
          exact ⟨fun a ha => (by cases ha), fun _ => Or.inl (Tile.allNone_slope hw hr (history_box hw h) hE hall)⟩
        · cases hout
          exact ⟨fun a ha => (by cases ha; exact hE), fun hn => (by cases hn)⟩
    · rw [if_neg hh] at hout
      cases hout
      refine ⟨fun a ha => (by cases ha), fun _ => Or.inr ?_⟩
      cases hg : t.cells.get? r with
      | none => rfl
      | some ls => exact absurd (by rw [← Dict.get?_isSome, hg]; rfl) hh

/-- a tile with layers and cell numbers at the resolution answers -/
theorem slope_answers {env : Env} (hls : LeastSquares env.plane) {x y size : ℚ} {bs : Bool} {fl : Fields} {F : Family} {t : Tile} {A : Store} (hw : 0 < size)
    (h : TileHistory env x y size bs fl F t A) {r : ℚ} (hc : (t.cells.get? r).isSome = true) (hi : t.Indexed r) :
    ∃ sx sy, SlopeCells sx sy (ncells size r) x y r A.allPts ∧ ∀ zUp,
      (t.getLayer env .xSlope (some r) none zUp).2 = .ok (if A.allPts = [] then none else some sx) ∧
      (t.getLayer env .ySlope (some r) none zUp).2 = .ok (if A.allPts = [] then none else some sy) := by
  obtain ⟨hfr, hrep, hg⟩ := history_frame hw h
  obtain ⟨ls, hcs⟩ := Option.isSome_iff_exists.1 hc
  obtain ⟨c1, c2, c3, -, -⟩ := hg.cells r (core ls) (by unfold Tile.coreAt; rw [hcs]; rfl)
  have hnos := Tile.indexed_nos hg hi
  have hcn : t.cellNos r = A.allPts.map (fun p => ((cellOf x y r (ncells size r) p : Nat) : Int)) := by
    unfold Tile.cellNos Tile.cellNo
    rw [hrep.pts, hfr.1, hfr.2.2.1, hfr.2.2.2.2.1]
    rfl
  rw [hcn] at hnos
  have hwx : t.width = size := hfr.2.2.2.2.1
  have hmx : t.minX = x := hfr.1
  have hmy : t.minY = y := hfr.2.2.1
  rw [hwx, hmx] at c2
  rw [hwx, hmy] at c3
  have hbox := history_box hw h
  have hd := history_data hw h
  have hemp := Store.allPts_isEmpty hw h
  -- the state after `_run_slopes`
  have hrun : ∃ u ls' sx sy, Tile.runSlopes env t r = .ok u ∧ u.cells.get? r = some ls' ∧ ls'.get? .xSlope = some sx ∧ ls'.get? .ySlope = some sy ∧
      SlopeCells sx sy (ncells size r) x y r A.allPts := by
    cases hx : ls.get? .xSlope with
    | some sx =>
      obtain ⟨-, -, sy, hsy, hE⟩ := history_slope_state hls hw h hcs hx
      refine ⟨t, ls, sx, sy, ?_, hcs, hx, hsy, hE⟩
      unfold Tile.runSlopes
      rw [hcs]
      simp only
      rw [if_pos (by rw [← Dict.get?_isSome, hx]; rfl)]
    | none =>
      obtain ⟨sx, sy, e1, e2⟩ := Tile.slopes_of_pts hls hw c1 hbox
      refine ⟨{ t with cells := t.cells.set r ((ls.set .xSlope sx).set .ySlope sy) }, (ls.set .xSlope sx).set .ySlope sy, sx, sy, ?_, Dict.get?_set_self _ _ _,
        by rw [Dict.get?_set_ne _ _ (by simp), Dict.get?_set_self], Dict.get?_set_self _ _ _, e2⟩
      unfold Tile.runSlopes
      rw [hcs]
      simp only
      rw [if_neg (by rw [← Dict.get?_isSome, hx]; simp), hd, hnos, c2, c3]
      simp only
      rw [e1]
  obtain ⟨u, ls', sx, sy, r1, r2, r3, r4, r5⟩ := hrun
  refine ⟨sx, sy, r5, fun zUp => ?_⟩
  have hqr : Tile.queryResolution t (some r) = .ok (some r) := by
    unfold Tile.queryResolution
    simp only [ne_of_gt c1, if_false]
    rw [if_pos (by rw [← Dict.get?_isSome]; exact hc)]
  have go : ∀ {l : Layer} {pick : ℚ × ℚ → ℚ} {a : LayerArr}, IsSlope l pick → ls'.get? l = some a → EachCell a (ncells size r) x y r A.allPts (SlopeCell pick) →
      (t.getLayer env l (some r) none zUp).2 = .ok (if A.allPts = [] then none else some a) := by
    intro l pick a hl hla hE
    unfold Tile.getLayer
    simp only
    rw [Tile.nodata_slope hl]
    by_cases he : t.isEmpty = true
    · rw [if_pos he, if_pos (hemp.1 he)]
    · rw [if_neg he, hqr]
      simp only
      rw [Tile.ensure_slope hl, r1]
      simp only
      rw [r2]
      simp only [Option.bind_some]
      rw [hla]
      simp only
      have hne : A.allPts ≠ [] := fun h0 => he (hemp.2 h0)
      rw [Tile.finish_slope hl, if_neg hne, if_neg (fun hall => hne (Tile.allNone_slope hw c1 hbox hE hall))]
  exact ⟨go (Or.inl ⟨rfl, rfl⟩) r3 (Tile.slopeCells_each r5).1, go (Or.inr ⟨rfl, rfl⟩) r4 (Tile.slopeCells_each r5).2⟩

end Bathy
