import Verif.Lemmas.SlopeTile
import Verif.Lemmas.GridPts
import Verif.Props.TileQueries

/-!
# What a tile answers when it is asked for a container
-/

namespace Bathy

/-- the cell numbers of the soundings of the container are known -/
def Tile.ContIndexed (t : Tile) (r : ℚ) (c : String) : Prop :=
  ∃ ci s e, t.cellIdx.get? r = some ci ∧ t.container.get? c = some (s, e) ∧ ∀ i ∈ Tile.slice ci s e, i ≠ -1

theorem forall₂_slice {α β : Type} {R : α → β → Prop} {a : List α} {b : List β} (h : List.Forall₂ R a b) (s e : Nat) :
    List.Forall₂ R (Tile.slice a s e) (Tile.slice b s e) :=
  List.forall₂_drop s (List.forall₂_take e h)

/-- a history with the layers at `r` has the main layer there, in the shape of the tile -/
theorem main_shape {env : Env} {x y size : ℚ} {bs : Bool} {fl : Fields} {F : Family} {t : Tile} {A : Store} (hw : 0 < size)
    (h : TileHistory env x y size bs fl F t A) {r : ℚ} {ls : Dict Layer LayerArr} (hc : t.cells.get? r = some ls) :
    0 < r ∧ ∃ dg, ls.get? t.depthKey = some dg ∧ dg.rows = ncells size r ∧ dg.cols = ncells size r := by
  obtain ⟨hfr, hrep, hg⟩ := history_frame hw h
  obtain ⟨c1, -, -, ⟨c4, c5⟩, -⟩ := hg.cells r (core ls) (by unfold Tile.coreAt; rw [hc]; rfl)
  have hwx : t.width = size := hfr.2.2.2.2.1
  rw [hwx] at c4 c5
  refine ⟨c1, ?_⟩
  have hmem : t.depthKey ∈ (core (core ls)).map Prod.fst := by
    rw [c4]; unfold Tile.initLayers; cases F <;> simp
  obtain ⟨p, hp, hk⟩ := List.mem_map.1 hmem
  have hsome : (Dict.get? (core ls) t.depthKey).isSome = true := by
    rw [Dict.get?_isSome, Dict.has_iff]
    have : p ∈ core ls := (List.mem_filter.1 hp).1
    exact List.mem_map.2 ⟨p, this, hk⟩
  obtain ⟨dg, hdg⟩ := Option.isSome_iff_exists.1 hsome
  have hd : ls.get? t.depthKey = some dg := by rw [← core_get? ls (Tile.depthKey_core t)]; exact hdg
  have hin : (t.depthKey, dg) ∈ core (core ls) := by
    refine List.mem_filter.2 ⟨Dict.mem_of_get? _ hdg, ?_⟩
    exact Tile.depthKey_core t
  obtain ⟨-, k1, k2⟩ := c5 _ hin
  exact ⟨dg, hd, k1, k2⟩

theorem cont_answers {env : Env} {x y size : ℚ} {bs : Bool} {fl : Fields} {F : Family} {t : Tile} {A : Store} (hw : 0 < size)
    (h : TileHistory env x y size bs fl F t A) {alg : Alg} (ha : alg = .mean ∨ alg = .shoalest) (halg : t.algorithm = some alg) {r : ℚ}
    (hc : (t.cells.get? r).isSome = true) (c : String) (hi : c ∈ A.names → t.ContIndexed r c) (nodata : Option ℚ) (zUp : Bool) :
    ∃ a, EachCell a (ncells size r) x y r (A.ptsOf c) (PlainCell alg) ∧
      (t.getLayer env (.cont c) (some r) nodata zUp).2 =
        .ok (if A.allPts = [] ∨ (A.ptsOf c = [] ∧ (c ∈ A.names ∨ nodata = none)) then none else some (a.map (fun v => v.or nodata))) := by
  obtain ⟨ls, hls⟩ := Option.isSome_iff_exists.1 hc
  obtain ⟨hr, dg, hdg, hrows, hcols⟩ := main_shape hw h hls
  obtain ⟨hfr, hrep, hg⟩ := history_frame hw h
  have hbox := history_box hw h
  have hud := history_data hw h
  have hemp := Store.allPts_isEmpty hw h
  have hboxc : ∀ p ∈ A.ptsOf c, InBox x y size p := fun p hp => hbox p (Store.mem_ptsOf hp)
  have hqr : Tile.queryResolution t (some r) = .ok (some r) := by
    unfold Tile.queryResolution
    simp only [ne_of_gt hr, if_false]
    rw [if_pos (by rw [← Dict.get?_isSome]; exact hc)]
  have hnd : ∀ o, Tile.nodataFor (.cont c) o = o := fun _ => rfl
  have hor : ∀ a : LayerArr, (match nodata with | some v => a.map (fun e => some (e.getD v)) | none => a) = a.map (fun v => v.or nodata) := by
    intro a
    cases nodata with
    | none => cases a; simp [Arr2.map]
    | some v => simp only; congr 1; funext e; cases e <;> rfl
  have hfin : ∀ a : LayerArr, Tile.finishLayer (.cont c) nodata zUp a = if a.flat.all Option.isNone then none else some (a.map (fun v => v.or nodata)) := by
    intro a
    unfold Tile.finishLayer
    simp only [reduceCtorEq, false_and, if_false]
    split
    · rfl
    · exact congrArg some (hor a)
  by_cases hm : c ∈ A.names
  · -- a container of the tile
    obtain ⟨ci, s, e, hci, hse, hk⟩ := hi hm
    have hslice : Tile.slice A.allPts s e = A.ptsOf c := by
      have := slice_of_rep hrep hse
      rw [hrep.pts] at this
      exact this
    have hcis : Tile.slice ci s e = (A.ptsOf c).map (fun p => ((cellOf x y r (ncells size r) p : Nat) : Int)) := by
      have hidx := hg.idx r ci hci
      rw [hrep.pts] at hidx
      have := Tile.idx_of_known (forall₂_slice hidx s e) hk
      rw [this, hslice]
      unfold Tile.cellNo
      rw [hfr.1, hfr.2.2.1, hfr.2.2.2.2.1]
      rfl
    have hrange := Tile.cells_range (res := r) hw hr hboxc
    have key : ∃ f, (t.algorithm = some .mean → f = npGridMean env) ∧ (t.algorithm = some .shoalest → f = npGridShoalest env) ∧
        ∃ o, f ((A.ptsOf c).map Pt.z) ((A.ptsOf c).map (fun p => ((cellOf x y r (ncells size r) p : Nat) : Int)))
          ⟨Arr2.fill (ncells size r) (ncells size r) none, Arr2.fill (ncells size r) (ncells size r) (some 0), none, none⟩ [] [] = .ok o ∧
          EachCell (Tile.roundLayer o.depth) (ncells size r) x y r (A.ptsOf c) (PlainCell alg) := by
      rcases ha with rfl | rfl
      · obtain ⟨o, ho, o1, -⟩ := npGridMean_spec env ((A.ptsOf c).map Pt.z)
          ((A.ptsOf c).map (fun p => ((cellOf x y r (ncells size r) p : Nat) : Int)))
          ⟨Arr2.fill (ncells size r) (ncells size r) none, Arr2.fill (ncells size r) (ncells size r) (some 0), none, none⟩ [] []
          (ncells size r) (ncells size r) (by simp) (Tile.fill_shape _ _) (Tile.fill_shape _ _)
          (fun a ha => by cases ha) (fun a ha => by cases ha) (fun a ha => by cases ha) (fun a ha => by cases ha) hrange
        exact ⟨_, fun _ => rfl, fun h => (by rw [halg] at h; cases h), o, ho, Tile.mean_cells hw hr hboxc _ o1⟩
      · obtain ⟨o, ho, o1, -⟩ := npGridShoalest_spec env ((A.ptsOf c).map Pt.z)
          ((A.ptsOf c).map (fun p => ((cellOf x y r (ncells size r) p : Nat) : Int)))
          ⟨Arr2.fill (ncells size r) (ncells size r) none, Arr2.fill (ncells size r) (ncells size r) (some 0), none, none⟩ [] []
          (ncells size r) (ncells size r) (by simp) (Tile.fill_shape _ _) (Tile.fill_shape _ _)
          (fun a ha => by cases ha) (fun a ha => by cases ha) (fun a ha => by cases ha) (fun a ha => by cases ha) hrange
        exact ⟨_, fun h => (by rw [halg] at h; cases h), fun _ => rfl, o, ho, Tile.min_cells hw hr hboxc o1⟩
    obtain ⟨f, f1, f2, o, ho, ho2⟩ := key
    have honly : Tile.runPlainOnly f t r c =
        .ok { t with cells := t.cells.set r ((ls.set (.cont c) (Tile.roundLayer o.depth)).set (.contDensity c) o.density) } := by
      unfold Tile.runPlainOnly
      rw [hud, hls, hci, hse]
      simp only
      rw [hdg]
      simp only
      rw [slice_map, hslice, hcis, hrows, hcols, ho]
    have hens : Tile.ensureLayer env t (.cont c) r nodata =
        .ok { t with cells := t.cells.set r ((ls.set (.cont c) (Tile.roundLayer o.depth)).set (.contDensity c) o.density) } := by
      rw [← honly]
      unfold Tile.ensureLayer
      have hhas : t.container.has c = true := by rw [← Dict.get?_isSome, hse]; rfl
      simp only [hhas, if_true]
      rcases ha with rfl | rfl
      · rw [halg]; simp only; rw [← f1 halg]
      · rw [halg]; simp only; rw [← f2 halg]
    refine ⟨Tile.roundLayer o.depth, ho2, ?_⟩
    unfold Tile.getLayer
    simp only [hnd]
    by_cases he : t.isEmpty = true
    · rw [if_pos he, if_pos (Or.inl (hemp.1 he))]
    · rw [if_neg he, hqr]
      simp only
      rw [hens]
      simp only
      rw [Dict.get?_set_self, Option.bind_some, Dict.get?_set_ne _ _ (by simp), Dict.get?_set_self]
      simp only
      rw [hfin]
      have hall := allNone_iff hw hr hboxc ho2
      have hne : A.allPts ≠ [] := fun h0 => he (hemp.2 h0)
      by_cases hp : A.ptsOf c = []
      · rw [if_pos (hall.2 hp), if_pos (Or.inr ⟨hp, Or.inl hm⟩)]
      · rw [if_neg (fun hh => hp (hall.1 hh)), if_neg (fun hh => hh.elim hne (fun h => hp h.1))]
  · -- another name
    have hp : A.ptsOf c = [] := Store.ptsOf_not_mem A hm
    have hhas : t.container.has c = false := by
      rw [Dict.has_false_iff, hrep.container, slicesFrom_keys]; exact hm
    have hpos : 0 < ncells size r := ncells_pos hw hr
    refine ⟨Arr2.fill (ncells size r) (ncells size r) none, ?_, ?_⟩
    · refine ⟨by simp [Arr2.fill], rfl, rfl, fun i j hi hj => ⟨none, ?_, ?_⟩⟩
      · exact Arr2.get?_fill _ hi hj
      · rw [hp]
        have : inCell x y r i j [] = [] := rfl
        rw [this]
        rcases ha with rfl | rfl
        · exact ⟨fun _ => rfl, fun h => absurd rfl h⟩
        · exact ⟨fun _ => rfl, fun h => absurd rfl h⟩
    · have hens : Tile.ensureLayer env t (.cont c) r nodata =
          .ok { t with cells := t.cells.set r (ls.set (.cont c) (Arr2.fill (ncells size r) (ncells size r) nodata)) } := by
        unfold Tile.ensureLayer Tile.fillLayer
        simp only [hhas, Bool.false_eq_true, if_false, hls]
        rw [hdg]
        simp only [hrows, hcols]
      unfold Tile.getLayer
      simp only [hnd]
      by_cases he : t.isEmpty = true
      · rw [if_pos he, if_pos (Or.inl (hemp.1 he))]
      · rw [if_neg he, hqr]
        simp only
        rw [hens]
        simp only
        rw [Dict.get?_set_self, Option.bind_some, Dict.get?_set_self]
        simp only
        rw [hfin]
        have hne : A.allPts ≠ [] := fun h0 => he (hemp.2 h0)
        have hpos2 : 0 < ncells size r * ncells size r := Nat.mul_pos hpos hpos
        cases nodata with
        | none =>
          rw [if_pos (by simp [Arr2.fill]), if_pos (Or.inr ⟨hp, Or.inr rfl⟩)]
        | some v =>
          rw [if_neg (by simp [Arr2.fill]; omega), if_neg (by
            rintro (hh | ⟨-, hh | hh⟩)
            · exact hne hh
            · exact hm hh
            · cases hh)]
          simp [Arr2.fill, Arr2.map]

end Bathy
