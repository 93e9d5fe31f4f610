import Verif.Lemmas.LeftBehind
import Verif.Lemmas.TileLayers
import Verif.Lemmas.TileGridFrame

/-!
# invariant of the gridded state of a tile: cached cell indices are missing (-1) or right, stored layers have the right names and shapes
-/

namespace Bathy
namespace Tile

/-- the gridded layers stored for a resolution -/
def coreAt (t : Tile) (r : ℚ) : Option (Dict Layer LayerArr) := (t.cells.get? r).map core

/-- cell number of a sounding of the tile at a resolution -/
def cellNo (t : Tile) (r : ℚ) (p : Pt) : Int := (cellOf t.minX t.minY r (ncells t.width r) p : Nat)

/-- the invariant; `fl` are the fields of the soundings and `F` the family of the algorithms used -/
structure GInv (t : Tile) (fl : Fields) (F : Family) : Prop where
  wpos : 0 < t.width
  maxX : t.maxX = t.minX + t.width
  maxY : t.maxY = t.minY + t.width
  box : ∀ p ∈ t.pts, InBox t.minX t.minY t.width p
  data : ∃ d, t.data = some d ∧ d.fields = fl
  idx : ∀ r l, t.cellIdx.get? r = some l → List.Forall₂ (fun i p => i = -1 ∨ i = t.cellNo r p) l t.pts
  cells : ∀ r L, t.coreAt r = some L → 0 < r ∧ t.edgesX.get? r = some (edgesOf t.minX r (ncells t.width r)) ∧
    t.edgesY.get? r = some (edgesOf t.minY r (ncells t.width r)) ∧ LayersOk t.depthKey fl F (ncells t.width r) L ∧
    (t.cellIdx.get? r = none → L = initLayers t.depthKey fl F (ncells t.width r))

theorem depthKey_frame {t u : Tile} (h : sameFrame t u) : u.depthKey = t.depthKey := by
  unfold depthKey; rw [h.2.2.2.2.2.2]

theorem cellNo_frame {t u : Tile} (h : sameFrame t u) (r : ℚ) (p : Pt) : u.cellNo r p = t.cellNo r p := by
  unfold cellNo; rw [h.1, h.2.2.1, h.2.2.2.2.1]

theorem ginv_congr {t u : Tile} {fl : Fields} {F : Family} (h : GInv t fl F) (hs : samePoints t u) (hi : u.cellIdx = t.cellIdx)
    (hx : u.edgesX = t.edgesX) (hy : u.edgesY = t.edgesY) (hc : ∀ r, u.coreAt r = t.coreAt r) : GInv u fl F := by
  have hf := hs.2.2
  obtain ⟨f1, f2, f3, f4, f5, f6, f7⟩ := hf
  refine ⟨by rw [f5]; exact h.wpos, by rw [f2, f1, f5]; exact h.maxX, by rw [f4, f3, f5]; exact h.maxY, ?_, ?_, ?_, ?_⟩
  · rw [samePoints_pts hs, f1, f3, f5]; exact h.box
  · rw [hs.1]; exact h.data
  · intro r l hl
    rw [hi] at hl
    rw [samePoints_pts hs]
    simpa only [cellNo_frame hs.2.2] using h.idx r l hl
  · intro r L hL
    rw [hc] at hL
    rw [hx, hy, hi, f1, f3, f5, depthKey_frame hs.2.2]
    exact h.cells r L hL

theorem coreAt_set {t u : Tile} {r : ℚ} {ls : Dict Layer LayerArr} (h : u.cells = t.cells.set r ls) (r' : ℚ) :
    u.coreAt r' = if r' = r then some (core ls) else t.coreAt r' := by
  unfold coreAt
  rw [h]
  by_cases hr : r' = r
  · subst hr; rw [Dict.get?_set_self]; simp
  · rw [Dict.get?_set_ne _ _ hr, if_neg hr]

theorem clearTemp_coreAt (t : Tile) (r r' : ℚ) : (t.clearTemp r).coreAt r' = t.coreAt r' := by
  unfold clearTemp
  split
  · rename_i ls hls
    rw [coreAt_set (t := t) (r := r) rfl r']
    by_cases hr : r' = r
    · subst hr
      rw [if_pos rfl, core_pop_temp _ rfl, core_pop_temp _ rfl]
      unfold coreAt; rw [hls]; rfl
    · rw [if_neg hr]
  · rfl

theorem foldl_clearTemp_coreAt (rs : List ℚ) (t : Tile) (r' : ℚ) : (rs.foldl clearTemp t).coreAt r' = t.coreAt r' := by
  induction rs generalizing t with
  | nil => rfl
  | cons r rs ih => rw [List.foldl_cons, ih, clearTemp_coreAt]

theorem ginv_clearTemp {t : Tile} {fl : Fields} {F : Family} (h : GInv t fl F) (r : ℚ) : GInv (t.clearTemp r) fl F := by
  have hs := clearTemp_same t r
  obtain ⟨-, -, -, -, -, -, -, -, -, -, e1, e2, -⟩ := clearTemp_fields t r
  exact ginv_congr h hs.1 hs.2 e1 e2 (clearTemp_coreAt t r)

theorem ginv_clearGrid {t : Tile} {fl : Fields} {F F' : Family} (h : GInv t fl F) : GInv t.clearGrid fl F' := by
  refine ⟨h.wpos, h.maxX, h.maxY, h.box, h.data, h.idx, ?_⟩
  intro r L hL
  simp [coreAt, clearGrid] at hL

/-! ### queries -/

theorem coreAt_of_temp {t u : Tile} {r : ℚ} {ls ls' : Dict Layer LayerArr} (hg : t.cells.get? r = some ls) (hc : core ls' = core ls)
    (h : u.cells = t.cells.set r ls') (r' : ℚ) : u.coreAt r' = t.coreAt r' := by
  rw [coreAt_set h]
  split
  · rename_i e; subst e; unfold coreAt; rw [hg, hc]; rfl
  · rfl

theorem runSlopes_core {env : Env} {t u : Tile} {r : ℚ} (h : runSlopes env t r = .ok u) :
    u.edgesX = t.edgesX ∧ u.edgesY = t.edgesY ∧ ∀ r', u.coreAt r' = t.coreAt r' := by
  unfold runSlopes at h
  split at h
  · cases h
  · rename_i ls hls
    split at h
    · cases h; exact ⟨rfl, rfl, fun _ => rfl⟩
    · split at h
      · split at h
        · cases h
        · rename_i sx sy _
          cases h
          refine ⟨rfl, rfl, fun r' => ?_⟩
          refine coreAt_of_temp hls (ls' := (ls.set .xSlope sx).set .ySlope sy) ?_ rfl r'
          rw [core_set_temp _ rfl, core_set_temp _ rfl]
      · cases h
      · cases h

theorem runPlainOnly_core {f : List ℚ → List Int → GridArrays → List ℚ → List ℚ → Except Err GridArrays} {t u : Tile} {r : ℚ}
    {c : String} (h : runPlainOnly f t r c = .ok u) :
    u.edgesX = t.edgesX ∧ u.edgesY = t.edgesY ∧ ∀ r', u.coreAt r' = t.coreAt r' := by
  unfold runPlainOnly at h
  split at h
  · rename_i ls _ _ _ _ hls _ _
    split at h
    · simp only at h
      split at h
      · cases h
      · rename_i out _
        cases h
        refine ⟨rfl, rfl, fun r' => ?_⟩
        refine coreAt_of_temp hls (ls' := (ls.set (.cont c) (roundLayer out.depth)).set (.contDensity c) out.density) ?_ rfl r'
        rw [core_set_temp _ rfl, core_set_temp _ rfl]
    · cases h
  · cases h
  · cases h

theorem ensureLayer_core {env : Env} {t u : Tile} {l : Layer} {r : ℚ} {n : Option ℚ} (h : ensureLayer env t l r n = .ok u) :
    u.edgesX = t.edgesX ∧ u.edgesY = t.edgesY ∧ ∀ r', u.coreAt r' = t.coreAt r' := by
  unfold ensureLayer fillLayer at h
  split at h
  · exact runSlopes_core h
  · exact runSlopes_core h
  · rename_i c
    split at h
    · split at h
      · exact runPlainOnly_core h
      · exact runPlainOnly_core h
      · cases h
      · cases h; exact ⟨rfl, rfl, fun _ => rfl⟩
    · split at h
      · cases h
      · rename_i ls hls
        split at h
        · rename_i dg _
          cases h
          refine ⟨rfl, rfl, fun r' => ?_⟩
          refine coreAt_of_temp hls (ls' := ls.set (.cont c) (Arr2.fill dg.rows dg.cols n)) ?_ rfl r'
          rw [core_set_temp _ rfl]
        · cases h
  · rename_i c
    split at h
    · cases h; exact ⟨rfl, rfl, fun _ => rfl⟩
    · split at h
      · cases h
      · rename_i ls hls
        split at h
        · rename_i dg _
          cases h
          refine ⟨rfl, rfl, fun r' => ?_⟩
          refine coreAt_of_temp hls (ls' := ls.set (.contDensity c) (Arr2.fill dg.rows dg.cols n)) ?_ rfl r'
          rw [core_set_temp _ rfl]
        · cases h
  · cases h; exact ⟨rfl, rfl, fun _ => rfl⟩

theorem getLayer_core (env : Env) (t : Tile) (l : Layer) (r n : Option ℚ) (z : Bool) :
    (getLayer env t l r n z).1.edgesX = t.edgesX ∧ (getLayer env t l r n z).1.edgesY = t.edgesY ∧
      ∀ r', (getLayer env t l r n z).1.coreAt r' = t.coreAt r' := by
  unfold getLayer
  simp only
  split
  · exact ⟨rfl, rfl, fun _ => rfl⟩
  · split
    · exact ⟨rfl, rfl, fun _ => rfl⟩
    · exact ⟨rfl, rfl, fun _ => rfl⟩
    · split
      · rcases leftBehind_cases t l _ with e | ⟨c, ls, a, b, hls, e⟩
        · rw [e]; exact ⟨rfl, rfl, fun _ => rfl⟩
        · rw [e]
          refine ⟨rfl, rfl, fun r' => coreAt_of_temp hls (ls' := (ls.set (.cont c) a).set (.contDensity c) b) ?_ rfl r'⟩
          rw [core_set_temp _ rfl, core_set_temp _ rfl]
      · rename_i u hu
        split
        · exact ensureLayer_core hu
        · exact ensureLayer_core hu

theorem ginv_getLayer (env : Env) {t : Tile} {fl : Fields} {F : Family} (h : GInv t fl F) (l : Layer) (r n : Option ℚ) (z : Bool) :
    GInv (getLayer env t l r n z).1 fl F := by
  have h1 := getLayer_same env t l r n z
  have h2 := getLayer_core env t l r n z
  exact ginv_congr h h1.1 h1.2 h2.1 h2.2.1 h2.2.2

/-! ### adding and removing soundings -/

theorem forall₂_boolIndex {α β : Type} {R : α → β → Prop} {l : List α} {l' : List β} (h : List.Forall₂ R l l') (m : List Bool) :
    List.Forall₂ R (boolIndex l m) (boolIndex l' m) := by
  induction h generalizing m with
  | nil => rw [boolIndex_nil, boolIndex_nil]; exact List.Forall₂.nil
  | cons hab _ ih =>
    cases m with
    | nil => simp [boolIndex]
    | cons b m =>
      rw [boolIndex_cons, boolIndex_cons]
      cases b with
      | true => exact List.Forall₂.cons hab (ih m)
      | false => exact ih m

theorem boolIndex_sub {α : Type} (l : List α) (m : List Bool) : ∀ x ∈ boolIndex l m, x ∈ l := by
  induction l generalizing m with
  | nil => intro x hx; rw [boolIndex_nil] at hx; exact hx
  | cons a l ih =>
    intro x hx
    cases m with
    | nil => simp [boolIndex] at hx
    | cons b m =>
      rw [boolIndex_cons] at hx
      split at hx
      · rcases List.mem_cons.1 hx with rfl | hx
        · exact List.mem_cons_self
        · exact List.mem_cons_of_mem _ (ih m x hx)
      · exact List.mem_cons_of_mem _ (ih m x hx)

theorem coreAt_congr {t u : Tile} (h : u.cells = t.cells) (r : ℚ) : u.coreAt r = t.coreAt r := by
  unfold coreAt; rw [h]

/-- a change of the soundings that keeps the layers and updates the cached indices keeps the invariant -/
theorem ginv_points {t u : Tile} {fl : Fields} {F : Family} (h : GInv t fl F) (hf : sameFrame t u)
    (hx : u.edgesX = t.edgesX) (hy : u.edgesY = t.edgesY) (hc : ∀ r, u.coreAt r = t.coreAt r)
    (hd : ∃ d, u.data = some d ∧ d.fields = fl) (hbox : ∀ p ∈ u.pts, InBox t.minX t.minY t.width p)
    (g : List Int → List Int) (hi : u.cellIdx = t.cellIdx.mapVals (fun _ l => g l))
    (hg : ∀ r l, List.Forall₂ (fun i p => i = -1 ∨ i = t.cellNo r p) l t.pts →
      List.Forall₂ (fun i p => i = -1 ∨ i = t.cellNo r p) (g l) u.pts) : GInv u fl F := by
  have hfr := hf
  obtain ⟨f1, f2, f3, f4, f5, f6, f7⟩ := hf
  refine ⟨by rw [f5]; exact h.wpos, by rw [f2, f1, f5]; exact h.maxX, by rw [f4, f3, f5]; exact h.maxY, ?_, hd, ?_, ?_⟩
  · rw [f1, f3, f5]; exact hbox
  · intro r l hl
    rw [hi, Dict.get?_mapVals, Option.map_eq_some_iff] at hl
    obtain ⟨l0, h0, rfl⟩ := hl
    simpa only [cellNo_frame hfr] using hg r l0 (h.idx r l0 h0)
  · intro r L hL
    rw [hc] at hL
    rw [hx, hy, hi, f1, f3, f5, depthKey_frame hfr, Dict.get?_mapVals, Option.map_eq_none_iff]
    exact h.cells r L hL

theorem idxLen_of_ginv_idx {t : Tile} {A : Store} {fl : Fields} (h : Rep t A fl) {d : PtArr} (hd : t.data = some d) :
    t.cellIdx.all (fun q => q.2.length == d.pts.length) = true := by
  rw [List.all_eq_true]
  intro q hq
  have := h.idx q.1 q.2 hq
  simp only [Tile.pts, hd] at this
  simpa using this

theorem ginv_remove {t : Tile} {A : Store} {fl : Fields} {F : Family} (h : GInv t fl F) (hr : Rep t A fl) (c : String) :
    GInv (removePoints t c).st fl F := by
  obtain ⟨d, hd, hdf⟩ := h.data
  cases hc : t.container.get? c with
  | none =>
    rw [removePoints_of_not_mem t c ((Dict.get?_eq_none _ _).1 hc)]; exact h
  | some se =>
    obtain ⟨s, e⟩ := se
    obtain ⟨u, hu, hfr, u1, -, u3, u4, u5, -, -, -, u9⟩ := removePoints_mem hc hd (idxLen_of_ginv_idx hr hd)
    rw [hu, Res.ok_st]
    have hp : u.pts = boolIndex t.pts (removeMask d.pts.length s e) := by simp only [Tile.pts, u1, hd]
    refine ginv_points h hfr u4 u5 ?_ ⟨_, u1, hdf⟩ ?_ (fun l => boolIndex l (removeMask d.pts.length s e)) u3 ?_
    · intro r; rw [coreAt_congr u9, foldl_clearTemp_coreAt]
    · rw [hp]; intro p hpm; exact h.box p (boolIndex_sub _ _ p hpm)
    · intro r l hl; rw [hp]; exact forall₂_boolIndex hl _

theorem ginv_add_new {t : Tile} {fl : Fields} {F : Family} (h : GInv t fl F) {d : PtArr} {c : String}
    (hf : d.fields = fl) (hbox : ∀ p ∈ d.pts, InBox t.minX t.minY t.width p) (hc : c ∉ t.container.keys) :
    GInv (addPoints t d c).st fl F := by
  obtain ⟨old, hd, hdf⟩ := h.data
  obtain ⟨u, hu, hfr, u1, -, u3, u4, u5, -, -, -, u9⟩ := addPoints_some hd hc (hdf.trans hf.symm)
  rw [hu, Res.ok_st]
  have hp : u.pts = t.pts ++ d.pts := by simp only [Tile.pts, u1, hd]
  refine ginv_points h hfr u4 u5 ?_ ⟨_, u1, hdf⟩ ?_ (fun l => l ++ List.replicate d.pts.length (-1)) u3 ?_
  · intro r; rw [coreAt_congr u9, foldl_clearTemp_coreAt]
  · rw [hp]; intro p hpm
    rcases List.mem_append.1 hpm with hpm | hpm
    · exact h.box p hpm
    · exact hbox p hpm
  · intro r l hl; rw [hp]
    refine List.rel_append hl ?_
    generalize d.pts = q
    induction q with
    | nil => exact List.Forall₂.nil
    | cons p q ih => exact List.Forall₂.cons (Or.inl rfl) ih

theorem ginv_add {t : Tile} {A : Store} {fl : Fields} {F : Family} (h : GInv t fl F) (hr : Rep t A fl) {d : PtArr} {c : String}
    (hf : d.fields = fl) (hbox : ∀ p ∈ d.pts, InBox t.minX t.minY t.width p) :
    GInv (addPoints t d c).st fl F := by
  by_cases hc : c ∈ t.container.keys
  · obtain ⟨v, hv, hvr, hfr, -, -, hdn⟩ := removePoints_spec hr c
    have hg := ginv_remove h hr c
    rw [hv] at hg
    simp only [Res.ok_st] at hg
    have hvn : c ∉ v.container.keys := by
      rw [hvr.container, slicesFrom_keys, Store.mem_names_remove]; simp
    obtain ⟨old, hd, -⟩ := h.data
    obtain ⟨vd, hvd, -⟩ := hg.data
    have := ginv_add_new hg hf (by rw [hfr.1, hfr.2.2.1, hfr.2.2.2.2.1]; exact hbox) hvn
    have he : addPoints t d c = addPoints v d c := by
      have hhas : t.container.has c = true := (Dict.has_iff _ _).2 hc
      have hhas' : v.container.has c = false := (Dict.has_false_iff _ _).2 hvn
      unfold addPoints
      simp only [hd, hhas, hv, hvd, hhas', if_true, Bool.false_eq_true, if_false, Res.andThen_ok]
    rw [he]; exact this
  · exact ginv_add_new h hf hbox hc

/-- the invariant holds after the first add to a new tile -/
theorem ginv_first {x y size : ℚ} {bs : Bool} {d : PtArr} {c : String} (F : Family) (hw : 0 < size)
    (hbox : ∀ p ∈ d.pts, InBox x y size p) : GInv ((Tile.new x y size bs).addPoints d c).st d.fields F := by
  refine ⟨hw, rfl, rfl, hbox, ⟨d, rfl, rfl⟩, ?_, ?_⟩
  · intro r l hl; simp [addPoints, Tile.new, Dict.mapVals] at hl
  · intro r L hL; simp [coreAt, addPoints, Tile.new] at hL

end Tile
end Bathy
