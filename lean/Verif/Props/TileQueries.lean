import Verif.Lemmas.TileAlg
import Verif.Props.TileGridding
import Verif.Props.TileStore

/-!
# C44, C45: container query, cell count and coverage area of a tile

Model: `Tile.getLayer` (bathygrid/tile.py:771-841), `Tile.cellCount`, `Tile.coverageArea` (bathygrid/tile.py:85-100, 202-221).
Specification: `Verif/Spec/Cells.lean`.
-/

namespace Bathy

/-! ## C45 -/

/-- **C45, partial**: after gridding with mean or shoalest, `cell_count` at that resolution is the number of cells that contain a sounding.
After gridding with any algorithm, if no other resolution is stored, the coverage area is the number of cells that contain a
sounding times the cell area, rounded to 3 decimals.  Missing: `cell_count` for CUBE, where the number of populated cells is up
to the external CUBE function; with one that fills neighbouring cells the count differs, see `C45_violated`. -/
theorem C45_cell_count_partial {env : Env} {x y size : ℚ} {bs : Bool} {fl : Fields} {F F' : Family} {t : Tile} {A : Store} (hw : 0 < size)
    (h : TileHistory env x y size bs fl F t A) (alg : Alg) (ha : alg.family = some F') {clear : Bool} (hF : F' = F ∨ clear = true)
    {res : ℚ} (hres : isPowerOfTwo res = true) (mode : AutoMode) (params : Option GridParams) (border : Option PtArr)
    (hok : (t.grid env alg (some res) clear mode params border).1.err = none) :
    let u := (t.grid env alg (some res) clear mode params border).1.st
    (F' = .plain → ∃ D : Dict ℚ Nat, u.cellCount = some D ∧ D.get? res = some (occupied ⌈size / res⌉.toNat x y res A.allPts).length) ∧
    ((clear = true ∨ ∀ r, r ≠ res → t.cells.get? r = none) →
      u.coverageArea = .ok (round3 (((occupied ⌈size / res⌉.toNat x y res A.allPts).length : ℚ) * res ^ 2))) := by
  intro u
  obtain ⟨L, ls, hL, hls, hcore, hci, hsame, hoth⟩ := grid_leaves hw h ha hF hres params border hok
  have hbox := history_box hw h
  have hr := isPowerOfTwo_pos hres
  constructor
  · rintro rfl
    have hmain : ∃ a, L.get? (mainLayer bs) = some a ∧ Tile.countValid a = (occupied ⌈size / res⌉.toNat x y res A.allPts).length := by
      cases alg with
      | mean =>
        obtain ⟨L', hL', ⟨a, la, ea⟩, -⟩ := Tile.canon_mean env (mainLayer_cases bs) hw hr ⟨fl, A.allPts⟩ hbox params border
        rw [hL'] at hL; cases hL
        refine ⟨a, la, valid_flat ?_ ea⟩
        intro ps v hv
        by_cases he : ps = []
        · rw [hv.1 he]; simp [he]
        · rw [hv.2 he]; simp [he]
      | shoalest =>
        obtain ⟨L', hL', ⟨a, la, ea⟩, -⟩ := Tile.canon_shoalest env (mainLayer_cases bs) hw hr ⟨fl, A.allPts⟩ hbox params border
        rw [hL'] at hL; cases hL
        refine ⟨a, la, valid_flat ?_ ea⟩
        intro ps v hv
        by_cases he : ps = []
        · rw [hv.1 he]; simp [he]
        · obtain ⟨m, -, e⟩ := hv.2 he
          rw [e]; simp [he]
      | cube => cases ha
      | other => cases ha
    obtain ⟨a, la, hcount⟩ := hmain
    have hla : ls.get? (mainLayer bs) = some a := by
      rw [← core_get? ls (mainLayer_core bs), hcore]; exact la
    have hD : ∀ cells : Dict ℚ (Dict Layer LayerArr), (∀ p ∈ cells, HeadKey (mainLayer bs) p.2) → ∃ D : Dict ℚ Nat,
        cells.mapM (fun p => match p.2 with | [] => none | l :: _ => some (p.1, Tile.countValid l.2)) = some D ∧
        ∀ ls, cells.get? res = some ls → ∀ a, ls.get? (mainLayer bs) = some a → D.get? res = some (Tile.countValid a) := by
      intro cells hh
      induction cells with
      | nil => exact ⟨[], rfl, fun ls hls => by cases hls⟩
      | cons p cells ih =>
        obtain ⟨D, h1, h2⟩ := ih (fun q hq => hh q (List.mem_cons_of_mem _ hq))
        obtain ⟨b, rest, hb⟩ := hh p List.mem_cons_self
        refine ⟨(p.1, Tile.countValid b) :: D, ?_, ?_⟩
        · rw [List.mapM_cons, h1, hb]; rfl
        · intro ls hls a ha'
          rw [Dict.get?_cons] at hls ⊢
          by_cases hp : p.1 = res
          · rw [if_pos hp] at hls
            cases hls
            rw [hb, Dict.get?_cons, if_pos rfl] at ha'
            cases ha'
            simp [hp]
          · rw [if_neg hp] at hls
            simp only [hp, if_false]
            exact h2 ls hls a ha'
    obtain ⟨D, h1, h2⟩ := hD _ hci.2
    refine ⟨D, h1, ?_⟩
    rw [h2 ls hls a hla, hcount]
  · intro hs
    obtain ⟨a, la, ea⟩ := canon_density env (mainLayer_cases bs) hw hr (⟨fl, A.allPts⟩ : PtArr) hbox ha params border hL
    have hla : ls.get? .density = some a := by rw [← core_get? ls (l := .density) rfl, hcore]; exact la
    have hnone : ∀ r, r ≠ res → (t.gridAt env alg res clear params border).st.cells.get? r = none := by
      intro r hne
      have := hoth r hne
      have hz : (t.gridAt env alg res clear params border).st.coreAt r = none := by
        rw [this]
        rcases hs with rfl | hs
        · rfl
        · unfold Tile.coreAt; rw [hs r hne]; cases clear <;> rfl
      unfold Tile.coreAt at hz
      exact Option.map_eq_none_iff.1 hz
    have hc := cells_single hci hls hnone
    show Tile.coverageArea (t.gridAt env alg res clear params border).st = _
    unfold Tile.coverageArea
    rw [hc]
    have hd : Dict.get? ls Layer.density = some a := hla
    simp only [List.mapM_cons, List.mapM_nil, hd, Option.map_some]
    rw [positives_flat ea, counts_pos_length]
    simp [ncells]

/-- **C45 is violated** for CUBE: with a CUBE function that also gives depths to cells without soundings (`demoEnv`; the real one does so near
soundings), one sounding in a tile of four cells gives `cell_count` 4. -/
theorem C45_violated :
    let t := ((Tile.new 0 0 4 false).addPoints ⟨{ hasTvu := true, hasThu := true }, [⟨1, 1, 5, 1, 1⟩]⟩ "a").st
    let out := t.grid demoEnv .cube (some 2) true .depth none none
    out.1.err = none ∧ out.1.st.cellCount = some [(2, 4)] ∧ (occupied 2 0 0 2 [⟨1, 1, 5, 1, 1⟩]).length = 1 := by
  decide +kernel

/-! ## C44 -/

/-- a query, with its arguments -/
structure Query where
  layer : Layer
  res : Option ℚ
  nodata : Option ℚ
  zUp : Bool

/-- run queries one after the other, keeping the tile -/
def runQueries (env : Env) (t : Tile) (qs : List Query) : Tile :=
  qs.foldl (fun t q => (t.getLayer env q.layer q.res q.nodata q.zUp).1) t

theorem runQueries_facts (env : Env) (t : Tile) (qs : List Query) :
    Tile.samePoints t (runQueries env t qs) ∧ (runQueries env t qs).cellIdx = t.cellIdx ∧
    (runQueries env t qs).algorithm = t.algorithm ∧ ∀ r, (runQueries env t qs).coreAt r = t.coreAt r := by
  induction qs generalizing t with
  | nil => exact ⟨Tile.samePoints_refl t, rfl, rfl, fun _ => rfl⟩
  | cons q qs ih =>
    obtain ⟨i1, i2, i3, i4⟩ := ih (t.getLayer env q.layer q.res q.nodata q.zUp).1
    obtain ⟨s1, s2⟩ := Tile.getLayer_same env t q.layer q.res q.nodata q.zUp
    have s3 := Tile.getLayer_alg env t q.layer q.res q.nodata q.zUp
    have s4 := (Tile.getLayer_core env t q.layer q.res q.nodata q.zUp).2.2
    exact ⟨Tile.samePoints_trans s1 i1, i2.trans s2, i3.trans s3, fun r => (i4 r).trans (s4 r)⟩

/-- the relation between the soundings of a cell and its value, by algorithm -/
def PlainCell (alg : Alg) : List Pt → Option ℚ → Prop :=
  match alg with
  | .mean => MeanCell round3 Pt.z
  | _ => ShoalCell round3

theorem plainCell_none {alg : Alg} {ps : List Pt} {v : Option ℚ} (h : PlainCell alg ps v) : v = none ↔ ps = [] := by
  have mean : MeanCell round3 Pt.z ps v → (v = none ↔ ps = []) := by
    intro h
    constructor
    · intro hv; by_contra he; rw [h.2 he] at hv; cases hv
    · exact h.1
  have shoal : ShoalCell round3 ps v → (v = none ↔ ps = []) := by
    intro h
    constructor
    · intro hv
      by_contra he
      obtain ⟨m, -, e⟩ := h.2 he
      rw [e] at hv; cases hv
    · exact h.1
  cases alg with
  | mean => exact mean h
  | shoalest => exact shoal h
  | cube => exact shoal h
  | other => exact shoal h

/-- a layer is all NaN iff there are no soundings in the tile -/
theorem allNone_iff {alg : Alg} {a : LayerArr} {x y size res : ℚ} (hw : 0 < size) (hr : 0 < res) {pts : List Pt}
    (hbox : ∀ p ∈ pts, InBox x y size p) (h : EachCell a (ncells size res) x y res pts (PlainCell alg)) :
    a.flat.all Option.isNone = true ↔ pts = [] := by
  constructor
  · intro hall
    by_contra hne
    obtain ⟨p, hp⟩ := List.exists_mem_of_ne_nil pts hne
    obtain ⟨rc, ⟨h1, h2, h3⟩, -⟩ := cell_unique hw hr (hbox p hp)
    obtain ⟨v, hv, hR⟩ := h.2.2.2 rc.1 rc.2 h1 h2
    have hin : p ∈ inCell x y res rc.1 rc.2 pts := List.mem_filter.2 ⟨hp, by simpa using h3⟩
    have hvn : v = none := by
      rw [Arr2.get?_eq_flat _ (by rw [h.2.1]; exact h1) (by rw [h.2.2.1]; exact h2)] at hv
      have := List.all_eq_true.1 hall v (List.mem_of_getElem? hv)
      simpa using this
    rw [(plainCell_none hR).1 hvn] at hin
    cases hin
  · rintro rfl
    rw [List.all_eq_true]
    intro v hv
    have := eachCell_flat h
    obtain ⟨i, hi⟩ := List.mem_iff_getElem?.1 hv
    have hlen := this.length_eq
    have hi' : i < (cellsOf (ncells size res)).length := by rw [← hlen]; exact (List.getElem?_eq_some_iff.1 hi).1
    have hR := (List.forall₂_iff_get.1 this).2 i (List.getElem?_eq_some_iff.1 hi).1 hi'
    have e : a.flat.get ⟨i, (List.getElem?_eq_some_iff.1 hi).1⟩ = v := (List.getElem?_eq_some_iff.1 hi).2
    rw [e] at hR
    have := (plainCell_none hR).2 (by simp [inCell])
    rw [this]; rfl

theorem slice_map {α β : Type} (f : α → β) (l : List α) (s e : Nat) : Tile.slice (l.map f) s e = (Tile.slice l s e).map f := by
  unfold Tile.slice; rw [← List.map_take, ← List.map_drop]

/-- **C44, partial**: a tile gridded with mean or shoalest at `res` and then queried any number of times.  Asking for a container of
the tile returns an array whose cells hold the mean / least depth of that container's soundings only (`None` if the container
has no sounding in the tile), and no layer of the tile itself changes.
Missing: for CUBE tiles the query raises, see `C44_violated`. -/
theorem C44_container_query_partial {env : Env} {x y size : ℚ} {bs : Bool} {fl : Fields} {F : Family} {t : Tile} {A : Store} (hw : 0 < size)
    (h : TileHistory env x y size bs fl F t A) (alg : Alg) (ha : alg = .mean ∨ alg = .shoalest) {clear : Bool}
    (hF : F = .plain ∨ clear = true) {res : ℚ} (hres : isPowerOfTwo res = true) (mode : AutoMode) (params : Option GridParams)
    (border : Option PtArr) (qs : List Query) (c : String) (hc : c ∈ A.names) (zUp : Bool) :
    let u := runQueries env (t.grid env alg (some res) clear mode params border).1.st qs
    let out := u.getLayer env (.cont c) (some res) none zUp
    (∃ a, EachCell a ⌈size / res⌉.toNat x y res (A.ptsOf c) (PlainCell alg) ∧ out.2 = .ok (if A.ptsOf c = [] then none else some a)) ∧
      ∀ r l, l.isCore = true → out.1.layerAt r l = u.layerAt r l := by
  intro u out
  have hfam : alg.family = some .plain := by rcases ha with rfl | rfl <;> rfl
  have hr := isPowerOfTwo_pos hres
  obtain ⟨hfr, hrep, hg⟩ := history_frame hw h
  have hpre : Tile.GInv (if clear then t.clearGrid else t) fl .plain := by
    rcases hF with rfl | rfl
    · exact Tile.ginv_pre hg clear
    · exact Tile.ginv_clearGrid hg
  have hok : (t.grid env alg (some res) clear mode params border).1.err = none := by
    rcases ha with rfl | rfl
    · exact (C17_mean_is_cell_mean hw h hres hF mode params border).1
    · exact (C18_shoalest_is_cell_minimum hw h hres hF mode params border).1
  have hdata := history_data hw h
  have k := Tile.gridAt_canon env hpre hres hdata hfam params border
  simp only at k
  obtain ⟨g1, s1, i1, -, -⟩ := k
  obtain ⟨L, ls0, hL, hls0, hcore0, -⟩ := grid_leaves hw h hfam (hF.imp Eq.symm id) hres params border hok
  obtain ⟨q1, q2, q3, q4⟩ := runQueries_facts env (t.gridAt env alg res clear params border).st qs
  have hu : u = runQueries env (t.gridAt env alg res clear params border).st qs := rfl
  have halg : u.algorithm = some alg := by rw [hu, q3]; exact Tile.gridAt_alg hok
  have hsame : Tile.samePoints t u := Tile.samePoints_trans s1 q1
  have hud : u.data = some ⟨fl, A.allPts⟩ := hsame.1.trans hdata
  have huc : u.container = t.container := hsame.2.1
  have hcn : t.cellNos res = A.allPts.map (fun p => ((cellOf x y res (ncells size res) p : Nat) : Int)) := by
    unfold Tile.cellNos Tile.cellNo
    rw [hrep.pts, hfr.1, hfr.2.2.1, hfr.2.2.2.2.1]
    rfl
  have hui : u.cellIdx.get? res = some (A.allPts.map (fun p => ((cellOf x y res (ncells size res) p : Nat) : Int))) := by
    rw [hu, q2, i1, Dict.get?_set_self, hcn]
  have hcoreu : u.coreAt res = some L := by
    rw [hu, q4]; unfold Tile.coreAt; rw [hls0, Option.map_some, hcore0]
  obtain ⟨ls, hls, hcore⟩ : ∃ ls, u.cells.get? res = some ls ∧ core ls = L := by
    unfold Tile.coreAt at hcoreu
    exact Option.map_eq_some_iff.1 hcoreu
  have hdk : u.depthKey = mainLayer bs := by
    rw [Tile.depthKey_frame hsame.2.2, Tile.depthKey_frame hfr, mainLayer_new]
  -- the main layer has the shape of the tile
  have hmain : ∃ dg, ls.get? (mainLayer bs) = some dg ∧ dg.rows = ncells size res ∧ dg.cols = ncells size res := by
    have : ∃ a, L.get? (mainLayer bs) = some a ∧ a.rows = ncells size res ∧ a.cols = ncells size res := by
      rcases ha with rfl | rfl
      · obtain ⟨L', hL', ⟨a, la, ea⟩, -⟩ := Tile.canon_mean env (mainLayer_cases bs) hw hr ⟨fl, A.allPts⟩ (history_box hw h) params border
        rw [hL'] at hL; cases hL
        exact ⟨a, la, ea.2.1, ea.2.2.1⟩
      · obtain ⟨L', hL', ⟨a, la, ea⟩, -⟩ := Tile.canon_shoalest env (mainLayer_cases bs) hw hr ⟨fl, A.allPts⟩ (history_box hw h) params border
        rw [hL'] at hL; cases hL
        exact ⟨a, la, ea.2.1, ea.2.2.1⟩
    obtain ⟨a, la, e⟩ := this
    exact ⟨a, by rw [← core_get? ls (mainLayer_core bs), hcore]; exact la, e⟩
  obtain ⟨dg, hdg, hrows, hcols⟩ := hmain
  -- the slice of the container
  have hmem : (t.container.get? c).isSome = true := by
    rw [Dict.get?_isSome, Dict.has_iff, hrep.container, slicesFrom_keys]; exact hc
  obtain ⟨⟨s, e⟩, hse⟩ := Option.isSome_iff_exists.1 hmem
  have hslice : Tile.slice A.allPts s e = A.ptsOf c := by
    have := slice_of_rep hrep hse
    rw [hrep.pts] at this
    exact this
  have hbox := history_box hw h
  have hboxc : ∀ p ∈ A.ptsOf c, InBox x y size p := by
    intro p hp
    rw [← hslice] at hp
    exact hbox p (List.mem_of_mem_take (List.mem_of_mem_drop hp))
  have hrange := Tile.cells_range (res := res) hw hr hboxc
  -- gridding the container alone
  have key : ∃ f, (u.algorithm = some .mean → f = npGridMean env) ∧ (u.algorithm = some .shoalest → f = npGridShoalest env) ∧
      ∃ o, f ((A.ptsOf c).map Pt.z) ((A.ptsOf c).map (fun p => ((cellOf x y res (ncells size res) p : Nat) : Int)))
        ⟨Arr2.fill (ncells size res) (ncells size res) none, Arr2.fill (ncells size res) (ncells size res) (some 0), none, none⟩ [] [] = .ok o ∧
        EachCell (Tile.roundLayer o.depth) (ncells size res) x y res (A.ptsOf c) (PlainCell alg) := by
    rcases ha with rfl | rfl
    · obtain ⟨o, ho, o1, -⟩ := npGridMean_spec env ((A.ptsOf c).map Pt.z)
        ((A.ptsOf c).map (fun p => ((cellOf x y res (ncells size res) p : Nat) : Int)))
        ⟨Arr2.fill (ncells size res) (ncells size res) none, Arr2.fill (ncells size res) (ncells size res) (some 0), none, none⟩ [] []
        (ncells size res) (ncells size res) (by simp) (Tile.fill_shape _ _) (Tile.fill_shape _ _)
        (fun a ha => by cases ha) (fun a ha => by cases ha) (fun a ha => by cases ha) (fun a ha => by cases ha) hrange
      exact ⟨_, fun _ => rfl, fun h => (by rw [halg] at h; cases h), o, ho, Tile.mean_cells hw hr hboxc _ o1⟩
    · obtain ⟨o, ho, o1, -⟩ := npGridShoalest_spec env ((A.ptsOf c).map Pt.z)
        ((A.ptsOf c).map (fun p => ((cellOf x y res (ncells size res) p : Nat) : Int)))
        ⟨Arr2.fill (ncells size res) (ncells size res) none, Arr2.fill (ncells size res) (ncells size res) (some 0), none, none⟩ [] []
        (ncells size res) (ncells size res) (by simp) (Tile.fill_shape _ _) (Tile.fill_shape _ _)
        (fun a ha => by cases ha) (fun a ha => by cases ha) (fun a ha => by cases ha) (fun a ha => by cases ha) hrange
      exact ⟨_, fun h => (by rw [halg] at h; cases h), fun _ => rfl, o, ho, Tile.min_cells hw hr hboxc o1⟩
  obtain ⟨f, f1, f2, o, ho, ho2⟩ := key
  let newCells := u.cells.set res ((ls.set (.cont c) (Tile.roundLayer o.depth)).set (.contDensity c) o.density)
  have honly : Tile.runPlainOnly f u res c = .ok { u with cells := newCells } := by
    unfold Tile.runPlainOnly
    rw [hud, hls, hui, huc, hse]
    simp only
    rw [hdk, hdg]
    simp only
    rw [slice_map, slice_map, hslice, hrows, hcols, ho]
  have hens : Tile.ensureLayer env u (.cont c) res none = .ok { u with cells := newCells } := by
    rw [← honly]
    unfold Tile.ensureLayer
    have hhas : u.container.has c = true := by rw [huc, ← Dict.get?_isSome]; exact hmem
    simp only [hhas, if_true]
    rcases ha with rfl | rfl
    · rw [halg]; simp only; rw [← f1 halg]
    · rw [halg]; simp only; rw [← f2 halg]
  refine ⟨⟨Tile.roundLayer o.depth, ho2, ?_⟩, ?_⟩
  · show (u.getLayer env (.cont c) (some res) none zUp).2 = _
    unfold Tile.getLayer
    have hqr : Tile.queryResolution u (some res) = .ok (some res) := by
      unfold Tile.queryResolution
      have hne : res ≠ 0 := ne_of_gt hr
      have hhas : u.cells.has res = true := by rw [← Dict.get?_isSome, hls]; rfl
      simp only [hne, if_false, hhas, if_true]
    have hnd : Tile.nodataFor (.cont c) none = none := rfl
    simp only [hnd, hqr, hens]
    have hfin : Tile.finishLayer (.cont c) none zUp (Tile.roundLayer o.depth) =
        if A.ptsOf c = [] then none else some (Tile.roundLayer o.depth) := by
      unfold Tile.finishLayer
      have := allNone_iff hw hr hboxc ho2
      by_cases he : A.ptsOf c = []
      · rw [if_pos (this.2 he), if_pos he]
      · rw [if_neg (fun hh => he (this.1 hh)), if_neg he]
        simp
    by_cases hemp : u.isEmpty = true
    · rw [if_pos hemp]
      have : A.allPts = [] := by
        have h0 : u.pointsCount = 0 := by simpa [Tile.isEmpty] using hemp
        unfold Tile.pointsCount at h0
        rw [hud] at h0
        exact List.length_eq_zero_iff.1 h0
      have h2 : A.ptsOf c = [] := by
        rw [← hslice, this]; simp [Tile.slice]
      rw [if_pos h2]
    · rw [if_neg hemp]
      rw [Dict.get?_set_self, Option.bind_some, Dict.get?_set_ne _ _ (by simp), Dict.get?_set_self]
      simp only
      rw [hfin]
  · intro r l hl
    have hco := (Tile.getLayer_core env u (.cont c) (some res) none zUp).2.2 r
    cases hx : u.coreAt r with
    | none => rw [hx] at hco; rw [layerAt_of_none hx, layerAt_of_none hco]
    | some L' => rw [hx] at hco; rw [layerAt_of_core hx hl, layerAt_of_core hco hl]

/-- **C44 is violated** for CUBE: the container query raises IndexError on a tile that was just gridded with CUBE. -/
theorem C44_violated :
    let t := ((Tile.new 0 0 4 false).addPoints ⟨{ hasTvu := true, hasThu := true }, [⟨1, 1, 5, 1, 1⟩]⟩ "a").st
    let out := t.grid demoEnv .cube (some 2) true .depth none none
    out.1.err = none ∧ (out.1.st.getLayer demoEnv (.cont "a") (some 2) none false).2 = .error .indexError := by
  decide +kernel

/-! ## Examples -/

private def fl2 : Fields := { hasTvu := true, hasThu := true }
private def ptsA : List Pt := [⟨1/2, 1/2, 10, 1, 2⟩, ⟨3/4, 1/4, 20, 3, 4⟩, ⟨7/2, 5/2, 4, 1, 1⟩]
private def ptsB : List Pt := [⟨1/2, 3/4, 6, 1, 1⟩, ⟨5/2, 7/2, 9, 2, 2⟩]

/-- C44, C45: two containers, gridded at 2 with shoalest; slopes are queried, then container "b" -/
example : ∃ t A, TileHistory demoEnv 0 0 4 false fl2 .plain t A ∧ "b" ∈ A.names ∧
    (t.grid demoEnv .shoalest (some 2) false .depth none none).1.st.cellCount = some [(2, 2)] ∧
    (t.grid demoEnv .shoalest (some 2) false .depth none none).1.st.coverageArea = .ok 8 ∧
    ((runQueries demoEnv (t.grid demoEnv .shoalest (some 2) false .depth none none).1.st [⟨.xSlope, some 2, none, false⟩]).getLayer
      demoEnv (.cont "b") (some 2) none false).2 = .ok (some (Arr2.mk 2 2 [some 6, none, none, some 9])) := by
  refine ⟨_, _, (TileHistory.first .plain ptsA "a" (by decide +kernel)).add ptsB "b" (by decide +kernel), ?_⟩
  decide +kernel

end Bathy
