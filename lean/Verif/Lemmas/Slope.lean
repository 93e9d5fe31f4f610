import Verif.Lemmas.LeftBehind
import Verif.Lemmas.TileCells
import Verif.Lemmas.TileMean
import Verif.Lemmas.StoreTile
import Verif.Spec.Slope

/-!
# `calculate_slopes`, cell by cell; the stored slopes are never out of date
-/

namespace Bathy

theorem splitAtIdx_offs {α : Type} (gs : List (Int × List α)) (pre : List α) :
    Tile.splitAtIdx (pre ++ (gs.map Prod.snd).flatten) ((offs pre.length gs).map (fun t => t.2.1)) = gs.map Prod.snd := by
  induction gs generalizing pre with
  | nil => rfl
  | cons q gs ih =>
    obtain ⟨k, vs⟩ := q
    have ih' := ih (pre ++ vs)
    cases gs with
    | nil => simp [offs, Tile.splitAtIdx]
    | cons q' gs' =>
      obtain ⟨k', vs'⟩ := q'
      simp only [offs, List.map_cons, List.flatten_cons] at ih' ⊢
      rw [Tile.splitAtIdx]
      rw [List.length_append] at ih'
      rw [show pre ++ (vs ++ (vs' ++ (List.map Prod.snd gs').flatten)) = (pre ++ vs) ++ (vs' ++ (List.map Prod.snd gs').flatten) by simp]
      rw [ih']
      congr 1
      unfold Tile.slice
      rw [← List.length_append, List.take_left, List.drop_left]

theorem mapM_unravel_range {ks : List Int} {rows cols : Nat} {rc : List (Nat × Nat)} (h : ks.mapM (fun i => unravel i rows cols) = some rc) :
    ∀ k ∈ ks, 0 ≤ k ∧ k < (rows * cols : Nat) := by
  intro k hk
  by_contra hn
  have : ks.mapM (fun i => unravel i rows cols) = none := by
    rw [mapM_eq_none]
    exact ⟨k, hk, by unfold unravel; rw [if_neg hn]⟩
  rw [this] at h; cases h

/-- `calculate_slopes` raises ValueError for an index out of range -/
theorem calculateSlopes_fails (env : Env) (pts : List Pt) (cidx : List Int) (hlen : cidx.length = pts.length) (ex ey : List ℚ)
    {k : Int} (hk : k ∈ cidx) (hbad : ¬ (0 ≤ k ∧ k < ((ey.length - 1) * (ex.length - 1) : Nat))) :
    Tile.calculateSlopes env pts cidx ex ey = .error .valueError := by
  unfold Tile.calculateSlopes
  have hidx : ∀ i ∈ env.argsort.run cidx, i < cidx.length := idx_lt_of_perm (env.argsort.perm cidx)
  simp only
  rw [takeIdx_eq_filterMap cidx _ hidx, takeIdx_eq_filterMap pts _ (hlen ▸ hidx)]
  simp only
  cases hm : ((runsFrom 0 ((env.argsort.run cidx).filterMap (fun i => cidx[i]?))).map (fun t => t.1)).mapM (fun i => unravel i (ey.length - 1) (ex.length - 1)) with
  | none => rfl
  | some rc => exact absurd (mapM_unravel_range hm k ((cellKeys_mem env cidx k).2 hk)) hbad

/-- the two arrays, cell by cell -/
theorem calculateSlopes_spec (env : Env) (pts : List Pt) (cidx : List Int) (hlen : cidx.length = pts.length) (ex ey : List ℚ) (rows cols : Nat)
    (hey : ey.length - 1 = rows) (hex : ex.length - 1 = cols) (hrange : ∀ k ∈ cidx, 0 ≤ k ∧ k < (rows * cols : Nat)) :
    ∃ sx sy, Tile.calculateSlopes env pts cidx ex ey = .ok (sx, sy) ∧ HasShape sx rows cols ∧ HasShape sy rows cols ∧
      ∀ r c, r < rows → c < cols →
        (cellVals cidx (pts.map Pt.xyz) ((r * cols + c : Nat) : Int) = [] → sx.get? r c = some none ∧ sy.get? r c = some none) ∧
        (cellVals cidx (pts.map Pt.xyz) ((r * cols + c : Nat) : Int) ≠ [] →
          ∃ qs, qs.Perm (cellVals cidx (pts.map Pt.xyz) ((r * cols + c : Nat) : Int)) ∧ sx.get? r c = some (some (env.plane qs).1) ∧ sy.get? r c = some (some (env.plane qs).2)) := by
  have hidx : ∀ i ∈ env.argsort.run cidx, i < cidx.length := idx_lt_of_perm (env.argsort.perm cidx)
  have hl2 : cidx.length = (pts.map Pt.xyz).length := by simpa using hlen
  obtain ⟨hk, hg⟩ := groups_facts env cidx (pts.map Pt.xyz) hl2
  have hkr : ∀ k ∈ cellKeys env cidx, 0 ≤ k ∧ k < (rows * cols : Nat) := fun k hk => hrange k ((cellKeys_mem env cidx k).1 hk)
  have hun := mapM_unravel (cellKeys env cidx) rows cols hkr
  have hsp : (((env.argsort.run cidx).filterMap (fun i => pts[i]?)).map (fun p : Pt => (p.x, p.y, p.z))) =
      ((groupRuns (pairsAt cidx (pts.map Pt.xyz) (env.argsort.run cidx))).map Prod.snd).flatten := by
    rw [groupRuns_flatten, pairsAt_snd env cidx _ hl2, List.map_filterMap]
    apply List.filterMap_congr
    intro i _
    rw [List.getElem?_map]
    cases pts[i]? <;> rfl
  have hgr := splitAtIdx_offs (groupRuns (pairsAt cidx (pts.map Pt.xyz) (env.argsort.run cidx))) []
  rw [List.nil_append, List.length_nil, ← hsp, ← runsFrom_eq, pairsAt_fst env cidx _ hl2] at hgr
  have hcalc : Tile.calculateSlopes env pts cidx ex ey =
      .ok (scatter (Arr2.fill rows cols none) (rcOf cols (cellKeys env cidx)) (((groupRuns (pairsAt cidx (pts.map Pt.xyz) (env.argsort.run cidx))).map Prod.snd).map (fun q => some (env.plane q).1)),
        scatter (Arr2.fill rows cols none) (rcOf cols (cellKeys env cidx)) (((groupRuns (pairsAt cidx (pts.map Pt.xyz) (env.argsort.run cidx))).map Prod.snd).map (fun q => some (env.plane q).2))) := by
    unfold Tile.calculateSlopes
    simp only
    rw [takeIdx_eq_filterMap cidx _ hidx, takeIdx_eq_filterMap pts _ (hlen ▸ hidx), hey, hex]
    simp only
    rw [show ((runsFrom 0 ((env.argsort.run cidx).filterMap (fun i => cidx[i]?))).map (fun t => t.1)) = cellKeys env cidx from rfl, hun]
    simp only
    rw [hgr]
    simp only [rcOf, List.map_map]
    rfl
  have key : ∀ pick : ℚ × ℚ → ℚ,
      let a := scatter (Arr2.fill rows cols (none : Option ℚ)) (rcOf cols (cellKeys env cidx)) (((groupRuns (pairsAt cidx (pts.map Pt.xyz) (env.argsort.run cidx))).map Prod.snd).map (fun q => some (pick (env.plane q))))
      HasShape a rows cols ∧ ∀ r c, r < rows → c < cols →
        (((r * cols + c : Nat) : Int) ∉ cellKeys env cidx → a.get? r c = some none) ∧
        (∀ (i : Nat) q, (cellKeys env cidx)[i]? = some ((r * cols + c : Nat) : Int) → (groupRuns (pairsAt cidx (pts.map Pt.xyz) (env.argsort.run cidx)))[i]? = some q → a.get? r c = some (some (pick (env.plane q.2)))) := by
    intro pick a
    have hs := scatter_shape (Arr2.fill rows cols (none : Option ℚ)) (rcOf cols (cellKeys env cidx)) (((groupRuns (pairsAt cidx (pts.map Pt.xyz) (env.argsort.run cidx))).map Prod.snd).map (fun q => some (pick (env.plane q))))
    refine ⟨⟨hs.2.2 (Arr2.fill_wf rows cols none), hs.1, hs.2.1⟩, ?_⟩
    intro r c hr hc
    obtain ⟨k1, k2⟩ := scatter_keys (Arr2.fill rows cols (none : Option ℚ)) (Arr2.fill_wf rows cols none) (cellKeys env cidx)
      (((groupRuns (pairsAt cidx (pts.map Pt.xyz) (env.argsort.run cidx))).map Prod.snd).map (fun q => some (pick (env.plane q)))) hkr (cellKeys_nodup env cidx)
      (by rw [hk]; simp) (r := r) (c := c) hr hc
    constructor
    · intro hn
      have := k1 hn
      rw [Arr2.get?_fill _ hr hc] at this
      exact this
    · intro i q hi hq
      exact k2 i _ hi (by rw [List.getElem?_map, List.getElem?_map, hq]; rfl)
  obtain ⟨x1, x2⟩ := key Prod.fst
  obtain ⟨y1, y2⟩ := key Prod.snd
  refine ⟨_, _, hcalc, x1, y1, ?_⟩
  intro r c hr hc
  constructor
  · intro he
    have hn : ((r * cols + c : Nat) : Int) ∉ cellKeys env cidx := by
      rw [cellKeys_mem, ← cellVals_eq_nil cidx _ hl2]; exact he
    exact ⟨(x2 r c hr hc).1 hn, (y2 r c hr hc).1 hn⟩
  · intro he
    have hm : ((r * cols + c : Nat) : Int) ∈ cellKeys env cidx := by
      rw [cellKeys_mem]
      by_contra hn
      exact he ((cellVals_eq_nil cidx _ hl2 _).2 hn)
    obtain ⟨i, hi⟩ := List.mem_iff_getElem?.1 hm
    have hi' := hi
    rw [hk, List.getElem?_map, Option.map_eq_some_iff] at hi'
    obtain ⟨q, hq, hqk⟩ := hi'
    have hperm := (hg q (List.mem_of_getElem? hq)).2
    rw [hqk] at hperm
    exact ⟨q.2, hperm, (x2 r c hr hc).2 i q hi hq, (y2 r c hr hc).2 i q hi hq⟩

/-! ### stored slopes -/

namespace Tile

/-- no slopes among the layers -/
def NoX (ls : Dict Layer LayerArr) : Prop := ls.get? .xSlope = none

/-- no slopes at the resolution -/
def NoSlope (t : Tile) (r : ℚ) : Prop := ∀ ls, t.cells.get? r = some ls → NoX ls

/-- stored slopes are those of the soundings and cell numbers of the tile -/
def SInv (env : Env) (t : Tile) : Prop :=
  ∀ r ls a, t.cells.get? r = some ls → ls.get? .xSlope = some a →
    ∃ b ci d ex ey, ls.get? .ySlope = some b ∧ t.cellIdx.get? r = some ci ∧ t.data = some d ∧ t.edgesX.get? r = some ex ∧ t.edgesY.get? r = some ey ∧
      calculateSlopes env d.pts ci ex ey = .ok (a, b)

theorem sinv_of_noSlope {env : Env} {t : Tile} (h : ∀ r, NoSlope t r) : SInv env t := by
  intro r ls a h1 h2
  have := h r ls h1
  unfold NoX at this
  rw [this] at h2; cases h2

theorem nox_set {ls : Dict Layer LayerArr} (h : NoX ls) {l : Layer} (hl : l ≠ .xSlope) (v : LayerArr) : NoX (ls.set l v) := by
  unfold NoX at *
  rw [Dict.get?_set_ne _ _ (Ne.symm hl)]; exact h

theorem nox_clear (ls : Dict Layer LayerArr) : NoX ((ls.pop .xSlope).pop .ySlope) := by
  unfold NoX
  rw [Dict.get?_pop_ne _ (by simp), Dict.get?_pop, if_pos rfl]

theorem noSlope_clearTemp (t : Tile) (r : ℚ) : NoSlope (t.clearTemp r) r := by
  unfold clearTemp NoSlope
  split
  · intro ls h
    rw [Dict.get?_set_self] at h
    cases h
    exact nox_clear _
  · rename_i hn
    intro ls h
    rw [hn] at h; cases h

theorem clearTemp_other (t : Tile) {r r' : ℚ} (h : r' ≠ r) : (t.clearTemp r).cells.get? r' = t.cells.get? r' := by
  unfold clearTemp
  split
  · exact Dict.get?_set_ne _ _ h
  · rfl

theorem noSlope_clearTemp_keep {t : Tile} {r r' : ℚ} (h : NoSlope t r') : NoSlope (t.clearTemp r) r' := by
  by_cases hr : r' = r
  · subst hr; exact noSlope_clearTemp t r'
  · unfold NoSlope; rw [clearTemp_other t hr]; exact h

theorem foldl_clearTemp_noSlope (rs : List ℚ) (t : Tile) (h : ∀ r, r ∉ rs → NoSlope t r) : ∀ r, NoSlope (rs.foldl clearTemp t) r := by
  induction rs generalizing t with
  | nil => intro r; exact h r (by simp)
  | cons r rs ih =>
    rw [List.foldl_cons]
    apply ih
    intro r' hr'
    by_cases he : r' = r
    · subst he; exact noSlope_clearTemp t r'
    · exact noSlope_clearTemp_keep (h r' (by simp [he, hr']))

theorem SInv.outside {env : Env} {t : Tile} (h : SInv env t) : ∀ r, r ∉ t.cellIdx.keys → NoSlope t r := by
  intro r hr ls hls
  unfold NoX
  cases hx : ls.get? .xSlope with
  | none => rfl
  | some a =>
    obtain ⟨-, ci, -, -, -, -, hci, -⟩ := h r ls a hls hx
    rw [(Dict.get?_eq_none _ _).2 hr] at hci; cases hci

theorem sinv_remove {env : Env} {t : Tile} {A : Store} {fl : Fields} {F : Family} (hg : GInv t fl F) (hr : Rep t A fl) (h : SInv env t) (c : String) :
    SInv env (removePoints t c).st := by
  obtain ⟨d, hd, hdf⟩ := hg.data
  cases hc : t.container.get? c with
  | none => rw [removePoints_of_not_mem t c ((Dict.get?_eq_none _ _).1 hc)]; exact h
  | some se =>
    obtain ⟨s, e⟩ := se
    obtain ⟨u, hu, -, -, -, -, -, -, -, -, -, u9⟩ := removePoints_mem hc hd (idxLen_of_ginv_idx hr hd)
    rw [hu]
    apply sinv_of_noSlope
    have := foldl_clearTemp_noSlope t.cellIdx.keys t h.outside
    unfold NoSlope at this ⊢
    rw [Res.ok_st, u9]
    exact this

theorem sinv_add_new {env : Env} {t : Tile} {fl : Fields} {F : Family} (hg : GInv t fl F) (h : SInv env t) {d : PtArr} {c : String}
    (hf : d.fields = fl) (hc : c ∉ t.container.keys) : SInv env (addPoints t d c).st := by
  obtain ⟨old, hd, hdf⟩ := hg.data
  obtain ⟨u, hu, -, -, -, -, -, -, -, -, -, u9⟩ := addPoints_some hd hc (hdf.trans hf.symm)
  rw [hu]
  apply sinv_of_noSlope
  have := foldl_clearTemp_noSlope t.cellIdx.keys t h.outside
  unfold NoSlope at this ⊢
  rw [Res.ok_st, u9]
  exact this

theorem sinv_add {env : Env} {t : Tile} {A : Store} {fl : Fields} {F : Family} (hg : GInv t fl F) (hr : Rep t A fl) (h : SInv env t) {d : PtArr} {c : String}
    (hf : d.fields = fl) : SInv env (addPoints t d c).st := by
  by_cases hc : c ∈ t.container.keys
  · obtain ⟨v, hv, hvr, hfr, -, -, hdn⟩ := removePoints_spec hr c
    have hg' := ginv_remove hg hr c
    have hs' := sinv_remove hg hr h c
    rw [hv] at hg' hs'
    simp only [Res.ok_st] at hg' hs'
    have hvn : c ∉ v.container.keys := by
      rw [hvr.container, slicesFrom_keys, Store.mem_names_remove]; simp
    obtain ⟨old, hd, -⟩ := hg.data
    obtain ⟨vd, hvd, -⟩ := hg'.data
    have := sinv_add_new hg' hs' (c := c) hf hvn
    have he : addPoints t d c = addPoints v d c := by
      have hhas : t.container.has c = true := (Dict.has_iff _ _).2 hc
      have hhas' : v.container.has c = false := (Dict.has_false_iff _ _).2 hvn
      unfold addPoints
      simp only [hd, hhas, hv, hvd, hhas', if_true, Bool.false_eq_true, if_false, Res.andThen_ok]
    rw [he]; exact this
  · exact sinv_add_new hg h hf hc

/-- the tile changed at one resolution only -/
structure OnlyAt (r : ℚ) (t u : Tile) : Prop where
  data : u.data = t.data
  cells : ∀ r', r' ≠ r → u.cells.get? r' = t.cells.get? r'
  idx : ∀ r', r' ≠ r → u.cellIdx.get? r' = t.cellIdx.get? r'
  ex : ∀ r', r' ≠ r → u.edgesX.get? r' = t.edgesX.get? r'
  ey : ∀ r', r' ≠ r → u.edgesY.get? r' = t.edgesY.get? r'

theorem OnlyAt.refl (r : ℚ) (t : Tile) : OnlyAt r t t := ⟨rfl, fun _ _ => rfl, fun _ _ => rfl, fun _ _ => rfl, fun _ _ => rfl⟩

theorem OnlyAt.trans {r : ℚ} {t u v : Tile} (h : OnlyAt r t u) (k : OnlyAt r u v) : OnlyAt r t v :=
  ⟨k.data.trans h.data, fun r' hr => (k.cells r' hr).trans (h.cells r' hr), fun r' hr => (k.idx r' hr).trans (h.idx r' hr),
    fun r' hr => (k.ex r' hr).trans (h.ex r' hr), fun r' hr => (k.ey r' hr).trans (h.ey r' hr)⟩

theorem OnlyAt.sinv {env : Env} {r : ℚ} {t u : Tile} (h : OnlyAt r t u) (hs : SInv env t) (hn : NoSlope u r) : SInv env u := by
  intro r' ls a h1 h2
  by_cases hr : r' = r
  · subst hr
    have := hn ls h1
    unfold NoX at this
    rw [this] at h2; cases h2
  · rw [h.cells r' hr] at h1
    obtain ⟨b, ci, d, ex, ey, k1, k2, k3, k4, k5, k6⟩ := hs r' ls a h1 h2
    exact ⟨b, ci, d, ex, ey, k1, by rw [h.idx r' hr]; exact k2, by rw [h.data]; exact k3, by rw [h.ex r' hr]; exact k4, by rw [h.ey r' hr]; exact k5, k6⟩

theorem onlyAt_cells (t : Tile) (r : ℚ) (ls : Dict Layer LayerArr) : OnlyAt r t { t with cells := t.cells.set r ls } :=
  ⟨rfl, fun _ hr => Dict.get?_set_ne _ _ hr, fun _ _ => rfl, fun _ _ => rfl, fun _ _ => rfl⟩

theorem noSlope_set (t : Tile) (r : ℚ) {ls : Dict Layer LayerArr} (h : NoX ls) : NoSlope { t with cells := t.cells.set r ls } r := by
  intro ls' h'
  rw [Dict.get?_set_self] at h'
  cases h'
  exact h

theorem onlyAt_clearTemp (t : Tile) (r : ℚ) : OnlyAt r t (t.clearTemp r) := by
  unfold clearTemp
  split
  · exact onlyAt_cells t r _
  · exact OnlyAt.refl r t

theorem nox_foldl_set (f : Layer → LayerArr → LayerArr) (ks : List Layer) (hk : Layer.xSlope ∉ ks) {ls : Dict Layer LayerArr} (h : NoX ls) :
    NoX (ks.foldl (fun ls l => match ls.get? l with | some a => ls.set l (f l a) | none => ls) ls) := by
  induction ks generalizing ls with
  | nil => exact h
  | cons k ks ih =>
    rw [List.foldl_cons]
    apply ih (fun hm => hk (List.mem_cons_of_mem _ hm))
    split
    · exact nox_set h (fun he => hk (he ▸ List.mem_cons_self)) _
    · exact h

theorem nox_reset {dk : Layer} (hdk : dk ≠ .xSlope) {ls ls' : Dict Layer LayerArr} (h : NoX ls) (he : resetLayers dk ls = .ok ls') : NoX ls' := by
  unfold resetLayers at he
  split at he
  · cases he
    exact nox_foldl_set (fun l a => Arr2.fill a.rows a.cols (if l = .hypCount then some 0 else none)) _ (by simp)
      (nox_set (nox_set h hdk _) (by simp) _)
  · cases he

theorem nox_opt {ls : Dict Layer LayerArr} (h : NoX ls) (o : Option LayerArr) {l : Layer} (hl : l ≠ .xSlope) (f : LayerArr → LayerArr) :
    NoX (match o with | some a => ls.set l (f a) | none => ls) := by
  cases o with
  | none => exact h
  | some a => exact nox_set h hl _

theorem nox_plain {f : List ℚ → List Int → GridArrays → List ℚ → List ℚ → Except Err GridArrays} {dk : Layer} (hdk : dk ≠ .xSlope) {d : PtArr}
    {cidx : List Int} {ls ls' : Dict Layer LayerArr} (h : NoX ls) (he : plainLayers f dk d cidx ls = .ok ls') : NoX ls' := by
  unfold plainLayers at he
  simp only at he
  generalize (if d.fields.hasTvu = true then Dict.get? ls Layer.vertical else none) = vg at he
  generalize (if d.fields.hasThu = true then Dict.get? ls Layer.horizontal else none) = hg at he
  generalize (if d.fields.hasTvu = true then d.pts.map Pt.tvu else []) = vert at he
  generalize (if d.fields.hasThu = true then d.pts.map Pt.thu else []) = horiz at he
  split at he
  · cases he
  · split at he
    · split at he
      · cases he
      · rename_i out _
        cases he
        have h1 := nox_opt (nox_set (nox_set h hdk (roundLayer out.depth)) (l := .density) (by simp) out.density) out.tvu (l := .vertical) (by simp)
          (fun a => if vert.length > 0 then roundLayer a else a)
        exact nox_opt h1 out.thu (l := .horizontal) (by simp) (fun a => if horiz.length > 0 then roundLayer a else a)
    · cases he

theorem nox_cube {env : Env} {dk : Layer} (hdk : dk ≠ .xSlope) {minX maxY : ℚ} {d : PtArr} {cidx : List Int} {ls ls' : Dict Layer LayerArr} {res : ℚ}
    {params : Option GridParams} (h : NoX ls) (he : cubeLayers env dk minX maxY d cidx ls res params = .ok ls') : NoX ls' := by
  unfold cubeLayers at he
  split at he
  · simp only at he
    split at he
    · cases he
    · cases he
      exact nox_set (nox_set (nox_set (nox_set (nox_set h hdk _) (by simp) _) (by simp) _) (by simp) _) (by simp) _
  · cases he

theorem onlyAt_runPlain {f : List ℚ → List Int → GridArrays → List ℚ → List ℚ → Except Err GridArrays} {t u : Tile} {r : ℚ}
    (h : NoSlope t r) (he : runPlain f t r = .ok u) : OnlyAt r t u ∧ NoSlope u r := by
  unfold runPlain at he
  split at he
  · rename_i ls _ _ hls _
    split at he
    · cases he
    · rename_i ls' hp
      cases he
      exact ⟨onlyAt_cells t r _, noSlope_set t r (nox_plain t.depthKey_ne_xSlope (h _ hls) hp)⟩
  · cases he
  · cases he

theorem onlyAt_runAlg {env : Env} {t u : Tile} {alg : Alg} {r : ℚ} {params : Option GridParams} {border : Option PtArr}
    (h : NoSlope t r) (he : runAlg env t alg r params border = .ok u) : OnlyAt r t u ∧ NoSlope u r := by
  unfold runAlg at he
  cases alg with
  | mean => exact onlyAt_runPlain h he
  | shoalest => exact onlyAt_runPlain h he
  | other => cases he; exact ⟨OnlyAt.refl r t, h⟩
  | cube =>
    simp only at he
    unfold runCube at he
    split at he
    · cases he
    · split at he
      · cases he
      · split at he
        · split at he
          · rename_i ls _ hls _
            split at he
            · cases he
            · rename_i ls' hp
              cases he
              exact ⟨onlyAt_cells t r _, noSlope_set t r (nox_cube t.depthKey_ne_xSlope (h _ hls) hp)⟩
          · cases he
        · cases he

theorem onlyAt_newGrid {t : Tile} {r : ℚ} (h : NoSlope t r) (alg : Alg) : OnlyAt r t (newGrid t r alg).st ∧ NoSlope (newGrid t r alg).st r := by
  unfold newGrid
  split
  · simp only
    split
    · refine ⟨⟨rfl, fun _ hr => Dict.get?_set_ne _ _ hr, fun _ _ => rfl, fun _ hr => Dict.get?_set_ne _ _ hr, fun _ hr => Dict.get?_set_ne _ _ hr⟩, ?_⟩
      intro ls hls
      simp only [Res.ok_st] at hls
      rw [Dict.get?_set_self] at hls
      cases hls
      have hdk := t.depthKey_ne_xSlope
      unfold NoX
      have plain : ∀ (b1 b2 : Bool) (nan zero : LayerArr), Dict.get? ([(t.depthKey, nan), (Layer.density, zero)] ++ (if b1 then [(Layer.vertical, nan)] else []) ++
          (if b2 then [(Layer.horizontal, nan)] else [])) Layer.xSlope = none := by
        intro b1 b2 nan zero
        cases b1 <;> cases b2 <;> simp [Dict.get?_cons, hdk]
      cases alg with
      | mean => exact plain _ _ _ _
      | shoalest => exact plain _ _ _ _
      | cube => simp [Dict.get?_cons, hdk]
      | other => rfl
    · exact ⟨OnlyAt.refl r t, h⟩
  · exact ⟨OnlyAt.refl r t, h⟩

theorem onlyAt_prepare {t u : Tile} {r : ℚ} (h : NoSlope t r) (he : prepare t r = .ok u) : OnlyAt r t u ∧ NoSlope u r := by
  unfold prepare at he
  split at he
  · split at he
    · split at he
      · cases he
      · split at he
        · cases he
        · cases he
          exact ⟨⟨rfl, fun _ _ => rfl, fun _ hr => Dict.get?_set_ne _ _ hr, fun _ _ => rfl, fun _ _ => rfl⟩, h⟩
    · split at he
      · cases he
      · cases he
      · rename_i ls _ hls
        split at he
        · cases he
        · rename_i ls' hr
          cases he
          refine ⟨⟨rfl, fun _ hr => Dict.get?_set_ne _ _ hr, fun _ hr => Dict.get?_set_ne _ _ hr, fun _ _ => rfl, fun _ _ => rfl⟩, ?_⟩
          exact noSlope_set { t with cellIdx := _ } r (nox_reset t.depthKey_ne_xSlope (h _ hls) hr)
  · cases he

theorem sinv_gridAt {env : Env} {t : Tile} (h : SInv env t) (alg : Alg) (r : ℚ) (clear : Bool) (params : Option GridParams) (border : Option PtArr) :
    SInv env (gridAt env t alg r clear params border).st ∧
      ((gridAt env t alg r clear params border).err = none → NoSlope (gridAt env t alg r clear params border).st r) := by
  unfold gridAt
  split
  · simp only
    have h1 : SInv env (if clear then t.clearGrid else t) := by
      cases clear
      · exact h
      · exact sinv_of_noSlope (fun r ls hls => by cases hls)
    generalize (if clear then t.clearGrid else t) = u at h1 ⊢
    have o2 := onlyAt_clearTemp u r
    have n2 := noSlope_clearTemp u r
    generalize u.clearTemp r = v at o2 n2 ⊢
    have h3 : ∀ w : Res Tile, w = (if (!v.cells.has r || decide (v.algorithm ≠ some alg)) = true then
        newGrid { v with algorithm := some alg, gridParams := params } r alg else .ok v) → OnlyAt r u w.st ∧ NoSlope w.st r := by
      intro w hw
      subst hw
      split
      · obtain ⟨k1, k2⟩ := onlyAt_newGrid (t := { v with algorithm := some alg, gridParams := params }) n2 alg
        exact ⟨o2.trans ⟨k1.data, k1.cells, k1.idx, k1.ex, k1.ey⟩, k2⟩
      · exact ⟨o2, n2⟩
    generalize hw : (if (!v.cells.has r || decide (v.algorithm ≠ some alg)) = true then
        newGrid { v with algorithm := some alg, gridParams := params } r alg else Res.ok v) = w
    obtain ⟨o4, n4⟩ := h3 w hw.symm
    obtain ⟨w, e⟩ := w
    cases e with
    | some e => exact ⟨o4.sinv h1 n4, fun _ => n4⟩
    | none =>
      simp only [Res.andThen]
      simp only at o4 n4
      split
      · exact ⟨o4.sinv h1 n4, fun _ => n4⟩
      · rename_i t4 hp
        obtain ⟨o5, n5⟩ := onlyAt_prepare n4 hp
        have o5 := o4.trans o5
        split
        · exact ⟨o5.sinv h1 n5, fun _ => n5⟩
        · rename_i t5 ha
          obtain ⟨o6, n6⟩ := onlyAt_runAlg n5 ha
          have o6 := o5.trans o6
          exact ⟨OnlyAt.sinv (u := { t5 with pointCountChanged := false }) ⟨o6.data, o6.cells, o6.idx, o6.ex, o6.ey⟩ h1 n6, fun _ => n6⟩
  · exact ⟨h, fun he => by cases he⟩

theorem sinv_grid {env : Env} {t : Tile} (h : SInv env t) (alg : Alg) (res : Option ℚ) (clear : Bool) (mode : AutoMode) (params : Option GridParams)
    (border : Option PtArr) : SInv env (grid env t alg res clear mode params border).1.st := by
  rw [grid_eq]
  split
  · exact h
  · exact (sinv_gridAt h alg _ clear params border).1

theorem sinv_keep {env : Env} {t : Tile} (h : SInv env t) {r : ℚ} {ls ls' : Dict Layer LayerArr} (hls : t.cells.get? r = some ls)
    (hx : ls'.get? .xSlope = ls.get? .xSlope) (hy : ls'.get? .ySlope = ls.get? .ySlope) : SInv env { t with cells := t.cells.set r ls' } := by
  intro r' l a h1 h2
  by_cases hr : r' = r
  · subst hr
    rw [Dict.get?_set_self] at h1
    cases h1
    rw [hx] at h2
    obtain ⟨b, ci, d, ex, ey, k1, k⟩ := h r' ls a hls h2
    exact ⟨b, ci, d, ex, ey, hy.trans k1, k⟩
  · have h1 : (t.cells.set r ls').get? r' = some l := h1
    rw [Dict.get?_set_ne _ _ hr] at h1
    exact h r' l a h1 h2

theorem sinv_runSlopes {env : Env} {t u : Tile} {r : ℚ} (h : SInv env t) (he : runSlopes env t r = .ok u) : SInv env u := by
  unfold runSlopes at he
  split at he
  · cases he
  · rename_i ls hls
    split at he
    · cases he; exact h
    · split at he
      · rename_i d ci ex ey h1 h2 h3 h4
        split at he
        · cases he
        · rename_i sx sy hc
          cases he
          intro r' l a k1 k2
          by_cases hr : r' = r
          · subst hr
            rw [Dict.get?_set_self] at k1
            cases k1
            rw [Dict.get?_set_ne _ _ (by simp), Dict.get?_set_self] at k2
            cases k2
            exact ⟨sy, ci, d, ex, ey, Dict.get?_set_self _ _ _, h2, h1, h3, h4, hc⟩
          · rw [Dict.get?_set_ne _ _ hr] at k1
            exact h r' l a k1 k2
      · cases he
      · cases he

theorem sinv_ensure {env : Env} {t u : Tile} {l : Layer} {r : ℚ} {nd : Option ℚ} (h : SInv env t)
    (he : ensureLayer env t l r nd = .ok u) : SInv env u := by
  have only : ∀ f c u, runPlainOnly f t r c = .ok u → SInv env u := by
    intro f c u he
    unfold runPlainOnly at he
    split at he
    · rename_i ls _ _ _ _ hls _ _
      split at he
      · simp only at he
        split at he
        · cases he
        · cases he
          exact sinv_keep h hls (by rw [Dict.get?_set_ne _ _ (by simp), Dict.get?_set_ne _ _ (by simp)])
            (by rw [Dict.get?_set_ne _ _ (by simp), Dict.get?_set_ne _ _ (by simp)])
      · cases he
    · cases he
    · cases he
  unfold ensureLayer fillLayer at he
  split at he
  · exact sinv_runSlopes h he
  · exact sinv_runSlopes h he
  · split at he
    · split at he
      · exact only _ _ u he
      · exact only _ _ u he
      · cases he
      · cases he; exact h
    · split at he
      · cases he
      · rename_i ls hls
        split at he
        · cases he
          exact sinv_keep h hls (Dict.get?_set_ne _ _ (by simp)) (Dict.get?_set_ne _ _ (by simp))
        · cases he
  · split at he
    · cases he; exact h
    · split at he
      · cases he
      · rename_i ls hls
        split at he
        · cases he
          exact sinv_keep h hls (Dict.get?_set_ne _ _ (by simp)) (Dict.get?_set_ne _ _ (by simp))
        · cases he
  · cases he; exact h

theorem sinv_getLayer {env : Env} {t : Tile} (h : SInv env t) (l : Layer) (res nd : Option ℚ) (zUp : Bool) :
    SInv env (getLayer env t l res nd zUp).1 := by
  unfold getLayer
  simp only
  split
  · exact h
  · split
    · exact h
    · exact h
    · split
      · rcases leftBehind_cases t l _ with e | ⟨c, ls, a, b, hls, e⟩
        · rw [e]; exact h
        · rw [e]
          exact sinv_keep h hls (by rw [Dict.get?_set_ne _ _ (by simp), Dict.get?_set_ne _ _ (by simp)])
            (by rw [Dict.get?_set_ne _ _ (by simp), Dict.get?_set_ne _ _ (by simp)])
      · rename_i t' he
        have := sinv_ensure h he
        split
        · exact this
        · exact this

theorem sinv_reread {env : Env} {t u : Tile} (h : t.Reread u) : SInv env u := by
  apply sinv_of_noSlope
  intro r ls hls
  rw [reread_layers h] at hls
  obtain ⟨ls', -, rfl⟩ := Option.map_eq_some_iff.1 hls
  unfold NoX core
  clear hls
  induction ls' with
  | nil => rfl
  | cons p ls' ih =>
    rw [List.filter_cons]
    split
    · rename_i hp
      rw [Dict.get?_cons, if_neg]
      · exact ih
      · intro hx; rw [hx] at hp; cases hp
    · exact ih

end Tile

/-- stored slopes are never out of date -/
theorem history_slopes {env : Env} {x y size : ℚ} {bs : Bool} {fl : Fields} {F : Family} {t : Tile} {A : Store} (hw : 0 < size)
    (h : TileHistory env x y size bs fl F t A) : Tile.SInv env t := by
  induction h with
  | first F pts c hbox => exact Tile.sinv_of_noSlope (fun r ls hls => by cases hls)
  | @add F t A h pts c hbox ih =>
    obtain ⟨-, hr, hg⟩ := history_frame hw h
    exact Tile.sinv_add hg hr ih rfl
  | @remove F t A h c ih =>
    obtain ⟨-, hr, hg⟩ := history_frame hw h
    exact Tile.sinv_remove hg hr ih c
  | @query F t A h l r n z ih => exact Tile.sinv_getLayer ih l r n z
  | @reread F t u A h hu ih => exact Tile.sinv_reread hu
  | @grid F t A h alg ha res clear mode params border ih => exact Tile.sinv_grid ih alg res clear mode params border
  | @switch F F' t A h alg ha res mode params border hok ih => exact Tile.sinv_grid ih alg res true mode params border
  | @clearGrid F t A h F' ih => exact Tile.sinv_of_noSlope (fun r ls hls => by cases hls)

end Bathy
