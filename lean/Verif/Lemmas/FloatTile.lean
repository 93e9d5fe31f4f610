import Verif.Lemmas.FloatGrid
import Verif.Lemmas.TileHistory

/-!
# Gridding a tile in floating point arithmetic is a function of its soundings
-/

namespace Bathy
namespace Arith
open Tile

/-- the layers after running an algorithm -/
def algLayers (A : Arith) (env : Env) (dk : Layer) (minX maxY : ℚ) (d : PtArr) (cidx : List Int) (ls : Dict Layer LayerArr) (alg : Alg) (res : ℚ)
    (params : Option GridParams) (border : Option PtArr) : Except Err (Dict Layer LayerArr) :=
  match alg with
  | .mean => A.plainLayers (A.npGridMean env) dk d cidx ls
  | .shoalest => A.plainLayers (npGridShoalest env) dk d cidx ls
  | .cube => Tile.algLayers env dk minX maxY d cidx ls .cube res params border
  | .other => .ok ls

theorem runAlg_eq {A : Arith} {env : Env} {t : Tile} {alg : Alg} {res : ℚ} {params : Option GridParams} {border : Option PtArr} {d : PtArr}
    {ls : Dict Layer LayerArr} {cidx : List Int} (hd : t.data = some d) (hc : t.cells.get? res = some ls)
    (hi : t.cellIdx.get? res = some cidx) (ha : alg.family ≠ none) :
    A.runAlg env t alg res params border =
      match A.algLayers env t.depthKey t.minX t.maxY d cidx ls alg res params border with
      | .error e => .error e
      | .ok ls' => .ok { t with cells := t.cells.set res ls' } := by
  cases alg with
  | mean =>
    simp only [runAlg, runPlain, hd, hc, hi, algLayers]
    cases A.plainLayers (A.npGridMean env) t.depthKey d cidx ls <;> rfl
  | shoalest =>
    simp only [runAlg, runPlain, hd, hc, hi, algLayers]
    cases A.plainLayers (npGridShoalest env) t.depthKey d cidx ls <;> rfl
  | cube => exact Tile.runAlg_eq (env := env) (alg := .cube) (params := params) (border := border) hd hc hi ha
  | other => exact absurd rfl ha

theorem algLayers_core {A : Arith} {env : Env} {dk : Layer} (hdk : dk.isCore = true) (minX maxY : ℚ) (d : PtArr) (cidx : List Int)
    (ls : Dict Layer LayerArr) (alg : Alg) (res : ℚ) (params : Option GridParams) (border : Option PtArr) :
    (A.algLayers env dk minX maxY d cidx ls alg res params border).map core =
      A.algLayers env dk minX maxY d cidx (core ls) alg res params border := by
  cases alg with
  | mean => exact A.plainLayers_core hdk d cidx ls
  | shoalest => exact A.plainLayers_core hdk d cidx ls
  | cube => exact Tile.algLayers_core hdk minX maxY d cidx ls .cube res params border
  | other => rfl

theorem algLayers_ok {A : Arith} {env : Env} {dk : Layer} (hdk : dk.isCore = true) {fl : Fields} {F : Family} {n : Nat} {minX maxY : ℚ} {d : PtArr}
    {cidx : List Int} {ls ls' : Dict Layer LayerArr} {alg : Alg} {res : ℚ} {params : Option GridParams} {border : Option PtArr}
    (h : LayersOk dk fl F n ls) (hp : A.algLayers env dk minX maxY d cidx ls alg res params border = .ok ls') :
    LayersOk dk fl F n ls' := by
  cases alg with
  | mean => exact A.plainLayers_ok (A.npGridMean_keepsShape env) hdk h hp
  | shoalest => exact A.plainLayers_ok (npGridShoalest_keepsShape env) hdk h hp
  | cube => exact Tile.algLayers_ok hdk h (show Tile.algLayers env dk minX maxY d cidx ls .cube res params border = .ok ls' from hp)
  | other => cases hp; exact h

/-- the layers that gridding the given soundings gives -/
def canonLayers (A : Arith) (env : Env) (minX minY width : ℚ) (dk : Layer) (d : PtArr) (F : Family) (alg : Alg) (res : ℚ) (params : Option GridParams)
    (border : Option PtArr) : Except Err (Dict Layer LayerArr) :=
  A.algLayers env dk minX (minY + width) d (d.pts.map (fun p => ((cellOf minX minY res (ncells width res) p : Nat) : Int)))
    (initLayers dk d.fields F (ncells width res)) alg res params border

/-- the second half of `grid`, from `prepare` on -/
theorem gridTail_canon (A : Arith) (env : Env) {t : Tile} {fl : Fields} {F : Family} (h : GInv t fl F) {res : ℚ} {L : Dict Layer LayerArr}
    (hL : t.coreAt res = some L) {d : PtArr} (hd : t.data = some d) {alg : Alg} (ha : alg.family = some F)
    (params : Option GridParams) (border : Option PtArr) :
    let out := match prepare t res with
      | .error e => Res.fail t e
      | .ok t4 =>
        match A.runAlg env t4 alg res params border with
        | .error e => Res.fail t4 e
        | .ok t5 => Res.ok { t5 with pointCountChanged := false }
    GInv out.st fl F ∧ samePoints t out.st ∧ out.st.cellIdx = t.cellIdx.set res (t.cellNos res) ∧
      (∀ r', r' ≠ res → out.st.coreAt r' = t.coreAt r') ∧
      match A.canonLayers env t.minX t.minY t.width t.depthKey d F alg res params border with
      | .error e => out.err = some e
      | .ok L' => out.err = none ∧ out.st.coreAt res = some L' ∧ out.st.pointCountChanged = false := by
  intro out
  obtain ⟨u, ls, hu, hs, e1, e2, e3, e4, hci, hls, hcore, hoth⟩ := prepare_canon h hL hd
  have hp : t.pts = d.pts := by simp [Tile.pts, hd]
  have hcn : t.cellNos res = d.pts.map (t.cellNo res) := by unfold cellNos; rw [hp]
  rw [← hcn] at hci
  have hdu : u.data = some d := hs.1.trans hd
  have hfr := hs.2.2
  have hdk := depthKey_frame hfr
  have hdf : d.fields = fl := by obtain ⟨d', hd', hf'⟩ := h.data; rw [hd] at hd'; cases hd'; exact hf'
  have hrpos := (h.cells res L hL).1
  have hidx : u.cellIdx.get? res = some (t.cellNos res) := by rw [hci, Dict.get?_set_self]
  have hcoreU : u.coreAt res = some (initLayers t.depthKey fl F (ncells t.width res)) := by
    unfold coreAt; rw [hls, Option.map_some, hcore]
  -- invariant after prepare, for any layers of the right form at `res`
  have ginv_of : ∀ v : Tile, samePoints t v → v.edgesX = t.edgesX → v.edgesY = t.edgesY →
      v.cellIdx = t.cellIdx.set res (t.cellNos res) → (∀ r', r' ≠ res → v.coreAt r' = t.coreAt r') →
      (∃ L', v.coreAt res = some L' ∧ LayersOk t.depthKey fl F (ncells t.width res) L') → GInv v fl F := by
    intro v hsv x1 x2 x3 x4 ⟨L', x5, x6⟩
    obtain ⟨f1, f2, f3, f4, f5, f6, f7⟩ := hsv.2.2
    refine ⟨by rw [f5]; exact h.wpos, by rw [f2, f1, f5]; exact h.maxX, by rw [f4, f3, f5]; exact h.maxY, ?_, ?_, ?_, ?_⟩
    · rw [samePoints_pts hsv, f1, f3, f5]; exact h.box
    · rw [hsv.1]; exact h.data
    · intro r l hl
      rw [samePoints_pts hsv]
      simp only [cellNo_frame hsv.2.2]
      rw [x3] at hl
      by_cases hr : r = res
      · subst hr
        rw [Dict.get?_set_self, Option.some.injEq] at hl
        subst hl
        unfold cellNos
        generalize t.pts = q
        induction q with
        | nil => exact List.Forall₂.nil
        | cons p q ih => exact List.Forall₂.cons (Or.inr rfl) ih
      · rw [Dict.get?_set_ne _ _ hr] at hl
        exact h.idx r l hl
    · intro r L'' hL''
      rw [x1, x2, x3, f1, f3, f5, depthKey_frame hsv.2.2]
      by_cases hr : r = res
      · subst hr
        rw [x5] at hL''
        cases hL''
        obtain ⟨q1, q2, q3, -, -⟩ := h.cells r L hL
        refine ⟨q1, q2, q3, x6, ?_⟩
        intro hn; rw [Dict.get?_set_self] at hn; cases hn
      · rw [x4 r hr] at hL''
        rw [Dict.get?_set_ne _ _ hr]
        exact h.cells r L'' hL''
  have hothc : ∀ r', r' ≠ res → u.coreAt r' = t.coreAt r' := fun r' hr => by unfold coreAt; rw [hoth r' hr]
  have hinitok := (initLayers_ok (depthKey_cases t) fl F (ncells t.width res)).2
  have hgu : GInv u fl F := ginv_of u hs e1 e2 hci hothc ⟨_, hcoreU, hinitok⟩
  have hrun := runAlg_eq (A := A) (env := env) (params := params) (border := border) (alg := alg) hdu hls hidx (by rw [ha]; simp)
  have hale : A.algLayers env u.depthKey u.minX u.maxY d (t.cellNos res) ls alg res params border =
      A.algLayers env t.depthKey t.minX (t.minY + t.width) d (t.cellNos res) ls alg res params border := by
    rw [hdk, hfr.1, hfr.2.2.2.1, h.maxY]
  rw [hale] at hrun
  have hlsok : LayersOk t.depthKey fl F (ncells t.width res) ls := by
    unfold LayersOk; rw [hcore]
    have := hinitok
    unfold LayersOk at this
    rw [(initLayers_ok (depthKey_cases t) fl F (ncells t.width res)).1] at this
    exact this
  have hcanon := algLayers_core (A := A) (env := env) (dk := t.depthKey) (depthKey_core t) t.minX (t.minY + t.width) d (t.cellNos res) ls alg res
    params border
  have hcl : A.canonLayers env t.minX t.minY t.width t.depthKey d F alg res params border =
      (A.algLayers env t.depthKey t.minX (t.minY + t.width) d (t.cellNos res) ls alg res params border).map core := by
    rw [hcanon, hcore, ← hdf, hcn]; rfl
  have hout : out = (match A.runAlg env u alg res params border with
        | .error e => Res.fail u e
        | .ok t5 => Res.ok { t5 with pointCountChanged := false }) := by
    simp only [out, hu]
  rw [hcl]
  rw [hrun] at hout
  cases hal : A.algLayers env t.depthKey t.minX (t.minY + t.width) d (t.cellNos res) ls alg res params border with
  | error e =>
    rw [hal] at hout
    simp only at hout
    rw [hout]
    simp only [Res.fail_st, Except.map, Res.fail_err]
    exact ⟨hgu, hs, hci, hothc, trivial⟩
  | ok ls' =>
    rw [hal] at hout
    simp only at hout
    rw [hout]
    simp only [Res.ok_st, Except.map, Res.ok_err, true_and]
    have hok' := algLayers_ok (A := A) (depthKey_core t) hlsok hal
    have hokc : LayersOk t.depthKey fl F (ncells t.width res) (core ls') := by
      unfold LayersOk at *; rw [core_core]; exact hok'
    have hsv : samePoints t { u with cells := u.cells.set res ls', pointCountChanged := false } := ⟨hs.1, hs.2.1, hs.2.2⟩
    have hcv : ∀ r', coreAt { u with cells := u.cells.set res ls', pointCountChanged := false } r' =
        if r' = res then some (core ls') else u.coreAt r' := fun r' => coreAt_set (t := u) rfl r'
    refine ⟨ginv_of _ hsv e1 e2 hci ?_ ⟨core ls', ?_, hokc⟩, hsv, hci, ?_, ?_⟩
    · intro r' hr; rw [hcv, if_neg hr, hothc r' hr]
    · rw [hcv, if_pos rfl]
    · intro r' hr; rw [hcv, if_neg hr, hothc r' hr]
    · rw [hcv, if_pos rfl]; exact ⟨rfl, trivial⟩

/-- gridding a tile that satisfies the invariant: the outcome only depends on the soundings and the call -/
theorem gridAt_canon (A : Arith) (env : Env) {t : Tile} {fl : Fields} {F : Family} {clear : Bool}
    (h : GInv (if clear then t.clearGrid else t) fl F) {res : ℚ} (hres : isPowerOfTwo res = true)
    {d : PtArr} (hd : t.data = some d) {alg : Alg} (ha : alg.family = some F) (params : Option GridParams) (border : Option PtArr) :
    let out := A.gridAt env t alg res clear params border
    GInv out.st fl F ∧ samePoints t out.st ∧ out.st.cellIdx = t.cellIdx.set res (t.cellNos res) ∧
      (∀ r', r' ≠ res → out.st.coreAt r' = if clear then none else t.coreAt r') ∧
      match A.canonLayers env t.minX t.minY t.width t.depthKey d F alg res params border with
      | .error e => out.err = some e
      | .ok L' => out.err = none ∧ out.st.coreAt res = some L' ∧ out.st.pointCountChanged = false := by
  intro out
  have h1 : samePoints t (if clear then t.clearGrid else t) ∧ (if clear then t.clearGrid else t).cellIdx = t.cellIdx ∧
      ∀ r', (if clear then t.clearGrid else t).coreAt r' = if clear then none else t.coreAt r' := by
    cases clear
    · exact ⟨samePoints_refl t, rfl, fun _ => rfl⟩
    · exact ⟨(clearGrid_same t).1, rfl, fun _ => rfl⟩
  have hout : out = (if isPowerOfTwo res then
    let t1 := if clear then t.clearGrid else t
    let t2 := t1.clearTemp res
    let r3 := if !t2.cells.has res || decide (t2.algorithm ≠ some alg) then
        newGrid { t2 with algorithm := some alg, gridParams := params } res alg
      else .ok t2
    r3.andThen (fun t3 =>
      match prepare t3 res with
      | .error e => .fail t3 e
      | .ok t4 =>
        match A.runAlg env t4 alg res params border with
        | .error e => .fail t4 e
        | .ok t5 => .ok { t5 with pointCountChanged := false })
    else .fail t .valueError) := rfl
  rw [if_pos hres] at hout
  simp only at hout
  generalize (if clear then t.clearGrid else t) = t1 at *
  have g2 := ginv_clearTemp h res
  have s2 := clearTemp_same t1 res
  have c2 := clearTemp_coreAt t1 res
  generalize t1.clearTemp res = t2 at *
  -- the state before prepare
  have h3 : ∃ t3 L, (if (!t2.cells.has res || decide (t2.algorithm ≠ some alg)) = true then
        newGrid { t2 with algorithm := some alg, gridParams := params } res alg else Res.ok t2) = .ok t3 ∧ GInv t3 fl F ∧
        samePoints t2 t3 ∧ t3.cellIdx = t2.cellIdx ∧ t3.coreAt res = some L ∧ ∀ r', r' ≠ res → t3.coreAt r' = t2.coreAt r' := by
    by_cases hc : (!t2.cells.has res || decide (t2.algorithm ≠ some alg)) = true
    · rw [if_pos hc]
      have g2' : GInv { t2 with algorithm := some alg, gridParams := params } fl F :=
        ginv_congr g2 ⟨rfl, rfl, by simp [sameFrame]⟩ rfl rfl rfl (fun _ => rfl)
      obtain ⟨u, hu, hg, hs, hi, hc', ho⟩ := ginv_newGrid g2' hres ha
      refine ⟨u, _, hu, hg, ⟨hs.1, hs.2.1, hs.2.2⟩, hi, hc', ?_⟩
      intro r' hr; unfold coreAt; rw [ho r' hr]
    · rw [if_neg hc]
      have hhas : t2.cells.has res = true := by
        cases hh : t2.cells.has res with
        | true => rfl
        | false => rw [hh] at hc; simp at hc
      rw [← Dict.get?_isSome] at hhas
      obtain ⟨ls, hls⟩ := Option.isSome_iff_exists.1 hhas
      refine ⟨t2, core ls, rfl, g2, samePoints_refl _, rfl, ?_, fun _ _ => rfl⟩
      unfold coreAt; rw [hls]; rfl
  obtain ⟨t3, L, hr3, g3, s3, i3, c3, o3⟩ := h3
  rw [hr3, Res.andThen_ok] at hout
  have s13 : samePoints t t3 := samePoints_trans h1.1 (samePoints_trans s2.1 s3)
  have hd3 : t3.data = some d := s13.1.trans hd
  have key := gridTail_canon A env g3 c3 hd3 ha params border
  simp only at key
  rw [← hout] at key
  obtain ⟨k1, k2, k3, k4, k5⟩ := key
  obtain ⟨f1, f2, f3, f4, f5, f6, f7⟩ := s13.2.2
  have hcn : t3.cellNos res = t.cellNos res := by
    unfold cellNos
    rw [samePoints_pts s13]
    apply List.map_congr_left
    intro p _; exact cellNo_frame s13.2.2 res p
  refine ⟨k1, samePoints_trans s13 k2, ?_, ?_, ?_⟩
  · rw [k3, hcn, i3, s2.2, h1.2.1]
  · intro r' hr
    rw [k4 r' hr, o3 r' hr, c2 r', h1.2.2 r']
  · rw [depthKey_frame s13.2.2, f1, f3, f5] at k5
    exact k5

theorem gridAt_bad (A : Arith) (env : Env) (t : Tile) (alg : Alg) {res : ℚ} (h : isPowerOfTwo res = false) (clear : Bool) (params : Option GridParams)
    (border : Option PtArr) : A.gridAt env t alg res clear params border = .fail t .valueError := by
  unfold gridAt; rw [h]; simp

end Arith

/-- the tiles that are reached with floating point arithmetic, as `TileHistory` -/
inductive FloatHistory (A : Arith) (env : Env) (x y size : ℚ) (bs : Bool) (fl : Fields) : Family → Tile → Store → Prop
  | first (F : Family) (pts : List Pt) (c : String) (hbox : ∀ p ∈ pts, InBox x y size p) :
      FloatHistory A env x y size bs fl F ((Tile.new x y size bs).addPoints ⟨fl, pts⟩ c).st [(c, pts)]
  | add {F t S} (h : FloatHistory A env x y size bs fl F t S) (pts : List Pt) (c : String) (hbox : ∀ p ∈ pts, InBox x y size p) :
      FloatHistory A env x y size bs fl F (t.addPoints ⟨fl, pts⟩ c).st (S.put c pts)
  | remove {F t S} (h : FloatHistory A env x y size bs fl F t S) (c : String) :
      FloatHistory A env x y size bs fl F (t.removePoints c).st (S.remove c)
  | query {F t S} (h : FloatHistory A env x y size bs fl F t S) (layer : Layer) (res nodata : Option ℚ) (zUp : Bool) :
      FloatHistory A env x y size bs fl F (t.getLayer env layer res nodata zUp).1 S
  | reread {F t u S} (h : FloatHistory A env x y size bs fl F t S) (hr : t.Reread u) : FloatHistory A env x y size bs fl F u S
  | grid {F t S} (h : FloatHistory A env x y size bs fl F t S) (alg : Alg) (ha : alg.family = some F) (res : ℚ) (clear : Bool)
      (params : Option GridParams) (border : Option PtArr) :
      FloatHistory A env x y size bs fl F (A.gridAt env t alg res clear params border).st S
  | switch {F F' t S} (h : FloatHistory A env x y size bs fl F t S) (alg : Alg) (ha : alg.family = some F') (res : ℚ)
      (params : Option GridParams) (border : Option PtArr) (hok : (A.gridAt env t alg res true params border).err = none) :
      FloatHistory A env x y size bs fl F' (A.gridAt env t alg res true params border).st S
  | clearGrid {F t S} (h : FloatHistory A env x y size bs fl F t S) (F' : Family) : FloatHistory A env x y size bs fl F' t.clearGrid S

theorem float_rep {t u : Tile} {S : Store} {fl : Fields} {r : ℚ} (hr : t.Rep S fl) (hs : Tile.samePoints t u)
    (hi : u.cellIdx = t.cellIdx.set r (t.cellNos r)) : u.Rep S fl := by
  refine Tile.rep_of_same hr hs ?_
  intro r' l hl
  rw [hi] at hl
  rw [Tile.samePoints_pts hs]
  rcases Dict.mem_set hl with h | h
  · cases h; simp [Tile.cellNos]
  · exact hr.idx r' l h

theorem float_frame {A : Arith} {env : Env} {x y size : ℚ} {bs : Bool} {fl : Fields} {F : Family} {t : Tile} {S : Store} (hw : 0 < size)
    (h : FloatHistory A env x y size bs fl F t S) : Tile.sameFrame (Tile.new x y size bs) t ∧ t.Rep S fl ∧ t.GInv fl F := by
  induction h with
  | first F pts c hbox =>
    obtain ⟨u, hu, hr, hf, -⟩ := Tile.addPoints_spec (Tile.rep_new x y size bs fl) ⟨fl, pts⟩ rfl c
    have hg := Tile.ginv_first (x := x) (y := y) (bs := bs) (d := ⟨fl, pts⟩) (c := c) F hw hbox
    rw [hu] at hg ⊢
    exact ⟨hf, by simpa [Store.put, Store.remove] using hr, hg⟩
  | @add F t S _ pts c hbox ih =>
    obtain ⟨hf, hr, hg⟩ := ih
    obtain ⟨u, hu, hr', hf', -⟩ := Tile.addPoints_spec hr ⟨fl, pts⟩ rfl c
    have hg' := Tile.ginv_add (d := ⟨fl, pts⟩) (c := c) hg hr rfl (by rw [hf.1, hf.2.2.1, hf.2.2.2.2.1]; exact hbox)
    rw [hu] at hg' ⊢
    exact ⟨Tile.sameFrame_trans hf hf', hr', hg'⟩
  | @remove F t S _ c ih =>
    obtain ⟨hf, hr, hg⟩ := ih
    obtain ⟨u, hu, hr', hf', -⟩ := Tile.removePoints_spec hr c
    have hg' := Tile.ginv_remove hg hr c
    rw [hu] at hg' ⊢
    exact ⟨Tile.sameFrame_trans hf hf', hr', hg'⟩
  | @query F t S _ l r n z ih =>
    obtain ⟨hf, hr, hg⟩ := ih
    have hs := Tile.getLayer_same env t l r n z
    exact ⟨Tile.sameFrame_trans hf hs.1.2.2, Tile.rep_of_same hr hs.1 (Tile.idxLen_of_same hs.1 hs.2 hr.idx),
      Tile.ginv_getLayer env hg l r n z⟩
  | @reread F t u S _ hu ih =>
    obtain ⟨hf, hr, hg⟩ := ih
    exact ⟨Tile.sameFrame_trans hf (Tile.reread_same hu).2.2, Tile.reread_rep hu hr, Tile.reread_ginv hu hg⟩
  | @grid F t S _ alg ha res clear params border ih =>
    obtain ⟨hf, hr, hg⟩ := ih
    cases hp : isPowerOfTwo res with
    | false => rw [A.gridAt_bad env t alg hp]; exact ⟨hf, hr, hg⟩
    | true =>
      obtain ⟨d, hd, -⟩ := hg.data
      obtain ⟨k1, k2, k3, -⟩ := Arith.gridAt_canon A env (Tile.ginv_pre hg clear) hp hd ha params border
      exact ⟨Tile.sameFrame_trans hf k2.2.2, float_rep hr k2 k3, k1⟩
  | @switch F F' t S _ alg ha res params border hok ih =>
    obtain ⟨hf, hr, hg⟩ := ih
    cases hp : isPowerOfTwo res with
    | false => rw [A.gridAt_bad env t alg hp] at hok; cases hok
    | true =>
      obtain ⟨d, hd, -⟩ := hg.data
      obtain ⟨k1, k2, k3, -⟩ := Arith.gridAt_canon A env (clear := true) (F := F') (Tile.ginv_clearGrid hg) hp hd ha params border
      exact ⟨Tile.sameFrame_trans hf k2.2.2, float_rep hr k2 k3, k1⟩
  | @clearGrid F t S _ F' ih =>
    obtain ⟨hf, hr, hg⟩ := ih
    have hs := Tile.clearGrid_same t
    exact ⟨Tile.sameFrame_trans hf hs.1.2.2, Tile.rep_of_same hr hs.1 (Tile.idxLen_of_same hs.1 hs.2 hr.idx), Tile.ginv_clearGrid hg⟩

theorem float_data {A : Arith} {env : Env} {x y size : ℚ} {bs : Bool} {fl : Fields} {F : Family} {t : Tile} {S : Store} (hw : 0 < size)
    (h : FloatHistory A env x y size bs fl F t S) : t.data = some ⟨fl, S.allPts⟩ := by
  obtain ⟨hf, hr, hg⟩ := float_frame hw h
  obtain ⟨d, hd, hdf⟩ := hg.data
  have hp := hr.pts
  simp only [Tile.pts, hd] at hp
  rw [hd, ← hdf, ← hp]

theorem float_box {A : Arith} {env : Env} {x y size : ℚ} {bs : Bool} {fl : Fields} {F : Family} {t : Tile} {S : Store} (hw : 0 < size)
    (h : FloatHistory A env x y size bs fl F t S) : ∀ p ∈ S.allPts, InBox x y size p := by
  obtain ⟨hf, hr, hg⟩ := float_frame hw h
  intro p hp
  have := hg.box p (by rw [hr.pts]; exact hp)
  rw [hf.1, hf.2.2.1, hf.2.2.2.2.1] at this
  exact this

/-- outcome of a gridding call on a reachable tile -/
theorem float_grid {A : Arith} {env : Env} {x y size : ℚ} {bs : Bool} {fl : Fields} {F F' : Family} {t : Tile} {S : Store} (hw : 0 < size)
    (h : FloatHistory A env x y size bs fl F t S) {alg : Alg} {clear : Bool} (ha : alg.family = some F') (hF : F' = F ∨ clear = true)
    {res : ℚ} (hres : isPowerOfTwo res = true) (params : Option GridParams) (border : Option PtArr) :
    let out := A.gridAt env t alg res clear params border
    match A.canonLayers env x y size (Tile.new x y size bs).depthKey ⟨fl, S.allPts⟩ F' alg res params border with
      | .error e => out.err = some e
      | .ok L' => out.err = none ∧ out.st.coreAt res = some L' ∧ out.st.pointCountChanged = false := by
  intro out
  obtain ⟨hf, hr, hg⟩ := float_frame hw h
  have hpre : Tile.GInv (if clear then t.clearGrid else t) fl F' := by
    rcases hF with rfl | rfl
    · exact Tile.ginv_pre hg clear
    · exact Tile.ginv_clearGrid hg
  have := (Arith.gridAt_canon A env hpre hres (float_data hw h) ha params border).2.2.2.2
  rw [hf.1, hf.2.2.1, hf.2.2.2.2.1, Tile.depthKey_frame hf] at this
  exact this

end Bathy
