import Verif.Lemmas.TileInv

/-!
# gridding a tile is a function of its soundings
-/

namespace Bathy

theorem assignMask_fill {α β : Type} (g : β → α) (bad : α → Bool) :
    ∀ (l : List α) (pts : List β), List.Forall₂ (fun i p => bad i = true ∨ i = g p) l pts →
      assignMask l (l.map bad) ((boolIndex pts (l.map bad)).map g) = some (pts.map g) := by
  intro l pts h
  induction h with
  | nil => rfl
  | @cons i p l pts hip _ ih =>
    rw [List.map_cons, boolIndex_cons]
    cases hb : bad i with
    | true =>
      simp only [if_true, List.map_cons, assignMask, ih, Option.map_some]
    | false =>
      rcases hip with h | h
      · rw [hb] at h; cases h
      · simp only [Bool.false_eq_true, if_false, assignMask, ih, Option.map_some, List.map_cons, ← h]

namespace Tile

theorem fillIdx_canon {t : Tile} {fl : Fields} {F : Family} (h : GInv t fl F) {r : ℚ} (hr : 0 < r) {d : PtArr} (hd : t.data = some d)
    {l : List Int} (hl : t.cellIdx.get? r = some l) :
    fillIdx d l (edgesOf t.minX r (ncells t.width r)) (edgesOf t.minY r (ncells t.width r)) = .ok (d.pts.map (t.cellNo r)) := by
  have hf := h.idx r l hl
  have hp : t.pts = d.pts := by simp [Tile.pts, hd]
  rw [hp] at hf
  have hf' : List.Forall₂ (fun i p => (fun i : Int => decide (i = -1)) i = true ∨ i = t.cellNo r p) l d.pts := by
    refine hf.imp ?_
    intro i p hip
    simpa using hip
  have key := assignMask_fill (t.cellNo r) (fun i : Int => decide (i = -1)) l d.pts hf'
  unfold fillIdx
  simp only
  by_cases hany : (l.map (fun i : Int => decide (i = -1))).any id = true
  · rw [if_pos hany, if_pos (by rw [List.length_map]; exact hf.length_eq)]
    rw [bin2d_cells h.wpos hr _ (by
      intro p hpm; exact h.box p (by rw [hp]; exact boolIndex_sub _ _ p hpm))]
    simp only [List.map_map]
    have e : ((fun n : Nat => (n : Int)) ∘ cellOf t.minX t.minY r (ncells t.width r)) = t.cellNo r := rfl
    rw [e, key]
  · rw [if_neg hany]
    congr 1
    have hnone : ∀ i ∈ l, ¬ i = -1 := by
      intro i hi he
      apply hany
      rw [List.any_eq_true]
      exact ⟨true, List.mem_map.2 ⟨i, hi, by simp [he]⟩, rfl⟩
    clear key hf' hany hl
    generalize d.pts = q at hf
    induction hf with
    | nil => rfl
    | @cons i p l pts hip _ ih =>
      rw [List.map_cons]
      congr 1
      · rcases hip with h1 | h1
        · exact absurd h1 (hnone i List.mem_cons_self)
        · exact h1
      · exact ih (fun j hj => hnone j (List.mem_cons_of_mem _ hj))

/-- what `new_grid` makes -/
theorem newGrid_canon {t : Tile} {d : PtArr} (hd : t.data = some d) (hw : 0 < t.width) (hx : t.maxX = t.minX + t.width)
    (hy : t.maxY = t.minY + t.width) {r : ℚ} (hr : isPowerOfTwo r = true) {alg : Alg} {F : Family} (ha : alg.family = some F) :
    newGrid t r alg = .ok { t with
      edgesX := t.edgesX.set r (edgesOf t.minX r (ncells t.width r))
      edgesY := t.edgesY.set r (edgesOf t.minY r (ncells t.width r))
      cells := t.cells.set r (initLayers t.depthKey d.fields F (ncells t.width r)) } := by
  have hpos := isPowerOfTwo_pos hr
  obtain ⟨a1, a2⟩ := arange_edges (lo := t.minX) hw hpos
  obtain ⟨b1, b2⟩ := arange_edges (lo := t.minY) hw hpos
  unfold newGrid
  rw [if_pos hr]
  simp only [hx, hy, a1, b1, a2, b2, hd]
  cases alg <;> simp only [Alg.family, Option.some.injEq, reduceCtorEq] at ha <;> subst ha <;> rfl

/-- state after `new_grid` / before `prepare`: invariant plus the layers of `res` exist -/
theorem prepare_canon {t : Tile} {fl : Fields} {F : Family} (h : GInv t fl F) {r : ℚ} {L : Dict Layer LayerArr} (hL : t.coreAt r = some L)
    {d : PtArr} (hd : t.data = some d) :
    ∃ u ls, prepare t r = .ok u ∧ samePoints t u ∧ u.edgesX = t.edgesX ∧ u.edgesY = t.edgesY ∧
      u.algorithm = t.algorithm ∧ u.gridParams = t.gridParams ∧
      u.cellIdx = t.cellIdx.set r (d.pts.map (t.cellNo r)) ∧ u.cells.get? r = some ls ∧
      core ls = initLayers t.depthKey fl F (ncells t.width r) ∧ ∀ r', r' ≠ r → u.cells.get? r' = t.cells.get? r' := by
  obtain ⟨hr, e1, e2, hok, hinit⟩ := h.cells r L hL
  unfold coreAt at hL
  rw [Option.map_eq_some_iff] at hL
  obtain ⟨ls, hls, rfl⟩ := hL
  unfold prepare
  rw [e1, e2]
  simp only
  cases hci : t.cellIdx.get? r with
  | none =>
    simp only [hd]
    rw [bin2d_cells h.wpos hr _ (by intro p hp; exact h.box p (by simpa [Tile.pts, hd] using hp))]
    simp only
    refine ⟨_, ls, rfl, ⟨hd.symm, rfl, by simp [sameFrame]⟩, rfl, rfl, rfl, rfl, ?_, hls, hinit hci, fun _ _ => rfl⟩
    simp only [List.map_map]; rfl
  | some l =>
    simp only [hd, Option.getD_some]
    rw [fillIdx_canon h hr hd hci, hls]
    simp only
    have hok' : LayersOk t.depthKey fl F (ncells t.width r) ls := by
      obtain ⟨k1, k2⟩ := hok
      rw [core_core] at k1 k2
      exact ⟨k1, k2⟩
    obtain ⟨ls', h1, h2⟩ := reset_init (depthKey_cases t) hok'
    rw [h1]
    refine ⟨_, ls', rfl, ⟨hd.symm, rfl, by simp [sameFrame]⟩, rfl, rfl, rfl, rfl, rfl, Dict.get?_set_self _ _ _, h2, ?_⟩
    intro r' hne; exact Dict.get?_set_ne _ _ hne

/-- cell numbers of the soundings of the tile at a resolution -/
def cellNos (t : Tile) (r : ℚ) : List Int := t.pts.map (t.cellNo r)

/-- the layers that gridding the given soundings gives: a function of the soundings and of the arguments of the call only -/
def canonLayers (env : Env) (minX minY width : ℚ) (dk : Layer) (d : PtArr) (F : Family) (alg : Alg) (res : ℚ) (params : Option GridParams)
    (border : Option PtArr) : Except Err (Dict Layer LayerArr) :=
  algLayers env dk minX (minY + width) d (d.pts.map (fun p => ((cellOf minX minY res (ncells width res) p : Nat) : Int)))
    (initLayers dk d.fields F (ncells width res)) alg res params border

theorem ginv_newGrid {t : Tile} {fl : Fields} {F : Family} (h : GInv t fl F) {r : ℚ} (hr : isPowerOfTwo r = true) {alg : Alg}
    (ha : alg.family = some F) :
    ∃ u, newGrid t r alg = .ok u ∧ GInv u fl F ∧ samePoints t u ∧ u.cellIdx = t.cellIdx ∧
      u.coreAt r = some (initLayers t.depthKey fl F (ncells t.width r)) ∧ ∀ r', r' ≠ r → u.cells.get? r' = t.cells.get? r' := by
  obtain ⟨d, hd, hdf⟩ := h.data
  have := newGrid_canon hd h.wpos h.maxX h.maxY hr ha
  rw [hdf] at this
  refine ⟨_, this, ?_, ⟨rfl, rfl, by simp [sameFrame]⟩, rfl, ?_, ?_⟩
  · refine ⟨h.wpos, h.maxX, h.maxY, h.box, h.data, h.idx, ?_⟩
    intro r' L hL
    rw [coreAt_set (t := t) (r := r) rfl] at hL
    by_cases hrr : r' = r
    · subst hrr
      rw [if_pos rfl, Option.some.injEq] at hL
      have hi := initLayers_ok (depthKey_cases t) fl F (ncells t.width r')
      rw [hi.1] at hL
      subst hL
      exact ⟨isPowerOfTwo_pos hr, Dict.get?_set_self _ _ _, Dict.get?_set_self _ _ _, hi.2, fun _ => rfl⟩
    · rw [if_neg hrr] at hL
      simp only [Dict.get?_set_ne _ _ hrr]
      exact h.cells r' L hL
  · rw [coreAt_set (t := t) (r := r) rfl, if_pos rfl, (initLayers_ok (depthKey_cases t) fl F _).1]
  · intro r' hne; exact Dict.get?_set_ne _ _ hne

/-- the second half of `grid`, from `prepare` on -/
theorem gridTail_canon (env : Env) {t : Tile} {fl : Fields} {F : Family} (h : GInv t fl F) {res : ℚ} {L : Dict Layer LayerArr}
    (hL : t.coreAt res = some L) {d : PtArr} (hd : t.data = some d) {alg : Alg} (ha : alg.family = some F)
    (params : Option GridParams) (border : Option PtArr) :
    let out := match prepare t res with
      | .error e => Res.fail t e
      | .ok t4 =>
        match runAlg env t4 alg res params border with
        | .error e => Res.fail t4 e
        | .ok t5 => Res.ok { t5 with pointCountChanged := false }
    GInv out.st fl F ∧ samePoints t out.st ∧ out.st.cellIdx = t.cellIdx.set res (t.cellNos res) ∧
      (∀ r', r' ≠ res → out.st.coreAt r' = t.coreAt r') ∧
      match canonLayers env t.minX t.minY t.width t.depthKey d F alg res params border with
      | .error e => out.err = some e
      | .ok L' => out.err = none ∧ out.st.coreAt res = some L' ∧ out.st.pointCountChanged = false := by
  intro out
  obtain ⟨u, ls, hu, hs, e1, e2, e3, e4, hci, hls, hcore, hoth⟩ := prepare_canon h hL hd
  have hp : t.pts = d.pts := by simp [Tile.pts, hd]
  have hcn : t.cellNos res = d.pts.map (t.cellNo res) := by unfold cellNos; rw [hp]
  rw [← hcn] at hci
  have hdu : u.data = some d := hs.1.trans hd
  have hfr := hs.2.2
  have hdk := depthKey_frame hfr
  have hdf : d.fields = fl := by obtain ⟨d', hd', hf'⟩ := h.data; rw [hd] at hd'; cases hd'; exact hf'
  have hrpos := (h.cells res L hL).1
  have hidx : u.cellIdx.get? res = some (t.cellNos res) := by rw [hci, Dict.get?_set_self]
  have hcoreU : u.coreAt res = some (initLayers t.depthKey fl F (ncells t.width res)) := by
    unfold coreAt; rw [hls, Option.map_some, hcore]
  -- invariant after prepare, for any layers of the right form at `res`
  have ginv_of : ∀ v : Tile, samePoints t v → v.edgesX = t.edgesX → v.edgesY = t.edgesY →
      v.cellIdx = t.cellIdx.set res (t.cellNos res) → (∀ r', r' ≠ res → v.coreAt r' = t.coreAt r') →
      (∃ L', v.coreAt res = some L' ∧ LayersOk t.depthKey fl F (ncells t.width res) L') → GInv v fl F := by
    intro v hsv x1 x2 x3 x4 ⟨L', x5, x6⟩
    obtain ⟨f1, f2, f3, f4, f5, f6, f7⟩ := hsv.2.2
    refine ⟨by rw [f5]; exact h.wpos, by rw [f2, f1, f5]; exact h.maxX, by rw [f4, f3, f5]; exact h.maxY, ?_, ?_, ?_, ?_⟩
    · rw [samePoints_pts hsv, f1, f3, f5]; exact h.box
    · rw [hsv.1]; exact h.data
    · intro r l hl
      rw [samePoints_pts hsv]
      simp only [cellNo_frame hsv.2.2]
      rw [x3] at hl
      by_cases hr : r = res
      · subst hr
        rw [Dict.get?_set_self, Option.some.injEq] at hl
        subst hl
        unfold cellNos
        generalize t.pts = q
        induction q with
        | nil => exact List.Forall₂.nil
        | cons p q ih => exact List.Forall₂.cons (Or.inr rfl) ih
      · rw [Dict.get?_set_ne _ _ hr] at hl
        exact h.idx r l hl
    · intro r L'' hL''
      rw [x1, x2, x3, f1, f3, f5, depthKey_frame hsv.2.2]
      by_cases hr : r = res
      · subst hr
        rw [x5] at hL''
        cases hL''
        obtain ⟨q1, q2, q3, -, -⟩ := h.cells r L hL
        refine ⟨q1, q2, q3, x6, ?_⟩
        intro hn; rw [Dict.get?_set_self] at hn; cases hn
      · rw [x4 r hr] at hL''
        rw [Dict.get?_set_ne _ _ hr]
        exact h.cells r L'' hL''
  have hothc : ∀ r', r' ≠ res → u.coreAt r' = t.coreAt r' := fun r' hr => by unfold coreAt; rw [hoth r' hr]
  have hinitok := (initLayers_ok (depthKey_cases t) fl F (ncells t.width res)).2
  have hgu : GInv u fl F := ginv_of u hs e1 e2 hci hothc ⟨_, hcoreU, hinitok⟩
  have hrun := runAlg_eq (env := env) (params := params) (border := border) (alg := alg) hdu hls hidx (by rw [ha]; simp)
  have hale : algLayers env u.depthKey u.minX u.maxY d (t.cellNos res) ls alg res params border =
      algLayers env t.depthKey t.minX (t.minY + t.width) d (t.cellNos res) ls alg res params border := by
    rw [hdk, hfr.1, hfr.2.2.2.1, h.maxY]
  rw [hale] at hrun
  have hlsok : LayersOk t.depthKey fl F (ncells t.width res) ls := by
    unfold LayersOk; rw [hcore]
    have := hinitok
    unfold LayersOk at this
    rw [(initLayers_ok (depthKey_cases t) fl F (ncells t.width res)).1] at this
    exact this
  have hcanon := algLayers_core (env := env) (dk := t.depthKey) (depthKey_core t) t.minX (t.minY + t.width) d (t.cellNos res) ls alg res
    params border
  have hcl : canonLayers env t.minX t.minY t.width t.depthKey d F alg res params border =
      (algLayers env t.depthKey t.minX (t.minY + t.width) d (t.cellNos res) ls alg res params border).map core := by
    rw [hcanon, hcore, ← hdf, hcn]; rfl
  have hout : out = (match runAlg env u alg res params border with
        | .error e => Res.fail u e
        | .ok t5 => Res.ok { t5 with pointCountChanged := false }) := by
    simp only [out, hu]
  rw [hcl]
  rw [hrun] at hout
  cases hal : algLayers env t.depthKey t.minX (t.minY + t.width) d (t.cellNos res) ls alg res params border with
  | error e =>
    rw [hal] at hout
    simp only at hout
    rw [hout]
    simp only [Res.fail_st, Except.map, Res.fail_err]
    exact ⟨hgu, hs, hci, hothc, trivial⟩
  | ok ls' =>
    rw [hal] at hout
    simp only at hout
    rw [hout]
    simp only [Res.ok_st, Except.map, Res.ok_err, true_and]
    have hok' := algLayers_ok (depthKey_core t) hlsok hal
    have hokc : LayersOk t.depthKey fl F (ncells t.width res) (core ls') := by
      unfold LayersOk at *; rw [core_core]; exact hok'
    have hsv : samePoints t { u with cells := u.cells.set res ls', pointCountChanged := false } := ⟨hs.1, hs.2.1, hs.2.2⟩
    have hcv : ∀ r', coreAt { u with cells := u.cells.set res ls', pointCountChanged := false } r' =
        if r' = res then some (core ls') else u.coreAt r' := fun r' => coreAt_set (t := u) rfl r'
    refine ⟨ginv_of _ hsv e1 e2 hci ?_ ⟨core ls', ?_, hokc⟩, hsv, hci, ?_, ?_⟩
    · intro r' hr; rw [hcv, if_neg hr, hothc r' hr]
    · rw [hcv, if_pos rfl]
    · intro r' hr; rw [hcv, if_neg hr, hothc r' hr]
    · rw [hcv, if_pos rfl]; exact ⟨rfl, trivial⟩

/-- gridding a tile that satisfies the invariant: the outcome only depends on the soundings and the call -/
theorem gridAt_canon (env : Env) {t : Tile} {fl : Fields} {F : Family} {clear : Bool}
    (h : GInv (if clear then t.clearGrid else t) fl F) {res : ℚ} (hres : isPowerOfTwo res = true)
    {d : PtArr} (hd : t.data = some d) {alg : Alg} (ha : alg.family = some F) (params : Option GridParams) (border : Option PtArr) :
    let out := gridAt env t alg res clear params border
    GInv out.st fl F ∧ samePoints t out.st ∧ out.st.cellIdx = t.cellIdx.set res (t.cellNos res) ∧
      (∀ r', r' ≠ res → out.st.coreAt r' = if clear then none else t.coreAt r') ∧
      match canonLayers env t.minX t.minY t.width t.depthKey d F alg res params border with
      | .error e => out.err = some e
      | .ok L' => out.err = none ∧ out.st.coreAt res = some L' ∧ out.st.pointCountChanged = false := by
  intro out
  have h1 : samePoints t (if clear then t.clearGrid else t) ∧ (if clear then t.clearGrid else t).cellIdx = t.cellIdx ∧
      ∀ r', (if clear then t.clearGrid else t).coreAt r' = if clear then none else t.coreAt r' := by
    cases clear
    · exact ⟨samePoints_refl t, rfl, fun _ => rfl⟩
    · exact ⟨(clearGrid_same t).1, rfl, fun _ => rfl⟩
  have hout : out = (if isPowerOfTwo res then
    let t1 := if clear then t.clearGrid else t
    let t2 := t1.clearTemp res
    let r3 := if !t2.cells.has res || decide (t2.algorithm ≠ some alg) then
        newGrid { t2 with algorithm := some alg, gridParams := params } res alg
      else .ok t2
    r3.andThen (fun t3 =>
      match prepare t3 res with
      | .error e => .fail t3 e
      | .ok t4 =>
        match runAlg env t4 alg res params border with
        | .error e => .fail t4 e
        | .ok t5 => .ok { t5 with pointCountChanged := false })
    else .fail t .valueError) := rfl
  rw [if_pos hres] at hout
  simp only at hout
  generalize (if clear then t.clearGrid else t) = t1 at *
  have g2 := ginv_clearTemp h res
  have s2 := clearTemp_same t1 res
  have c2 := clearTemp_coreAt t1 res
  generalize t1.clearTemp res = t2 at *
  -- the state before prepare
  have h3 : ∃ t3 L, (if (!t2.cells.has res || decide (t2.algorithm ≠ some alg)) = true then
        newGrid { t2 with algorithm := some alg, gridParams := params } res alg else Res.ok t2) = .ok t3 ∧ GInv t3 fl F ∧
        samePoints t2 t3 ∧ t3.cellIdx = t2.cellIdx ∧ t3.coreAt res = some L ∧ ∀ r', r' ≠ res → t3.coreAt r' = t2.coreAt r' := by
    by_cases hc : (!t2.cells.has res || decide (t2.algorithm ≠ some alg)) = true
    · rw [if_pos hc]
      have g2' : GInv { t2 with algorithm := some alg, gridParams := params } fl F :=
        ginv_congr g2 ⟨rfl, rfl, by simp [sameFrame]⟩ rfl rfl rfl (fun _ => rfl)
      obtain ⟨u, hu, hg, hs, hi, hc', ho⟩ := ginv_newGrid g2' hres ha
      refine ⟨u, _, hu, hg, ⟨hs.1, hs.2.1, hs.2.2⟩, hi, hc', ?_⟩
      intro r' hr; unfold coreAt; rw [ho r' hr]
    · rw [if_neg hc]
      have hhas : t2.cells.has res = true := by
        cases hh : t2.cells.has res with
        | true => rfl
        | false => rw [hh] at hc; simp at hc
      rw [← Dict.get?_isSome] at hhas
      obtain ⟨ls, hls⟩ := Option.isSome_iff_exists.1 hhas
      refine ⟨t2, core ls, rfl, g2, samePoints_refl _, rfl, ?_, fun _ _ => rfl⟩
      unfold coreAt; rw [hls]; rfl
  obtain ⟨t3, L, hr3, g3, s3, i3, c3, o3⟩ := h3
  rw [hr3, Res.andThen_ok] at hout
  have s13 : samePoints t t3 := samePoints_trans h1.1 (samePoints_trans s2.1 s3)
  have hd3 : t3.data = some d := s13.1.trans hd
  have key := gridTail_canon env g3 c3 hd3 ha params border
  simp only at key
  rw [← hout] at key
  obtain ⟨k1, k2, k3, k4, k5⟩ := key
  obtain ⟨f1, f2, f3, f4, f5, f6, f7⟩ := s13.2.2
  have hcn : t3.cellNos res = t.cellNos res := by
    unfold cellNos
    rw [samePoints_pts s13]
    apply List.map_congr_left
    intro p _; exact cellNo_frame s13.2.2 res p
  refine ⟨k1, samePoints_trans s13 k2, ?_, ?_, ?_⟩
  · rw [k3, hcn, i3, s2.2, h1.2.1]
  · intro r' hr
    rw [k4 r' hr, o3 r' hr, c2 r', h1.2.2 r']
  · rw [depthKey_frame s13.2.2, f1, f3, f5] at k5
    exact k5

end Tile
end Bathy
