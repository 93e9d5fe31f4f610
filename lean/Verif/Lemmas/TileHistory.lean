import Verif.Lemmas.TileMean
import Verif.Spec.Reread

/-!
# reachable tiles
-/

namespace Bathy

/-- A tile reached by a history of operations, with the soundings `A` that the history put into it.  All soundings lie in the tile
and have the fields `fl`.  `F` is the family (mean / shoalest, or CUBE) of the algorithms used since the layers were last cleared:
calls with an algorithm of the other family must clear the existing layers (the grid checks this before it calls the tile,
bathygrid/bgrid.py:1493-1495). -/
inductive TileHistory (env : Env) (x y size : ℚ) (bs : Bool) (fl : Fields) : Family → Tile → Store → Prop
  | first (F : Family) (pts : List Pt) (c : String) (hbox : ∀ p ∈ pts, InBox x y size p) :
      TileHistory env x y size bs fl F ((Tile.new x y size bs).addPoints ⟨fl, pts⟩ c).st [(c, pts)]
  | add {F t A} (h : TileHistory env x y size bs fl F t A) (pts : List Pt) (c : String) (hbox : ∀ p ∈ pts, InBox x y size p) :
      TileHistory env x y size bs fl F (t.addPoints ⟨fl, pts⟩ c).st (A.put c pts)
  | remove {F t A} (h : TileHistory env x y size bs fl F t A) (c : String) :
      TileHistory env x y size bs fl F (t.removePoints c).st (A.remove c)
  | query {F t A} (h : TileHistory env x y size bs fl F t A) (layer : Layer) (res nodata : Option ℚ) (zUp : Bool) :
      TileHistory env x y size bs fl F (t.getLayer env layer res nodata zUp).1 A
  | reread {F t u A} (h : TileHistory env x y size bs fl F t A) (hr : t.Reread u) : TileHistory env x y size bs fl F u A
  | grid {F t A} (h : TileHistory env x y size bs fl F t A) (alg : Alg) (ha : alg.family = some F) (res : Option ℚ) (clear : Bool)
      (mode : AutoMode) (params : Option GridParams) (border : Option PtArr) :
      TileHistory env x y size bs fl F (t.grid env alg res clear mode params border).1.st A
  | switch {F F' t A} (h : TileHistory env x y size bs fl F t A) (alg : Alg) (ha : alg.family = some F') (res : Option ℚ)
      (mode : AutoMode) (params : Option GridParams) (border : Option PtArr)
      (hok : (t.grid env alg res true mode params border).1.err = none) :
      TileHistory env x y size bs fl F' (t.grid env alg res true mode params border).1.st A
  | clearGrid {F t A} (h : TileHistory env x y size bs fl F t A) (F' : Family) :
      TileHistory env x y size bs fl F' t.clearGrid A

namespace Tile

theorem chooseResolution_congr (env : Env) {t u : Tile} (hs : samePoints t u) (res : Option ℚ) (mode : AutoMode) :
    chooseResolution env u res mode = chooseResolution env t res mode := by
  obtain ⟨hd, -, f1, f2, f3, f4, f5, -⟩ := hs
  unfold chooseResolution
  cases res with
  | some r => rfl
  | none =>
    cases mode with
    | depth => simp only [resolutionLookup, hd, f5]
    | density => simp only [resolutionByDensity, cellCounts, hd, f1, f2, f3, f4]
    | other => rfl

/-- `grid` in terms of `gridAt` -/
theorem grid_eq (env : Env) (t : Tile) (alg : Alg) (res : Option ℚ) (clear : Bool) (mode : AutoMode) (params : Option GridParams)
    (border : Option PtArr) :
    (grid env t alg res clear mode params border).1 =
      match chooseResolution env t res mode with
      | .error e => .fail t e
      | .ok r => gridAt env t alg r clear params border := by
  unfold grid
  cases chooseResolution env t res mode <;> rfl

theorem gridAt_bad (env : Env) (t : Tile) (alg : Alg) {res : ℚ} (h : isPowerOfTwo res = false) (clear : Bool) (params : Option GridParams)
    (border : Option PtArr) : gridAt env t alg res clear params border = .fail t .valueError := by
  unfold gridAt; rw [h]; simp

theorem ginv_pre {t : Tile} {fl : Fields} {F : Family} (h : GInv t fl F) (clear : Bool) :
    GInv (if clear then t.clearGrid else t) fl F := by
  cases clear
  · exact h
  · exact ginv_clearGrid h

theorem ginv_grid (env : Env) {t : Tile} {fl : Fields} {F : Family} (h : GInv t fl F) {alg : Alg} (ha : alg.family = some F)
    (res : Option ℚ) (clear : Bool) (mode : AutoMode) (params : Option GridParams) (border : Option PtArr) :
    GInv (grid env t alg res clear mode params border).1.st fl F := by
  rw [grid_eq]
  cases chooseResolution env t res mode with
  | error e => exact h
  | ok r =>
    simp only
    cases hp : isPowerOfTwo r with
    | false => rw [gridAt_bad env t alg hp]; exact h
    | true =>
      obtain ⟨d, hd, -⟩ := h.data
      exact (gridAt_canon env (ginv_pre h clear) hp hd ha params border).1

theorem ginv_switch (env : Env) {t : Tile} {fl : Fields} {F F' : Family} (h : GInv t fl F) {alg : Alg} (ha : alg.family = some F')
    (res : Option ℚ) (mode : AutoMode) (params : Option GridParams) (border : Option PtArr)
    (hok : (grid env t alg res true mode params border).1.err = none) :
    GInv (grid env t alg res true mode params border).1.st fl F' := by
  rw [grid_eq] at hok ⊢
  cases hch : chooseResolution env t res mode with
  | error e => rw [hch] at hok; cases hok
  | ok r =>
    rw [hch] at hok
    simp only at hok ⊢
    cases hp : isPowerOfTwo r with
    | false => rw [gridAt_bad env t alg hp] at hok; cases hok
    | true =>
      obtain ⟨d, hd, -⟩ := h.data
      exact (gridAt_canon env (clear := true) (F := F') (ginv_clearGrid h) hp hd ha params border).1

end Tile

namespace Tile

theorem isCore_saved (l : Layer) : decide (l ∈ savedLayers) = l.isCore := by
  cases l <;> simp [savedLayers, Layer.isCore]

theorem reread_layers {t u : Tile} (h : t.Reread u) (r : ℚ) : u.cells.get? r = (t.cells.get? r).map core := by
  rw [h.layers r]
  congr 1
  funext ls
  exact List.filter_congr (fun p _ => isCore_saved p.1)

theorem core_core (ls : Dict Layer LayerArr) : core (core ls) = core ls := by
  unfold core; rw [List.filter_filter]; simp

theorem reread_coreAt {t u : Tile} (h : t.Reread u) (r : ℚ) : u.coreAt r = t.coreAt r := by
  unfold coreAt
  rw [reread_layers h, Option.map_map]
  congr 1
  funext ls
  exact core_core ls

theorem reread_same {t u : Tile} (h : t.Reread u) : samePoints t u := by
  have := h.info
  simp only [toMeta, TileMeta.mk.injEq] at this
  obtain ⟨h1, h2, h3, h4, h5, h6, h7, -, -, -, h11⟩ := this
  exact ⟨h.data, h7, h1, h2, h3, h4, h5, h6, h11⟩

theorem reread_rep {t u : Tile} {A : Store} {fl : Fields} (h : t.Reread u) (hr : t.Rep A fl) : u.Rep A fl := by
  refine rep_of_same hr (reread_same h) ?_
  intro r l hq
  rw [samePoints_pts (reread_same h)]
  exact hr.idx r l (Dict.mem_of_get? _ (h.idxOnly _ hq))

theorem reread_mem {t : Tile} {r : ℚ} {L : Dict Layer LayerArr} (h : t.coreAt r = some L) : r ∈ t.cells.keys := by
  unfold coreAt at h
  by_contra hn
  rw [(Dict.get?_eq_none _ _).2 hn] at h
  cases h

theorem reread_ginv {t u : Tile} {fl : Fields} {F : Family} (h : t.Reread u) (hg : t.GInv fl F) : u.GInv fl F := by
  have hs := reread_same h
  have hf := hs.2.2
  obtain ⟨f1, f2, f3, f4, f5, f6, f7⟩ := hf
  refine ⟨by rw [f5]; exact hg.wpos, by rw [f2, f1, f5]; exact hg.maxX, by rw [f4, f3, f5]; exact hg.maxY, ?_, ?_, ?_, ?_⟩
  · rw [samePoints_pts hs, f1, f3, f5]; exact hg.box
  · rw [hs.1]; exact hg.data
  · intro r l hl
    rw [samePoints_pts hs]
    simpa only [cellNo_frame hs.2.2] using hg.idx r l (h.idxOnly _ (Dict.mem_of_get? _ hl))
  · intro r L hL
    rw [reread_coreAt h] at hL
    have hm := reread_mem hL
    rw [h.edgesX r hm, h.edgesY r hm, h.idx r hm, f1, f3, f5, depthKey_frame hs.2.2]
    exact hg.cells r L hL

end Tile

/-- extents and kind of every tile of a history -/
theorem history_frame {env : Env} {x y size : ℚ} {bs : Bool} {fl : Fields} {F : Family} {t : Tile} {A : Store} (hw : 0 < size)
    (h : TileHistory env x y size bs fl F t A) : Tile.sameFrame (Tile.new x y size bs) t ∧ t.Rep A fl ∧ t.GInv fl F := by
  induction h with
  | first F pts c hbox =>
    obtain ⟨u, hu, hr, hf, -⟩ := Tile.addPoints_spec (Tile.rep_new x y size bs fl) ⟨fl, pts⟩ rfl c
    have hg := Tile.ginv_first (x := x) (y := y) (bs := bs) (d := ⟨fl, pts⟩) (c := c) F hw hbox
    rw [hu] at hg ⊢
    exact ⟨hf, by simpa [Store.put, Store.remove] using hr, hg⟩
  | @add F t A _ pts c hbox ih =>
    obtain ⟨hf, hr, hg⟩ := ih
    obtain ⟨u, hu, hr', hf', -⟩ := Tile.addPoints_spec hr ⟨fl, pts⟩ rfl c
    have hg' := Tile.ginv_add (d := ⟨fl, pts⟩) (c := c) hg hr rfl (by rw [hf.1, hf.2.2.1, hf.2.2.2.2.1]; exact hbox)
    rw [hu] at hg' ⊢
    exact ⟨Tile.sameFrame_trans hf hf', hr', hg'⟩
  | @remove F t A _ c ih =>
    obtain ⟨hf, hr, hg⟩ := ih
    obtain ⟨u, hu, hr', hf', -⟩ := Tile.removePoints_spec hr c
    have hg' := Tile.ginv_remove hg hr c
    rw [hu] at hg' ⊢
    exact ⟨Tile.sameFrame_trans hf hf', hr', hg'⟩
  | @query F t A _ l r n z ih =>
    obtain ⟨hf, hr, hg⟩ := ih
    have hs := Tile.getLayer_same env t l r n z
    exact ⟨Tile.sameFrame_trans hf hs.1.2.2, Tile.rep_of_same hr hs.1 (Tile.idxLen_of_same hs.1 hs.2 hr.idx),
      Tile.ginv_getLayer env hg l r n z⟩
  | @reread F t u A _ hu ih =>
    obtain ⟨hf, hr, hg⟩ := ih
    exact ⟨Tile.sameFrame_trans hf (Tile.reread_same hu).2.2, Tile.reread_rep hu hr, Tile.reread_ginv hu hg⟩
  | @grid F t A _ alg ha res clear mode params border ih =>
    obtain ⟨hf, hr, hg⟩ := ih
    have hs := Tile.grid_same env t alg res clear mode params border hr.idx
    exact ⟨Tile.sameFrame_trans hf hs.1.2.2, Tile.rep_of_same hr hs.1 hs.2, Tile.ginv_grid env hg ha res clear mode params border⟩
  | @switch F F' t A _ alg ha res mode params border hok ih =>
    obtain ⟨hf, hr, hg⟩ := ih
    have hs := Tile.grid_same env t alg res true mode params border hr.idx
    exact ⟨Tile.sameFrame_trans hf hs.1.2.2, Tile.rep_of_same hr hs.1 hs.2, Tile.ginv_switch env hg ha res mode params border hok⟩
  | @clearGrid F t A _ F' ih =>
    obtain ⟨hf, hr, hg⟩ := ih
    have hs := Tile.clearGrid_same t
    exact ⟨Tile.sameFrame_trans hf hs.1.2.2, Tile.rep_of_same hr hs.1 (Tile.idxLen_of_same hs.1 hs.2 hr.idx), Tile.ginv_clearGrid hg⟩

theorem history_data {env : Env} {x y size : ℚ} {bs : Bool} {fl : Fields} {F : Family} {t : Tile} {A : Store} (hw : 0 < size)
    (h : TileHistory env x y size bs fl F t A) : t.data = some ⟨fl, A.allPts⟩ := by
  obtain ⟨hf, hr, hg⟩ := history_frame hw h
  obtain ⟨d, hd, hdf⟩ := hg.data
  have hp := hr.pts
  simp only [Tile.pts, hd] at hp
  rw [hd, ← hdf, ← hp]

/-- outcome of a gridding call on a reachable tile -/
theorem history_grid {env : Env} {x y size : ℚ} {bs : Bool} {fl : Fields} {F F' : Family} {t : Tile} {A : Store} (hw : 0 < size)
    (h : TileHistory env x y size bs fl F t A) {alg : Alg} {clear : Bool} (ha : alg.family = some F') (hF : F' = F ∨ clear = true)
    {res : ℚ} (hres : isPowerOfTwo res = true) (params : Option GridParams) (border : Option PtArr) :
    let out := t.gridAt env alg res clear params border
    match Tile.canonLayers env x y size (Tile.new x y size bs).depthKey ⟨fl, A.allPts⟩ F' alg res params border with
      | .error e => out.err = some e
      | .ok L' => out.err = none ∧ out.st.coreAt res = some L' ∧ out.st.pointCountChanged = false := by
  intro out
  obtain ⟨hf, hr, hg⟩ := history_frame hw h
  have hpre : Tile.GInv (if clear then t.clearGrid else t) fl F' := by
    rcases hF with rfl | rfl
    · exact Tile.ginv_pre hg clear
    · exact Tile.ginv_clearGrid hg
  have := (Tile.gridAt_canon env hpre hres (history_data hw h) ha params border).2.2.2.2
  rw [hf.1, hf.2.2.1, hf.2.2.2.2.1, Tile.depthKey_frame hf] at this
  exact this

end Bathy
