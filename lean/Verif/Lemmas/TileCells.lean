import Verif.Lemmas.LeftBehind
import Verif.Lemmas.TileHistory

/-!
# the first layer of each resolution is the main layer
-/

namespace Bathy

/-- the first key of the dict is `k` -/
def HeadKey {ν : Type} (k : Layer) (ls : Dict Layer ν) : Prop := ∃ a rest, ls = (k, a) :: rest

theorem headKey_set {ν : Type} {k : Layer} {ls : Dict Layer ν} (h : HeadKey k ls) (k' : Layer) (v : ν) : HeadKey k (ls.set k' v) := by
  obtain ⟨a, rest, rfl⟩ := h
  rw [Dict.set_cons]
  split
  · rename_i e; exact ⟨v, rest, by rw [← e]⟩
  · exact ⟨a, _, rfl⟩

theorem headKey_pop {ν : Type} {k : Layer} {ls : Dict Layer ν} (h : HeadKey k ls) {k' : Layer} (hne : k ≠ k') : HeadKey k (ls.pop k') := by
  obtain ⟨a, rest, rfl⟩ := h
  refine ⟨a, Dict.pop rest k', ?_⟩
  unfold Dict.pop
  rw [List.filter_cons_of_pos (by simpa using hne)]

/-- resolutions are distinct and the first layer of each is the main layer -/
def CInv (dk : Layer) (cells : Dict ℚ (Dict Layer LayerArr)) : Prop := (cells.map Prod.fst).Nodup ∧ ∀ p ∈ cells, HeadKey dk p.2

theorem cinv_nil (dk : Layer) : CInv dk [] := ⟨List.nodup_nil, fun p hp => by simp at hp⟩

theorem cinv_set {dk : Layer} {cells : Dict ℚ (Dict Layer LayerArr)} (h : CInv dk cells) {ls : Dict Layer LayerArr} (hl : HeadKey dk ls)
    (r : ℚ) : CInv dk (cells.set r ls) := by
  refine ⟨?_, ?_⟩
  · have := h.1
    clear h
    induction cells with
    | nil => simp [Dict.set]
    | cons p cells ih =>
      rw [Dict.set_cons]
      rw [List.map_cons, List.nodup_cons] at this
      split
      · rename_i e
        rw [List.map_cons, List.nodup_cons]
        exact ⟨by rw [← e]; exact this.1, this.2⟩
      · rename_i e
        rw [List.map_cons, List.nodup_cons]
        refine ⟨?_, ih this.2⟩
        intro hm
        obtain ⟨q, hq, hq'⟩ := List.mem_map.1 hm
        rcases Dict.mem_set hq with rfl | hq
        · exact e hq'.symm
        · exact this.1 (List.mem_map.2 ⟨q, hq, hq'⟩)
  · intro p hp
    rcases Dict.mem_set hp with rfl | hp
    · exact hl
    · exact h.2 p hp

theorem cinv_get {dk : Layer} {cells : Dict ℚ (Dict Layer LayerArr)} (h : CInv dk cells) {r : ℚ} {ls : Dict Layer LayerArr}
    (hg : cells.get? r = some ls) : HeadKey dk ls := h.2 _ (Dict.mem_of_get? _ hg)

namespace Tile

theorem depthKey_ne_xSlope (t : Tile) : t.depthKey ≠ .xSlope := by unfold depthKey; split <;> simp
theorem depthKey_ne_ySlope (t : Tile) : t.depthKey ≠ .ySlope := by unfold depthKey; split <;> simp

theorem cinv_clearTemp {t : Tile} (h : CInv t.depthKey t.cells) (r : ℚ) : CInv t.depthKey (t.clearTemp r).cells := by
  unfold clearTemp
  split
  · rename_i ls hls
    exact cinv_set h (headKey_pop (headKey_pop (cinv_get h hls) t.depthKey_ne_xSlope) t.depthKey_ne_ySlope) r
  · exact h

theorem clearTemp_depthKey (t : Tile) (r : ℚ) : (t.clearTemp r).depthKey = t.depthKey := by
  unfold clearTemp; split <;> rfl

theorem cinv_foldl_clearTemp (rs : List ℚ) {t : Tile} (h : CInv t.depthKey t.cells) :
    CInv t.depthKey (rs.foldl clearTemp t).cells := by
  induction rs generalizing t with
  | nil => exact h
  | cons r rs ih =>
    rw [List.foldl_cons]
    have := cinv_clearTemp h r
    rw [← clearTemp_depthKey t r] at this ⊢
    exact ih this

theorem cinv_remove {t : Tile} (h : CInv t.depthKey t.cells) (c : String) : CInv t.depthKey (t.removePoints c).st.cells := by
  unfold removePoints
  split
  · exact h
  · split
    · exact h
    · simp only
      split
      · rename_i d _ _
        exact cinv_foldl_clearTemp _ (t := { t with container := _, cellIdx := _ }) h
      · exact h

theorem addPoints_cells_aux {t : Tile} (h : CInv t.depthKey t.cells) (d : PtArr) (c : String) :
    CInv t.depthKey (t.addPoints d c).st.cells := by
  unfold addPoints
  split
  · exact h
  · have h1 : ∀ r : Res Tile, r = (if t.container.has c then removePoints t c else .ok t) → CInv t.depthKey r.st.cells ∧ r.st.depthKey = t.depthKey := by
      intro r hr
      subst hr
      split
      · refine ⟨cinv_remove h c, ?_⟩
        unfold removePoints
        split
        · rfl
        · split
          · rfl
          · simp only
            split
            · have : ∀ (rs : List ℚ) (u : Tile), (rs.foldl clearTemp u).depthKey = u.depthKey := by
                intro rs
                induction rs with
                | nil => intro u; rfl
                | cons r rs ih => intro u; rw [List.foldl_cons, ih, clearTemp_depthKey]
              exact this _ _
            · rfl
      · exact ⟨h, rfl⟩
    generalize hr : (if t.container.has c then removePoints t c else Res.ok t) = r
    obtain ⟨h2, h3⟩ := h1 r hr.symm
    obtain ⟨u, e⟩ := r
    cases e with
    | some e => exact h2
    | none =>
      simp only [Res.andThen]
      simp only at h2 h3
      rw [← h3] at h2 ⊢
      split
      · exact h2
      · split
        · exact cinv_foldl_clearTemp _ (t := { u with container := _, data := _, cellIdx := _ }) h2
        · exact h2

theorem headKey_foldl_set (dk : Layer) (f : Layer → LayerArr → LayerArr) (ks : List Layer) {ls : Dict Layer LayerArr} (h : HeadKey dk ls) :
    HeadKey dk (ks.foldl (fun ls l => match ls.get? l with | some a => ls.set l (f l a) | none => ls) ls) := by
  induction ks generalizing ls with
  | nil => exact h
  | cons k ks ih =>
    rw [List.foldl_cons]
    apply ih
    split
    · exact headKey_set h _ _
    · exact h

theorem headKey_reset {dk : Layer} {ls ls' : Dict Layer LayerArr} (h : HeadKey dk ls) (he : resetLayers dk ls = .ok ls') : HeadKey dk ls' := by
  unfold resetLayers at he
  split at he
  · cases he
    exact headKey_foldl_set dk (fun l a => Arr2.fill a.rows a.cols (if l = .hypCount then some 0 else none)) _
      (headKey_set (headKey_set h _ _) _ _)
  · cases he

theorem headKey_opt {dk : Layer} {ls : Dict Layer LayerArr} (h : HeadKey dk ls) (o : Option LayerArr) (l : Layer) (f : LayerArr → LayerArr) :
    HeadKey dk (match o with | some a => ls.set l (f a) | none => ls) := by
  cases o with
  | none => exact h
  | some a => exact headKey_set h _ _

theorem headKey_plain {f : List ℚ → List Int → GridArrays → List ℚ → List ℚ → Except Err GridArrays} {dk : Layer} {d : PtArr}
    {cidx : List Int} {ls ls' : Dict Layer LayerArr} (h : HeadKey dk ls) (he : plainLayers f dk d cidx ls = .ok ls') : HeadKey dk ls' := by
  unfold plainLayers at he
  simp only at he
  generalize (if d.fields.hasTvu = true then Dict.get? ls Layer.vertical else none) = vg at he
  generalize (if d.fields.hasThu = true then Dict.get? ls Layer.horizontal else none) = hg at he
  generalize (if d.fields.hasTvu = true then d.pts.map Pt.tvu else []) = vert at he
  generalize (if d.fields.hasThu = true then d.pts.map Pt.thu else []) = horiz at he
  split at he
  · cases he
  · split at he
    · split at he
      · cases he
      · rename_i out _
        cases he
        have h1 := headKey_opt (headKey_set (headKey_set h dk (roundLayer out.depth)) .density out.density) out.tvu .vertical
          (fun a => if vert.length > 0 then roundLayer a else a)
        exact headKey_opt h1 out.thu .horizontal (fun a => if horiz.length > 0 then roundLayer a else a)
    · cases he

theorem headKey_cube {env : Env} {dk : Layer} {minX maxY : ℚ} {d : PtArr} {cidx : List Int} {ls ls' : Dict Layer LayerArr} {res : ℚ}
    {params : Option GridParams} (h : HeadKey dk ls) (he : cubeLayers env dk minX maxY d cidx ls res params = .ok ls') : HeadKey dk ls' := by
  unfold cubeLayers at he
  split at he
  · simp only at he
    split at he
    · cases he
    · cases he
      exact headKey_set (headKey_set (headKey_set (headKey_set (headKey_set h _ _) _ _) _ _) _ _) _ _
  · cases he

theorem cinv_runPlain {f : List ℚ → List Int → GridArrays → List ℚ → List ℚ → Except Err GridArrays} {t u : Tile} {r : ℚ}
    (h : CInv t.depthKey t.cells) (he : runPlain f t r = .ok u) : CInv t.depthKey u.cells := by
  unfold runPlain at he
  split at he
  · rename_i ls _ _ hls _
    split at he
    · cases he
    · rename_i ls' hp
      cases he
      exact cinv_set h (headKey_plain (cinv_get h hls) hp) r
  · cases he
  · cases he

theorem cinv_runAlg {env : Env} {t u : Tile} {alg : Alg} {r : ℚ} {params : Option GridParams} {border : Option PtArr}
    (h : CInv t.depthKey t.cells) (he : runAlg env t alg r params border = .ok u) : CInv t.depthKey u.cells := by
  unfold runAlg at he
  cases alg with
  | mean => exact cinv_runPlain h he
  | shoalest => exact cinv_runPlain h he
  | other => cases he; exact h
  | cube =>
    simp only at he
    unfold runCube at he
    split at he
    · cases he
    · split at he
      · cases he
      · split at he
        · split at he
          · rename_i ls _ hls _
            split at he
            · cases he
            · rename_i ls' hp
              cases he
              exact cinv_set h (headKey_cube (cinv_get h hls) hp) r
          · cases he
        · cases he

theorem cinv_newGrid {t : Tile} (h : CInv t.depthKey t.cells) {r : ℚ} {alg : Alg} {F : Family} (ha : alg.family = some F) :
    CInv t.depthKey (newGrid t r alg).st.cells ∧ (newGrid t r alg).st.depthKey = t.depthKey := by
  unfold newGrid
  split
  · simp only
    split
    · refine ⟨cinv_set h ?_ r, rfl⟩
      cases alg with
      | mean => exact ⟨_, _, rfl⟩
      | shoalest => exact ⟨_, _, rfl⟩
      | cube => exact ⟨_, _, rfl⟩
      | other => cases ha
    · exact ⟨h, rfl⟩
  · exact ⟨h, rfl⟩

theorem cinv_prepare {t u : Tile} (h : CInv t.depthKey t.cells) {r : ℚ} (he : prepare t r = .ok u) :
    CInv t.depthKey u.cells ∧ u.depthKey = t.depthKey := by
  unfold prepare at he
  split at he
  · split at he
    · split at he
      · cases he
      · split at he
        · cases he
        · cases he; exact ⟨h, rfl⟩
    · split at he
      · cases he
      · cases he
      · rename_i ls _ hls
        split at he
        · cases he
        · rename_i ls' hr
          cases he
          exact ⟨cinv_set h (headKey_reset (cinv_get h hls) hr) r, rfl⟩
  · cases he

theorem cinv_gridAt {env : Env} {t : Tile} {alg : Alg} {F : Family} {r : ℚ} {clear : Bool} {params : Option GridParams} {border : Option PtArr}
    (h : CInv t.depthKey t.cells) (ha : alg.family = some F) : CInv t.depthKey (gridAt env t alg r clear params border).st.cells := by
  unfold gridAt
  split
  · simp only
    have h1 : CInv t.depthKey (if clear then t.clearGrid else t).cells ∧ (if clear then t.clearGrid else t).depthKey = t.depthKey := by
      cases clear
      · exact ⟨h, rfl⟩
      · exact ⟨cinv_nil _, rfl⟩
    generalize hu : (if clear then t.clearGrid else t) = u at h1 ⊢
    obtain ⟨h1, e1⟩ := h1
    rw [← e1] at h1 ⊢
    have h2 := cinv_clearTemp h1 r
    rw [← clearTemp_depthKey u r] at h2 ⊢
    generalize u.clearTemp r = v at h2 ⊢
    have h3 : ∀ w : Res Tile, w = (if (!v.cells.has r || decide (v.algorithm ≠ some alg)) = true then
        newGrid { v with algorithm := some alg, gridParams := params } r alg else .ok v) → CInv v.depthKey w.st.cells ∧ w.st.depthKey = v.depthKey := by
      intro w hw
      subst hw
      split
      · exact cinv_newGrid (t := { v with algorithm := some alg, gridParams := params }) h2 ha
      · exact ⟨h2, rfl⟩
    generalize hw : (if (!v.cells.has r || decide (v.algorithm ≠ some alg)) = true then
        newGrid { v with algorithm := some alg, gridParams := params } r alg else Res.ok v) = w
    obtain ⟨h4, e4⟩ := h3 w hw.symm
    obtain ⟨w, e⟩ := w
    cases e with
    | some e => exact h4
    | none =>
      simp only [Res.andThen]
      simp only at h4 e4
      rw [← e4] at h4 ⊢
      split
      · exact h4
      · rename_i z hz
        obtain ⟨h5, e5⟩ := cinv_prepare h4 hz
        rw [← e5] at h5 ⊢
        split
        · exact h5
        · rename_i z' hz'
          exact (cinv_runAlg h5 hz' : CInv z.depthKey z'.cells)
  · exact h

theorem cinv_grid {env : Env} {t : Tile} {alg : Alg} {F : Family} {res : Option ℚ} {clear : Bool} {mode : AutoMode} {params : Option GridParams}
    {border : Option PtArr} (h : CInv t.depthKey t.cells) (ha : alg.family = some F) :
    CInv t.depthKey (grid env t alg res clear mode params border).1.st.cells := by
  rw [grid_eq]
  split
  · exact h
  · exact cinv_gridAt h ha

theorem cinv_ensure {env : Env} {t u : Tile} {l : Layer} {r : ℚ} {nd : Option ℚ} (h : CInv t.depthKey t.cells)
    (he : ensureLayer env t l r nd = .ok u) : CInv t.depthKey u.cells := by
  have slopes : ∀ u, runSlopes env t r = .ok u → CInv t.depthKey u.cells := by
    intro u he
    unfold runSlopes at he
    split at he
    · cases he
    · rename_i ls hls
      split at he
      · cases he; exact h
      · split at he
        · split at he
          · cases he
          · cases he
            exact cinv_set h (headKey_set (headKey_set (cinv_get h hls) _ _) _ _) r
        · cases he
        · cases he
  have only : ∀ f c u, runPlainOnly f t r c = .ok u → CInv t.depthKey u.cells := by
    intro f c u he
    unfold runPlainOnly at he
    split at he
    · rename_i ls _ _ _ _ hls _ _
      split at he
      · simp only at he
        split at he
        · cases he
        · cases he
          exact cinv_set h (headKey_set (headKey_set (cinv_get h hls) _ _) _ _) r
      · cases he
    · cases he
    · cases he
  unfold ensureLayer fillLayer at he
  split at he
  · exact slopes u he
  · exact slopes u he
  · split at he
    · split at he
      · exact only _ _ u he
      · exact only _ _ u he
      · cases he
      · cases he; exact h
    · split at he
      · cases he
      · rename_i ls hls
        split at he
        · cases he
          exact cinv_set h (headKey_set (cinv_get h hls) _ _) r
        · cases he
  · split at he
    · cases he; exact h
    · split at he
      · cases he
      · rename_i ls hls
        split at he
        · cases he
          exact cinv_set h (headKey_set (cinv_get h hls) _ _) r
        · cases he
  · cases he; exact h

theorem cinv_getLayer {env : Env} {t : Tile} (h : CInv t.depthKey t.cells) (l : Layer) (res nd : Option ℚ) (zUp : Bool) :
    CInv t.depthKey (getLayer env t l res nd zUp).1.cells := by
  unfold getLayer
  simp only
  split
  · exact h
  · split
    · exact h
    · exact h
    · split
      · rcases leftBehind_cases t l _ with e | ⟨c, ls, a, b, hls, e⟩
        · rw [e]; exact h
        · rw [e]; exact cinv_set h (headKey_set (headKey_set (cinv_get h hls) _ _) _ _) _
      · rename_i t' he
        have := cinv_ensure h he
        split
        · exact this
        · exact this

theorem cinv_reread {t u : Tile} (h : t.Reread u) (hc : CInv t.depthKey t.cells) : CInv t.depthKey u.cells := by
  refine ⟨h.keys, fun p hp => ?_⟩
  have := Dict.get?_of_mem _ h.keys hp
  rw [reread_layers h] at this
  obtain ⟨ls, hls, he⟩ := Option.map_eq_some_iff.1 this
  obtain ⟨a, rest, rfl⟩ := cinv_get hc hls
  rw [← he]
  refine ⟨a, core rest, ?_⟩
  unfold core
  rw [List.filter_cons_of_pos (by exact depthKey_core t)]

end Tile

theorem history_cells {env : Env} {x y size : ℚ} {bs : Bool} {fl : Fields} {F : Family} {t : Tile} {A : Store} (hw : 0 < size)
    (h : TileHistory env x y size bs fl F t A) : CInv t.depthKey t.cells := by
  have hdk : ∀ {F t A}, TileHistory env x y size bs fl F t A → t.depthKey = (Tile.new x y size bs).depthKey :=
    fun h => Tile.depthKey_frame (history_frame hw h).1
  induction h with
  | first F pts c hbox => exact cinv_nil _
  | @add F t A h pts c hbox ih =>
    rw [hdk (TileHistory.add h pts c hbox), ← hdk h]
    exact Tile.addPoints_cells_aux ih _ _
  | @remove F t A h c ih =>
    rw [hdk (TileHistory.remove h c), ← hdk h]
    exact Tile.cinv_remove ih c
  | @query F t A h l r n z ih =>
    rw [hdk (TileHistory.query h l r n z), ← hdk h]
    exact Tile.cinv_getLayer ih l r n z
  | @reread F t u A h hu ih =>
    rw [hdk (TileHistory.reread h hu), ← hdk h]
    exact Tile.cinv_reread hu ih
  | @grid F t A h alg ha res clear mode params border ih =>
    rw [hdk (TileHistory.grid h alg ha res clear mode params border), ← hdk h]
    exact Tile.cinv_grid ih ha
  | @switch F F' t A h alg ha res mode params border hok ih =>
    rw [hdk (TileHistory.switch h alg ha res mode params border hok), ← hdk h]
    exact Tile.cinv_grid ih ha
  | @clearGrid F t A h F' ih => exact cinv_nil _

end Bathy
