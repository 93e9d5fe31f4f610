import Verif.Lemmas.Mosaic
import Verif.Lemmas.StoreReach

/-!
# Layers of a grid that has empty subgrids and old numbers
-/

namespace Bathy.Grid

variable {τ : Type}

/-- other values of `number_of_tiles` and `mean_depth` -/
def renumber (g x : Grid τ) : Grid τ := { g with numberOfTiles := x.numberOfTiles, meanDepth := x.meanDepth }

theorem renumber_tiles (x g : Grid τ) : (g.renumber x).tiles = g.tiles := rfl
theorem renumber_tileSize (x g : Grid τ) : (g.renumber x).tileSize = g.tileSize := rfl
theorem renumber_txs (x g : Grid τ) : (g.renumber x).txs = g.txs := rfl
theorem renumber_positiveUp (x g : Grid τ) : (g.renumber x).positiveUp = g.positiveUp := rfl
theorem renumber_tile (x g : Grid τ) (k : Nat) : (g.renumber x).tile? k = g.tile? k := rfl
theorem renumber_slots (x g : Grid τ) : (g.renumber x).slots = g.slots := rfl
theorem renumber_query (x g : Grid τ) : (g.renumber x).queryRes = g.queryRes := rfl
theorem renumber_build (x g : Grid τ) : (g.renumber x).buildLayerGrid = g.buildLayerGrid := rfl

theorem renumber_setTile (x g : Grid τ) (k : Nat) (o : Option τ) : (g.renumber x).setTile k o = (g.setTile k o).renumber x := by
  unfold setTile
  rw [renumber_tiles]
  cases g.tiles <;> rfl

variable [LayerLike τ]

theorem renumber_noGrid (x g : Grid τ) : (g.renumber x).noGrid = g.noGrid := rfl

theorem getTileData_renumber (env : Env) (x g : Grid τ) (row col : Nat) (res : ℚ) (layers : List Layer) (nodata : Option ℚ) (zUp : Bool) :
    getTileData env (g.renumber x) row col res layers nodata zUp =
      ((getTileData env g row col res layers nodata zUp).1.renumber x, (getTileData env g row col res layers nodata zUp).2) := by
  unfold getTileData
  simp only [renumber_tiles, renumber_tileSize, renumber_positiveUp, renumber_setTile]
  cases g.tiles with
  | none => rfl
  | some T =>
    simp only
    cases T.get? row col with
    | none => rfl
    | some o =>
      simp only
      cases cellsAlong g.tileSize res with
      | error e => rfl
      | ok n =>
        cases o with
        | none => rfl
        | some t =>
          rcases Bool.eq_false_or_eq_true g.positiveUp with hz | hz
          · simp only [hz, if_true]
            obtain ⟨t', _ | d⟩ := tileLayersFrom env res nodata (!zUp) t [] layers <;> rfl
          · simp only [hz, Bool.false_eq_true, if_false]
            obtain ⟨t', _ | d⟩ := tileLayersFrom env res nodata zUp t [] layers <;> rfl

theorem mosaicStep_renumber (env : Env) (x : Grid τ) (res : ℚ) (layers : List Layer) (nodata : Option ℚ) (zUp : Bool) (s : MosaicState τ) (k : Nat) :
    mosaicStep env res layers nodata zUp { s with grid := s.grid.renumber x } k =
      ⟨{ (mosaicStep env res layers nodata zUp s k).st with grid := (mosaicStep env res layers nodata zUp s k).st.grid.renumber x }, (mosaicStep env res layers nodata zUp s k).err⟩ := by
  obtain ⟨g, D, e⟩ := s
  unfold mosaicStep
  simp only [getTileData_renumber, renumber_tile, renumber_txs]
  rcases g.tile? k with _ | _ | t
  · rfl
  · rfl
  · simp only
    obtain ⟨g', _ | d⟩ := getTileData env g (k / g.txs.length) (k % g.txs.length) res layers nodata zUp
    · rfl
    · simp only
      cases pasteAll d.row0 d.col0 d.cells D d.data <;> rfl

/-- `get_layers_by_name` does not look at the numbers -/
theorem getLayers_renumber (env : Env) (x g : Grid τ) (layers : List Layer) (res nodata : Option ℚ) (zUp : Bool) :
    getLayersByName env (g.renumber x) layers res nodata zUp =
      ((getLayersByName env g layers res nodata zUp).1.renumber x, (getLayersByName env g layers res nodata zUp).2) := by
  have loop : ∀ (r : ℚ) (ks : List Nat) (s : MosaicState τ), Res.forEach ks { s with grid := s.grid.renumber x } (mosaicStep env r layers nodata zUp) =
      ⟨{ (Res.forEach ks s (mosaicStep env r layers nodata zUp)).st with grid := (Res.forEach ks s (mosaicStep env r layers nodata zUp)).st.grid.renumber x },
        (Res.forEach ks s (mosaicStep env r layers nodata zUp)).err⟩ := by
    intro r ks
    induction ks with
    | nil => intro s; rfl
    | cons k ks ih =>
      intro s
      simp only [Res.forEach, mosaicStep_renumber]
      obtain ⟨s', e⟩ := mosaicStep env r layers nodata zUp s k
      cases e with
      | none => exact ih s'
      | some e => rfl
  unfold getLayersByName
  simp only [renumber_noGrid, renumber_query, renumber_build, renumber_slots]
  rcases g.noGrid with e | _ | _
  · rfl
  · simp only
    cases g.queryRes res with
    | error e => rfl
    | ok r =>
      simp only
      cases layers.mapM (g.buildLayerGrid r nodata) with
      | error e => rfl
      | ok data =>
        have := loop r (List.range g.slots) ⟨g, data, true⟩
        simp only at this
        simp only [this]
        cases (Res.forEach (List.range g.slots) (⟨g, data, true⟩ : MosaicState τ) (mosaicStep env r layers nodata zUp)).err <;> rfl
  · rfl

/-- an empty subgrid has no layer -/
theorem getLayer_emptied (env : Env) {w : ℚ} {g : Grid τ} (h : g.Emptied w) {res : ℚ} (hres : 0 < res) {n : Nat} (hn : cellsAlong w res = .ok n) (l : Layer) (nodata : Option ℚ) (zUp : Bool) :
    getLayer env g l res nodata zUp = (g, .ok none) := by
  obtain ⟨T, hT⟩ := h.tiles
  have hall : ∀ k, g.tile? k = none ∨ g.tile? k = some none := by
    intro k
    unfold tile?
    rw [hT, Option.bind_some]
    rcases ho : T.flat[k]? with _ | _ | t
    · exact .inl rfl
    · exact .inr rfl
    · have := h.empty
      unfold isEmpty at this
      rw [hT] at this
      simp only [Bool.not_eq_true', List.any_eq_false] at this
      exact absurd rfl (this _ (List.mem_of_getElem? ho))
  have hpres : g.present = [] := by
    unfold present
    rw [hT]
    simp only [List.filterMap_eq_nil_iff, id_eq]
    intro o ho
    obtain ⟨k, hk⟩ := List.mem_iff_getElem?.1 ho
    have := hall k
    unfold tile? at this
    rw [hT, Option.bind_some, hk] at this
    rcases this with e | e <;> cases e
    rfl
  have hno : g.noGrid = .ok false := by
    unfold noGrid
    rw [hT, hpres]
    rfl
  have hq : g.queryRes (some res) = .ok res := by unfold queryRes; simp only [if_neg (ne_of_gt hres)]
  have hstep : ∀ (ks : List Nat) (D : List LayerArr), Res.forEach ks (⟨g, D, true⟩ : MosaicState τ) (mosaicStep env res [l] nodata zUp) = .ok ⟨g, D, true⟩ := by
    intro ks D
    induction ks with
    | nil => rfl
    | cons k ks ih =>
      have : mosaicStep env res [l] nodata zUp (⟨g, D, true⟩ : MosaicState τ) k = .ok ⟨g, D, true⟩ := by
        unfold mosaicStep
        rcases hall k with e | e <;> simp only [e]
      simp only [Res.forEach, this]
      exact ih
  have hb : [l].mapM (g.buildLayerGrid res nodata) = .ok [Arr2.fill n n (Tile.nodataFor l nodata)] := by
    have : g.buildLayerGrid res nodata l = .ok (Arr2.fill n n (Tile.nodataFor l nodata)) := by
      unfold buildLayerGrid
      rw [h.height, h.width]
      simp only [hn]
    simp only [List.mapM_cons, List.mapM_nil, this]
    rfl
  unfold getLayer getLayersByName
  rw [hno, hq]
  simp only [hb, hstep]
  rfl

/-- what is found of a single layer -/
def foundOne (l : Layer) : Option LayerArr → Dict Layer LayerArr
  | none => []
  | some a => [(l, a)]

/-- The same layers: `u` has the tiles of `w`, which answer alike, and where `w` has no tile `u` may have one without the layer. -/
theorem getLayers_alike {env : Env} {u w : Grid τ} {T U : Arr2 (Option τ)} {l : Layer} {res : ℚ} {nodata : Option ℚ} {zUp : Bool}
    (hu : u = { w with tiles := u.tiles, mask := u.mask, numberOfTiles := u.numberOfTiles, meanDepth := u.meanDepth })
    (hT : w.tiles = some T) (hU : u.tiles = some U) (hd : U.dims = T.dims) (hwf : T.WF) (htx : w.txs.length = T.cols)
    (hsome : ∀ k t, w.tile? k = some (some t) → ∃ v o, u.tile? k = some (some v) ∧ LayerLike.getLayer env t l res nodata (w.flips zUp) = (t, .ok o) ∧
      LayerLike.getLayer env v l res nodata (w.flips zUp) = (v, .ok o))
    (hnone : ∀ k, w.tile? k = some none → u.tile? k = some none ∨ ∃ v, u.tile? k = some (some v) ∧ LayerLike.getLayer env v l res nodata (w.flips zUp) = (v, .ok none))
    {n : Nat} (hn : cellsAlong w.tileSize res = .ok n) (hres : 0 < res) (hnu : u.noGrid = .ok false) (hnw : w.noGrid = .ok false) :
    getLayersByName env u [l] (some res) nodata zUp = (u, (getLayersByName env w [l] (some res) nodata zUp).2) := by
  have hf1 : u.flips zUp = w.flips zUp := by rw [hu]; rfl
  have hf2 : u.tileSize = w.tileSize := by rw [hu]
  have hf3 : u.txs = w.txs := by rw [hu]
  have hf4 : u.height = w.height := by rw [hu]
  have hf5 : u.width = w.width := by rw [hu]
  simp only [Arr2.dims, Prod.mk.injEq] at hd
  obtain ⟨hd1, hd2, hd3⟩ := hd
  have hwfU : U.WF := by unfold Arr2.WF at hwf ⊢; rw [hd1, hd2, hd3]; exact hwf
  have gtd : ∀ (g : Grid τ) (V : Arr2 (Option τ)), g.tiles = some V → V.WF → g.txs.length = V.cols → g.flips zUp = w.flips zUp → g.tileSize = w.tileSize →
      ∀ k t o, g.tile? k = some (some t) → LayerLike.getLayer env t l res nodata (w.flips zUp) = (t, .ok o) →
      ∃ ge, getTileData env g (k / g.txs.length) (k % g.txs.length) res [l] nodata zUp =
        (g, .ok ⟨(foundOne l o), ge, (k / g.txs.length) * n, (k % g.txs.length) * n, n⟩) := by
    intro g V hV hVw htx hfl hts k t o hk ho
    have hk' : V.flat[k]? = some (some t) := by unfold tile? at hk; rw [hV] at hk; exact hk
    have hlt := (List.getElem?_eq_some_iff.1 hk').1
    have hget : V.get? (k / V.cols) (k % V.cols) = some (some t) := by rw [← Arr2.flat_getElem?_eq V hVw hlt]; exact hk'
    refine ⟨LayerLike.geo t res, ?_⟩
    unfold getTileData
    unfold flips at hfl
    simp only [hfl, hV, htx, hget, hts, hn]
    have hself : g.setTile (k / V.cols * V.cols + k % V.cols) (some t) = g := by
      have : k / V.cols * V.cols + k % V.cols = k := by rw [Nat.mul_comm]; exact Nat.div_add_mod k V.cols
      rw [this]
      exact setTile_self hk
    unfold flips at ho
    cases o with
    | none => simp only [tileLayersFrom, ho, hself]; rfl
    | some a => simp only [tileLayersFrom, ho, hself]; rfl
  have step : ∀ k, k < T.flat.length → ∀ (D : List LayerArr) (e : Bool), ∃ D' e' er,
      mosaicStep env res [l] nodata zUp (⟨w, D, e⟩ : MosaicState τ) k = ⟨⟨w, D', e'⟩, er⟩ ∧ mosaicStep env res [l] nodata zUp (⟨u, D, e⟩ : MosaicState τ) k = ⟨⟨u, D', e'⟩, er⟩ := by
    intro k hk D e
    obtain ⟨o, ho⟩ : ∃ o, T.flat[k]? = some o := ⟨_, List.getElem?_eq_getElem hk⟩
    have hwt : w.tile? k = some o := by unfold tile?; rw [hT]; exact ho
    cases o with
    | some t =>
      obtain ⟨v, o, h1, h2, h3⟩ := hsome k t hwt
      obtain ⟨ge, g1⟩ := gtd w T hT hwf htx rfl rfl k t o hwt h2
      obtain ⟨ge', g2⟩ := gtd u U hU hwfU (by rw [hf3, htx, hd2]) hf1 hf2 k v o h1 h3
      unfold mosaicStep
      simp only [hwt, h1, g1, g2]
      rw [hf3]
      cases pasteAll (k / w.txs.length * n) (k % w.txs.length * n) n D (foundOne l o) with
      | error er => exact ⟨D, e, some er, rfl, rfl⟩
      | ok D' => exact ⟨D', _, none, rfl, rfl⟩
    | none =>
      have hwstep : mosaicStep env res [l] nodata zUp (⟨w, D, e⟩ : MosaicState τ) k = .ok ⟨w, D, e⟩ := by unfold mosaicStep; simp only [hwt]
      rcases hnone k hwt with h1 | ⟨v, h1, h3⟩
      · exact ⟨D, e, none, hwstep, by unfold mosaicStep; simp only [h1]; rfl⟩
      · obtain ⟨ge', g2⟩ := gtd u U hU hwfU (by rw [hf3, htx, hd2]) hf1 hf2 k v none h1 h3
        refine ⟨D, e, none, hwstep, ?_⟩
        unfold mosaicStep
        simp only [h1, g2]
        have hp : ∀ (r0 c0 : Nat), pasteAll r0 c0 n D (foundOne l none) = .ok D := by
          intro r0 c0
          cases D <;> rfl
        simp only [hp]
        simp [Res.ok, foundOne]
  have loop : ∀ (ks : List Nat), (∀ k ∈ ks, k < T.flat.length) → ∀ (D : List LayerArr) (e : Bool), ∃ D' e' er,
      Res.forEach ks (⟨w, D, e⟩ : MosaicState τ) (mosaicStep env res [l] nodata zUp) = ⟨⟨w, D', e'⟩, er⟩ ∧
      Res.forEach ks (⟨u, D, e⟩ : MosaicState τ) (mosaicStep env res [l] nodata zUp) = ⟨⟨u, D', e'⟩, er⟩ := by
    intro ks
    induction ks with
    | nil => intro _ D e; exact ⟨D, e, none, rfl, rfl⟩
    | cons k ks ih =>
      intro hks D e
      obtain ⟨D', e', er, h1, h2⟩ := step k (hks k List.mem_cons_self) D e
      simp only [Res.forEach, h1, h2]
      cases er with
      | some er => exact ⟨_, _, _, rfl, rfl⟩
      | none => exact ih (fun j hj => hks j (List.mem_cons_of_mem _ hj)) D' e'
  have hq : ∀ g : Grid τ, g.queryRes (some res) = .ok res := by intro g; unfold queryRes; simp only [if_neg (ne_of_gt hres)]
  have hb : u.buildLayerGrid res nodata = w.buildLayerGrid res nodata := by
    funext l
    unfold buildLayerGrid
    rw [hf4, hf5]
  have hs1 : w.slots = T.flat.length := by unfold slots; rw [hT]
  have hs2 : u.slots = T.flat.length := by unfold slots; rw [hU, ← hd3]
  unfold getLayersByName
  rw [hnu, hnw, hq, hq]
  simp only [hb, hs1, hs2]
  cases [l].mapM (w.buildLayerGrid res nodata) with
  | error e => rfl
  | ok D =>
    obtain ⟨D', e', er, h1, h2⟩ := loop (List.range T.flat.length) (by simp) D true
    simp only [h1, h2]
    cases er <;> rfl

end Bathy.Grid
