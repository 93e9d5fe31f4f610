import Verif.Props.Surface
import Verif.Props.Save
import Verif.Props.Disk

/-!
# C102: the surface after queries, saving and loading
-/

namespace Bathy

variable {env : Env} {size sub : ℚ} {bs : Bool} {fl : Fields} {F : Family} {s : Bool} {A : Store} {a : GridCall} {dask : Option Nat}

/-! ## leaves that were queried, written or read -/

theorem get?_filter_saved {ls : Dict Layer LayerArr} {l : Layer} {S : List Layer} (hl : l ∈ S) : Dict.get? (ls.filter (fun p => decide (p.1 ∈ S))) l = ls.get? l := by
  induction ls with
  | nil => rfl
  | cons p ps ih =>
    rw [List.filter_cons]
    split
    · simp only [Dict.get?]
      rw [ih]
    · rename_i hp
      rw [ih]
      simp only [Dict.get?]
      rw [if_neg]
      intro e
      simp only [decide_eq_true_eq] at hp
      exact hp (e ▸ hl)

theorem layerAt_reread {t u : Tile} (h : t.Reread u) (r : ℚ) {l : Layer} (hl : l ∈ Tile.savedLayers) : u.layerAt r l = t.layerAt r l := by
  unfold Tile.layerAt
  rw [h.layers r]
  cases t.cells.get? r with
  | none => rfl
  | some ls => exact get?_filter_saved hl

theorem layerAt_core {t u : Tile} {r : ℚ} (h : u.coreAt r = t.coreAt r) {l : Layer} (hc : l.isCore = true) : u.layerAt r l = t.layerAt r l := by
  cases e : t.coreAt r with
  | none => rw [layerAt_of_none e, layerAt_of_none (h.trans e)]
  | some L => rw [layerAt_of_core e hc, layerAt_of_core (h.trans e) hc]

theorem leaf_queried {t u : Tile} (h : Queried.queried env t u) {l : Layer} (hl : l ∈ Tile.savedLayers) (hc : l.isCore = true) (r : ℚ) :
    u.layerAt r l = t.layerAt r l ∧ u.pts = t.pts ∧ u.minX = t.minX ∧ u.minY = t.minY := by
  rcases h with ⟨l', r', nd, z, rfl⟩ | h
  · have h1 := (Tile.getLayer_same env t l' r' nd z).1
    refine ⟨layerAt_core ((Tile.getLayer_core env t l' r' nd z).2.2 r) hc, ?_, h1.2.2.1, h1.2.2.2.2.1⟩
    unfold Tile.pts; rw [h1.1]
  · refine ⟨layerAt_reread h r hl, ?_, congrArg TileMeta.minX h.info, congrArg TileMeta.minY h.info⟩
    unfold Tile.pts; rw [h.data]

/-- what holds for all leaves and is kept by queries of tiles is kept by queries of grids -/
theorem leaves_queried {τ : Type} [HasLeaves τ] [Queried τ] {Q : Tile → Prop} (hQ : ∀ t u : τ, Queried.queried env t u → (∀ x, HasLeaves.leaf t x → Q x) → ∀ x, HasLeaves.leaf u x → Q x)
    {g u : Grid τ} (h : Queried.queried env g u) (hg : ∀ x, g.Leaf x → Q x) : ∀ x, u.Leaf x → Q x := by
  rcases h with ⟨k, t, v, hk, hv, rfl⟩ | ⟨-, -, rfl⟩
  · rintro x ⟨i, j, w, ⟨T', hT', hw⟩, hx⟩
    unfold Grid.tile? at hk
    rw [Option.bind_eq_some_iff] at hk
    obtain ⟨T, hT, hk⟩ := hk
    unfold Grid.setTile at hT'
    rw [hT] at hT'
    cases hT'
    have hex : T.get? i j = some (some w) ∨ (w = v ∧ T.get? i j = some (some t)) := by
      unfold Arr2.get? Arr2.setFlat at hw
      unfold Arr2.get?
      split at hw
      · rename_i hb
        simp only at hb hw
        rw [if_pos hb]
        rw [List.getElem?_set] at hw
        split at hw
        · rename_i e
          split at hw
          · cases hw; exact Or.inr ⟨rfl, by rw [← e]; exact hk⟩
          · cases hw
        · exact Or.inl hw
      · cases hw
    rcases hex with e | ⟨rfl, e⟩
    · exact hg x ⟨i, j, w, ⟨T, hT, e⟩, hx⟩
    · exact hQ t w hv (fun y hy => hg y ⟨i, j, t, ⟨T, hT, e⟩, hy⟩) x hx
  · rintro x ⟨i, j, w, hw, hx⟩
    exact hg x ⟨i, j, w, hw, hx⟩

/-- the leaf has the layer, with the right value in every cell -/
def LeafRule (r : ℚ) (n : Nat) (l : Layer) (R : List Pt → Option ℚ → Prop) (t : Tile) : Prop := ∃ d, t.layerAt r l = some d ∧ EachCell d n t.minX t.minY r t.pts R

theorem leafRule_queried {r : ℚ} {n : Nat} {l : Layer} {R : List Pt → Option ℚ → Prop} (hl : l ∈ Tile.savedLayers) (hc : l.isCore = true) (t u : Tile) (h : Queried.queried env t u)
    (ht : ∀ x, HasLeaves.leaf t x → LeafRule r n l R x) : ∀ x, HasLeaves.leaf u x → LeafRule r n l R x := by
  intro x hx
  have hx : x = u := hx
  subst hx
  obtain ⟨d, h1, h2⟩ := ht t rfl
  obtain ⟨k1, k2, k3, k4⟩ := leaf_queried h hl hc r
  exact ⟨d, k1.trans h1, by rw [k2, k3, k4]; exact h2⟩

theorem leaves_requeried {τ : Type} [HasLeaves τ] [Queried τ] {Q : Tile → Prop} (hQ : ∀ t u : τ, Queried.queried env t u → (∀ x, HasLeaves.leaf t x → Q x) → ∀ x, HasLeaves.leaf u x → Q x)
    {g u : Grid τ} (h : Requeried env g u) (hg : ∀ x, g.Leaf x → Q x) : ∀ x, u.Leaf x → Q x := by
  unfold Requeried at h
  induction h with
  | refl => exact hg
  | tail _ hq ih => exact leaves_queried hQ hq ih

theorem requeried_info {τ : Type} [Queried τ] {g u : Grid τ} (h : Requeried env g u) : u.info = g.info := by
  unfold Requeried at h
  induction h with
  | refl => rfl
  | tail _ hq ih => exact (Grid.query_info hq).trans ih

theorem leafRule_cells {r : ℚ} {n : Nat} {l : Layer} {R : List Pt → Option ℚ → Prop} {t : Tile} (h : LeafRule r n l R t) : t.cells ≠ [] := by
  obtain ⟨d, h, -⟩ := h
  intro e
  unfold Tile.layerAt at h
  rw [e] at h
  cases h

theorem rule_saved {alg : Alg} {nodata : Option ℚ} {l : Layer} (h : Ruled alg bs fl nodata l) : l ∈ Tile.savedLayers := by
  rcases h with rfl | ⟨rfl, -⟩ | ⟨-, ⟨rfl, h⟩ | ⟨rfl, h⟩⟩
  · cases bs <;> decide
  all_goals decide

/-- a single resolution grid whose tiles have the layer -/
theorem surface_grow_sr {C : ChildSpec Tile size sub bs fl} (S : Shaped C F) (hs : 0 < size) {g : Grid Tile} (h : Grid.GrowInv C g A) (hA : A ≠ []) {r : ℚ} (hr : 0 < r) {n : Nat}
    (hn : size = n * r) {nodata : Option ℚ} {zUp flip : Bool} {l : Layer} (hl : l ∈ writtenLayers F bs fl) {R : List Pt → Option ℚ → Prop}
    (hperm : ∀ ps ps' v, ps.Perm ps' → R ps v → R ps' v) (hnone : ∀ ps, R ps none → ps = []) (hfill : ∃ v, R [] v ∧ shownCell l nodata flip v = fillValue l nodata)
    (hg : ∀ t, g.Leaf t → LeafRule r n l R t) (hflip : flip = true ↔ (zUp = true ↔ ¬ StoredUp g)) :
    ∃ e arr, g.extents = some e ∧ g.getLayersByName env [l] (some r) nodata zUp = (g, .ok (some [arr])) ∧ SurfaceOf R (shownCell l nodata flip) A.allPts r e arr := by
  have hwf := (Grid.grow_reps h).2
  obtain ⟨o, ho⟩ := Grid.grow_retrieves (retrieves_shaped env S) h hA (fun u hu => leafRule_cells (hg u hu)) (layers := [l]) (by simpa using hl) hr hn hn nodata zUp
  have hm := mosaic_of_answers (answers_shaped env S) h (by simpa using writtenLayers_core hl) (by simp) hr (Grid.allOrNone_single g l r) (Prod.ext_iff.2 ⟨rfl, ho⟩)
  obtain ⟨e, arr, he, h2, h3, h4⟩ := surface_mosaic (lattice_grow_sr S hs h hr hn) (fun t => ⟨leaf_of_mem_sr hwf, fun ht => by
      obtain ⟨i, j, u, hu, rfl⟩ := ht
      rw [leaves_tiles]
      exact (Grid.mem_present hwf).2 ⟨i, j, hu⟩⟩)
    (fun t ht => by
      obtain ⟨i, j, u, hu, rfl⟩ := ht
      obtain ⟨e, he, hx, -, hy, -⟩ := contains_sr S h hu
      exact ⟨e, j * n, i * n, he, by rw [hx, hn]; push_cast; ring, by rw [hy, hn]; push_cast; ring⟩)
    hg hperm hnone hfill (allPts_ne hA h.ne) hflip hm
  subst h3
  exact ⟨e, arr, he, Prod.ext_iff.2 ⟨h2, ho⟩, h4⟩

/-- a variable resolution grid whose tiles have the layer -/
theorem surface_grow_vr {C : ChildSpec Tile sub 0 false fl} (S : Shaped C F) (hs : 0 < size) (hsub : isPowerOfTwo sub = true) {q : Nat} (hdiv : size = (q : ℚ) * sub) {g : Grid (Grid Tile)}
    (h : Grid.GrowInv (subSpec (bs := bs) C hs hsub) g A) (hA : A ≠ []) {r : ℚ} (hr : 0 < r) {n : Nat} (hn : sub = n * r) {nodata : Option ℚ} {zUp flip : Bool} {l : Layer}
    (hl : l ∈ writtenLayers F false fl) {R : List Pt → Option ℚ → Prop}
    (hperm : ∀ ps ps' v, ps.Perm ps' → R ps v → R ps' v) (hnone : ∀ ps, R ps none → ps = []) (hfill : ∃ v, R [] v ∧ shownCell l nodata flip v = fillValue l nodata)
    (hg : ∀ t, g.Leaf t → LeafRule r n l R t) (hflip : flip = true ↔ (zUp = true ↔ ¬ StoredUp g)) :
    ∃ e arr, g.extents = some e ∧ g.getLayersByName env [l] (some r) nodata zUp = (g, .ok (some [arr])) ∧ SurfaceOf R (shownCell l nodata flip) A.allPts r e arr := by
  obtain ⟨o, ho⟩ := Grid.grow_retrieves (n0 := q * n) (Grid.retrieves_sub (retrieves_shaped env S) (answers_shaped env S)
      (fun {x y t A} _ hc => by
        have hc : t.cells ≠ [] := hc t rfl
        show Except.ok (!t.cells.isEmpty) = _
        cases he : t.cells with
        | nil => exact absurd he hc
        | cons p ps => rfl) (fun l hl => writtenLayers_core hl) hs hsub hdiv)
    h hA (fun u hu => leafRule_cells (hg u hu)) (layers := [l]) (by simpa using hl) hr hn (by rw [hdiv, hn]; push_cast; ring) nodata zUp
  have hm := mosaic_of_answers (Grid.answers_sub (answers_shaped env S) hs hsub hdiv) h (by simpa using writtenLayers_core hl) (by simp) hr (Grid.allOrNone_single g l r)
    (Prod.ext_iff.2 ⟨rfl, ho⟩)
  obtain ⟨k1, k2⟩ := grow_wf_vr hs hsub h
  obtain ⟨e, arr, he, h2, h3, h4⟩ := surface_mosaic (lattice_grow_vr S hs hsub h hr hn hdiv) (fun t => ⟨leaf_of_mem_vr k1 k2, fun ht => by
      obtain ⟨i, j, u, hu, i', j', t', ht', rfl⟩ := ht
      refine mem_leaves_sub ((Grid.mem_present k1).2 ⟨i, j, hu⟩) ?_
      rw [leaves_tiles]
      exact (Grid.mem_present (k2 i j u hu)).2 ⟨i', j', ht'⟩⟩)
    (fun t ht => by
      obtain ⟨i, j, u, hu, i', j', t', ht', rfl⟩ := ht
      obtain ⟨e, x, y, he, hx, hy, -, hall⟩ := contains_vr S hs hsub h hu
      obtain ⟨hx', -, hy', -⟩ := hall i' j' t ht'
      exact ⟨e, j * q * n + j' * n, i * q * n + i' * n, he, by rw [hx', hx, hdiv, hn]; push_cast; ring, by rw [hy', hy, hdiv, hn]; push_cast; ring⟩)
    hg hperm hnone hfill (allPts_ne hA h.ne) hflip hm
  subst h3
  exact ⟨e, arr, he, Prod.ext_iff.2 ⟨h2, ho⟩, h4⟩

theorem surface_state_sr (hs : 0 < size) {g : Grid Tile} (h : SRHistory env size bs fl .plain s g A) (hA : A ≠ []) {r : ℚ} (hr : 0 < r) {n : Nat} (hn : size = n * r) {alg : Alg}
    {nodata : Option ℚ} {zUp flip : Bool} {l : Layer} (hl : Ruled alg bs fl nodata l) (hg : ∀ t, g.Leaf t → LeafRule r n l (CellRule alg l) t)
    (hflip : flip = true ↔ (zUp = true ↔ ¬ StoredUp g)) :
    ∃ e arr, g.extents = some e ∧ g.getLayersByName env [l] (some r) nodata zUp = (g, .ok (some [arr])) ∧
      SurfaceOf (CellRule alg l) (shownCell l nodata flip) A.allPts r e arr :=
  surface_grow_sr (shaped_tile env .plain hs) hs (sr_inv hs h).1 hA hr hn (rule_written hl) (rule_perm hl) (rule_none hl) (rule_fill hl flip) hg hflip

theorem surface_state_vr (hs : 0 < size) (hsub : isPowerOfTwo sub = true) {q : Nat} (hdiv : size = (q : ℚ) * sub) {g : Grid (Grid Tile)} (h : VRHistory env size sub bs fl .plain s g A)
    (hA : A ≠ []) {r : ℚ} (hr : 0 < r) {n : Nat} (hn : sub = n * r) {alg : Alg}
    {nodata : Option ℚ} {zUp flip : Bool} {l : Layer} (hl : Ruled alg false fl nodata l) (hg : ∀ t, g.Leaf t → LeafRule r n l (CellRule alg l) t)
    (hflip : flip = true ↔ (zUp = true ↔ ¬ StoredUp g)) :
    ∃ e arr, g.extents = some e ∧ g.getLayersByName env [l] (some r) nodata zUp = (g, .ok (some [arr])) ∧
      SurfaceOf (CellRule alg l) (shownCell l nodata flip) A.allPts r e arr :=
  surface_grow_vr (shaped_tile env .plain (isPowerOfTwo_pos hsub)) hs hsub hdiv (vr_inv hs hsub h).1 hA hr hn (rule_written hl) (rule_perm hl) (rule_none hl) (rule_fill hl flip) hg hflip

theorem storedUp_congr {τ : Type} {g u : Grid τ} (h : u.info = g.info) : StoredUp u ↔ StoredUp g := by
  unfold StoredUp
  rw [h]

/-- **C102** (single resolution): the surface of `C100` is still there after any number of queries, and after tiles were written to disk and read again -/
theorem C102_kept_sr (hs : 0 < size) {g : Grid Tile} (h : SRHistory env size bs fl F s g A) (ha : a.alg = .mean ∨ a.alg = .shoalest) (hF : F = .plain ∨ a.clear = true)
    (hv : a.regrid = .full ∨ a.clear = true) {r : ℚ} (hr : a.res = some r) {n : Nat} (hn : size = n * r) (hok : (g.gridWith env a dask).err = none)
    {u : Grid Tile} (hu : Requeried env (g.gridWith env a dask).st u)
    {nodata : Option ℚ} {zUp flip : Bool} {l : Layer} (hl : Ruled a.alg bs fl nodata l) (hflip : flip = true ↔ (zUp = true ↔ ¬ StoredUp (g.gridWith env a dask).st)) :
    ∃ e arr, u.extents = some e ∧ u.getLayersByName env [l] (some r) nodata zUp = (u, .ok (some [arr])) ∧
      SurfaceOf (CellRule a.alg l) (shownCell l nodata flip) A.allPts r e arr := by
  have hrp := pos_of_mul hs hn
  have hfam : a.alg.family = some .plain := by rcases ha with e | e <;> rw [e] <;> rfl
  have h1 : SRHistory env size bs fl .plain s (g.gridWith env a dask).st A := history_after h hfam (hF.imp Eq.symm id) hok
  refine surface_state_sr hs (history_requeried h1 hu) (store_ne (sr_inv hs h).1 hok) hrp hn hl
    (leaves_requeried (leafRule_queried (rule_saved hl) (writtenLayers_core (rule_written hl))) hu fun t ht => ?_) (by rw [storedUp_congr (requeried_info hu)]; exact hflip)
  obtain ⟨r', -, hr'⟩ := (Grid.leaves_sr hs h hv hok).1 t ht
  exact leaf_rule hs hrp hn hr' ha hF hr hl

/-- **C102** (variable resolution) -/
theorem C102_kept_vr (hs : 0 < size) (hsub : isPowerOfTwo sub = true) {q : Nat} (hdiv : size = (q : ℚ) * sub) {g : Grid (Grid Tile)} (h : VRHistory env size sub bs fl F s g A)
    (ha : a.alg = .mean ∨ a.alg = .shoalest) (hF : F = .plain ∨ a.clear = true) (hv : a.regrid = .full ∨ a.clear = true) {r : ℚ} (hr : a.res = some r) {n : Nat} (hn : sub = n * r)
    (hok : (g.gridWith env a dask).err = none) {u : Grid (Grid Tile)} (hu : Requeried env (g.gridWith env a dask).st u)
    {nodata : Option ℚ} {zUp flip : Bool} {l : Layer} (hl : Ruled a.alg false fl nodata l) (hflip : flip = true ↔ (zUp = true ↔ ¬ StoredUp (g.gridWith env a dask).st)) :
    ∃ e arr, u.extents = some e ∧ u.getLayersByName env [l] (some r) nodata zUp = (u, .ok (some [arr])) ∧
      SurfaceOf (CellRule a.alg l) (shownCell l nodata flip) A.allPts r e arr := by
  have hsp := isPowerOfTwo_pos hsub
  have hrp := pos_of_mul hsp hn
  have hfam : a.alg.family = some .plain := by rcases ha with e | e <;> rw [e] <;> rfl
  have h1 : VRHistory env size sub bs fl .plain s (g.gridWith env a dask).st A := history_after h hfam (hF.imp Eq.symm id) hok
  refine surface_state_vr hs hsub hdiv (history_requeried h1 hu) (store_ne (vr_inv hs hsub h).1 hok) hrp hn hl
    (leaves_requeried (fun t u hq => leaves_queried (leafRule_queried (rule_saved hl) (writtenLayers_core (rule_written hl))) hq) hu fun t ht => ?_)
    (by rw [storedUp_congr (requeried_info hu)]; exact hflip)
  obtain ⟨r', -, hr'⟩ := (Grid.leaves_vr hs hsub h hv hok).1 t ht
  exact leaf_rule hsp hrp hn hr' ha hF hr hl

/-! ## saving and loading -/

open Grid

theorem reloaded_queried_sr (hs : 0 < size) {g u : Grid Tile} (h : SRHistory env size bs fl F s g A) (hA : A ≠ []) (hu : g.Reloaded true u) : Requeried env g u := by
  refine requeried_reloaded (fun _ t v _ => requeried_tile env t v) hu ?_
  obtain ⟨T, hT⟩ := (sr_storable hs h hA).shape
  rw [hT.tiles]; simp

theorem reloaded_queried_vr (hs : 0 < size) (hpow : isPowerOfTwo sub = true) {g u : Grid (Grid Tile)} (h : VRHistory env size sub bs fl F s g A) (hA : A ≠ []) (hu : g.Reloaded true u) :
    Requeried env g u := by
  have hst := vr_storable hs hpow h hA
  refine requeried_reloaded (fun k t v hk hr => ?_) hu ?_
  · obtain ⟨T, hT⟩ := (hst.tile k t hk).shape
    exact requeried_reloaded (fun _ t v _ => requeried_tile env t v) hr (by rw [hT.tiles]; simp)
  · obtain ⟨T, hT⟩ := hst.shape
    rw [hT.tiles]; simp

/-- **C102** `save` after `grid` does not fail, `load` gives a grid, and that grid shows the surface of the soundings. -/
theorem C102_saved_sr (hs : 0 < size) {g : Grid Tile} (h : SRHistory env size bs fl F s g A) (ha : a.alg = .mean ∨ a.alg = .shoalest) (hF : F = .plain ∨ a.clear = true)
    (hv : a.regrid = .full ∨ a.clear = true) {r : ℚ} (hr : a.res = some r) {n : Nat} (hn : size = n * r) (hok : (g.gridWith env a dask).err = none)
    (b : Backend) (d : Disk (Root TileFolder))
    {nodata : Option ℚ} {zUp flip : Bool} {l : Layer} (hl : Ruled a.alg bs fl nodata l) (hflip : flip = true ↔ (zUp = true ↔ ¬ StoredUp (g.gridWith env a dask).st)) :
    (saveAllD b (g.gridWith env a dask).st d).err = none ∧ ∃ (u : Grid Tile) (e : _) (arr : _), loadD (saveAllD b (g.gridWith env a dask).st d).st.now = .ok u ∧
      u.extents = some e ∧ u.getLayersByName env [l] (some r) nodata zUp = (u, .ok (some [arr])) ∧ SurfaceOf (CellRule a.alg l) (shownCell l nodata flip) A.allPts r e arr := by
  have hfam : a.alg.family = some .plain := by rcases ha with e | e <;> rw [e] <;> rfl
  have h1 : SRHistory env size bs fl .plain s (g.gridWith env a dask).st A := history_after h hfam (hF.imp Eq.symm id) hok
  have hA := store_ne (sr_inv hs h).1 hok
  obtain ⟨h2, u, h3, h4⟩ := C54_save_load_sr hs h1 hA b d
  obtain ⟨e, arr, h5⟩ := C102_kept_sr hs h ha hF hv hr hn hok (reloaded_queried_sr hs h1 hA h4) hl hflip
  exact ⟨h2, u, e, arr, h3, h5⟩

/-- **C102** (variable resolution; the folder has nothing in the places of tiles that the grid does not have, as in `C54_save_load_vr_partial`) -/
theorem C102_saved_vr_partial (hs : 0 < size) (hsub : isPowerOfTwo sub = true) {q : Nat} (hdiv : size = (q : ℚ) * sub) {g : Grid (Grid Tile)}
    (h : VRHistory env size sub bs fl F s g A)
    (ha : a.alg = .mean ∨ a.alg = .shoalest) (hF : F = .plain ∨ a.clear = true) (hv : a.regrid = .full ∨ a.clear = true) {r : ℚ} (hr : a.res = some r) {n : Nat} (hn : sub = n * r)
    (hok : (g.gridWith env a dask).err = none) (b : Backend) (d : Disk (Root (GridFolder TileFolder)))
    (hd : ∀ k p, (g.gridWith env a dask).st.tile? k = some none → (g.gridWith env a dask).st.tileOrigin k = some p → tileFolder d.now p = none)
    {nodata : Option ℚ} {zUp flip : Bool} {l : Layer} (hl : Ruled a.alg false fl nodata l) (hflip : flip = true ↔ (zUp = true ↔ ¬ StoredUp (g.gridWith env a dask).st)) :
    (saveAllD b (g.gridWith env a dask).st d).err = none ∧ ∃ (u : Grid (Grid Tile)) (e : _) (arr : _), loadD (saveAllD b (g.gridWith env a dask).st d).st.now = .ok u ∧
      u.extents = some e ∧ u.getLayersByName env [l] (some r) nodata zUp = (u, .ok (some [arr])) ∧ SurfaceOf (CellRule a.alg l) (shownCell l nodata flip) A.allPts r e arr := by
  have hfam : a.alg.family = some .plain := by rcases ha with e | e <;> rw [e] <;> rfl
  have h1 : VRHistory env size sub bs fl .plain s (g.gridWith env a dask).st A := history_after h hfam (hF.imp Eq.symm id) hok
  have hA := store_ne (vr_inv hs hsub h).1 hok
  obtain ⟨h2, u, h3, h4⟩ := C54_save_load_vr_partial hs hsub h1 hA b d hd
  obtain ⟨e, arr, h5⟩ := C102_kept_vr hs hsub hdiv h ha hF hv hr hn hok (reloaded_queried_vr hs hsub h1 hA h4) hl hflip
  exact ⟨h2, u, e, arr, h3, h5⟩

/-! ## grids with an output folder -/

/-- **C102** A grid that writes to a folder: `grid` shows the same surface, and so does what is loaded from the folder afterwards. -/
theorem C102_folder_sr (hs : 0 < size) {b : Backend} {exact : Bool} {g : Grid Tile} {d : Disk (Root TileFolder)} (h : SRDisk env b size bs fl F s exact g d A)
    (ha : a.alg = .mean ∨ a.alg = .shoalest) (hF : F = .plain ∨ a.clear = true)
    (hv : a.regrid = .full ∨ a.clear = true) {r : ℚ} (hr : a.res = some r) {n : Nat} (hn : size = n * r) (hok : (gridWithD env b a dask (g, d)).err = none)
    {nodata : Option ℚ} {zUp flip : Bool} {l : Layer} (hl : Ruled a.alg bs fl nodata l) (hflip : flip = true ↔ (zUp = true ↔ ¬ StoredUp (gridWithD env b a dask (g, d)).st.1))
    (u : Grid Tile) (hu : u = (gridWithD env b a dask (g, d)).st.1 ∨ loadD (gridWithD env b a dask (g, d)).st.2.now = .ok u) :
    ∃ e arr, u.extents = some e ∧ u.getLayersByName env [l] (some r) nodata zUp = (u, .ok (some [arr])) ∧
      SurfaceOf (CellRule a.alg l) (shownCell l nodata flip) A.allPts r e arr := by
  have hfam : a.alg.family = some .plain := by rcases ha with e | e <;> rw [e] <;> rfl
  have hF' : Family.plain = F ∨ a.clear = true := hF.imp Eq.symm id
  obtain ⟨h1, h2⟩ := (C69_folder_same_sr hs h).2.2 a .plain dask hfam hF'
  have hg := (sr_disk hs h).1
  have hq := h2 (h1 ▸ hok)
  have hA := store_ne (sr_inv hs hg).1 (h1 ▸ hok)
  have hD : SRDisk env b size bs fl .plain s true (gridWithD env b a dask (g, d)).st.1 (gridWithD env b a dask (g, d)).st.2 A := by
    rcases hF' with e | e
    · subst e; exact DiskHistory.grid h a hfam dask (h1 ▸ hok)
    · exact DiskHistory.switch h a hfam e dask (h1 ▸ hok)
  have key : Requeried env (g.gridWith env a dask).st u := by
    rcases hu with rfl | hu
    · exact hq
    · obtain ⟨v, h3, h4⟩ := sr_loads hs hD hA
      rw [hu] at h3
      cases h3
      exact Relation.ReflTransGen.trans hq (reloaded_queried_sr hs (sr_disk hs hD).1 hA h4)
  exact C102_kept_sr hs hg ha hF hv hr hn (h1 ▸ hok) key hl (by rw [← storedUp_congr (requeried_info hq)]; exact hflip)

/-- **C102** (variable resolution; the grid in memory.  What is loaded may have empty subgrids that the grid in memory does not have, see `C55_folder_loads_vr_partial`) -/
theorem C102_folder_vr_partial (hs : 0 < size) (hsub : isPowerOfTwo sub = true) {q : Nat} (hdiv : size = (q : ℚ) * sub) {b : Backend} {exact : Bool} {g : Grid (Grid Tile)}
    {d : Disk (Root (GridFolder TileFolder))} (h : VRDisk env b size sub bs fl F s exact g d A)
    (ha : a.alg = .mean ∨ a.alg = .shoalest) (hF : F = .plain ∨ a.clear = true) (hv : a.regrid = .full ∨ a.clear = true) {r : ℚ} (hr : a.res = some r) {n : Nat} (hn : sub = n * r)
    (hok : (gridWithD env b a dask (g, d)).err = none)
    {nodata : Option ℚ} {zUp flip : Bool} {l : Layer} (hl : Ruled a.alg false fl nodata l) (hflip : flip = true ↔ (zUp = true ↔ ¬ StoredUp (gridWithD env b a dask (g, d)).st.1)) :
    ∃ e arr, (gridWithD env b a dask (g, d)).st.1.extents = some e ∧
      (gridWithD env b a dask (g, d)).st.1.getLayersByName env [l] (some r) nodata zUp = ((gridWithD env b a dask (g, d)).st.1, .ok (some [arr])) ∧
      SurfaceOf (CellRule a.alg l) (shownCell l nodata flip) A.allPts r e arr := by
  have hfam : a.alg.family = some .plain := by rcases ha with e | e <;> rw [e] <;> rfl
  obtain ⟨h1, h2⟩ := (C69_folder_same_vr hs hsub h).2.2 a .plain dask hfam (hF.imp Eq.symm id)
  have hq := h2 (h1 ▸ hok)
  exact C102_kept_vr hs hsub hdiv (vr_disk hs hsub h).1 ha hF hv hr hn (h1 ▸ hok) hq hl (by rw [← storedUp_congr (requeried_info hq)]; exact hflip)

/-! ## examples -/

theorem no_flip {τ : Type} {g : Grid τ} (h : g.info.vref = none) : (false = true) ↔ ((false = true) ↔ ¬ StoredUp g) :=
  ⟨fun h => (nomatch h), fun k => (nomatch k.2 (fun ⟨_, hs, _⟩ => nomatch h.symm.trans hs))⟩

/-- the demo grid after some queries, whatever they were -/
example (u : Grid Tile) (hu : Requeried demoEnv demoSRg u) : ∃ e arr, u.extents = some e ∧ u.getLayersByName demoEnv [.depth] (some 8) none false = (u, .ok (some [arr])) ∧
    SurfaceOf (MeanCell round3 Pt.z) (shownCell .depth none false) demoStore.allPts 8 e arr :=
  C102_kept_sr (n := 2) (dask := none) (by norm_num) demoSR_history (.inl rfl) (.inl rfl) (.inl rfl) (a := { alg := .mean, res := some 8 }) rfl (by norm_num)
    (by decide +kernel) hu (.inl rfl) (no_flip (by decide +kernel))

example (u : Grid (Grid Tile)) (hu : Requeried demoEnv demoVRg u) : ∃ e arr, u.extents = some e ∧ u.getLayersByName demoEnv [.density] (some 8) none false = (u, .ok (some [arr])) ∧
    SurfaceOf CountCell (shownCell .density none false) demoStore.allPts 8 e arr :=
  C102_kept_vr (n := 2) (q := 2) (dask := none) (by norm_num) (by decide +kernel) (by norm_num) demoVR_history (.inl rfl) (.inl rfl) (.inl rfl)
    (a := { alg := .mean, res := some 8 }) rfl (by norm_num) (by decide +kernel) hu (.inr (.inl ⟨rfl, rfl⟩)) (no_flip (by decide +kernel))

/-- saved and loaded -/
example (b : Backend) : (saveAllD b demoSRg ⟨none, []⟩).err = none ∧ ∃ (u : Grid Tile) (e : _) (arr : _), loadD (saveAllD b demoSRg ⟨none, []⟩).st.now = .ok u ∧
      u.extents = some e ∧ u.getLayersByName demoEnv [.depth] (some 8) none false = (u, .ok (some [arr])) ∧
      SurfaceOf (MeanCell round3 Pt.z) (shownCell .depth none false) demoStore.allPts 8 e arr :=
  C102_saved_sr (n := 2) (dask := none) (by norm_num) demoSR_history (.inl rfl) (.inl rfl) (.inl rfl) (a := { alg := .mean, res := some 8 }) rfl (by norm_num)
    (by decide +kernel) b _ (.inl rfl) (no_flip (by decide +kernel))

example (b : Backend) : (saveAllD b demoVRg ⟨none, []⟩).err = none ∧ ∃ (u : Grid (Grid Tile)) (e : _) (arr : _), loadD (saveAllD b demoVRg ⟨none, []⟩).st.now = .ok u ∧
      u.extents = some e ∧ u.getLayersByName demoEnv [.density] (some 8) none false = (u, .ok (some [arr])) ∧
      SurfaceOf CountCell (shownCell .density none false) demoStore.allPts 8 e arr :=
  C102_saved_vr_partial (n := 2) (q := 2) (dask := none) (by norm_num) (by decide +kernel) (by norm_num) demoVR_history (.inl rfl) (.inl rfl) (.inl rfl)
    (a := { alg := .mean, res := some 8 }) rfl (by norm_num) (by decide +kernel) b _ (fun _ _ _ _ => rfl) (.inr (.inl ⟨rfl, rfl⟩)) (no_flip (by decide +kernel))

/-- gridded again in its folder, then loaded from the folder -/
example (b : Backend) (u : Grid Tile) (hu : loadD (gridWithD demoEnv b { alg := .mean, res := some 8 } none (diskSR b)).st.2.now = .ok u) :
    ∃ e arr, u.extents = some e ∧ u.getLayersByName demoEnv [.depth] (some 8) none false = (u, .ok (some [arr])) ∧
      SurfaceOf (MeanCell round3 Pt.z) (shownCell .depth none false) (Store.allPts [("b", demoB)]) 8 e arr :=
  C102_folder_sr (n := 2) (dask := none) (by norm_num) (diskSR_history b) (.inl rfl) (.inl rfl) (.inl rfl) (a := { alg := .mean, res := some 8 }) rfl (by norm_num)
    (by cases b <;> decide +kernel) (.inl rfl) (no_flip (by cases b <;> decide +kernel)) u (.inr hu)

example (b : Backend) : ∃ e arr, (gridWithD demoEnv b { alg := .mean, res := some 8 } none (diskVR b)).st.1.extents = some e ∧
    (gridWithD demoEnv b { alg := .mean, res := some 8 } none (diskVR b)).st.1.getLayersByName demoEnv [.depth] (some 8) none false =
      ((gridWithD demoEnv b { alg := .mean, res := some 8 } none (diskVR b)).st.1, .ok (some [arr])) ∧
      SurfaceOf (MeanCell round3 Pt.z) (shownCell .depth none false) (Store.allPts [("b", demoB)]) 8 e arr :=
  C102_folder_vr_partial (n := 2) (q := 2) (dask := none) (by norm_num) (by decide +kernel) (by norm_num) (diskVR_history b) (.inl rfl) (.inl rfl) (.inl rfl)
    (a := { alg := .mean, res := some 8 }) rfl (by norm_num) (by cases b <;> decide +kernel) (.inl rfl) (no_flip (by cases b <;> decide +kernel))

/-! ## the folder of a variable resolution grid -/

/-- a variable resolution grid with three subgrids, the first one with soundings of container `b` only; `b` is removed -/
def diskFirst : Grid (Grid Tile) × Disk (Root (GridFolder TileFolder)) :=
  (removePointsD .numpy "b" (addPointsD .numpy ⟨demoFields, [⟨40, 5, 10, 1, 1⟩, ⟨70, 5, 11, 1, 1⟩]⟩ "a" {}
    (addPointsD .numpy ⟨demoFields, [⟨3, 5, 10, 1, 1⟩]⟩ "b" {} (newVR 32 16 false, ⟨none, []⟩)).st).st).st

theorem diskFirst_history : VRDisk demoEnv .numpy 32 16 false demoFields .plain false true diskFirst.1 diskFirst.2 [("a", [⟨40, 5, 10, 1, 1⟩, ⟨70, 5, 11, 1, 1⟩])] :=
  (((DiskHistory.new .plain ⟨none, []⟩ rfl).add [⟨3, 5, 10, 1, 1⟩] "b" {} (by decide +kernel)).add [⟨40, 5, 10, 1, 1⟩, ⟨70, 5, 11, 1, 1⟩] "a" {} (by decide +kernel)).remove "b"
    (by decide +kernel)

/-- **C102 does not hold.**  The folder of a subgrid that was emptied is not removed (C59).  If it was the first subgrid, `no_grid` of the grid that is loaded asks the empty subgrid for
`cells`: after `grid` the grid in memory shows its surface, and reading the same layer of what is loaded from its folder raises AttributeError. -/
theorem C102_violated :
    VRDisk demoEnv .numpy 32 16 false demoFields .plain false true diskFirst.1 diskFirst.2 [("a", [⟨40, 5, 10, 1, 1⟩, ⟨70, 5, 11, 1, 1⟩])] ∧
    (gridWithD demoEnv .numpy { alg := .mean, res := some 2 } none diskFirst).err = none ∧
    (∃ arr, ((gridWithD demoEnv .numpy { alg := .mean, res := some 2 } none diskFirst).st.1.getLayersByName demoEnv [.depth] (some 2) none false).2 = .ok (some [arr])) ∧
    ∃ u : Grid (Grid Tile), loadD (gridWithD demoEnv .numpy { alg := .mean, res := some 2 } none diskFirst).st.2.now = .ok u ∧
      (u.getLayersByName demoEnv [.depth] (some 2) none false).2 = .error .attributeError := by
  refine ⟨diskFirst_history, by decide +kernel, ?_, ?_⟩
  · obtain ⟨e, arr, -, h, -⟩ := C102_folder_vr_partial (n := 8) (q := 2) (dask := none) (a := { alg := .mean, res := some 2 }) (nodata := none) (l := .depth) (by norm_num) (by decide +kernel) (by norm_num) diskFirst_history (.inl rfl)
      (.inl rfl) (.inl rfl) rfl (by norm_num) (by decide +kernel) (.inl rfl) (no_flip (by decide +kernel))
    exact ⟨arr, by rw [h]⟩
  · obtain ⟨u, h1, h2⟩ := Except.exists_ok (x := loadD (τ := Grid Tile) (gridWithD demoEnv .numpy { alg := .mean, res := some 2 } none diskFirst).st.2.now)
      (p := fun u => (u.getLayersByName demoEnv [.depth] (some 2) none false).2 = .error .attributeError) (by decide +kernel)
    exact ⟨u, h1, h2⟩

end Bathy
