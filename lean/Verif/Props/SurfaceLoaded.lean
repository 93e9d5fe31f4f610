import Verif.Lemmas.Emptied
import Verif.Props.SurfaceKept

/-!
# C102: the surface of a variable resolution grid that is loaded from its output folder
-/

namespace Bathy

variable {env : Env} {size sub : ℚ} {bs : Bool} {fl : Fields} {F : Family} {s : Bool} {A : Store} {a : GridCall} {dask : Option Nat}

open Grid

namespace Grid

theorem getLayer_renumber (env : Env) (x g : Grid Tile) (l : Layer) (res : ℚ) (nodata : Option ℚ) (zUp : Bool) :
    getLayer env (g.renumber x) l res nodata zUp = ((getLayer env g l res nodata zUp).1.renumber x, (getLayer env g l res nodata zUp).2) := by
  unfold getLayer
  rw [getLayers_renumber]
  rcases getLayersByName env g [l] (some res) nodata zUp with ⟨g', _ | _ | _ | _⟩ <;> rfl

/-- what is loaded, without the empty subgrids and with the right numbers -/
theorem reloaded_dense {g u : Grid (Grid Tile)} {T : Arr2 (Option (Grid Tile))} (hT : g.tiles = some T) (h : Reloaded false g u) :
    ∃ (w : Grid (Grid Tile)) (W U : Arr2 (Option (Grid Tile))), Reloaded true g w ∧ u = { w with tiles := u.tiles, mask := u.mask, numberOfTiles := u.numberOfTiles, meanDepth := u.meanDepth } ∧
      w.tiles = some W ∧ u.tiles = some U ∧ U.dims = W.dims ∧
      (∀ k t, w.tile? k = some (some t) → ∃ v, u.tile? k = some (some v) ∧ v = t.renumber v) ∧
      (∀ k, w.tile? k = some none → u.tile? k = some none ∨ ∃ v, u.tile? k = some (some v) ∧ v.Emptied g.tileSize) := by
  have hsh := h.shape
  rw [hT, Option.map_some] at hsh
  obtain ⟨U, hU⟩ : ∃ U, u.tiles = some U := by
    rcases Option.eq_none_or_eq_some u.tiles with e | e
    · rw [e] at hsh; cases hsh
    · exact e
  rw [hU, Option.map_some, Option.some.injEq] at hsh
  have hgt : ∀ k : Nat, g.tile? k = T.flat[k]? := fun k => by unfold tile?; rw [hT]; rfl
  let f : Nat → Option (Grid Tile) := fun k => match T.flat[k]? with
    | some (some t) => (u.tile? k).join.map (fun v => v.renumber t)
    | _ => none
  let W : Arr2 (Option (Grid Tile)) := ⟨T.rows, T.cols, (List.range T.flat.length).map f⟩
  let w : Grid (Grid Tile) := { u with tiles := some W, numberOfTiles := g.numberOfTiles, meanDepth := g.meanDepth }
  have hwt : ∀ k : Nat, w.tile? k = if k < T.flat.length then some (f k) else none := by
    intro k
    show ((List.range T.flat.length).map f)[k]? = _
    rw [List.getElem?_map]
    split
    · rename_i hk; rw [List.getElem?_range hk]; rfl
    · rename_i hk; rw [List.getElem?_eq_none (by simp; omega)]; rfl
  have hlt : ∀ (k : Nat) o, T.flat[k]? = some o → k < T.flat.length := fun k o e => (List.getElem?_eq_some_iff.1 e).1
  have hWd : W.dims = T.dims := by simp [W, Arr2.dims]
  have hfs : ∀ (k : Nat) t, T.flat[k]? = some (some t) → ∃ v, u.tile? k = some (some v) ∧ f k = some (v.renumber t) ∧ Reloads.reloaded false t v := by
    intro k t hk
    obtain ⟨v, h1, h2⟩ := h.tiles k t (by rw [hgt, hk])
    refine ⟨v, h1, ?_, h2⟩
    simp only [f, hk, h1, Option.join_some, Option.map_some]
  have hfn : ∀ k : Nat, T.flat[k]? = some none → f k = none := by
    intro k hk
    simp only [f, hk]
  refine ⟨w, W, U, ?_, rfl, rfl, hU, hsh.trans hWd.symm, ?_, ?_⟩
  · refine ⟨?_, fun _ => ⟨rfl, rfl⟩, ?_, ?_, ?_⟩
    · have := h.attrs
      show ({ u with tiles := some W, numberOfTiles := g.numberOfTiles, meanDepth := g.meanDepth } : Grid (Grid Tile)) = _
      rw [this]
    · show (some W).map Arr2.dims = _
      rw [hT, Option.map_some, Option.map_some, hWd]
    · intro k t hk
      rw [hgt] at hk
      obtain ⟨v, -, h2, h3⟩ := hfs k t hk
      refine ⟨v.renumber t, by rw [hwt, if_pos (hlt k _ hk), h2], ?_⟩
      have h3 : Reloaded false t v := h3
      refine ⟨?_, fun _ => ⟨rfl, rfl⟩, h3.shape, h3.tiles, ?_⟩
      · have := h3.attrs
        unfold renumber
        rw [this]
      · intro j hj
        rcases h3.missing j hj with e | ⟨-, v', -, e⟩
        · exact .inl e
        · exact False.elim e
    · intro k hk
      rw [hgt] at hk
      left
      rw [hwt, if_pos (hlt k _ hk), hfn k hk]
  · intro k t hk
    rw [hwt] at hk
    split at hk
    · rename_i hkl
      obtain ⟨o, ho⟩ : ∃ o, T.flat[k]? = some o := ⟨_, List.getElem?_eq_getElem hkl⟩
      cases o with
      | none => rw [hfn k ho] at hk; cases hk
      | some t0 =>
        obtain ⟨v, h1, h2, -⟩ := hfs k t0 ho
        rw [h2] at hk
        cases hk
        exact ⟨v, h1, rfl⟩
    · cases hk
  · intro k hk
    rw [hwt] at hk
    split at hk
    · rename_i hkl
      obtain ⟨o, ho⟩ : ∃ o, T.flat[k]? = some o := ⟨_, List.getElem?_eq_getElem hkl⟩
      cases o with
      | none =>
        rcases h.missing k (by rw [hgt, ho]) with e | ⟨-, e⟩
        · exact .inl e
        · exact .inr e
      | some t0 =>
        obtain ⟨v, -, h2, -⟩ := hfs k t0 ho
        rw [h2] at hk
        cases hk
    · cases hk

/-- the first tile -/
theorem present_head {τ : Type} {g : Grid τ} {T : Arr2 (Option τ)} (hT : g.tiles = some T) {k : Nat} {v : τ} (hk : g.tile? k = some (some v)) (hj : ∀ j, j < k → g.tile? j = some none) :
    g.present.head? = some v := by
  have hgt : ∀ k : Nat, g.tile? k = T.flat[k]? := fun k => by unfold tile?; rw [hT]; rfl
  unfold present
  rw [hT]
  simp only
  have main : ∀ (xs : List (Option τ)) (k : Nat), xs[k]? = some (some v) → (∀ j, j < k → xs[j]? = some none) → (xs.filterMap id).head? = some v := by
    intro xs
    induction xs with
    | nil => intro k h; cases h
    | cons x xs ih =>
      intro k h1 h2
      cases k with
      | zero =>
        simp only [List.getElem?_cons_zero, Option.some.injEq] at h1
        subst h1
        rfl
      | succ k =>
        have := h2 0 (by omega)
        simp only [List.getElem?_cons_zero, Option.some.injEq] at this
        subst this
        exact ih k h1 (fun j hj => h2 (j + 1) (by omega))
  exact main T.flat k (by rw [← hgt]; exact hk) (fun j h => by rw [← hgt]; exact hj j h)

theorem noGrid_of_read {τ : Type} [LayerLike τ] {env : Env} {g g' : Grid τ} {layers : List Layer} {res nodata : Option ℚ} {zUp : Bool} {o : Option (List LayerArr)}
    (h : getLayersByName env g layers res nodata zUp = (g', .ok o)) : g.noGrid = .ok false := by
  unfold getLayersByName at h
  rcases hn : g.noGrid with e | _ | _
  · rw [hn] at h; cases h
  · rfl
  · rw [hn] at h; cases h

end Grid

/-- the first tile of the grid is `v` -/
def FirstTile {τ : Type} (g : Grid τ) (v : τ) : Prop := ∃ k, g.tile? k = some (some v) ∧ ∀ j, j < k → g.tile? j = some none

/-- what is loaded after `grid`, in terms of the grid in memory -/
theorem loaded_state (hs : 0 < size) (hsub : isPowerOfTwo sub = true) {b : Backend} {exact : Bool} {g : Grid (Grid Tile)}
    {d : Disk (Root (GridFolder TileFolder))} (h : VRDisk env b size sub bs fl F s exact g d A)
    (ha : a.alg = .mean ∨ a.alg = .shoalest) (hF : F = .plain ∨ a.clear = true) (hok : (gridWithD env b a dask (g, d)).err = none)
    {u : Grid (Grid Tile)} (hu : loadD (gridWithD env b a dask (g, d)).st.2.now = .ok u) :
    (g.gridWith env a dask).err = none ∧ (gridWithD env b a dask (g, d)).st.1.info = (g.gridWith env a dask).st.info ∧
    ∃ (w : Grid (Grid Tile)) (W U : Arr2 (Option (Grid Tile))), Requeried env (g.gridWith env a dask).st w ∧
      u = { w with tiles := u.tiles, mask := u.mask, numberOfTiles := u.numberOfTiles, meanDepth := u.meanDepth } ∧ w.tiles = some W ∧ u.tiles = some U ∧ U.dims = W.dims ∧
      (∀ k t, w.tile? k = some (some t) → ∃ v, u.tile? k = some (some v) ∧ v = t.renumber v) ∧
      (∀ k, w.tile? k = some none → u.tile? k = some none ∨ ∃ v, u.tile? k = some (some v) ∧ v.Emptied size) := by
  have hfam : a.alg.family = some .plain := by rcases ha with e | e <;> rw [e] <;> rfl
  have hF' : Family.plain = F ∨ a.clear = true := hF.imp Eq.symm id
  obtain ⟨h1, h2⟩ := (C69_folder_same_vr hs hsub h).2.2 a .plain dask hfam hF'
  have hg := (vr_disk hs hsub h).1
  have hq := h2 (h1 ▸ hok)
  have hA := store_ne (vr_inv hs hsub hg).1 (h1 ▸ hok)
  have hD : VRDisk env b size sub bs fl .plain s true (gridWithD env b a dask (g, d)).st.1 (gridWithD env b a dask (g, d)).st.2 A := by
    rcases hF' with e | e
    · subst e; exact DiskHistory.grid h a hfam dask (h1 ▸ hok)
    · exact DiskHistory.switch h a hfam e dask (h1 ▸ hok)
  obtain ⟨v, h3, h4⟩ := vr_loads hs hsub hD hA
  rw [hu] at h3
  cases h3
  have hH := (vr_disk hs hsub hD).1
  obtain ⟨T, hT⟩ := (vr_storable hs hsub hH hA).shape
  obtain ⟨w, W, U, h5, h6, h7, h8, h9, h10, h11⟩ := reloaded_dense hT.tiles h4
  rw [(vr_inv hs hsub hH).1.tileSize] at h11
  exact ⟨h1 ▸ hok, requeried_info hq, w, W, U, Relation.ReflTransGen.trans hq (reloaded_queried_vr hs hsub hH hA h5), h6, h7, h8, h9, h10, h11⟩

/-- **C102** (part; variable resolution, what is loaded from the output folder) If the first tile of what is loaded is not one of the empty subgrids left behind (C59), it shows the surface,
whatever the other places of emptied subgrids hold. -/
theorem C102_loaded_vr_partial (hs : 0 < size) (hsub : isPowerOfTwo sub = true) {q : Nat} (hdiv : size = (q : ℚ) * sub) {b : Backend} {exact : Bool} {g : Grid (Grid Tile)}
    {d : Disk (Root (GridFolder TileFolder))} (h : VRDisk env b size sub bs fl F s exact g d A)
    (ha : a.alg = .mean ∨ a.alg = .shoalest) (hF : F = .plain ∨ a.clear = true) (hv : a.regrid = .full ∨ a.clear = true) {r : ℚ} (hr : a.res = some r) {n : Nat} (hn : sub = n * r)
    (hok : (gridWithD env b a dask (g, d)).err = none)
    {nodata : Option ℚ} {zUp flip : Bool} {l : Layer} (hl : Ruled a.alg false fl nodata l) (hflip : flip = true ↔ (zUp = true ↔ ¬ StoredUp (gridWithD env b a dask (g, d)).st.1))
    {u : Grid (Grid Tile)} (hu : loadD (gridWithD env b a dask (g, d)).st.2.now = .ok u) {v : Grid Tile} (hfirst : FirstTile u v) (hne : v.isEmpty = false) :
    ∃ e arr, u.extents = some e ∧ u.getLayersByName env [l] (some r) nodata zUp = (u, .ok (some [arr])) ∧
      SurfaceOf (CellRule a.alg l) (shownCell l nodata flip) A.allPts r e arr := by
  have hsp := isPowerOfTwo_pos hsub
  have hrp := pos_of_mul hsp hn
  have hfam : a.alg.family = some .plain := by rcases ha with e | e <;> rw [e] <;> rfl
  have hg := (vr_disk hs hsub h).1
  obtain ⟨hok', hinfo, w, W, U, hw, h6, h7, h8, h9, h10, h11⟩ := loaded_state hs hsub h ha hF hok hu
  have hA := store_ne (vr_inv hs hsub hg).1 hok'
  obtain ⟨e, arr, he, hread, hsurf⟩ := C102_kept_vr (nodata := nodata) (zUp := zUp) (flip := flip) hs hsub hdiv hg ha hF hv hr hn hok' hw hl
    (by rw [← storedUp_congr hinfo]; exact hflip)
  refine ⟨e, arr, by rw [h6]; exact he, ?_, hsurf⟩
  -- the tiles of `w` can be read
  have hH : VRHistory env size sub bs fl .plain s w A := history_requeried (history_after hg hfam (hF.imp Eq.symm id) hok') hw
  have hinv := (vr_inv hs hsub hH).1
  have hleaf : ∀ t, w.Leaf t → LeafRule r n l (CellRule a.alg l) t :=
    leaves_requeried (fun t u hq => leaves_queried (leafRule_queried (rule_saved hl) (writtenLayers_core (rule_written hl))) hq) hw (fun t ht => by
      obtain ⟨r', -, hr'⟩ := (Grid.leaves_vr hs hsub hg hv hok').1 t ht
      exact leaf_rule hsp hrp hn hr' ha hF hr hl)
  have R := Grid.retrieves_sub (size := size) (bs := bs) (retrieves_shaped env (shaped_tile env .plain (sub := 0) (bs := false) (fl := fl) hsp)) (answers_shaped env (shaped_tile env .plain hsp))
      (fun {x y t A} _ hc => by
        have hc : t.cells ≠ [] := hc t rfl
        show Except.ok (!t.cells.isEmpty) = _
        cases he : t.cells with
        | nil => exact absurd he hc
        | cons p ps => rfl) (fun l hl => writtenLayers_core hl) hs hsub hdiv
  rcases hinv.body with ⟨e, -⟩ | ⟨-, i, j, nx, ny, T, hf, -⟩
  · exact absurd e hA
  have hTW : W = T := by have := hf.tiles; rw [h7] at this; cases this; rfl
  subst hTW
  have hwf : W.WF := by show W.flat.length = _; rw [hf.rep.2.2.1, hf.rep.1, hf.rep.2.1]
  have htx : w.txs.length = W.cols := by rw [hf.txs, originsOf_length, hf.rep.2.1]
  have hrep : ∀ k t, w.tile? k = some (some t) → (∀ z, ∃ o, LayerLike.getLayer env t l r nodata z = (t, .ok o)) ∧ LayerLike.probe t = .ok true := by
    intro k t hk
    have hk' : W.flat[k]? = some (some t) := by unfold tile? at hk; rw [h7] at hk; exact hk
    have hat : w.TileAt (k / W.cols) (k % W.cols) t := ⟨W, h7, by rw [← Arr2.flat_getElem?_eq W hwf (List.getElem?_eq_some_iff.1 hk').1]; exact hk'⟩
    have hcells : ∀ x, HasLeaves.leaf t x → x.cells ≠ [] := fun x hx => leafRule_cells (hleaf x ⟨_, _, t, hat, hx⟩)
    obtain ⟨-, -, hR, -⟩ := frame_tileAt hf.toReady hat
    refine ⟨fun z => ?_, R.probe hR hcells⟩
    obtain ⟨m, o, -, h1, -⟩ := R.ok nodata z hR hcells (rule_written hl) hrp hn
    exact ⟨o, h1⟩
  have hsz : w.tileSize = size := hinv.tileSize
  have hcell : cellsAlong size r = .ok (q * n) := by
    have : size = ((q * n : Nat) : ℚ) * r := by rw [hdiv, hn]; push_cast; ring
    rw [this]
    exact cellsAlong_mul hrp (q * n)
  have hren : ∀ (t v : Grid Tile) z o, v = t.renumber v → LayerLike.getLayer env t l r nodata z = (t, .ok o) → LayerLike.getLayer env v l r nodata z = (v, .ok o) := by
    intro t v z o hv ho
    have ho : Grid.getLayer env t l r nodata z = (t, .ok o) := ho
    show Grid.getLayer env v l r nodata z = (v, .ok o)
    rw [hv, getLayer_renumber, ho, ← hv]
  -- the first tile of `u` is a tile of `w`
  obtain ⟨k0, hk0, hbefore⟩ := hfirst
  have hno : u.noGrid = .ok false := by
    unfold noGrid
    rw [h8, present_head h8 hk0 hbefore]
    have hp : LayerLike.probe v = .ok true := by
      have hk0' : U.flat[k0]? = some (some v) := by unfold tile? at hk0; rw [h8] at hk0; exact hk0
      have hlt : k0 < W.flat.length := by
        have := (List.getElem?_eq_some_iff.1 hk0').1
        have hd := congrArg (fun x => x.2.2) h9
        simp only [Arr2.dims] at hd
        omega
      obtain ⟨o, ho⟩ : ∃ o, w.tile? k0 = some o := by
        refine ⟨W.flat[k0], ?_⟩
        unfold tile?
        rw [h7]
        exact List.getElem?_eq_getElem hlt
      cases o with
      | some t =>
        obtain ⟨v', e1, e2⟩ := h10 k0 t ho
        rw [hk0] at e1
        cases e1
        have := (hrep k0 t ho).2
        rw [e2]
        exact this
      | none =>
        rcases h11 k0 ho with e1 | ⟨v', e1, e2⟩
        · rw [hk0] at e1; cases e1
        · rw [hk0] at e1
          cases e1
          rw [e2.empty] at hne
          cases hne
    simp only [hp]
    rfl
  have := getLayers_alike (env := env) (l := l) (nodata := nodata) (zUp := zUp) h6 h7 h8 h9 hwf htx
    (fun k t hk => by
      obtain ⟨v, e1, e2⟩ := h10 k t hk
      obtain ⟨o, ho⟩ := (hrep k t hk).1 (w.flips zUp)
      exact ⟨v, o, e1, ho, hren t v _ o e2 ho⟩)
    (fun k hk => by
      rcases h11 k hk with e1 | ⟨v, e1, e2⟩
      · exact .inl e1
      · exact .inr ⟨v, e1, getLayer_emptied env e2 hrp hcell l nodata (w.flips zUp)⟩)
    (by rw [hsz]; exact hcell) hrp hno (noGrid_of_read hread)
  rw [this, hread]

/-- **C102 does not hold**, in general: if the first tile of a grid is an empty subgrid, every reading of layers fails with AttributeError. -/
theorem C102_empty_first {u : Grid (Grid Tile)} {v : Grid Tile} (hfirst : FirstTile u v) (he : v.isEmpty = true) (env : Env) (layers : List Layer) (res nodata : Option ℚ) (zUp : Bool) :
    u.getLayersByName env layers res nodata zUp = (u, .error .attributeError) := by
  obtain ⟨k, hk, hj⟩ := hfirst
  obtain ⟨U, hU⟩ : ∃ U, u.tiles = some U := by
    rcases Option.eq_none_or_eq_some u.tiles with e | e
    · unfold tile? at hk; rw [e] at hk; cases hk
    · exact e
  have hp : v.present = [] := by
    unfold present
    cases hT : v.tiles with
    | none => rfl
    | some T =>
      unfold isEmpty at he
      rw [hT] at he
      simp only [Bool.not_eq_true', List.any_eq_false] at he
      simp only [List.filterMap_eq_nil_iff, id_eq]
      intro o ho
      cases o with
      | none => rfl
      | some t => exact absurd rfl (he _ ho)
  have hno : u.noGrid = .error .attributeError := by
    unfold noGrid
    rw [hU, present_head hU hk hj]
    show (Grid.probe v).map _ = _
    unfold Grid.probe
    rw [hp]
    rfl
  unfold getLayersByName
  rw [hno]

/-- the middle subgrid was emptied and is still in the folder; the grid that is loaded shows the surface -/
example : ∃ u : Grid (Grid Tile), loadD (gridWithD demoEnv .numpy { alg := .mean, res := some 2 } none diskGap).st.2.now = .ok u ∧ (∃ w, u.tile? 1 = some (some w) ∧ w.isEmpty = true) ∧
    ∃ e arr, u.extents = some e ∧ u.getLayersByName demoEnv [.depth] (some 2) none false = (u, .ok (some [arr])) ∧
      SurfaceOf (MeanCell round3 Pt.z) (shownCell .depth none false) (Store.allPts [("a", [⟨3, 5, 10, 1, 1⟩, ⟨70, 5, 11, 1, 1⟩])]) 2 e arr := by
  obtain ⟨u, h1, h2, h3⟩ := Except.exists_ok (x := loadD (τ := Grid Tile) (gridWithD demoEnv .numpy { alg := .mean, res := some 2 } none diskGap).st.2.now)
    (p := fun u => (u.tile? 0).join.map Grid.isEmpty = some false ∧ (u.tile? 1).join.map Grid.isEmpty = some true) (by decide +kernel)
  have ex : ∀ k x, (u.tile? k).join.map Grid.isEmpty = some x → ∃ v, u.tile? k = some (some v) ∧ v.isEmpty = x := by
    intro k x h
    rcases hk : u.tile? k with _ | _ | v
    · rw [hk] at h; cases h
    · rw [hk] at h; cases h
    · rw [hk] at h; exact ⟨v, rfl, by simpa using h⟩
  obtain ⟨v, h4, h5⟩ := ex 0 _ h2
  exact ⟨u, h1, ex 1 _ h3, C102_loaded_vr_partial (n := 8) (q := 2) (dask := none) (a := { alg := .mean, res := some 2 }) (by norm_num) (by decide +kernel) (by norm_num) diskGap_history (.inl rfl)
    (.inl rfl) (.inl rfl) rfl (by norm_num) (by decide +kernel) (.inl rfl) (no_flip (by decide +kernel)) h1 ⟨0, h4, fun j hj => absurd hj (Nat.not_lt_zero j)⟩ h5⟩

/-- the first subgrid was emptied -/
example : ∃ u : Grid (Grid Tile), loadD (gridWithD demoEnv .numpy { alg := .mean, res := some 2 } none diskFirst).st.2.now = .ok u ∧
    ∀ (env : Env) (layers : List Layer) (res nodata : Option ℚ) (zUp : Bool), u.getLayersByName env layers res nodata zUp = (u, .error .attributeError) := by
  obtain ⟨u, h1, h2⟩ := Except.exists_ok (x := loadD (τ := Grid Tile) (gridWithD demoEnv .numpy { alg := .mean, res := some 2 } none diskFirst).st.2.now)
    (p := fun u => (u.tile? 0).join.map Grid.isEmpty = some true) (by decide +kernel)
  rcases hk : u.tile? 0 with _ | _ | v
  · rw [hk] at h2; cases h2
  · rw [hk] at h2; cases h2
  · rw [hk] at h2
    exact ⟨u, h1, fun env layers res nodata zUp => C102_empty_first ⟨0, hk, fun j hj => absurd hj (Nat.not_lt_zero j)⟩ (by simpa using h2) env layers res nodata zUp⟩

end Bathy
