import Verif.Lemmas.LayerStored
import Verif.Props.Layers
import Verif.Props.GridResolutions

/-!
# C35, C64: layers of a grid that has just been gridded
-/

namespace Bathy

/-- the history goes on with the family of the algorithm -/
theorem history_after {τ : Type} [GridLike τ] [Queried τ] {env : Env} {g0 g : Grid τ} {fl : Fields} {F F' : Family} {s : Bool} {A : Store} (h : GridHistory env g0 fl F s g A)
    {a : GridCall} (ha : a.alg.family = some F') (hF : F' = F ∨ a.clear = true) {dask : Option Nat} (hok : (g.gridWith env a dask).err = none) :
    GridHistory env g0 fl F' s (g.gridWith env a dask).st A := by
  rcases hF with rfl | hc
  · exact h.grid a ha dask
  · exact h.switch a ha hc dask hok

variable {τ : Type} [GridLike τ] {size sub : ℚ} {bs : Bool} {fl : Fields} {env : Env}

theorem store_ne [LawfulGrid τ] {C : ChildSpec τ size sub bs fl} {g : Grid τ} {A : Store} (hg : Grid.GrowInv C g A)
    {a : GridCall} {dask : Option Nat} (hok : (g.gridWith env a dask).err = none) : A ≠ [] := by
  obtain ⟨h1, -⟩ := Grid.gridWith_at hok
  rintro rfl
  rcases hg.body with ⟨-, h2, -⟩ | ⟨h2, -⟩
  · unfold Grid.isEmpty at h1; rw [h2] at h1; simp at h1
  · exact h2 rfl

/-- a grid with soundings has a leaf -/
theorem grow_leaf [Holds τ] [HasLeaves τ] (hs : 0 < size) {C : ChildSpec τ size sub bs fl} (L : LeafNe C) {g : Grid τ} {A : Store} (hg : Grid.GrowInv C g A) (hA : A ≠ []) : ∃ u, g.Leaf u := by
  have hr := Grid.grow_reps hg
  rcases hg.body with ⟨h1, -⟩ | ⟨-, i, j, nx, ny, T, hf, -⟩
  · exact absurd h1 hA
  · have he := Grid.frame_isEmpty C hs hf.toReady hg.ne
    rw [decide_eq_false hA] at he
    unfold Grid.isEmpty at he
    rw [hf.tiles] at he
    simp only [Bool.not_eq_false', List.any_eq_true] at he
    obtain ⟨o, ho, hs⟩ := he
    obtain ⟨t, rfl⟩ := Option.isSome_iff_exists.1 hs
    obtain ⟨k, hk⟩ := List.mem_iff_getElem?.1 ho
    rw [Arr2.flat_getElem?_eq T (hr.2 T hf.tiles) (List.getElem?_eq_some_iff.1 hk).1] at hk
    have ht : g.TileAt (k / T.cols) (k % T.cols) t := ⟨T, hf.tiles, hk⟩
    obtain ⟨x, y, B, hB⟩ := hr.1 _ _ t ht
    obtain ⟨u, hu⟩ := L.ex hB
    exact ⟨u, _, _, t, ht, hu⟩

omit [GridLike τ] in
/-- a leaf stores what its own layers hold -/
theorem stored_of_leaf [HasLeaves τ] {t : τ} {u : Tile} (hu : HasLeaves.leaf t u) {l : Layer} {res x y z : ℚ} (h : StoredCell u l res x y z) : StoredCell t l res x y z := by
  obtain ⟨u', ls, a, i, j, h1, h2⟩ := h
  have h1 : u' = u := h1
  subst h1
  exact ⟨u', ls, a, i, j, hu, h2⟩

/-- after mean or shoalest every tile stores all the layers or none -/
theorem runs_allOrNone [Holds τ] [HasLeaves τ] {C : ChildSpec τ size sub bs fl} (L : LeafNe C) {F : Family} {g : Grid τ} {A : Store} (hg : Grid.GrowInv C g A) {a : GridCall}
    {w : ℚ} {bs' : Bool} (hw : 0 < w) (ha : a.alg = .mean ∨ a.alg = .shoalest) (hF : F = .plain ∨ a.clear = true) (hruns : ∀ u, g.Leaf u → ∃ r, LeafRun env fl F w bs' a u r)
    {res : ℚ} (hr : a.res = some res ∨ a.clear = true) {layers : List Layer} (hl : ∀ l ∈ layers, l ∈ writtenLayers .plain bs' fl) : g.AllOrNone layers res := by
  intro r c t ht
  have hfam : a.alg.family = some .plain := by rcases ha with e | e <;> rw [e] <;> rfl
  obtain ⟨x, y, B, hB⟩ := (Grid.grow_reps hg).1 r c t ht
  by_cases hex : ∃ u, HasLeaves.leaf t u ∧ LeafRun env fl F w bs' a u res
  · obtain ⟨u, hu, hrun⟩ := hex
    refine Or.inl fun l h => ?_
    obtain ⟨x, y, z, hz⟩ := leafRun_stored hw hrun ha hF (L.ne hB hu) (hl l h)
    exact ⟨x, y, z, stored_of_leaf hu hz⟩
  · refine Or.inr fun l h x y z hz => ?_
    obtain ⟨u, ls, arr, i, j, hu, h1, -⟩ := hz
    obtain ⟨r', hrun⟩ := hruns u ⟨r, c, t, ht, hu⟩
    refine hex ⟨u, hu, ?_⟩
    have : r' = res := by
      rcases hr with hr | hr
      · obtain ⟨-, -, -, -, -, -, h4, -⟩ := leafRun_call (F' := .plain) hrun (hF.imp Eq.symm id)
        exact h4 res hr
      · obtain ⟨-, ls', h5, -⟩ := leafRun_only hw hrun hfam hr
        rw [h5] at h1
        by_contra hne
        simp [Dict.get?, hne] at h1
    rw [← this]; exact hrun

variable {F : Family} {s : Bool} {A : Store} {a : GridCall} {dask : Option Nat} {layers : List Layer} {res : ℚ}

/-- **C35** right after gridding by mean or shoalest (all tiles, any number of workers), at one resolution or, when the existing layers are
cleared, at a resolution of its own for each tile; for any list of different layers that gridding writes: each is returned in its own slot. -/
theorem C35_after_gridding_sr (hs : 0 < size) {g : Grid Tile} (h : SRHistory env size bs fl F s g A) (ha : a.alg = .mean ∨ a.alg = .shoalest) (hF : F = .plain ∨ a.clear = true)
    (hv : a.regrid = .full ∨ a.clear = true) (hr : a.res = some res ∨ a.clear = true) (hres : 0 < res) (hok : (g.gridWith env a dask).err = none)
    (hl : ∀ l ∈ layers, l ∈ writtenLayers .plain bs fl) (hnd : layers.Nodup) {nodata : Option ℚ} {zUp : Bool} {g' : Grid Tile} {o : Option (List LayerArr)}
    (hq : (g.gridWith env a dask).st.getLayersByName env layers (some res) nodata zUp = (g', .ok o)) :
    MosaicSpec (g.gridWith env a dask).st layers res nodata zUp g' o := by
  have hfam : a.alg.family = some .plain := by rcases ha with e | e <;> rw [e] <;> rfl
  have h1 : SRHistory env size bs fl .plain s (g.gridWith env a dask).st A := history_after h hfam (hF.imp Eq.symm id) hok
  have hruns := fun u hu => (Grid.leaves_sr hs h hv hok).1 u hu
  exact mosaic_of_answers (answers_tile env .plain hs) (sr_inv hs h1).1 (fun l h => writtenLayers_core (hl l h)) hnd hres
    (runs_allOrNone (leafNe_tile env .plain hs) (sr_inv hs h1).1 hs ha hF (fun u hu => (hruns u hu).imp fun _ h => h.2) hr hl) hq

/-- **C35** right after gridding, variable resolution grids. -/
theorem C35_after_gridding_vr (hs : 0 < size) (hpow : isPowerOfTwo sub = true) {q : Nat} (hdiv : size = (q : ℚ) * sub) {g : Grid (Grid Tile)}
    (h : VRHistory env size sub bs fl F s g A) (ha : a.alg = .mean ∨ a.alg = .shoalest) (hF : F = .plain ∨ a.clear = true)
    (hv : a.regrid = .full ∨ a.clear = true) (hr : a.res = some res ∨ a.clear = true) (hres : 0 < res) (hok : (g.gridWith env a dask).err = none)
    (hl : ∀ l ∈ layers, l ∈ writtenLayers .plain false fl) (hnd : layers.Nodup) {nodata : Option ℚ} {zUp : Bool} {g' : Grid (Grid Tile)} {o : Option (List LayerArr)}
    (hq : (g.gridWith env a dask).st.getLayersByName env layers (some res) nodata zUp = (g', .ok o)) :
    MosaicSpec (g.gridWith env a dask).st layers res nodata zUp g' o := by
  have hfam : a.alg.family = some .plain := by rcases ha with e | e <;> rw [e] <;> rfl
  have h1 : VRHistory env size sub bs fl .plain s (g.gridWith env a dask).st A := history_after h hfam (hF.imp Eq.symm id) hok
  have hsub := isPowerOfTwo_pos hpow
  have hruns := fun u hu => (Grid.leaves_vr hs hpow h hv hok).1 u hu
  exact mosaic_of_answers (Grid.answers_sub (answers_tile env .plain hsub) hs hpow hdiv) (vr_inv hs hpow h1).1 (fun l h => writtenLayers_core (hl l h)) hnd hres
    (runs_allOrNone (leafNe_sub (leafNe_tile env .plain hsub) hs hpow) (vr_inv hs hpow h1).1 hsub ha hF (fun u hu => (hruns u hu).imp fun _ h => h.2) hr hl) hq

/-- after a run that returned all tiles have layers -/
theorem leafRun_cells {w : ℚ} {bs' : Bool} {F' : Family} {u : Tile} {r : ℚ} (hw : 0 < w) (h : LeafRun env fl F w bs' a u r) (ha : a.alg.family = some F') (hF : F' = F ∨ a.clear = true) :
    u.cells ≠ [] := by
  obtain ⟨-, d, hd, -⟩ := leafRun_density hw h ha hF
  intro he
  unfold Tile.layerAt at hd
  rw [he] at hd
  simp [Dict.get?] at hd

/-- **C64** (single resolution grids).  After a gridding run of any algorithm that returned, the layers that it wrote can be retrieved at every
resolution that divides the tiles evenly: nothing is raised, and for mean and shoalest at one resolution something is found. -/
theorem C64_retrievable_sr_partial (hs : 0 < size) {g : Grid Tile} (h : SRHistory env size bs fl F s g A) {F' : Family} (ha : a.alg.family = some F') (hF : F' = F ∨ a.clear = true)
    (hv : a.regrid = .full ∨ a.clear = true) (hok : (g.gridWith env a dask).err = none) (hl : ∀ l ∈ layers, l ∈ writtenLayers F' bs fl) (hres : 0 < res) {m : Nat}
    (hm : size = (m : ℚ) * res) (nodata : Option ℚ) (zUp : Bool) :
    ∃ o, ((g.gridWith env a dask).st.getLayersByName env layers (some res) nodata zUp).2 = .ok o ∧
      ((a.alg = .mean ∨ a.alg = .shoalest) → a.res = some res → layers ≠ [] → layers.Nodup → o ≠ none) := by
  have h1 : SRHistory env size bs fl F' s (g.gridWith env a dask).st A := history_after h ha hF hok
  have hA := store_ne (sr_inv hs h).1 hok
  have hruns := fun u hu => (Grid.leaves_sr hs h hv hok).1 u hu
  obtain ⟨o, ho⟩ := Grid.grow_retrieves (retrieves_tile env F' (sub := 0) hs) (sr_inv hs h1).1 hA (fun u hu => by obtain ⟨r, -, hr⟩ := hruns u hu; exact leafRun_cells hs hr ha hF)
    hl hres hm hm nodata zUp
  refine ⟨o, ho, fun hal har hne hnd hno => ?_⟩
  have hF' : F' = .plain := by rcases hal with e | e <;> (rw [e] at ha; exact (Option.some.inj ha).symm)
  subst hF'
  have hsp := (C35_after_gridding_sr hs h hal (hF.imp Eq.symm id) hv (Or.inl har) hres hok hl hnd (Prod.ext_iff.2 ⟨rfl, ho⟩)).none_iff.1 hno
  obtain ⟨l, hl'⟩ := List.exists_mem_of_ne_nil _ hne
  obtain ⟨u, hu⟩ := grow_leaf hs (leafNe_tile env .plain hs) (sr_inv hs h1).1 hA
  obtain ⟨r, -, hrun⟩ := hruns u hu
  obtain ⟨-, -, -, -, -, -, h4, -⟩ := leafRun_call (F' := .plain) hrun hF
  rw [h4 res har] at hrun
  obtain ⟨i, j, t, ht, hut⟩ := hu
  obtain ⟨x, y, B, hB⟩ := (Grid.grow_reps (sr_inv hs h1).1).1 i j t ht
  obtain ⟨x, y, z, hz⟩ := leafRun_stored hs hrun hal (hF.imp Eq.symm id) ((leafNe_tile env .plain hs).ne hB hut) (hl l hl')
  exact hsp l hl' x y z (Grid.stored_grid.2 ⟨i, j, t, ht, stored_of_leaf hut hz⟩)

/-- **C64** (variable resolution grids): every resolution that divides the subgrid tiles evenly. -/
theorem C64_retrievable_vr_partial (hs : 0 < size) (hpow : isPowerOfTwo sub = true) {q : Nat} (hdiv : size = (q : ℚ) * sub) {g : Grid (Grid Tile)}
    (h : VRHistory env size sub bs fl F s g A) {F' : Family} (ha : a.alg.family = some F') (hF : F' = F ∨ a.clear = true)
    (hv : a.regrid = .full ∨ a.clear = true) (hok : (g.gridWith env a dask).err = none) (hl : ∀ l ∈ layers, l ∈ writtenLayers F' false fl) (hres : 0 < res) {m : Nat}
    (hm : sub = (m : ℚ) * res) (nodata : Option ℚ) (zUp : Bool) :
    ∃ o, ((g.gridWith env a dask).st.getLayersByName env layers (some res) nodata zUp).2 = .ok o ∧
      ((a.alg = .mean ∨ a.alg = .shoalest) → a.res = some res → layers ≠ [] → layers.Nodup → o ≠ none) := by
  have h1 : VRHistory env size sub bs fl F' s (g.gridWith env a dask).st A := history_after h ha hF hok
  have hsub := isPowerOfTwo_pos hpow
  have hA := store_ne (vr_inv hs hpow h).1 hok
  have hruns := fun u hu => (Grid.leaves_vr hs hpow h hv hok).1 u hu
  obtain ⟨o, ho⟩ := Grid.grow_retrieves (n0 := q * m) (Grid.retrieves_sub (retrieves_tile env F' (sub := 0) hsub) (answers_tile env F' hsub)
      (fun {x y t A} _ hc => by
        have hc : t.cells ≠ [] := hc t rfl
        show Except.ok (!t.cells.isEmpty) = _
        cases he : t.cells with
        | nil => exact absurd he hc
        | cons p ps => rfl) (fun l hl => writtenLayers_core hl) hs hpow hdiv)
    (vr_inv hs hpow h1).1 hA (fun u hu => by obtain ⟨r, -, hr⟩ := hruns u hu; exact leafRun_cells hsub hr ha hF)
    hl hres hm (by rw [hdiv, hm]; push_cast; ring) nodata zUp
  refine ⟨o, ho, fun hal har hne hnd hno => ?_⟩
  have hF' : F' = .plain := by rcases hal with e | e <;> (rw [e] at ha; exact (Option.some.inj ha).symm)
  subst hF'
  have hsp := (C35_after_gridding_vr hs hpow hdiv h hal (hF.imp Eq.symm id) hv (Or.inl har) hres hok hl hnd (Prod.ext_iff.2 ⟨rfl, ho⟩)).none_iff.1 hno
  obtain ⟨l, hl'⟩ := List.exists_mem_of_ne_nil _ hne
  have hLn := leafNe_sub (bs := bs) (leafNe_tile env .plain (sub := 0) (bs := false) (fl := fl) hsub) hs hpow
  obtain ⟨u, hu⟩ := grow_leaf hs hLn (vr_inv hs hpow h1).1 hA
  obtain ⟨r, -, hrun⟩ := hruns u hu
  obtain ⟨-, -, -, -, -, -, h4, -⟩ := leafRun_call (F' := .plain) hrun hF
  rw [h4 res har] at hrun
  obtain ⟨i, j, t, ht, hut⟩ := hu
  obtain ⟨x, y, B, hB⟩ := (Grid.grow_reps (vr_inv hs hpow h1).1).1 i j t ht
  obtain ⟨x, y, z, hz⟩ := leafRun_stored hsub hrun hal (hF.imp Eq.symm id) (hLn.ne hB hut) (hl l hl')
  exact hsp l hl' x y z (Grid.stored_grid.2 ⟨i, j, t, ht, stored_of_leaf hut hz⟩)

/-- the hypotheses of C35 and C64 are met: several tiles, three layers, both kinds of grids -/
example : SRHistory demoEnv 16 false demoFields .plain false demoSR demoStore ∧ VRHistory demoEnv 32 16 false demoFields .plain false demoVR demoStore ∧
    (demoSR.gridWith demoEnv { alg := .mean, res := some 8 } none).err = none ∧ (demoVR.gridWith demoEnv { alg := .shoalest, res := none, clear := true } (some 2)).err = none ∧
    (∀ l ∈ [Layer.density, .depth, .vertical], l ∈ writtenLayers .plain false demoFields) ∧ [Layer.density, .depth, .vertical].Nodup ∧ (16 : ℚ) = ((2 : Nat) : ℚ) * 8 ∧
    (32 : ℚ) = ((2 : Nat) : ℚ) * 16 :=
  ⟨demoSR_history, demoVR_history, by decide +kernel, by decide +kernel, by decide +kernel, by decide +kernel, by norm_num, by norm_num⟩

/-- **C64 is violated** without "divides the tiles evenly" and without "all tiles": a grid may be gridded at a resolution larger than its tiles,
after which its layers cannot be retrieved; and a variable resolution grid to which soundings were added after gridding refuses to return the layers
it has. -/
theorem C64_violated :
    ((demoSR.gridWith demoEnv { alg := .mean, res := some 32 } none).err = none ∧ 32 ∈ (demoSR.gridWith demoEnv { alg := .mean, res := some 32 } none).st.resolutions ∧
      ((demoSR.gridWith demoEnv { alg := .mean, res := some 32 } none).st.getLayersByName demoEnv [.depth] (some 32) none false).2 = .error .assertion) ∧
    (∃ x y z, StoredCell demoVR .depth 2 x y z) ∧ (demoVR.getLayersByName demoEnv [.depth] (some 2) none false).2 = .error .valueError := by
  refine ⟨⟨by decide +kernel, by decide +kernel, by decide +kernel⟩, ?_, by decide +kernel⟩
  obtain ⟨t, ht, hP⟩ := Grid.exists_tileAt_any (g := demoVR) (r := 0) (c := 1) (fun t => ((t.tiles.bind (fun T => T.get? 0 0)).join).any (fun u =>
    (u.layerAt 2 .depth).any (fun a => decide (a.get? 3 1 = some (some (13))))) ) (by decide +kernel)
  obtain ⟨u, hu, hQ⟩ := Grid.exists_tileAt_any _ hP
  obtain ⟨a, ha, hz⟩ := (Option.any_eq_true _ _).1 hQ
  obtain ⟨x, y, z, h⟩ := stored_of_layerAt ha ⟨3, 1, _, of_decide_eq_true hz⟩
  exact ⟨x, y, z, Grid.stored_grid.2 ⟨0, 1, t, ht, Grid.stored_grid.2 ⟨0, 0, u, hu, h⟩⟩⟩

end Bathy
