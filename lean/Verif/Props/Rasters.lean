import Verif.Props.Chunks

/-!
# C43, C65, C66: the rasters that `get_chunks_of_tiles` yields
-/

namespace Bathy

theorem bands_get {c : Chunk} {layers : List Layer} (hk : c.data.keys = layers) (hnd : layers.Nodup) {k : Nat} {l : Layer} (hl : layers[k]? = some l) {a : LayerArr} (ha : c.data.get? l = some a) :
    (bands c)[k]? = some (transpose a) := by
  have h1 := Dict.mem_of_get? _ ha
  obtain ⟨i, hi⟩ := List.mem_iff_getElem?.1 h1
  have h2 : layers[i]? = some l := by rw [← hk]; unfold Dict.keys; rw [List.getElem?_map, hi]; rfl
  have : i = k := by
    obtain ⟨b1, e1⟩ := List.getElem?_eq_some_iff.1 h2
    obtain ⟨b2, e2⟩ := List.getElem?_eq_some_iff.1 hl
    exact (List.Nodup.getElem_inj_iff hnd).1 (e1.trans e2.symm)
  subst this
  unfold bands
  rw [List.getElem?_map, hi]; rfl

/-- the nodata value in force at a layer -/
theorem sticky_eq {nodata : Option ℚ} {layers : List Layer} {k : Nat} {l : Layer} (hk : layers[k]? = some l)
    (h : (∀ i < k, layers[i]? ≠ some .density ∧ layers[i]? ≠ some .hypCount) ∨ fillValue .density nodata = nodata) :
    stickyNodata nodata (layers.take (k + 1)) = fillValue l nodata := by
  have hlast : layers.take (k + 1) = layers.take k ++ [l] := by rw [List.take_add_one, hk]; rfl
  have hpre : stickyNodata nodata (layers.take k) = nodata := by
    rcases h with h | h
    · have hall : ∀ l' ∈ layers.take k, l' ≠ .density ∧ l' ≠ .hypCount := by
        intro l' hl'
        obtain ⟨i, hi⟩ := List.mem_iff_getElem?.1 hl'
        rw [List.getElem?_take] at hi
        split at hi
        · rename_i hik
          have := h i hik
          rw [hi] at this
          exact ⟨fun e => this.1 (by rw [e]), fun e => this.2 (by rw [e])⟩
        · cases hi
      generalize layers.take k = ls at hall
      unfold stickyNodata
      induction ls with
      | nil => rfl
      | cons a ls ih =>
        rw [List.foldl_cons]
        have ha := hall a (by simp)
        have : Tile.nodataFor a nodata = nodata := by rw [fillValue_eq]; unfold fillValue; rw [if_neg (by simp [ha.1, ha.2])]
        rw [this]
        exact ih (fun l' hl' => hall l' (by simp [hl']))
    · generalize layers.take k = ls
      unfold stickyNodata
      induction ls with
      | nil => rfl
      | cons a ls ih =>
        rw [List.foldl_cons]
        have : Tile.nodataFor a nodata = nodata := by
          rw [fillValue_eq]
          by_cases ha : a = .density ∨ a = .hypCount
          · have : fillValue a nodata = fillValue .density nodata := by unfold fillValue; rw [if_pos ha, if_pos (Or.inl rfl)]
            rw [this, h]
          · unfold fillValue; rw [if_neg ha]
        rw [this]
        exact ih
  rw [hlast]
  unfold stickyNodata at hpre ⊢
  rw [List.foldl_append, hpre]
  exact fillValue_eq _ _

/-- all that is shown about chunks of a grid whose tiles have a geotransform -/
theorem chunks_grow {τ : Type} [LayerLike τ] [TileLike τ] [HasLeaves τ] {size sub : ℚ} {bs : Bool} {fl : Fields} {env : Env} {C : ChildSpec τ size sub bs fl} (L : Grid.Answers env C) (hgo : Grid.GeoOk C) (hs : 0 < size) {g : Grid τ} {A : Store}
    (hg : Grid.GrowInv C g A) {layers : List Layer} (hcore : ∀ l ∈ layers, l.isCore = true) (hnd : layers.Nodup) {res : ℚ} (hres : 0 < res)
    (hgeo : ∀ r c t, g.TileAt r c t → LayerLike.geo t res ≠ none) (nodata : Option ℚ) (zUp : Bool) (d : Option ℚ) :
    ExportSpec g layers res (g.flips zUp) (g.getChunks env res layers nodata zUp d true) ∧
    (∀ c ∈ (g.getChunks env res layers nodata zUp d true).st.2, ∀ ge, c.geo = some ge → ∀ (k : Nat) l, layers[k]? = some l →
      ((∀ i < k, layers[i]? ≠ some .density ∧ layers[i]? ≠ some .hypCount) ∨ fillValue .density nodata = nodata) →
      ∃ a, (bands c)[k]? = some a ∧ PixelsEmpty g l res ge.x0 ge.y0 (fillValue l nodata) a) ∧
    (∀ c ∈ (g.getChunks env res layers nodata zUp d true).st.2, ∀ a ∈ bands c,
      ((a.rows : ℚ) * res = size ∧ (a.cols : ℚ) * res = size → c.maxDim = 0) ∧
      (¬ ((a.rows : ℚ) * res = size ∧ (a.cols : ℚ) * res = size) → c.maxDim = max ((a.rows : ℚ) * res) ((a.cols : ℚ) * res))) := by
  rcases hg.body with ⟨h1, h2, -⟩ | ⟨-, i, j, nx, ny, T, hf, he⟩
  · have : g.getChunks env res layers nodata zUp d true = .fail (g, []) .valueError := by
      unfold Grid.getChunks Grid.tileChunkIndices
      rw [h2]
    rw [this]
    refine ⟨⟨fun c hc => (by cases hc), .nil, fun c hc => (by cases hc), fun h => (by cases h)⟩, fun c hc => (by cases hc), fun c hc => (by cases hc)⟩
  · obtain ⟨hr, hc⟩ := Grid.chunks_right (nodata := nodata) (zUp := zUp) L hgo hs hf.toReady hcore hnd hres hgeo d
    generalize g.getChunks env res layers nodata zUp d true = out at hr hc
    refine ⟨⟨?_, hr.apart, fun c hc' => (hc c hc').choose_spec.choose_spec.2.2.2, hr.all⟩, ?_, ?_⟩
    · intro c hc
      obtain ⟨k1, ge, k2, k3, k4⟩ := hr.right c hc
      refine ⟨?_, ge, k2, k3, ?_⟩
      · rw [← k1]; simp [bands, Dict.keys]
      · intro k l hl
        obtain ⟨a, ha, hp, -⟩ := k4 k l hl
        exact ⟨_, bands_get k1 hnd hl ha, hp⟩
    · intro c hc ge hge k l hl hcond
      obtain ⟨k1, ge', k2, k3, k4⟩ := hr.right c hc
      rw [hge] at k2; cases k2
      obtain ⟨a, ha, -, hp⟩ := k4 k l hl
      exact ⟨_, bands_get k1 hnd hl ha, hp (sticky_eq hl hcond)⟩
    · intro c hc' a ha
      obtain ⟨n, idx, hn, hidx, hgood, -⟩ := hc c hc'
      have hsz := cellsAlong_ok hres.ne' hn
      rw [hf.tileSize] at hsz
      have hnpos : 0 < n := Nat.pos_of_ne_zero (by rintro rfl; rw [hsz] at hs; simp at hs)
      unfold bands at ha
      obtain ⟨p, hp, rfl⟩ := List.mem_map.1 ha
      obtain ⟨k, hk⟩ := List.mem_iff_getElem?.1 hp
      have hlk : layers[k]? = some p.1 := by rw [← hgood.keys]; unfold Dict.keys; rw [List.getElem?_map, hk]; rfl
      obtain ⟨X, hX, hrow, hcol, -⟩ := hgood.arr k p.1 hlk
      have hpX : p.2 = fliplrT X := by
        have hnd' : c.data.keys.Nodup := by rw [hgood.keys]; exact hnd
        have := Dict.get?_of_mem _ hnd' hp
        rw [this, if_pos rfl] at hX
        exact Option.some.inj hX
      have er : (transpose p.2).rows = Grid.chunkRows idx * n := by rw [hpX]; exact hrow
      have ec : (transpose p.2).cols = Grid.chunkCols idx * n := by rw [hpX]; exact hcol
      rw [er, ec, hgood.dim]
      have hpos : (0 : ℚ) < n * res := by rw [← hsz]; exact hs
      have hone : ∀ m : Nat, (((m * n : Nat) : ℚ) * res = size ↔ m = 1) := by
        intro m
        rw [hsz]
        push_cast
        rw [mul_assoc]
        constructor
        · intro h
          have h' : (m : ℚ) = 1 := by
            have := mul_right_cancel₀ hpos.ne' (h.trans (one_mul _).symm)
            exact this
          exact_mod_cast h'
        · rintro rfl; simp
      have hlen : (Grid.chunkRows idx = 1 ∧ Grid.chunkCols idx = 1) ↔ idx.length ≤ 1 := by
        obtain ⟨hne, hnd', -⟩ := hidx
        constructor
        · rintro ⟨e1, e2⟩
          unfold Grid.chunkRows at e1
          unfold Grid.chunkCols at e2
          by_contra hlt
          push Not at hlt
          match idx, hlt, hnd' with
          | p :: q :: l, _, hnd' =>
            have := minOf_le (l := (p :: q :: l).map Prod.fst) (x := p.1) (by simp)
            have := minOf_le (l := (p :: q :: l).map Prod.fst) (x := q.1) (by simp)
            have := minOf_le (l := (p :: q :: l).map Prod.snd) (x := p.2) (by simp)
            have := minOf_le (l := (p :: q :: l).map Prod.snd) (x := q.2) (by simp)
            have := le_maxOf (l := (p :: q :: l).map Prod.fst) (x := p.1) (by simp)
            have := le_maxOf (l := (p :: q :: l).map Prod.fst) (x := q.1) (by simp)
            have := le_maxOf (l := (p :: q :: l).map Prod.snd) (x := p.2) (by simp)
            have := le_maxOf (l := (p :: q :: l).map Prod.snd) (x := q.2) (by simp)
            have hpq : p = q := Prod.ext (by omega) (by omega)
            subst hpq
            simp at hnd'
        · intro hle
          match idx, hne, hle with
          | [p], _, _ => simp [Grid.chunkRows, Grid.chunkCols, minOf, maxOf]
      rw [hone, hone, hlen]
      unfold Grid.chunkDim
      exact ⟨fun h => if_pos h, fun h => if_neg h⟩

section
variable {size sub : ℚ} {bs : Bool} {fl : Fields} {env : Env} {F : Family} {s : Bool} {A : Store} {layers : List Layer} {res : ℚ}

/-- the tiles of a single resolution grid have a geotransform at the resolutions that they hold -/
theorem geo_of_has {g : Grid Tile} (h : ∀ u, g.Leaf u → u.cells.has res = true) : ∀ r c t, g.TileAt r c t → LayerLike.geo t res ≠ none := by
  intro r c t ht
  have h1 := h t ⟨r, c, t, ht, rfl⟩
  show (if t.cells.has res then some (Geo.mk t.minX res t.maxY) else none) ≠ none
  rw [if_pos h1]
  simp

/-- **C43** (single resolution grids).  For every reachable grid all of whose tiles hold the resolution, any list of different layers, any maximum
dimension: band `k` of every chunk shows layer `k` where the geotransform of the chunk says (also in the chunks that were yielded before an
exception), no stored cell is in two chunks, and every stored cell is in one if nothing was raised. -/
theorem C43_georeferenced_sr_partial (hs : 0 < size) {g : Grid Tile} (h : SRHistory env size bs fl F s g A) (hcore : ∀ l ∈ layers, l.isCore = true) (hnd : layers.Nodup) (hres : 0 < res)
    (hhas : ∀ u, g.Leaf u → u.cells.has res = true) (nodata : Option ℚ) (zUp : Bool) (d : Option ℚ) :
    ExportSpec g layers res (g.flips zUp) (g.getChunks env res layers nodata zUp d true) :=
  (chunks_grow (answers_tile env F hs) (Grid.geoOk_tile env F hs) hs (sr_inv hs h).1 hcore hnd hres (geo_of_has hhas) nodata zUp d).1

/-- **C43** (variable resolution grids), also for tiles that do not hold the resolution. -/
theorem C43_georeferenced_vr_partial (hs : 0 < size) (hpow : isPowerOfTwo sub = true) {q : Nat} (hdiv : size = (q : ℚ) * sub) {g : Grid (Grid Tile)}
    (h : VRHistory env size sub bs fl F s g A) (hcore : ∀ l ∈ layers, l.isCore = true) (hnd : layers.Nodup) (hres : 0 < res) (nodata : Option ℚ) (zUp : Bool) (d : Option ℚ) :
    ExportSpec g layers res (g.flips zUp) (g.getChunks env res layers nodata zUp d true) :=
  (chunks_grow (Grid.answers_sub (answers_tile env F (isPowerOfTwo_pos hpow)) hs hpow hdiv) (Grid.geoOk_sub hs hpow) hs (vr_inv hs hpow h).1 hcore hnd hres
    (fun _ _ _ ht => by obtain ⟨x, y, B, hB⟩ := (Grid.grow_reps (vr_inv hs hpow h).1).1 _ _ _ ht; exact Grid.geo_sub hs hpow hB res) nodata zUp d).1

/-- **C43** right after gridding a single resolution grid at one resolution: nothing is raised, so that every stored cell of the layers is in exactly
one chunk, at its place. -/
theorem C43_after_gridding_sr (hs : 0 < size) {g : Grid Tile} (h : SRHistory env size bs fl F s g A) {a : GridCall} {dask : Option Nat} {F' : Family} (ha : a.alg.family = some F')
    (hF : F' = F ∨ a.clear = true) (hv : a.regrid = .full ∨ a.clear = true) (hok : (g.gridWith env a dask).err = none) (hl : ∀ l ∈ layers, l ∈ writtenLayers F' bs fl) (hnd : layers.Nodup)
    (hr : a.res = some res) (hres : 0 < res) {m : Nat} (hm : size = (m : ℚ) * res) (nodata : Option ℚ) (zUp : Bool) (d : Option ℚ) :
    ((g.gridWith env a dask).st.getChunks env res layers nodata zUp d true).err = none ∧
    ExportSpec (g.gridWith env a dask).st layers res ((g.gridWith env a dask).st.flips zUp) ((g.gridWith env a dask).st.getChunks env res layers nodata zUp d true) := by
  have h1 : SRHistory env size bs fl F' s (g.gridWith env a dask).st A := history_after h ha hF hok
  have hA := store_ne (sr_inv hs h).1 hok
  have hruns := fun u hu => (Grid.leaves_sr hs h hv hok).1 u hu
  have hcore := fun l hl' => writtenLayers_core (hl l hl')
  have hhas : ∀ u, (g.gridWith env a dask).st.Leaf u → u.cells.has res = true := by
    intro u hu
    obtain ⟨r, -, hrun⟩ := hruns u hu
    obtain ⟨-, -, -, -, -, -, h4, -⟩ := leafRun_call hrun hF
    rw [h4 res hr] at hrun
    obtain ⟨-, dn, hd, -⟩ := leafRun_density hs hrun ha hF
    unfold Tile.layerAt at hd
    obtain ⟨ls, hls, -⟩ := Option.bind_eq_some_iff.1 hd
    rw [← Dict.get?_isSome, hls]; rfl
  refine ⟨?_, C43_georeferenced_sr_partial hs h1 hcore hnd hres hhas nodata zUp d⟩
  obtain ⟨u, r, c, t, ht, -⟩ := grow_leaf hs (leafNe_tile env F' hs) (sr_inv hs h1).1 hA
  rcases (sr_inv hs h1).1.body with ⟨h2, -⟩ | ⟨-, i, j, nx, ny, T, hf, he⟩
  · exact absurd h2 hA
  · exact Grid.chunks_ok (retrieves_tile env F' hs) (answers_tile env F' hs) (Grid.geoOk_tile env F' hs) hs hf.toReady
      (fun u hu => by obtain ⟨r, -, hr⟩ := hruns u hu; exact leafRun_cells hs hr ha hF) hl hcore hnd hres hm hm nodata zUp true (geo_of_has hhas) ⟨r, c, t, ht⟩ d

/-- **C43** right after gridding a variable resolution grid, at every resolution that divides the tiles of the subgrids evenly. -/
theorem C43_after_gridding_vr (hs : 0 < size) (hpow : isPowerOfTwo sub = true) {q : Nat} (hdiv : size = (q : ℚ) * sub) {g : Grid (Grid Tile)}
    (h : VRHistory env size sub bs fl F s g A) {a : GridCall} {dask : Option Nat} {F' : Family} (ha : a.alg.family = some F')
    (hF : F' = F ∨ a.clear = true) (hv : a.regrid = .full ∨ a.clear = true) (hok : (g.gridWith env a dask).err = none) (hl : ∀ l ∈ layers, l ∈ writtenLayers F' false fl) (hnd : layers.Nodup)
    (hres : 0 < res) {m : Nat} (hm : sub = (m : ℚ) * res) (nodata : Option ℚ) (zUp : Bool) (d : Option ℚ) :
    ((g.gridWith env a dask).st.getChunks env res layers nodata zUp d true).err = none ∧
    ExportSpec (g.gridWith env a dask).st layers res ((g.gridWith env a dask).st.flips zUp) ((g.gridWith env a dask).st.getChunks env res layers nodata zUp d true) := by
  have h1 : VRHistory env size sub bs fl F' s (g.gridWith env a dask).st A := history_after h ha hF hok
  have hsub := isPowerOfTwo_pos hpow
  have hA := store_ne (vr_inv hs hpow h).1 hok
  have hruns := fun u hu => (Grid.leaves_vr hs hpow h hv hok).1 u hu
  have hcore := fun l hl' => writtenLayers_core (hl l hl')
  refine ⟨?_, C43_georeferenced_vr_partial hs hpow hdiv h1 hcore hnd hres nodata zUp d⟩
  have hLn := leafNe_sub (bs := bs) (leafNe_tile env F' (sub := 0) (bs := false) (fl := fl) hsub) hs hpow
  obtain ⟨u, r, c, t, ht, -⟩ := grow_leaf hs hLn (vr_inv hs hpow h1).1 hA
  have hreps := (Grid.grow_reps (vr_inv hs hpow h1).1).1
  rcases (vr_inv hs hpow h1).1.body with ⟨h2, -⟩ | ⟨-, i, j, nx, ny, T, hf, he⟩
  · exact absurd h2 hA
  · refine Grid.chunks_ok (n := q * m) (Grid.retrieves_sub (retrieves_tile env F' (sub := 0) hsub) (answers_tile env F' hsub)
      (fun {x y t A} _ hc => by
        have hc : t.cells ≠ [] := hc t rfl
        show Except.ok (!t.cells.isEmpty) = _
        cases he : t.cells with
        | nil => exact absurd he hc
        | cons p ps => rfl) (fun l hl => writtenLayers_core hl) hs hpow hdiv) (Grid.answers_sub (answers_tile env F' hsub) hs hpow hdiv) (Grid.geoOk_sub hs hpow) hs hf.toReady
      (fun u hu => by obtain ⟨r, -, hr⟩ := hruns u hu; exact leafRun_cells hsub hr ha hF) hl hcore hnd hres hm (by rw [hdiv, hm]; push_cast; ring) nodata zUp true
      (fun _ _ _ ht => by obtain ⟨x, y, B, hB⟩ := hreps _ _ _ ht; exact Grid.geo_sub hs hpow hB res) ⟨r, c, t, ht⟩ d

/-- **C65** (single resolution grids).  The pixels without a stored value hold the nodata value, if no count (density, hypothesis count) was asked for
before the layer, or if the nodata value is an integer (the exports use 1000000). -/
theorem C65_nodata_sr_partial (hs : 0 < size) {g : Grid Tile} (h : SRHistory env size bs fl F s g A) (hcore : ∀ l ∈ layers, l.isCore = true) (hnd : layers.Nodup) (hres : 0 < res)
    (hhas : ∀ u, g.Leaf u → u.cells.has res = true) (nodata : Option ℚ) (zUp : Bool) (d : Option ℚ) {c : Chunk} (hc : c ∈ (g.getChunks env res layers nodata zUp d true).st.2) {ge : Geo}
    (hge : c.geo = some ge) {k : Nat} {l : Layer} (hk : layers[k]? = some l)
    (hfirst : (∀ i < k, layers[i]? ≠ some .density ∧ layers[i]? ≠ some .hypCount) ∨ fillValue .density nodata = nodata) :
    ∃ a, (bands c)[k]? = some a ∧ PixelsEmpty g l res ge.x0 ge.y0 (fillValue l nodata) a :=
  (chunks_grow (answers_tile env F hs) (Grid.geoOk_tile env F hs) hs (sr_inv hs h).1 hcore hnd hres (geo_of_has hhas) nodata zUp d).2.1 c hc ge hge k l hk hfirst

/-- **C65** (variable resolution grids). -/
theorem C65_nodata_vr_partial (hs : 0 < size) (hpow : isPowerOfTwo sub = true) {q : Nat} (hdiv : size = (q : ℚ) * sub) {g : Grid (Grid Tile)}
    (h : VRHistory env size sub bs fl F s g A) (hcore : ∀ l ∈ layers, l.isCore = true) (hnd : layers.Nodup) (hres : 0 < res)
    (nodata : Option ℚ) (zUp : Bool) (d : Option ℚ) {c : Chunk} (hc : c ∈ (g.getChunks env res layers nodata zUp d true).st.2) {ge : Geo}
    (hge : c.geo = some ge) {k : Nat} {l : Layer} (hk : layers[k]? = some l)
    (hfirst : (∀ i < k, layers[i]? ≠ some .density ∧ layers[i]? ≠ some .hypCount) ∨ fillValue .density nodata = nodata) :
    ∃ a, (bands c)[k]? = some a ∧ PixelsEmpty g l res ge.x0 ge.y0 (fillValue l nodata) a :=
  (chunks_grow (Grid.answers_sub (answers_tile env F (isPowerOfTwo_pos hpow)) hs hpow hdiv) (Grid.geoOk_sub hs hpow) hs (vr_inv hs hpow h).1 hcore hnd hres
    (fun _ _ _ ht => by obtain ⟨x, y, B, hB⟩ := (Grid.grow_reps (vr_inv hs hpow h).1).1 _ _ _ ht; exact Grid.geo_sub hs hpow hB res) nodata zUp d).2.1 c hc ge hge k l hk hfirst

/-- **C66** (single resolution grids).  The dimension that is yielded with a raster is the larger one of its width and its height, unless the raster is
a single tile. -/
theorem C66_dimension_sr_partial (hs : 0 < size) {g : Grid Tile} (h : SRHistory env size bs fl F s g A) (hcore : ∀ l ∈ layers, l.isCore = true) (hnd : layers.Nodup) (hres : 0 < res)
    (hhas : ∀ u, g.Leaf u → u.cells.has res = true) (nodata : Option ℚ) (zUp : Bool) (d : Option ℚ) {c : Chunk} (hc : c ∈ (g.getChunks env res layers nodata zUp d true).st.2)
    {a : LayerArr} (ha : a ∈ bands c) :
    ((a.rows : ℚ) * res = size ∧ (a.cols : ℚ) * res = size → c.maxDim = 0) ∧
    (¬ ((a.rows : ℚ) * res = size ∧ (a.cols : ℚ) * res = size) → c.maxDim = max ((a.rows : ℚ) * res) ((a.cols : ℚ) * res)) :=
  (chunks_grow (answers_tile env F hs) (Grid.geoOk_tile env F hs) hs (sr_inv hs h).1 hcore hnd hres (geo_of_has hhas) nodata zUp d).2.2 c hc a ha

/-- **C66** (variable resolution grids). -/
theorem C66_dimension_vr_partial (hs : 0 < size) (hpow : isPowerOfTwo sub = true) {q : Nat} (hdiv : size = (q : ℚ) * sub) {g : Grid (Grid Tile)}
    (h : VRHistory env size sub bs fl F s g A) (hcore : ∀ l ∈ layers, l.isCore = true) (hnd : layers.Nodup) (hres : 0 < res)
    (nodata : Option ℚ) (zUp : Bool) (d : Option ℚ) {c : Chunk} (hc : c ∈ (g.getChunks env res layers nodata zUp d true).st.2) {a : LayerArr} (ha : a ∈ bands c) :
    ((a.rows : ℚ) * res = size ∧ (a.cols : ℚ) * res = size → c.maxDim = 0) ∧
    (¬ ((a.rows : ℚ) * res = size ∧ (a.cols : ℚ) * res = size) → c.maxDim = max ((a.rows : ℚ) * res) ((a.cols : ℚ) * res)) :=
  (chunks_grow (Grid.answers_sub (answers_tile env F (isPowerOfTwo_pos hpow)) hs hpow hdiv) (Grid.geoOk_sub hs hpow) hs (vr_inv hs hpow h).1 hcore hnd hres
    (fun _ _ _ ht => by obtain ⟨x, y, B, hB⟩ := (Grid.grow_reps (vr_inv hs hpow h).1).1 _ _ _ ht; exact Grid.geo_sub hs hpow hB res) nodata zUp d).2.2 c hc a ha

end

/-- the hypotheses of C43, C65 and C66 are met by grids with several tiles and gaps, with several layers, in one and in several chunks -/
example : SRHistory demoEnv 16 false demoFields .plain false demoSRg demoStore ∧ VRHistory demoEnv 32 16 false demoFields .plain false demoVRg demoStore ∧
    (∀ l ∈ [Layer.depth, .vertical, .density], l.isCore = true) ∧ [Layer.depth, .vertical, .density].Nodup ∧ (∀ u, demoSRg.Leaf u → u.cells.has 8 = true) ∧
    (demoSRg.getChunks demoEnv 8 [.depth, .vertical, .density] none true none true).err = none ∧
    (demoSRg.getChunks demoEnv 8 [.depth, .vertical, .density] none true none true).st.2.length = 1 ∧
    (demoSRg.getChunks demoEnv 8 [.depth, .vertical, .density] none true (some 16) true).st.2.length = 4 ∧
    (demoVRg.getChunks demoEnv 8 [.depth, .vertical, .density] (some 1000000) true (some 32) true).st.2.length = 3 ∧
    fillValue .density (some 1000000) = some 1000000 := by
  refine ⟨demoSRg_history, demoVRg_history, by decide, by decide, ?_, by decide +kernel, by decide +kernel, by decide +kernel, by decide +kernel, by decide +kernel⟩
  rintro u ⟨r, c, t, ⟨T, hT, ht⟩, rfl⟩
  have hall : demoSRg.tiles.all (fun T => T.flat.all (fun o => o.all (fun t => t.cells.has 8))) = true := by decide +kernel
  rw [hT, Option.all_some, List.all_eq_true] at hall
  have hb := lt_of_get ht
  rw [Arr2.get?_eq_flat T hb.1 hb.2] at ht
  exact hall _ (List.mem_of_getElem? ht)

/-- two tiles of which the lower left one was emptied and filled again after gridding -/
def shiftGrid : Grid Tile :=
  (((((((newSR 16 false).addPoints ⟨demoFields, [⟨3, 5, 10, 1, 1⟩]⟩ "a" demoArgs).st.addPoints ⟨demoFields, [⟨20, 21, 12, 1, 1⟩]⟩ "b" {}).st.gridWith demoEnv { alg := .mean, res := some 8 } none).st.removePoints "a").st).addPoints
    ⟨demoFields, [⟨3, 6, 11, 1, 1⟩]⟩ "c" {}).st

theorem shiftGrid_history : SRHistory demoEnv 16 false demoFields .plain false shiftGrid [("b", [⟨20, 21, 12, 1, 1⟩]), ("c", [⟨3, 6, 11, 1, 1⟩])] :=
  (((((GridHistory.new .plain).add [⟨3, 5, 10, 1, 1⟩] "a" demoArgs (by decide +kernel)).add [⟨20, 21, 12, 1, 1⟩] "b" {} (by decide +kernel)).grid { alg := .mean, res := some 8 } rfl none).remove "a"
    (by decide +kernel)).add [⟨3, 6, 11, 1, 1⟩] "c" {} (by decide +kernel)

/-- **C43 is violated** for single resolution grids with a tile that does not hold the resolution (soundings were added after gridding): if it is the
first tile of the chunk, its corner does not count and the raster is shifted (here by a tile); if it is a later one, a TypeError is raised and nothing
is exported although the grid has data at this resolution. -/
theorem C43_violated :
    (SRHistory demoEnv 16 false demoFields .plain false shiftGrid [("b", [⟨20, 21, 12, 1, 1⟩]), ("c", [⟨3, 6, 11, 1, 1⟩])] ∧
      (shiftGrid.getChunks demoEnv 8 [.depth] none false none true).err = none ∧
      ∃ c ∈ (shiftGrid.getChunks demoEnv 8 [.depth] none false none true).st.2, ∃ ge a, c.geo = some ge ∧ (bands c)[0]? = some a ∧
        StoredCell shiftGrid .depth 8 16 16 12 ∧ HasPixel a 8 ge.x0 ge.y0 16 16 ∧ ¬ PixelsRight shiftGrid .depth 8 (shiftGrid.flips false) ge.x0 ge.y0 a) ∧
    ((∃ x y z, StoredCell demoSR .depth 2 x y z) ∧ (demoSR.getChunks demoEnv 2 [.depth] none false none true).err = some .typeError ∧
      (demoSR.getChunks demoEnv 2 [.depth] none false none true).st.2 = []) := by
  constructor
  · refine ⟨shiftGrid_history, by decide +kernel, ?_⟩
    have hs : StoredCell shiftGrid .depth 8 16 16 12 := by
      obtain ⟨t, ht, hP⟩ := Grid.exists_tileAt_any (g := shiftGrid) (r := 1) (c := 1) (fun t => decide (t.minX = 16) && decide (t.minY = 16) &&
        (t.cells.get? 8).any (fun ls => (ls.get? .depth).any (fun a => decide (a.get? 0 0 = some (some 12))))) (by decide +kernel)
      simp only [Bool.and_eq_true, decide_eq_true_eq] at hP
      obtain ⟨ls, hls, h2⟩ := (Option.any_eq_true _ _).1 hP.2
      obtain ⟨a, ha, h3⟩ := (Option.any_eq_true _ _).1 h2
      refine Grid.stored_grid.2 ⟨1, 1, t, ht, t, ls, a, 0, 0, rfl, hls, ha, of_decide_eq_true h3, ?_, ?_⟩
      · rw [hP.1.1]; norm_num
      · rw [hP.1.2]; norm_num
    have hb : (shiftGrid.getChunks demoEnv 8 [.depth] none false none true).st.2.any (fun c => decide (c.geo = some ⟨16, 8, 32⟩) &&
        ((bands c)[0]?).any (fun a => decide (a.rows = 4) && decide (a.cols = 4) && decide (a.get? 1 0 = some none))) = true := by decide +kernel
    obtain ⟨c, hc, h1⟩ := List.any_eq_true.1 hb
    simp only [Bool.and_eq_true, decide_eq_true_eq] at h1
    obtain ⟨a, ha, h2⟩ := (Option.any_eq_true _ _).1 h1.2
    simp only [Bool.and_eq_true, decide_eq_true_eq] at h2
    refine ⟨c, hc, _, a, h1.1, ha, hs, ⟨1, 0, by rw [h2.1.1]; omega, by rw [h2.1.2]; omega, by norm_num, by norm_num⟩, ?_⟩
    intro hp
    have := hp 1 0 12 (by rw [h2.1.1]; omega) (by rw [h2.1.2]; omega) (by norm_num; exact hs)
    rw [h2.2] at this
    cases this
  · refine ⟨?_, by decide +kernel, by decide +kernel⟩
    obtain ⟨t, ht, hP⟩ := Grid.exists_tileAt_any (g := demoSR) (r := 4) (c := 0) (fun t : Tile => (t.layerAt 2 .depth).any (fun a : LayerArr => decide (a.get? 3 6 = some (some 14)))) (by decide +kernel)
    obtain ⟨a, ha, h3⟩ := (Option.any_eq_true _ _).1 hP
    obtain ⟨x, y, z, h⟩ := stored_of_layerAt ha ⟨3, 6, _, of_decide_eq_true h3⟩
    exact ⟨x, y, z, Grid.stored_grid.2 ⟨4, 0, t, ht, h⟩⟩

/-- **C65 is violated**: when density is asked for before depth, NaN has become 0 by the time the depths are laid out, and 0 is in the depth band where
there is no tile. -/
theorem C65_violated : SRHistory demoEnv 16 false demoFields .plain false demoSRg demoStore ∧
    ∃ c ∈ (demoSRg.getChunks demoEnv 8 [.density, .depth] none false none true).st.2, ∃ ge a, c.geo = some ge ∧ (bands c)[1]? = some a ∧
      ¬ PixelsEmpty demoSRg .depth 8 ge.x0 ge.y0 (fillValue .depth none) a := by
  refine ⟨demoSRg_history, ?_⟩
  have hhas : ∀ u, demoSRg.Leaf u → u.cells.has 8 = true := by
    rintro u ⟨r, c, t, ⟨T, hT, ht⟩, rfl⟩
    have hall : demoSRg.tiles.all (fun T => T.flat.all (fun o => o.all (fun t => t.cells.has 8))) = true := by decide +kernel
    rw [hT, Option.all_some, List.all_eq_true] at hall
    have hb := lt_of_get ht
    rw [Arr2.get?_eq_flat T hb.1 hb.2] at ht
    exact hall _ (List.mem_of_getElem? ht)
  have hE := C43_georeferenced_sr_partial (layers := [.density, .depth]) (by norm_num) demoSRg_history (by decide) (by decide) (res := 8) (by norm_num) hhas none false none
  have hb : (demoSRg.getChunks demoEnv 8 [.density, .depth] none false none true).st.2.any (fun c =>
      ((bands c)[1]?).any (fun a => decide (a.rows = 10) && decide (a.cols = 10) && decide (a.get? 9 9 = some (some 0)))) = true := by decide +kernel
  obtain ⟨c, hc, h1⟩ := List.any_eq_true.1 hb
  obtain ⟨a, ha, h2⟩ := (Option.any_eq_true _ _).1 h1
  simp only [Bool.and_eq_true, decide_eq_true_eq] at h2
  obtain ⟨-, ge, hge, -, hlay⟩ := hE.right c hc
  refine ⟨c, hc, ge, a, hge, ha, ?_⟩
  intro hp
  obtain ⟨a', ha', hright⟩ := hlay 1 .depth rfl
  rw [ha] at ha'; cases ha'
  have := hp 9 9 (by rw [h2.1.1]; omega) (by rw [h2.1.2]; omega) (fun z hz => ?_)
  · rw [h2.2] at this
    cases this
  · have h3 := hright 9 9 z (by rw [h2.1.1]; omega) (by rw [h2.1.2]; omega) hz
    rw [h2.2] at h3
    have hz0 : z = 0 := by
      have := Option.some.inj (Option.some.inj h3)
      unfold shownValue at this
      split at this <;> linarith
    subst hz0
    obtain ⟨u, ls, b, i, j, ⟨r, c', t, ⟨T, hT, ht⟩, rfl⟩, k1, k2, k3, -⟩ := hz
    have hall : demoSRg.tiles.all (fun T => T.flat.all (fun o => o.all (fun t => (t.cells.get? 8).all (fun ls => (ls.get? .depth).all (fun b => b.flat.all (fun v => decide (v ≠ some 0))))))) = true := by
      decide +kernel
    rw [hT, Option.all_some, List.all_eq_true] at hall
    have hb := lt_of_get ht
    rw [Arr2.get?_eq_flat T hb.1 hb.2] at ht
    have h4 := hall _ (List.mem_of_getElem? ht)
    rw [Option.all_some, k1, Option.all_some, k2, Option.all_some, List.all_eq_true] at h4
    have hb' := lt_of_get k3
    rw [Arr2.get?_eq_flat b hb'.1 hb'.2] at k3
    exact absurd rfl (of_decide_eq_true (h4 _ (List.mem_of_getElem? k3)))

/-- **C66 is violated** for chunks of one tile: the dimension is 0 although the raster is 16 m wide. -/
theorem C66_violated : SRHistory demoEnv 16 false demoFields .plain false demoSRg demoStore ∧
    ∃ c ∈ (demoSRg.getChunks demoEnv 8 [.depth] none false (some 16) true).st.2, ∃ a ∈ bands c, (a.rows : ℚ) * 8 = 16 ∧ c.maxDim = 0 := by
  refine ⟨demoSRg_history, ?_⟩
  have hb : (demoSRg.getChunks demoEnv 8 [.depth] none false (some 16) true).st.2.any (fun c => (bands c).any (fun a => decide (a.rows = 2)) && decide (c.maxDim = 0)) = true := by decide +kernel
  obtain ⟨c, hc, h1⟩ := List.any_eq_true.1 hb
  simp only [Bool.and_eq_true, decide_eq_true_eq] at h1
  obtain ⟨a, ha, h2⟩ := List.any_eq_true.1 h1.1
  refine ⟨c, hc, a, ha, ?_, h1.2⟩
  rw [of_decide_eq_true h2]; norm_num

end Bathy
