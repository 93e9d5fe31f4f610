import Verif.Spec.Reading
import Verif.Lemmas.StoreReach
import Verif.Lemmas.Recorded
import Verif.Lemmas.DiskHistory
import Verif.Lemmas.TileLayers
import Verif.Lemmas.Chunks

/-! Helper lemmas for C122. -/

namespace Bathy

/-! ## What every query of a tile keeps is kept by every call that reads -/

/-- a relation between tiles that queries establish, and its extension to grids -/
structure Carries {τ : Type} [LayerLike τ] (env : Env) (R : τ → τ → Prop) (R' : Grid τ → Grid τ → Prop) : Prop where
  refl : ∀ t, R t t
  trans : ∀ t u v, R t u → R u v → R t v
  query : ∀ t l r nd z, R t (LayerLike.getLayer env t l r nd z).1
  grefl : ∀ g, R' g g
  gtrans : ∀ g u v, R' g u → R' u v → R' g v
  set : ∀ (g : Grid τ) (k : Nat) (t u : τ), g.tile? k = some (some t) → R t u → R' g (g.setTile k (some u))

namespace Carries
variable {τ : Type} [LayerLike τ] {env : Env} {R : τ → τ → Prop} {R' : Grid τ → Grid τ → Prop}

theorem tileLayers (C : Carries env R R') (res : ℚ) (nd : Option ℚ) (z : Bool) (ls : List Layer) :
    ∀ (t : τ) (d : Dict Layer LayerArr), R t (tileLayersFrom env res nd z t d ls).1 := by
  induction ls with
  | nil => exact fun t _ => C.refl t
  | cons l ls ih =>
    intro t d
    have hq := C.query t l res nd z
    unfold tileLayersFrom
    split
    · rename_i e; rw [e] at hq; exact hq
    · rename_i e; rw [e] at hq; exact C.trans _ _ _ hq (ih _ _)
    · rename_i e; rw [e] at hq; exact C.trans _ _ _ hq (ih _ _)

theorem tileData (C : Carries env R R') (g : Grid τ) (row col : Nat) (res : ℚ) (ls : List Layer) (nd : Option ℚ) (z : Bool) :
    R' g (g.getTileData env row col res ls nd z).1 := by
  unfold Grid.getTileData
  simp only
  split
  · exact C.grefl g
  · rename_i T hT
    split
    · exact C.grefl g
    · rename_i o ho
      split
      · exact C.grefl g
      · split
        · exact C.grefl g
        · rename_i t
          have hk : g.tile? (row * T.cols + col) = some (some t) := by
            unfold Grid.tile?
            rw [hT]
            unfold Arr2.get? at ho
            split at ho
            · exact ho
            · cases ho
          have := C.set g _ t _ hk (C.tileLayers res nd (if g.positiveUp then !z else z) ls t [])
          split <;> exact this

theorem layersByName (C : Carries env R R') (g : Grid τ) (ls : List Layer) (res nd : Option ℚ) (z : Bool) : R' g (g.getLayersByName env ls res nd z).1 := by
  unfold Grid.getLayersByName
  split
  · exact C.grefl g
  · exact C.grefl g
  · split
    · exact C.grefl g
    · rename_i r _
      split
      · exact C.grefl g
      · rename_i data _
        have := Res.forEach_keeps (P := fun s : MosaicState τ => R' g s.grid) (f := Grid.mosaicStep env r ls nd z) (by
          intro s k hs
          unfold Grid.mosaicStep
          split
          · have hd := C.tileData s.grid (k / s.grid.txs.length) (k % s.grid.txs.length) r ls nd z
            split
            · rename_i e; rw [e] at hd; exact C.gtrans _ _ _ hs hd
            · rename_i e; rw [e] at hd
              split
              · exact C.gtrans _ _ _ hs hd
              · exact C.gtrans _ _ _ hs hd
          · exact hs) (List.range g.slots) (s := ⟨g, data, true⟩) (C.grefl g)
        simp only
        split <;> exact this

theorem trimmed (C : Carries env R R') (g : Grid τ) (ls : List Layer) (res nd : Option ℚ) (z : Bool) : R' g (g.getLayersTrimmed env ls res nd z).1 := by
  have h := C.layersByName g ls res nd z
  unfold Grid.getLayersTrimmed
  split <;> (rename_i e; rw [e] at h; exact h)

theorem surf (C : Carries env R R') (g : Grid τ) (ls : List Layer) (res : Option ℚ) (b : Bool) (nd : Option ℚ) : R' g (g.returnSurf env ls res b nd).1 := by
  unfold Grid.returnSurf
  split
  · exact C.grefl g
  · exact C.grefl g
  · split
    · exact C.grefl g
    · rename_i r _
      have h := C.trimmed g ls (some r) nd false
      split
      · rename_i e; rw [e] at h; exact h
      · rename_i e; rw [e] at h
        split
        · exact h
        · simp only; split <;> exact h

theorem valuesLoop (C : Carries env R R') (l : Layer) (nd : Option ℚ) (locs : List (ℚ × ℚ)) (rs : List ℚ) :
    ∀ (g : Grid τ) (vs : List (Option ℚ)), R' g (Grid.valuesLoop env l nd locs rs g vs).1 := by
  induction rs with
  | nil => exact fun g _ => C.grefl g
  | cons r rs ih =>
    intro g vs
    unfold Grid.valuesLoop
    split
    · have h := C.surf g [l] (some r) true nd
      split
      · rename_i e; rw [e] at h; exact h
      · rename_i e; rw [e] at h
        split
        · exact h
        · exact C.gtrans _ _ _ h (ih _ _)
    · exact C.grefl g

theorem valueLoop (C : Carries env R R') (l : Layer) (nd : Option ℚ) (p : ℚ × ℚ) (rs : List ℚ) :
    ∀ (g : Grid τ) (v : Option ℚ), R' g (Grid.valueLoop env l nd p rs g v).1 := by
  induction rs with
  | nil => exact fun g _ => C.grefl g
  | cons r rs ih =>
    intro g v
    unfold Grid.valueLoop
    split
    · have h := C.surf g [l] (some r) true nd
      split
      · rename_i e; rw [e] at h; exact h
      · rename_i e; rw [e] at h
        split
        · exact h
        · exact C.gtrans _ _ _ h (ih _ _)
        · exact C.gtrans _ _ _ h (ih _ _)
    · exact C.grefl g

theorem values (C : Carries env R R') (g : Grid τ) (x y : LocArg) (l : Layer) (res nd : Option ℚ) : R' g (g.layerValuesAt env x y l res nd).1 := by
  unfold Grid.layerValuesAt
  split
  · exact C.grefl g
  · rename_i xs ys _
    have h := C.valuesLoop l nd (xs.zip ys) (g.queryList res) g ((xs.zip ys).map (fun _ => nd))
    unfold Grid.layerValuesAtXY
    split <;> (rename_i e; rw [e] at h; exact h)
  · rename_i xs _ _
    have h : R' g (Grid.tupleLoop env l nd g (xs.map (fun _ => nd)) (g.queryList res)).1 := by
      cases g.queryList res with
      | nil => exact C.grefl g
      | cons r rs =>
        simp only [Grid.tupleLoop]
        split
        · have h := C.surf g [l] (some r) true nd
          split <;> (rename_i e; rw [e] at h; exact h)
        · exact C.grefl g
    split <;> (rename_i e; rw [e] at h; exact h)
  · rename_i a b _
    have h := C.valueLoop l nd (a, b) (g.queryList res) g nd
    split <;> (rename_i e; rw [e] at h; exact h)

theorem tiles (C : Carries env R R') (g : Grid τ) (res : Option ℚ) (ls : List Layer) (nd : Option ℚ) (z : Bool) : R' g (g.tilesByResolution env res ls nd z).st.1 := by
  unfold Grid.tilesByResolution
  split
  · exact C.grefl g
  · rename_i r _
    split
    · exact C.grefl g
    · exact C.grefl g
    · exact Res.forEach_keeps (P := fun s : Grid τ × List TileYield => R' g s.1) (f := Grid.yieldStep env r ls nd z) (by
        intro s k hs
        unfold Grid.yieldStep
        split
        · have hd := C.tileData s.1 (k / s.1.txs.length) (k % s.1.txs.length) r ls nd z
          split <;> (rename_i e; rw [e] at hd; exact C.gtrans _ _ _ hs hd)
        · exact hs) (List.range g.slots) (s := (g, [])) (C.grefl g)

theorem chunks (C : Carries env R R') (g : Grid τ) (res : ℚ) (ls : List Layer) (nd : Option ℚ) (z : Bool) (o : Option ℚ) (gdal : Bool) :
    R' g (g.getChunks env res ls nd z o gdal).st.1 := by
  unfold Grid.getChunks
  simp only
  split
  · exact C.grefl g
  · refine Res.forEach_keeps (P := fun s : Grid τ × List Chunk => R' g s.1) (f := Grid.chunkStep env res ls nd z gdal) ?_ _ (s := (g, [])) (C.grefl g)
    intro s idx hs
    have h := Res.forEach_keeps (P := fun c : ChunkState τ => R' g c.grid) (f := Grid.chunkTile env res ls nd z) (by
      intro c p hc
      unfold Grid.chunkTile
      have hd := C.tileData c.grid p.1 p.2 res ls nd z
      split
      · rename_i e; rw [e] at hd; exact C.gtrans _ _ _ hc hd
      · rename_i e; rw [e] at hd
        simp only
        split <;> exact C.gtrans _ _ _ hc hd) idx (s := { grid := s.1 }) hs
    unfold Grid.chunkStep
    simp only
    split
    · exact h
    · split
      · exact h
      · split
        · split <;> exact h
        · exact h

theorem plot (C : Carries env R R') (g : Grid τ) (l : Layer) (res : Option ℚ) : R' g (g.plot env l res).1 := by
  have hl : ∀ (rs : List ℚ) (g : Grid τ) (ms : List Mesh), R' g (Grid.meshLoop env l rs g ms).1 := by
    intro rs
    induction rs with
    | nil => exact fun g _ => C.grefl g
    | cons r rs ih =>
      intro g ms
      unfold Grid.meshLoop
      have h := C.surf g [l] (some r) true none
      split
      · rename_i e; rw [e] at h; exact h
      · rename_i e; rw [e] at h
        split
        · exact h
        · exact C.gtrans _ _ _ h (ih _ _)
  unfold Grid.plot
  split
  · exact C.grefl g
  · exact C.grefl g
  · exact hl _ _ _

theorem csv [NamesLike τ] (C : Carries env R R') (g : Grid τ) (z : Bool) (res : Option ℚ) : R' g (g.exportCsv env z res).1 := by
  have hf : ∀ (g : Grid τ) (r : ℚ), R' g (g.csvFile env r z).1 := by
    intro g r
    unfold Grid.csvFile
    split
    · exact C.grefl g
    · rename_i lyrs _
      have h := C.surf g lyrs (some r) false none
      split
      · rename_i e; rw [e] at h; exact h
      · rename_i e; rw [e] at h
        split
        · exact h
        · simp only; split <;> exact h
  have hl : ∀ (rs : List ℚ) (g : Grid τ) (fs : List (ℚ × CsvFile)), R' g (Grid.csvLoop env z rs g fs).1 := by
    intro rs
    induction rs with
    | nil => exact fun g _ => C.grefl g
    | cons r rs ih =>
      intro g fs
      unfold Grid.csvLoop
      have h := hf g r
      split
      · rename_i e; rw [e] at h; exact h
      · rename_i e; rw [e] at h; exact C.gtrans _ _ _ h (ih _ _)
  exact hl _ _ _

theorem raster [LayerNames τ] (C : Carries env R R') (g : Grid τ) (kind : RasterKind) (z : Bool) (res o : Option ℚ) : R' g (g.exportRaster env kind z res o).1 := by
  have hl : ∀ (epsg : Option Int) (ls : List Layer) (names : List String) (z : Bool) (rs : List ℚ) (g : Grid τ) (fs : List RasterFile),
      R' g (Grid.rasterLoop env epsg ls names z o rs g fs).1 := by
    intro epsg ls names z rs
    induction rs with
    | nil => exact fun g _ => C.grefl g
    | cons r rs ih =>
      intro g fs
      unfold Grid.rasterLoop
      have h := C.chunks g r ls (some 1000000) z o true
      simp only
      split
      · exact h
      · split
        · exact h
        · exact C.gtrans _ _ _ h (ih _ _)
  unfold Grid.exportRaster
  simp only
  split
  · exact C.grefl g
  · exact hl _ _ _ _ _ _ _

theorem reads [NamesLike τ] [LayerNames τ] (C : Carries env R R') {g u : Grid τ} (h : Reads env g u) : R' g u := by
  cases h with
  | layers ls res nd z => exact C.layersByName g ls res nd z
  | trimmed ls res nd z => exact C.trimmed g ls res nd z
  | surf ls res b nd => exact C.surf g ls res b nd
  | values x y l res nd => exact C.values g x y l res nd
  | tileData row col res ls nd z => exact C.tileData g row col res ls nd z
  | tiles res ls nd z => exact C.tiles g res ls nd z
  | chunks res ls nd z o gdal => exact C.chunks g res ls nd z o gdal
  | plot l res => exact C.plot g l res
  | csv z res => exact C.csv g z res
  | raster kind z res o => exact C.raster g kind z res o

/-- a subgrid is queried as a tile -/
theorem sub (C : Carries env R R') (g : Grid τ) (l : Layer) (r : ℚ) (nd : Option ℚ) (z : Bool) : R' g (LayerLike.getLayer env g l r nd z).1 := by
  show R' g (g.getLayer env l r nd z).1
  have h := C.layersByName g [l] (some r) nd z
  unfold Grid.getLayer
  split <;> (rename_i e; rw [e] at h; exact h)

end Carries

/-! ## Reachable states -/

theorem carries_tile (env : Env) : Carries env (Requeried env : Tile → Tile → Prop) (Requeried env) where
  refl _ := .refl
  trans _ _ _ h k := h.trans k
  query _ l r nd z := .single (Or.inl ⟨l, some r, nd, z, rfl⟩)
  grefl _ := .refl
  gtrans _ _ _ h k := h.trans k
  set _ _ _ _ hk h := Grid.requeried_setTile hk h

theorem carries_sub (env : Env) : Carries env (Requeried env : Grid Tile → Grid Tile → Prop) (Requeried env) where
  refl _ := .refl
  trans _ _ _ h k := h.trans k
  query := (carries_tile env).sub
  grefl _ := .refl
  gtrans _ _ _ h k := h.trans k
  set _ _ _ _ hk h := Grid.requeried_setTile hk h

end Bathy
