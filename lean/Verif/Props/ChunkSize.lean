import Verif.Props.Rasters
import Verif.Props.Chunks

/-!
# C42: the size of exported rasters

What C42 says of the lists of tiles, for the rasters that `get_chunks_of_tiles` (bathygrid/bgrid.py:1126-1187) makes of them.
-/

namespace Bathy
open Grid

variable {size sub : ℚ} {bs : Bool} {fl : Fields} {env : Env} {F : Family} {s : Bool} {A : Store} {layers : List Layer} {res : ℚ}

/-- the maximum dimension that is meant by the argument: 32768 m unless another one is given -/
def MaxDim (d : Option ℚ) (D : ℚ) : Prop := ((d = none ∨ d = some 0) ∧ D = 32768) ∨ (d = some D ∧ D ≠ 0)

theorem getChunks_dim {τ : Type} [LayerLike τ] {g : Grid τ} {nodata : Option ℚ} {zUp gd : Bool} {d : Option ℚ} {D : ℚ} (h : MaxDim d D) {I : List (List (Nat × Nat))}
    (hI : g.tileChunkIndices D = .ok I) : g.getChunks env res layers nodata zUp d gd = Res.forEach I (g, []) (chunkStep env res layers nodata zUp gd) := by
  unfold getChunks
  rcases h with ⟨rfl | rfl, rfl⟩ | ⟨rfl, hd⟩
  · simp only; rw [hI]
  · simp only [if_true]; rw [hI]
  · simp only; rw [if_neg hd, hI]

theorem Yields.length_le {τ : Type} [HasLeaves τ] {g : Grid τ} {nodata : Option ℚ} {zUp forGdal : Bool} {x0 y0 : ℚ} {n : Nat} {P : List (List (Nat × Nat))} {cs : List Chunk}
    (h : Yields g res layers nodata zUp forGdal x0 y0 size n P cs) : cs.length ≤ P.length := by
  induction h with
  | nil => exact le_rfl
  | skip _ _ ih => exact ih.trans (Nat.le_succ _)
  | give _ _ _ ih => exact Nat.succ_le_succ ih

/-- every raster is that of a list of tiles -/
theorem raster_of {τ : Type} [LayerLike τ] [TileLike τ] [HasLeaves τ] {C : ChildSpec τ size sub bs fl} (L : Answers env C) (hgo : GeoOk C) (hs : 0 < size) {g : Grid τ}
    (hg : GrowInv C g A) (hcore : ∀ l ∈ layers, l.isCore = true) (hnd : layers.Nodup) (hres : 0 < res) (hgeo : ∀ r c t, g.TileAt r c t → LayerLike.geo t res ≠ none)
    {nodata : Option ℚ} {zUp : Bool} {d : Option ℚ} {D : ℚ} (hD : MaxDim d D) {I : List (List (Nat × Nat))} (hI : g.tileChunkIndices D = .ok I) :
    (g.getChunks env res layers nodata zUp d true).st.2.length ≤ I.length ∧ ∀ c ∈ (g.getChunks env res layers nodata zUp d true).st.2, ∀ a ∈ bands c,
      ∃ idx ∈ I, idx ≠ [] ∧ (a.rows : ℚ) * res = (chunkRows idx : ℚ) * size ∧ (a.cols : ℚ) * res = (chunkCols idx : ℚ) * size := by
  rw [getChunks_dim hD hI]
  obtain ⟨rows, cols, -, -, hspec⟩ := tileChunkIndices_spec hI
  have hrect : ∀ idx ∈ I, IsRect g idx := by
    intro idx hi
    obtain ⟨hne, r0, r1, c0, c1, -, -, hm⟩ := hspec.rect idx hi
    exact ⟨hne, (List.nodup_flatten.1 hspec.nodup).1 idx hi, r0, r1, c0, c1, hm⟩
  have hfill : ∀ idx ∈ I, ∀ p ∈ idx, g.Filled p.1 p.2 := by
    intro idx hi p hp
    obtain ⟨-, -, r0, r1, c0, c1, hm⟩ := hrect idx hi
    exact ((hm p.1 p.2).1 hp).2.2.2.2
  rcases hg.body with ⟨h1, h2, -⟩ | ⟨-, i, j, nx, ny, T, hf, he⟩
  · unfold tileChunkIndices at hI
    rw [h2] at hI
    cases hI
  · cases hn : cellsAlong g.tileSize res with
    | error e =>
      rw [(chunks_none (env := env) (layers := layers) (nodata := nodata) (zUp := zUp) (forGdal := true) hn (fun idx hi => ⟨(hrect idx hi).1, hfill idx hi⟩)).1]
      exact ⟨Nat.zero_le _, fun c hc => by cases hc⟩
    | ok n =>
      have hsz := cellsAlong_ok hres.ne' hn
      rw [hf.tileSize] at hsz
      obtain ⟨P, cs, k1, k2, k3, -⟩ := chunks_yield (nodata := nodata) (zUp := zUp) (forGdal := true) L hgo hs hf.toReady hcore hnd hres hn hgeo I hrect []
      rw [k2, List.nil_append]
      refine ⟨(Yields.length_le k3).trans k1.length_le, fun c hc a ha => ?_⟩
      obtain ⟨idx, hi, hgood, -⟩ := k3.good hc
      unfold bands at ha
      obtain ⟨p, hp, rfl⟩ := List.mem_map.1 ha
      obtain ⟨k, hk⟩ := List.mem_iff_getElem?.1 hp
      have hlk : layers[k]? = some p.1 := by rw [← hgood.keys]; unfold Dict.keys; rw [List.getElem?_map, hk]; rfl
      obtain ⟨X, hX, hrow, hcol, -⟩ := hgood.arr k p.1 hlk
      have hpX : p.2 = fliplrT X := by
        have hnd' : c.data.keys.Nodup := by rw [hgood.keys]; exact hnd
        have := Dict.get?_of_mem _ hnd' hp
        rw [this, if_pos rfl] at hX
        exact Option.some.inj hX
      have er : (transpose p.2).rows = chunkRows idx * n := by rw [hpX]; exact hrow
      have ec : (transpose p.2).cols = chunkCols idx * n := by rw [hpX]; exact hcol
      refine ⟨idx, k1.subset hi, (hrect idx (k1.subset hi)).1, ?_, ?_⟩
      · rw [er, hsz]; push_cast; ring
      · rw [ec, hsz]; push_cast; ring

theorem span_cast {l : List Nat} (h : l ≠ []) : ((maxOf l - minOf l + 1 : Nat) : ℚ) = (maxOf l : ℚ) - minOf l + 1 := by
  have := minOf_le (maxOf_mem h)
  push_cast [Nat.cast_sub this]
  rfl

/-- the rasters of a grid whose tiles have a geotransform -/
theorem raster_size {τ : Type} [LayerLike τ] [TileLike τ] [HasLeaves τ] {C : ChildSpec τ size sub bs fl} (L : Answers env C) (hgo : GeoOk C) (hs : 0 < size) {g : Grid τ}
    (hg : GrowInv C g A) (hcore : ∀ l ∈ layers, l.isCore = true) (hnd : layers.Nodup) (hres : 0 < res) (hgeo : ∀ r c t, g.TileAt r c t → LayerLike.geo t res ≠ none)
    {nodata : Option ℚ} {zUp : Bool} {d : Option ℚ} {D : ℚ} (hD : MaxDim d D) {R W : Nat} (hR : g.RowSpan R) (hW : g.ColSpan W) :
    (∀ c ∈ (g.getChunks env res layers nodata zUp d true).st.2, ∀ a ∈ bands c, (a.rows : ℚ) * res ≤ max D size ∧
      (D < ((R : ℚ) + 1) * size ∨ (W : ℚ) * size ≤ max D size → (a.cols : ℚ) * res ≤ max D size)) ∧
    (((R : ℚ) + 1) * size ≤ D → (g.getChunks env res layers nodata zUp d true).st.2.length ≤ 1) := by
  have ⟨_, ⟨cc, hfill⟩, _⟩ := hR
  obtain ⟨I, hI⟩ := tileChunkIndices_ok D hfill
  obtain ⟨hlen, hall⟩ := raster_of (nodata := nodata) (zUp := zUp) L hgo hs hg hcore hnd hres hgeo hD hI
  have hts := hg.tileSize
  have hC := C42_chunk_size_partial (by rw [hts]; exact hs) hI hR hW
  rw [hts] at hC
  refine ⟨fun c hc a ha => ?_, fun hbig => ?_⟩
  · obtain ⟨idx, hi, hne, er, ec⟩ := hall c hc a ha
    rw [er, ec]
    obtain ⟨p, hp, ep⟩ := List.mem_map.1 (maxOf_mem (l := idx.map Prod.fst) (by simpa using hne))
    obtain ⟨q, hq, eq⟩ := List.mem_map.1 (minOf_mem (l := idx.map Prod.fst) (by simpa using hne))
    obtain ⟨p', hp', ep'⟩ := List.mem_map.1 (maxOf_mem (l := idx.map Prod.snd) (by simpa using hne))
    obtain ⟨q', hq', eq'⟩ := List.mem_map.1 (minOf_mem (l := idx.map Prod.snd) (by simpa using hne))
    constructor
    · have := hC.1 idx hi p hp q hq
      unfold chunkRows
      rw [span_cast (by simpa using hne), ← ep, ← eq]
      exact this
    · intro hor
      have := (hC.2.2 hor idx hi p' hp' q' hq').2
      rw [hts] at this
      unfold chunkCols
      rw [span_cast (by simpa using hne), ← ep', ← eq']
      exact this
  · refine hlen.trans ?_
    obtain ⟨rows, cols, hR', -, hsp⟩ := tileChunkIndices_spec hI
    apply hsp.one
    have : rows = R := by
      obtain ⟨a, ⟨c1, h1⟩, ⟨c2, h2⟩, h3, h4⟩ := hR
      obtain ⟨b, ⟨c3, k1⟩, ⟨c4, k2⟩, k3, k4⟩ := hR'
      have := h4 _ _ k1; have := h4 _ _ k2; have := k4 _ _ h1; have := k4 _ _ h2
      omega
    rw [this, hts]
    have h1 := chunkLength_lt (d := D) hs
    have h3 : ((R : ℚ) + 1) < (chunkLength D size : ℚ) + 1 := lt_of_mul_lt_mul_right (hbig.trans_lt h1) hs.le
    have : (R : ℚ) < chunkLength D size := by linarith
    exact_mod_cast this

/-- **C42, partial**, for the rasters of a single resolution grid all of whose tiles hold the resolution: no raster is higher than the maximum dimension (32768 m if none, or 0, is
given) or one tile; none is wider than that under the condition of `C42_chunk_size_partial`; and a grid that is less high than it by one tile is one raster. -/
theorem C42_rasters_sr_partial (hs : 0 < size) {g : Grid Tile} (h : SRHistory env size bs fl F s g A) (hcore : ∀ l ∈ layers, l.isCore = true) (hnd : layers.Nodup) (hres : 0 < res)
    (hhas : ∀ u, g.Leaf u → u.cells.has res = true) {nodata : Option ℚ} {zUp : Bool} {d : Option ℚ} {D : ℚ} (hD : MaxDim d D) {R W : Nat} (hR : g.RowSpan R) (hW : g.ColSpan W) :
    (∀ c ∈ (g.getChunks env res layers nodata zUp d true).st.2, ∀ a ∈ bands c, (a.rows : ℚ) * res ≤ max D size ∧
      (D < ((R : ℚ) + 1) * size ∨ (W : ℚ) * size ≤ max D size → (a.cols : ℚ) * res ≤ max D size)) ∧
    (((R : ℚ) + 1) * size ≤ D → (g.getChunks env res layers nodata zUp d true).st.2.length ≤ 1) :=
  raster_size (answers_tile env F hs) (geoOk_tile env F hs) hs (sr_inv hs h).1 hcore hnd hres (geo_of_has hhas) hD hR hW

/-- **C42, partial**, for the rasters of a variable resolution grid -/
theorem C42_rasters_vr_partial (hs : 0 < size) (hpow : isPowerOfTwo sub = true) {q : Nat} (hdiv : size = (q : ℚ) * sub) {g : Grid (Grid Tile)}
    (h : VRHistory env size sub bs fl F s g A) (hcore : ∀ l ∈ layers, l.isCore = true) (hnd : layers.Nodup) (hres : 0 < res)
    {nodata : Option ℚ} {zUp : Bool} {d : Option ℚ} {D : ℚ} (hD : MaxDim d D) {R W : Nat} (hR : g.RowSpan R) (hW : g.ColSpan W) :
    (∀ c ∈ (g.getChunks env res layers nodata zUp d true).st.2, ∀ a ∈ bands c, (a.rows : ℚ) * res ≤ max D size ∧
      (D < ((R : ℚ) + 1) * size ∨ (W : ℚ) * size ≤ max D size → (a.cols : ℚ) * res ≤ max D size)) ∧
    (((R : ℚ) + 1) * size ≤ D → (g.getChunks env res layers nodata zUp d true).st.2.length ≤ 1) :=
  raster_size (answers_sub (answers_tile env F (isPowerOfTwo_pos hpow)) hs hpow hdiv) (geoOk_sub hs hpow) hs (vr_inv hs hpow h).1 hcore hnd hres
    (fun _ _ _ ht => by obtain ⟨x, y, B, hB⟩ := (grow_reps (vr_inv hs hpow h).1).1 _ _ _ ht; exact geo_sub hs hpow hB res) hD hR hW

/-- the maximum dimensions meant; demoSRg (see C43) is one raster by default and four with 16 m -/
example : MaxDim none 32768 ∧ MaxDim (some 0) 32768 ∧ MaxDim (some 16) 16 ∧ (demoSRg.getChunks demoEnv 8 [.depth] none true (some 0) true).st.2.length = 1 ∧
    (demoSRg.getChunks demoEnv 8 [.depth] none true (some 16) true).st.2.length = 4 :=
  ⟨Or.inl ⟨Or.inl rfl, rfl⟩, Or.inl ⟨Or.inr rfl, rfl⟩, Or.inr ⟨rfl, by norm_num⟩, by decide +kernel⟩

end Bathy
