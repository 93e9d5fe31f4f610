import Verif.Lemmas.Chunks
import Verif.Lemmas.LayerStored

/-!
# `get_chunks_of_tiles` returns normally after gridding; where the geotransform comes from
-/

namespace Bathy

theorem pasteTiles_ok {n R C : Nat} {l : Layer} {tiles : List ((Nat × Nat) × Dict Layer LayerArr)} {a : LayerArr} (hr : a.rows = R * n) (hc : a.cols = C * n)
    (hin : ∀ q ∈ tiles, q.1.1 < R ∧ q.1.2 < C) (hdim : ∀ q ∈ tiles, ∀ b, q.2.get? l = some b → b.rows = n ∧ b.cols = n) :
    ∃ a', pasteTiles n l a (tiles.map (fun q => (q.1.1 * n, q.1.2 * n, q.2))) = .ok a' := by
  induction tiles generalizing a with
  | nil => exact ⟨a, rfl⟩
  | cons q tiles ih =>
    have hin' := fun q hq => hin q (List.mem_cons_of_mem _ hq)
    have hdim' := fun q hq => hdim q (List.mem_cons_of_mem _ hq)
    rw [List.map_cons]
    unfold pasteTiles
    split
    · exact ih hr hc hin' hdim'
    · rename_i b hb
      obtain ⟨hq1, hq2⟩ := hin q List.mem_cons_self
      obtain ⟨d1, d2⟩ := hdim q List.mem_cons_self b hb
      split
      · rename_i e he
        unfold paste at he
        rw [if_pos ⟨by rw [d1, hr, Grid.min_block hq1], by rw [d2, hc, Grid.min_block hq2]⟩] at he
        cases he
      · rename_i a1 ha1
        obtain ⟨p1, p2, -⟩ := paste_get ha1
        exact ih (p1.trans hr) (p2.trans hc) hin' hdim'

theorem finalizeFrom_ok {rows cols n : Nat} {tiles : List (Nat × Nat × Dict Layer LayerArr)} {forGdal : Bool} {layers : List Layer}
    (h : ∀ l ∈ layers, ∀ v, ∃ a, pasteTiles n l (Arr2.fill rows cols v) tiles = .ok a) (nodata : Option ℚ) (out : Dict Layer LayerArr) :
    ∃ D, finalizeFrom rows cols n tiles forGdal nodata out layers = .ok D := by
  induction layers generalizing nodata out with
  | nil => exact ⟨out, rfl⟩
  | cons l ls ih =>
    unfold finalizeFrom
    obtain ⟨a, ha⟩ := h l List.mem_cons_self (Tile.nodataFor l nodata)
    simp only [ha]
    exact ih (fun l hl => h l (List.mem_cons_of_mem _ hl)) _ _

namespace Grid
variable {τ : Type} [LayerLike τ] [TileLike τ] [HasLeaves τ] {size sub : ℚ} {bs : Bool} {fl : Fields}

/-- a gridded tile can be read -/
theorem tile_read {env : Env} {C : ChildSpec τ size sub bs fl} {w : ℚ} {names : List Layer} (R : Retrieves env C w names) (L : Answers env C) {x0 y0 : ℚ} {nx ny : Nat} {T : Arr2 (Option τ)}
    {g : Grid τ} {A : Store} (hf : Ready C x0 y0 nx ny T g A) (hg : ∀ u, g.Leaf u → u.cells ≠ []) {layers : List Layer} (hl : ∀ l ∈ layers, l ∈ names)
    (hcore : ∀ l ∈ layers, l.isCore = true) {res : ℚ} (hres : 0 < res) {m : Nat} (hm : w = (m : ℚ) * res)
    {n : Nat} (hn : size = (n : ℚ) * res) (nodata : Option ℚ) (zUp : Bool) {r c : Nat} {t : τ} (ht : g.TileAt r c t) :
    ∃ D, g.getTileData env r c res layers nodata zUp = (g, .ok D) ∧ D.geo = LayerLike.geo t res ∧
      ∀ l b, (tileDict env g res layers nodata zUp (r, c)).get? l = some b → b.rows = n ∧ b.cols = n := by
  have hcell : cellsAlong g.tileSize res = .ok n := by rw [hf.tileSize, hn]; exact cellsAlong_mul hres n
  have hgT : T.get? r c = some (some t) := by
    obtain ⟨T', hT', hget⟩ := ht
    rw [hf.tiles] at hT'; cases hT'; exact hget
  obtain ⟨d', h1, -, h3⟩ := tileLayers_ok (env := env) (res := res) (nodata := nodata) (zUp := g.flips zUp) (layers := layers) (t := t) (n := n) (d := []) (by
    intro l hl'
    obtain ⟨n', o, e1, e2, e3⟩ := R.ok nodata (g.flips zUp) (frame_tileAt hf ht).2.2.1 (fun u hu => hg u ⟨r, c, t, ht, hu⟩) (hl l hl') hres hm
    have : n' = n := by
      rw [hn] at e1
      have := mul_right_cancel₀ hres.ne' e1
      exact_mod_cast this.symm
    subst this
    exact ⟨o, e2, e3⟩) (by simp)
  have hsnd : (g.getTileData env r c res layers nodata zUp).2 = .ok ⟨d', LayerLike.geo t res, r * n, c * n, n⟩ := by
    unfold getTileData
    rw [hf.tiles]
    unfold flips at h1
    simp only [hgT, hcell, h1]
  rcases hq : g.getTileData env r c res layers nodata zUp with ⟨g', o⟩
  rw [hq] at hsnd
  simp only at hsnd
  subst hsnd
  obtain ⟨rfl, -⟩ := getTileData_same L hf hcore hres ht hq
  refine ⟨_, rfl, rfl, ?_⟩
  intro l b hb
  have hd : tileDict env g' res layers nodata zUp (r, c) = d' := by unfold tileDict; rw [hq]
  rw [hd] at hb
  exact h3 _ (Dict.mem_of_get? _ hb)

omit [TileLike τ] [HasLeaves τ] in
theorem loop_ok {env : Env} {g : Grid τ} {res : ℚ} {layers : List Layer} {nodata : Option ℚ} {zUp : Bool} {idx : List (Nat × Nat)}
    (h : ∀ p ∈ idx, ∃ D, g.getTileData env p.1 p.2 res layers nodata zUp = (g, .ok D) ∧ D.geo ≠ none) (s : ChunkState τ) (hs : s.grid = g) :
    (Res.forEach idx s (chunkTile env res layers nodata zUp)).err = none := by
  induction idx generalizing s with
  | nil => rfl
  | cons p l ih =>
    obtain ⟨D, hD, hge⟩ := h p (by simp)
    obtain ⟨ge, hge⟩ := Option.ne_none_iff_exists'.1 hge
    have key : (chunkTile env res layers nodata zUp s p).err = none ∧ (chunkTile env res layers nodata zUp s p).st.grid = g := by
      unfold chunkTile
      rw [hs, hD]
      simp only [hge]
      cases s.geo <;> exact ⟨rfl, rfl⟩
    rw [Res.forEach_cons, Res.andThen_of_err_none key.1]
    exact ih (fun q hq => h q (by simp [hq])) _ key.2

theorem step_ok {env : Env} {C : ChildSpec τ size sub bs fl} {w : ℚ} {names : List Layer} (R : Retrieves env C w names) (L : Answers env C) (hgo : GeoOk C) (hs : 0 < size)
    {x0 y0 : ℚ} {nx ny : Nat} {T : Arr2 (Option τ)}
    {g : Grid τ} {A : Store} (hf : Ready C x0 y0 nx ny T g A) (hg : ∀ u, g.Leaf u → u.cells ≠ []) {layers : List Layer} (hl : ∀ l ∈ layers, l ∈ names)
    (hcore : ∀ l ∈ layers, l.isCore = true) {res : ℚ} (hres : 0 < res) {m : Nat} (hm : w = (m : ℚ) * res)
    {n : Nat} (hn : size = (n : ℚ) * res) (nodata : Option ℚ) (zUp forGdal : Bool) (hgeo : ∀ r c t, g.TileAt r c t → LayerLike.geo t res ≠ none)
    {idx : List (Nat × Nat)} (hidx : IsRect g idx) (out : List Chunk) :
    (chunkStep env res layers nodata zUp forGdal (g, out) idx).err = none := by
  have hnpos : 0 < n := Nat.pos_of_ne_zero (by rintro rfl; rw [hn] at hs; simp at hs)
  have hcell : cellsAlong g.tileSize res = .ok n := by rw [hf.tileSize, hn]; exact cellsAlong_mul hres n
  have hfill : ∀ p ∈ idx, g.Filled p.1 p.2 := by
    obtain ⟨-, -, r0, r1, c0, c1, hm⟩ := hidx
    intro p hp
    exact ((hm p.1 p.2).1 hp).2.2.2.2
  have hread : ∀ p ∈ idx, ∃ D, g.getTileData env p.1 p.2 res layers nodata zUp = (g, .ok D) ∧ D.geo ≠ none := by
    intro p hp
    obtain ⟨t, ht⟩ := hfill p hp
    obtain ⟨D, h1, h2, -⟩ := tile_read R L hf hg hl hcore hres hm hn nodata zUp ht
    exact ⟨D, h1, by rw [h2]; exact hgeo _ _ t ht⟩
  have he := loop_ok hread ({ grid := g } : ChunkState τ) rfl
  obtain ⟨-, inv⟩ := chunk_loop L hgo hs hf hcore hres hcell hgeo idx hfill he
  unfold chunkStep
  simp only
  generalize Res.forEach idx ({ grid := g } : ChunkState τ) (chunkTile env res layers nodata zUp) = r at he inv
  rw [he]
  simp only
  split
  · rfl
  · rw [if_pos (by rw [inv.counts, List.all_map, List.all_eq_true]; intro p _; simp [hnpos.ne'])]
    have hcount : r.st.counts.headD 0 = n := by
      rw [inv.counts]
      obtain ⟨p, l, rfl⟩ := List.exists_cons_of_ne_nil hidx.1
      rfl
    obtain ⟨D, hD⟩ : ∃ D, finalizeChunk ((idx.map Prod.fst).map (· * n)) ((idx.map Prod.snd).map (· * n)) n layers (idx.map (tileDict env g res layers nodata zUp)) nodata forGdal = .ok D := by
      unfold finalizeChunk
      simp only [minOf_mul, zip_tiles, maxOf_sub, maxOf_mul]
      refine finalizeFrom_ok (fun l hl' v => ?_) nodata []
      have eR : maxOf (idx.map Prod.fst) * n - minOf (idx.map Prod.fst) * n + n = chunkRows idx * n := by
        unfold chunkRows; rw [Nat.add_mul, Nat.sub_mul, Nat.one_mul]
      have eC : maxOf (idx.map Prod.snd) * n - minOf (idx.map Prod.snd) * n + n = chunkCols idx * n := by
        unfold chunkCols; rw [Nat.add_mul, Nat.sub_mul, Nat.one_mul]
      rw [eR, eC]
      refine pasteTiles_ok rfl rfl ?_ ?_
      · intro q hq
        obtain ⟨p, hp, rfl⟩ := List.mem_map.1 hq
        have := minOf_le (List.mem_map_of_mem (f := Prod.fst) hp)
        have := minOf_le (List.mem_map_of_mem (f := Prod.snd) hp)
        have := le_maxOf (List.mem_map_of_mem (f := Prod.fst) hp)
        have := le_maxOf (List.mem_map_of_mem (f := Prod.snd) hp)
        simp only [chunkRows, chunkCols]
        omega
      · intro q hq b hb
        obtain ⟨p, hp, rfl⟩ := List.mem_map.1 hq
        obtain ⟨t, ht⟩ := hfill p hp
        obtain ⟨-, -, -, h3⟩ := tile_read R L hf hg hl hcore hres hm hn nodata zUp ht
        exact h3 l b hb
    rw [hcount, inv.rows, inv.cols, inv.data, hD]
    rfl

/-- reading the chunks of a grid whose tiles are all gridded returns normally -/
theorem chunks_ok {env : Env} {C : ChildSpec τ size sub bs fl} {w : ℚ} {names : List Layer} (R : Retrieves env C w names) (L : Answers env C) (hgo : GeoOk C) (hs : 0 < size)
    {x0 y0 : ℚ} {nx ny : Nat} {T : Arr2 (Option τ)}
    {g : Grid τ} {A : Store} (hf : Ready C x0 y0 nx ny T g A) (hg : ∀ u, g.Leaf u → u.cells ≠ []) {layers : List Layer} (hl : ∀ l ∈ layers, l ∈ names)
    (hcore : ∀ l ∈ layers, l.isCore = true) (hnd : layers.Nodup) {res : ℚ} (hres : 0 < res) {m : Nat} (hm : w = (m : ℚ) * res)
    {n : Nat} (hn : size = (n : ℚ) * res) (nodata : Option ℚ) (zUp forGdal : Bool) (hgeo : ∀ r c t, g.TileAt r c t → LayerLike.geo t res ≠ none)
    (hne : ∃ r c, g.Filled r c) (d : Option ℚ) :
    (g.getChunks env res layers nodata zUp d forGdal).err = none := by
  have hcell : cellsAlong g.tileSize res = .ok n := by rw [hf.tileSize, hn]; exact cellsAlong_mul hres n
  unfold getChunks
  simp only
  obtain ⟨r, c, hne⟩ := hne
  split
  · rename_i e he
    obtain ⟨I, hI⟩ := tileChunkIndices_ok _ hne
    rw [hI] at he; cases he
  rename_i I hI
  obtain ⟨rows, cols, -, -, hspec⟩ := tileChunkIndices_spec hI
  have hrect : ∀ idx ∈ I, IsRect g idx := by
    intro idx hi
    obtain ⟨hne, r0, r1, c0, c1, -, -, hm⟩ := hspec.rect idx hi
    exact ⟨hne, (List.nodup_flatten.1 hspec.nodup).1 idx hi, r0, r1, c0, c1, hm⟩
  clear hspec hI
  generalize ([] : List Chunk) = out
  induction I generalizing out with
  | nil => rfl
  | cons idx I ih =>
    have h1 := step_ok R L hgo hs hf hg hl hcore hres hm hn nodata zUp forGdal hgeo (hrect idx (by simp)) out
    rw [Res.forEach_cons, Res.andThen_of_err_none h1]
    have h2 := ((chunkStep_spec (nodata := nodata) (zUp := zUp) (forGdal := forGdal) L hgo hs hf hcore hnd hres hcell hgeo (hrect idx (by simp)) out).1 h1).1
    generalize (chunkStep env res layers nodata zUp forGdal (g, out) idx).st = s at h2
    obtain ⟨g', out'⟩ := s
    simp only at h2
    subst h2
    exact ih (fun i hi => hrect i (by simp [hi])) out'

/-- the geotransform of a tile -/
theorem geoOk_tile (env : Env) (F : Family) {size sub : ℚ} {bs : Bool} {fl : Fields} (hs : 0 < size) : GeoOk (tileSpec env F size sub bs fl hs) := by
  intro x y t A res ge hrep h
  obtain ⟨h1, -⟩ := hrep
  obtain ⟨hf, -⟩ := history_frame hs h1
  have h : (if t.cells.has res then some (Geo.mk t.minX res t.maxY) else none) = some ge := h
  split at h
  · cases h
    have e1 : t.minX = x := hf.1
    have e2 : t.maxY = y + size := hf.2.2.2.1
    rw [e1, e2]
  · cases h

omit [HasLeaves τ] in
/-- the geotransform of a subgrid -/
theorem geoOk_sub {C : ChildSpec τ sub 0 false fl} (hs : 0 < size) (hpow : isPowerOfTwo sub = true) : GeoOk (subSpec (size := size) (bs := bs) C hs hpow) := by
  intro x y g A res ge hrep h
  have hrep : SubInv C size x y g A := hrep
  have h : g.extents.map (fun e => Geo.mk e.minX res e.maxY) = some ge := h
  rw [hrep.extents] at h
  cases h
  rfl

omit [HasLeaves τ] in
/-- subgrids always have one -/
theorem geo_sub {C : ChildSpec τ sub 0 false fl} (hs : 0 < size) (hpow : isPowerOfTwo sub = true) {x y : ℚ} {g : Grid τ} {A : Store}
    (h : (subSpec (size := size) (bs := bs) C hs hpow).Rep x y g A) (res : ℚ) : LayerLike.geo g res ≠ none := by
  have h : SubInv C size x y g A := h
  show g.extents.map (fun e => Geo.mk e.minX res e.maxY) ≠ none
  rw [h.extents]
  simp

end Grid
end Bathy
