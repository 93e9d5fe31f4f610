import Verif.Lemmas.ChunkData

/-!
# `get_chunks_of_tiles`
-/

namespace Bathy
namespace Grid
variable {τ : Type} [LayerLike τ]

/-- what the tile at a slot gives -/
def tileDict (env : Env) (g : Grid τ) (res : ℚ) (layers : List Layer) (nodata : Option ℚ) (zUp : Bool) (p : Nat × Nat) : Dict Layer LayerArr :=
  match (g.getTileData env p.1 p.2 res layers nodata zUp).2 with
  | .ok d => d.data
  | .error _ => []

variable [TileLike τ] [HasLeaves τ] {size sub : ℚ} {bs : Bool} {fl : Fields}

/-- the geotransform of the tiles -/
def GeoOk (C : ChildSpec τ size sub bs fl) : Prop :=
  ∀ {x y : ℚ} {t : τ} {A : Store} {res : ℚ} {ge : Geo}, C.Rep x y t A → LayerLike.geo t res = some ge → ge = ⟨x, res, y + size⟩

theorem getTileData_full {env : Env} {C : ChildSpec τ size sub bs fl} (L : Answers env C) {x0 y0 : ℚ} {nx ny : Nat} {T : Arr2 (Option τ)} {g : Grid τ} {A : Store}
    (hf : Ready C x0 y0 nx ny T g A) {layers : List Layer} (hcore : ∀ l ∈ layers, l.isCore = true) {res : ℚ} (hres : 0 < res) {nodata : Option ℚ} {zUp : Bool}
    {r c : Nat} {t : τ} (ht : g.TileAt r c t) {g' : Grid τ} {D : TileData} (h : g.getTileData env r c res layers nodata zUp = (g', .ok D)) :
    g' = g ∧ ∃ n, cellsAlong g.tileSize res = .ok n ∧ D = ⟨tileDict env g res layers nodata zUp (r, c), LayerLike.geo t res, r * n, c * n, n⟩ ∧
      (∀ l, l ∉ layers → (tileDict env g res layers nodata zUp (r, c)).get? l = none) ∧
      ∀ l ∈ layers, ((tileDict env g res layers nodata zUp (r, c)).get? l = none → ∀ px py z, ¬ StoredCell t l res px py z) ∧
        ∀ b, (tileDict env g res layers nodata zUp (r, c)).get? l = some b → (∃ px py z, StoredCell t l res px py z) ∧ ShowsCells t l res nodata (g.flips zUp) (x0 + (c : ℚ) * size) (y0 + (r : ℚ) * size) b := by
  have hd : tileDict env g res layers nodata zUp (r, c) = D.data := by unfold tileDict; rw [h]
  have hTw : T.WF := by show T.flat.length = _; rw [hf.rep.2.2.1, hf.rep.1, hf.rep.2.1]
  have hgT : T.get? r c = some (some t) := by
    obtain ⟨T', hT', hget⟩ := ht
    rw [hf.tiles] at hT'; cases hT'; exact hget
  have hrep := (frame_tileAt hf ht).2.2.1
  have hg : g = { g with tiles := some ⟨T.rows, T.cols, T.flat⟩ } := by
    have e : (⟨T.rows, T.cols, T.flat⟩ : Arr2 (Option τ)) = T := rfl
    rw [e, ← hf.tiles]
  cases hn : cellsAlong g.tileSize res with
  | error e =>
    unfold getTileData at h
    rw [hf.tiles] at h
    simp only [hgT, hn] at h
    cases h
  | ok n =>
    have hdata := getTileData_eq (env := env) (layers := layers) (nodata := nodata) (zUp := zUp) hn (T := T) (Fl := T.flat) (row := r) (col := c) (t := t) hgT
    rw [← hg, h] at hdata
    obtain ⟨e1, e2⟩ := Prod.mk.inj hdata
    cases hfo : foundIn env res layers nodata (g.flips zUp) t with
    | error e => rw [hfo] at e2; cases e2
    | ok d =>
      rw [hfo] at e2
      have e2 := Except.ok.inj e2
      have htl : tileLayersFrom env res nodata (g.flips zUp) t [] layers = (askedFor env res layers nodata (g.flips zUp) t, .ok d) := by
        rw [← hfo]; rfl
      obtain ⟨k1, k2, k3⟩ := tileLayers_named (fun l hl t' o ho => (L.ans hrep (hcore l hl) hres ho).1) htl
      have hdd : D.data = d := by rw [e2]
      rw [hd, hdd]
      refine ⟨?_, n, rfl, e2, fun l hl => k2 l hl, ?_⟩
      · rw [e1, k1]
        have hb := lt_of_get hgT
        have : T.flat.set (r * T.cols + c) (some t) = T.flat := by
          apply List.ext_getElem?
          intro k
          rw [List.getElem?_set]
          split
          · rename_i hk
            subst hk
            rw [Arr2.get?_eq_flat T hb.1 hb.2] at hgT
            rw [hgT, if_pos (List.getElem?_eq_some_iff.1 hgT).1]
          · rfl
        rw [this]; exact hg.symm
      · intro l hl
        obtain ⟨o, ho, h1, h2⟩ := k3 l hl
        obtain ⟨-, a2, a3⟩ := L.ans hrep (hcore l hl) hres ho
        constructor
        · intro hnone
          cases o with
          | none => exact a2 rfl
          | some a => rw [h1 a rfl] at hnone; cases hnone
        · intro b hb
          cases o with
          | none => rw [h2 rfl] at hb; cases hb
          | some a =>
            rw [h1 a rfl] at hb; cases hb
            exact a3 _ rfl

theorem getTileData_same {env : Env} {C : ChildSpec τ size sub bs fl} (L : Answers env C) {x0 y0 : ℚ} {nx ny : Nat} {T : Arr2 (Option τ)} {g : Grid τ} {A : Store}
    (hf : Ready C x0 y0 nx ny T g A) {layers : List Layer} (hcore : ∀ l ∈ layers, l.isCore = true) {res : ℚ} (hres : 0 < res) {nodata : Option ℚ} {zUp : Bool}
    {r c : Nat} {t : τ} (ht : g.TileAt r c t) {g' : Grid τ} {D : TileData} (h : g.getTileData env r c res layers nodata zUp = (g', .ok D)) :
    g' = g ∧ ∃ n, cellsAlong g.tileSize res = .ok n ∧ D = ⟨tileDict env g res layers nodata zUp (r, c), LayerLike.geo t res, r * n, c * n, n⟩ ∧
      (∀ l, l ∉ layers → (tileDict env g res layers nodata zUp (r, c)).get? l = none) ∧
      ∀ l ∈ layers, ((tileDict env g res layers nodata zUp (r, c)).get? l = none → ∀ px py z, ¬ StoredCell t l res px py z) ∧
        ∀ b, (tileDict env g res layers nodata zUp (r, c)).get? l = some b → ShowsCells t l res nodata (g.flips zUp) (x0 + (c : ℚ) * size) (y0 + (r : ℚ) * size) b := by
  obtain ⟨h1, n, h2, h3, h4, h5⟩ := getTileData_full L hf hcore hres ht h
  exact ⟨h1, n, h2, h3, h4, fun l hl => ⟨(h5 l hl).1, fun b hb => ((h5 l hl).2 b hb).2⟩⟩

/-- a tile that gives something holds something -/
theorem tileDict_stored {env : Env} {C : ChildSpec τ size sub bs fl} (L : Answers env C) {x0 y0 : ℚ} {nx ny : Nat} {T : Arr2 (Option τ)} {g : Grid τ} {A : Store}
    (hf : Ready C x0 y0 nx ny T g A) {layers : List Layer} (hcore : ∀ l ∈ layers, l.isCore = true) {res : ℚ} (hres : 0 < res) {nodata : Option ℚ} {zUp : Bool}
    {r c : Nat} {t : τ} (ht : g.TileAt r c t) {g' : Grid τ} {D : TileData} (h : g.getTileData env r c res layers nodata zUp = (g', .ok D))
    (hne : tileDict env g res layers nodata zUp (r, c) ≠ []) : ∃ l ∈ layers, ∃ px py z, StoredCell t l res px py z := by
  obtain ⟨-, n, -, -, h4, h5⟩ := getTileData_full L hf hcore hres ht h
  generalize tileDict env g res layers nodata zUp (r, c) = d at *
  match d, hne with
  | (l, b) :: d, _ =>
    have hb : Dict.get? ((l, b) :: d) l = some b := by simp [Dict.get?]
    have hl : l ∈ layers := by
      by_contra hl
      rw [h4 l hl] at hb
      cases hb
    exact ⟨l, hl, ((h5 l hl).2 b hb).1⟩

/-- upper left corner of the tiles of a chunk -/
def chunkGeo (x0 y0 size res : ℚ) (idx : List (Nat × Nat)) : Geo :=
  ⟨x0 + (minOf (idx.map Prod.snd) : ℚ) * size, res, y0 + (maxOf (idx.map Prod.fst) : ℚ) * size + size⟩

/-- number of rows and columns of tiles of a chunk -/
def chunkRows (idx : List (Nat × Nat)) : Nat := maxOf (idx.map Prod.fst) - minOf (idx.map Prod.fst) + 1
def chunkCols (idx : List (Nat × Nat)) : Nat := maxOf (idx.map Prod.snd) - minOf (idx.map Prod.snd) + 1

/-- the dimension that is yielded with a chunk -/
def chunkDim (n : Nat) (res : ℚ) (idx : List (Nat × Nat)) : ℚ :=
  if idx.length ≤ 1 then 0 else max (((chunkRows idx * n : Nat) : ℚ) * res) (((chunkCols idx * n : Nat) : ℚ) * res)

theorem min_origin {x0 size : ℚ} (hs : 0 < size) (a b : Nat) : min (x0 + (a : ℚ) * size) (x0 + (b : ℚ) * size) = x0 + ((min a b : Nat) : ℚ) * size := by
  rcases le_total a b with h | h
  · rw [Nat.min_eq_left h, min_eq_left]
    have : (a : ℚ) ≤ b := by exact_mod_cast h
    nlinarith
  · rw [Nat.min_eq_right h, min_eq_right]
    have : (b : ℚ) ≤ a := by exact_mod_cast h
    nlinarith

theorem max_origin {y0 size : ℚ} (hs : 0 < size) (a b : Nat) : max (y0 + (a : ℚ) * size + size) (y0 + (b : ℚ) * size + size) = y0 + ((max a b : Nat) : ℚ) * size + size := by
  rcases le_total a b with h | h
  · rw [Nat.max_eq_right h, max_eq_right]
    have : (a : ℚ) ≤ b := by exact_mod_cast h
    nlinarith
  · rw [Nat.max_eq_left h, max_eq_left]
    have : (b : ℚ) ≤ a := by exact_mod_cast h
    nlinarith

/-- the state of the inner loop after the tiles of a list -/
structure ChunkInv (env : Env) (g : Grid τ) (res : ℚ) (layers : List Layer) (nodata : Option ℚ) (zUp : Bool) (x0 y0 size : ℚ) (n : Nat) (l : List (Nat × Nat)) (s : ChunkState τ) : Prop where
  grid : s.grid = g
  data : s.data = l.map (tileDict env g res layers nodata zUp)
  rows : s.rows = (l.map Prod.fst).map (· * n)
  cols : s.cols = (l.map Prod.snd).map (· * n)
  counts : s.counts = l.map (fun _ => n)
  geo : s.geo = if l = [] then none else some (chunkGeo x0 y0 size res l)
  maxDim : s.maxDim = chunkDim n res l

/-- the tile at a slot was read -/
def Got (env : Env) (g : Grid τ) (res : ℚ) (layers : List Layer) (nodata : Option ℚ) (zUp : Bool) (n : Nat) (p : Nat × Nat) : Prop :=
  ∃ D, g.getTileData env p.1 p.2 res layers nodata zUp = (g, .ok D) ∧ cellsAlong g.tileSize res = .ok n

theorem chunk_loop {env : Env} {C : ChildSpec τ size sub bs fl} (L : Answers env C) (hgo : GeoOk C) (hs : 0 < size) {x0 y0 : ℚ} {nx ny : Nat} {T : Arr2 (Option τ)} {g : Grid τ} {A : Store}
    (hf : Ready C x0 y0 nx ny T g A) {layers : List Layer} (hcore : ∀ l ∈ layers, l.isCore = true) {res : ℚ} (hres : 0 < res) {n : Nat} (hn : cellsAlong g.tileSize res = .ok n)
    {nodata : Option ℚ} {zUp : Bool} (hgeo : ∀ r c t, g.TileAt r c t → LayerLike.geo t res ≠ none) (idx : List (Nat × Nat)) (hidx : ∀ p ∈ idx, g.Filled p.1 p.2)
    (h : (Res.forEach idx ({ grid := g } : ChunkState τ) (chunkTile env res layers nodata zUp)).err = none) :
    (∀ p ∈ idx, Got env g res layers nodata zUp n p) ∧
    ChunkInv env g res layers nodata zUp x0 y0 size n idx (Res.forEach idx ({ grid := g } : ChunkState τ) (chunkTile env res layers nodata zUp)).st := by
  induction idx using List.reverseRecOn with
  | nil => exact ⟨by simp, ⟨rfl, rfl, rfl, rfl, rfl, rfl, rfl⟩⟩
  | append_singleton l p ih =>
    rw [Res.forEach_append] at h ⊢
    obtain ⟨e1, e2⟩ := Res.andThen_err_none h
    rw [Res.andThen_of_err_none e1]
    obtain ⟨i1, i2⟩ := ih (fun q hq => hidx q (List.mem_append_left _ hq)) e1
    generalize Res.forEach l ({ grid := g } : ChunkState τ) (chunkTile env res layers nodata zUp) = r at i2 e2 ⊢
    simp only [Res.forEach_cons, Res.forEach_nil] at e2 ⊢
    obtain ⟨e3, -⟩ := Res.andThen_err_none e2
    rw [Res.andThen_of_err_none e3]
    obtain ⟨t, ht⟩ := hidx p (by simp)
    obtain ⟨ge, hge⟩ := Option.ne_none_iff_exists'.1 (hgeo _ _ t ht)
    have hge' := hgo (frame_tileAt hf ht).2.2.1 hge
    rcases hq : g.getTileData env p.1 p.2 res layers nodata zUp with ⟨g1, e | D⟩
    · unfold chunkTile at e3
      rw [i2.grid, hq] at e3
      cases e3
    · obtain ⟨rfl, n', hn', hD, -⟩ := getTileData_same L hf hcore hres ht hq
      rw [hn] at hn'; cases hn'
      refine ⟨?_, ?_⟩
      · intro q hq'
        rcases List.mem_append.1 hq' with hq' | hq'
        · exact i1 q hq'
        · rw [List.mem_singleton.1 hq']; exact ⟨D, hq, hn⟩
      · have hDg : D.geo = some ge := by rw [hD]; exact hge
        have hDd : D.data = tileDict env g1 res layers nodata zUp p := by rw [hD]
        have hDr : D.row0 = p.1 * n := by rw [hD]
        have hDc : D.col0 = p.2 * n := by rw [hD]
        have hDn : D.cells = n := by rw [hD]
        show ChunkInv env g1 res layers nodata zUp x0 y0 size n (l ++ [p]) (chunkTile env res layers nodata zUp r.st p).st
        unfold chunkTile
        rw [i2.grid, hq]
        simp only [hDg]
        by_cases hl : l = []
        · subst hl
          have hg0 : r.st.geo = none := by rw [i2.geo]; rfl
          simp only [hg0]
          refine ⟨rfl, ?_, ?_, ?_, ?_, ?_, ?_⟩
          · simp [i2.data, hDd]
          · simp [i2.rows, hDr]
          · simp [i2.cols, hDc]
          · simp [i2.counts, hDn]
          · simp [chunkGeo, hge', minOf, maxOf]
          · show r.st.maxDim = _
            rw [i2.maxDim]; rfl
        · have hg0 : r.st.geo = some (chunkGeo x0 y0 size res l) := by rw [i2.geo, if_neg hl]
          simp only [hg0]
          have hrows : r.st.rows ++ [D.row0] = ((l ++ [p]).map Prod.fst).map (· * n) := by rw [i2.rows, hDr]; simp
          have hcols : r.st.cols ++ [D.col0] = ((l ++ [p]).map Prod.snd).map (· * n) := by rw [i2.cols, hDc]; simp
          refine ⟨rfl, ?_, hrows, hcols, ?_, ?_, ?_⟩
          · show r.st.data ++ [D.data] = _
            simp [i2.data, hDd]
          · show r.st.counts ++ [D.cells] = _
            simp [i2.counts, hDn]
          · rw [if_neg (by simp)]
            show some (Geo.mk _ _ _) = _
            rw [Option.some.injEq]
            have h1 : l.map Prod.fst ≠ [] := by simpa using hl
            have h2 : l.map Prod.snd ≠ [] := by simpa using hl
            unfold chunkGeo
            rw [List.map_append, List.map_append, List.map_singleton, List.map_singleton, minOf_concat _ h2, maxOf_concat, hge']
            simp only [min_origin hs, max_origin hs]
          · show max (((maxOf (r.st.rows ++ [D.row0]) - minOf (r.st.rows ++ [D.row0]) + D.cells : Nat) : ℚ) * res)
              (((maxOf (r.st.cols ++ [D.col0]) - minOf (r.st.cols ++ [D.col0]) + D.cells : Nat) : ℚ) * res) = _
            unfold chunkDim
            rw [if_neg (by have := List.length_pos_iff.2 hl; simp only [List.length_append, List.length_singleton]; omega), hrows, hcols, maxOf_mul, minOf_mul, maxOf_mul, minOf_mul, hDn]
            unfold chunkRows chunkCols
            simp only [Nat.add_mul, Nat.sub_mul, Nat.one_mul]

/-- the indices are those of the tiles in a rectangle of slots -/
def IsRect (g : Grid τ) (idx : List (Nat × Nat)) : Prop :=
  idx ≠ [] ∧ idx.Nodup ∧ ∃ r0 r1 c0 c1, ∀ r c, (r, c) ∈ idx ↔ r0 ≤ r ∧ r < r1 ∧ c0 ≤ c ∧ c < c1 ∧ g.Filled r c

omit [LayerLike τ] [TileLike τ] [HasLeaves τ] in
/-- a tile inside the bounding box of the chunk belongs to the chunk -/
theorem isRect_box {g : Grid τ} {idx : List (Nat × Nat)} (h : IsRect g idx) {r c : Nat} (h1 : minOf (idx.map Prod.fst) ≤ r) (h2 : r ≤ maxOf (idx.map Prod.fst))
    (h3 : minOf (idx.map Prod.snd) ≤ c) (h4 : c ≤ maxOf (idx.map Prod.snd)) (hf : g.Filled r c) : (r, c) ∈ idx := by
  obtain ⟨hne, -, r0, r1, c0, c1, hm⟩ := h
  obtain ⟨p1, hp1, e1⟩ := List.mem_map.1 (minOf_mem (l := idx.map Prod.fst) (by simpa using hne))
  obtain ⟨p2, hp2, e2⟩ := List.mem_map.1 (maxOf_mem (l := idx.map Prod.fst) (by simpa using hne))
  obtain ⟨p3, hp3, e3⟩ := List.mem_map.1 (minOf_mem (l := idx.map Prod.snd) (by simpa using hne))
  obtain ⟨p4, hp4, e4⟩ := List.mem_map.1 (maxOf_mem (l := idx.map Prod.snd) (by simpa using hne))
  have := (hm p1.1 p1.2).1 hp1
  have := (hm p2.1 p2.2).1 hp2
  have := (hm p3.1 p3.2).1 hp3
  have := (hm p4.1 p4.2).1 hp4
  exact (hm r c).2 ⟨by omega, by omega, by omega, by omega, hf⟩

/-- the chunk made of the tiles with the given indices -/
structure GoodChunk (g : Grid τ) (res : ℚ) (layers : List Layer) (nodata : Option ℚ) (zUp forGdal : Bool) (x0 y0 size : ℚ) (n : Nat) (idx : List (Nat × Nat)) (c : Chunk) : Prop where
  geo : c.geo = some (chunkGeo x0 y0 size res idx)
  dim : c.maxDim = chunkDim n res idx
  keys : c.data.keys = layers
  arr : ∀ (k : Nat) l, layers[k]? = some l → ∃ X, c.data.get? l = some (if forGdal then fliplrT X else X) ∧ X.rows = chunkRows idx * n ∧ X.cols = chunkCols idx * n ∧
    ∀ i j, i < chunkRows idx * n → j < chunkCols idx * n →
      (∀ z, StoredCell g l res (x0 + (minOf (idx.map Prod.snd) : ℚ) * size + (j : ℚ) * res) (y0 + (minOf (idx.map Prod.fst) : ℚ) * size + (i : ℚ) * res) z →
        X.get? i j = some (some (shownValue l (flips g zUp) z))) ∧
      (stickyNodata nodata (layers.take (k + 1)) = fillValue l nodata →
        (∀ z, ¬ StoredCell g l res (x0 + (minOf (idx.map Prod.snd) : ℚ) * size + (j : ℚ) * res) (y0 + (minOf (idx.map Prod.fst) : ℚ) * size + (i : ℚ) * res) z) →
        X.get? i j = some (fillValue l nodata))
  pix : ∀ r c t l x y z, (r, c) ∈ idx → g.TileAt r c t → l ∈ layers → StoredCell t l res x y z → ∃ i j : Nat, i < chunkRows idx * n ∧ j < chunkCols idx * n ∧
    x = x0 + (minOf (idx.map Prod.snd) : ℚ) * size + (j : ℚ) * res ∧ y = y0 + (minOf (idx.map Prod.fst) : ℚ) * size + (i : ℚ) * res

theorem zip_tiles (n : Nat) (mr mc : Nat) (f : Nat × Nat → Dict Layer LayerArr) (idx : List (Nat × Nat)) :
    (((idx.map Prod.fst).map (· * n)).map (· - mr * n)).zip ((((idx.map Prod.snd).map (· * n)).map (· - mc * n)).zip (idx.map f)) =
      (idx.map (fun p => ((p.1 - mr, p.2 - mc), f p))).map (fun q => (q.1.1 * n, q.1.2 * n, q.2)) := by
  induction idx with
  | nil => rfl
  | cons p l ih =>
    simp only [List.map_cons, List.zip_cons_cons, ih, Nat.sub_mul]

theorem add_block (a n i : Nat) (hn : 0 < n) : (a * n + i) / n = a + i / n ∧ (a * n + i) % n = i % n := by
  constructor
  · rw [Nat.mul_comm, Nat.mul_add_div hn]
  · rw [Nat.mul_comm, Nat.mul_add_mod]

/-- a stored cell with coordinates inside the chunk belongs to a tile of the chunk -/
theorem cell_in_chunk {env : Env} {C : ChildSpec τ size sub bs fl} (L : Answers env C) (hs : 0 < size) {x0 y0 : ℚ} {nx ny : Nat} {T : Arr2 (Option τ)} {g : Grid τ} {A : Store}
    (hf : Ready C x0 y0 nx ny T g A) {res : ℚ} (hres : 0 < res) {n : Nat} (hsz : size = (n : ℚ) * res) {idx : List (Nat × Nat)} (hidx : IsRect g idx)
    {i j : Nat} (hi : i < chunkRows idx * n) (hj : j < chunkCols idx * n) {r c : Nat} {t : τ} (ht : g.TileAt r c t) {l : Layer} (hl : l.isCore = true) {z : ℚ}
    (hz : StoredCell t l res (x0 + (minOf (idx.map Prod.snd) : ℚ) * size + (j : ℚ) * res) (y0 + (minOf (idx.map Prod.fst) : ℚ) * size + (i : ℚ) * res) z) :
    r = minOf (idx.map Prod.fst) + i / n ∧ c = minOf (idx.map Prod.snd) + j / n ∧ (r, c) ∈ idx := by
  have hnpos : 0 < n := Nat.pos_of_ne_zero (by rintro rfl; rw [hsz] at hs; simp at hs)
  have hx : ∀ x : ℚ, x + (minOf (idx.map Prod.snd) : ℚ) * size + (j : ℚ) * res = x + ((minOf (idx.map Prod.snd) * n + j : Nat) : ℚ) * res := by
    intro x; rw [hsz]; push_cast; ring
  have hy : ∀ y : ℚ, y + (minOf (idx.map Prod.fst) : ℚ) * size + (i : ℚ) * res = y + ((minOf (idx.map Prod.fst) * n + i : Nat) : ℚ) * res := by
    intro y; rw [hsz]; push_cast; ring
  obtain ⟨bi1, -⟩ := add_block (minOf (idx.map Prod.fst)) n i hnpos
  obtain ⟨bj1, -⟩ := add_block (minOf (idx.map Prod.snd)) n j hnpos
  have hir : i / n < chunkRows idx := Nat.div_lt_of_lt_mul (by rw [Nat.mul_comm]; exact hi)
  have hjc : j / n < chunkCols idx := Nat.div_lt_of_lt_mul (by rw [Nat.mul_comm]; exact hj)
  obtain ⟨b1, b2, b3, b4⟩ := L.loc (frame_tileAt hf ht).2.2.1 hl hz
  rw [hx] at b1 b2
  rw [hy] at b3 b4
  have er := mul_lt_div hres hsz b3 b4
  have ec := mul_lt_div hres hsz b1 b2
  rw [bi1] at er
  rw [bj1] at ec
  refine ⟨er, ec, ?_⟩
  subst er; subst ec
  unfold chunkRows at hir
  unfold chunkCols at hjc
  have hne := hidx.1
  have a1 : minOf (idx.map Prod.fst) ≤ maxOf (idx.map Prod.fst) := minOf_le (maxOf_mem (by simpa using hne))
  have a2 : minOf (idx.map Prod.snd) ≤ maxOf (idx.map Prod.snd) := minOf_le (maxOf_mem (by simpa using hne))
  exact isRect_box hidx (Nat.le_add_right _ _) (by omega) (Nat.le_add_right _ _) (by omega) ⟨t, ht⟩

theorem finalize_good {env : Env} {C : ChildSpec τ size sub bs fl} (L : Answers env C) (hs : 0 < size) {x0 y0 : ℚ} {nx ny : Nat} {T : Arr2 (Option τ)} {g : Grid τ} {A : Store}
    (hf : Ready C x0 y0 nx ny T g A) {layers : List Layer} (hcore : ∀ l ∈ layers, l.isCore = true) (hnd : layers.Nodup) {res : ℚ} (hres : 0 < res) {n : Nat}
    (hn : cellsAlong g.tileSize res = .ok n) {nodata : Option ℚ} {zUp forGdal : Bool} {idx : List (Nat × Nat)} (hidx : IsRect g idx)
    (hgot : ∀ p ∈ idx, Got env g res layers nodata zUp n p) {D : Dict Layer LayerArr}
    (h : finalizeChunk ((idx.map Prod.fst).map (· * n)) ((idx.map Prod.snd).map (· * n)) n layers (idx.map (tileDict env g res layers nodata zUp)) nodata forGdal = .ok D) :
    GoodChunk g res layers nodata zUp forGdal x0 y0 size n idx ⟨some (chunkGeo x0 y0 size res idx), chunkDim n res idx, D⟩ := by
  have hsz := cellsAlong_ok hres.ne' hn
  rw [hf.tileSize] at hsz
  have hnpos : 0 < n := Nat.pos_of_ne_zero (by rintro rfl; rw [hsz] at hs; simp at hs)
  obtain ⟨hne, hnodup, r0, r1, c0, c1, hm⟩ := id hidx
  unfold finalizeChunk at h
  simp only [minOf_mul, zip_tiles, maxOf_sub, maxOf_mul] at h
  obtain ⟨h1, -, h3⟩ := finalizeFrom_spec (by simpa [Dict.keys] using hnd) h
  have hrmin : ∀ p ∈ idx, minOf (idx.map Prod.fst) ≤ p.1 ∧ p.1 ≤ maxOf (idx.map Prod.fst) := fun p hp =>
    ⟨minOf_le (List.mem_map_of_mem hp), le_maxOf (List.mem_map_of_mem hp)⟩
  have hcmin : ∀ p ∈ idx, minOf (idx.map Prod.snd) ≤ p.2 ∧ p.2 ≤ maxOf (idx.map Prod.snd) := fun p hp =>
    ⟨minOf_le (List.mem_map_of_mem hp), le_maxOf (List.mem_map_of_mem hp)⟩
  have eR : maxOf (idx.map Prod.fst) * n - minOf (idx.map Prod.fst) * n + n = chunkRows idx * n := by
    unfold chunkRows; rw [Nat.add_mul, Nat.sub_mul, Nat.one_mul]
  have eC : maxOf (idx.map Prod.snd) * n - minOf (idx.map Prod.snd) * n + n = chunkCols idx * n := by
    unfold chunkCols; rw [Nat.add_mul, Nat.sub_mul, Nat.one_mul]
  have hpaste := fun (k : Nat) (l : Layer) (X : LayerArr) (hX : pasteTiles n l (Arr2.fill (chunkRows idx * n) (chunkCols idx * n) (stickyNodata nodata (layers.take (k + 1))))
      ((idx.map (fun p => ((p.1 - minOf (idx.map Prod.fst), p.2 - minOf (idx.map Prod.snd)), tileDict env g res layers nodata zUp p))).map (fun q => (q.1.1 * n, q.1.2 * n, q.2))) = .ok X) =>
    pasteTiles_spec hnpos rfl rfl (Arr2.fill_wf _ _ _)
    (by
      intro q hq
      obtain ⟨p, hp, rfl⟩ := List.mem_map.1 hq
      have := hrmin p hp
      have := hcmin p hp
      simp only [chunkRows, chunkCols]
      omega)
    (by
      rw [List.map_map]
      refine List.Nodup.map_on ?_ hnodup
      intro p hp q hq e
      have := hrmin p hp
      have := hcmin p hp
      have := hrmin q hq
      have := hcmin q hq
      simp only [Function.comp, Prod.mk.injEq] at e
      exact Prod.ext (by omega) (by omega)) hX
  refine ⟨rfl, rfl, by simpa [Dict.keys] using h1, ?_, ?_⟩
  rotate_left
  · intro r c t l x y z hp ht hl hz
    obtain ⟨k, hk⟩ := List.mem_iff_getElem?.1 hl
    obtain ⟨X, hX, hD⟩ := h3 k l hk
    rw [eR, eC] at hX
    obtain ⟨-, -, -, k4, -⟩ := hpaste k l X hX
    obtain ⟨D', hD', -⟩ := hgot _ hp
    obtain ⟨-, -, -, -, -, hnamed⟩ := getTileData_same L hf hcore hres ht hD'
    obtain ⟨n1, n2⟩ := hnamed l hl
    rcases ho : (tileDict env g res layers nodata zUp (r, c)).get? l with _ | b
    · exact absurd hz (n1 ho _ _ z)
    · have hq := List.mem_map_of_mem (f := fun p : Nat × Nat => ((p.1 - minOf (idx.map Prod.fst), p.2 - minOf (idx.map Prod.snd)), tileDict env g res layers nodata zUp p)) hp
      have hb := k4 _ hq b ho
      obtain ⟨i, j, hi, hj, ex, ey⟩ := (n2 b ho).all x y z hz
      rw [hb.1] at hi
      rw [hb.2] at hj
      obtain ⟨q1, q2⟩ := hrmin _ hp
      obtain ⟨q3, q4⟩ := hcmin _ hp
      simp only at q1 q2 q3 q4
      obtain ⟨dr, rfl⟩ := Nat.exists_eq_add_of_le q1
      obtain ⟨dc, rfl⟩ := Nat.exists_eq_add_of_le q3
      refine ⟨dr * n + i, dc * n + j, ?_, ?_, ?_, ?_⟩
      · have : dr + 1 ≤ chunkRows idx := by unfold chunkRows; omega
        calc dr * n + i < dr * n + n := by omega
          _ = (dr + 1) * n := by ring
          _ ≤ _ := Nat.mul_le_mul_right _ this
      · have : dc + 1 ≤ chunkCols idx := by unfold chunkCols; omega
        calc dc * n + j < dc * n + n := by omega
          _ = (dc + 1) * n := by ring
          _ ≤ _ := Nat.mul_le_mul_right _ this
      · rw [ex, hsz]; push_cast; ring
      · rw [ey, hsz]; push_cast; ring
  intro k l hk
  obtain ⟨X, hX, hD⟩ := h3 k l hk
  have hl := List.mem_of_getElem? hk
  rw [eR, eC] at hX
  obtain ⟨k1, k2, k3, k4, k5⟩ := hpaste k l X hX
  refine ⟨X, hD, k1, k2, ?_⟩
  intro i j hi hj
  obtain ⟨m1, m2⟩ := k5 i j hi hj
  have hx : ∀ x : ℚ, x + (minOf (idx.map Prod.snd) : ℚ) * size + (j : ℚ) * res = x + ((minOf (idx.map Prod.snd) * n + j : Nat) : ℚ) * res := by
    intro x; rw [hsz]; push_cast; ring
  have hy : ∀ y : ℚ, y + (minOf (idx.map Prod.fst) : ℚ) * size + (i : ℚ) * res = y + ((minOf (idx.map Prod.fst) * n + i : Nat) : ℚ) * res := by
    intro y; rw [hsz]; push_cast; ring
  obtain ⟨bi1, bi2⟩ := add_block (minOf (idx.map Prod.fst)) n i hnpos
  obtain ⟨bj1, bj2⟩ := add_block (minOf (idx.map Prod.snd)) n j hnpos
  have hir : i / n < chunkRows idx := Nat.div_lt_of_lt_mul (by rw [Nat.mul_comm]; exact hi)
  have hjc : j / n < chunkCols idx := Nat.div_lt_of_lt_mul (by rw [Nat.mul_comm]; exact hj)
  have hcell : ∀ t, g.TileAt (minOf (idx.map Prod.fst) + i / n) (minOf (idx.map Prod.snd) + j / n) t → ∀ z,
      (StoredCell t l res (x0 + (minOf (idx.map Prod.snd) : ℚ) * size + (j : ℚ) * res) (y0 + (minOf (idx.map Prod.fst) : ℚ) * size + (i : ℚ) * res) z ↔
        StoredCell t l res (x0 + ((minOf (idx.map Prod.snd) + j / n : Nat) : ℚ) * size + ((j % n : Nat) : ℚ) * res)
          (y0 + ((minOf (idx.map Prod.fst) + i / n : Nat) : ℚ) * size + ((i % n : Nat) : ℚ) * res) z) := by
    intro t ht z
    rw [hx, hy, ← bi1, ← bi2, ← bj1, ← bj2, at_cell hsz, at_cell hsz]
  constructor
  · intro z hz
    obtain ⟨r, c, t, ht, hzt⟩ := stored_grid.1 hz
    obtain ⟨er, ec, hp⟩ := cell_in_chunk L hs hf hres hsz hidx hi hj ht (hcore l hl) hzt
    subst er; subst ec
    obtain ⟨D', hD', -⟩ := hgot _ hp
    obtain ⟨-, -, -, -, -, hnamed⟩ := getTileData_same L hf hcore hres ht hD'
    obtain ⟨n1, n2⟩ := hnamed l hl
    rcases ho : (tileDict env g res layers nodata zUp (minOf (idx.map Prod.fst) + i / n, minOf (idx.map Prod.snd) + j / n)).get? l with _ | b
    · exact absurd hzt (n1 ho _ _ z)
    · have hsc := n2 b ho
      have hq := List.mem_map_of_mem (f := fun p : Nat × Nat => ((p.1 - minOf (idx.map Prod.fst), p.2 - minOf (idx.map Prod.snd)), tileDict env g res layers nodata zUp p)) hp
      have hb := k4 _ hq b ho
      rw [m1 _ hq (by simp) b ho]
      rw [hsc.value (i % n) (j % n) z (by rw [hb.1]; exact Nat.mod_lt _ hnpos) (by rw [hb.2]; exact Nat.mod_lt _ hnpos) ((hcell t ht z).1 hzt)]
      rfl
  · intro hst hz
    by_cases hex : ∃ q ∈ idx.map (fun p => ((p.1 - minOf (idx.map Prod.fst), p.2 - minOf (idx.map Prod.snd)), tileDict env g res layers nodata zUp p)), q.1 = (i / n, j / n) ∧ ∃ b, q.2.get? l = some b
    · obtain ⟨q, hq, e, b, hb⟩ := hex
      rw [m1 q hq e b hb]
      have hdim := k4 q hq b hb
      obtain ⟨p, hp, rfl⟩ := List.mem_map.1 hq
      have hpe : p = (minOf (idx.map Prod.fst) + i / n, minOf (idx.map Prod.snd) + j / n) := by
        have e1 := congrArg Prod.fst e
        have e2 := congrArg Prod.snd e
        have := hrmin p hp
        have := hcmin p hp
        simp only at e1 e2
        obtain ⟨pr, pc⟩ := p
        simp only at this e1 e2 ⊢
        have := hrmin _ hp
        simp only at this
        rw [Prod.mk.injEq]
        omega
      subst hpe
      obtain ⟨-, -, -, -, t, ht⟩ := (hm _ _).1 hp
      obtain ⟨D', hD', -⟩ := hgot _ hp
      obtain ⟨-, -, -, -, -, hnamed⟩ := getTileData_same L hf hcore hres ht hD'
      have hsc := (hnamed l hl).2 b hb
      rw [hsc.empty (i % n) (j % n) (by rw [hdim.1]; exact Nat.mod_lt _ hnpos) (by rw [hdim.2]; exact Nat.mod_lt _ hnpos)
        (fun z hzt => hz z (stored_grid.2 ⟨_, _, t, ht, (hcell t ht z).2 hzt⟩))]
      rfl
    · push Not at hex
      rw [m2, Arr2.get?_fill _ hi hj, hst]
      intro q hq e
      exact Option.eq_none_iff_forall_ne_some.2 (fun b => hex q hq e b)

/-- nothing of the layers is stored in the tiles with the given indices -/
def NothingIn (g : Grid τ) (res : ℚ) (layers : List Layer) (idx : List (Nat × Nat)) : Prop :=
  ∀ p ∈ idx, ∀ t, g.TileAt p.1 p.2 t → ∀ l ∈ layers, ∀ px py z, ¬ StoredCell t l res px py z

theorem chunkStep_spec {env : Env} {C : ChildSpec τ size sub bs fl} (L : Answers env C) (hgo : GeoOk C) (hs : 0 < size) {x0 y0 : ℚ} {nx ny : Nat} {T : Arr2 (Option τ)} {g : Grid τ} {A : Store}
    (hf : Ready C x0 y0 nx ny T g A) {layers : List Layer} (hcore : ∀ l ∈ layers, l.isCore = true) (hnd : layers.Nodup) {res : ℚ} (hres : 0 < res) {n : Nat}
    (hn : cellsAlong g.tileSize res = .ok n) {nodata : Option ℚ} {zUp forGdal : Bool} (hgeo : ∀ r c t, g.TileAt r c t → LayerLike.geo t res ≠ none)
    {idx : List (Nat × Nat)} (hidx : IsRect g idx) (out : List Chunk) :
    ((chunkStep env res layers nodata zUp forGdal (g, out) idx).err = none →
      (chunkStep env res layers nodata zUp forGdal (g, out) idx).st.1 = g ∧
      (((chunkStep env res layers nodata zUp forGdal (g, out) idx).st.2 = out ∧ NothingIn g res layers idx) ∨
        ∃ c, (chunkStep env res layers nodata zUp forGdal (g, out) idx).st.2 = out ++ [c] ∧ GoodChunk g res layers nodata zUp forGdal x0 y0 size n idx c ∧ ¬ NothingIn g res layers idx)) ∧
    ((chunkStep env res layers nodata zUp forGdal (g, out) idx).err ≠ none → (chunkStep env res layers nodata zUp forGdal (g, out) idx).st.2 = out) := by
  have hfill : ∀ p ∈ idx, g.Filled p.1 p.2 := by
    obtain ⟨-, -, r0, r1, c0, c1, hm⟩ := hidx
    intro p hp
    exact ((hm p.1 p.2).1 hp).2.2.2.2
  have hloop := chunk_loop (nodata := nodata) (zUp := zUp) L hgo hs hf hcore hres hn hgeo idx hfill
  unfold chunkStep
  simp only
  generalize hr : Res.forEach idx ({ grid := g } : ChunkState τ) (chunkTile env res layers nodata zUp) = r at hloop ⊢
  cases he : r.err with
  | some e => exact ⟨fun h => (by cases h), fun _ => rfl⟩
  | none =>
    obtain ⟨hgot, inv⟩ := hloop he
    simp only
    split
    · rename_i hall
      refine ⟨fun _ => ⟨inv.grid, Or.inl ⟨rfl, ?_⟩⟩, fun h => absurd rfl h⟩
      intro p hp t ht l hl px py z
      obtain ⟨D, hD, -⟩ := hgot p hp
      obtain ⟨-, -, -, -, -, hnamed⟩ := getTileData_same L hf hcore hres ht hD
      refine (hnamed l hl).1 ?_ px py z
      rw [inv.data, List.all_map, List.all_eq_true] at hall
      have := hall p hp
      simp only [Function.comp, List.isEmpty_iff] at this
      show (tileDict env g res layers nodata zUp p).get? l = none
      rw [this]; rfl
    · rename_i hsome
      have hno : ¬ NothingIn g res layers idx := by
        rw [inv.data, List.all_map, List.all_eq_true] at hsome
        push Not at hsome
        obtain ⟨p, hp, hd⟩ := hsome
        obtain ⟨t, ht⟩ := hfill p hp
        obtain ⟨D, hD, -⟩ := hgot p hp
        obtain ⟨l, hl, px, py, z, hz⟩ := tileDict_stored L hf hcore hres ht hD (by simpa [Function.comp, List.isEmpty_iff] using hd)
        exact fun h => h p hp t ht l hl px py z hz
      split
      · have hcount : r.st.counts.headD 0 = n := by
          rw [inv.counts]
          obtain ⟨p, l, rfl⟩ := List.exists_cons_of_ne_nil hidx.1
          rfl
        rw [hcount, inv.rows, inv.cols, inv.data]
        cases hfc : finalizeChunk ((idx.map Prod.fst).map (· * n)) ((idx.map Prod.snd).map (· * n)) n layers (idx.map (tileDict env g res layers nodata zUp)) nodata forGdal with
        | error e => exact ⟨fun h => (by cases h), fun _ => rfl⟩
        | ok D =>
          refine ⟨fun _ => ⟨inv.grid, Or.inr ⟨_, rfl, ?_⟩⟩, fun h => absurd rfl h⟩
          rw [inv.geo, if_neg hidx.1, inv.maxDim]
          exact ⟨finalize_good L hs hf hcore hnd hres hn hidx hgot hfc, hno⟩
      · exact ⟨fun h => (by cases h), fun _ => rfl⟩

/-- the chunks that are yielded for lists of indices -/
inductive Yields (g : Grid τ) (res : ℚ) (layers : List Layer) (nodata : Option ℚ) (zUp forGdal : Bool) (x0 y0 size : ℚ) (n : Nat) : List (List (Nat × Nat)) → List Chunk → Prop
  | nil : Yields g res layers nodata zUp forGdal x0 y0 size n [] []
  | skip {idx P cs} : NothingIn g res layers idx → Yields g res layers nodata zUp forGdal x0 y0 size n P cs → Yields g res layers nodata zUp forGdal x0 y0 size n (idx :: P) cs
  | give {idx P c cs} : GoodChunk g res layers nodata zUp forGdal x0 y0 size n idx c → ¬ NothingIn g res layers idx → Yields g res layers nodata zUp forGdal x0 y0 size n P cs →
      Yields g res layers nodata zUp forGdal x0 y0 size n (idx :: P) (c :: cs)

theorem chunks_yield {env : Env} {C : ChildSpec τ size sub bs fl} (L : Answers env C) (hgo : GeoOk C) (hs : 0 < size) {x0 y0 : ℚ} {nx ny : Nat} {T : Arr2 (Option τ)} {g : Grid τ} {A : Store}
    (hf : Ready C x0 y0 nx ny T g A) {layers : List Layer} (hcore : ∀ l ∈ layers, l.isCore = true) (hnd : layers.Nodup) {res : ℚ} (hres : 0 < res) {n : Nat}
    (hn : cellsAlong g.tileSize res = .ok n) {nodata : Option ℚ} {zUp forGdal : Bool} (hgeo : ∀ r c t, g.TileAt r c t → LayerLike.geo t res ≠ none)
    (I : List (List (Nat × Nat))) (hI : ∀ idx ∈ I, IsRect g idx) (out : List Chunk) :
    ∃ P cs, P <+: I ∧ (Res.forEach I (g, out) (chunkStep env res layers nodata zUp forGdal)).st.2 = out ++ cs ∧ Yields g res layers nodata zUp forGdal x0 y0 size n P cs ∧
      ((Res.forEach I (g, out) (chunkStep env res layers nodata zUp forGdal)).err = none → P = I ∧ (Res.forEach I (g, out) (chunkStep env res layers nodata zUp forGdal)).st.1 = g) := by
  induction I generalizing out with
  | nil => exact ⟨[], [], List.prefix_refl _, (by simp [Res.forEach_nil, Res.ok]), .nil, fun _ => ⟨rfl, rfl⟩⟩
  | cons idx I ih =>
    obtain ⟨h1, h2⟩ := chunkStep_spec (nodata := nodata) (zUp := zUp) (forGdal := forGdal) L hgo hs hf hcore hnd hres hn hgeo (hI idx (by simp)) out
    rw [Res.forEach_cons]
    cases he : (chunkStep env res layers nodata zUp forGdal (g, out) idx).err with
    | some e =>
      have hst := h2 (by rw [he]; simp)
      unfold Res.andThen
      simp only [he]
      exact ⟨[], [], List.nil_prefix, by simpa using hst, .nil, fun h => by cases h⟩
    | none =>
      rw [Res.andThen_of_err_none he]
      obtain ⟨hg, hcase⟩ := h1 he
      generalize chunkStep env res layers nodata zUp forGdal (g, out) idx = s at hg hcase
      obtain ⟨⟨g', out'⟩, e⟩ := s
      simp only at hg hcase
      subst hg
      rcases hcase with ⟨rfl, hno⟩ | ⟨c, rfl, hc, hno⟩
      · obtain ⟨P, cs, k1, k2, k3, k4⟩ := ih (fun i hi => hI i (by simp [hi])) out'
        refine ⟨idx :: P, cs, ?_, k2, .skip hno k3, fun h => ?_⟩
        · simpa using k1
        · obtain ⟨rfl, h5⟩ := k4 h; exact ⟨rfl, h5⟩
      · obtain ⟨P, cs, k1, k2, k3, k4⟩ := ih (fun i hi => hI i (by simp [hi])) (out ++ [c])
        refine ⟨idx :: P, c :: cs, ?_, ?_, .give hc hno k3, fun h => ?_⟩
        · simpa using k1
        · simpa using k2
        · obtain ⟨rfl, h5⟩ := k4 h; exact ⟨rfl, h5⟩

omit [LayerLike τ] [TileLike τ] in
theorem Yields.good {g : Grid τ} {res : ℚ} {layers : List Layer} {nodata : Option ℚ} {zUp forGdal : Bool} {x0 y0 : ℚ} {n : Nat} {P : List (List (Nat × Nat))} {cs : List Chunk}
    (h : Yields g res layers nodata zUp forGdal x0 y0 size n P cs) {c : Chunk} (hc : c ∈ cs) : ∃ idx ∈ P, GoodChunk g res layers nodata zUp forGdal x0 y0 size n idx c ∧ ¬ NothingIn g res layers idx := by
  induction h with
  | nil => cases hc
  | skip _ _ ih => obtain ⟨i, hi, h⟩ := ih hc; exact ⟨i, by simp [hi], h⟩
  | give h0 hno _ ih =>
    rcases List.mem_cons.1 hc with rfl | hc
    · exact ⟨_, by simp, h0, hno⟩
    · obtain ⟨i, hi, h⟩ := ih hc; exact ⟨i, by simp [hi], h⟩

omit [LayerLike τ] [TileLike τ] in
theorem Yields.cover {g : Grid τ} {res : ℚ} {layers : List Layer} {nodata : Option ℚ} {zUp forGdal : Bool} {x0 y0 : ℚ} {n : Nat} {P : List (List (Nat × Nat))} {cs : List Chunk}
    (h : Yields g res layers nodata zUp forGdal x0 y0 size n P cs) {idx : List (Nat × Nat)} (hi : idx ∈ P) (hno : ¬ NothingIn g res layers idx) :
    ∃ c ∈ cs, GoodChunk g res layers nodata zUp forGdal x0 y0 size n idx c := by
  induction h with
  | nil => cases hi
  | skip h0 _ ih =>
    rcases List.mem_cons.1 hi with rfl | hi
    · exact absurd h0 hno
    · exact ih hi
  | give h0 _ _ ih =>
    rcases List.mem_cons.1 hi with rfl | hi
    · exact ⟨_, by simp, h0⟩
    · obtain ⟨c, hc, h⟩ := ih hi; exact ⟨c, by simp [hc], h⟩

omit [LayerLike τ] [TileLike τ] in
theorem Yields.pairwise {g : Grid τ} {res : ℚ} {layers : List Layer} {nodata : Option ℚ} {zUp forGdal : Bool} {x0 y0 : ℚ} {n : Nat} {P : List (List (Nat × Nat))} {cs : List Chunk}
    (h : Yields g res layers nodata zUp forGdal x0 y0 size n P cs) {R : List (Nat × Nat) → List (Nat × Nat) → Prop} (hP : P.Pairwise R) :
    cs.Pairwise (fun c d => ∃ i j, i ∈ P ∧ j ∈ P ∧ R i j ∧ GoodChunk g res layers nodata zUp forGdal x0 y0 size n i c ∧ GoodChunk g res layers nodata zUp forGdal x0 y0 size n j d) := by
  induction h with
  | nil => exact .nil
  | skip _ _ ih =>
    refine (ih (List.pairwise_cons.1 hP).2).imp ?_
    rintro c d ⟨i, j, hi, hj, h⟩
    exact ⟨i, j, by simp [hi], by simp [hj], h⟩
  | give h0 _ h1 ih =>
    refine List.pairwise_cons.2 ⟨?_, ?_⟩
    · intro d hd
      obtain ⟨j, hj, h, -⟩ := h1.good hd
      exact ⟨_, j, by simp, by simp [hj], (List.pairwise_cons.1 hP).1 j hj, h0, h⟩
    · refine (ih (List.pairwise_cons.1 hP).2).imp ?_
      rintro c d ⟨i, j, hi, hj, h⟩
      exact ⟨i, j, by simp [hi], by simp [hj], h⟩

omit [TileLike τ] [HasLeaves τ] in
/-- without a whole number of cells nothing is yielded -/
theorem chunks_none {env : Env} {g : Grid τ} {res : ℚ} {e : Err} (hn : cellsAlong g.tileSize res = .error e) {layers : List Layer} {nodata : Option ℚ} {zUp forGdal : Bool}
    {I : List (List (Nat × Nat))} (hI : ∀ idx ∈ I, idx ≠ [] ∧ ∀ p ∈ idx, g.Filled p.1 p.2) :
    (Res.forEach I (g, []) (chunkStep env res layers nodata zUp forGdal)).st.2 = [] ∧ (I ≠ [] → (Res.forEach I (g, []) (chunkStep env res layers nodata zUp forGdal)).err ≠ none) := by
  cases I with
  | nil => exact ⟨rfl, fun h => absurd rfl h⟩
  | cons idx I =>
    obtain ⟨hne, hfill⟩ := hI idx (by simp)
    obtain ⟨p, l, rfl⟩ := List.exists_cons_of_ne_nil hne
    obtain ⟨t, T, hT, ht⟩ := hfill p (by simp)
    have h1 : chunkTile env res layers nodata zUp ({ grid := g } : ChunkState τ) p = .fail { grid := g } e := by
      unfold chunkTile getTileData
      simp only [hT, ht, hn]
    have h2 : chunkStep env res layers nodata zUp forGdal (g, []) (p :: l) = .fail (g, []) e := by
      unfold chunkStep
      simp only [Res.forEach_cons, h1, Res.andThen_fail, Res.fail_err, Res.fail_st]
    rw [Res.forEach_cons, h2]
    exact ⟨rfl, fun _ h => by cases h⟩

/-- what is yielded by `get_chunks_of_tiles` -/
structure ChunksRight (g : Grid τ) (layers : List Layer) (res : ℚ) (nodata : Option ℚ) (zUp : Bool) (out : Res (Grid τ × List Chunk)) : Prop where
  /-- the rasters of every yielded chunk are georeferenced -/
  right : ∀ c ∈ out.st.2, c.data.keys = layers ∧ ∃ ge, c.geo = some ge ∧ ge.res = res ∧ ∀ (k : Nat) l, layers[k]? = some l → ∃ a, c.data.get? l = some a ∧
    PixelsRight g l res (g.flips zUp) ge.x0 ge.y0 (transpose a) ∧
    (stickyNodata nodata (layers.take (k + 1)) = fillValue l nodata → PixelsEmpty g l res ge.x0 ge.y0 (fillValue l nodata) (transpose a))
  /-- no stored cell is in two chunks -/
  apart : out.st.2.Pairwise (fun c d => ∀ l ∈ layers, ∀ x y z, StoredCell g l res x y z → ¬ (c.Covers l res x y ∧ d.Covers l res x y))
  /-- every stored cell is in a chunk -/
  all : out.err = none → out.st.1 = g ∧ ∀ l ∈ layers, ∀ x y z, StoredCell g l res x y z → ∃ c ∈ out.st.2, c.Covers l res x y

theorem chunkRows_size {x0 size res : ℚ} {n : Nat} (hsz : size = (n : ℚ) * res) {idx : List (Nat × Nat)} (hne : idx ≠ []) {i : Nat} (hi : i < chunkRows idx * n) :
    x0 + (maxOf (idx.map Prod.fst) : ℚ) * size + size - (i : ℚ) * res - res = x0 + (minOf (idx.map Prod.fst) : ℚ) * size + ((chunkRows idx * n - 1 - i : Nat) : ℚ) * res := by
  have a1 : minOf (idx.map Prod.fst) ≤ maxOf (idx.map Prod.fst) := minOf_le (maxOf_mem (by simpa using hne))
  have e1 : ((chunkRows idx * n - 1 - i : Nat) : ℚ) = (chunkRows idx : ℚ) * n - 1 - i := by
    rw [Nat.cast_sub (by omega), Nat.cast_sub (by omega)]; push_cast; rfl
  have e2 : (chunkRows idx : ℚ) = (maxOf (idx.map Prod.fst) : ℚ) - (minOf (idx.map Prod.fst) : ℚ) + 1 := by
    unfold chunkRows; rw [Nat.cast_add, Nat.cast_sub a1]; push_cast; rfl
  rw [e1, e2, hsz]; ring

omit [LayerLike τ] [TileLike τ] in
/-- where the pixels of a chunk are -/
theorem GoodChunk.covers_iff {g : Grid τ} {res : ℚ} {layers : List Layer} {nodata : Option ℚ} {zUp : Bool} {x0 y0 : ℚ} {n : Nat} {idx : List (Nat × Nat)} {c : Chunk}
    (h : GoodChunk g res layers nodata zUp true x0 y0 size n idx c) (hsz : size = (n : ℚ) * res) (hne : idx ≠ []) {l : Layer} (hl : l ∈ layers) {x y : ℚ} :
    c.Covers l res x y ↔ ∃ i j : Nat, i < chunkRows idx * n ∧ j < chunkCols idx * n ∧
      x = x0 + (minOf (idx.map Prod.snd) : ℚ) * size + (j : ℚ) * res ∧ y = y0 + (minOf (idx.map Prod.fst) : ℚ) * size + (i : ℚ) * res := by
  obtain ⟨k, hk⟩ := List.mem_iff_getElem?.1 hl
  obtain ⟨X, hX, hr, hc, -⟩ := h.arr k l hk
  rw [if_pos rfl] at hX
  have er : (transpose (fliplrT X)).rows = chunkRows idx * n := hr
  have ec : (transpose (fliplrT X)).cols = chunkCols idx * n := hc
  constructor
  · rintro ⟨ge, a, h1, h2, i, j, h3, h4, h5, h6⟩
    rw [h.geo] at h1; cases h1
    rw [hX] at h2; cases h2
    rw [er] at h3
    rw [ec] at h4
    refine ⟨chunkRows idx * n - 1 - i, j, by omega, h4, h5, ?_⟩
    rw [← chunkRows_size hsz hne h3]
    simp only [chunkGeo] at h6
    linarith
  · rintro ⟨i, j, h1, h2, h3, h4⟩
    refine ⟨_, _, h.geo, hX, chunkRows idx * n - 1 - i, j, by rw [er]; omega, by rw [ec]; exact h2, h3, ?_⟩
    have := chunkRows_size (x0 := y0) hsz hne (i := chunkRows idx * n - 1 - i) (by omega)
    have e : chunkRows idx * n - 1 - (chunkRows idx * n - 1 - i) = i := by omega
    rw [e] at this
    simp only [chunkGeo]
    linarith

theorem chunks_right {env : Env} {C : ChildSpec τ size sub bs fl} (L : Answers env C) (hgo : GeoOk C) (hs : 0 < size) {x0 y0 : ℚ} {nx ny : Nat} {T : Arr2 (Option τ)} {g : Grid τ} {A : Store}
    (hf : Ready C x0 y0 nx ny T g A) {layers : List Layer} (hcore : ∀ l ∈ layers, l.isCore = true) (hnd : layers.Nodup) {res : ℚ} (hres : 0 < res)
    {nodata : Option ℚ} {zUp : Bool} (hgeo : ∀ r c t, g.TileAt r c t → LayerLike.geo t res ≠ none) (d : Option ℚ) :
    ChunksRight g layers res nodata zUp (g.getChunks env res layers nodata zUp d true) ∧
      ∀ c ∈ (g.getChunks env res layers nodata zUp d true).st.2, ∃ n idx, cellsAlong g.tileSize res = .ok n ∧ IsRect g idx ∧
        GoodChunk g res layers nodata zUp true x0 y0 size n idx c ∧ ∃ l ∈ layers, ∃ x y z, StoredCell g l res x y z ∧ c.Covers l res x y := by
  have hnone : ∀ out : Res (Grid τ × List Chunk), out.st.2 = [] → out.err ≠ none → ChunksRight g layers res nodata zUp out := by
    intro out h1 h2
    refine ⟨?_, ?_, fun h => absurd h h2⟩ <;> rw [h1]
    · simp
    · exact .nil
  unfold getChunks
  simp only
  split
  · exact ⟨hnone _ rfl (fun h => by cases h), fun c hc => by cases hc⟩
  rename_i I hI
  obtain ⟨rows, cols, -, -, hspec⟩ := tileChunkIndices_spec hI
  have hrect : ∀ idx ∈ I, IsRect g idx := by
    intro idx hi
    obtain ⟨hne, r0, r1, c0, c1, -, -, hm⟩ := hspec.rect idx hi
    exact ⟨hne, (List.nodup_flatten.1 hspec.nodup).1 idx hi, r0, r1, c0, c1, hm⟩
  have hfill : ∀ idx ∈ I, ∀ p ∈ idx, g.Filled p.1 p.2 := by
    intro idx hi p hp
    obtain ⟨-, -, r0, r1, c0, c1, hm⟩ := hrect idx hi
    exact ((hm p.1 p.2).1 hp).2.2.2.2
  cases hn : cellsAlong g.tileSize res with
  | error e =>
    obtain ⟨h1, h2⟩ := chunks_none (env := env) (layers := layers) (nodata := nodata) (zUp := zUp) (forGdal := true) hn (fun idx hi => ⟨(hrect idx hi).1, hfill idx hi⟩)
    by_cases hI0 : I = []
    · subst hI0
      refine ⟨⟨fun c hc => absurd hc (by simp [Res.forEach_nil, Res.ok]), .nil, fun _ => ⟨rfl, ?_⟩⟩, fun c hc => absurd hc (by simp [Res.forEach_nil, Res.ok])⟩
      intro l hl x y z hz
      obtain ⟨r, c, t, ht, -⟩ := stored_grid.1 hz
      obtain ⟨idx, hi, -⟩ := hspec.cover r c ⟨t, ht⟩
      cases hi
    · exact ⟨hnone _ h1 (h2 hI0), fun c hc => by rw [h1] at hc; cases hc⟩
  | ok n =>
    have hsz := cellsAlong_ok hres.ne' hn
    rw [hf.tileSize] at hsz
    obtain ⟨P, cs, k1, k2, k3, k4⟩ := chunks_yield (nodata := nodata) (zUp := zUp) (forGdal := true) L hgo hs hf hcore hnd hres hn hgeo I hrect []
    generalize Res.forEach I (g, []) (chunkStep env res layers nodata zUp true) = out at k2 k4 ⊢
    rw [List.nil_append] at k2
    have hPI : ∀ {idx}, idx ∈ P → idx ∈ I := fun h => k1.subset h
    refine ⟨⟨?_, ?_, ?_⟩, ?_⟩
    · rw [k2]
      intro c hc
      obtain ⟨idx, hi, hgood, -⟩ := k3.good hc
      have hne := (hrect idx (hPI hi)).1
      refine ⟨hgood.keys, _, hgood.geo, rfl, ?_⟩
      intro k l hk
      obtain ⟨X, hX, hr, hcl, hpix⟩ := hgood.arr k l hk
      rw [if_pos rfl] at hX
      obtain ⟨-, -, hget⟩ := raster_get X
      have er : (transpose (fliplrT X)).rows = chunkRows idx * n := hr
      have ec : (transpose (fliplrT X)).cols = chunkCols idx * n := hcl
      refine ⟨_, hX, ?_, ?_⟩
      · intro i j z hi hj hz
        rw [er] at hi
        rw [ec] at hj
        simp only [chunkGeo] at hz
        rw [chunkRows_size hsz hne hi] at hz
        rw [hget i j (by rw [hr]; exact hi) (by rw [hcl]; exact hj), hr, (hpix _ j (by omega) hj).1 z hz]
        rfl
      · intro hst i j hi hj hz
        rw [er] at hi
        rw [ec] at hj
        simp only [chunkGeo] at hz
        rw [chunkRows_size hsz hne hi] at hz
        rw [hget i j (by rw [hr]; exact hi) (by rw [hcl]; exact hj), hr, (hpix _ j (by omega) hj).2 hst hz]
        rfl
    · rw [k2]
      have hdis : P.Pairwise List.Disjoint := (List.nodup_flatten.1 hspec.nodup).2.sublist k1.sublist
      refine (k3.pairwise hdis).imp ?_
      rintro c d ⟨i1, i2, hi1, hi2, hd, g1, g2⟩ l hl x y z hz ⟨hc1, hc2⟩
      obtain ⟨a1, b1, p1, p2, rfl, rfl⟩ := (g1.covers_iff hsz (hrect i1 (hPI hi1)).1 hl).1 hc1
      obtain ⟨a2, b2, q1, q2, ex, ey⟩ := (g2.covers_iff hsz (hrect i2 (hPI hi2)).1 hl).1 hc2
      obtain ⟨r, c', t, ht, hzt⟩ := stored_grid.1 hz
      have m1 := (cell_in_chunk L hs hf hres hsz (hrect i1 (hPI hi1)) p1 p2 ht (hcore l hl) hzt).2.2
      rw [ex, ey] at hzt
      have m2 := (cell_in_chunk L hs hf hres hsz (hrect i2 (hPI hi2)) q1 q2 ht (hcore l hl) hzt).2.2
      exact hd m1 m2
    · intro he
      obtain ⟨rfl, hg⟩ := k4 he
      refine ⟨hg, ?_⟩
      intro l hl x y z hz
      obtain ⟨r, c, t, ht, hzt⟩ := stored_grid.1 hz
      obtain ⟨idx, hi, hp⟩ := hspec.cover r c ⟨t, ht⟩
      rw [k2]
      obtain ⟨ch, hch, hgood⟩ := k3.cover hi (fun h => h _ hp t ht l hl x y z hzt)
      exact ⟨ch, hch, (hgood.covers_iff hsz (hrect idx hi).1 hl).2 (hgood.pix r c t l x y z hp ht hl hzt)⟩
    · intro c hc
      rw [k2] at hc
      obtain ⟨idx, hi, hgood, hno⟩ := k3.good hc
      refine ⟨n, idx, rfl, hrect idx (hPI hi), hgood, ?_⟩
      unfold NothingIn at hno
      push Not at hno
      obtain ⟨p, hp, t, ht, l, hl, x, y, z, hz⟩ := hno
      exact ⟨l, hl, x, y, z, stored_grid.2 ⟨_, _, t, ht, hz⟩, (hgood.covers_iff hsz (hrect idx (hPI hi)).1 hl).2 (hgood.pix p.1 p.2 t l x y z hp ht hl hz)⟩

end Grid
end Bathy
