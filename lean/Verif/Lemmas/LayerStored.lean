import Verif.Lemmas.LayerAnswers
import Verif.Props.GridGridding

/-!
# Which layers are there after gridding, and that they can be read
-/

namespace Bathy
open Grid

theorem writtenLayers_core {F : Family} {bs : Bool} {fl : Fields} {l : Layer} (h : l ∈ writtenLayers F bs fl) : l.isCore = true := by
  revert h
  unfold writtenLayers
  cases F <;> cases bs <;> cases fl.hasTvu <;> cases fl.hasThu <;> simp <;> intro h <;> (rcases h with h | h | h | h | h) <;> simp_all [Layer.isCore]

theorem writtenLayers_init (F : Family) (bs : Bool) (fl : Fields) (n : Nat) : (Tile.initLayers (mainLayer bs) fl F n).map Prod.fst = writtenLayers F bs fl := by
  unfold Tile.initLayers writtenLayers mainLayer
  cases F <;> cases bs <;> cases fl.hasTvu <;> cases fl.hasThu <;> rfl

/-- a layer that holds a number for each cell with soundings -/
theorem eachCell_stored {a : LayerArr} {n : Nat} {x y res : ℚ} {pts : List Pt} {R : List Pt → Option ℚ → Prop} (h : EachCell a n x y res pts R)
    (hR : ∀ ps v, ps ≠ [] → R ps v → ∃ z, v = some z) {p : Pt} (hp : p ∈ pts) {r c : Nat} (hr : r < n) (hc : c < n) (hin : InCell x y res r c p) :
    ∃ i j z, a.get? i j = some (some z) := by
  obtain ⟨v, hv, hRv⟩ := h.2.2.2 r c hr hc
  obtain ⟨z, rfl⟩ := hR _ v (by
    intro he
    have : p ∈ inCell x y res r c pts := List.mem_filter.2 ⟨hp, by simpa using hin⟩
    rw [he] at this; cases this) hRv
  exact ⟨r, c, z, hv⟩

theorem stored_of_layerAt {t : Tile} {l : Layer} {res : ℚ} {a : LayerArr} (h : t.layerAt res l = some a) (hz : ∃ i j z, a.get? i j = some (some z)) :
    ∃ x y z, StoredCell t l res x y z := by
  obtain ⟨i, j, z, hz⟩ := hz
  unfold Tile.layerAt at h
  obtain ⟨ls, h1, h2⟩ := Option.bind_eq_some_iff.1 h
  exact ⟨_, _, z, t, ls, a, i, j, rfl, h1, h2, hz, rfl, rfl⟩

/-- after mean or shoalest all layers of a tile with soundings hold numbers -/
theorem leafRun_stored {env : Env} {fl : Fields} {F : Family} {bs : Bool} {w : ℚ} {a : GridCall} {t' : Tile} {r : ℚ} (hw : 0 < w) (h : LeafRun env fl F w bs a t' r)
    (ha : a.alg = .mean ∨ a.alg = .shoalest) (hF : F = .plain ∨ a.clear = true) (hne : t'.pts ≠ []) {l : Layer} (hl : l ∈ writtenLayers .plain bs fl) :
    ∃ x y z, StoredCell t' l r x y z := by
  obtain ⟨p, hp⟩ := List.exists_mem_of_ne_nil _ hne
  obtain ⟨t, B, c, h1, h2, h3, -, h5, -, h7⟩ := leafRun_call (F' := .plain) h (hF.imp Eq.symm id)
  have hfam : a.alg.family = some .plain := by rcases ha with e | e <;> rw [e] <;> rfl
  obtain ⟨hcell, d, k1, k2, -⟩ := C20_density_counts hw h1 a.alg hfam h5 h3 c.mode a.params c.border (by rw [h7]; rfl)
  rw [h7] at k1
  rw [← h2] at k2 hcell
  obtain ⟨⟨i, j⟩, ⟨hi, hj, hin⟩, -⟩ := hcell p hp
  have hmean : ∀ (f : Pt → ℚ) ps v, ps ≠ [] → MeanCell round3 f ps v → ∃ z, v = some z := fun f ps v hps hv => ⟨_, hv.2 hps⟩
  have hshoal : ∀ ps v, ps ≠ [] → ShoalCell round3 ps v → ∃ z, v = some z := fun ps v hps hv => by obtain ⟨m, -, e⟩ := hv.2 hps; exact ⟨_, e⟩
  have hrank : ∀ (f : Pt → ℚ) ps v, ps ≠ [] → Tile.RankCell t'.pts f ps v → ∃ z, v = some z := fun f ps v hps hv => by
    obtain ⟨m, q, -, -, e⟩ := hv.2 hps; exact ⟨_, e⟩
  have hmain : ∃ x y z, StoredCell t' (mainLayer bs) r x y z := by
    rcases ha with e | e
    · obtain ⟨-, ⟨a1, m1, m2⟩, -, -⟩ := leafRun_mean hw h e hF
      exact stored_of_layerAt m1 (eachCell_stored m2 (hmean _) hp hi hj hin)
    · obtain ⟨-, a1, m1, m2⟩ := leafRun_shoal hw h e hF
      exact stored_of_layerAt m1 (eachCell_stored m2 hshoal hp hi hj hin)
  have hdens : ∃ x y z, StoredCell t' .density r x y z := stored_of_layerAt k1 (eachCell_stored k2 (fun ps v _ hv => ⟨_, hv⟩) hp hi hj hin)
  have hvert : fl.hasTvu = true → ∃ x y z, StoredCell t' .vertical r x y z := by
    intro hf
    rcases ha with e | e
    · obtain ⟨-, -, m, -⟩ := leafRun_mean hw h e hF
      obtain ⟨a1, m1, m2⟩ := m hf
      exact stored_of_layerAt m1 (eachCell_stored m2 (hmean _) hp hi hj hin)
    · obtain ⟨-, m, -⟩ := shoalest_uncertainty hw h1 h3 (h5.imp Eq.symm id) c.mode a.params c.border
      rw [← e, h7] at m
      obtain ⟨a1, m1, m2⟩ := m hf
      rw [← h2] at m2
      exact stored_of_layerAt m1 (eachCell_stored m2 (hrank _) hp hi hj hin)
  have hhor : fl.hasThu = true → ∃ x y z, StoredCell t' .horizontal r x y z := by
    intro hf
    rcases ha with e | e
    · obtain ⟨-, -, -, m⟩ := leafRun_mean hw h e hF
      obtain ⟨a1, m1, m2⟩ := m hf
      exact stored_of_layerAt m1 (eachCell_stored m2 (hmean _) hp hi hj hin)
    · obtain ⟨-, -, m⟩ := shoalest_uncertainty hw h1 h3 (h5.imp Eq.symm id) c.mode a.params c.border
      rw [← e, h7] at m
      obtain ⟨a1, m1, m2⟩ := m hf
      rw [← h2] at m2
      exact stored_of_layerAt m1 (eachCell_stored m2 (hrank _) hp hi hj hin)
  unfold writtenLayers at hl
  simp only [List.mem_append, List.mem_cons, List.not_mem_nil, or_false] at hl
  rcases hl with ((rfl | rfl) | hl) | hl
  · exact hmain
  · exact hdens
  · cases hv : fl.hasTvu with
    | false => rw [hv] at hl; simp at hl
    | true => rw [hv] at hl; rw [List.mem_singleton.1 hl]; exact hvert hv
  · cases hv : fl.hasThu with
    | false => rw [hv] at hl; simp at hl
    | true => rw [hv] at hl; rw [List.mem_singleton.1 hl]; exact hhor hv

/-- the objects represented by `C` have tiles, and those have soundings -/
structure LeafNe {τ : Type} [TileLike τ] [HasLeaves τ] {size sub : ℚ} {bs : Bool} {fl : Fields} (C : ChildSpec τ size sub bs fl) : Prop where
  ex : ∀ {x y : ℚ} {t : τ} {A : Store}, C.Rep x y t A → ∃ u, HasLeaves.leaf t u
  ne : ∀ {x y : ℚ} {t : τ} {A : Store} {u : Tile}, C.Rep x y t A → HasLeaves.leaf t u → u.pts ≠ []

theorem leafNe_tile (env : Env) (F : Family) {size sub : ℚ} {bs : Bool} {fl : Fields} (hs : 0 < size) : LeafNe (tileSpec env F size sub bs fl hs) where
  ex := fun {_ _ t _} _ => ⟨t, rfl⟩
  ne := by
    intro x y t A u hrep hu
    have hu : u = t := hu
    subst hu
    obtain ⟨h1, h2, h3⟩ := hrep
    obtain ⟨-, hr, -⟩ := history_frame hs h1
    rw [hr.pts]
    cases A with
    | nil => exact absurd rfl h2
    | cons q A =>
      have := h3 q List.mem_cons_self
      simp [Store.allPts, this]

theorem leafNe_sub {τ : Type} [GridLike τ] [Holds τ] [HasLeaves τ] {size sub : ℚ} {bs : Bool} {fl : Fields} {C : ChildSpec τ sub 0 false fl} (L : LeafNe C) (hs : 0 < size)
    (hpow : isPowerOfTwo sub = true) : LeafNe (subSpec (size := size) (bs := bs) C hs hpow) where
  ex := by
    intro x y g A hrep
    have hrep : SubInv C size x y g A := hrep
    obtain ⟨T, hf⟩ := hrep.frame
    have he := sub_isEmpty (isPowerOfTwo_pos hpow) hrep
    unfold isEmpty at he
    rw [hf.tiles] at he
    simp only [Bool.not_eq_false', List.any_eq_true] at he
    obtain ⟨o, ho, hs⟩ := he
    obtain ⟨t, rfl⟩ := Option.isSome_iff_exists.1 hs
    obtain ⟨k, hk⟩ := List.mem_iff_getElem?.1 ho
    have hw : T.WF := (sub_reps hrep).2 T hf.tiles
    rw [Arr2.flat_getElem?_eq T hw (List.getElem?_eq_some_iff.1 hk).1] at hk
    have ht : g.TileAt (k / T.cols) (k % T.cols) t := ⟨T, hf.tiles, hk⟩
    obtain ⟨x', y', B, hB⟩ := (sub_reps hrep).1 _ _ t ht
    obtain ⟨u, hu⟩ := L.ex hB
    exact ⟨u, _, _, t, ht, hu⟩
  ne := by
    intro x y g A u hrep hu
    have hrep : SubInv C size x y g A := hrep
    obtain ⟨r, c, t, ht, hu⟩ := hu
    obtain ⟨x', y', B, hB⟩ := (sub_reps hrep).1 r c t ht
    exact L.ne hB hu


/-- the objects represented by `C` can be read at resolutions that divide the tile size `w`, once all tiles are gridded -/
structure Retrieves {τ : Type} [TileLike τ] [LayerLike τ] [HasLeaves τ] {size sub : ℚ} {bs : Bool} {fl : Fields} (env : Env) (C : ChildSpec τ size sub bs fl) (w : ℚ)
    (names : List Layer) : Prop where
  ok : ∀ {x y : ℚ} {t : τ} {A : Store} {l : Layer} {res : ℚ} {m : Nat} (nodata : Option ℚ) (zUp : Bool), C.Rep x y t A → (∀ u, HasLeaves.leaf t u → u.cells ≠ []) → l ∈ names → 0 < res →
    w = (m : ℚ) * res → ∃ n o, size = ((n : Nat) : ℚ) * res ∧ LayerLike.getLayer env t l res nodata zUp = (t, .ok o) ∧ ∀ D, o = some D → D.rows = n ∧ D.cols = n
  probe : ∀ {x y : ℚ} {t : τ} {A : Store}, C.Rep x y t A → (∀ u, HasLeaves.leaf t u → u.cells ≠ []) → LayerLike.probe t = .ok true

theorem retrieves_shaped (env : Env) {F : Family} {size sub : ℚ} {bs : Bool} {fl : Fields} {C : ChildSpec Tile size sub bs fl} (S : Shaped C F) :
    Retrieves env C size (writtenLayers F bs fl) where
  ok := by
    intro x y t A l res m nodata zUp hrep hg hl hres hw
    have hem : t.isEmpty = false := C.nonempty hrep
    have hcore := writtenLayers_core hl
    have hens : ∀ nd, Tile.ensureLayer env t l res nd = .ok t := by
      intro nd; cases l <;> first | rfl | (simp [Layer.isCore] at hcore)
    have hq : Tile.queryResolution t (some res) = if t.cells.has res then .ok (some res) else .ok none := by
      unfold Tile.queryResolution; simp only [if_neg (ne_of_gt hres)]
    have key : ∀ o, Tile.getLayer env t l (some res) nodata zUp = (t, .ok o) → (∀ D, o = some D → D.rows = m ∧ D.cols = m) →
        ∃ n o, size = ((n : Nat) : ℚ) * res ∧ Tile.getLayer env t l (some res) nodata zUp = (t, .ok o) ∧ ∀ D, o = some D → D.rows = n ∧ D.cols = n :=
      fun o h1 h2 => ⟨m, o, hw, h1, h2⟩
    show ∃ n o, size = ((n : Nat) : ℚ) * res ∧ Tile.getLayer env t l (some res) nodata zUp = (t, .ok o) ∧ ∀ D, o = some D → D.rows = n ∧ D.cols = n
    by_cases hhas : t.cells.has res = true
    · obtain ⟨ls, hls⟩ := Option.isSome_iff_exists.1 ((Dict.get?_isSome t.cells res).trans hhas)
      obtain ⟨hf, -, hgi⟩ := S.shape hrep
      have hcoreAt : t.coreAt res = some (core ls) := by unfold Tile.coreAt; rw [hls]; rfl
      obtain ⟨-, -, -, ⟨hnames, -⟩, -⟩ := hgi.cells res _ hcoreAt
      have hdk : t.depthKey = mainLayer bs := by rw [Tile.depthKey_frame hf]; rfl
      have hcc : core (core ls) = core ls := by unfold core; rw [List.filter_filter]; simp
      rw [hcc, hdk, writtenLayers_init] at hnames
      have hmem : l ∈ (core ls).keys := by rw [← hnames] at hl; exact hl
      have hla : ∃ a, ls.get? l = some a := by
        rw [← Dict.has_iff, ← Dict.get?_isSome, core_get? ls hcore] at hmem
        exact Option.isSome_iff_exists.1 hmem
      obtain ⟨a, hla⟩ := hla
      obtain ⟨-, -, -, -, hrow, hcol⟩ := tile_shape hf hgi hcore hls hla
      have hm : ncells size res = m := by rw [hw]; exact ncells_mul hres m
      refine key (Tile.finishLayer l (Tile.nodataFor l nodata) zUp a) ?_ ?_
      · unfold Tile.getLayer
        rw [hem, hq, if_pos hhas]
        simp only [Bool.false_eq_true, if_false, hens, hls, Option.bind_some, hla]
      · intro D hD
        obtain ⟨f1, f2, -⟩ := finish_get hD
        exact ⟨by rw [f1, hrow, hm], by rw [f2, hcol, hm]⟩
    · refine key none ?_ (by simp)
      unfold Tile.getLayer
      rw [hem, hq, if_neg hhas]
      rfl
  probe := by
    intro x y t A _ hg
    have := hg t rfl
    show Except.ok (!t.cells.isEmpty) = .ok true
    cases hc : t.cells with
    | nil => exact absurd hc this
    | cons p ps => rfl

theorem retrieves_tile (env : Env) (F : Family) {size sub : ℚ} {bs : Bool} {fl : Fields} (hs : 0 < size) :
    Retrieves env (tileSpec env F size sub bs fl hs) size (writtenLayers F bs fl) := retrieves_shaped env (shaped_tile env F hs)

namespace Grid
variable {τ : Type} [LayerLike τ]

theorem tileLayers_ok {env : Env} {res : ℚ} {nodata : Option ℚ} {zUp : Bool} {layers : List Layer} {t : τ} {n : Nat}
    (hq : ∀ l ∈ layers, ∃ o, LayerLike.getLayer env t l res nodata zUp = (t, .ok o) ∧ ∀ D, o = some D → D.rows = n ∧ D.cols = n) {d : Dict Layer LayerArr}
    (hd : ∀ p ∈ d, p.2.rows = n ∧ p.2.cols = n) :
    ∃ d', tileLayersFrom env res nodata zUp t d layers = (t, .ok d') ∧ d'.length ≤ d.length + layers.length ∧ ∀ p ∈ d', p.2.rows = n ∧ p.2.cols = n := by
  induction layers generalizing d with
  | nil => exact ⟨d, rfl, by simp, hd⟩
  | cons l ls ih =>
    obtain ⟨o, ho, hsh⟩ := hq l List.mem_cons_self
    have hq' := fun l hl => hq l (List.mem_cons_of_mem _ hl)
    unfold tileLayersFrom
    rw [ho]
    cases o with
    | none =>
      obtain ⟨d', h1, h2, h3⟩ := ih hq' hd
      exact ⟨d', h1, by simp; omega, h3⟩
    | some a =>
      have hlen : (d.set l a).length ≤ d.length + 1 := by
        by_cases hm : l ∈ d.keys
        · have : (d.set l a).keys = d.keys := Dict.keys_set_of_mem d l a hm
          have := congrArg List.length this
          simp only [Dict.keys, List.length_map] at this
          omega
        · rw [Dict.set_of_not_mem d l a hm]; simp
      obtain ⟨d', h1, h2, h3⟩ := ih hq' (d := d.set l a) (by
        intro p hp
        rcases Dict.mem_set hp with rfl | hp
        · exact hsh a rfl
        · exact hd p hp)
      exact ⟨d', h1, by simp; omega, h3⟩

variable [TileLike τ] [HasLeaves τ] {size sub : ℚ} {bs : Bool} {fl : Fields}

omit [TileLike τ] [HasLeaves τ] in
theorem probe_first {g : Grid τ} {T : Arr2 (Option τ)} (hT : g.tiles = some T) (hw : T.WF) (h : ∀ r c t, g.TileAt r c t → LayerLike.probe t = .ok true) : g.noGrid = .ok false := by
  unfold noGrid present
  rw [hT]
  simp only
  cases hh : (T.flat.filterMap id).head? with
  | none => rfl
  | some t =>
    have : some t ∈ T.flat := by simpa using List.mem_of_head? hh
    obtain ⟨k, hk⟩ := List.mem_iff_getElem?.1 this
    rw [Arr2.flat_getElem?_eq T hw (List.getElem?_eq_some_iff.1 hk).1] at hk
    simp only [h _ _ t ⟨T, hT, hk⟩]; rfl

/-- reading layers of a grid whose tiles are all gridded returns normally -/
theorem grid_retrieves {env : Env} {C : ChildSpec τ size sub bs fl} {w : ℚ} {names : List Layer} (R : Retrieves env C w names) {x0 y0 : ℚ} {nx ny : Nat} {T : Arr2 (Option τ)}
    {g : Grid τ} {A : Store} (hf : Ready C x0 y0 nx ny T g A) (hh : g.height = some ((ny : ℚ) * size)) (hw : g.width = some ((nx : ℚ) * size))
    (hg : ∀ u, g.Leaf u → u.cells ≠ []) {layers : List Layer} (hl : ∀ l ∈ layers, l ∈ names) {res : ℚ} (hres : 0 < res) {m : Nat} (hm : w = (m : ℚ) * res)
    {n0 : Nat} (hn0 : size = (n0 : ℚ) * res) (nodata : Option ℚ) (zUp : Bool) :
    ∃ o, (getLayersByName env g layers (some res) nodata zUp).2 = .ok o := by
  have hTw : T.WF := by show T.flat.length = _; rw [hf.rep.2.2.1, hf.rep.1, hf.rep.2.1]
  have hlaid : Laid g T := ⟨hf.tiles, hTw, by rw [hf.txs, originsOf_length, hf.rep.2.1], by rw [hh, hf.tileSize, hf.rep.1], by rw [hw, hf.tileSize, hf.rep.2.1]⟩
  refine getLayers_ok hlaid hres (n := n0) ?_ ?_ ?_
  · exact probe_first hf.tiles hTw (fun r c t ht => R.probe (frame_tileAt hf ht).2.2.1 (fun u hu => hg u ⟨r, c, t, ht, hu⟩))
  · rw [hf.tileSize, hn0]; exact cellsAlong_mul hres n0
  · intro r c t ht
    obtain ⟨d', h1, h2, h3⟩ := tileLayers_ok (env := env) (res := res) (nodata := nodata) (zUp := g.flips zUp) (layers := layers) (t := t) (n := n0) (d := []) (by
      intro l hl'
      obtain ⟨n, o, e1, e2, e3⟩ := R.ok nodata (g.flips zUp) (frame_tileAt hf ht).2.2.1 (fun u hu => hg u ⟨r, c, t, ht, hu⟩) (hl l hl') hres hm
      have : n = n0 := by
        rw [hn0] at e1
        have := mul_right_cancel₀ hres.ne' e1
        exact_mod_cast this.symm
      subst this
      exact ⟨o, e2, e3⟩) (by simp)
    exact ⟨d', by unfold foundIn; rw [h1], by simpa using h2, h3⟩


theorem grow_retrieves {env : Env} {C : ChildSpec τ size sub bs fl} {w : ℚ} {names : List Layer} (R : Retrieves env C w names) {g : Grid τ} {A : Store} (hgr : GrowInv C g A)
    (hA : A ≠ []) (hg : ∀ u, g.Leaf u → u.cells ≠ []) {layers : List Layer} (hl : ∀ l ∈ layers, l ∈ names) {res : ℚ} (hres : 0 < res) {m : Nat} (hm : w = (m : ℚ) * res)
    {n0 : Nat} (hn0 : size = (n0 : ℚ) * res) (nodata : Option ℚ) (zUp : Bool) :
    ∃ o, (getLayersByName env g layers (some res) nodata zUp).2 = .ok o := by
  rcases hgr.body with ⟨h1, -⟩ | ⟨-, i, j, nx, ny, T, hf, he⟩
  · exact absurd h1 hA
  · obtain ⟨hw, hh⟩ := hf.dims _ he
    have hw : g.width = some ((nx : ℚ) * size) := by rw [hw]; congr 1; ring
    have hh : g.height = some ((ny : ℚ) * size) := by rw [hh]; congr 1; ring
    exact grid_retrieves R hf.toReady hh hw hg hl hres hm hn0 nodata zUp

/-- subgrids of tiles -/
theorem retrieves_sub {env : Env} {C : ChildSpec τ sub 0 false fl} {w : ℚ} {names : List Layer} (R : Retrieves env C w names) (L : Answers env C)
    (hcells : ∀ {x y : ℚ} {t : τ} {A : Store}, C.Rep x y t A → (∀ u, HasLeaves.leaf t u → u.cells ≠ []) → LayerLike.hasCells t = .ok true) (hnames : ∀ l ∈ names, l.isCore = true)
    (hs : 0 < size) (hpow : isPowerOfTwo sub = true) {q : Nat} (hq : size = (q : ℚ) * sub) :
    Retrieves env (subSpec (size := size) (bs := bs) C hs hpow) w names where
  ok := by
    intro x y g A l res m nodata zUp hrep hg hl hres hm
    have hrep' : SubInv C size x y g A := hrep
    obtain ⟨T, hfr⟩ := hrep'.frame
    have hsubpos := isPowerOfTwo_pos hpow
    have hnc : ncells size sub = q := by rw [hq]; exact ncells_mul hsubpos q
    rw [hnc] at hfr
    obtain ⟨hw, hh⟩ := hfr.dims _ hrep'.extents
    have hw : g.width = some ((q : ℚ) * sub) := by rw [hw, ← hq]; congr 1; ring
    have hh : g.height = some ((q : ℚ) * sub) := by rw [hh, ← hq]; congr 1; ring
    -- one tile tells how many cells a tile has
    have hTw : T.WF := by show T.flat.length = _; rw [hfr.rep.2.2.1, hfr.rep.1, hfr.rep.2.1]
    have hem := frame_isEmpty C hsubpos hfr.toReady hrep'.ne
    rw [decide_eq_false hrep'.nonempty] at hem
    unfold isEmpty at hem
    rw [hfr.tiles] at hem
    simp only [Bool.not_eq_false', List.any_eq_true] at hem
    obtain ⟨o, ho, hs'⟩ := hem
    obtain ⟨t, rfl⟩ := Option.isSome_iff_exists.1 hs'
    obtain ⟨k, hk⟩ := List.mem_iff_getElem?.1 ho
    rw [Arr2.flat_getElem?_eq T hTw (List.getElem?_eq_some_iff.1 hk).1] at hk
    have ht : g.TileAt (k / T.cols) (k % T.cols) t := ⟨T, hfr.tiles, hk⟩
    obtain ⟨n0, -, hn0, -⟩ := R.ok nodata zUp (frame_tileAt hfr.toReady ht).2.2.1 (fun u hu => hg u ⟨_, _, t, ht, hu⟩) hl hres hm
    have hsize : size = ((q * n0 : Nat) : ℚ) * res := by rw [hq, hn0]; push_cast; ring
    obtain ⟨o, ho⟩ := grid_retrieves R hfr.toReady hh hw hg (layers := [l]) (by simpa using hl) hres hm hn0 nodata zUp
    rcases hc : getLayersByName env g [l] (some res) nodata zUp with ⟨g1, o1⟩
    rw [hc] at ho
    simp only at ho
    subst ho
    obtain ⟨k1, -, k3⟩ := grid_answers L hfr.toReady hh hw (by simpa using hnames l hl) (by simp) hres (allOrNone_single g l res) hc
    subst k1
    show ∃ n o, size = ((n : Nat) : ℚ) * res ∧ getLayer env g1 l res nodata zUp = (g1, .ok o) ∧ ∀ D, o = some D → D.rows = n ∧ D.cols = n
    unfold getLayer
    rw [hc]
    cases o with
    | none => exact ⟨q * n0, none, hsize, rfl, by simp⟩
    | some D =>
      obtain ⟨-, -, hsc⟩ := k3 D rfl
      obtain ⟨a, ha, hr, hcl, -⟩ := hsc 0 l rfl
      cases D with
      | nil => cases ha
      | cons a' D' =>
        simp only [List.getElem?_cons_zero, Option.some.injEq] at ha
        subst ha
        refine ⟨q * n0, some a', hsize, rfl, ?_⟩
        intro D hD
        cases hD
        rw [← hq, hsize] at hr hcl
        have e1 := mul_right_cancel₀ hres.ne' hr
        have e2 := mul_right_cancel₀ hres.ne' hcl
        exact ⟨by exact_mod_cast e1, by exact_mod_cast e2⟩
  probe := by
    intro x y g A hrep hg
    have hrep' : SubInv C size x y g A := hrep
    obtain ⟨T, hfr⟩ := hrep'.frame
    have hTw : T.WF := by show T.flat.length = _; rw [hfr.rep.2.2.1, hfr.rep.1, hfr.rep.2.1]
    have hem := frame_isEmpty C (isPowerOfTwo_pos hpow) hfr.toReady hrep'.ne
    rw [decide_eq_false hrep'.nonempty] at hem
    unfold isEmpty at hem
    rw [hfr.tiles] at hem
    simp only [Bool.not_eq_false', List.any_eq_true] at hem
    obtain ⟨o, ho, hs'⟩ := hem
    obtain ⟨t0, rfl⟩ := Option.isSome_iff_exists.1 hs'
    show probe g = .ok true
    unfold probe present
    rw [hfr.tiles]
    cases hl : (T.flat.filterMap id).getLast? with
    | none =>
      rw [List.getLast?_eq_none_iff] at hl
      have : t0 ∈ T.flat.filterMap id := by simpa using ho
      rw [hl] at this; cases this
    | some t =>
      have : some t ∈ T.flat := by simpa using List.mem_of_getLast? hl
      obtain ⟨k, hk⟩ := List.mem_iff_getElem?.1 this
      rw [Arr2.flat_getElem?_eq T hTw (List.getElem?_eq_some_iff.1 hk).1] at hk
      have ht : g.TileAt (k / T.cols) (k % T.cols) t := ⟨T, hfr.tiles, hk⟩
      exact hcells (frame_tileAt hfr.toReady ht).2.2.1 (fun u hu => hg u ⟨_, _, t, ht, hu⟩)

end Grid
end Bathy
