import Verif.Props.AutoResolution
import Verif.Props.Rasters
import Verif.Spec.Export

/-!
# Exported rasters
-/

namespace Bathy

/-- the layers of the chunks -/
theorem chunks_keys {τ : Type} [LayerLike τ] [TileLike τ] [HasLeaves τ] {size sub : ℚ} {bs : Bool} {fl : Fields} {env : Env} {C : ChildSpec τ size sub bs fl} (L : Grid.Answers env C) (hgo : Grid.GeoOk C) (hs : 0 < size) {g : Grid τ} {A : Store}
    (hg : Grid.GrowInv C g A) {layers : List Layer} (hcore : ∀ l ∈ layers, l.isCore = true) (hnd : layers.Nodup) {res : ℚ} (hres : 0 < res)
    (hgeo : ∀ r c t, g.TileAt r c t → LayerLike.geo t res ≠ none) (nodata : Option ℚ) (zUp : Bool) (d : Option ℚ) :
    ∀ c ∈ (g.getChunks env res layers nodata zUp d true).st.2, c.data.keys = layers := by
  rcases hg.body with ⟨h1, h2, -⟩ | ⟨-, i, j, nx, ny, T, hf, he⟩
  · have : g.getChunks env res layers nodata zUp d true = .fail (g, []) .valueError := by
      unfold Grid.getChunks Grid.tileChunkIndices
      rw [h2]
    rw [this]
    intro c hc
    cases hc
  · obtain ⟨hr, -⟩ := Grid.chunks_right (nodata := nodata) (zUp := zUp) L hgo hs hf.toReady hcore hnd hres hgeo d
    exact fun c hc => (hr.right c hc).1

/-- the file written for a chunk -/
def FileOf (res : ℚ) (names : List String) (c : Chunk) (f : RasterFile) : Prop := f.res = res ∧ c.geo = some f.geo ∧ f.bands = names.zip (bands c)

theorem writeRasters_ok {epsg : Option Int} (he : epsg ≠ none) {res : ℚ} {names : List String} {layers : List Layer} (hne : names ≠ []) (hlen : names.length = layers.length) (cs : List Chunk)
    (h : ∀ c ∈ cs, c.data.keys = layers ∧ ∃ ge, c.geo = some ge) (k : Nat) :
    ∃ files, writeRasters epsg res names k cs = (files, none) ∧ List.Forall₂ (FileOf res names) cs files ∧ files.map RasterFile.number = List.range' k files.length := by
  induction cs generalizing k with
  | nil => exact ⟨[], rfl, .nil, rfl⟩
  | cons c cs ih =>
    obtain ⟨h1, ge, h2⟩ := h c (by simp)
    obtain ⟨files, i1, i2, i3⟩ := ih (fun c hc => h c (by simp [hc])) (k + 1)
    have hl : c.data.length = layers.length := by rw [← h1]; simp [Dict.keys]
    have hd : c.data ≠ [] := by
      intro e
      rw [e] at hl
      have := List.length_pos_iff.2 hne
      simp at hl
      omega
    have hc : rasterCreate epsg res k names c = .ok ⟨res, k, ge, names.zip (bands c)⟩ := by
      unfold rasterCreate
      rw [if_neg he, if_neg hd, h2]
      simp only
      rw [if_neg hne, if_neg (by omega)]
    refine ⟨⟨res, k, ge, names.zip (bands c)⟩ :: files, ?_, .cons ⟨rfl, h2, rfl⟩ i2, ?_⟩
    · unfold writeRasters
      rw [hc]
      simp only [i1]
    · rw [List.map_cons, i3, List.length_cons, List.range'_succ]

theorem fillValue_million (l : Layer) : fillValue l (some 1000000) = some 1000000 := by
  cases l <;> rfl

/-- bands by name and by number -/
theorem zip_named {nl : List (String × Layer)} (hnd : (nl.map Prod.fst).Nodup) {bs : List LayerArr} {k : Nat} {name : String} {l : Layer} (hk : nl[k]? = some (name, l)) {a : LayerArr} :
    (name, a) ∈ (nl.map Prod.fst).zip bs ↔ bs[k]? = some a := by
  have hn : (nl.map Prod.fst)[k]? = some name := by rw [List.getElem?_map, hk]; rfl
  constructor
  · intro h
    obtain ⟨i, hi⟩ := List.mem_iff_getElem?.1 h
    rw [List.getElem?_zip_eq_some] at hi
    have : i = k := by
      obtain ⟨b1, e1⟩ := List.getElem?_eq_some_iff.1 hi.1
      obtain ⟨b2, e2⟩ := List.getElem?_eq_some_iff.1 hn
      exact (List.Nodup.getElem_inj_iff hnd).1 (e1.trans e2.symm)
    subst this
    exact hi.2
  · intro h
    exact List.mem_iff_getElem?.2 ⟨k, by rw [List.getElem?_zip_eq_some]; exact ⟨hn, h⟩⟩

theorem file_covers {nl : List (String × Layer)} (hnd : (nl.map Prod.fst).Nodup) (hnd' : (nl.map Prod.snd).Nodup) {res : ℚ} {c : Chunk} (hkeys : c.data.keys = nl.map Prod.snd) {f : RasterFile}
    (h : FileOf res (nl.map Prod.fst) c f) {name : String} {l : Layer} (hl : (name, l) ∈ nl) {x y : ℚ} : f.Covers name x y ↔ c.Covers l res x y := by
  obtain ⟨h1, h2, h3⟩ := h
  obtain ⟨k, hk⟩ := List.mem_iff_getElem?.1 hl
  have hlk : (nl.map Prod.snd)[k]? = some l := by rw [List.getElem?_map, hk]; rfl
  have hmem : l ∈ c.data.keys := by rw [hkeys]; exact List.mem_of_getElem? hlk
  obtain ⟨a, ha⟩ : ∃ a, c.data.get? l = some a := by
    rw [← Dict.has_iff, ← Dict.get?_isSome] at hmem
    exact Option.isSome_iff_exists.1 hmem
  have hb := bands_get hkeys hnd' hlk ha
  unfold RasterFile.Covers Chunk.Covers
  rw [h3, h1]
  constructor
  · rintro ⟨b, hb1, hb2⟩
    rw [zip_named hnd hk, hb] at hb1
    cases hb1
    exact ⟨_, a, h2, ha, hb2⟩
  · rintro ⟨ge, b, g1, g2, g3⟩
    rw [h2] at g1; cases g1
    rw [ha] at g2; cases g2
    exact ⟨_, (zip_named hnd hk).2 hb, g3⟩

/-- the files of one resolution -/
theorem rasters_right {τ : Type} [HasLeaves τ] {epsg : Option Int} (he : epsg ≠ none) {g : Grid τ} {nl : List (String × Layer)} (hne : nl ≠ []) (hnd : (nl.map Prod.fst).Nodup) (hnd' : (nl.map Prod.snd).Nodup) {res : ℚ} {flip : Bool}
    {out : Res (Grid τ × List Chunk)} (hE : ExportSpec g (nl.map Prod.snd) res flip out) (hkeys : ∀ c ∈ out.st.2, c.data.keys = nl.map Prod.snd)
    (hempty : ∀ c ∈ out.st.2, ∀ ge, c.geo = some ge → ∀ (k : Nat) l, (nl.map Prod.snd)[k]? = some l → ∃ a, (bands c)[k]? = some a ∧ PixelsEmpty g l res ge.x0 ge.y0 (some 1000000) a)
    (hsign : ∀ name l, (name, l) ∈ nl → ∀ z, NamedValue g name z (shownValue l flip z)) (herr : out.err = none) :
    ∃ files, writeRasters epsg res (nl.map Prod.fst) 1 out.st.2 = (files, none) ∧ RastersRight g nl res files := by
  obtain ⟨files, h1, h2, h3⟩ := writeRasters_ok he (res := res) (names := nl.map Prod.fst) (layers := nl.map Prod.snd) (by simpa using hne) (by simp) out.st.2
    (fun c hc => by
      obtain ⟨-, ge, hge, -⟩ := hE.right c hc
      exact ⟨hkeys c hc, ge, hge⟩) 1
  have hfile : ∀ f ∈ files, ∃ c ∈ out.st.2, FileOf res (nl.map Prod.fst) c f := by
    intro f hf
    obtain ⟨i, hi⟩ := List.mem_iff_getElem?.1 hf
    obtain ⟨hlt, hi'⟩ := List.getElem?_eq_some_iff.1 hi
    have hlt' : i < out.st.2.length := by rw [h2.length_eq]; exact hlt
    have := (List.forall₂_iff_get.1 h2).2 i hlt' hlt
    refine ⟨_, List.getElem_mem hlt', ?_⟩
    simpa [hi'] using this
  have hchunk : ∀ c ∈ out.st.2, ∃ f ∈ files, FileOf res (nl.map Prod.fst) c f := by
    intro c hc
    obtain ⟨i, hi⟩ := List.mem_iff_getElem?.1 hc
    obtain ⟨hlt, hi'⟩ := List.getElem?_eq_some_iff.1 hi
    have hlt' : i < files.length := by rw [← h2.length_eq]; exact hlt
    have := (List.forall₂_iff_get.1 h2).2 i hlt hlt'
    refine ⟨_, List.getElem_mem hlt', ?_⟩
    simpa [hi'] using this
  refine ⟨files, h1, ⟨?_, h3, ?_, ?_, ?_⟩⟩
  · intro f hf
    obtain ⟨c, hc, k1, k2, k3⟩ := hfile f hf
    obtain ⟨e1, ge, e2, e3, e4⟩ := hE.right c hc
    rw [k2] at e2; cases e2
    refine ⟨k1, e3, ?_, ?_⟩
    · rw [k3, List.map_fst_zip]
      simp at e1 ⊢
      omega
    · intro k name l hk
      have hlk : (nl.map Prod.snd)[k]? = some l := by rw [List.getElem?_map, hk]; rfl
      obtain ⟨a, ha, hp⟩ := e4 k l hlk
      obtain ⟨a', ha', hp'⟩ := hempty c hc _ k2 k l hlk
      rw [ha] at ha'; cases ha'
      refine ⟨a, ?_, ?_, ?_⟩
      · rw [k3, List.getElem?_zip_eq_some]
        exact ⟨by rw [List.getElem?_map, hk]; rfl, ha⟩
      · intro i j z hi hj hz
        rw [k1] at hz
        exact ⟨_, hp i j z hi hj hz, hsign name l (List.mem_of_getElem? hk) z⟩
      · rw [k1]; exact hp'
  · intro f hf
    obtain ⟨c, hc, hfo⟩ := hfile f hf
    obtain ⟨l, hl, x, y, z, hz, hcov⟩ := hE.some c hc
    obtain ⟨⟨name, l⟩, hmem, rfl⟩ := List.mem_map.1 hl
    exact ⟨name, l, hmem, x, y, z, hz, (file_covers hnd hnd' (hkeys c hc) hfo hmem).2 hcov⟩
  · intro name l hl x y z hz
    obtain ⟨c, hc, hcov⟩ := (hE.all herr).2 l (List.mem_map.2 ⟨_, hl, rfl⟩) x y z hz
    obtain ⟨f, hf, hfo⟩ := hchunk c hc
    exact ⟨f, hf, (file_covers hnd hnd' (hkeys c hc) hfo hl).2 hcov⟩
  · rw [List.pairwise_iff_getElem]
    intro i j hi hj hij name l hl x y z hz hboth
    have hi' : i < out.st.2.length := by rw [h2.length_eq]; exact hi
    have hj' : j < out.st.2.length := by rw [h2.length_eq]; exact hj
    have hfi := (List.forall₂_iff_get.1 h2).2 i hi' hi
    have hfj := (List.forall₂_iff_get.1 h2).2 j hj' hj
    simp only [List.get_eq_getElem] at hfi hfj
    refine (List.pairwise_iff_getElem.1 hE.apart) i j hi' hj' hij l (List.mem_map.2 ⟨_, hl, rfl⟩) x y z hz ⟨?_, ?_⟩
    · exact (file_covers hnd hnd' (hkeys _ (List.getElem_mem hi')) hfi hl).1 hboth.1
    · exact (file_covers hnd hnd' (hkeys _ (List.getElem_mem hj')) hfj hl).1 hboth.2

/-- the loop over the resolutions -/
theorem rasterLoop_ok {τ : Type} [LayerLike τ] {env : Env} {epsg : Option Int} {layers : List Layer} {names : List String} {zUp : Bool} {d : Option ℚ} {g : Grid τ} {P : ℚ → List RasterFile → Prop} {rs : List ℚ}
    (h : ∀ r ∈ rs, (g.getChunks env r layers (some 1000000) zUp d true).err = none ∧ (g.getChunks env r layers (some 1000000) zUp d true).st.1 = g ∧
      ∃ files, writeRasters epsg r names 1 (g.getChunks env r layers (some 1000000) zUp d true).st.2 = (files, none) ∧ P r files) (fs : List RasterFile) :
    ∃ per : List (ℚ × List RasterFile), per.map Prod.fst = rs ∧ Grid.rasterLoop env epsg layers names zUp d rs g fs = (g, fs ++ per.flatMap Prod.snd, none) ∧ ∀ p ∈ per, P p.1 p.2 := by
  induction rs generalizing fs with
  | nil => exact ⟨[], rfl, by simp [Grid.rasterLoop], by simp⟩
  | cons r rs ih =>
    obtain ⟨h1, h2, files, h3, h4⟩ := h r (by simp)
    obtain ⟨per, i1, i2, i3⟩ := ih (fun r hr => h r (by simp [hr])) (fs ++ files)
    refine ⟨(r, files) :: per, by rw [List.map_cons, i1], ?_, ?_⟩
    · unfold Grid.rasterLoop
      simp only [h3, h1, h2]
      rw [i2]
      simp
    · intro p hp
      rcases List.mem_cons.1 hp with rfl | hp
      · exact h4
      · exact i3 p hp

/-- the names of the bands -/
theorem finalNames_expected (kind : RasterKind) (zUp intensity : Bool) (F : Family) (fl : Fields) :
    finalNames kind intensity (kind.up zUp) ((expectedBands kind zUp intensity F fl).map Prod.snd) =
      .ok ((expectedBands kind zUp intensity F fl).map Prod.fst) ∧
    ((expectedBands kind zUp intensity F fl).map Prod.fst).Nodup ∧ ((expectedBands kind zUp intensity F fl).map Prod.snd).Nodup ∧ expectedBands kind zUp intensity F fl ≠ [] := by
  obtain ⟨a, b⟩ := fl
  cases kind <;> cases zUp <;> cases intensity <;> cases F <;> cases a <;> cases b <;> decide +kernel

/-- the stored numbers with the sign that the names promise -/
theorem named_expected {τ : Type} (g : Grid τ) (kind : RasterKind) (zUp intensity : Bool) (F : Family) (fl : Fields) {name : String} {l : Layer}
    (h : (name, l) ∈ expectedBands kind zUp intensity F fl) (z : ℚ) :
    NamedValue g name z (shownValue l (g.flips (kind.up zUp)) z) := by
  have hflip := flips_eq g (kind.up zUp)
  unfold expectedBands at h
  unfold NamedValue shownValue
  by_cases hs : StoredUp g
  · simp only [hs, not_true_eq_false, iff_false, true_implies, false_implies, and_true] at hflip ⊢
    cases kind <;> cases zUp <;> cases intensity <;> cases F <;> cases hT : fl.hasTvu <;>
      simp [hT, RasterKind.up] at h hflip ⊢ <;> (first | (have h1 := h.1; have h2 := h.2; subst h1; subst h2; simp [hflip]) | (rcases h with h | h <;> obtain ⟨h1, h2⟩ := h <;> subst h1 <;> subst h2 <;> simp [hflip]))
  · simp only [hs, not_false_eq_true, iff_true, true_implies, false_implies, true_and] at hflip ⊢
    cases kind <;> cases zUp <;> cases intensity <;> cases F <;> cases hT : fl.hasTvu <;>
      simp [hT, RasterKind.up] at h hflip ⊢ <;> (first | (have h1 := h.1; have h2 := h.2; subst h1; subst h2; simp [hflip]) | (rcases h with h | h <;> obtain ⟨h1, h2⟩ := h <;> subst h1 <;> subst h2 <;> simp [hflip]))

/-- the layers that are exported of those that are there -/
def exported (l : Layer) : Bool := decide (l ∈ [Layer.depth, .vertical, .totalUnc])

theorem exported_expected (kind : RasterKind) (zUp : Bool) (F : Family) (fl : Fields) :
    (writtenLayers F false fl).filter exported = (expectedBands kind zUp false F fl).map Prod.snd := by
  obtain ⟨a, b⟩ := fl
  cases kind <;> cases zUp <;> cases F <;> cases a <;> cases b <;> decide +kernel

theorem expected_written {kind : RasterKind} {zUp bs : Bool} {F : Family} {fl : Fields} {l : Layer} (h : l ∈ (expectedBands kind zUp bs F fl).map Prod.snd) : l ∈ writtenLayers F bs fl := by
  revert h
  cases bs with
  | false =>
    rw [← exported_expected kind zUp F fl]
    exact fun h => (List.mem_filter.1 h).1
  | true =>
    intro h
    simp [expectedBands] at h
    subst h
    cases F <;> simp [writtenLayers]

/-- the first layers of the objects represented by `C` -/
def NamesOk {τ : Type} [TileLike τ] [LayerNames τ] [HasLeaves τ] {size sub : ℚ} {bs : Bool} {fl : Fields} (C : ChildSpec τ size sub bs fl) (names : List Layer) : Prop :=
  ∀ {x y : ℚ} {t : τ} {A : Store}, C.Rep x y t A → (∀ u, HasLeaves.leaf t u → u.cells ≠ []) → (LayerNames.layerNames t).filter exported = names.filter exported

theorem namesOk_tile (env : Env) (F : Family) {size sub : ℚ} {bs : Bool} {fl : Fields} (hs : 0 < size) : NamesOk (tileSpec env F size sub bs fl hs) (writtenLayers F bs fl) := by
  intro x y t A hrep hg
  have hg : t.cells ≠ [] := hg t rfl
  show t.layerNames.filter exported = _
  obtain ⟨h1, -⟩ := hrep
  unfold Tile.layerNames
  cases hc : t.cells with
  | nil => exact absurd hc hg
  | cons p ps =>
    obtain ⟨res, ls⟩ := p
    have hls : t.cells.get? res = some ls := by rw [hc]; simp [Dict.get?]
    obtain ⟨hf, -, hgi⟩ := history_frame hs h1
    have hcoreAt : t.coreAt res = some (core ls) := by unfold Tile.coreAt; rw [hls]; rfl
    obtain ⟨-, -, -, ⟨hnames, -⟩, -⟩ := hgi.cells res _ hcoreAt
    have hdk : t.depthKey = mainLayer bs := by rw [Tile.depthKey_frame hf]; rfl
    have hcc : core (core ls) = core ls := by unfold core; rw [List.filter_filter]; simp
    rw [hcc, hdk, writtenLayers_init] at hnames
    rw [← hnames]
    show (ls.map Prod.fst).filter exported = ((core ls).map Prod.fst).filter exported
    unfold core
    rw [List.filter_map, List.filter_map, List.filter_filter]
    congr 1
    apply List.filter_congr
    intro q _
    cases hq : q.1 <;> simp [exported, hq, Layer.isCore]

theorem names_grid {τ : Type} [LayerNames τ] {g : Grid τ} {names : List Layer} (hT : ∀ T, g.tiles = some T → T.WF) (hne : ∃ r c, g.Filled r c)
    (h : ∀ r c t, g.TileAt r c t → (LayerNames.layerNames t).filter exported = names.filter exported) : g.layerNames.filter exported = names.filter exported := by
  obtain ⟨r, c, t, ht⟩ := hne
  have hm := (Grid.mem_present hT).2 ⟨r, c, ht⟩
  unfold Grid.layerNames
  cases hp : g.present with
  | nil => rw [hp] at hm; cases hm
  | cons u us =>
    obtain ⟨r', c', hu⟩ := (Grid.mem_present hT).1 (by rw [hp]; exact List.mem_cons_self : u ∈ g.present)
    exact h r' c' u hu

theorem namesOk_sub {τ : Type} [GridLike τ] [Holds τ] [HasLeaves τ] [LayerNames τ] {size sub : ℚ} {bs : Bool} {fl : Fields} {C : ChildSpec τ sub 0 false fl} {names : List Layer}
    (N : NamesOk C names) (L : LeafNe C) (hs : 0 < size) (hpow : isPowerOfTwo sub = true) : NamesOk (subSpec (size := size) (bs := bs) C hs hpow) names := by
  intro x y g A hrep hg
  obtain ⟨u, r, c, t, ht, -⟩ := (leafNe_sub (bs := bs) L hs hpow).ex hrep
  have hrep : Grid.SubInv C size x y g A := hrep
  refine names_grid (Grid.sub_reps hrep).2 ⟨r, c, t, ht⟩ ?_
  intro r' c' t' ht'
  obtain ⟨x', y', B, hB⟩ := (Grid.sub_reps hrep).1 r' c' t' ht'
  exact N hB (fun u hu => hg u ⟨r', c', t', ht', hu⟩)

/-- an export of a grid with the right layers whose chunks are right -/
theorem export_ok {τ : Type} [LayerLike τ] [HasLeaves τ] [LayerNames τ] {env : Env} {g : Grid τ} {kind : RasterKind} {zUp bs : Bool} {F : Family} {fl : Fields}
    (he : g.info.epsg ≠ none) (hb : g.isBackscatter = bs) (hk : kind = .bag → bs = false) (hn : bs = false → g.layerNames.filter exported = (writtenLayers F false fl).filter exported) {res override : Option ℚ} {rs : List ℚ}
    (hrs : (res = none ∧ rs = g.resolutions) ∨ ∃ r, res = some r ∧ rs = [r])
    (hch : ∀ zUp', ∀ r ∈ rs, ∃ layers, layers = (expectedBands kind zUp bs F fl).map Prod.snd ∧ (g.getChunks env r layers (some 1000000) zUp' override true).err = none ∧
      ExportSpec g layers r (g.flips zUp') (g.getChunks env r layers (some 1000000) zUp' override true) ∧
      (∀ c ∈ (g.getChunks env r layers (some 1000000) zUp' override true).st.2, c.data.keys = layers) ∧
      (∀ c ∈ (g.getChunks env r layers (some 1000000) zUp' override true).st.2, ∀ ge, c.geo = some ge → ∀ (k : Nat) l, layers[k]? = some l →
        ∃ a, (bands c)[k]? = some a ∧ PixelsEmpty g l r ge.x0 ge.y0 (some 1000000) a)) :
    ∃ per : List (ℚ × List RasterFile), per.map Prod.fst = rs ∧ g.exportRaster env kind zUp res override = (g, per.flatMap Prod.snd, none) ∧
      ∀ p ∈ per, RastersRight g (expectedBands kind zUp bs F fl) p.1 p.2 := by
  have hlay : g.rasterLayers kind = (expectedBands kind zUp bs F fl).map Prod.snd := by
    unfold Grid.rasterLayers
    cases bs with
    | true =>
      have : kind = .geotiff := by cases kind <;> simp_all
      subst this
      simp [hb, expectedBands]
    | false =>
      rw [if_neg (by simp [hb])]
      exact (hn rfl).trans (exported_expected kind zUp F fl)
  have hint : decide (kind = .geotiff ∧ g.isBackscatter = true) = bs := by
    cases bs with
    | true =>
      have : kind = .geotiff := by cases kind <;> simp_all
      simp [hb, this]
    | false => simp [hb]
  obtain ⟨f1, f2, f3, f4⟩ := finalNames_expected kind zUp bs F fl
  obtain ⟨per, p1, p2, p3⟩ := rasterLoop_ok (env := env) (epsg := g.info.epsg) (layers := (expectedBands kind zUp bs F fl).map Prod.snd) (names := (expectedBands kind zUp bs F fl).map Prod.fst)
    (zUp := kind.up zUp) (d := override) (g := g) (P := fun r files => RastersRight g (expectedBands kind zUp bs F fl) r files) (rs := rs) (by
      intro r hr
      obtain ⟨layers, e, c1, c2, c3, c4⟩ := hch (kind.up zUp) r hr
      subst e
      refine ⟨c1, (c2.all c1).1, ?_⟩
      exact rasters_right he f4 f2 f3 c2 c3 c4 (fun name l hl z => named_expected g kind zUp bs F fl hl z) c1) []
  refine ⟨per, p1, ?_, p3⟩
  unfold Grid.exportRaster
  simp only [hint, hlay, f1]
  rcases hrs with ⟨e1, e2⟩ | ⟨r, e1, e2⟩ <;> subst e1 <;> subst e2 <;> simpa using p2

end Bathy
