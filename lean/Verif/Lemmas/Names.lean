import Verif.Lemmas.Export
import Verif.Props.LayersGridded

/-!
# Which gridded layers are among the layer names
-/

namespace Bathy

/-- the gridded layers of the objects represented by `C` -/
def NamesMem {τ : Type} [TileLike τ] [LayerNames τ] [HasLeaves τ] {size sub : ℚ} {bs : Bool} {fl : Fields} (C : ChildSpec τ size sub bs fl) (names : List Layer) : Prop :=
  ∀ {x y : ℚ} {t : τ} {A : Store}, C.Rep x y t A → (∀ u, HasLeaves.leaf t u → u.cells ≠ []) → ∀ l : Layer, l.isCore = true → (l ∈ LayerNames.layerNames t ↔ l ∈ names)

theorem namesMem_tile (env : Env) (F : Family) {size sub : ℚ} {bs : Bool} {fl : Fields} (hs : 0 < size) : NamesMem (tileSpec env F size sub bs fl hs) (writtenLayers F bs fl) := by
  intro x y t A hrep hg l hl
  have hg : t.cells ≠ [] := hg t rfl
  show l ∈ t.layerNames ↔ _
  obtain ⟨h1, -⟩ := hrep
  unfold Tile.layerNames
  cases hc : t.cells with
  | nil => exact absurd hc hg
  | cons p ps =>
    obtain ⟨res, ls⟩ := p
    have hls : t.cells.get? res = some ls := by rw [hc]; simp [Dict.get?]
    obtain ⟨hf, -, hgi⟩ := history_frame hs h1
    have hcoreAt : t.coreAt res = some (core ls) := by unfold Tile.coreAt; rw [hls]; rfl
    obtain ⟨-, -, -, ⟨hnames, -⟩, -⟩ := hgi.cells res _ hcoreAt
    have hdk : t.depthKey = mainLayer bs := by rw [Tile.depthKey_frame hf]; rfl
    have hcc : core (core ls) = core ls := by unfold core; rw [List.filter_filter]; simp
    rw [hcc, hdk, writtenLayers_init] at hnames
    rw [← hnames]
    show l ∈ ls.map Prod.fst ↔ l ∈ (core ls).map Prod.fst
    unfold core
    rw [List.mem_map, List.mem_map]
    constructor
    · rintro ⟨q, hq, rfl⟩; exact ⟨q, List.mem_filter.2 ⟨hq, hl⟩, rfl⟩
    · rintro ⟨q, hq, rfl⟩; exact ⟨q, (List.mem_filter.1 hq).1, rfl⟩

theorem names_mem_grid {τ : Type} [LayerNames τ] {g : Grid τ} {names : List Layer} {l : Layer} (hT : ∀ T, g.tiles = some T → T.WF) (hne : ∃ r c, g.Filled r c)
    (h : ∀ r c t, g.TileAt r c t → (l ∈ LayerNames.layerNames t ↔ l ∈ names)) : l ∈ g.layerNames ↔ l ∈ names := by
  obtain ⟨r, c, t, ht⟩ := hne
  have hm := (Grid.mem_present hT).2 ⟨r, c, ht⟩
  unfold Grid.layerNames
  cases hp : g.present with
  | nil => rw [hp] at hm; cases hm
  | cons u us =>
    obtain ⟨r', c', hu⟩ := (Grid.mem_present hT).1 (by rw [hp]; exact List.mem_cons_self : u ∈ g.present)
    exact h r' c' u hu

theorem namesMem_sub {τ : Type} [GridLike τ] [Holds τ] [HasLeaves τ] [LayerNames τ] {size sub : ℚ} {bs : Bool} {fl : Fields} {C : ChildSpec τ sub 0 false fl} {names : List Layer}
    (N : NamesMem C names) (L : LeafNe C) (hs : 0 < size) (hpow : isPowerOfTwo sub = true) : NamesMem (subSpec (size := size) (bs := bs) C hs hpow) names := by
  intro x y g A hrep hg l hl
  obtain ⟨u, r, c, t, ht, -⟩ := (leafNe_sub (bs := bs) L hs hpow).ex hrep
  have hrep : Grid.SubInv C size x y g A := hrep
  refine names_mem_grid (Grid.sub_reps hrep).2 ⟨r, c, t, ht⟩ ?_
  intro r' c' t' ht'
  obtain ⟨x', y', B, hB⟩ := (Grid.sub_reps hrep).1 r' c' t' ht'
  exact N hB (fun u hu => hg u ⟨r', c', t', ht', hu⟩) l hl

variable {env : Env} {size sub : ℚ} {bs : Bool} {fl : Fields} {F F' : Family} {s : Bool} {A : Store} {a : GridCall} {dask : Option Nat}

theorem names_sr (hs : 0 < size) {g : Grid Tile} (h : SRHistory env size bs fl F s g A) (ha : a.alg.family = some F') (hF : F' = F ∨ a.clear = true)
    (hv : a.regrid = .full ∨ a.clear = true) (hok : (g.gridWith env a dask).err = none) {l : Layer} (hl : l.isCore = true) :
    l ∈ (g.gridWith env a dask).st.layerNames ↔ l ∈ writtenLayers F' bs fl := by
  have h1 : SRHistory env size bs fl F' s (g.gridWith env a dask).st A := history_after h ha hF hok
  have hlv := Grid.leaves_sr hs h hv hok
  have hi := (sr_inv hs h1).1
  obtain ⟨u, i, j, t, ht, hut⟩ := grow_leaf hs (leafNe_tile env F' hs) hi (store_ne (sr_inv hs h).1 hok)
  refine names_mem_grid (Grid.grow_reps hi).2 ⟨i, j, t, ht⟩ ?_
  intro r' c' t' ht'
  obtain ⟨x', y', B, hB⟩ := (Grid.grow_reps hi).1 r' c' t' ht'
  refine namesMem_tile env F' hs hB (fun u hu => ?_) l hl
  obtain ⟨r, -, hrun⟩ := hlv.1 u ⟨r', c', t', ht', hu⟩
  exact leafRun_cells hs hrun ha hF

theorem names_vr (hs : 0 < size) (hpow : isPowerOfTwo sub = true) {g : Grid (Grid Tile)} (h : VRHistory env size sub bs fl F s g A) (ha : a.alg.family = some F')
    (hF : F' = F ∨ a.clear = true) (hv : a.regrid = .full ∨ a.clear = true) (hok : (g.gridWith env a dask).err = none) {l : Layer} (hl : l.isCore = true) :
    l ∈ (g.gridWith env a dask).st.layerNames ↔ l ∈ writtenLayers F' false fl := by
  have h1 : VRHistory env size sub bs fl F' s (g.gridWith env a dask).st A := history_after h ha hF hok
  have hsub := isPowerOfTwo_pos hpow
  have hlv := Grid.leaves_vr hs hpow h hv hok
  have hi := (vr_inv hs hpow h1).1
  have hLt := leafNe_tile env F' (sub := 0) (bs := false) (fl := fl) hsub
  obtain ⟨u, i, j, t, ht, hut⟩ := grow_leaf hs (leafNe_sub (bs := bs) hLt hs hpow) hi (store_ne (vr_inv hs hpow h).1 hok)
  refine names_mem_grid (Grid.grow_reps hi).2 ⟨i, j, t, ht⟩ ?_
  intro r' c' t' ht'
  obtain ⟨x', y', B, hB⟩ := (Grid.grow_reps hi).1 r' c' t' ht'
  refine namesMem_sub (namesMem_tile env F' hsub) hLt hs hpow hB (fun u hu => ?_) l hl
  obtain ⟨r, -, hrun⟩ := hlv.1 u ⟨r', c', t', ht', hu⟩
  exact leafRun_cells hsub hrun ha hF

end Bathy
