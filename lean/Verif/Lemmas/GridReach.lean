import Verif.Lemmas.GridHistory
import Verif.Spec.Histories

/-!
# The invariant of all reachable grids
-/

namespace Bathy
namespace Grid
variable {τ : Type} [GridLike τ] [Queried τ] [LawfulGrid τ] {size sub : ℚ} {bs : Bool} {fl : Fields}

/-- a family of child invariants closed under gridding and queries -/
structure Closed (env : Env) (C : Family → ChildSpec τ size sub bs fl) : Prop where
  same : ∀ F alg, alg.family = some F → Runs env (C F) (C F) alg false
  switch : ∀ F F' alg, alg.family = some F' → Runs env (C F) (C F') alg true
  query : ∀ F {x y : ℚ} {t u : τ} {A : Store}, (C F).Rep x y t A → Queried.queried env t u → (C F).Rep x y u A

omit [Queried τ] [LawfulGrid τ] in
theorem slotsTo_set {C : ChildSpec τ size sub bs fl} {T : Arr2 (Option τ)} {k : Nat} {t u : τ} (hk : T.flat[k]? = some (some t))
    (h : ∀ x y B, C.Rep x y t B → C.Rep x y u B) : SlotsTo C C T (T.setFlat k (some u)) := by
  refine ⟨rfl, rfl, by simp [Arr2.setFlat], ?_⟩
  intro j o o' ho ho'
  simp only [Arr2.setFlat, List.getElem?_set] at ho'
  by_cases hj : k = j
  · subst hj
    have hkl := (List.getElem?_eq_some_iff.1 hk).1
    simp only [if_true, hkl] at ho'
    rw [hk] at ho
    cases ho; cases ho'
    exact ⟨rfl, fun t1 t2 h1 h2 => by cases h1; cases h2; exact h⟩
  · simp only [hj, if_false] at ho'
    rw [ho] at ho'; cases ho'
    exact ⟨rfl, fun t1 t2 h1 h2 => by rw [h1] at h2; cases h2; exact fun _ _ _ h => h⟩

omit [Queried τ] [LawfulGrid τ] in
theorem grow_set {C : ChildSpec τ size sub bs fl} {g : Grid τ} {A : Store} (hg : GrowInv C g A) {k : Nat} {t u : τ} (hk : g.tile? k = some (some t))
    (h : ∀ x y B, C.Rep x y t B → C.Rep x y u B) : GrowInv C (g.setTile k (some u)) A := by
  unfold tile? at hk
  rcases Option.eq_none_or_eq_some g.tiles with ht | ⟨T, ht⟩
  · rw [ht] at hk; cases hk
  · rw [ht] at hk
    have := grow_to (slotsTo_set hk h) ht hg g.gridAlgorithm g.gridResolution g.gridParams g.resolutions g.resolutions
    unfold setTile
    rw [ht]
    exact this

omit [GridLike τ] [Queried τ] [LawfulGrid τ] in
theorem setTile_mask (g : Grid τ) (k : Nat) (o : Option τ) : (g.setTile k o).mask = g.mask ∧ (g.setTile k o).slots = g.slots := by
  unfold setTile slots
  rcases Option.eq_none_or_eq_some g.tiles with ht | ⟨T, ht⟩
  · rw [ht]; exact ⟨rfl, by simp [ht]⟩
  · rw [ht]; exact ⟨rfl, by simp [Arr2.setFlat]⟩

omit [Queried τ] in
theorem gridWith_mask (env : Env) (g : Grid τ) (a : GridCall) (dask : Option Nat) :
    (gridWith env g a dask).st.mask = g.mask ∧ (gridWith env g a dask).st.slots = g.slots := by
  rcases gridWith_spec env g a dask with ⟨al, gr, gp, e, h, -⟩ | ⟨gr, T, -, -, hT, -, ⟨-, h⟩ | ⟨-, e, b, R, -, h⟩⟩
  · rw [h]; exact ⟨rfl, rfl⟩
  · rw [h]; refine ⟨rfl, ?_⟩; simp [slots, withTiles, prefixTiles, hT]
  · rw [h]; refine ⟨rfl, ?_⟩; simp [slots, withTiles, prefixTiles, hT]

omit [Queried τ] [LawfulGrid τ] in
/-- an array without soundings is never accepted -/
theorem addPoints_nil {τ : Type} [TileLike τ] {C : ChildSpec τ size sub bs fl} {g : Grid τ} {A : Store} (h : GrowInv C g A) (c : String) (a : AddArgs) (d : Fields) :
    (addPoints g ⟨d, []⟩ c a).err ≠ none := by
  unfold addPoints
  split
  · simp
  · simp only
    split
    · simp
    · have : ∃ e, updateBase { g with info := (g.info.update c a).st } [] = .fail { g with info := (g.info.update c a).st } e := by
        unfold updateBase
        simp only [h.canGrow, List.map_nil, listMin, listMax, reduce1, if_true]
        split
        · exact ⟨_, rfl⟩
        · rcases Option.eq_none_or_eq_some g.extents with he | ⟨e, he⟩
          · rw [he]; exact ⟨_, rfl⟩
          · rw [he]; exact ⟨_, rfl⟩
      obtain ⟨e, he⟩ := this
      simp only [he, Res.andThen_fail, Res.fail_err]
      simp

omit [Queried τ] [LawfulGrid τ] in
/-- a rejected `add_points` only touches the metadata -/
theorem addPoints_reject (C : ChildSpec τ size sub bs fl) (hs : 0 < size) {g : Grid τ} {A : Store} (h : GrowInv C g A) {pts : List Pt} (hp : pts ≠ []) (c : String)
    (a : AddArgs) (hno : (addPoints g ⟨fl, pts⟩ c a).err ≠ none) :
    (addPoints g ⟨fl, pts⟩ c a).st = g ∧ c ∈ A.names ∨
      c ∉ A.names ∧ (g.info.update c a).err = (addPoints g ⟨fl, pts⟩ c a).err ∧ (g.info.update c a).err ≠ none ∧
        (addPoints g ⟨fl, pts⟩ c a).st = { g with info := (g.info.update c a).st } := by
  by_cases hc : c ∈ A.names
  · left
    have : g.info.container.has c = true := by rw [Dict.has_iff, h.cont]; exact hc
    unfold addPoints
    rw [this]
    exact ⟨rfl, hc⟩
  · right
    have hm : (g.info.update c a).err ≠ none := by
      intro hm
      obtain ⟨u, hu, -⟩ := addPoints_grow C hs h hc hp hm
      rw [hu] at hno; simp at hno
    have hhas : g.info.container.has c = false := by rw [Dict.has_false_iff, h.cont]; exact hc
    obtain ⟨e, he⟩ := Option.ne_none_iff_exists'.1 hm
    have : addPoints g ⟨fl, pts⟩ c a = .fail { g with info := (g.info.update c a).st } e := by
      unfold addPoints
      rw [hhas]
      simp only [Bool.false_eq_true, if_false, he]
    rw [this]
    exact ⟨hc, he, hm, rfl⟩

omit [Queried τ] [LawfulGrid τ] in
theorem grow_info {C : ChildSpec τ size sub bs fl} {g : Grid τ} {A : Store} (h : GrowInv C g A) {m : Meta} (hm : m.container.keys = g.info.container.keys) :
    GrowInv C { g with info := m } A := by
  refine ⟨h.canGrow, h.ox, h.oy, h.tileSize, h.subtileSize, h.backscatter, h.names, h.ne, hm.trans h.cont, ?_⟩
  rcases h.body with h1 | ⟨h1, i, j, nx, ny, T0, hf, he⟩
  · exact Or.inl h1
  · right
    exact ⟨h1, i, j, nx, ny, T0, ⟨⟨hf.tileSize, hf.subtileSize, hf.backscatter, hf.txs, hf.tys, hf.edgesX, hf.edgesY, hf.tiles, hf.rep, hf.inr, hf.nx_pos, hf.ny_pos, hf.dims⟩, hf.num⟩, he⟩

omit [Queried τ] [LawfulGrid τ] in
theorem grow_mask {C : ChildSpec τ size sub bs fl} {g : Grid τ} {A : Store} (h : GrowInv C g A) (m : Option (Arr2 Bool)) : GrowInv C { g with mask := m } A := by
  refine ⟨h.canGrow, h.ox, h.oy, h.tileSize, h.subtileSize, h.backscatter, h.names, h.ne, h.cont, ?_⟩
  rcases h.body with h1 | ⟨h1, i, j, nx, ny, T0, hf, he⟩
  · exact Or.inl h1
  · right
    exact ⟨h1, i, j, nx, ny, T0, ⟨⟨hf.tileSize, hf.subtileSize, hf.backscatter, hf.txs, hf.tys, hf.edgesX, hf.edgesY, hf.tiles, hf.rep, hf.inr, hf.nx_pos, hf.ny_pos, hf.dims⟩, hf.num⟩, he⟩

/-- the invariant -/
theorem history_inv {env : Env} {C : Family → ChildSpec τ size sub bs fl} (hC : Closed env C) (hs : 0 < size) {g0 : Grid τ} (h0 : ∀ F, GrowInv (C F) g0 [])
    (h0m : g0.mask = none) {F : Family} {s : Bool} {g : Grid τ} {A : Store} (h : GridHistory env g0 fl F s g A) :
    GrowInv (C F) g A ∧ (s = false → MaskOk g g.slots ∧ (A = [] → g.mask = none)) := by
  induction h with
  | new F => exact ⟨h0 F, fun _ => ⟨fun m hm => (by rw [h0m] at hm; cases hm), fun _ => h0m⟩⟩
  | @add F s g A h pts c a hok ih =>
    obtain ⟨ih1, ih2⟩ := ih
    have hp : pts ≠ [] := by
      rintro rfl
      exact addPoints_nil ih1 c a fl hok
    have hc : c ∉ A.names := by
      intro hc
      have : g.info.container.has c = true := by rw [Dict.has_iff, ih1.cont]; exact hc
      unfold addPoints at hok
      rw [this] at hok
      simp at hok
    have hm : (g.info.update c a).err = none := by
      rcases Option.eq_none_or_eq_some (g.info.update c a).err with hm | ⟨e, hm⟩
      · exact hm
      · exfalso
        unfold addPoints at hok
        simp only [hm] at hok
        split at hok
        · simp at hok
        · simp at hok
    obtain ⟨u, hu, hinv, -, -, -, i, j, nx, ny, T, hf, hext, hstep⟩ := addPoints_grow (C F) hs ih1 hc hp hm
    rw [hu]
    refine ⟨hinv, ?_⟩
    intro hst
    refine ⟨?_, by simp⟩
    have hslots : u.slots = ny * nx := by unfold slots; rw [hf.tiles]; exact hf.rep.2.2.1
    have hemp : g.isEmpty = decide (A = []) := by
      rcases ih1.body with ⟨e1, e2, -⟩ | ⟨e1, i, j, nx, ny, T, hf, -⟩
      · unfold isEmpty; rw [e2, e1]; rfl
      · exact frame_isEmpty (C F) hs hf.toReady ih1.ne
    by_cases hA : A = []
    · rw [if_pos hA] at hst
      intro m hm1
      have := hstep.mask_fresh (by rw [hemp]; simpa using hA)
      have h3 := (ih2 hst).2 hA
      rw [show (Res.ok u).st.mask = u.mask from rfl, this, h3] at hm1
      cases hm1
    · obtain ⟨m, hm1, hm2⟩ := hstep.mask (by rw [hemp]; simpa using hA)
      intro m' hm' _
      rw [show (Res.ok u).st.mask = u.mask from rfl, hm1] at hm'
      cases hm'
      rw [hm2, show (Res.ok u).st.slots = u.slots from rfl, hslots]
  | @reject F s g A h pts hp c a hno ih =>
    obtain ⟨ih1, ih2⟩ := ih
    rcases addPoints_reject (C F) hs ih1 hp c a hno with ⟨h1, -⟩ | ⟨-, -, h2, h1⟩
    · rw [h1]; exact ⟨ih1, ih2⟩
    · rw [h1]
      refine ⟨grow_info ih1 ?_, ih2⟩
      rcases Meta.update_container g.info c a with ⟨h3, -⟩ | ⟨-, h3⟩
      · exact absurd h3 h2
      · rw [h3]
  | @remove F s g A h c hok ih =>
    obtain ⟨ih1, ih2⟩ := ih
    obtain ⟨u, hu, hinv, h3, h4, -, h6, -⟩ := removePoints_grow (C F) hs ih1 c (Or.inr hok)
    rw [hu]
    refine ⟨hinv, ?_⟩
    intro hst
    have hst' : s = false ∧ ¬ (c ∈ A.names ∧ A.remove c = []) := by
      split at hst
      · cases hst
      · exact ⟨hst, by assumption⟩
    obtain ⟨hsf, hne⟩ := hst'
    by_cases hc : c ∈ A.names
    · have hr : A.remove c ≠ [] := fun h => hne ⟨hc, h⟩
      refine ⟨?_, fun h => absurd h hr⟩
      have ht : u.tiles ≠ none := by
        rcases hinv.body with ⟨e1, -⟩ | ⟨-, i, j, nx, ny, T, hf, -⟩
        · exact absurd e1 hr
        · rw [hf.tiles]; simp
      exact h3 (ih2 hsf).1 ht
    · have : removePoints g c = .ok g := removePoints_unknown (by rw [ih1.cont]; exact hc)
      rw [this] at hu; cases hu
      rw [Store.remove_of_not_mem _ _ hc]
      exact ih2 hsf
  | @grid F s g A h a ha dask ih =>
    obtain ⟨ih1, ih2⟩ := ih
    obtain ⟨h1, h2⟩ := gridWith_mask env g a dask
    refine ⟨grow_gridWith (hC.same F a.alg ha) ih1 dask (fun h => by cases h), ?_⟩
    unfold MaskOk
    rw [h1, h2]
    exact ih2
  | @switch F F' s g A h a ha hc dask hok ih =>
    obtain ⟨ih1, ih2⟩ := ih
    obtain ⟨h1, h2⟩ := gridWith_mask env g a dask
    refine ⟨grow_gridWith (hC.switch F F' a.alg ha) ih1 dask (fun _ => ⟨hc, hok⟩), ?_⟩
    unfold MaskOk
    rw [h1, h2]
    exact ih2
  | @query F s g u A h hq ih =>
    obtain ⟨ih1, ih2⟩ := ih
    rcases hq with ⟨k, t, v, hk, hq, rfl⟩ | ⟨hm, ht, rfl⟩
    · refine ⟨grow_set ih1 hk (fun x y B hB => hC.query F hB hq), ?_⟩
      obtain ⟨h1, h2⟩ := setTile_mask g k (some v)
      unfold MaskOk
      rw [h1, h2]
      exact ih2
    · refine ⟨grow_mask ih1 _, fun _ => ⟨?_, fun hA => ?_⟩⟩
      · intro m hm hany
        cases hm
        cases hany
      · rcases ih1.body with ⟨-, h2, -⟩ | ⟨h1, -⟩
        · exact absurd h2 ht
        · exact absurd hA h1

/-- a mask without values is `np.array([])` -/
def MaskProper (m : Option (Arr2 Bool)) : Prop := ∀ a, m = some a → a.flat.length = 0 → a = ⟨0, 0, []⟩

omit [GridLike τ] [Queried τ] [LawfulGrid τ] in
theorem maskProper_dims {m m' : Option (Arr2 Bool)} (h : m'.map Arr2.dims = m.map Arr2.dims) (hm : MaskProper m) : MaskProper m' := by
  rintro a rfl ha
  cases m with
  | none => cases h
  | some b =>
    simp only [Option.map_some, Option.some.injEq] at h
    have hb := hm b rfl (by simp only [Arr2.dims, Prod.mk.injEq] at h; rw [← h.2.2]; exact ha)
    subst hb
    exact Arr2.eq_blank h

/-- the mask of a reachable grid -/
theorem history_mask {env : Env} {C : Family → ChildSpec τ size sub bs fl} (hC : Closed env C) (hs : 0 < size) {g0 : Grid τ} (h0 : ∀ F, GrowInv (C F) g0 [])
    (h0m : g0.mask = none) {F : Family} {s : Bool} {g : Grid τ} {A : Store} (h : GridHistory env g0 fl F s g A) : MaskProper g.mask := by
  induction h with
  | new F => rw [h0m]; rintro a ⟨⟩
  | @add F s g A h pts c a hok ih =>
    have ih1 := (history_inv hC hs h0 h0m h).1
    have hp : pts ≠ [] := by
      rintro rfl
      exact addPoints_nil ih1 c a fl hok
    have hc : c ∉ A.names := by
      intro hc
      have : g.info.container.has c = true := by rw [Dict.has_iff, ih1.cont]; exact hc
      unfold addPoints at hok
      rw [this] at hok
      simp at hok
    have hm : (g.info.update c a).err = none := by
      rcases Option.eq_none_or_eq_some (g.info.update c a).err with hm | ⟨e, hm⟩
      · exact hm
      · exfalso
        unfold addPoints at hok
        simp only [hm] at hok
        split at hok
        · simp at hok
        · simp at hok
    obtain ⟨u, hu, hinv, -, -, -, i, j, nx, ny, T, hf, hext, hstep⟩ := addPoints_grow (C F) hs ih1 hc hp hm
    rw [hu]
    show MaskProper u.mask
    cases hemp : g.isEmpty with
    | true => rw [hstep.mask_fresh hemp]; exact ih
    | false =>
      obtain ⟨m, hm1, hm2⟩ := hstep.mask hemp
      rw [hm1]
      rintro a ⟨⟩ ha
      rw [hm2] at ha
      exact absurd ha (Nat.mul_pos hf.ny_pos hf.nx_pos).ne'
  | @reject F s g A h pts hp c a hno ih =>
    have ih1 := (history_inv hC hs h0 h0m h).1
    rcases addPoints_reject (C F) hs ih1 hp c a hno with ⟨h1, -⟩ | ⟨-, -, h2, h1⟩
    · rw [h1]; exact ih
    · rw [h1]; exact ih
  | @remove F s g A h c hok ih =>
    have ih1 := (history_inv hC hs h0 h0m h).1
    obtain ⟨u, hu, -, -, h4, -⟩ := removePoints_grow (C F) hs ih1 c (Or.inr hok)
    rw [hu]
    exact maskProper_dims h4 ih
  | @grid F s g A h a ha dask ih => rw [(gridWith_mask env g a dask).1]; exact ih
  | @switch F F' s g A h a ha hc dask hok ih => rw [(gridWith_mask env g a dask).1]; exact ih
  | @query F s g u A h hq ih =>
    rcases hq with ⟨k, t, v, hk, hq, rfl⟩ | ⟨hm, ht, rfl⟩
    · rw [(setTile_mask g k (some v)).1]; exact ih
    · rintro a ⟨⟩ -; rfl

omit [Queried τ] [LawfulGrid τ] in
theorem growInv_blank (C : ChildSpec τ size sub bs fl) (name : String) : GrowInv C (blank name true 0 0 size sub bs none) [] :=
  ⟨rfl, rfl, rfl, rfl, rfl, rfl, by simp [Store.names], by simp, rfl, Or.inl ⟨rfl, rfl, Or.inl rfl⟩⟩

omit [LawfulGrid τ] in
/-- queries of subgrids -/
theorem sub_query {env : Env} {C : ChildSpec τ sub 0 false fl} (hC : ∀ {x y : ℚ} {t u : τ} {A : Store}, C.Rep x y t A → Queried.queried env t u → C.Rep x y u A)
    (hs : 0 < size) (hpow : isPowerOfTwo sub = true) {x y : ℚ} {g u : Grid τ} {A : Store} (hrep : (subSpec (bs := bs) C hs hpow).Rep x y g A)
    (hq : Queried.queried env g u) : (subSpec (bs := bs) C hs hpow).Rep x y u A := by
  have hrep : SubInv C size x y g A := hrep
  obtain ⟨T, hf⟩ := hrep.frame
  rcases hq with ⟨k, t, v, hk, hq, rfl⟩ | ⟨hm, ht, rfl⟩
  rotate_left
  · show SubInv C size x y { g with mask := some ⟨0, 0, []⟩ } A
    exact ⟨hrep.name, hrep.canGrow, hrep.extents, fun m hm => by cases hm; rfl, hrep.vref, hrep.names, hrep.ne, hrep.cont, hrep.nonempty, T,
      ⟨⟨hf.tileSize, hf.subtileSize, hf.backscatter, hf.txs, hf.tys, hf.edgesX, hf.edgesY, hf.tiles, hf.rep, hf.inr, hf.nx_pos, hf.ny_pos, hf.dims⟩, hf.num⟩⟩
  unfold tile? at hk
  rw [hf.tiles] at hk
  have hsl := slotsTo_set hk (fun x y B hB => hC hB hq)
  have := frame_to hsl hf g.gridAlgorithm g.gridResolution g.gridParams g.resolutions g.resolutions
  show SubInv C size x y (g.setTile k (some v)) A
  have he : g.setTile k (some v) = { g with tiles := some (T.setFlat k (some v)) } := by unfold setTile; rw [hf.tiles]
  rw [he]
  exact ⟨hrep.name, hrep.canGrow, hrep.extents, hrep.mask, hrep.vref, hrep.names, hrep.ne, hrep.cont, hrep.nonempty, _, this⟩

/-- closure for subgrids -/
theorem closed_sub {env : Env} {C : Family → ChildSpec τ sub 0 false fl} (hC : Closed env C) (hs : 0 < size) (hpow : isPowerOfTwo sub = true) :
    Closed (size := size) (bs := bs) env (fun F => subSpec (C F) hs hpow) where
  same := fun F alg ha => runs_sub (hC.same F alg ha) hs hpow
  switch := fun F F' alg ha => runs_sub (hC.switch F F' alg ha) hs hpow
  query := fun F _ _ _ _ _ => sub_query (hC.query F) hs hpow

end Grid

theorem closed_tile (env : Env) {size sub : ℚ} {bs : Bool} {fl : Fields} (hs : 0 < size) :
    Grid.Closed env (fun F => tileSpec env F size sub bs fl hs) where
  same := fun _ _ ha => runs_tile env ha hs
  switch := fun F _ _ ha => runs_tile_switch env F ha hs
  query := by
    intro F x y t u A h hq
    rcases hq with ⟨layer, res, nodata, zUp, rfl⟩ | hq
    · exact ⟨TileHistory.query h.1 layer res nodata zUp, h.2⟩
    · exact ⟨TileHistory.reread h.1 hq, h.2⟩

/-- single resolution grids -/
theorem sr_inv {env : Env} {size : ℚ} {bs : Bool} {fl : Fields} (hs : 0 < size) {F : Family} {s : Bool} {g : Grid Tile} {A : Store}
    (h : SRHistory env size bs fl F s g A) : Grid.GrowInv (tileSpec env F size 0 bs fl hs) g A ∧ (s = false → Grid.MaskOk g g.slots ∧ (A = [] → g.mask = none)) :=
  Grid.history_inv (closed_tile env hs) hs (fun _ => Grid.growInv_blank _ _) rfl h

theorem sr_mask {env : Env} {size : ℚ} {bs : Bool} {fl : Fields} (hs : 0 < size) {F : Family} {s : Bool} {g : Grid Tile} {A : Store}
    (h : SRHistory env size bs fl F s g A) : Grid.MaskProper g.mask :=
  Grid.history_mask (closed_tile env hs) hs (fun _ => Grid.growInv_blank _ _) rfl h

theorem vr_mask {env : Env} {size sub : ℚ} {bs : Bool} {fl : Fields} (hs : 0 < size) (hpow : isPowerOfTwo sub = true) {F : Family} {s : Bool}
    {g : Grid (Grid Tile)} {A : Store} (h : VRHistory env size sub bs fl F s g A) : Grid.MaskProper g.mask :=
  Grid.history_mask (Grid.closed_sub (closed_tile env (isPowerOfTwo_pos hpow)) hs hpow) hs (fun _ => Grid.growInv_blank _ _) rfl h

/-- variable resolution grids -/
theorem vr_inv {env : Env} {size sub : ℚ} {bs : Bool} {fl : Fields} (hs : 0 < size) (hpow : isPowerOfTwo sub = true) {F : Family} {s : Bool}
    {g : Grid (Grid Tile)} {A : Store} (h : VRHistory env size sub bs fl F s g A) :
    Grid.GrowInv (subSpec (bs := bs) (tileSpec env F sub 0 false fl (isPowerOfTwo_pos hpow)) hs hpow) g A ∧ (s = false → Grid.MaskOk g g.slots ∧ (A = [] → g.mask = none)) :=
  Grid.history_inv (Grid.closed_sub (closed_tile env (isPowerOfTwo_pos hpow)) hs hpow) hs (fun _ => Grid.growInv_blank _ _) rfl h

end Bathy
