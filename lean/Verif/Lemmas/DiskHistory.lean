import Verif.Lemmas.LeftBehind
import Verif.Lemmas.DiskReach
import Verif.Lemmas.DiskPar
import Verif.Lemmas.SaveOver
import Verif.Spec.DiskHistories

/-!
# Grids with an output folder
-/

namespace Bathy
namespace Tile

theorem runPlainOnly_meta {f : List ℚ → List Int → GridArrays → List ℚ → List ℚ → Except Err GridArrays} {t u : Tile} {r : ℚ}
    {c : String} (h : runPlainOnly f t r c = .ok u) : u.toMeta = t.toMeta := by
  unfold runPlainOnly at h
  split at h
  · split at h
    · simp only at h
      split at h
      · cases h
      · cases h; rfl
    · cases h
  · cases h
  · cases h

theorem runSlopes_meta {env : Env} {t u : Tile} {r : ℚ} (h : runSlopes env t r = .ok u) : u.toMeta = t.toMeta := by
  unfold runSlopes at h
  repeat' split at h
  all_goals first | cases h; rfl | cases h

theorem ensureLayer_meta {env : Env} {t u : Tile} {l : Layer} {r : ℚ} {n : Option ℚ} (h : ensureLayer env t l r n = .ok u) : u.toMeta = t.toMeta := by
  unfold ensureLayer fillLayer at h
  split at h
  · exact runSlopes_meta h
  · exact runSlopes_meta h
  · split at h
    · split at h
      · exact runPlainOnly_meta h
      · exact runPlainOnly_meta h
      · cases h
      · cases h; rfl
    · split at h
      · cases h
      · split at h
        · cases h; rfl
        · cases h
  · split at h
    · cases h; rfl
    · split at h
      · cases h
      · split at h
        · cases h; rfl
        · cases h
  · cases h; rfl

theorem getLayer_meta (env : Env) (t : Tile) (l : Layer) (r n : Option ℚ) (z : Bool) : (getLayer env t l r n z).1.toMeta = t.toMeta := by
  unfold getLayer
  simp only
  split
  · rfl
  · split
    · rfl
    · rfl
    · split
      · rcases leftBehind_cases t l _ with e | ⟨c, ls, a, b, hls, e⟩ <;> rw [e]
        rfl
      · rename_i u hu
        split
        · exact ensureLayer_meta hu
        · exact ensureLayer_meta hu

/-- the folder still holds the tile after a query -/
theorem Holds.query {env : Env} {t u : Tile} {f : TileFolder} (h : Holds t f) (hq : Queried.queried env t u) : Holds u f := by
  rcases hq with ⟨l, r, n, z, rfl⟩ | hr
  · obtain ⟨h1, h2, h3⟩ := getLayer_core env t l r n z
    obtain ⟨h4, h5⟩ := getLayer_same env t l r n z
    refine ⟨?_, ?_, h.grid.of_core h3 h1 h2, ?_⟩
    · rw [getLayer_meta]; exact h.info
    · unfold HoldsData; rw [h4.1]; exact h.data
    · intro r' hr'
      rw [h5]
      exact h.indices r' (by rw [mem_cells, h3] at hr'; rw [mem_cells]; exact hr')
  · have hk : ∀ r, r ∈ u.cells.keys ↔ r ∈ t.cells.keys := fun r => by rw [mem_cells, mem_cells, reread_coreAt hr]
    refine ⟨?_, ?_, ⟨fun r l => ?_, fun r hr' => ?_, fun r hr' => ?_⟩, fun r hr' => ?_⟩
    · rw [hr.info]; exact h.info
    · unfold HoldsData; rw [hr.data]; exact h.data
    · rw [h.grid.layers]
      by_cases hl : l ∈ savedLayers
      · rw [if_pos hl, if_pos hl]
        have hcore : l.isCore = true := by rw [← isCore_saved]; simpa using hl
        have e : ∀ v : Tile, (v.cells.get? r).bind (·.get? l) = (v.coreAt r).bind (·.get? l) := by
          intro v
          unfold coreAt
          cases v.cells.get? r with
          | none => rfl
          | some ls => simp only [Option.bind_some, Option.map_some, core_get? ls hcore]
        rw [e, e, reread_coreAt hr]
      · rw [if_neg hl, if_neg hl]
    · rw [h.grid.edgesX r ((hk r).1 hr'), hr.edgesX r ((hk r).1 hr')]
    · rw [h.grid.edgesY r ((hk r).1 hr'), hr.edgesY r ((hk r).1 hr')]
    · rw [h.indices r ((hk r).1 hr'), hr.idx r ((hk r).1 hr')]

end Tile

namespace Grid
variable {τ φ : Type} {D : τ → φ → Prop} {G : φ → Prop}

/-- queries do not make the folder wrong -/
def StableQ [Queried τ] (env : Env) (D : τ → φ → Prop) : Prop := ∀ (t u : τ) (f : φ), D t f → Queried.queried env t u → D u f

theorem TSync.query [Queried τ] {env : Env} (hQ : StableQ env D) {g u : Grid τ} {R : Root φ} (h : TSync D G g R) (hq : Queried.queried env g u) : TSync D G u R := by
  rcases hq with ⟨k, t, v, hk, hq, rfl⟩ | ⟨-, -, rfl⟩
  · constructor
    · rintro t' p ⟨j, hj, hp⟩
      rw [setTile_origin] at hp
      by_cases hjk : j = k
      · subst hjk
        rw [tile_setTile g hk (some v)] at hj
        cases hj
        obtain ⟨f, hf, hd⟩ := h.has t p ⟨j, hk, hp⟩
        exact ⟨f, hf, hQ _ _ _ hd hq⟩
      · rw [tile_setTile_ne g hjk] at hj
        exact h.has t' p ⟨j, hj, hp⟩
    · intro p f hf hno
      refine h.rest p f hf ?_
      rintro t' ⟨j, hj, hp⟩
      by_cases hjk : j = k
      · subst hjk
        exact hno v ⟨j, tile_setTile g hk (some v), by rw [setTile_origin]; exact hp⟩
      · exact hno t' ⟨j, by rw [tile_setTile_ne g hjk]; exact hj, by rw [setTile_origin]; exact hp⟩
  · exact h.congr (has_congr rfl rfl rfl) (fun _ => rfl)

theorem Synced.query [Queried τ] {env : Env} (hQ : StableQ env D) {exact : Bool} {g u : Grid τ} {R : Root φ} (h : Synced D G exact g R) (hq : Queried.queried env g u) :
    Synced D G exact u R := by
  obtain ⟨F, h1, h2, h3⟩ := h
  refine ⟨F, h1, ?_, h3.query hQ hq⟩
  rcases hq with ⟨k, t, v, hk, hq, rfl⟩ | ⟨hm, -, rfl⟩
  · have : ∀ m : Option (Arr2 (Option τ)), HeaderOk exact { g with tiles := m } F := fun m => ⟨h2.info, h2.txs, h2.tys, h2.edgesX, h2.edgesY, h2.mask⟩
    unfold setTile
    cases ht : g.tiles with
    | none => exact h2
    | some T => exact this _
  · refine ⟨h2.info, h2.txs, h2.tys, h2.edgesX, h2.edgesY, ?_⟩
    have := h2.mask
    rw [hm] at this
    exact this

theorem stableQ_sub [Queried τ] {env : Env} (hQ : StableQ env D) {exact : Bool} : StableQ env (fun g F => Synced D G exact g (some F)) :=
  fun _ _ _ h hq => Synced.query hQ h hq

variable [DiskLike τ φ] [Queried τ] [LawfulGrid τ] [LawfulQuery τ] {size sub : ℚ} {bs : Bool} {fl : Fields}

omit [DiskLike τ φ] [LawfulQuery τ] [Queried τ] in
theorem grid_nonempty {τ : Type} [GridLike τ] [LawfulGrid τ] {C : ChildSpec τ size sub bs fl} {env : Env} {g : Grid τ} {A : Store} (hi : GrowInv C g A) {a : GridCall}
    {dask : Option Nat} (hok : (g.gridWith env a dask).err = none) : A ≠ [] := by
  rintro rfl
  rcases hi.body with ⟨-, e, -⟩ | ⟨e, -⟩
  · have he : g.isEmpty = true := by unfold isEmpty; rw [e]
    rcases gridPlan_spec env g a with ⟨gr, -, h2, -⟩ | ⟨al, gr, gp, e, h⟩
    · rw [he] at h2; cases h2
    · cases dask with
      | none =>
        unfold gridWith grid at hok
        simp only [h, Res.andThen] at hok
        cases hok
      | some n =>
        unfold gridWith gridDask at hok
        simp only [h, Res.andThen] at hok
        cases hok
  · exact e rfl

/-- the folder of a grid: not there yet, or it holds the grid -/
def InStep (D : τ → φ → Prop) (G : φ → Prop) (exact : Bool) (g : Grid τ) (d : Disk (Root φ)) (A : Store) : Prop := (d.now = none ∧ A = []) ∨ Synced D G exact g d.now

omit [LawfulGrid τ] [LawfulQuery τ] [Queried τ] in
theorem inStep_tsync {C : ChildSpec τ size sub bs fl} {exact : Bool} {g : Grid τ} {d : Disk (Root φ)} {A : Store} (hi : GrowInv C g A) (h : InStep D G exact g d A) : TSync D G g d.now := by
  rcases h with ⟨h1, h2⟩ | ⟨-, -, -, h⟩
  · rw [h1]
    refine ⟨fun t p ht => ?_, fun p f hf => by cases hf⟩
    rcases hi.body with ⟨-, e, -⟩ | ⟨e, -⟩
    · exact absurd ht (isEmpty_has (by unfold isEmpty; rw [e]) t p)
    · exact absurd h2 e
  · exact h

omit [LawfulQuery τ] in
/-- `add_points` -/
theorem disk_add {env : Env} {C : Family → ChildSpec τ size sub bs fl} (hC : Closed env C) (S : DiskSpec env C D G) (hs : 0 < size) {g0 : Grid τ}
    (h0 : ∀ F, GrowInv (C F) g0 []) (h0m : g0.mask = none) (b : Backend) {F : Family} {s exact : Bool} {g : Grid τ} {d : Disk (Root φ)} {A : Store}
    (h : GridHistory env g0 fl F s g A) (hd : InStep D G exact g d A) {pts : List Pt} {c : String} {a : AddArgs} (hok : (g.addPoints ⟨fl, pts⟩ c a).err = none) :
    ∃ d', addPointsD b ⟨fl, pts⟩ c a (g, d) = .ok ((g.addPoints ⟨fl, pts⟩ c a).st, d') ∧ Synced D G false (g.addPoints ⟨fl, pts⟩ c a).st d'.now := by
  have hi := (history_inv hC hs h0 h0m h).1
  have hp : pts ≠ [] := by
    rintro rfl
    exact addPoints_nil hi c a fl hok
  have hc : c ∉ A.names := by
    intro hc
    have : g.info.container.has c = true := by rw [Dict.has_iff, hi.cont]; exact hc
    unfold addPoints at hok
    rw [this] at hok
    simp at hok
  have hm : (g.info.update c a).err = none := by
    rcases Option.eq_none_or_eq_some (g.info.update c a).err with hm | ⟨e, hm⟩
    · exact hm
    · exfalso
      unfold addPoints at hok
      simp only [hm] at hok
      split at hok
      · simp at hok
      · simp at hok
  have hmask := history_mask hC hs h0 h0m (h.add pts c a hok)
  obtain ⟨u, hu, -, -, -, -, i, j, nx, ny, T, -, -, -, g2, hpl, hg2⟩ := addPoints_placed (C F) hs hi hc hp hm
  rw [hu] at hmask ⊢
  exact addPointsD_spec S b F hs hm (by rw [hi.cont]; exact hc) hc hu hpl (by rw [hg2]; exact hmask) d (inStep_tsync hi hd)

omit [LawfulQuery τ] in
/-- `remove_points` -/
theorem disk_remove {env : Env} {C : Family → ChildSpec τ size sub bs fl} (hC : Closed env C) (S : DiskSpec env C D G) (hs : 0 < size) {g0 : Grid τ}
    (h0 : ∀ F, GrowInv (C F) g0 []) (h0m : g0.mask = none) (b : Backend) {F : Family} {s exact : Bool} {g : Grid τ} {d : Disk (Root φ)} {A : Store}
    (h : GridHistory env g0 fl F s g A) (hd : InStep D G exact g d A) {c : String} (hok : (g.removePoints c).err = none) :
    ∃ d', removePointsD b c (g, d) = .ok ((g.removePoints c).st, d') ∧ InStep D G (exact || decide (c ∈ A.names)) (g.removePoints c).st d' (A.remove c) := by
  have hi := (history_inv hC hs h0 h0m h).1
  have hmask := history_mask hC hs h0 h0m (h.remove c hok)
  by_cases hc : c ∈ A.names
  · rcases hd with ⟨-, e⟩ | hd
    · rw [e] at hc; simp [Store.names] at hc
    · have hA : A ≠ [] := by rintro rfl; simp [Store.names] at hc
      rcases hi.body with ⟨e, -⟩ | ⟨-, i, j, nx, ny, T, hf, -⟩
      · exact absurd e hA
      · obtain ⟨u, hu, -⟩ := removePoints_grow (C F) hs hi c (Or.inr hok)
        rw [hu] at hmask ⊢
        obtain ⟨d', e1, e2⟩ := removePointsD_spec S b F hs hf.toReady hu hmask d hd
        have hh : g.info.container.has c = true := by rw [Dict.has_iff, hi.cont]; exact hc
        refine ⟨d', e1, Or.inr ?_⟩
        simpa [hc, hh] using e2
  · have h1 : removePoints g c = .ok g := removePoints_unknown (by rw [hi.cont]; exact hc)
    have h2 : removePointsD b c (g, d) = .ok (g, d) := by
      have hh : g.info.container.has c = false := by
        rw [← Bool.not_eq_true, Dict.has_iff, hi.cont]; exact hc
      unfold removePointsD
      simp [hh]
    rw [h1, h2]
    refine ⟨d, rfl, ?_⟩
    rw [Store.remove_of_not_mem _ _ hc]
    simpa [hc] using hd

/-- `grid` -/
theorem disk_grid {env : Env} {C : Family → ChildSpec τ size sub bs fl} (hC : Closed env C) (S : DiskSpec env C D G) (hs : 0 < size) {g0 : Grid τ}
    (h0 : ∀ F, GrowInv (C F) g0 []) (h0m : g0.mask = none) (b : Backend) {F F' : Family} {s exact : Bool} {g : Grid τ} {d : Disk (Root φ)} {A : Store}
    (h : GridHistory env g0 fl F s g A) (hd : InStep D G exact g d A) {a : GridCall} (ha : a.alg.family = some F') (hF : F' = F ∨ a.clear = true)
    {dask : Option Nat} (hok : (g.gridWith env a dask).err = none) :
    ∃ v d', gridWithD env b a dask (g, d) = .ok (v, d') ∧ Requeried env (g.gridWith env a dask).st v ∧ Synced D G true v d'.now := by
  have hi := (history_inv hC hs h0 h0m h).1
  have hA : A ≠ [] := grid_nonempty hi hok
  rcases hi.body with ⟨e, -⟩ | ⟨-, i, j, nx, ny, T, hf, -⟩
  · exact absurd e hA
  · obtain ⟨-, h2⟩ := gridWithD_spec S b hs hf.toReady (history_mask hC hs h0 h0m h) a ha hF dask d (inStep_tsync hi hd)
    obtain ⟨v, d', e1, e2, -, e4⟩ := h2 hok
    exact ⟨v, d', e1, e2, e4⟩

theorem disk_grid_err {env : Env} {C : Family → ChildSpec τ size sub bs fl} (hC : Closed env C) (S : DiskSpec env C D G) (hs : 0 < size) {g0 : Grid τ}
    (h0 : ∀ F, GrowInv (C F) g0 []) (h0m : g0.mask = none) (b : Backend) {F F' : Family} {s exact : Bool} {g : Grid τ} {d : Disk (Root φ)} {A : Store}
    (h : GridHistory env g0 fl F s g A) (hd : InStep D G exact g d A) {a : GridCall} (ha : a.alg.family = some F') (hF : F' = F ∨ a.clear = true)
    (dask : Option Nat) : (gridWithD env b a dask (g, d)).err = (g.gridWith env a dask).err := by
  have hi := (history_inv hC hs h0 h0m h).1
  rcases hi.body with ⟨-, e, -⟩ | ⟨-, i, j, nx, ny, T, hf, -⟩
  · have he : g.isEmpty = true := by unfold isEmpty; rw [e]
    rcases gridPlan_spec env g a with ⟨gr, -, h2, -⟩ | ⟨al, gr, gp, e, h⟩
    · rw [he] at h2; cases h2
    · cases dask with
      | none =>
        unfold gridWith gridWithD grid gridRunD inMemory
        simp only [h, Res.andThen]
        rfl
      | some n =>
        unfold gridWith gridWithD gridDask inMemory
        simp only [h, Res.andThen]
        rfl
  · exact (gridWithD_spec S b hs hf.toReady (history_mask hC hs h0 h0m h) a ha hF dask d (inStep_tsync hi hd)).1

/-- A grid with an output folder does the same as in memory, and the folder holds the grid. -/
theorem disk_inv [Overwrites τ φ] {env : Env} {C : Family → ChildSpec τ size sub bs fl} (hC : Closed env C) (S : DiskSpec env C D G) (hQ : StableQ env D) (hs : 0 < size) {g0 : Grid τ}
    (h0 : ∀ F, GrowInv (C F) g0 []) (h0m : g0.mask = none) {b : Backend}
    (hV : ∀ {F : Family} {s : Bool} {g : Grid τ} {A : Store}, GridHistory env g0 fl F s g A → A ≠ [] → ∀ d : Disk (Root φ), g.Overwritten d.now → Synced D G true g (saveAllD b g d).st.now)
    (hW : ∀ {F : Family} {s : Bool} {g : Grid τ} {A : Store}, GridHistory env g0 fl F s g A → A ≠ [] → ∀ d : Disk (Root φ), TSync D G g d.now → Synced D G true g (saveAllD b g d).st.now)
    {F : Family} {s exact : Bool} {g : Grid τ} {d : Disk (Root φ)} {A : Store}
    (h : DiskHistory env b g0 fl F s exact g d A) : GridHistory env g0 fl F s g A ∧ InStep D G exact g d A := by
  induction h with
  | new F d hd => exact ⟨.new F, Or.inl ⟨hd, rfl⟩⟩
  | save h hA d hd => exact ⟨h, Or.inr (hV h hA d hd)⟩
  | resave h hA ih => exact ⟨ih.1, Or.inr (hW ih.1 hA _ (inStep_tsync (history_inv hC hs h0 h0m ih.1).1 ih.2))⟩
  | @add F s exact g d A h pts c a hok ih =>
    obtain ⟨d', e1, e2⟩ := disk_add hC S hs h0 h0m b ih.1 ih.2 hok
    rw [e1]
    exact ⟨ih.1.add pts c a hok, Or.inr e2⟩
  | @remove F s exact g d A h c hok ih =>
    obtain ⟨d', e1, e2⟩ := disk_remove hC S hs h0 h0m b ih.1 ih.2 hok
    rw [e1]
    exact ⟨ih.1.remove c hok, e2⟩
  | @grid F s exact g d A h a ha dask hok ih =>
    obtain ⟨v, d', e1, e2, e3⟩ := disk_grid hC S hs h0 h0m b ih.1 ih.2 ha (Or.inl rfl) hok
    rw [e1]
    exact ⟨history_requeried (ih.1.grid a ha dask) e2, Or.inr e3⟩
  | @switch F F' s exact g d A h a ha hc dask hok ih =>
    obtain ⟨v, d', e1, e2, e3⟩ := disk_grid hC S hs h0 h0m b ih.1 ih.2 ha (Or.inr hc) hok
    rw [e1]
    exact ⟨history_requeried (ih.1.switch a ha hc dask hok) e2, Or.inr e3⟩
  | query h hq ih => exact ⟨ih.1.query hq, ih.2.imp id (fun h => h.query hQ hq)⟩

omit [LawfulGrid τ] [LawfulQuery τ] [Queried τ] in
/-- what the folder holds, in terms of loading -/
theorem synced_holds [Reloads τ] {P : τ → Prop} (V : SaveSpec τ φ P) {exact : Bool} (hD : ∀ t f, P t → D t f → V.Holds exact t f) {g : Grid τ} (hG : ∀ f, G f → exact = false ∧ V.Gone g.tileSize f)
    (hg : Storable P g) {F : GridFolder φ} (h : Synced D G exact g (some F)) : GHolds V exact g F := by
  obtain ⟨F', h1, h2, h3⟩ := h
  cases h1
  obtain ⟨T, hT⟩ := hg.shape
  have hlt : ∀ k o, g.tile? k = some o → k < T.flat.length := by
    intro k o hk
    unfold tile? at hk
    rw [hT.tiles] at hk
    exact (List.getElem?_eq_some_iff.1 hk).1
  refine ⟨h2, fun k t p hk hp => ?_, fun k p hk hp => ?_⟩
  · obtain ⟨f, hf, hd⟩ := h3.has t p ⟨k, hk, hp⟩
    exact ⟨f, hf, hD t f (hg.tile k t hk) hd⟩
  · cases hf : F.tiles.get? p with
    | none => exact Or.inl rfl
    | some f =>
      obtain ⟨e1, e2⟩ := hG f (h3.rest p f hf (by
        rintro t ⟨j, hj, hjp⟩
        have := hT.inj j k p (hlt j _ hj) (hlt k _ hk) hjp hp
        rw [this, hk] at hj
        cases hj))
      exact Or.inr ⟨e1, f, rfl, e2⟩

end Grid

/-! ### single and variable resolution grids -/

abbrev SRSynced (exact : Bool) (g : Grid Tile) (R : Grid.Root TileFolder) : Prop := Grid.Synced Tile.Holds (fun _ => False) exact g R

abbrev SubHolds (g : Grid Tile) (F : GridFolder TileFolder) : Prop := SRSynced false g (some F)

theorem tile_stable (env : Env) : Grid.StableQ env Tile.Holds := fun _ _ _ h hq => h.query hq

theorem sr_disk {env : Env} {b : Backend} {size : ℚ} {bs : Bool} {fl : Fields} (hs : 0 < size) {F : Family} {s exact : Bool} {g : Grid Tile} {d : Disk (Grid.Root TileFolder)} {A : Store}
    (h : SRDisk env b size bs fl F s exact g d A) : SRHistory env size bs fl F s g A ∧ Grid.InStep Tile.Holds (fun _ => False) exact g d A :=
  Grid.disk_inv (closed_tile env hs) (tileDisk env size 0 bs fl hs) (tile_stable env) hs (fun _ => Grid.growInv_blank _ _) rfl
    (fun h hA d hd => (Grid.tile_over b (sr_storable hs h hA) d hd).2) (fun h hA d hd => (Grid.tile_resave b (sr_storable hs h hA) d hd).2) h

theorem vr_disk {env : Env} {b : Backend} {size sub : ℚ} {bs : Bool} {fl : Fields} (hs : 0 < size) (hpow : isPowerOfTwo sub = true) {F : Family} {s exact : Bool} {g : Grid (Grid Tile)}
    {d : Disk (Grid.Root (GridFolder TileFolder))} {A : Store} (h : VRDisk env b size sub bs fl F s exact g d A) :
    VRHistory env size sub bs fl F s g A ∧ Grid.InStep SubHolds (Grid.Leftover size) exact g d A :=
  Grid.disk_inv (Grid.closed_sub (closed_tile env (isPowerOfTwo_pos hpow)) hs hpow)
    (Grid.subDisk (tileDisk env sub 0 false fl (isPowerOfTwo_pos hpow)) hs hpow) (Grid.stableQ_sub (tile_stable env)) hs (fun _ => Grid.growInv_blank _ _) rfl
    (fun h hA d hd => (Grid.sub_over _ b (vr_storable hs hpow h hA) d hd).2) (fun h hA d hd => (Grid.sub_resave _ b (vr_storable hs hpow h hA) d hd).2) h

end Bathy
