import Verif.Lemmas.StoreGrid

/-!
# Saving and loading reachable grids
-/

namespace Bathy

/-! ### tiles that were queried, written or read any number of times -/

/-- any number of queries, writes and reads -/
def Requeried {τ : Type} [Queried τ] (env : Env) : τ → τ → Prop := Relation.ReflTransGen (Queried.queried env)

namespace Grid
variable {τ : Type}

theorem setTile_setTile (g : Grid τ) (k : Nat) (o o' : Option τ) : (g.setTile k o).setTile k o' = g.setTile k o' := by
  unfold setTile
  rcases Option.eq_none_or_eq_some g.tiles with ht | ⟨T, ht⟩
  · rw [ht]; simp only [ht]
  · rw [ht]; simp [Arr2.setFlat]

theorem tile_setTile (g : Grid τ) {k : Nat} {o : Option τ} (h : g.tile? k = some o) (o' : Option τ) : (g.setTile k o').tile? k = some o' := by
  unfold tile? at h
  unfold setTile
  rcases Option.eq_none_or_eq_some g.tiles with ht | ⟨T, ht⟩
  · rw [ht] at h; cases h
  · rw [ht] at h
    simp only [Option.bind_some] at h
    rw [ht]
    simp only [tile?, Option.bind_some, Arr2.setFlat]
    rw [List.getElem?_set_self (List.getElem?_eq_some_iff.1 h).1]

theorem setTile_self {g : Grid τ} {k : Nat} {o : Option τ} (h : g.tile? k = some o) : g.setTile k o = g := by
  unfold tile? at h
  unfold setTile
  rcases Option.eq_none_or_eq_some g.tiles with ht | ⟨T, ht⟩
  · rw [ht]
  · rw [ht] at h
    rw [ht]
    simp only
    have : T.setFlat k o = T := by
      unfold Arr2.setFlat
      have : T.flat.set k o = T.flat := by
        apply List.ext_getElem?
        intro j
        by_cases hj : k = j
        · subst hj; rw [List.getElem?_set_self (List.getElem?_eq_some_iff.1 h).1]; exact h.symm
        · rw [List.getElem?_set_ne hj]
      rw [this]
    rw [this, ← ht]

variable [Queried τ]

theorem requeried_setTile {env : Env} {g : Grid τ} {k : Nat} {t u : τ} (hk : g.tile? k = some (some t)) (h : Requeried env t u) :
    Requeried env g (g.setTile k (some u)) := by
  unfold Requeried at h
  induction h with
  | refl => rw [setTile_self hk]; exact Relation.ReflTransGen.refl
  | @tail v w _ hq ih =>
    refine ih.tail ?_
    exact Or.inl ⟨k, v, w, tile_setTile g hk (some v), hq, by rw [setTile_setTile]⟩

/-- slot by slot the tiles were queried, written or read -/
def SlotsQueried (env : Env) (T T' : Arr2 (Option τ)) : Prop :=
  T'.dims = T.dims ∧ ∀ k : Nat, (T.flat[k]? = some none → T'.flat[k]? = some none) ∧
    ∀ t, T.flat[k]? = some (some t) → ∃ v, T'.flat[k]? = some (some v) ∧ Requeried env t v

theorem requeried_tiles {env : Env} {g : Grid τ} {T T' : Arr2 (Option τ)} (hg : g.tiles = some T) (h : SlotsQueried env T T') :
    Requeried env g { g with tiles := some T' } := by
  obtain ⟨hd, hsl⟩ := h
  simp only [Arr2.dims, Prod.mk.injEq] at hd
  obtain ⟨hr, hc, hl⟩ := hd
  have main : ∀ m, m ≤ T.flat.length → Requeried env g { g with tiles := some ⟨T.rows, T.cols, T'.flat.take m ++ T.flat.drop m⟩ } := by
    intro m
    induction m with
    | zero =>
      intro _
      have : ({ g with tiles := some ⟨T.rows, T.cols, T'.flat.take 0 ++ T.flat.drop 0⟩ } : Grid τ) = g := by
        rw [List.take_zero, List.drop_zero, List.nil_append, ← hg]
      rw [this]
      exact Relation.ReflTransGen.refl
    | succ m ih =>
      intro hm
      have hm1 : m < T.flat.length := by omega
      have hm2 : m < T'.flat.length := by omega
      have htile : ({ g with tiles := some ⟨T.rows, T.cols, T'.flat.take m ++ T.flat.drop m⟩ } : Grid τ).tile? m = T.flat[m]? := by
        simp only [tile?, Option.bind_some]
        rw [List.getElem?_append_right (by simp)]
        simp only [List.length_take, List.getElem?_drop]
        congr 1
        omega
      have hnext : ∀ o, T'.flat[m]? = some o → (T'.flat.take m ++ T.flat.drop m).set m o = T'.flat.take (m + 1) ++ T.flat.drop (m + 1) := by
        intro o ho
        have hlt : (List.take m T'.flat).length = m := by simp; omega
        rw [List.set_append_right _ _ (by omega), hlt, Nat.sub_self]
        rw [List.take_add_one, ho, List.drop_eq_getElem_cons hm1]
        simp only [Option.toList_some, List.set_cons_zero, List.append_assoc, List.singleton_append]
      have ih' := ih (by omega)
      cases ho : T.flat[m]? with
      | none => rw [List.getElem?_eq_getElem hm1] at ho; cases ho
      | some o =>
        cases o with
        | none =>
          have h1 := (hsl m).1 ho
          rw [← hnext _ h1]
          have h2 := setTile_self (htile.trans ho)
          unfold setTile at h2
          simp only [Arr2.setFlat] at h2
          rw [h2]
          exact ih'
        | some t =>
          obtain ⟨v, hv, hq⟩ := (hsl m).2 t ho
          have := requeried_setTile (htile.trans ho) hq
          unfold setTile at this
          simp only [Arr2.setFlat] at this
          rw [hnext _ hv] at this
          exact Relation.ReflTransGen.trans ih' this
  have h1 := main T.flat.length (le_refl _)
  have h2 : (⟨T.rows, T.cols, T'.flat.take T.flat.length ++ T.flat.drop T.flat.length⟩ : Arr2 (Option τ)) = T' := by
    rw [List.drop_length, List.append_nil, ← hl, List.take_length, ← hr, ← hc]
  rw [h2] at h1
  exact h1

/-- a grid that was read from disk -/
theorem requeried_reloaded {env : Env} [Reloads τ] {g u : Grid τ}
    (hC : ∀ k t v, g.tile? k = some (some t) → Reloads.reloaded true t v → Requeried env t v) (h : Reloaded true g u) (ht : g.tiles ≠ none) : Requeried env g u := by
  obtain ⟨T, hT⟩ := Option.ne_none_iff_exists'.1 ht
  have hsh := h.shape
  rw [hT, Option.map_some] at hsh
  obtain ⟨T', hT'⟩ : ∃ T', u.tiles = some T' := by
    rcases Option.eq_none_or_eq_some u.tiles with e | e
    · rw [e] at hsh; cases hsh
    · exact e
  rw [hT', Option.map_some, Option.some.injEq] at hsh
  have hgt : ∀ k : Nat, g.tile? k = T.flat[k]? := fun k => by unfold tile?; rw [hT]; rfl
  have hut : ∀ k : Nat, u.tile? k = T'.flat[k]? := fun k => by unfold tile?; rw [hT']; rfl
  have hsq : SlotsQueried env T T' := by
    refine ⟨hsh, fun k => ⟨fun hk => ?_, fun t hk => ?_⟩⟩
    · rcases h.missing k (by rw [hgt, hk]) with h1 | ⟨h1, -⟩
      · rw [← hut, h1]
      · cases h1
    · obtain ⟨v, h1, h2⟩ := h.tiles k t (by rw [hgt, hk])
      exact ⟨v, by rw [← hut, h1], hC k t v (by rw [hgt, hk]) h2⟩
  have h1 := requeried_tiles hT hsq
  obtain ⟨hn, hmd⟩ := h.numbers rfl
  have ha := h.attrs
  rw [hn, hmd, hT'] at ha
  rw [ha]
  rcases Option.eq_none_or_eq_some g.mask with hm | ⟨m, hm⟩
  · have : maskOnDisk g.mask = ⟨0, 0, []⟩ := by rw [hm]; rfl
    rw [this]
    exact h1.tail (Or.inr ⟨hm, by simp, rfl⟩)
  · have : some (maskOnDisk g.mask) = g.mask := by rw [hm]; rfl
    rw [this]
    exact h1

end Grid

/-- queries, writes and reads lead to reachable states -/
theorem history_requeried {τ : Type} [GridLike τ] [Queried τ] {env : Env} {g0 : Grid τ} {fl : Fields} {F : Family} {s : Bool} {g u : Grid τ} {A : Store}
    (h : GridHistory env g0 fl F s g A) (hq : Requeried env g u) : GridHistory env g0 fl F s u A := by
  unfold Requeried at hq
  induction hq with
  | refl => exact h
  | tail _ hq ih => exact ih.query hq

/-! ### tiles and subgrids can be saved -/

/-- tiles -/
def tileSave : SaveSpec Tile TileFolder Tile.Saveable where
  Holds := fun _ => Tile.Holds
  Gone := fun _ _ => False
  pre := fun _ => True
  save := by
    intro b t d h
    obtain ⟨f, h1, h2, h3⟩ := Tile.saveTile_holds b h .all d (fun e => by cases e) (fun e => by cases e)
    exact ⟨f, h1, h2, h3⟩
  clear := fun _ _ _ => ⟨rfl, rfl⟩
  load := fun h hf => Tile.load_reread h hf
  gone := fun h => h.elim
  absent := rfl

namespace Grid
variable {τ φ : Type} [DiskLike τ φ] [Reloads τ] {P : τ → Prop}

/-- a folder without tiles, with the header of a grid of the given width and height -/
structure HeaderOnly (w h : Option ℚ) (F : GridFolder φ) : Prop where
  info : ∃ i, F.info = .full i ∧ i.width = w ∧ i.height = h
  txs : ∃ a, F.txs = some a
  tys : ∃ a, F.tys = some a
  edgesX : ∃ a, F.edgesX = some a
  edgesY : ∃ a, F.edgesY = some a
  mask : ∃ a, F.mask = some a
  tiles : ∀ p, F.tiles.get? p = none

/-- the folder of a subgrid without tiles -/
abbrev Leftover (w : ℚ) (F : GridFolder φ) : Prop := HeaderOnly (some w) (some w) F

omit [Reloads τ] in
theorem load_leftover (hl : DiskLike.load (τ := τ) (none : Option φ) = .ok none) {w w' : Option ℚ} {F : GridFolder φ} (h : HeaderOnly w w' F) :
    ∃ u : Grid τ, loadD (some F) = .ok u ∧ u.isEmpty = true ∧ (∃ T, u.tiles = some T) ∧ u.width = some (w.getD 0) ∧ u.height = some (w'.getD 0) := by
  obtain ⟨hd, h1, hw, hh⟩ := h.info
  obtain ⟨xs, h2⟩ := h.txs
  obtain ⟨ys, h3⟩ := h.tys
  obtain ⟨ex, h4⟩ := h.edgesX
  obtain ⟨ey, h5⟩ := h.edgesY
  obtain ⟨m, h6⟩ := h.mask
  generalize hg0 : (ofHeader hd xs.value ys.value ex.value ey.value m.value : Grid τ) = g0
  have hload : (loadHeader F : Except Err (Grid τ)) = .ok g0 := by
    unfold loadHeader
    simp only [h1, h2, h3, h4, h5, h6, readArr, bind, Except.bind, pure, Except.pure, hg0]
  have htx : g0.txs = xs.value := by rw [← hg0]; rfl
  have hty : g0.tys = ys.value := by rw [← hg0]; rfl
  have hti : g0.tiles = some (Arr2.fill ys.value.length xs.value.length none) := by rw [← hg0]; rfl
  have hlen : (Arr2.fill ys.value.length xs.value.length (none : Option τ)).flat.length = ys.value.length * xs.value.length := by simp [Arr2.fill]
  obtain ⟨T', e1, e2, e3⟩ := loadLoop_spec (F := F) (g0 := g0) (n := ys.value.length * xs.value.length) (Arr2.fill ys.value.length xs.value.length none) hlen (fun _ => none)
    (by
      intro k hk
      have a1 : k % xs.value.length < xs.value.length := Arr2.mod_lt_cols hk
      have a2 : k / xs.value.length < ys.value.length := Arr2.div_lt_rows hk
      refine ⟨(xs.value[k % xs.value.length], ys.value[k / xs.value.length]), ?_, by rw [h.tiles]; exact hl⟩
      unfold tileOrigin
      simp only [htx, hty, List.getElem?_eq_getElem a1, List.getElem?_eq_getElem a2]) _ (le_refl _)
  refine ⟨{ g0 with tiles := some T' }, ?_, ?_, ⟨T', rfl⟩, by rw [← hg0]; simp [ofHeader, hw], by rw [← hg0]; simp [ofHeader, hh]⟩
  · unfold loadD
    simp only [hload]
    have hb : ∀ (x : Grid τ) (f : Grid τ → Except Err (Grid τ)), Except.bind (.ok x) f = f x := fun _ _ => rfl
    rw [hb]
    have hs : g0.slots = ys.value.length * xs.value.length := by unfold slots; rw [hti]; exact hlen
    rw [hs]
    have hself : ({ g0 with tiles := some (Arr2.fill ys.value.length xs.value.length none) } : Grid τ) = g0 := by rw [← hti]
    rw [hself] at e1
    exact e1
  · unfold isEmpty
    have hany : T'.flat.any Option.isSome = false := by
      rw [List.any_eq_false]
      intro o ho
      obtain ⟨k, hk⟩ := List.mem_iff_getElem?.1 ho
      rw [e3] at hk
      split at hk
      · cases hk; simp
      · rw [List.getElem?_eq_none (by omega)] at hk; cases hk
    simp only [hany, Bool.not_false]

/-- subgrids -/
def subSave (S : SaveSpec τ φ P) (hpre : ∀ o, S.pre o) : SaveSpec (Grid τ) (GridFolder φ) (Storable P) where
  Holds := GHolds S
  Gone := Leftover
  pre := fun o => o = none
  save := by
    intro b g d h
    exact saveAll_holds S b h d (fun _ _ _ _ => hpre _)
  clear := fun _ d h => ⟨rfl, h⟩
  load := by
    intro exact g F h hF
    obtain ⟨u, h1, h2⟩ := load_holds S h hF
    refine ⟨u, ?_, h2⟩
    show (Grid.loadD (some F)).map some = _
    rw [h1]; rfl
  gone := by
    intro w F h
    obtain ⟨u, h1, h2⟩ := load_leftover S.absent h
    refine ⟨u, ?_, ⟨h2.1, h2.2.1, h2.2.2.1, h2.2.2.2⟩⟩
    show (Grid.loadD (some F)).map some = _
    rw [h1]; rfl
  absent := rfl

omit [DiskLike τ φ] [Reloads τ] in
/-- a grid with tiles can be saved -/
theorem storable_frame {τ : Type} [TileLike τ] {P : τ → Prop} {size sub : ℚ} {bs : Bool} {fl : Fields} {C : ChildSpec τ size sub bs fl} (hs : 0 < size)
    (hP : ∀ {x y : ℚ} {t : τ} {A : Store}, C.Rep x y t A → P t) {x0 y0 : ℚ} {nx ny : Nat} {T : Arr2 (Option τ)} {g : Grid τ} {A : Store}
    (h : Ready C x0 y0 nx ny T g A) {e : Extents} (he : g.extents = some e) (hm : MaskProper g.mask) : Storable P g := by
  obtain ⟨hw, hh⟩ := h.dims e he
  obtain ⟨h1, h2, h3, h4⟩ := h.rep
  refine ⟨⟨T, h.tiles, ?_, ?_, ?_, ?_, ?_⟩, ⟨e, he⟩, ⟨_, hw⟩, ⟨_, hh⟩, hm, ?_⟩
  · rw [h1, h.tys]; simp [originsOf]
  · rw [h2, h.txs]; simp [originsOf]
  · rw [h1, h2, h3]
  · intro k hk
    exact ⟨_, tileOrigin_eq h.txs h.tys (by rw [← h3]; exact hk)⟩
  · intro j k p hj hk ej ek
    rw [h3] at hj hk
    rw [tileOrigin_eq h.txs h.tys hj] at ej
    rw [tileOrigin_eq h.txs h.tys hk, ← ej] at ek
    simp only [Option.some.injEq, Prod.mk.injEq, slotX, slotY] at ek
    obtain ⟨ex, ey⟩ := ek
    have hne : size ≠ 0 := hs.ne'
    have hx : ((k % nx : Nat) : ℚ) = ((j % nx : Nat) : ℚ) := by
      have := add_left_cancel ex
      exact mul_right_cancel₀ hne this
    have hy : ((k / nx : Nat) : ℚ) = ((j / nx : Nat) : ℚ) := by
      have := add_left_cancel ey
      exact mul_right_cancel₀ hne this
    have hx' : k % nx = j % nx := by exact_mod_cast hx
    have hy' : k / nx = j / nx := by exact_mod_cast hy
    rw [← Nat.div_add_mod j nx, ← Nat.div_add_mod k nx, hx', hy']
  · intro k t hk
    unfold tile? at hk
    rw [h.tiles] at hk
    rcases h4 k _ hk with ⟨e1, -⟩ | ⟨t', e1, -, e2⟩
    · cases e1
    · cases e1; exact hP e2

end Grid

/-- reachable tiles can be saved -/
theorem tileSpec_saveable {env : Env} {F : Family} {size sub : ℚ} {bs : Bool} {fl : Fields} {hs : 0 < size} {x y : ℚ} {t : Tile} {A : Store}
    (h : (tileSpec env F size sub bs fl hs).Rep x y t A) : t.Saveable := by
  obtain ⟨h1, h2, h3⟩ := h
  exact history_saveable hs h1 (fun he => h2 (Store.nil_of_allPts h3 he))

/-- reachable subgrids can be saved -/
theorem subSpec_storable {env : Env} {F : Family} {size sub : ℚ} {bs : Bool} {fl : Fields} (hs : 0 < size) (hpow : isPowerOfTwo sub = true) {x y : ℚ} {g : Grid Tile} {A : Store}
    (h : (subSpec (bs := bs) (tileSpec env F sub 0 false fl (isPowerOfTwo_pos hpow)) hs hpow).Rep x y g A) : Grid.Storable Tile.Saveable g := by
  have h : Grid.SubInv _ size x y g A := h
  obtain ⟨T, hf⟩ := h.frame
  exact Grid.storable_frame (isPowerOfTwo_pos hpow) tileSpec_saveable hf.toReady h.extents (fun m hm _ => h.mask m hm)

theorem sr_storable {env : Env} {size : ℚ} {bs : Bool} {fl : Fields} (hs : 0 < size) {F : Family} {s : Bool} {g : Grid Tile} {A : Store}
    (h : SRHistory env size bs fl F s g A) (hA : A ≠ []) : Grid.Storable Tile.Saveable g := by
  have hinv := (sr_inv hs h).1
  rcases hinv.body with ⟨e, -⟩ | ⟨-, i, j, nx, ny, T, hf, he⟩
  · exact absurd e hA
  · exact Grid.storable_frame hs tileSpec_saveable hf.toReady he (sr_mask hs h)

theorem vr_storable {env : Env} {size sub : ℚ} {bs : Bool} {fl : Fields} (hs : 0 < size) (hpow : isPowerOfTwo sub = true) {F : Family} {s : Bool}
    {g : Grid (Grid Tile)} {A : Store} (h : VRHistory env size sub bs fl F s g A) (hA : A ≠ []) : Grid.Storable (Grid.Storable Tile.Saveable) g := by
  have hinv := (vr_inv hs hpow h).1
  rcases hinv.body with ⟨e, -⟩ | ⟨-, i, j, nx, ny, T, hf, he⟩
  · exact absurd e hA
  · exact Grid.storable_frame hs (subSpec_storable hs hpow) hf.toReady he (vr_mask hs hpow h)

theorem requeried_tile (env : Env) (t u : Tile) (h : Reloads.reloaded true t u) : Requeried env t u := Relation.ReflTransGen.single (Or.inr h)

/-! ### what is loaded does not depend on how it is stored -/

/-- all folders that hold the tile load to the same object -/
def SaveSpec.Unique {τ φ : Type} [DiskLike τ φ] [Reloads τ] {P : τ → Prop} (S : SaveSpec τ φ P) : Prop :=
  ∀ {t : τ} {f f' : φ}, P t → S.Holds true t f → S.Holds true t f' → DiskLike.load (τ := τ) (some f) = DiskLike.load (some f')

theorem tileSave_unique : tileSave.Unique := by
  intro t f f' hs h h'
  show Tile.loadTile none .all (some f) = Tile.loadTile none .all (some f')
  rw [Tile.loadTile_eq hs h, Tile.loadTile_eq hs h']
  have : Tile.foundResolutions f = Tile.foundResolutions f' := by
    unfold Tile.foundResolutions
    apply npUnique_congr
    intro x
    rw [← mem_npUnique, ← mem_npUnique x (f'.layers.keys.map Prod.fst)]
    exact (Tile.found_iff hs h.grid x).trans (Tile.found_iff hs h'.grid x).symm
  rw [this]

namespace Grid
variable {τ φ : Type} [DiskLike τ φ] [Reloads τ] {P : τ → Prop}

theorem load_unique {S : SaveSpec τ φ P} (hS : S.Unique) {g : Grid τ} (hg : Storable P g) {F F' : GridFolder φ} (h : GHolds S true g F) (h' : GHolds S true g F') :
    (loadD (some F) : Except Err (Grid τ)) = loadD (some F') := by
  obtain ⟨T, hT⟩ := hg.shape
  obtain ⟨n, md, hnum, hload⟩ := loadHeader_ok h.header hg.extents hg.width hg.height
  obtain ⟨n', md', hnum', hload'⟩ := loadHeader_ok h'.header hg.extents hg.width hg.height
  rw [(hnum rfl).1, (hnum rfl).2] at hload
  rw [(hnum' rfl).1, (hnum' rfl).2] at hload'
  have hslot : ∀ k, k < T.flat.length → ∃ x : Option τ, (∃ p, g.tileOrigin k = some p ∧ DiskLike.load (F.tiles.get? p) = .ok x) ∧
      (∃ p, g.tileOrigin k = some p ∧ DiskLike.load (F'.tiles.get? p) = .ok x) := by
    intro k hk
    obtain ⟨p, hp⟩ := hT.origin k hk
    obtain ⟨o, ho⟩ : ∃ o, T.flat[k]? = some o := ⟨_, List.getElem?_eq_getElem hk⟩
    have htile : g.tile? k = some o := by unfold tile?; rw [hT.tiles]; exact ho
    cases o with
    | some t =>
      obtain ⟨f, hf1, hf2⟩ := h.tiles k t p htile hp
      obtain ⟨f', hf1', hf2'⟩ := h'.tiles k t p htile hp
      obtain ⟨u, hu1, hu2⟩ := S.load (hg.tile k t htile) hf2
      exact ⟨some u, ⟨p, hp, by rw [hf1, hu1]⟩, p, hp, by rw [hf1', ← hS (hg.tile k t htile) hf2 hf2', hu1]⟩
    | none =>
      rcases h.missing k p htile hp with hf | ⟨he, -⟩
      · rcases h'.missing k p htile hp with hf' | ⟨he, -⟩
        · exact ⟨none, ⟨p, hp, by rw [hf, S.absent]⟩, p, hp, by rw [hf', S.absent]⟩
        · cases he
      · cases he
  have hx : ∃ x : Nat → Option τ, ∀ k, k < T.flat.length → (∃ p, g.tileOrigin k = some p ∧ DiskLike.load (F.tiles.get? p) = .ok (x k)) ∧
      (∃ p, g.tileOrigin k = some p ∧ DiskLike.load (F'.tiles.get? p) = .ok (x k)) := by
    refine ⟨fun k => if hk : k < T.flat.length then (hslot k hk).choose else none, fun k hk => ?_⟩
    simp only [dif_pos hk]
    exact (hslot k hk).choose_spec
  obtain ⟨x, hx⟩ := hx
  have hfl : (Arr2.fill g.tys.length g.txs.length (none : Option τ)).flat.length = T.flat.length := by
    rw [hT.length, hT.rows, hT.cols]; simp [Arr2.fill]
  obtain ⟨T1, a1, a2, a3⟩ := loadLoop_spec (F := F) (g0 := { g with mask := some (maskOnDisk g.mask) }) (n := T.flat.length)
    (Arr2.fill g.tys.length g.txs.length none) hfl x (fun k hk => (hx k hk).1) T.flat.length (le_refl _)
  obtain ⟨T2, b1, b2, b3⟩ := loadLoop_spec (F := F') (g0 := { g with mask := some (maskOnDisk g.mask) }) (n := T.flat.length)
    (Arr2.fill g.tys.length g.txs.length none) hfl x (fun k hk => (hx k hk).2) T.flat.length (le_refl _)
  have hTT : T1 = T2 := by
    have hd := a2.trans b2.symm
    have hf : T1.flat = T2.flat := List.ext_getElem? (fun k => by rw [a3, b3])
    obtain ⟨r1, c1, l1⟩ := T1
    obtain ⟨r2, c2, l2⟩ := T2
    simp only [Arr2.dims, Prod.mk.injEq] at hd
    simp only at hf
    obtain ⟨rfl, rfl, -⟩ := hd
    rw [hf]
  have hs : slots ({ g with tiles := some (Arr2.fill g.tys.length g.txs.length none), mask := some (maskOnDisk g.mask) } : Grid τ) = T.flat.length := hfl
  have hb : ∀ (x : Grid τ) (f : Grid τ → Except Err (Grid τ)), Except.bind (.ok x) f = f x := fun _ _ => rfl
  unfold loadD
  simp only [hload, hload', hb]
  rw [hs]
  exact (a1.trans (by rw [hTT])).trans b1.symm

theorem subSave_unique {S : SaveSpec τ φ P} (hS : S.Unique) (hpre : ∀ o, S.pre o) : (subSave S hpre).Unique := by
  intro g F F' hg h h'
  show (Grid.loadD (some F)).map some = (Grid.loadD (some F')).map some
  rw [load_unique hS hg h h']

end Grid
end Bathy
