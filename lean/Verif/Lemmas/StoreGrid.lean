import Verif.Lemmas.StoreHistory
import Verif.Lemmas.GridReach
import Verif.Spec.Reloaded

/-!
# Saving and loading a grid
-/

namespace Bathy

/-- What is needed of the tiles: those with `P` can be saved and loaded.  `pre` is what has to be in the place of a missing tile before saving. -/
structure SaveSpec (τ φ : Type) [DiskLike τ φ] [Reloads τ] (P : τ → Prop) where
  Holds : Bool → τ → φ → Prop
  Gone : ℚ → φ → Prop
  pre : Option φ → Prop
  save : ∀ (b : Backend) {t : τ} (d : Disk (Option φ)), P t →
    ∃ f, (DiskLike.saveAll b (some t) d).err = none ∧ (DiskLike.saveAll b (some t) d).st.now = some f ∧ Holds true t f
  clear : ∀ (b : Backend) (d : Disk (Option φ)), pre d.now → (DiskLike.saveAll (τ := τ) b none d).err = none ∧ (DiskLike.saveAll (τ := τ) b none d).st.now = none
  load : ∀ {exact : Bool} {t : τ} {f : φ}, P t → Holds exact t f → ∃ u, DiskLike.load (some f) = .ok (some u) ∧ Reloads.reloaded exact t u
  gone : ∀ {w : ℚ} {f : φ}, Gone w f → ∃ u : τ, DiskLike.load (some f) = .ok (some u) ∧ Reloads.gone w u
  absent : DiskLike.load (τ := τ) (none : Option φ) = .ok none

namespace Grid
variable {τ φ : Type}

theorem tileFolder_putTile (f : Root φ) (o q : ℚ × ℚ) (x : Option φ) : tileFolder (putTile f o x) q = if q = o then x else tileFolder f q := by
  cases x with
  | some y =>
    simp only [putTile, tileFolder, Option.bind_some, Dict.get?_set]
    cases f with
    | some f => rfl
    | none =>
      simp only [Option.getD_none, Option.bind_none]
      rfl
  | none =>
    cases f with
    | some f => simp only [putTile, tileFolder, Option.map_some, Option.bind_some, Dict.get?_pop]
    | none => simp [putTile, tileFolder]

@[simp] theorem absorb_now (d : Disk (Root φ)) (o : ℚ × ℚ) (c : Disk (Option φ)) : (absorb d o c).now = putTile d.now o c.now := rfl
@[simp] theorem focus_now (d : Disk (Root φ)) (o : ℚ × ℚ) : (focus d o).now = tileFolder d.now o := rfl

/-- the two folders differ at most in the folders of the tiles -/
def SameTop (F F' : GridFolder φ) : Prop := F' = { F with tiles := F'.tiles }

theorem sameTop_refl (F : GridFolder φ) : SameTop F F := rfl

theorem SameTop.trans {F F' F'' : GridFolder φ} (h1 : SameTop F F') (h2 : SameTop F' F'') : SameTop F F'' := by
  unfold SameTop at *
  rw [h2, h1]

theorem putTile_top (F : GridFolder φ) (o : ℚ × ℚ) (x : Option φ) : ∃ F', putTile (some F) o x = some F' ∧ SameTop F F' := by
  cases x with
  | some y => exact ⟨_, rfl, rfl⟩
  | none => exact ⟨_, rfl, rfl⟩

/-- what `_save_grid` leaves on disk -/
def withHeader (b : Backend) (g : Grid τ) (F : GridFolder φ) : GridFolder φ :=
  { F with txs := some (b.store (some g.txs)), tys := some (b.store (some g.tys)), edgesX := some (b.store (some g.edgesX)),
           edgesY := some (b.store (some g.edgesY)), mask := some (b.store g.mask), info := .full g.header }

theorem saveGrid_now (b : Backend) (g : Grid τ) (d : Disk (Root φ)) : (saveGrid b g d).now = some (withHeader b g (d.now.getD {})) := rfl

/-- the json file and the arrays are those of the grid; the two numbers may be old if not `exact` -/
structure HeaderOk (exact : Bool) (g : Grid τ) (F : GridFolder φ) : Prop where
  info : ∃ h : Header, F.info = .full h ∧ h = { g.header with numberOfTiles := h.numberOfTiles, meanDepth := h.meanDepth } ∧
    (exact = true → h.numberOfTiles = g.numberOfTiles ∧ h.meanDepth = g.meanDepth)
  txs : F.txs.map Stored.value = some g.txs
  tys : F.tys.map Stored.value = some g.tys
  edgesX : F.edgesX.map Stored.value = some g.edgesX
  edgesY : F.edgesY.map Stored.value = some g.edgesY
  mask : F.mask.map Stored.value = some (maskOnDisk g.mask)

theorem mask_store (b : Backend) {m : Option (Arr2 Bool)} (h : MaskProper m) : (b.store m).value = maskOnDisk m := by
  cases m with
  | none => cases b <;> rfl
  | some a => exact store_value b (h a rfl)

theorem headerOk_save (b : Backend) {g : Grid τ} (hm : MaskProper g.mask) (F : GridFolder φ) : HeaderOk true g (withHeader b g F) where
  info := ⟨_, rfl, rfl, fun _ => ⟨rfl, rfl⟩⟩
  txs := by simp [withHeader, store_value b (properArr_list _)]
  tys := by simp [withHeader, store_value b (properArr_list _)]
  edgesX := by simp [withHeader, store_value b (properArr_list _)]
  edgesY := by simp [withHeader, store_value b (properArr_list _)]
  mask := by simp [withHeader, mask_store b hm]

theorem HeaderOk.top {exact : Bool} {g : Grid τ} {F F' : GridFolder φ} (h : HeaderOk exact g F) (ht : SameTop F F') : HeaderOk exact g F' := by
  unfold SameTop at ht
  rw [ht]
  exact ⟨h.info, h.txs, h.tys, h.edgesX, h.edgesY, h.mask⟩

/-- the tile array has the shape given by the axes; different tiles have different origins -/
structure Shape (g : Grid τ) (T : Arr2 (Option τ)) : Prop where
  tiles : g.tiles = some T
  rows : T.rows = g.tys.length
  cols : T.cols = g.txs.length
  length : T.flat.length = T.rows * T.cols
  origin : ∀ k, k < T.flat.length → ∃ p, g.tileOrigin k = some p
  inj : ∀ j k p, j < T.flat.length → k < T.flat.length → g.tileOrigin j = some p → g.tileOrigin k = some p → j = k

/-- a grid that can be saved and loaded -/
structure Storable (P : τ → Prop) (g : Grid τ) : Prop where
  shape : ∃ T, Shape g T
  extents : ∃ e, g.extents = some e
  width : ∃ w, g.width = some w
  height : ∃ w, g.height = some w
  mask : MaskProper g.mask
  tile : ∀ k t, g.tile? k = some (some t) → P t

section
variable [DiskLike τ φ] [Reloads τ] {P : τ → Prop}

/-- the folder holds the grid -/
structure GHolds (S : SaveSpec τ φ P) (exact : Bool) (g : Grid τ) (F : GridFolder φ) : Prop where
  header : HeaderOk exact g F
  tiles : ∀ k t p, g.tile? k = some (some t) → g.tileOrigin k = some p → ∃ f, F.tiles.get? p = some f ∧ S.Holds exact t f
  missing : ∀ k p, g.tile? k = some none → g.tileOrigin k = some p →
    F.tiles.get? p = none ∨ (exact = false ∧ ∃ f, F.tiles.get? p = some f ∧ S.Gone g.tileSize f)

/-! ### saving -/

/-- the loop of `save` -/
theorem saveLoop_spec (S : SaveSpec τ φ P) (b : Backend) {g : Grid τ} {T : Arr2 (Option τ)} (hg : Shape g T) (hP : ∀ k t, g.tile? k = some (some t) → P t)
    (ks : List Nat) (hnd : ks.Nodup) (hks : ∀ k ∈ ks, k < T.flat.length) (d : Disk (Root φ)) (F : GridFolder φ) (hF : d.now = some F)
    (hpre : ∀ k ∈ ks, ∀ p, g.tile? k = some none → g.tileOrigin k = some p → S.pre (tileFolder d.now p)) :
    ∃ d' F', Res.forEach ks d (saveSlot b g) = .ok d' ∧ d'.now = some F' ∧ SameTop F F' ∧
      (∀ k ∈ ks, ∀ p, g.tileOrigin k = some p → (∀ t, g.tile? k = some (some t) → ∃ f, F'.tiles.get? p = some f ∧ S.Holds true t f) ∧
        (g.tile? k = some none → F'.tiles.get? p = none)) ∧
      (∀ p, (∀ k ∈ ks, g.tileOrigin k ≠ some p) → F'.tiles.get? p = F.tiles.get? p) := by
  induction ks generalizing d F with
  | nil => exact ⟨d, F, rfl, hF, rfl, by simp, fun _ _ => rfl⟩
  | cons k ks ih =>
    rw [List.nodup_cons] at hnd
    have hk := hks k List.mem_cons_self
    obtain ⟨p, hp⟩ := hg.origin k hk
    obtain ⟨o, ho⟩ : ∃ o, T.flat[k]? = some o := ⟨_, List.getElem?_eq_getElem hk⟩
    have htile : g.tile? k = some o := by unfold tile?; rw [hg.tiles]; exact ho
    have hstep : (DiskLike.saveAll b o (focus d p)).err = none ∧
        (∀ t, o = some t → ∃ f, (DiskLike.saveAll b o (focus d p)).st.now = some f ∧ S.Holds true t f) ∧ (o = none → (DiskLike.saveAll b o (focus d p)).st.now = none) := by
      cases o with
      | none =>
        obtain ⟨h1, h2⟩ := S.clear b (focus d p) (hpre k List.mem_cons_self p htile hp)
        exact ⟨h1, by simp, fun _ => h2⟩
      | some t =>
        obtain ⟨f, h1, h2, h3⟩ := S.save b (focus d p) (hP k t htile)
        exact ⟨h1, by rintro t' ⟨⟩; exact ⟨f, h2, h3⟩, by simp⟩
    obtain ⟨he, hsome, hnone⟩ := hstep
    obtain ⟨F1, hF1, htop1⟩ := putTile_top F p (DiskLike.saveAll b o (focus d p)).st.now
    have hget : ∀ q, F1.tiles.get? q = if q = p then (DiskLike.saveAll b o (focus d p)).st.now else F.tiles.get? q := by
      intro q
      have := tileFolder_putTile (some F) p q (DiskLike.saveAll b o (focus d p)).st.now
      rw [hF1] at this
      exact this
    obtain ⟨d', F', h1, h2, h3, h4, h5⟩ := ih hnd.2 (fun j hj => hks j (List.mem_cons_of_mem _ hj)) (absorb d p (DiskLike.saveAll b o (focus d p)).st) F1
      (by rw [absorb_now, hF, hF1]) (by
        intro j hj q hjn hq
        rw [absorb_now, tileFolder_putTile]
        have : q ≠ p := by
          rintro rfl
          exact hnd.1 (hg.inj k j q hk (hks j (List.mem_cons_of_mem _ hj)) hp hq ▸ hj)
        rw [if_neg this]
        exact hpre j (List.mem_cons_of_mem _ hj) q hjn hq)
    refine ⟨d', F', ?_, h2, htop1.trans h3, ?_, ?_⟩
    · rw [Res.forEach_cons]
      have : saveSlot b g d k = .ok (absorb d p (DiskLike.saveAll b o (focus d p)).st) := by
        unfold saveSlot
        simp only [htile, hp, he]
        rfl
      rw [this]
      exact h1
    · intro j hj q hq
      rcases List.mem_cons.1 hj with rfl | hj
      · rw [hp] at hq; cases hq
        have hlast : F'.tiles.get? p = (DiskLike.saveAll b o (focus d p)).st.now := by
          rw [h5 p (fun i hi hip => hnd.1 (hg.inj j i p hk (hks i (List.mem_cons_of_mem _ hi)) hp hip ▸ hi)), hget, if_pos rfl]
        rw [hlast]
        refine ⟨fun t ht => ?_, fun ht => ?_⟩
        · rw [htile] at ht; cases ht; exact hsome t rfl
        · rw [htile] at ht; cases ht; exact hnone rfl
      · exact h4 j hj q hq
    · intro q hq
      rw [h5 q (fun i hi => hq i (List.mem_cons_of_mem _ hi)), hget, if_neg (by rintro rfl; exact hq k List.mem_cons_self hp)]

/-- saving a grid -/
theorem saveAll_holds (S : SaveSpec τ φ P) (b : Backend) {g : Grid τ} (hg : Storable P g) (d : Disk (Root φ))
    (hpre : ∀ k p, g.tile? k = some none → g.tileOrigin k = some p → S.pre (tileFolder d.now p)) :
    ∃ F, (saveAllD b g d).err = none ∧ (saveAllD b g d).st.now = some F ∧ GHolds S true g F := by
  obtain ⟨T, hT⟩ := hg.shape
  have hpre' : ∀ k ∈ List.range T.flat.length, ∀ p, g.tile? k = some none → g.tileOrigin k = some p → S.pre (tileFolder (saveGrid b g d).now p) := by
    intro k _ p h1 h2
    rw [saveGrid_now]
    have : tileFolder (some (withHeader b g (d.now.getD {}))) p = tileFolder d.now p := by
      cases hd : d.now with
      | none => rfl
      | some F => rfl
    rw [this]
    exact hpre k p h1 h2
  obtain ⟨d', F', h1, h2, h3, h4, -⟩ := saveLoop_spec S b hT hg.tile (List.range T.flat.length) List.nodup_range (fun k hk => List.mem_range.1 hk)
    (saveGrid b g d) _ (saveGrid_now b g d) hpre'
  unfold saveAllD
  have hsl : g.slots = T.flat.length := by unfold slots; rw [hT.tiles]
  simp only [hT.tiles]
  rw [hsl, h1]
  refine ⟨F', rfl, h2, (headerOk_save b hg.mask _).top h3, ?_, ?_⟩
  · intro k t p hk hp
    have hkl : k < T.flat.length := by
      unfold tile? at hk; rw [hT.tiles] at hk; exact (List.getElem?_eq_some_iff.1 hk).1
    exact (h4 k (List.mem_range.2 hkl) p hp).1 t hk
  · intro k p hk hp
    have hkl : k < T.flat.length := by
      unfold tile? at hk; rw [hT.tiles] at hk; exact (List.getElem?_eq_some_iff.1 hk).1
    exact Or.inl ((h4 k (List.mem_range.2 hkl) p hp).2 hk)

/-! ### loading -/

omit [DiskLike τ φ] [Reloads τ] in
theorem loadHeader_ok {exact : Bool} {g : Grid τ} {F : GridFolder φ} (h : HeaderOk exact g F) (he : ∃ e, g.extents = some e) (hw : ∃ w, g.width = some w)
    (hh : ∃ w, g.height = some w) : ∃ n md, (exact = true → n = g.numberOfTiles ∧ md = g.meanDepth) ∧
      (loadHeader F : Except Err (Grid τ)) = .ok { g with tiles := some (Arr2.fill g.tys.length g.txs.length none), mask := some (maskOnDisk g.mask), numberOfTiles := n, meanDepth := md } := by
  obtain ⟨hd, h1, h2, h3⟩ := h.info
  refine ⟨hd.numberOfTiles, hd.meanDepth, h3, ?_⟩
  obtain ⟨e, he⟩ := he
  obtain ⟨w, hw⟩ := hw
  obtain ⟨v, hv⟩ := hh
  unfold loadHeader
  simp only [h1, Tile.readArr_eq h.txs, Tile.readArr_eq h.tys, Tile.readArr_eq h.edgesX, Tile.readArr_eq h.edgesY, Tile.readArr_eq h.mask, bind, Except.bind, pure, Except.pure]
  rw [h2]
  simp only [ofHeader, header, he, hw, hv, Option.getD_some]

omit [Reloads τ] in
/-- the loop of `load` -/
theorem loadLoop_spec {F : GridFolder φ} {g0 : Grid τ} {n : Nat} (T : Arr2 (Option τ)) (hlen : T.flat.length = n) (x : Nat → Option τ)
    (hx : ∀ k, k < n → ∃ p, g0.tileOrigin k = some p ∧ DiskLike.load (F.tiles.get? p) = .ok (x k)) (m : Nat) (hm : m ≤ n) :
    ∃ T' : Arr2 (Option τ), (List.range m).foldlM (loadSlot F) { g0 with tiles := some T } = .ok { g0 with tiles := some T' } ∧ T'.dims = T.dims ∧
      ∀ k : Nat, T'.flat[k]? = if k < m then some (x k) else T.flat[k]? := by
  induction m with
  | zero => exact ⟨T, rfl, rfl, fun k => by simp⟩
  | succ m ih =>
    obtain ⟨T', h1, h2, h3⟩ := ih (by omega)
    obtain ⟨p, hp, hl⟩ := hx m (by omega)
    refine ⟨T'.setFlat m (x m), ?_, ?_, ?_⟩
    · rw [List.range_succ, List.foldlM_append, h1]
      simp only [bind, Except.bind, List.foldlM_cons, List.foldlM_nil, pure, Except.pure]
      unfold loadSlot
      have : tileOrigin ({ g0 with tiles := some T' } : Grid τ) m = some p := hp
      rw [this]
      simp only [hl, Except.map, setTile]
    · rw [← h2]; simp [Arr2.dims, Arr2.setFlat]
    · intro k
      have hlT : T'.flat.length = n := by
        have := congrArg (fun d => d.2.2) h2
        simp only [Arr2.dims] at this
        rw [this, hlen]
      simp only [Arr2.setFlat, List.getElem?_set]
      by_cases hk : m = k
      · subst hk
        rw [if_pos rfl, if_pos (by omega), if_pos (by omega)]
      · rw [if_neg hk, h3]
        by_cases hk2 : k < m
        · rw [if_pos hk2, if_pos (by omega)]
        · rw [if_neg hk2, if_neg (by omega)]

/-- loading a grid -/
theorem load_holds (S : SaveSpec τ φ P) {exact : Bool} {g : Grid τ} (hg : Storable P g) {F : GridFolder φ} (h : GHolds S exact g F) :
    ∃ u, loadD (some F) = .ok u ∧ Reloaded exact g u := by
  obtain ⟨T, hT⟩ := hg.shape
  obtain ⟨n, md, hnum, hload⟩ := loadHeader_ok h.header hg.extents hg.width hg.height
  have hslot : ∀ k, k < T.flat.length → ∃ x : Option τ, (∃ p, g.tileOrigin k = some p ∧ DiskLike.load (F.tiles.get? p) = .ok x) ∧
      (∀ t, g.tile? k = some (some t) → ∃ v, x = some v ∧ Reloads.reloaded exact t v) ∧
      (g.tile? k = some none → x = none ∨ (exact = false ∧ ∃ v, x = some v ∧ Reloads.gone g.tileSize v)) := by
    intro k hk
    obtain ⟨p, hp⟩ := hT.origin k hk
    obtain ⟨o, ho⟩ : ∃ o, T.flat[k]? = some o := ⟨_, List.getElem?_eq_getElem hk⟩
    have htile : g.tile? k = some o := by unfold tile?; rw [hT.tiles]; exact ho
    cases o with
    | some t =>
      obtain ⟨f, hf1, hf2⟩ := h.tiles k t p htile hp
      obtain ⟨u, hu1, hu2⟩ := S.load (hg.tile k t htile) hf2
      refine ⟨some u, ⟨p, hp, by rw [hf1, hu1]⟩, ?_, ?_⟩
      · intro t' ht'; rw [htile] at ht'; cases ht'; exact ⟨u, rfl, hu2⟩
      · intro ht'; rw [htile] at ht'; cases ht'
    | none =>
      rcases h.missing k p htile hp with hf | ⟨he, f, hf1, hf2⟩
      · refine ⟨none, ⟨p, hp, by rw [hf, S.absent]⟩, ?_, fun _ => Or.inl rfl⟩
        intro t' ht'; rw [htile] at ht'; cases ht'
      · obtain ⟨u, hu1, hu2⟩ := S.gone hf2
        refine ⟨some u, ⟨p, hp, by rw [hf1, hu1]⟩, ?_, fun _ => Or.inr ⟨he, u, rfl, hu2⟩⟩
        intro t' ht'; rw [htile] at ht'; cases ht'
  have hx : ∃ x : Nat → Option τ, ∀ k, k < T.flat.length → (∃ p, g.tileOrigin k = some p ∧ DiskLike.load (F.tiles.get? p) = .ok (x k)) ∧
      (∀ t, g.tile? k = some (some t) → ∃ v, x k = some v ∧ Reloads.reloaded exact t v) ∧
      (g.tile? k = some none → x k = none ∨ (exact = false ∧ ∃ v, x k = some v ∧ Reloads.gone g.tileSize v)) := by
    refine ⟨fun k => if hk : k < T.flat.length then (hslot k hk).choose else none, fun k hk => ?_⟩
    simp only [dif_pos hk]
    exact (hslot k hk).choose_spec
  obtain ⟨x, hx⟩ := hx
  have hfl : (Arr2.fill g.tys.length g.txs.length (none : Option τ)).flat.length = T.flat.length := by
    rw [hT.length, hT.rows, hT.cols]; simp [Arr2.fill]
  obtain ⟨T', h1, h2, h3⟩ := loadLoop_spec (F := F)
    (g0 := { g with mask := some (maskOnDisk g.mask), numberOfTiles := n, meanDepth := md }) (n := T.flat.length)
    (Arr2.fill g.tys.length g.txs.length none) hfl x (fun k hk => (hx k hk).1) T.flat.length (le_refl _)
  have hT' : ∀ k : Nat, k < T.flat.length → T'.flat[k]? = some (x k) := fun k hk => by rw [h3, if_pos hk]
  refine ⟨{ g with mask := some (maskOnDisk g.mask), numberOfTiles := n, meanDepth := md, tiles := some T' }, ?_, ⟨?_, ?_, ?_, ?_, ?_⟩⟩
  · unfold loadD
    simp only [hload]
    have hb : ∀ (x : Grid τ) (f : Grid τ → Except Err (Grid τ)), Except.bind (.ok x) f = f x := fun _ _ => rfl
    rw [hb]
    have : slots ({ g with tiles := some (Arr2.fill g.tys.length g.txs.length none), mask := some (maskOnDisk g.mask), numberOfTiles := n, meanDepth := md } : Grid τ) =
      T.flat.length := hfl
    rw [this]
    exact h1
  · rfl
  · exact hnum
  · show (some T').map Arr2.dims = _
    rw [hT.tiles, Option.map_some, h2]
    simp [Arr2.dims, ← hT.rows, ← hT.cols, hT.length, Arr2.fill]
  · intro k t hk
    have hkl : k < T.flat.length := by
      unfold tile? at hk; rw [hT.tiles] at hk; exact (List.getElem?_eq_some_iff.1 hk).1
    obtain ⟨v, hv1, hv2⟩ := (hx k hkl).2.1 t hk
    refine ⟨v, ?_, hv2⟩
    show T'.flat[k]? = _
    rw [hT' k hkl, hv1]
  · intro k hk
    have hkl : k < T.flat.length := by
      unfold tile? at hk; rw [hT.tiles] at hk; exact (List.getElem?_eq_some_iff.1 hk).1
    rcases (hx k hkl).2.2 hk with hv | ⟨he, v, hv1, hv2⟩
    · left; show T'.flat[k]? = _; rw [hT' k hkl, hv]
    · right; exact ⟨he, v, by show T'.flat[k]? = _; rw [hT' k hkl, hv1], hv2⟩

end
end Grid
end Bathy
