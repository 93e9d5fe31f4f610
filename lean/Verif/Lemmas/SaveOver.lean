import Verif.Lemmas.DiskReach
import Verif.Spec.DiskHistories

/-!
# Saving to a folder

After `save` the folder holds the grid the way a folder does that was written call by call: if it is a new folder, if all that is in it is overwritten, or if it
is the folder the grid is in.
-/

namespace Bathy
namespace Grid
variable {τ φ : Type} [DiskLike τ φ] {P : τ → Prop} {D : τ → φ → Prop} {G : φ → Prop} {pre : Option τ → Option φ → Prop}

/-- saving a tile, or none, where something may be -/
structure OverSave (P : τ → Prop) (D : τ → φ → Prop) (G : φ → Prop) (pre : Option τ → Option φ → Prop) : Prop where
  save : ∀ (b : Backend) {t : τ} {o : Option φ}, P t → pre (some t) o →
    ∃ f, (DiskLike.saveAll b (some t) ⟨o, []⟩).err = none ∧ (DiskLike.saveAll b (some t) ⟨o, []⟩).st.now = some f ∧ D t f
  clear : ∀ (b : Backend) {o : Option φ}, pre none o →
    (DiskLike.saveAll (τ := τ) b none ⟨o, []⟩).err = none ∧ ∀ f, (DiskLike.saveAll (τ := τ) b none ⟨o, []⟩).st.now = some f → G f

/-- the loop of `save` treats every tile by itself -/
theorem saveLoop_each (b : Backend) {g : Grid τ} {T : Arr2 (Option τ)} (hg : Shape g T) (ks : List Nat) (hnd : ks.Nodup) (hks : ∀ k ∈ ks, k < T.flat.length) (d : Disk (Root φ))
    (F : GridFolder φ) (hF : d.now = some F) (hok : ∀ k ∈ ks, ∀ o p, g.tile? k = some o → g.tileOrigin k = some p → (DiskLike.saveAll b o ⟨F.tiles.get? p, []⟩).err = none) :
    ∃ d' F', Res.forEach ks d (saveSlot b g) = .ok d' ∧ d'.now = some F' ∧ SameTop F F' ∧
      (∀ k ∈ ks, ∀ o p, g.tile? k = some o → g.tileOrigin k = some p → F'.tiles.get? p = (DiskLike.saveAll b o ⟨F.tiles.get? p, []⟩).st.now) ∧
      (∀ p, (∀ k ∈ ks, g.tileOrigin k ≠ some p) → F'.tiles.get? p = F.tiles.get? p) := by
  induction ks generalizing d F with
  | nil => exact ⟨d, F, rfl, hF, rfl, by simp, fun _ _ => rfl⟩
  | cons k ks ih =>
    rw [List.nodup_cons] at hnd
    have hk := hks k List.mem_cons_self
    obtain ⟨p, hp⟩ := hg.origin k hk
    obtain ⟨o, ho⟩ : ∃ o, T.flat[k]? = some o := ⟨_, List.getElem?_eq_getElem hk⟩
    have htile : g.tile? k = some o := by unfold tile?; rw [hg.tiles]; exact ho
    have hfoc : focus d p = ⟨F.tiles.get? p, []⟩ := by
      unfold focus tileFolder
      rw [hF]
      rfl
    have he := hok k List.mem_cons_self o p htile hp
    rw [← hfoc] at he
    obtain ⟨F1, hF1, htop1⟩ := putTile_top F p (DiskLike.saveAll b o (focus d p)).st.now
    have hget : ∀ q, F1.tiles.get? q = if q = p then (DiskLike.saveAll b o (focus d p)).st.now else F.tiles.get? q := by
      intro q
      have := tileFolder_putTile (some F) p q (DiskLike.saveAll b o (focus d p)).st.now
      rw [hF1] at this
      exact this
    have hother : ∀ j ∈ ks, ∀ q, g.tileOrigin j = some q → q ≠ p := by
      rintro j hj q hq rfl
      exact hnd.1 (hg.inj k j q hk (hks j (List.mem_cons_of_mem _ hj)) hp hq ▸ hj)
    obtain ⟨d', F', h1, h2, h3, h4, h5⟩ := ih hnd.2 (fun j hj => hks j (List.mem_cons_of_mem _ hj)) (absorb d p (DiskLike.saveAll b o (focus d p)).st) F1
      (by rw [absorb_now, hF, hF1]) (by
        intro j hj o' q hq1 hq2
        rw [hget, if_neg (hother j hj q hq2)]
        exact hok j (List.mem_cons_of_mem _ hj) o' q hq1 hq2)
    refine ⟨d', F', ?_, h2, htop1.trans h3, ?_, ?_⟩
    · rw [Res.forEach_cons]
      have : saveSlot b g d k = .ok (absorb d p (DiskLike.saveAll b o (focus d p)).st) := by
        unfold saveSlot
        simp only [htile, hp, he]
        rfl
      rw [this]
      exact h1
    · intro j hj o' q hq1 hq2
      rcases List.mem_cons.1 hj with rfl | hj
      · rw [hp] at hq2; cases hq2
        rw [htile] at hq1; cases hq1
        rw [h5 p (fun i hi hip => hother i hi p hip rfl), hget, if_pos rfl, hfoc]
      · rw [h4 j hj o' q hq1 hq2, hget, if_neg (hother j hj q hq2)]
    · intro q hq
      rw [h5 q (fun i hi => hq i (List.mem_cons_of_mem _ hi)), hget, if_neg (by rintro rfl; exact hq k List.mem_cons_self hp)]

/-- `save`, in terms of what is in the folder at the places of the grid and elsewhere -/
theorem saveAll_over (S : OverSave P D G pre) (b : Backend) {g : Grid τ} (hg : Storable P g) (d : Disk (Root φ))
    (hpre : ∀ k o p, g.tile? k = some o → g.tileOrigin k = some p → pre o (tileFolder d.now p))
    (hrest : ∀ p f, tileFolder d.now p = some f → (∀ k o, g.tile? k = some o → g.tileOrigin k ≠ some p) → G f) :
    (saveAllD b g d).err = none ∧ Synced D G true g (saveAllD b g d).st.now := by
  obtain ⟨T, hT⟩ := hg.shape
  have hlt : ∀ k o, g.tile? k = some o → k < T.flat.length := by
    intro k o hk
    unfold tile? at hk
    rw [hT.tiles] at hk
    exact (List.getElem?_eq_some_iff.1 hk).1
  have hnow := saveGrid_now b g d
  have hfold : ∀ p, (withHeader b g (d.now.getD {})).tiles.get? p = tileFolder d.now p := by
    intro p
    have h := saveGrid_folder b g d p
    rw [hnow] at h
    exact h
  obtain ⟨d', F', h1, h2, h3, h4, h5⟩ := saveLoop_each b hT (List.range T.flat.length) List.nodup_range (fun k hk => List.mem_range.1 hk)
    (saveGrid b g d) _ hnow (by
      intro k _ o p hk hp
      rw [hfold]
      cases o with
      | some t => obtain ⟨-, h, -⟩ := S.save b (hg.tile k t hk) (hpre k _ p hk hp); exact h
      | none => exact (S.clear b (hpre k _ p hk hp)).1)
  unfold saveAllD
  have hsl : g.slots = T.flat.length := by unfold slots; rw [hT.tiles]
  simp only [hT.tiles]
  rw [hsl, h1]
  refine ⟨rfl, F', h2, (headerOk_save b hg.mask _).top h3, ?_, ?_⟩
  · rintro t p ⟨k, hk, hp⟩
    obtain ⟨f', -, h6, h7⟩ := S.save b (hg.tile k t hk) (hpre k _ p hk hp)
    refine ⟨f', ?_, h7⟩
    rw [Res.ok_st, h2]
    show F'.tiles.get? p = some f'
    rw [h4 k (List.mem_range.2 (hlt k _ hk)) _ p hk hp, hfold]
    exact h6
  · intro p f hf hno
    rw [Res.ok_st, h2] at hf
    have hf' : F'.tiles.get? p = some f := hf
    by_cases hp : ∃ k, k < T.flat.length ∧ g.tileOrigin k = some p
    · obtain ⟨k, hk, hkp⟩ := hp
      obtain ⟨o, ho⟩ : ∃ o, T.flat[k]? = some o := ⟨_, List.getElem?_eq_getElem hk⟩
      have htile : g.tile? k = some o := by unfold tile?; rw [hT.tiles]; exact ho
      cases o with
      | some t => exact absurd ⟨k, htile, hkp⟩ (hno t)
      | none =>
        rw [h4 k (List.mem_range.2 hk) _ p htile hkp, hfold] at hf'
        exact (S.clear b (hpre k _ p htile hkp)).2 f hf'
    · rw [h5 p (fun k hk e => hp ⟨k, List.mem_range.1 hk, e⟩), hfold] at hf'
      exact hrest p f hf' (fun k o hk e => hp ⟨k, hlt k o hk, e⟩)

/-- `save` to the folder the grid is in -/
theorem saveAll_resave (S : OverSave P D G pre) (b : Backend) {g : Grid τ} (hg : Storable P g) (d : Disk (Root φ)) (hd : TSync D G g d.now)
    (hD : ∀ t f, D t f → pre (some t) (some f)) (hG : ∀ o, (∀ f, o = some f → G f) → pre none o) :
    (saveAllD b g d).err = none ∧ Synced D G true g (saveAllD b g d).st.now := by
  obtain ⟨T, hT⟩ := hg.shape
  have hlt : ∀ k o, g.tile? k = some o → k < T.flat.length := by
    intro k o hk
    unfold tile? at hk
    rw [hT.tiles] at hk
    exact (List.getElem?_eq_some_iff.1 hk).1
  refine saveAll_over S b hg d (fun k o p hk hp => ?_) (fun p f hf hno => hd.rest p f hf (fun t ⟨k, hk, hp⟩ => hno k _ hk hp))
  cases o with
  | some t =>
    obtain ⟨f, hf, h⟩ := hd.has t p ⟨k, hk, hp⟩
    rw [hf]
    exact hD t f h
  | none =>
    refine hG _ (fun f hf => hd.rest p f hf ?_)
    rintro t ⟨j, hj, hjp⟩
    have := hT.inj j k p (hlt j _ hj) (hlt k _ hk) hjp hp
    rw [this, hk] at hj
    cases hj

/-- `save` to a folder all of which is overwritten -/
theorem saveAll_overwritten [Overwrites τ φ] (S : OverSave P D G pre) (b : Backend) {g : Grid τ} (hg : Storable P g) (d : Disk (Root φ)) (hd : g.Overwritten d.now)
    (hp : ∀ o f, (∀ f', f = some f' → Overwrites.overwrites o f') → pre o f) :
    (saveAllD b g d).err = none ∧ Synced D G true g (saveAllD b g d).st.now := by
  obtain ⟨T, hT⟩ := hg.shape
  have hlt : ∀ k o, g.tile? k = some o → k < T.flat.length := by
    intro k o hk
    unfold tile? at hk
    rw [hT.tiles] at hk
    exact (List.getElem?_eq_some_iff.1 hk).1
  refine saveAll_over S b hg d (fun k o p hk hkp => hp _ _ (fun f hf => ?_)) (fun p f hf hno => ?_)
  · obtain ⟨j, o', h1, h2, h3⟩ := hd p f hf
    have := hT.inj j k p (hlt j _ h1) (hlt k _ hk) h2 hkp
    rw [this, hk] at h1
    cases h1
    exact h3
  · obtain ⟨j, o', h1, h2, -⟩ := hd p f hf
    exact absurd h2 (hno j o' h1)

omit [DiskLike τ φ] in
/-- in a new folder there is nothing to overwrite -/
theorem overwritten_new [Overwrites τ φ] (g : Grid τ) {R : Root φ} (h : R = none) : g.Overwritten R := by
  subst h
  intro p f hf
  cases hf

/-! ### single and variable resolution grids -/

theorem tileOver : OverSave Tile.Saveable Tile.Holds (fun _ => False) (fun _ _ => True) where
  save := fun b _ _ h _ => tileSave.save b _ h
  clear := fun _ _ _ => ⟨rfl, fun f hf => by cases hf⟩

theorem tile_over (b : Backend) {g : Grid Tile} (hg : Storable Tile.Saveable g) (d : Disk (Root TileFolder)) (hd : g.Overwritten d.now) :
    (saveAllD b g d).err = none ∧ Synced Tile.Holds (fun _ => False) true g (saveAllD b g d).st.now :=
  saveAll_overwritten tileOver b hg d hd (fun _ _ _ => trivial)

theorem tile_resave (b : Backend) {g : Grid Tile} (hg : Storable Tile.Saveable g) (d : Disk (Root TileFolder)) (hd : TSync Tile.Holds (fun _ => False) g d.now) :
    (saveAllD b g d).err = none ∧ Synced Tile.Holds (fun _ => False) true g (saveAllD b g d).st.now :=
  saveAll_resave tileOver b hg d hd (fun _ _ _ => trivial) (fun _ _ => trivial)

/-- what may be in the folder of a subgrid, or in the place of a missing one -/
def SubPre (w : ℚ) (o : Option (Grid Tile)) (f : Option (GridFolder TileFolder)) : Prop :=
  match o with
  | some g => ∀ p x, tileFolder f p = some x → ∃ k o, g.tile? k = some o ∧ g.tileOrigin k = some p
  | none => ∀ F, f = some F → Leftover w F

theorem subOver (w : ℚ) : OverSave (Storable Tile.Saveable) (fun (g : Grid Tile) (F : GridFolder TileFolder) => Synced Tile.Holds (fun _ => False) false g (some F)) (Leftover w) (SubPre w) where
  save := by
    intro b g o hg ho
    obtain ⟨h1, h2⟩ := tile_over b hg ⟨o, []⟩ (fun p f hf => by obtain ⟨k, o, h1, h2⟩ := ho p f hf; exact ⟨k, o, h1, h2, trivial⟩)
    obtain ⟨F', h3, -⟩ := id h2
    refine ⟨F', h1, h3, ?_⟩
    rw [h3] at h2
    exact h2.weaken
  clear := fun _ o ho => ⟨rfl, ho⟩

theorem sub_over (w : ℚ) (b : Backend) {g : Grid (Grid Tile)} (hg : Storable (Storable Tile.Saveable) g) (d : Disk (Root (GridFolder TileFolder))) (hd : g.Overwritten d.now) :
    (saveAllD b g d).err = none ∧ Synced (fun (g : Grid Tile) F => Synced Tile.Holds (fun _ => False) false g (some F)) (Leftover w) true g (saveAllD b g d).st.now := by
  refine saveAll_overwritten (subOver w) b hg d hd (fun o f hf => ?_)
  cases o with
  | none =>
    intro F hF
    obtain ⟨g, hg, -⟩ := hf F hF
    cases hg
  | some g =>
    intro p x hx
    cases f with
    | none => cases hx
    | some F =>
      obtain ⟨g', hg', h⟩ := hf F rfl
      cases hg'
      obtain ⟨k, o, h1, h2, -⟩ := h p x hx
      exact ⟨k, o, h1, h2⟩

theorem sub_resave (w : ℚ) (b : Backend) {g : Grid (Grid Tile)} (hg : Storable (Storable Tile.Saveable) g) (d : Disk (Root (GridFolder TileFolder)))
    (hd : TSync (fun (g : Grid Tile) F => Synced Tile.Holds (fun _ => False) false g (some F)) (Leftover w) g d.now) :
    (saveAllD b g d).err = none ∧ Synced (fun (g : Grid Tile) F => Synced Tile.Holds (fun _ => False) false g (some F)) (Leftover w) true g (saveAllD b g d).st.now := by
  refine saveAll_resave (subOver w) b hg d hd (fun u F hF => ?_) (fun o ho => ho)
  obtain ⟨-, -, -, h⟩ := hF
  intro p x hx
  by_contra hno
  exact h.rest p x hx (fun t ⟨k, h1, h2⟩ => hno ⟨k, _, h1, h2⟩)

end Grid
end Bathy
