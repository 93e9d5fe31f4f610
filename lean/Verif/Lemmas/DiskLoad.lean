import Verif.Lemmas.DiskHistory
import Verif.Lemmas.GridPts

/-!
# The soundings in a grid that was read from its folder
-/

namespace Bathy

/-- objects that were read hold the same soundings, empty ones hold none -/
class LawfulReload (τ : Type) [Reloads τ] [Holds τ] : Prop where
  all : ∀ {exact : Bool} {t v : τ}, Reloads.reloaded exact t v → Holds.all v = Holds.all t
  under : ∀ {exact : Bool} {t v : τ}, Reloads.reloaded exact t v → ∀ c, Holds.under v c = Holds.under t c
  empty : ∀ {w : ℚ} {t : τ}, Reloads.gone w t → Holds.all t = [] ∧ ∀ c, Holds.under t c = []

instance : LawfulReload Tile where
  all := by
    intro exact t v h
    have h : t.Reread v := h
    show v.pts = t.pts
    unfold Tile.pts
    rw [h.data]
  under := by
    intro exact t v h c
    have h : t.Reread v := h
    show v.under c = t.under c
    have hi := congrArg TileMeta.container h.info
    have hi : v.container = t.container := hi
    unfold Tile.under Tile.pts
    rw [h.data, hi]
  empty := fun h => False.elim h

namespace Grid
variable {τ : Type}

theorem reloaded_slots [Reloads τ] [Holds τ] {exact : Bool} {g u : Grid τ} (h : Reloaded exact g u) {β : Type} (f : Option τ → List β)
    (hf : ∀ t v, Reloads.reloaded exact t v → f (some v) = f (some t)) (he : ∀ v, Reloads.gone g.tileSize v → f (some v) = f none) :
    u.slotList.flatMap f = g.slotList.flatMap f := by
  have hsh := h.shape
  unfold slotList
  cases hT : g.tiles with
  | none =>
    rw [hT] at hsh
    cases hU : u.tiles with
    | none => rfl
    | some U => rw [hU] at hsh; cases hsh
  | some T =>
    rw [hT] at hsh
    cases hU : u.tiles with
    | none => rw [hU] at hsh; cases hsh
    | some U =>
      rw [hU] at hsh
      simp only [Option.map_some, Option.some.injEq, Arr2.dims, Prod.mk.injEq] at hsh
      obtain ⟨-, -, hl⟩ := hsh
      simp only
      rw [List.flatMap_def, List.flatMap_def]
      congr 1
      apply List.ext_getElem?
      intro k
      rw [List.getElem?_map, List.getElem?_map]
      have e1 : g.tile? k = T.flat[k]? := by unfold tile?; rw [hT]; rfl
      have e2 : u.tile? k = U.flat[k]? := by unfold tile?; rw [hU]; rfl
      cases ho : T.flat[k]? with
      | none =>
        have : U.flat[k]? = none := by
          rw [List.getElem?_eq_none_iff] at ho ⊢
          omega
        rw [this]
      | some o =>
        cases o with
        | none =>
          rcases h.missing k (e1.trans ho) with h1 | ⟨-, v, h1, h2⟩
          · rw [← e2, h1]
          · rw [← e2, h1, Option.map_some, Option.map_some, he v h2]
        | some t =>
          obtain ⟨v, h1, h2⟩ := h.tiles k t (e1.trans ho)
          rw [← e2, h1, Option.map_some, Option.map_some, hf t v h2]

/-- a grid without tiles holds no soundings -/
theorem isEmpty_holds [Holds τ] {g : Grid τ} (h : g.isEmpty = true) : Holds.all g = [] ∧ ∀ c, Holds.under g c = [] := by
  have key : ∀ {β : Type} (f : Option τ → List β), f none = [] → g.slotList.flatMap f = [] := by
    intro β f hf
    unfold slotList
    unfold isEmpty at h
    cases hT : g.tiles with
    | none => rfl
    | some T =>
      rw [hT] at h
      simp only [Bool.not_eq_true'] at h
      rw [List.any_eq_false] at h
      simp only [List.flatMap_eq_nil_iff]
      intro o ho
      cases o with
      | none => exact hf
      | some t => exact absurd rfl (h _ ho)
  exact ⟨key slotAll rfl, fun c => key (slotUnder c) rfl⟩

instance [Reloads τ] [Holds τ] [LawfulReload τ] : LawfulReload (Grid τ) where
  all := by
    intro exact g u h
    exact reloaded_slots h slotAll (fun t v hv => LawfulReload.all hv) (fun v hv => (LawfulReload.empty hv).1)
  under := by
    intro exact g u h c
    exact reloaded_slots h (slotUnder c) (fun t v hv => LawfulReload.under hv c) (fun v hv => (LawfulReload.empty hv).2 c)
  empty := fun h => isEmpty_holds h.empty

end Grid

/-! ### what the folder loads to -/

theorem sr_loads {env : Env} {b : Backend} {size : ℚ} {bs : Bool} {fl : Fields} (hs : 0 < size) {F : Family} {s exact : Bool} {g : Grid Tile} {d : Disk (Grid.Root TileFolder)} {A : Store}
    (h : SRDisk env b size bs fl F s exact g d A) (hA : A ≠ []) : ∃ u, Grid.loadD d.now = .ok u ∧ g.Reloaded exact u := by
  obtain ⟨h1, h2⟩ := sr_disk hs h
  rcases h2 with ⟨-, e⟩ | h2
  · exact absurd e hA
  · have hst := sr_storable hs h1 hA
    have h2' := h2
    obtain ⟨F', e, -⟩ := h2'
    rw [e] at h2 ⊢
    exact Grid.load_holds tileSave hst (Grid.synced_holds tileSave (fun _ _ _ h => h) (fun _ h => h.elim) hst h2)

theorem sub_loads {g : Grid Tile} (hg : Grid.Storable Tile.Saveable g) {F : GridFolder TileFolder} (h : SubHolds g F) : Grid.GHolds tileSave false g F :=
  Grid.synced_holds tileSave (fun _ _ _ h => h) (fun _ h => h.elim) hg h

theorem vr_loads {env : Env} {b : Backend} {size sub : ℚ} {bs : Bool} {fl : Fields} (hs : 0 < size) (hpow : isPowerOfTwo sub = true) {F : Family} {s exact : Bool} {g : Grid (Grid Tile)}
    {d : Disk (Grid.Root (GridFolder TileFolder))} {A : Store} (h : VRDisk env b size sub bs fl F s exact g d A) (hA : A ≠ []) : ∃ u, Grid.loadD d.now = .ok u ∧ g.Reloaded false u := by
  obtain ⟨h1, h2⟩ := vr_disk hs hpow h
  rcases h2 with ⟨-, e⟩ | h2
  · exact absurd e hA
  · have hst := vr_storable hs hpow h1 hA
    have h2' := h2.weaken
    obtain ⟨F', e, -⟩ := h2
    rw [e] at h2' ⊢
    exact Grid.load_holds (Grid.subSave tileSave (fun _ => trivial)) hst (Grid.synced_holds (Grid.subSave tileSave (fun _ => trivial))
      (fun _ _ hp h => sub_loads hp h) (fun _ h => ⟨rfl, by rw [(vr_inv hs hpow h1).1.tileSize]; exact h⟩) hst h2')

theorem diskHistory_requeried {τ φ : Type} [DiskLike τ φ] [Queried τ] [Overwrites τ φ] {env : Env} {b : Backend} {g0 : Grid τ} {fl : Fields} {F : Family} {s exact : Bool} {g u : Grid τ} {d : Disk (Grid.Root φ)}
    {A : Store} (h : DiskHistory env b g0 fl F s exact g d A) (hq : Requeried env g u) : DiskHistory env b g0 fl F s exact u d A := by
  unfold Requeried at hq
  induction hq with
  | refl => exact h
  | tail _ hq ih => exact ih.query hq

end Bathy
