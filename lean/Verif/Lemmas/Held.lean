import Verif.Lemmas.LeftBehind
import Verif.Lemmas.Reading

/-! Helper lemmas for C122: what calls that read leave as it is. -/

namespace Bathy

/-! ## Equivalence -/

class HeldEquiv (τ : Type) [HeldLike τ] : Prop where
  refl : ∀ t : τ, HeldLike.held t t
  symm : ∀ t u : τ, HeldLike.held t u → HeldLike.held u t
  trans : ∀ t u v : τ, HeldLike.held t u → HeldLike.held u v → HeldLike.held t v

instance : HeldEquiv Tile where
  refl _ := ⟨rfl, rfl, rfl, rfl, rfl, rfl, fun _ _ _ => rfl⟩
  symm _ _ h := ⟨h.data.symm, h.attrs.symm, h.idx.symm, h.edgesX.symm, h.edgesY.symm, h.resolutions.symm, fun r l hl => (h.layers r l hl).symm⟩
  trans _ _ _ h k := ⟨k.data.trans h.data, k.attrs.trans h.attrs, k.idx.trans h.idx, k.edgesX.trans h.edgesX, k.edgesY.trans h.edgesY,
    k.resolutions.trans h.resolutions, fun r l hl => (k.layers r l hl).trans (h.layers r l hl)⟩

theorem held_attrs {τ : Type} {g u v : Grid τ} (h : { u with tiles := g.tiles } = g) (k : { v with tiles := u.tiles } = u) : { v with tiles := g.tiles } = g := by
  rw [← h, ← k]

theorem held_attrs_symm {τ : Type} {g u : Grid τ} (h : { u with tiles := g.tiles } = g) : { g with tiles := u.tiles } = u := by
  rw [← h]

instance {τ : Type} [HeldLike τ] [HeldEquiv τ] : HeldEquiv (Grid τ) where
  refl _ := ⟨rfl, rfl, fun _ => Iff.rfl, fun _ t h => ⟨t, h, HeldEquiv.refl t⟩, fun _ t h => ⟨t, h, HeldEquiv.refl t⟩⟩
  symm g u h := ⟨held_attrs_symm h.attrs, h.shape.symm, fun k => (h.none k).symm,
    fun k t ht => (h.tilesOf k t ht).imp fun _ e => ⟨e.1, HeldEquiv.symm _ _ e.2⟩, fun k t ht => (h.tiles k t ht).imp fun _ e => ⟨e.1, HeldEquiv.symm _ _ e.2⟩⟩
  trans g u v h k := ⟨held_attrs h.attrs k.attrs, k.shape.trans h.shape, fun i => (k.none i).trans (h.none i),
    fun i t ht => by
      obtain ⟨w, hw, h1⟩ := h.tiles i t ht
      obtain ⟨x, hx, h2⟩ := k.tiles i w hw
      exact ⟨x, hx, HeldEquiv.trans _ _ _ h1 h2⟩,
    fun i t ht => by
      obtain ⟨w, hw, h1⟩ := k.tilesOf i t ht
      obtain ⟨x, hx, h2⟩ := h.tilesOf i w hw
      exact ⟨x, hx, HeldEquiv.trans _ _ _ h2 h1⟩⟩

/-! ## Queries -/

namespace Tile

theorem keys_set_of_get {κ ν : Type} [DecidableEq κ] {d : Dict κ ν} {k : κ} {w : ν} (h : d.get? k = some w) (v : ν) : (d.set k v).keys = d.keys :=
  Dict.keys_set_of_mem d k v ((Dict.has_iff d k).1 (by rw [← Dict.get?_isSome, h]; rfl))

theorem ensureLayer_keys {env : Env} {t u : Tile} {l : Layer} {r : ℚ} {n : Option ℚ} (h : ensureLayer env t l r n = .ok u) : u.cells.keys = t.cells.keys := by
  have fill : ∀ l u, fillLayer t l r n = .ok u → u.cells.keys = t.cells.keys := by
    intro l u h
    unfold fillLayer at h
    split at h
    · cases h
    · rename_i hls
      split at h
      · cases h; exact keys_set_of_get hls _
      · cases h
  have only : ∀ f c u, runPlainOnly f t r c = .ok u → u.cells.keys = t.cells.keys := by
    intro f c u h
    unfold runPlainOnly at h
    split at h
    · rename_i hls _ _
      split at h
      · simp only at h
        split at h
        · cases h
        · cases h; exact keys_set_of_get hls _
      · cases h
    · cases h
    · cases h
  have slopes : ∀ u, runSlopes env t r = .ok u → u.cells.keys = t.cells.keys := by
    intro u h
    unfold runSlopes at h
    split at h
    · cases h
    · rename_i hls
      split at h
      · cases h; rfl
      · split at h
        · split at h
          · cases h
          · cases h; exact keys_set_of_get hls _
        · cases h
        · cases h
  unfold ensureLayer at h
  split at h
  · exact slopes u h
  · exact slopes u h
  · split at h
    · split at h
      · exact only _ _ u h
      · exact only _ _ u h
      · cases h
      · cases h; rfl
    · exact fill _ u h
  · split at h
    · cases h; rfl
    · exact fill _ u h
  · cases h; rfl

theorem getLayer_keys (env : Env) (t : Tile) (l : Layer) (r n : Option ℚ) (z : Bool) : (getLayer env t l r n z).1.cells.keys = t.cells.keys := by
  unfold getLayer
  simp only
  split
  · rfl
  · split
    · rfl
    · rfl
    · split
      · rcases leftBehind_cases t l _ with e | ⟨c, ls, a, b, hls, e⟩ <;> rw [e]
        exact keys_set_of_get hls _
      · rename_i u hu
        split <;> exact ensureLayer_keys hu

theorem gridded_core (l : Layer) : l.gridded = l.isCore := by cases l <;> rfl

theorem held_getLayer (env : Env) (t : Tile) (l : Layer) (r n : Option ℚ) (z : Bool) : Held t (getLayer env t l r n z).1 where
  data := (getLayer_same env t l r n z).1.1
  attrs := getLayer_meta env t l r n z
  idx := (getLayer_same env t l r n z).2
  edgesX := (getLayer_core env t l r n z).1
  edgesY := (getLayer_core env t l r n z).2.1
  resolutions := getLayer_keys env t l r n z
  layers := by
    intro r' l' hl'
    rw [gridded_core] at hl'
    have h := (getLayer_core env t l r n z).2.2 r'
    unfold coreAt at h
    cases h1 : (getLayer env t l r n z).1.cells.get? r' <;> cases h2 : t.cells.get? r' <;> rw [h1, h2] at h
    · cases h
    · cases h
    · rename_i a b
      have h : core a = core b := by simpa using h
      show a.get? l' = b.get? l'
      rw [← core_get? a hl', ← core_get? b hl', h]

end Tile

theorem held_set {τ : Type} [HeldLike τ] [HeldEquiv τ] (g : Grid τ) (k : Nat) (t u : τ) (hk : g.tile? k = some (some t)) (h : HeldLike.held t u) :
    Grid.Held g (g.setTile k (some u)) := by
  have hT := hk
  unfold Grid.tile? at hT
  rw [Option.bind_eq_some_iff] at hT
  obtain ⟨T, hT, hkT⟩ := hT
  have hset : g.setTile k (some u) = { g with tiles := some (T.setFlat k (some u)) } := by unfold Grid.setTile; rw [hT]
  have hother : ∀ i, i ≠ k → (g.setTile k (some u)).tile? i = g.tile? i := by
    intro i hi
    rw [hset]
    unfold Grid.tile?
    rw [hT]
    simp only [Option.bind_some, Arr2.setFlat]
    rw [List.getElem?_set_ne (Ne.symm hi)]
  have hself := Grid.tile_setTile g hk (some u)
  refine ⟨by rw [hset], by rw [hset, hT]; rfl, fun i => ?_, fun i v hv => ?_, fun i v hv => ?_⟩
  · by_cases hi : i = k
    · subst hi; rw [hself, hk]; simp
    · rw [hother i hi]
  · by_cases hi : i = k
    · subst hi; rw [hk] at hv; cases hv; exact ⟨u, hself, h⟩
    · exact ⟨v, by rw [hother i hi]; exact hv, HeldEquiv.refl v⟩
  · by_cases hi : i = k
    · subst hi; rw [hself] at hv; cases hv; exact ⟨t, hk, h⟩
    · exact ⟨v, by rw [← hother i hi]; exact hv, HeldEquiv.refl v⟩

theorem carries_held (env : Env) : Carries env (HeldLike.held : Tile → Tile → Prop) (HeldLike.held : Grid Tile → Grid Tile → Prop) where
  refl := HeldEquiv.refl
  trans := HeldEquiv.trans
  query t l r nd z := Tile.held_getLayer env t l (some r) nd z
  grefl := HeldEquiv.refl
  gtrans := HeldEquiv.trans
  set := held_set

theorem carries_held_sub (env : Env) : Carries env (HeldLike.held : Grid Tile → Grid Tile → Prop) (HeldLike.held : Grid (Grid Tile) → Grid (Grid Tile) → Prop) where
  refl := HeldEquiv.refl
  trans := HeldEquiv.trans
  query := (carries_held env).sub
  grefl := HeldEquiv.refl
  gtrans := HeldEquiv.trans
  set := held_set

end Bathy
