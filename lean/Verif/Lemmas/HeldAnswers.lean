import Verif.Lemmas.Held

/-! Helper lemmas for C122: answers for layers of soundings depend on what is held only. -/

namespace Bathy

/-- objects of which the answers for the layers they can be asked for depend on what is held only -/
class HeldAnswers (τ : Type) [LayerLike τ] [HeldLike τ] [AskLike τ] : Prop where
  ask : ∀ (t u : τ) (l : Layer), HeldLike.held t u → AskLike.askable t l → AskLike.askable u l
  hasCells : ∀ t u : τ, HeldLike.held t u → LayerLike.hasCells u = LayerLike.hasCells t
  probe : ∀ t u : τ, HeldLike.held t u → LayerLike.probe u = LayerLike.probe t
  geo : ∀ (t u : τ) (r : ℚ), HeldLike.held t u → LayerLike.geo u r = LayerLike.geo t r
  answer : ∀ (env : Env) (t u : τ) (l : Layer) (r : ℚ) (nd : Option ℚ) (z : Bool), HeldLike.held t u → AskLike.askable t l →
    (LayerLike.getLayer env u l r nd z).2 = (LayerLike.getLayer env t l r nd z).2

namespace Tile

theorem held_isEmpty {t u : Tile} (h : Held t u) : u.cells.isEmpty = t.cells.isEmpty := by
  have := congrArg List.length h.resolutions
  unfold Dict.keys at this
  rw [List.length_map, List.length_map] at this
  cases h1 : u.cells <;> cases h2 : t.cells <;> rw [h1, h2] at this <;> simp_all

theorem held_queryRes {t u : Tile} (h : Held t u) (r : ℚ) : queryResolution u (some r) = queryResolution t (some r) := by
  have hk := h.resolutions
  have hhas : ∀ r, u.cells.has r = t.cells.has r := by
    intro r
    rw [Bool.eq_iff_iff, Dict.has_iff, Dict.has_iff, hk]
  have hlen : u.cells.length = t.cells.length := by
    have := congrArg List.length hk
    unfold Dict.keys at this
    rwa [List.length_map, List.length_map] at this
  have hhead : u.cells.head?.map Prod.fst = t.cells.head?.map Prod.fst := by
    have := congrArg List.head? hk
    unfold Dict.keys at this
    rwa [List.head?_map, List.head?_map] at this
  unfold queryResolution
  simp only [hhas, hlen]
  cases h1 : u.cells <;> cases h2 : t.cells <;> rw [h1, h2] at hhead <;> simp_all

theorem held_ask {t u : Tile} (h : Held t u) {l : Layer} (hl : t.Askable l) : u.Askable l := by
  have hc : u.container = t.container := congrArg TileMeta.container h.attrs
  have ha : u.algorithm = t.algorithm := congrArg TileMeta.algorithm h.attrs
  have he : u.cells = [] ↔ t.cells = [] := by
    have := held_isEmpty h
    rw [← List.isEmpty_iff, ← List.isEmpty_iff, this]
  unfold Askable at hl ⊢
  cases l <;> simp only [hc, ha, he] at hl ⊢ <;> exact hl

/-- the answer of a tile, from what `ensureLayer` makes -/
theorem getLayer_answer (env : Env) (t : Tile) (l : Layer) (r : ℚ) (nd : Option ℚ) (z : Bool) :
    (getLayer env t l (some r) nd z).2 = if t.isEmpty then .ok none else
      match queryResolution t (some r) with
      | .error e => .error e
      | .ok none => .ok none
      | .ok (some r) =>
        match (ensureLayer env t l r (nodataFor l nd)).map (fun v => (v.cells.get? r).bind (fun ls => ls.get? l)) with
        | .error e => .error e
        | .ok none => .error .valueError
        | .ok (some a) => .ok (finishLayer l (nodataFor l nd) z a) := by
  unfold getLayer
  simp only
  split
  · rfl
  · cases queryResolution t (some r) with
    | error e => rfl
    | ok o =>
      cases o with
      | none => rfl
      | some r' =>
        simp only
        cases ensureLayer env t l r' (nodataFor l nd) with
        | error e => rfl
        | ok v =>
          simp only [Except.map]
          cases (v.cells.get? r').bind (fun ls => ls.get? l) <;> rfl

theorem runPlainOnly_layer {f : List ℚ → List Int → GridArrays → List ℚ → List ℚ → Except Err GridArrays} {t u : Tile} (h : Held t u) (r : ℚ) (c : String) :
    (runPlainOnly f u r c).map (fun v => (v.cells.get? r).bind (fun ls => ls.get? (.cont c))) =
      (runPlainOnly f t r c).map (fun v => (v.cells.get? r).bind (fun ls => ls.get? (.cont c))) := by
  have hc : u.container = t.container := congrArg TileMeta.container h.attrs
  have hk : u.depthKey = t.depthKey := by unfold depthKey; rw [show u.isBackscatter = t.isBackscatter from congrArg TileMeta.isBackscatter h.attrs]
  have hl := h.layers r t.depthKey (by rw [gridded_core]; exact depthKey_core t)
  have hs : (u.cells.get? r).isSome = (t.cells.get? r).isSome := by
    rw [Dict.get?_isSome, Dict.get?_isSome, Bool.eq_iff_iff, Dict.has_iff, Dict.has_iff, h.resolutions]
  unfold runPlainOnly
  rw [h.data, h.idx, hc, hk]
  cases h1 : u.cells.get? r <;> cases h2 : t.cells.get? r <;> rw [h1, h2] at hs hl
  · cases t.data <;> rfl
  · cases hs
  · cases hs
  · rename_i a b
    have hl : a.get? t.depthKey = b.get? t.depthKey := hl
    cases t.data with
    | none => rfl
    | some d =>
      cases t.cellIdx.get? r with
      | none => rfl
      | some ci =>
        cases t.container.get? c with
        | none => rfl
        | some se =>
          obtain ⟨x, y⟩ := se
          simp only
          rw [hl]
          cases b.get? t.depthKey with
          | none => rfl
          | some dg =>
            simp only
            split
            · rfl
            · simp only [Except.map, Except.ok.injEq]
              rw [Dict.get?_set_self, Dict.get?_set_self, Option.bind_some, Option.bind_some, Dict.get?_set_ne _ _ (by simp), Dict.get?_set_self, Dict.get?_set_ne _ _ (by simp), Dict.get?_set_self]

theorem fillLayer_layer {t u : Tile} (h : Held t u) (l : Layer) (r : ℚ) (nd : Option ℚ) :
    (fillLayer u l r nd).map (fun v => (v.cells.get? r).bind (fun ls => ls.get? l)) = (fillLayer t l r nd).map (fun v => (v.cells.get? r).bind (fun ls => ls.get? l)) := by
  have hk : u.depthKey = t.depthKey := by unfold depthKey; rw [show u.isBackscatter = t.isBackscatter from congrArg TileMeta.isBackscatter h.attrs]
  have hl := h.layers r t.depthKey (by rw [gridded_core]; exact depthKey_core t)
  have hs : (u.cells.get? r).isSome = (t.cells.get? r).isSome := by
    rw [Dict.get?_isSome, Dict.get?_isSome, Bool.eq_iff_iff, Dict.has_iff, Dict.has_iff, h.resolutions]
  unfold fillLayer
  rw [hk]
  cases h1 : u.cells.get? r <;> cases h2 : t.cells.get? r <;> rw [h1, h2] at hs hl
  · cases hs
  · cases hs
  · rename_i a b
    have hl : a.get? t.depthKey = b.get? t.depthKey := hl
    simp only
    rw [hl]
    cases b.get? t.depthKey with
    | none => rfl
    | some dg =>
      simp only [Except.map, Except.ok.injEq]
      rw [Dict.get?_set_self, Dict.get?_set_self, Option.bind_some, Option.bind_some, Dict.get?_set_self, Dict.get?_set_self]

theorem held_ensure (env : Env) {t u : Tile} (h : Held t u) {l : Layer} (hl : t.Askable l) {r : ℚ} (hr : t.cells ≠ []) (nd : Option ℚ) :
    (ensureLayer env u l r nd).map (fun v => (v.cells.get? r).bind (fun ls => ls.get? l)) = (ensureLayer env t l r nd).map (fun v => (v.cells.get? r).bind (fun ls => ls.get? l)) := by
  have hc : u.container = t.container := congrArg TileMeta.container h.attrs
  have ha : u.algorithm = t.algorithm := congrArg TileMeta.algorithm h.attrs
  cases l with
  | xSlope => exact hl.elim
  | ySlope => exact hl.elim
  | cont c =>
    unfold ensureLayer
    simp only
    rw [hc, ha]
    by_cases hh : t.container.has c = true
    · rw [if_pos hh, if_pos hh]
      rcases hl hh with e | e | e | e
      · exact absurd e hr
      · rw [e]; exact runPlainOnly_layer h r c
      · rw [e]; exact runPlainOnly_layer h r c
      · rw [e]
    · rw [if_neg hh, if_neg hh]; exact fillLayer_layer h _ r nd
  | contDensity c =>
    unfold ensureLayer
    simp only
    have hl : t.container.has (c ++ "_density") = false := hl
    rw [hc, hl]
    exact fillLayer_layer h _ r nd
  | _ =>
    show Except.ok ((u.cells.get? r).bind (fun ls => ls.get? _)) = Except.ok ((t.cells.get? r).bind (fun ls => ls.get? _))
    rw [h.layers r _ rfl]

theorem held_answer (env : Env) {t u : Tile} (h : Held t u) {l : Layer} (hl : t.Askable l) (r : ℚ) (nd : Option ℚ) (z : Bool) :
    (getLayer env u l (some r) nd z).2 = (getLayer env t l (some r) nd z).2 := by
  have hemp : u.isEmpty = t.isEmpty := by unfold isEmpty pointsCount; rw [h.data]
  rw [getLayer_answer, getLayer_answer, hemp, held_queryRes h]
  split
  · rfl
  · cases hq : queryResolution t (some r) with
    | error e => rfl
    | ok o =>
      cases o with
      | none => rfl
      | some r' =>
        have hr : t.cells ≠ [] := by
          intro h0
          unfold queryResolution at hq
          rw [h0] at hq
          simp only [Dict.has, List.any_nil, List.length_nil] at hq
          split at hq
          · split at hq <;> cases hq
          · simp at hq
        simp only
        rw [held_ensure env h hl hr]

end Tile

instance : HeldAnswers Tile where
  ask t u l h hl := Tile.held_ask h hl
  hasCells t u h := by show Except.ok (!u.cells.isEmpty) = Except.ok (!t.cells.isEmpty); rw [Tile.held_isEmpty h]
  probe t u h := by show Except.ok (!u.cells.isEmpty) = Except.ok (!t.cells.isEmpty); rw [Tile.held_isEmpty h]
  geo t u r h := by
    show Tile.geo u r = Tile.geo t r
    have hhas : u.cells.has r = t.cells.has r := by rw [Bool.eq_iff_iff, Dict.has_iff, Dict.has_iff, h.resolutions]
    unfold Tile.geo
    rw [hhas, show u.minX = t.minX from congrArg TileMeta.minX h.attrs, show u.maxY = t.maxY from congrArg TileMeta.maxY h.attrs]
  answer env t u l r nd z h hl := Tile.held_answer env h hl r nd z

namespace Grid
variable {τ : Type} [LayerLike τ] [HeldLike τ] [AskLike τ] [HeldAnswers τ]

omit [LayerLike τ] [AskLike τ] [HeldAnswers τ] in
theorem held_field {α : Type} {g u : Grid τ} (h : Held g u) (f : Grid τ → α) (hf : ∀ (g : Grid τ) T, f { g with tiles := T } = f g) : f u = f g :=
  (hf u g.tiles).symm.trans (congrArg f h.attrs)

omit [LayerLike τ] [AskLike τ] [HeldAnswers τ] in
theorem held_tile_none {g u : Grid τ} (h : Held g u) (k : Nat) : u.tile? k = none ↔ g.tile? k = none := by
  constructor
  · intro hn
    cases hc : g.tile? k with
    | none => rfl
    | some o =>
      cases o with
      | none => rw [(h.none _).2 hc] at hn; cases hn
      | some t => obtain ⟨v, hv, -⟩ := h.tiles _ _ hc; rw [hv] at hn; cases hn
  · intro hn
    cases hc : u.tile? k with
    | none => rfl
    | some o =>
      cases o with
      | none => rw [(h.none _).1 hc] at hn; cases hn
      | some t => obtain ⟨v, hv, -⟩ := h.tilesOf _ _ hc; rw [hv] at hn; cases hn

omit [LayerLike τ] [AskLike τ] [HeldAnswers τ] in
theorem held_get {g u : Grid τ} (h : Held g u) {T : Arr2 (Option τ)} (hT : g.tiles = some T) :
    ∃ U, u.tiles = some U ∧ U.rows = T.rows ∧ U.cols = T.cols ∧ ∀ i j, (U.get? i j = none ↔ T.get? i j = none) ∧ (U.get? i j = some none ↔ T.get? i j = some none) ∧
      ∀ t, T.get? i j = some (some t) → ∃ v, U.get? i j = some (some v) ∧ HeldLike.held t v := by
  have hs := h.shape
  rw [hT] at hs
  cases hU : u.tiles with
  | none => rw [hU] at hs; cases hs
  | some U =>
    rw [hU] at hs
    simp only [Option.map_some, Option.some.injEq, Prod.mk.injEq] at hs
    refine ⟨U, rfl, hs.1, hs.2, fun i j => ?_⟩
    have hg : ∀ k, g.tile? k = T.flat[k]? := by intro k; unfold tile?; rw [hT]; rfl
    have hu : ∀ k, u.tile? k = U.flat[k]? := by intro k; unfold tile?; rw [hU]; rfl
    unfold Arr2.get?
    rw [hs.1, hs.2]
    split
    · rw [← hg, ← hu]
      exact ⟨held_tile_none h _, h.none _, h.tiles _⟩
    · exact ⟨Iff.rfl, Iff.rfl, fun t ht => by cases ht⟩

omit [LayerLike τ] [AskLike τ] [HeldAnswers τ] in
theorem held_present {g u : Grid τ} (h : Held g u) : List.Forall₂ HeldLike.held g.present u.present := by
  have hs := h.shape
  unfold present
  cases hT : g.tiles with
  | none =>
    cases hU : u.tiles with
    | none => exact List.Forall₂.nil
    | some U => rw [hT, hU] at hs; cases hs
  | some T =>
    cases hU : u.tiles with
    | none => rw [hT, hU] at hs; cases hs
    | some U =>
      have hg : ∀ k, g.tile? k = T.flat[k]? := by intro k; unfold tile?; rw [hT]; rfl
      have hu : ∀ k, u.tile? k = U.flat[k]? := by intro k; unfold tile?; rw [hU]; rfl
      have main : ∀ (a b : List (Option τ)), (∀ k : Nat, b[k]? = some none ↔ a[k]? = some none) → (∀ (k : Nat) t, a[k]? = some (some t) → ∃ v, b[k]? = some (some v) ∧ HeldLike.held t v) →
          (∀ (k : Nat) v, b[k]? = some (some v) → ∃ t, a[k]? = some (some t) ∧ HeldLike.held t v) → List.Forall₂ HeldLike.held (a.filterMap id) (b.filterMap id) := by
        intro a
        induction a with
        | nil =>
          intro b h1 h2 h3
          cases b with
          | nil => exact List.Forall₂.nil
          | cons o b =>
            cases o with
            | none => have := (h1 0).1 rfl; cases this
            | some v => obtain ⟨t, ht, -⟩ := h3 0 v rfl; cases ht
        | cons o a ih =>
          intro b h1 h2 h3
          cases b with
          | nil =>
            cases o with
            | none => have := (h1 0).2 rfl; cases this
            | some v => obtain ⟨t, ht, -⟩ := h2 0 v rfl; cases ht
          | cons p b =>
            have ih' := ih b (fun k => h1 (k + 1)) (fun k => h2 (k + 1)) (fun k => h3 (k + 1))
            cases o with
            | none =>
              have := (h1 0).2 rfl
              cases this
              exact ih'
            | some t =>
              obtain ⟨v, hv, hh⟩ := h2 0 t rfl
              cases hv
              exact List.Forall₂.cons hh ih'
      exact main T.flat U.flat (fun k => by rw [← hg, ← hu]; exact h.none k) (fun k t ht => by rw [← hu]; exact h.tiles k t (by rw [hg]; exact ht))
        (fun k t ht => by rw [← hg]; exact h.tilesOf k t (by rw [hu]; exact ht))

theorem ask_held {g u : Grid τ} (h : Held g u) {l : Layer} (hl : g.Askable l) : u.Askable l := by
  intro k v hv
  obtain ⟨t, ht, hh⟩ := h.tilesOf k v hv
  exact HeldAnswers.ask _ _ _ hh (hl k t ht)

theorem held_noGrid {g u : Grid τ} (h : Held g u) : u.noGrid = g.noGrid := by
  have hp := held_present h
  have hs := h.shape
  unfold noGrid
  cases hT : g.tiles with
  | none =>
    cases hU : u.tiles with
    | none => rfl
    | some U => rw [hT, hU] at hs; cases hs
  | some T =>
    cases hU : u.tiles with
    | none => rw [hT, hU] at hs; cases hs
    | some U =>
      simp only
      revert hp
      generalize g.present = a
      generalize u.present = b
      intro hp
      cases hp with
      | nil => rfl
      | cons hh _ => simp only [List.head?_cons]; rw [HeldAnswers.probe _ _ hh]

theorem held_probe {g u : Grid τ} (h : Held g u) : u.probe = g.probe := by
  have hp := held_present h
  unfold probe
  have key : ∀ {a b : List τ}, List.Forall₂ HeldLike.held a b → (match b.getLast? with | none => .error .attributeError | some t => LayerLike.hasCells t : Except Err Bool) =
      match a.getLast? with | none => .error .attributeError | some t => LayerLike.hasCells t := by
    intro a b hab
    induction hab with
    | nil => rfl
    | @cons x y a b hh ht ih =>
      cases ht with
      | nil => exact HeldAnswers.hasCells _ _ hh
      | cons h1 h2 =>
        rw [List.getLast?_cons_cons, List.getLast?_cons_cons]
        exact ih
  exact key hp

theorem held_tileLayers {env : Env} {R' : Grid τ → Grid τ → Prop} [HeldEquiv τ] (C : Carries env (HeldLike.held : τ → τ → Prop) R') (res : ℚ) (nd : Option ℚ) (z : Bool) {ls : List Layer} :
    ∀ (t u : τ) (d : Dict Layer LayerArr), HeldLike.held t u → (∀ l ∈ ls, AskLike.askable t l) →
      (tileLayersFrom env res nd z u d ls).2 = (tileLayersFrom env res nd z t d ls).2 := by
  induction ls with
  | nil => exact fun _ _ _ _ _ => rfl
  | cons l ls ih =>
    intro t u d h hl
    have ha := HeldAnswers.answer env t u l res nd z h (hl l List.mem_cons_self)
    have h1 := C.query t l res nd z
    have h2 := C.query u l res nd z
    have h3 := HeldEquiv.trans _ _ _ (HeldEquiv.trans _ _ _ (HeldEquiv.symm _ _ h1) h) h2
    have hl' : ∀ k ∈ ls, AskLike.askable (LayerLike.getLayer env t l res nd z).1 k := fun k hm => HeldAnswers.ask _ _ _ h1 (hl k (List.mem_cons_of_mem _ hm))
    unfold tileLayersFrom
    revert ha h3 hl'
    generalize LayerLike.getLayer env u l res nd z = x
    generalize LayerLike.getLayer env t l res nd z = y
    intro ha h3 hl'
    obtain ⟨x1, x2⟩ := x
    obtain ⟨y1, y2⟩ := y
    simp only at ha h3 hl'
    subst ha
    cases x2 with
    | error e => rfl
    | ok o =>
      cases o with
      | none => exact ih _ _ _ h3 hl'
      | some a => exact ih _ _ _ h3 hl'

theorem held_tileData {env : Env} {R' : Grid τ → Grid τ → Prop} [HeldEquiv τ] (C : Carries env (HeldLike.held : τ → τ → Prop) R') (res : ℚ) (nd : Option ℚ) (z : Bool) {ls : List Layer}
    {g u : Grid τ} (hl : ∀ l ∈ ls, g.Askable l) (h : Held g u) (row col : Nat) :
    (u.getTileData env row col res ls nd z).2 = (g.getTileData env row col res ls nd z).2 := by
  have hup : u.positiveUp = g.positiveUp := by unfold positiveUp; rw [show u.info = g.info from held_field h (fun x => x.info) (fun _ _ => rfl)]
  have hts : u.tileSize = g.tileSize := held_field h (fun x => x.tileSize) (fun _ _ => rfl)
  unfold getTileData
  simp only [hup, hts]
  cases hT : g.tiles with
  | none =>
    have hs := h.shape
    rw [hT] at hs
    cases hU : u.tiles with
    | none => rfl
    | some U => rw [hU] at hs; cases hs
  | some T =>
    obtain ⟨U, hU, hr, hc, hget⟩ := held_get h hT
    obtain ⟨h1, h2, h3⟩ := hget row col
    rw [hU]
    simp only
    cases hg : T.get? row col with
    | none => rw [h1.2 hg]
    | some o =>
      cases o with
      | none =>
        rw [h2.2 hg]
        simp only
        split <;> rfl
      | some t =>
        obtain ⟨v, hv, hh⟩ := h3 t hg
        rw [hv]
        simp only
        split
        · rfl
        · have hk : g.tile? (row * T.cols + col) = some (some t) := by
            unfold tile?
            rw [hT]
            unfold Arr2.get? at hg
            split at hg
            · exact hg
            · cases hg
          have ht := held_tileLayers C res nd (if g.positiveUp then !z else z) t v [] hh (fun l hm => hl l hm _ _ hk)
          rw [ht]
          split
          · rfl
          · rw [HeldAnswers.geo t v res hh]

omit [LayerLike τ] [AskLike τ] [HeldAnswers τ] in
/-- two grids that hold the same, after the same call -/
theorem held_after [HeldEquiv τ] {R : Grid τ → Grid τ → Prop} (hR : ∀ g u, R g u → Held g u) {g u g' u' : Grid τ} (h : Held g u) (h1 : R g g') (h2 : R u u') : Held g' u' := by
  have a : HeldLike.held g g' := hR _ _ h1
  have b : HeldLike.held g u := h
  have c : HeldLike.held u u' := hR _ _ h2
  exact HeldEquiv.trans g' g u' (HeldEquiv.symm g g' a) (HeldEquiv.trans g u u' b c)

/-- the answer for layers -/
theorem held_layers {env : Env} [HeldEquiv τ] (C : Carries env (HeldLike.held : τ → τ → Prop) (Held : Grid τ → Grid τ → Prop)) {ls : List Layer}
    {g u : Grid τ} (hl : ∀ l ∈ ls, g.Askable l) (h : Held g u) (res nd : Option ℚ) (z : Bool) : (u.getLayersByName env ls res nd z).2 = (g.getLayersByName env ls res nd z).2 := by
  have hres : u.resolutions = g.resolutions := held_field h (fun x => x.resolutions) (fun _ _ => rfl)
  have hh : u.height = g.height := held_field h (fun x => x.height) (fun _ _ => rfl)
  have hw : u.width = g.width := held_field h (fun x => x.width) (fun _ _ => rfl)
  have hq : u.queryRes res = g.queryRes res := by unfold queryRes; rw [hres]
  have hb : ∀ r, u.buildLayerGrid r nd = g.buildLayerGrid r nd := by
    intro r; funext l; unfold buildLayerGrid; rw [hh, hw]
  have hsl : u.slots = g.slots := by
    have hs := h.shape
    have hn := held_tile_none h
    unfold slots
    unfold tile? at hn
    cases hT : g.tiles with
    | none =>
      cases hU : u.tiles with
      | none => rfl
      | some U => rw [hT, hU] at hs; cases hs
    | some T =>
      cases hU : u.tiles with
      | none => rw [hT, hU] at hs; cases hs
      | some U =>
        rw [hT, hU] at hn
        simp only [Option.bind_some, List.getElem?_eq_none_iff] at hn
        exact le_antisymm ((hn _).2 (le_refl _)) ((hn _).1 (le_refl _))
  unfold getLayersByName
  rw [held_noGrid h, hq]
  split
  · rfl
  · rfl
  · split
    · rfl
    · rename_i r _
      rw [hb]
      split
      · rfl
      · rename_i data _
        rw [hsl]
        have key : ∀ (ks : List Nat) (s s' : MosaicState τ), (∀ l ∈ ls, s.grid.Askable l) → Held s.grid s'.grid → s'.data = s.data → s'.empty = s.empty →
            (Res.forEach ks s' (mosaicStep env r ls nd z)).err = (Res.forEach ks s (mosaicStep env r ls nd z)).err ∧
            (Res.forEach ks s' (mosaicStep env r ls nd z)).st.data = (Res.forEach ks s (mosaicStep env r ls nd z)).st.data ∧
            (Res.forEach ks s' (mosaicStep env r ls nd z)).st.empty = (Res.forEach ks s (mosaicStep env r ls nd z)).st.empty := by
          intro ks
          induction ks with
          | nil => exact fun s s' _ _ h1 h2 => ⟨rfl, h1, h2⟩
          | cons k ks ih =>
            intro s s' hl hs h1 h2
            have hA : ∀ l ∈ ls, (mosaicStep env r ls nd z s k).st.grid.Askable l := by
              have hG : Held s.grid (mosaicStep env r ls nd z s k).st.grid := by
                unfold mosaicStep
                cases hk : s.grid.tile? k with
                | none => exact (HeldEquiv.refl s.grid : HeldLike.held s.grid s.grid)
                | some o =>
                  cases o with
                  | none => exact (HeldEquiv.refl s.grid : HeldLike.held s.grid s.grid)
                  | some t =>
                    simp only
                    have c1 := C.tileData s.grid (k / s.grid.txs.length) (k % s.grid.txs.length) r ls nd z
                    revert c1
                    generalize s.grid.getTileData env (k / s.grid.txs.length) (k % s.grid.txs.length) r ls nd z = y
                    obtain ⟨y1, y2⟩ := y
                    intro c1
                    cases y2 with
                    | error e => exact c1
                    | ok d =>
                      simp only
                      cases pasteAll d.row0 d.col0 d.cells s.data d.data <;> exact c1
              exact fun l hm => ask_held hG (hl l hm)
            have hstep : (mosaicStep env r ls nd z s' k).err = (mosaicStep env r ls nd z s k).err ∧ Held (mosaicStep env r ls nd z s k).st.grid (mosaicStep env r ls nd z s' k).st.grid ∧
                (mosaicStep env r ls nd z s' k).st.data = (mosaicStep env r ls nd z s k).st.data ∧ (mosaicStep env r ls nd z s' k).st.empty = (mosaicStep env r ls nd z s k).st.empty := by
              have htx : s'.grid.txs = s.grid.txs := held_field hs (fun x => x.txs) (fun _ _ => rfl)
              unfold mosaicStep
              rw [htx]
              cases hk : s.grid.tile? k with
              | none =>
                rw [(held_tile_none hs k).2 hk]
                exact ⟨rfl, hs, h1, h2⟩
              | some o =>
                cases o with
                | none => rw [(hs.none k).2 hk]; exact ⟨rfl, hs, h1, h2⟩
                | some t =>
                  obtain ⟨v, hv, -⟩ := hs.tiles k t hk
                  rw [hv]
                  simp only
                  have ha := held_tileData C r nd z hl hs (k / s.grid.txs.length) (k % s.grid.txs.length)
                  have c1 := C.tileData s.grid (k / s.grid.txs.length) (k % s.grid.txs.length) r ls nd z
                  have c2 := C.tileData s'.grid (k / s.grid.txs.length) (k % s.grid.txs.length) r ls nd z
                  have c3 : Held _ _ := held_after (R := Held) (fun _ _ h => h) hs c1 c2
                  revert ha c3
                  generalize s'.grid.getTileData env (k / s.grid.txs.length) (k % s.grid.txs.length) r ls nd z = x
                  generalize s.grid.getTileData env (k / s.grid.txs.length) (k % s.grid.txs.length) r ls nd z = y
                  intro ha c3
                  obtain ⟨x1, x2⟩ := x
                  obtain ⟨y1, y2⟩ := y
                  simp only at ha c3
                  subst ha
                  cases x2 with
                  | error e => exact ⟨rfl, c3, h1, h2⟩
                  | ok d =>
                    simp only
                    rw [h1]
                    cases pasteAll d.row0 d.col0 d.cells s.data d.data with
                    | error e => exact ⟨rfl, c3, rfl, h2⟩
                    | ok data => exact ⟨rfl, c3, rfl, by simp only [Res.ok_st]; rw [h2]⟩
            rw [Res.forEach_cons, Res.forEach_cons]
            unfold Res.andThen
            rw [hstep.1]
            cases (mosaicStep env r ls nd z s k).err with
            | none => exact ih _ _ hA hstep.2.1 hstep.2.2.1 hstep.2.2.2
            | some e => exact ⟨rfl, hstep.2.2.1, hstep.2.2.2⟩
        obtain ⟨k1, k2, k3⟩ := key (List.range g.slots) ⟨g, data, true⟩ ⟨u, data, true⟩ hl h rfl rfl
        simp only [k1, k2, k3]
        split <;> rfl

theorem held_trimmed {env : Env} [HeldEquiv τ] (C : Carries env (HeldLike.held : τ → τ → Prop) (Held : Grid τ → Grid τ → Prop)) {ls : List Layer}
    {g u : Grid τ} (hl : ∀ l ∈ ls, g.Askable l) (h : Held g u) (res nd : Option ℚ) (z : Bool) : (u.getLayersTrimmed env ls res nd z).2 = (g.getLayersTrimmed env ls res nd z).2 := by
  have ha := held_layers C hl h res nd z
  unfold getLayersTrimmed
  revert ha
  generalize u.getLayersByName env ls res nd z = x
  generalize g.getLayersByName env ls res nd z = y
  obtain ⟨x1, x2⟩ := x
  obtain ⟨y1, y2⟩ := y
  intro ha
  simp only at ha
  subst ha
  cases x2 <;> rfl

theorem held_surf {env : Env} [HeldEquiv τ] (C : Carries env (HeldLike.held : τ → τ → Prop) (Held : Grid τ → Grid τ → Prop)) {ls : List Layer}
    {g u : Grid τ} (hl : ∀ l ∈ ls, g.Askable l) (h : Held g u) (res : Option ℚ) (b : Bool) (nd : Option ℚ) : (u.returnSurf env ls res b nd).2 = (g.returnSurf env ls res b nd).2 := by
  have hq : u.queryRes res = g.queryRes res := by
    unfold queryRes; rw [show u.resolutions = g.resolutions from held_field h (fun x => x.resolutions) (fun _ _ => rfl)]
  unfold returnSurf
  rw [held_noGrid h, hq]
  split
  · rfl
  · rfl
  · split
    · rfl
    · rename_i r _
      have ha := held_trimmed C hl h (some r) nd false
      have c := held_after (R := Held) (fun _ _ h => h) h (C.trimmed g ls (some r) nd false) (C.trimmed u ls (some r) nd false)
      revert ha c
      generalize u.getLayersTrimmed env ls (some r) nd false = x
      generalize g.getLayersTrimmed env ls (some r) nd false = y
      obtain ⟨x1, x2⟩ := x
      obtain ⟨y1, y2⟩ := y
      intro ha c
      simp only at ha c
      subst ha
      cases x2 with
      | error e => rfl
      | ok s =>
        simp only
        rw [show x1.extents = y1.extents from held_field c (fun x => x.extents) (fun _ _ => rfl)]
        split
        · rfl
        · split <;> rfl

theorem held_values {env : Env} [HeldEquiv τ] (C : Carries env (HeldLike.held : τ → τ → Prop) (Held : Grid τ → Grid τ → Prop)) {l : Layer}
    {g u : Grid τ} (hl : g.Askable l) (h : Held g u) (x y : LocArg) (res nd : Option ℚ) : (u.layerValuesAt env x y l res nd).2 = (g.layerValuesAt env x y l res nd).2 := by
  have hone : ∀ {g : Grid τ}, g.Askable l → ∀ k ∈ [l], g.Askable k := by
    intro g hl k hk
    rw [List.mem_singleton] at hk
    exact hk ▸ hl
  have hq : u.queryList res = g.queryList res := by
    unfold queryList; rw [show u.resolutions = g.resolutions from held_field h (fun x => x.resolutions) (fun _ _ => rfl)]
  have hvs : ∀ (locs : List (ℚ × ℚ)) (rs : List ℚ) (g u : Grid τ) (vs : List (Option ℚ)), g.Askable l → Held g u → (Grid.valuesLoop env l nd locs rs u vs).2 = (Grid.valuesLoop env l nd locs rs g vs).2 := by
    intro locs rs
    induction rs with
    | nil => exact fun _ _ _ _ _ => rfl
    | cons r rs ih =>
      intro g u vs hl h
      unfold valuesLoop
      split
      · have ha := held_surf C (hone hl) h (some r) true nd
        have c := held_after (R := Held) (fun _ _ h => h) h (C.surf g [l] (some r) true nd) (C.surf u [l] (some r) true nd)
        have hA := ask_held (C.surf g [l] (some r) true nd) hl
        revert ha c hA
        generalize u.returnSurf env [l] (some r) true nd = x
        generalize g.returnSurf env [l] (some r) true nd = y
        obtain ⟨x1, x2⟩ := x
        obtain ⟨y1, y2⟩ := y
        intro ha c hA
        simp only at ha c hA
        subst ha
        cases x2 with
        | error e => rfl
        | ok s =>
          simp only
          split
          · rfl
          · exact ih _ _ _ hA c
      · rfl
  have hv : ∀ (p : ℚ × ℚ) (rs : List ℚ) (g u : Grid τ) (v : Option ℚ), g.Askable l → Held g u → (Grid.valueLoop env l nd p rs u v).2 = (Grid.valueLoop env l nd p rs g v).2 := by
    intro p rs
    induction rs with
    | nil => exact fun _ _ _ _ _ => rfl
    | cons r rs ih =>
      intro g u v hl h
      unfold valueLoop
      split
      · have ha := held_surf C (hone hl) h (some r) true nd
        have c := held_after (R := Held) (fun _ _ h => h) h (C.surf g [l] (some r) true nd) (C.surf u [l] (some r) true nd)
        have hA := ask_held (C.surf g [l] (some r) true nd) hl
        revert ha c hA
        generalize u.returnSurf env [l] (some r) true nd = x
        generalize g.returnSurf env [l] (some r) true nd = y
        obtain ⟨x1, x2⟩ := x
        obtain ⟨y1, y2⟩ := y
        intro ha c hA
        simp only at ha c hA
        subst ha
        cases x2 with
        | error e => rfl
        | ok s =>
          simp only
          split
          · rfl
          · exact ih _ _ _ hA c
          · exact ih _ _ _ hA c
      · rfl
  have ht : ∀ (vs : List (Option ℚ)) (rs : List ℚ), (Grid.tupleLoop env l nd u vs rs).2 = (Grid.tupleLoop env l nd g vs rs).2 := by
    intro vs rs
    cases rs with
    | nil => rfl
    | cons r rs =>
      simp only [tupleLoop]
      split
      · have ha := held_surf C (hone hl) h (some r) true nd
        revert ha
        generalize u.returnSurf env [l] (some r) true nd = x
        generalize g.returnSurf env [l] (some r) true nd = y
        obtain ⟨x1, x2⟩ := x
        obtain ⟨y1, y2⟩ := y
        intro ha
        simp only at ha
        subst ha
        cases x2 <;> rfl
      · rfl
  unfold layerValuesAt
  rw [hq]
  split
  · rfl
  · rename_i xs ys _
    unfold layerValuesAtXY
    rw [hq]
    have ha := hvs (xs.zip ys) (g.queryList res) g u ((xs.zip ys).map (fun _ => nd)) hl h
    revert ha
    generalize Grid.valuesLoop env l nd (xs.zip ys) (g.queryList res) u ((xs.zip ys).map (fun _ => nd)) = x
    generalize Grid.valuesLoop env l nd (xs.zip ys) (g.queryList res) g ((xs.zip ys).map (fun _ => nd)) = y
    obtain ⟨x1, x2⟩ := x
    obtain ⟨y1, y2⟩ := y
    intro ha
    simp only at ha
    subst ha
    cases x2 <;> rfl
  · rename_i xs _ _
    have ha := ht (xs.map (fun _ => nd)) (g.queryList res)
    revert ha
    generalize Grid.tupleLoop env l nd u (xs.map (fun _ => nd)) (g.queryList res) = x
    generalize Grid.tupleLoop env l nd g (xs.map (fun _ => nd)) (g.queryList res) = y
    obtain ⟨x1, x2⟩ := x
    obtain ⟨y1, y2⟩ := y
    intro ha
    simp only at ha
    subst ha
    cases x2 <;> rfl
  · rename_i a b _
    have ha := hv (a, b) (g.queryList res) g u nd hl h
    revert ha
    generalize Grid.valueLoop env l nd (a, b) (g.queryList res) u nd = x
    generalize Grid.valueLoop env l nd (a, b) (g.queryList res) g nd = y
    obtain ⟨x1, x2⟩ := x
    obtain ⟨y1, y2⟩ := y
    intro ha
    simp only at ha
    subst ha
    cases x2 <;> rfl

end Grid

instance : HeldAnswers (Grid Tile) where
  ask _ _ _ h hl := Grid.ask_held h hl
  hasCells _ _ _ := rfl
  probe _ _ h := Grid.held_probe h
  geo t u r h := by
    show Grid.geo u r = Grid.geo t r
    unfold Grid.geo
    rw [show u.extents = t.extents from Grid.held_field h (fun x => x.extents) (fun _ _ => rfl)]
  answer env t u l r nd z h hl := by
    show (Grid.getLayer env u l r nd z).2 = (Grid.getLayer env t l r nd z).2
    have ha := Grid.held_layers (carries_held env) (ls := [l]) (by intro k hk; rw [List.mem_singleton] at hk; subst hk; exact hl) h (some r) nd z
    unfold Grid.getLayer
    revert ha
    generalize u.getLayersByName env [l] (some r) nd z = x
    generalize t.getLayersByName env [l] (some r) nd z = y
    obtain ⟨x1, x2⟩ := x
    obtain ⟨y1, y2⟩ := y
    intro ha
    simp only at ha
    subst ha
    cases x2 with
    | error e => rfl
    | ok o =>
      cases o with
      | none => rfl
      | some as => cases as <;> rfl

end Bathy
