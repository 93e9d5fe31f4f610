import Verif.Lemmas.StoreReach

/-!
# Grids with an output folder: what is on disk after every call

The folder of a tile or subgrid is addressed by its origin, so it keeps its place when the grid grows.
-/

namespace Bathy
namespace Grid
variable {τ φ : Type}

/-! ### tiles and their folders -/

/-- Every tile of the grid is related by `D` to its folder, and all other folders in the root folder satisfy `G`. -/
structure TSync (D : τ → φ → Prop) (G : φ → Prop) (g : Grid τ) (R : Root φ) : Prop where
  has : ∀ t p, g.Has t p → ∃ f, tileFolder R p = some f ∧ D t f
  rest : ∀ p f, tileFolder R p = some f → (∀ t, ¬ g.Has t p) → G f

variable {D : τ → φ → Prop} {G : φ → Prop}

theorem TSync.congr {g g' : Grid τ} {R R' : Root φ} (h : TSync D G g R) (hg : ∀ t p, g'.Has t p ↔ g.Has t p) (hR : ∀ p, tileFolder R' p = tileFolder R p) : TSync D G g' R' := by
  refine ⟨fun t p hp => ?_, fun p f hf hno => ?_⟩
  · rw [hR]; exact h.has t p ((hg t p).1 hp)
  · rw [hR] at hf; exact h.rest p f hf (fun t ht => hno t ((hg t p).2 ht))

/-- `Has` only depends on the tiles and the axes -/
theorem has_congr {g g' : Grid τ} (ht : g'.tiles = g.tiles) (hx : g'.txs = g.txs) (hy : g'.tys = g.tys) (t : τ) (p : ℚ × ℚ) : g'.Has t p ↔ g.Has t p := by
  unfold Has tile? tileOrigin
  rw [ht, hx, hy]

theorem setTile_origin (g : Grid τ) (k : Nat) (o : Option τ) (j : Nat) : (g.setTile k o).tileOrigin j = g.tileOrigin j := by
  unfold setTile
  split <;> rfl

theorem tile_setTile_ne (g : Grid τ) {k j : Nat} (h : j ≠ k) (o : Option τ) : (g.setTile k o).tile? j = g.tile? j := by
  unfold setTile
  rcases Option.eq_none_or_eq_some g.tiles with ht | ⟨T, ht⟩
  · rw [ht]
  · simp only [ht, tile?, Option.bind_some, Arr2.setFlat]
    rw [List.getElem?_set_ne (Ne.symm h)]

/-- one tile and its folder are replaced -/
theorem TSync.set {g : Grid τ} {R R' : Root φ} (h : TSync D G g R) {k : Nat} {o o' : Option τ} {p : ℚ × ℚ} {x : Option φ} (ho : g.tile? k = some o)
    (hp : g.tileOrigin k = some p) (hinj : ∀ j t, g.tile? j = some (some t) → g.tileOrigin j = some p → j = k)
    (hR : ∀ q, tileFolder R' q = if q = p then x else tileFolder R q) (hs : ∀ u, o' = some u → ∃ f, x = some f ∧ D u f)
    (hn : o' = none → ∀ f, x = some f → G f) : TSync D G (g.setTile k o') R' := by
  constructor
  · rintro t q ⟨j, hj, hq⟩
    rw [setTile_origin] at hq
    by_cases hjk : j = k
    · subst hjk
      rw [hp] at hq; cases hq
      rw [tile_setTile g ho] at hj
      cases hj
      rw [hR, if_pos rfl]
      exact hs t rfl
    · rw [tile_setTile_ne g hjk] at hj
      have : q ≠ p := by rintro rfl; exact hjk (hinj j t hj hq)
      rw [hR, if_neg this]
      exact h.has t q ⟨j, hj, hq⟩
  · intro q f hf hno
    rw [hR] at hf
    by_cases hqp : q = p
    · rw [if_pos hqp] at hf
      refine hn ?_ f hf
      cases ho' : o' with
      | none => rfl
      | some u => exact absurd ⟨k, by rw [tile_setTile g ho, ho'], by rw [setTile_origin, hqp, hp]⟩ (hno u)
    · rw [if_neg hqp] at hf
      refine h.rest q f hf (fun t ht => ?_)
      obtain ⟨j, hj, hq⟩ := ht
      have hjk : j ≠ k := by rintro rfl; rw [hp] at hq; cases hq; exact hqp rfl
      exact hno t ⟨j, by rw [tile_setTile_ne g hjk]; exact hj, by rw [setTile_origin]; exact hq⟩

/-- different slots have different origins -/
theorem origin_inj {g : Grid τ} {size x0 y0 : ℚ} {nx ny : Nat} (hs : 0 < size) (hx : g.txs = originsOf x0 size nx) (hy : g.tys = originsOf y0 size ny) {j k : Nat} {p : ℚ × ℚ}
    (hj : j < ny * nx) (hk : k < ny * nx) (ej : g.tileOrigin j = some p) (ek : g.tileOrigin k = some p) : j = k := by
  rw [tileOrigin_eq hx hy hj] at ej
  rw [tileOrigin_eq hx hy hk, ← ej] at ek
  simp only [Option.some.injEq, Prod.mk.injEq, slotX, slotY] at ek
  obtain ⟨ex, ey⟩ := ek
  have hne : size ≠ 0 := hs.ne'
  have hx' : k % nx = j % nx := by
    have := mul_right_cancel₀ hne (add_left_cancel ex)
    exact_mod_cast this
  have hy' : k / nx = j / nx := by
    have := mul_right_cancel₀ hne (add_left_cancel ey)
    exact_mod_cast this
  rw [← Nat.div_add_mod j nx, ← Nat.div_add_mod k nx, hx', hy']

/-- the files of the root folder itself are the same -/
def TopOf (R R' : Root φ) : Prop := ∀ F, R = some F → ∃ F', R' = some F' ∧ SameTop F F'

theorem topOf_refl (R : Root φ) : TopOf R R := fun F h => ⟨F, h, sameTop_refl F⟩

theorem TopOf.trans {R R' R'' : Root φ} (h : TopOf R R') (h' : TopOf R' R'') : TopOf R R'' := by
  intro F hF
  obtain ⟨F', e1, e2⟩ := h F hF
  obtain ⟨F'', e3, e4⟩ := h' F' e1
  exact ⟨F'', e3, e2.trans e4⟩

theorem topOf_put (R : Root φ) (p : ℚ × ℚ) (x : Option φ) : TopOf R (putTile R p x) := by
  rintro F rfl
  exact putTile_top F p x

/-! ### what is needed of the tiles -/

section
variable [DiskLike τ φ]

/-- saving and loading the tile `u` leaves `v` in memory, in a folder related to it -/
def Kept (D : τ → φ → Prop) (b : Backend) (part : Tile.Part) (u : τ) (o : Option φ) (v : τ) : Prop :=
  ∃ q f, DiskLike.flush b part (some u) ⟨o, []⟩ = .ok (some v, q) ∧ q.now = some f ∧ D v f

/-- saving and loading a missing tile leaves at most a folder that counts as unused -/
def Dropped (τ : Type) [DiskLike τ φ] (G : φ → Prop) (b : Backend) (part : Tile.Part) (o : Option φ) : Prop :=
  ∃ q, DiskLike.flush (τ := τ) b part none ⟨o, []⟩ = .ok (none, q) ∧ ∀ f, q.now = some f → G f

/-- the calls on a tile with its folder do the same as those in memory, and the folder stays related to the tile -/
structure DiskSpec [Queried τ] {size sub : ℚ} {bs : Bool} {fl : Fields} (env : Env) (C : Family → ChildSpec τ size sub bs fl) (D : τ → φ → Prop) (G : φ → Prop) : Prop where
  first : ∀ (b : Backend) (F : Family) {x y : ℚ} {c : String} {pts : List Pt} {o : Option φ}, pts ≠ [] → (∀ p ∈ pts, InBox x y size p) → (∀ f, o = some f → G f) →
    ∃ t0 u q, TileLike.build size sub bs x y = .ok t0 ∧ TileLike.addPoints t0 ⟨fl, pts⟩ c = .ok u ∧ (C F).Rep x y u [(c, pts)] ∧
      DiskLike.addD b ⟨fl, pts⟩ c (t0, ⟨o, []⟩) = .ok (u, q) ∧ Kept D b .points u q.now u
  add : ∀ (b : Backend) (F : Family) {x y : ℚ} {t : τ} {A : Store} {c : String} {pts : List Pt} {f : φ}, (C F).Rep x y t A → c ∉ A.names → pts ≠ [] →
    (∀ p ∈ pts, InBox x y size p) → D t f →
    ∃ u q, TileLike.addPoints t ⟨fl, pts⟩ c = .ok u ∧ (C F).Rep x y u (A ++ [(c, pts)]) ∧ DiskLike.addD b ⟨fl, pts⟩ c (t, ⟨some f, []⟩) = .ok (u, q) ∧ Kept D b .points u q.now u
  remove : ∀ (b : Backend) (F : Family) {x y : ℚ} {t : τ} {A : Store} {c : String} {f : φ}, (C F).Rep x y t A → D t f →
    ∃ u q, TileLike.removePoints t c = .ok u ∧ DiskLike.removeD b c (t, ⟨some f, []⟩) = .ok (u, q) ∧
      (TileLike.isEmpty u = false → Kept D b .points u q.now u) ∧ (TileLike.isEmpty u = true → Dropped τ G b .points q.now)
  grid : ∀ (b : Backend) (F F' : Family) (a : GridCall) {x y : ℚ} {t : τ} {A : Store} {f : φ}, a.alg.family = some F' → F' = F ∨ a.clear = true → (C F).Rep x y t A → D t f →
    (DiskLike.gridD env b a (t, ⟨some f, []⟩)).1.err = (GridLike.grid env t a).1.err ∧
    ((GridLike.grid env t a).1.err = none → (DiskLike.gridD env b a (t, ⟨some f, []⟩)).2 = (GridLike.grid env t a).2 ∧
      ∃ v, Kept D b .grid (DiskLike.gridD env b a (t, ⟨some f, []⟩)).1.st.1 (DiskLike.gridD env b a (t, ⟨some f, []⟩)).1.st.2.now v ∧ Requeried env (GridLike.grid env t a).1.st v)
  gone : ∀ (b : Backend) (part : Tile.Part) {o : Option φ}, (∀ f, o = some f → G f) → Dropped τ G b part o

/-- the tile in slot `k` is changed, saved and loaded -/
theorem flushTile_kept (b : Backend) (part : Tile.Part) {g : Grid τ} {d : Disk (Root φ)} {k : Nat} {o : Option τ} {p : ℚ × ℚ} {u v : τ} {c : Disk (Option φ)} (ho : g.tile? k = some o)
    (hp : g.tileOrigin k = some p) (h : Kept D b part u c.now v) :
    ∃ d', flushTile b part (g.setTile k (some u), absorb d p c) k = .ok (g.setTile k (some v), d') ∧ TopOf d.now d'.now ∧
      ∃ f, D v f ∧ ∀ q, tileFolder d'.now q = if q = p then some f else tileFolder d.now q := by
  obtain ⟨q, f, h1, h2, h3⟩ := h
  refine ⟨absorb (absorb d p c) p q, ?_, ?_, f, h3, ?_⟩
  · unfold flushTile
    have hfoc : focus (absorb d p c) p = ⟨c.now, []⟩ := by
      unfold focus
      rw [absorb_now, tileFolder_putTile, if_pos rfl]
    simp only [tile_setTile g ho, setTile_origin, hp, hfoc, h1, Res.ok_st, Res.ok_err, setTile_setTile]
    rfl
  · exact TopOf.trans (topOf_put _ _ _) (topOf_put _ _ _)
  · intro r
    rw [absorb_now, tileFolder_putTile, absorb_now, tileFolder_putTile, h2]
    by_cases hr : r = p <;> simp [hr]

/-- the tile in slot `k` is dropped -/
theorem flushTile_dropped (b : Backend) (part : Tile.Part) {g : Grid τ} {d : Disk (Root φ)} {k : Nat} {p : ℚ × ℚ} {c : Disk (Option φ)} (ho : g.tile? k = some none)
    (hp : g.tileOrigin k = some p) (h : Dropped τ G b part c.now) :
    ∃ d', flushTile b part (g, absorb d p c) k = .ok (g, d') ∧ TopOf d.now d'.now ∧
      ∃ x, (∀ f, x = some f → G f) ∧ ∀ q, tileFolder d'.now q = if q = p then x else tileFolder d.now q := by
  obtain ⟨q, h1, h2⟩ := h
  refine ⟨absorb (absorb d p c) p q, ?_, ?_, q.now, h2, ?_⟩
  · unfold flushTile
    have hfoc : focus (absorb d p c) p = ⟨c.now, []⟩ := by
      unfold focus
      rw [absorb_now, tileFolder_putTile, if_pos rfl]
    simp only [ho, hp, hfoc, h1, Res.ok_st, Res.ok_err, setTile_self ho]
    rfl
  · exact TopOf.trans (topOf_put _ _ _) (topOf_put _ _ _)
  · intro r
    rw [absorb_now, tileFolder_putTile, absorb_now, tileFolder_putTile]
    by_cases hr : r = p <;> simp [hr]

theorem flushTile_dropped0 (b : Backend) (part : Tile.Part) {g : Grid τ} {d : Disk (Root φ)} {k : Nat} {p : ℚ × ℚ} (ho : g.tile? k = some none)
    (hp : g.tileOrigin k = some p) (h : Dropped τ G b part (tileFolder d.now p)) :
    ∃ d', flushTile b part (g, d) k = .ok (g, d') ∧ TopOf d.now d'.now ∧
      ∃ x, (∀ f, x = some f → G f) ∧ ∀ q, tileFolder d'.now q = if q = p then x else tileFolder d.now q := by
  obtain ⟨q, h1, h2⟩ := h
  refine ⟨absorb d p q, ?_, ?_, q.now, h2, ?_⟩
  · unfold flushTile
    have hfoc : focus d p = ⟨tileFolder d.now p, []⟩ := rfl
    simp only [ho, hp, hfoc, h1, Res.ok_st, Res.ok_err, setTile_self ho]
    rfl
  · exact topOf_put _ _ _
  · intro r
    rw [absorb_now, tileFolder_putTile]

/-! ### adding -/

variable [Queried τ] {size sub : ℚ} {bs : Bool} {fl : Fields}

omit [DiskLike τ φ] [Queried τ] in
theorem slot_lt {g : Grid τ} {T : Arr2 (Option τ)} {n : Nat} (hT : g.tiles = some T) (hl : T.flat.length = n) {j : Nat} {o : Option τ} (h : g.tile? j = some o) : j < n := by
  unfold tile? at h
  rw [hT] at h
  rw [← hl]
  exact (List.getElem?_eq_some_iff.1 h).1

/-- one round of the loop of `_add_points_to_tiles` -/
theorem addToTileD_spec {env : Env} {C : Family → ChildSpec τ size sub bs fl} (S : DiskSpec env C D G) (b : Backend) (F : Family) (hpos : 0 < size) {g : Grid τ} {minX minY : ℚ} {nx ny : Nat}
    (hsz : g.tileSize = size) (hsub : g.subtileSize = sub) (hbs : g.isBackscatter = bs)
    (hx : g.txs = originsOf minX size nx) (hy : g.tys = originsOf minY size ny) {T : Arr2 (Option τ)} (hT : g.tiles = some T) (hlen : T.flat.length = ny * nx)
    {k : Nat} (hk : k < ny * nx) {o : Option τ} (ho : T.flat[k]? = some o) {B : Store}
    (hs : Slot (C F) (slotX minX size nx k) (slotY minY size nx k) o B) {pts : List Pt} {bins : List Nat} {c : String} (hc : c ∉ B.names)
    (hsel : boolIndex pts (bins.map (fun b => decide (b = k))) ≠ [])
    (hbox : ∀ p ∈ boolIndex pts (bins.map (fun b => decide (b = k))), InBox (slotX minX size nx k) (slotY minY size nx k) size p)
    {d : Disk (Root φ)} (hd : TSync D G g d.now) :
    ∃ u d', addToTile fl pts bins c g k = .ok { g with tiles := some (T.setFlat k (some u)) } ∧
      addToTileD b fl pts bins c (g, d) k = .ok ({ g with tiles := some (T.setFlat k (some u)) }, d') ∧
      (C F).Rep (slotX minX size nx k) (slotY minY size nx k) u (B ++ [(c, boolIndex pts (bins.map (fun b => decide (b = k))))]) ∧
      TSync D G { g with tiles := some (T.setFlat k (some u)) } d'.now ∧ TopOf d.now d'.now := by
  generalize hsl : boolIndex pts (bins.map (fun b => decide (b = k))) = sel at *
  have htile : g.tile? k = some o := by unfold tile?; rw [hT]; exact ho
  have horg := tileOrigin_eq hx hy hk
  have hset : ∀ u, g.setTile k (some u) = { g with tiles := some (T.setFlat k (some u)) } := fun u => by unfold setTile; rw [hT]
  have hinj : ∀ j t, g.tile? j = some (some t) → g.tileOrigin j = some (slotX minX size nx k, slotY minY size nx k) → j = k :=
    fun j t hj hp => origin_inj hpos hx hy (slot_lt hT hlen hj) hk hp horg
  have fin : ∀ (u : τ) (q : Disk (Option φ)), Kept D b .points u q.now u → ∃ d', flushTile b .points (g.setTile k (some u), absorb d (slotX minX size nx k, slotY minY size nx k) q) k =
      .ok ({ g with tiles := some (T.setFlat k (some u)) }, d') ∧ TSync D G { g with tiles := some (T.setFlat k (some u)) } d'.now ∧ TopOf d.now d'.now := by
    intro u q hq
    obtain ⟨d', h1, h2, f, h3, h4⟩ := flushTile_kept b .points (d := d) htile horg hq
    rw [hset] at h1
    refine ⟨d', by rw [hset]; exact h1, ?_, h2⟩
    rw [← hset]
    exact hd.set htile horg hinj h4 (by rintro _ ⟨⟩; exact ⟨f, rfl, h3⟩) (by simp)
  rcases hs with ⟨rfl, rfl⟩ | ⟨t, rfl, hB, hrep⟩
  · obtain ⟨t0, u, q, hb, ha, hu, haD, hkept⟩ := S.first b F (c := c) (o := tileFolder d.now (slotX minX size nx k, slotY minY size nx k)) hsel hbox (by
      intro f hf
      refine hd.rest _ f hf (fun t ⟨j, hj, hp⟩ => ?_)
      rw [hinj j t hj hp, htile] at hj
      cases hj)
    obtain ⟨d', f1, f2, f3⟩ := fin u q hkept
    refine ⟨u, d', ?_, ?_, hu, f2, f3⟩
    · unfold addToTile
      simp only [hsl, htile, tileOrigin_eq hx hy hk, hsz, hsub, hbs, hb, ha, Res.ok_err, Res.ok_st, (C F).nonempty hu, setTile, hT]
      rfl
    · refine Eq.trans ?_ f1
      unfold addToTileD
      have hfoc : focus d (slotX minX size nx k, slotY minY size nx k) = ⟨tileFolder d.now (slotX minX size nx k, slotY minY size nx k), []⟩ := rfl
      simp only [hsl, htile, horg, hsz, hsub, hbs, hb, hfoc, haD, Res.ok_err, Res.ok_st, (C F).nonempty hu, Bool.false_eq_true, if_false]
  · obtain ⟨f, hf1, hf2⟩ := hd.has t _ ⟨k, htile, horg⟩
    obtain ⟨u, q, ha, hu, haD, hkept⟩ := S.add b F hrep hc hsel hbox hf2
    obtain ⟨d', f1, f2, f3⟩ := fin u q hkept
    refine ⟨u, d', ?_, ?_, hu, f2, f3⟩
    · unfold addToTile
      simp only [hsl, htile, ha, Res.ok_err, Res.ok_st, (C F).nonempty hu, setTile, hT]
      rfl
    · unfold addToTileD
      have hfoc : focus d (slotX minX size nx k, slotY minY size nx k) = ⟨some f, []⟩ := by unfold focus; rw [hf1]
      simp only [hsl, htile, horg, hfoc, haD, Res.ok_err, Res.ok_st, (C F).nonempty hu, Bool.false_eq_true, if_false]
      exact f1

/-- the loop of `_add_points_to_tiles` does the same with an output folder -/
theorem addLoopD_spec {env : Env} {C : Family → ChildSpec τ size sub bs fl} (S : DiskSpec env C D G) (b : Backend) (F : Family) (hpos : 0 < size) {g : Grid τ} {minX minY : ℚ} {nx ny : Nat}
    (hsz : g.tileSize = size) (hsub : g.subtileSize = sub) (hbs : g.isBackscatter = bs)
    (hx : g.txs = originsOf minX size nx) (hy : g.tys = originsOf minY size ny) {A : Store} {pts : List Pt} {bins : List Nat} {c : String}
    (hc : c ∉ A.names) (ks : List Nat) (hnd : ks.Nodup) (hlt : ∀ k ∈ ks, k < ny * nx)
    (hsel : ∀ k ∈ ks, boolIndex pts (bins.map (fun b => decide (b = k))) ≠ [])
    (hbox : ∀ k ∈ ks, ∀ p ∈ boolIndex pts (bins.map (fun b => decide (b = k))), InBox (slotX minX size nx k) (slotY minY size nx k) size p)
    (T : Arr2 (Option τ)) (hlen : T.flat.length = ny * nx)
    (hT : ∀ k ∈ ks, ∀ o, T.flat[k]? = some o →
      Slot (C F) (slotX minX size nx k) (slotY minY size nx k) o (A.within (slotX minX size nx k) (slotY minY size nx k) size))
    (d : Disk (Root φ)) (hd : TSync D G { g with tiles := some T } d.now) :
    ∃ (T' : Arr2 (Option τ)) (d' : Disk (Root φ)), Res.forEach ks { g with tiles := some T } (addToTile fl pts bins c) = .ok { g with tiles := some T' } ∧
      Res.forEach ks ({ g with tiles := some T }, d) (addToTileD b fl pts bins c) = .ok ({ g with tiles := some T' }, d') ∧
      TSync D G { g with tiles := some T' } d'.now ∧ TopOf d.now d'.now := by
  induction ks generalizing T d with
  | nil => exact ⟨T, d, rfl, rfl, hd, topOf_refl _⟩
  | cons k ks ih =>
    rw [List.nodup_cons] at hnd
    have hk := hlt k List.mem_cons_self
    have hkl : k < T.flat.length := by rw [hlen]; exact hk
    obtain ⟨u, d1, h1, h2, h3, h4, h5⟩ := addToTileD_spec S b F hpos (g := { g with tiles := some T }) hsz hsub hbs hx hy rfl hlen hk (List.getElem?_eq_getElem hkl)
      (hT k List.mem_cons_self _ (List.getElem?_eq_getElem hkl)) (fun h => hc ((Store.names_within A _ _ _).subset h)) (hsel k List.mem_cons_self)
      (hbox k List.mem_cons_self) hd
    obtain ⟨T', d', e1, e2, e3, e4⟩ := ih hnd.2 (fun j hj => hlt j (List.mem_cons_of_mem _ hj)) (fun j hj => hsel j (List.mem_cons_of_mem _ hj))
      (fun j hj => hbox j (List.mem_cons_of_mem _ hj)) (T.setFlat k (some u)) (by simpa [Arr2.setFlat] using hlen)
      (by
        intro j hj o ho
        have hjk : k ≠ j := fun e => hnd.1 (e ▸ hj)
        simp only [Arr2.setFlat, List.getElem?_set_ne hjk] at ho
        exact hT j (List.mem_cons_of_mem _ hj) o ho) d1 h4
    refine ⟨T', d', ?_, ?_, e3, h5.trans e4⟩
    · rw [Res.forEach_cons, h1]; exact e1
    · rw [Res.forEach_cons, h2]; exact e2

omit [DiskLike τ φ] [Queried τ] in
theorem saveGrid_folder (b : Backend) (g : Grid τ) (d : Disk (Root φ)) (p : ℚ × ℚ) : tileFolder (saveGrid b g d).now p = tileFolder d.now p := by
  rw [saveGrid_now]
  cases hd : d.now with
  | none => rfl
  | some F => rfl

omit [DiskLike τ φ] [Queried τ] in
/-- other numbers -/
theorem HeaderOk.numbers {exact : Bool} {g u : Grid τ} {F : GridFolder φ} (h : HeaderOk exact g F)
    (hu : u.header = { g.header with numberOfTiles := u.numberOfTiles, meanDepth := u.meanDepth }) (hx : u.txs = g.txs) (hy : u.tys = g.tys)
    (hex : u.edgesX = g.edgesX) (hey : u.edgesY = g.edgesY) (hm : u.mask = g.mask) : HeaderOk false u F := by
  obtain ⟨hd, h1, h2, -⟩ := h.info
  refine ⟨⟨hd, h1, ?_, by simp⟩, by rw [hx]; exact h.txs, by rw [hy]; exact h.tys, by rw [hex]; exact h.edgesX, by rw [hey]; exact h.edgesY, by rw [hm]; exact h.mask⟩
  rw [hu, h2]

/-- the root folder belongs to the grid: header and tiles -/
def Synced (D : τ → φ → Prop) (G : φ → Prop) (exact : Bool) (g : Grid τ) (R : Root φ) : Prop :=
  ∃ F, R = some F ∧ HeaderOk exact g F ∧ TSync D G g R

/-- `_add_points_to_tiles` and the mean depth -/
theorem addToTilesD_ready {env : Env} {C : Family → ChildSpec τ size sub bs fl} (S : DiskSpec env C D G) (b : Backend) (F : Family) (hs : 0 < size) {x0 y0 : ℚ} {nx ny : Nat} {T : Arr2 (Option τ)}
    {g : Grid τ} {A : Store} (h : Ready (C F) x0 y0 nx ny T g A) (hm : MaskProper g.mask) {c : String} {pts : List Pt} (hc : c ∉ A.names) (hin : ∀ p ∈ pts, InRect x0 y0 size nx ny p) (md : ℚ)
    (d : Disk (Root φ)) (hd : TSync D G g d.now) :
    ∃ u d', (addToTiles g ⟨fl, pts⟩ c).andThen (fun g => .ok { g with meanDepth := md }) = .ok u ∧
      (addToTilesD b ⟨fl, pts⟩ c (g, d)).andThen (fun s => .ok ({ s.1 with meanDepth := md }, s.2)) = .ok (u, d') ∧ Synced D G false u d'.now := by
  obtain ⟨-, -, hlen, hslots⟩ := h.rep
  have hbin := bin2d_rect hs pts hin
  rw [← h.edgesX, ← h.edgesY] at hbin
  have hlt : ∀ k ∈ npUnique (pts.map (cellOf x0 y0 size nx)), k < ny * nx := by
    intro k hk
    rw [mem_npUnique, List.mem_map] at hk
    obtain ⟨p, hp, rfl⟩ := hk
    exact cellOf_rect_lt hs (hin p hp)
  have hsel : ∀ k ∈ npUnique (pts.map (cellOf x0 y0 size nx)),
      boolIndex pts ((pts.map (cellOf x0 y0 size nx)).map (fun b => decide (b = k))) ≠ [] := by
    intro k hk he
    have hk' := hlt k hk
    rw [mem_npUnique, List.mem_map] at hk
    obtain ⟨p, hp, hpk⟩ := hk
    rw [select_rect hs pts hin hk', List.filter_eq_nil_iff] at he
    have := he p hp
    simp only [decide_eq_true_eq] at this
    exact this ((cellOf_rect_iff hs (hin p hp) hk').1 hpk)
  have hg : ({ g with tiles := some T } : Grid τ) = g := by rw [← h.tiles]
  obtain ⟨T', d', h1, h2, h3, h4⟩ := addLoopD_spec S b F hs h.tileSize h.subtileSize h.backscatter h.txs h.tys hc (npUnique (pts.map (cellOf x0 y0 size nx))) (npUnique_nodup _)
    hlt hsel (by
      intro k hk p hp
      rw [select_rect hs pts hin (hlt k hk)] at hp
      simpa using (List.mem_filter.1 hp).2) T hlen (fun k _ o ho => hslots k o ho) (saveGrid b g d) (by rw [hg]; exact hd.congr (fun _ _ => Iff.rfl) (saveGrid_folder b g d))
  rw [hg] at h1 h2
  refine ⟨{ g with tiles := some T', numberOfTiles := some (countTiles { g with tiles := some T' } : Int), meanDepth := md }, d', ?_, ?_, ?_⟩
  · unfold addToTiles
    rw [hbin]
    simp only
    rw [h1]
    rfl
  · unfold addToTilesD
    simp only
    rw [hbin]
    simp only
    rw [h2]
    rfl
  · obtain ⟨F', e1, e2⟩ := h4 _ (saveGrid_now b g d)
    refine ⟨F', e1, ?_, ?_⟩
    · exact ((headerOk_save b hm _).top e2).numbers rfl rfl rfl rfl rfl rfl
    · exact h3.congr (fun t p => has_congr rfl rfl rfl t p) (fun _ => rfl)

/-- `add_points` does the same with an output folder -/
theorem addPointsD_spec {env : Env} {C : Family → ChildSpec τ size sub bs fl} (S : DiskSpec env C D G) (b : Backend) (F : Family) (hs : 0 < size) {x0 y0 : ℚ} {nx ny : Nat}
    {g g2 u : Grid τ} {A : Store} {c : String} {pts : List Pt} {a : AddArgs} (hmeta : (g.info.update c a).err = none) (hk : c ∉ g.info.container.keys) (hc : c ∉ A.names)
    (hu : addPoints g ⟨fl, pts⟩ c a = .ok u) (hp : Placed (C F) x0 y0 nx ny { g with info := (g.info.update c a).st } g2 A pts) (hm : MaskProper g2.mask)
    (d : Disk (Root φ)) (hd : TSync D G g d.now) : ∃ d', addPointsD b ⟨fl, pts⟩ c a (g, d) = .ok (u, d') ∧ Synced D G false u d'.now := by
  obtain ⟨ga, s1, s2⟩ := hp.step
  obtain ⟨T, hready⟩ := hp.ready
  obtain ⟨v, d', h1, h2, h3⟩ := addToTilesD_ready S b F hs hready hm hc hp.inr (meanDepthOf pts) d
    (hd.congr (fun t p => (hp.has t p).trans (has_congr rfl rfl rfl t p)) (fun _ => rfl))
  have huv : addPoints g ⟨fl, pts⟩ c a = .ok v := by
    unfold addPoints
    rw [(Dict.has_false_iff _ _).2 hk]
    simp only [Bool.false_eq_true, if_false, hmeta]
    rw [s1, Res.andThen_ok, s2, Res.andThen_ok]
    exact h1
  rw [hu] at huv
  obtain rfl : u = v := congrArg Res.st huv
  refine ⟨d', ?_, h3⟩
  unfold addPointsD
  simp only
  rw [(Dict.has_false_iff _ _).2 hk]
  simp only [Bool.false_eq_true, if_false, hmeta]
  rw [s1]
  have e1 : inMemory (Res.ok ga) d = .ok (ga, d) := rfl
  have e2 : inMemory (Res.ok g2) d = .ok (g2, d) := rfl
  rw [e1, Res.andThen_ok]
  simp only
  rw [s2, e2, Res.andThen_ok]
  exact h2

/-! ### removing -/

omit [DiskLike τ φ] [Queried τ] in
theorem removeTile_ok {g : Grid τ} {k : Nat} {t : τ} (ht : g.tile? k = some (some t)) (h : (removeTile g k).err = none) :
    ∃ m n, removeTile g k = .ok (setTile { g with mask := m, numberOfTiles := n } k none) := by
  unfold removeTile at h ⊢
  rw [ht] at h ⊢
  simp only at h ⊢
  have fin : ∀ g' : Grid τ, (match g'.numberOfTiles with | some n => Res.ok (setTile { g' with numberOfTiles := some (n - 1) } k none) | none => .fail g' .typeError).err = none →
      ∃ n, (match g'.numberOfTiles with | some n => Res.ok (setTile { g' with numberOfTiles := some (n - 1) } k none) | none => .fail g' .typeError) = .ok (setTile { g' with numberOfTiles := n } k none) := by
    intro g' h'
    cases hn : g'.numberOfTiles with
    | none => rw [hn] at h'; cases h'
    | some n => exact ⟨_, rfl⟩
  have hself : ({ g with mask := g.mask } : Grid τ) = g := rfl
  cases hm : g.mask with
  | none =>
    rw [hm] at h
    simp only [Res.andThen_ok] at h ⊢
    obtain ⟨n, hn⟩ := fin g h
    exact ⟨g.mask, n, hn⟩
  | some m =>
    rw [hm] at h
    simp only at h ⊢
    by_cases h1 : m.flat.any id = true
    · by_cases h2 : k < m.flat.length
      · simp only [h1, h2, if_true, Res.andThen_ok] at h ⊢
        obtain ⟨n, hn⟩ := fin { g with mask := some (m.setFlat k false) } h
        exact ⟨_, n, hn⟩
      · simp only [h1, h2, if_true, if_false] at h
        cases h
    · simp only [h1, if_false, Res.andThen_ok, Bool.false_eq_true] at h ⊢
      obtain ⟨n, hn⟩ := fin g h
      exact ⟨g.mask, n, hn⟩

omit [DiskLike τ φ] [Queried τ] in
theorem setTile_txs (g : Grid τ) (k : Nat) (o : Option τ) : (g.setTile k o).txs = g.txs := by
  unfold setTile; cases g.tiles <;> rfl

omit [DiskLike τ φ] [Queried τ] in
theorem setTile_tys (g : Grid τ) (k : Nat) (o : Option τ) : (g.setTile k o).tys = g.tys := by
  unfold setTile; cases g.tiles <;> rfl

omit [DiskLike τ φ] [Queried τ] in
theorem setTile_numbers (g : Grid τ) (k : Nat) (o : Option τ) (m : Option (Arr2 Bool)) (n : Option Int) :
    ({ g.setTile k o with mask := m, numberOfTiles := n } : Grid τ) = setTile { g with mask := m, numberOfTiles := n } k o := by
  unfold setTile
  cases h : g.tiles with
  | none => simp [h]
  | some T => rfl

/-- one round of the loop of `remove_points` -/
theorem removeFromTileD_spec {env : Env} {C : Family → ChildSpec τ size sub bs fl} (S : DiskSpec env C D G) (b : Backend) (F : Family) (hpos : 0 < size) {g : Grid τ} {minX minY : ℚ} {nx ny : Nat}
    (hx : g.txs = originsOf minX size nx) (hy : g.tys = originsOf minY size ny) (hl : ∀ j o, g.tile? j = some o → j < ny * nx)
    {k : Nat} {o : Option τ} (ho : g.tile? k = some o) {B : Store} (hs : Slot (C F) (slotX minX size nx k) (slotY minY size nx k) o B) (c : String)
    (herr : (removeFromTile c g k).err = none) {d : Disk (Root φ)} (hd : TSync D G g d.now) :
    ∃ u d', removeFromTile c g k = .ok u ∧ removeFromTileD b c (g, d) k = .ok (u, d') ∧ TSync D G u d'.now ∧ TopOf d.now d'.now ∧
      u.txs = g.txs ∧ u.tys = g.tys ∧ ∀ j : Nat, j ≠ k → u.tile? j = g.tile? j := by
  have hk := hl k o ho
  have horg := tileOrigin_eq hx hy hk
  have hinj : ∀ j t, g.tile? j = some (some t) → g.tileOrigin j = some (slotX minX size nx k, slotY minY size nx k) → j = k :=
    fun j t hj hp => origin_inj hpos hx hy (hl j _ hj) hk hp horg
  generalize hp : (slotX minX size nx k, slotY minY size nx k) = p at *
  rcases hs with ⟨rfl, rfl⟩ | ⟨t, rfl, hB, hrep⟩
  · obtain ⟨d', h1, h2, x, h3, h4⟩ := flushTile_dropped0 b .points (d := d) ho horg (S.gone b .points (o := tileFolder d.now p) (by
      intro f hf
      refine hd.rest _ f hf (fun t ⟨j, hj, hp⟩ => ?_)
      rw [hinj j t hj hp, ho] at hj
      cases hj))
    refine ⟨g, d', ?_, ?_, ?_, h2, rfl, rfl, fun _ _ => rfl⟩
    · unfold removeFromTile
      rw [ho]
    · unfold removeFromTileD
      simp only [ho, horg]
      exact h1
    · have := hd.set (o' := none) (x := x) ho horg hinj h4 (by simp) (fun _ => h3)
      rwa [setTile_self ho] at this
  · obtain ⟨f, hf1, hf2⟩ := hd.has t _ ⟨k, ho, horg⟩
    obtain ⟨u, q, hu, hq, hkeep, hdrop⟩ := S.remove b F (c := c) hrep hf2
    have hfoc : focus d p = ⟨some f, []⟩ := by unfold focus; rw [hf1]
    unfold removeFromTile at herr ⊢
    unfold removeFromTileD
    simp only [ho, horg, hfoc, hu, hq, Res.ok_err, Res.ok_st] at herr ⊢
    cases he : TileLike.isEmpty u with
    | false =>
      simp only [Bool.false_eq_true, if_false]
      obtain ⟨d', h1, h2, f', h3, h4⟩ := flushTile_kept b .points (d := d) ho horg (hkeep he)
      refine ⟨g.setTile k (some u), d', rfl, h1, ?_, h2, setTile_txs .., setTile_tys .., fun j hj => tile_setTile_ne g hj _⟩
      exact hd.set ho horg hinj h4 (by rintro _ ⟨⟩; exact ⟨f', rfl, h3⟩) (by simp)
    | true =>
      simp only [he, if_true] at herr ⊢
      obtain ⟨m, n, hr⟩ := removeTile_ok (tile_setTile g ho (some u)) herr
      have hr' : setTile { g.setTile k (some u) with mask := m, numberOfTiles := n } k none = setTile { g with mask := m, numberOfTiles := n } k none := by
        rw [setTile_numbers, setTile_setTile]
      rw [hr'] at hr
      rw [hr]
      generalize hg1 : ({ g with mask := m, numberOfTiles := n } : Grid τ) = g1 at *
      have e1 : ∀ j, g1.tile? j = g.tile? j := fun j => by rw [← hg1]; rfl
      have e2 : g1.tileOrigin = g.tileOrigin := by rw [← hg1]; rfl
      have ho1 : g1.tile? k = some (some t) := by rw [e1]; exact ho
      obtain ⟨d', h1, h2, x, h3, h4⟩ := flushTile_dropped b .points (g := g1.setTile k none) (d := d) (k := k) (p := p) (tile_setTile g1 ho1 none) (by rw [setTile_origin, e2]; exact horg) (hdrop he)
      refine ⟨g1.setTile k none, d', rfl, h1, ?_, h2, ?_, ?_, ?_⟩
      · have hd1 : TSync D G g1 d.now := by
          rw [← hg1]; exact hd.congr (fun t p => has_congr rfl rfl rfl t p) (fun _ => rfl)
        exact hd1.set ho1 (by rw [e2]; exact horg) (fun j t hj hp => hinj j t (by rw [← e1]; exact hj) (by rw [← e2]; exact hp)) h4 (by simp) (fun _ => h3)
      · rw [setTile_txs, ← hg1]
      · rw [setTile_tys, ← hg1]
      · intro j hj
        rw [tile_setTile_ne g1 hj, e1]

/-- the loop of `remove_points` does the same with an output folder -/
theorem removeLoopD_spec {env : Env} {C : Family → ChildSpec τ size sub bs fl} (S : DiskSpec env C D G) (b : Backend) (F : Family) (hpos : 0 < size) {minX minY : ℚ} {nx ny : Nat} {B : Nat → Store} (c : String)
    (ks : List Nat) (hnd : ks.Nodup) (g : Grid τ) (hx : g.txs = originsOf minX size nx) (hy : g.tys = originsOf minY size ny) (hl : ∀ j o, g.tile? j = some o → j < ny * nx)
    (hks : ∀ k ∈ ks, ∃ o, g.tile? k = some o ∧ Slot (C F) (slotX minX size nx k) (slotY minY size nx k) o (B k))
    (herr : (Res.forEach ks g (removeFromTile c)).err = none) (d : Disk (Root φ)) (hd : TSync D G g d.now) :
    ∃ u d', Res.forEach ks g (removeFromTile c) = .ok u ∧ Res.forEach ks (g, d) (removeFromTileD b c) = .ok (u, d') ∧ TSync D G u d'.now ∧ TopOf d.now d'.now ∧
      u.txs = g.txs ∧ u.tys = g.tys ∧ ∀ j : Nat, j ∉ ks → u.tile? j = g.tile? j := by
  induction ks generalizing g d with
  | nil => exact ⟨g, d, rfl, rfl, hd, topOf_refl _, rfl, rfl, fun _ _ => rfl⟩
  | cons k ks ih =>
    rw [List.nodup_cons] at hnd
    obtain ⟨o, ho, hs⟩ := hks k List.mem_cons_self
    rw [Res.forEach_cons] at herr
    obtain ⟨u1, d1, h1, h2, h3, h4, h5, h6, h7⟩ := removeFromTileD_spec S b F hpos hx hy hl ho hs c (Res.andThen_err_none herr).1 hd
    rw [h1, Res.andThen_ok] at herr
    have hl1 : ∀ j o, u1.tile? j = some o → j < ny * nx := by
      intro j o hj
      by_cases hjk : j = k
      · rw [hjk]; exact hl k _ ho
      · rw [h7 j hjk] at hj; exact hl j o hj
    obtain ⟨u, d', e1, e2, e3, e4, e5, e6, e7⟩ := ih hnd.2 u1 (h5.trans hx) (h6.trans hy) hl1 (by
      intro j hj
      rw [h7 j (fun e => hnd.1 (e ▸ hj))]
      exact hks j (List.mem_cons_of_mem _ hj)) herr d1 h3
    refine ⟨u, d', ?_, ?_, e3, h4.trans e4, e5.trans h5, e6.trans h6, ?_⟩
    · rw [Res.forEach_cons, h1]; exact e1
    · rw [Res.forEach_cons, h2]; exact e2
    · intro j hj
      rw [List.mem_cons, not_or] at hj
      rw [e7 j hj.2, h7 j hj.1]

omit [DiskLike τ φ] [Queried τ] in
theorem isEmpty_has {g : Grid τ} (h : g.isEmpty = true) (t : τ) (p : ℚ × ℚ) : ¬ Has g t p := by
  rintro ⟨k, hk, -⟩
  unfold isEmpty at h
  unfold tile? at hk
  cases hT : g.tiles with
  | none => rw [hT] at hk; cases hk
  | some T =>
    rw [hT] at h hk
    simp only [Option.bind_some] at h hk
    have : T.flat.any Option.isSome = true := List.any_eq_true.2 ⟨some t, List.mem_of_getElem? hk, rfl⟩
    simp [this] at h

/-- `remove_points` does the same with an output folder -/
theorem removePointsD_spec {env : Env} {C : Family → ChildSpec τ size sub bs fl} (S : DiskSpec env C D G) (b : Backend) (F : Family) (hpos : 0 < size) {x0 y0 : ℚ} {nx ny : Nat} {T : Arr2 (Option τ)} {A : Store}
    {g u : Grid τ} (h : Ready (C F) x0 y0 nx ny T g A) {c : String} (hu : removePoints g c = .ok u) (hm : MaskProper u.mask) {exact : Bool}
    (d : Disk (Root φ)) (hd : Synced D G exact g d.now) :
    ∃ d', removePointsD b c (g, d) = .ok (u, d') ∧ Synced D G (exact || g.info.container.has c) u d'.now := by
  obtain ⟨F0, hF0, hhead, hsync⟩ := hd
  unfold removePoints at hu
  unfold removePointsD
  simp only
  cases hc : g.info.container.has c with
  | false =>
    rw [hc] at hu
    simp only [Bool.false_eq_true, if_false, Bool.or_false] at hu ⊢
    obtain rfl : g = u := congrArg Res.st hu
    exact ⟨d, rfl, F0, hF0, hhead, hsync⟩
  | true =>
    rw [hc] at hu
    simp only [if_true, Bool.or_true] at hu ⊢
    generalize hg0 : ({ g with info := { g.info with container := g.info.container.pop c } } : Grid τ) = g0 at *
    have hsync0 : TSync D G g0 d.now := by
      rw [← hg0]; exact hsync.congr (fun t p => has_congr rfl rfl rfl t p) (fun _ => rfl)
    have fin : ∀ (v : Grid τ) (e : Disk (Root φ)), TSync D G v e.now → TopOf d.now e.now → (if v.isEmpty then { v with tiles := none } else v) = u →
        ∃ d', Res.ok (u, saveGrid b u e) = .ok (u, d') ∧ Synced D G true u d'.now := by
      intro v e hv he hvu
      obtain ⟨F1, hF1, -⟩ := he F0 hF0
      refine ⟨_, rfl, _, saveGrid_now b u e, headerOk_save b hm _, ?_⟩
      refine hv.congr (fun t p => ?_) (saveGrid_folder b u e)
      rw [← hvu]
      split
      · rename_i hemp
        constructor
        · intro hh; exact absurd hh (isEmpty_has (g := { v with tiles := none }) rfl t p)
        · intro hh; exact absurd hh (isEmpty_has hemp t p)
      · exact Iff.rfl
    cases hemp : g0.isEmpty with
    | true =>
      rw [hemp] at hu
      simp only [if_true, Res.andThen_ok] at hu ⊢
      have hu' := congrArg Res.st hu
      simp only [Res.ok_st] at hu'
      rw [hu']
      exact fin g0 d hsync0 (topOf_refl _) hu'
    | false =>
      rw [hemp] at hu
      simp only [Bool.false_eq_true, if_false] at hu ⊢
      have hgt : g0.tiles = some T := by rw [← hg0]; exact h.tiles
      have hlen := h.rep.2.2.1
      have hslots : g0.slots = ny * nx := by unfold slots; rw [hgt]; exact hlen
      have herr : ((Res.forEach (List.range g0.slots) g0 (removeFromTile c)).andThen (fun g => .ok (if g.isEmpty then { g with tiles := none } else g))).err = none := by rw [hu]; rfl
      obtain ⟨v, e, h1, h2, h3, h4, -, -, -⟩ := removeLoopD_spec S b F hpos (minX := x0) (minY := y0) (nx := nx) (ny := ny)
        (B := fun k => A.within (slotX x0 size nx k) (slotY y0 size nx k) size) c (List.range g0.slots) List.nodup_range g0 (by rw [← hg0]; exact h.txs) (by rw [← hg0]; exact h.tys)
        (fun j o hj => slot_lt hgt hlen hj) (by
          intro k hk
          rw [List.mem_range, hslots, ← hlen] at hk
          have hk' : T.flat[k]? = some T.flat[k] := List.getElem?_eq_getElem hk
          refine ⟨T.flat[k], ?_, h.rep.2.2.2 k _ hk'⟩
          unfold tile?; rw [hgt]; exact hk') (Res.andThen_err_none herr).1 d hsync0
      rw [h1, Res.andThen_ok] at hu
      have hu' := congrArg Res.st hu
      simp only [Res.ok_st] at hu'
      rw [h2, Res.andThen_ok]
      simp only [hu']
      exact fin v e h3 h4 hu'

end
end Grid
end Bathy
