import Verif.Lemmas.UpdateLeaf
import Verif.Props.ContainerGrid
import Verif.Props.GridUpdate
import Verif.Props.SurfaceKept

/-!
# Tiles that are marked as changed or can be asked for slopes and containers
-/

namespace Bathy
open Grid

variable {env : Env} {F F0 : Family} {size sub : ℚ} {bs : Bool} {fl : Fields} {alg : Alg} {r : ℚ}

/-- the tile holds the soundings and is marked as changed or can be asked for slopes and containers at `r` -/
def readySpec (env : Env) (F : Family) (size sub : ℚ) (bs : Bool) (fl : Fields) (hs : 0 < size) (alg : Alg) (r : ℚ) : ChildSpec Tile size sub bs fl where
  Rep x y t A := (tileSpec env F size sub bs fl hs).Rep x y t A ∧ (t.pointCountChanged = false → ContReady alg r t)
  first := by
    intro x y c pts hp hbox
    obtain ⟨t0, u, h1, h2, h3⟩ := (tileSpec env F size sub bs fl hs).first (c := c) hp hbox
    refine ⟨t0, u, h1, h2, h3, ?_⟩
    have h1 : Except.ok (Tile.new x y size bs) = Except.ok t0 := h1
    cases h1
    obtain ⟨u', hu, -, -, hpc, -⟩ := Tile.addPoints_spec (Tile.rep_new x y size bs fl) ⟨fl, pts⟩ rfl c
    have h2 : Tile.addPoints (Tile.new x y size bs) ⟨fl, pts⟩ c = .ok u := h2
    rw [hu] at h2
    have : u' = u := congrArg Res.st h2
    subst this
    intro h; rw [hpc] at h; cases h
  add := by
    intro x y t A c pts h hc hp hbox
    obtain ⟨u, h2, h3⟩ := (tileSpec env F size sub bs fl hs).add h.1 hc hp hbox
    refine ⟨u, h2, h3, ?_⟩
    obtain ⟨u', hu, -, -, hpc, -⟩ := Tile.addPoints_spec (history_frame hs h.1.1).2.1 ⟨fl, pts⟩ rfl c
    have h2 : Tile.addPoints t ⟨fl, pts⟩ c = .ok u := h2
    rw [hu] at h2
    have : u' = u := congrArg Res.st h2
    subst this
    intro h; rw [hpc] at h; cases h
  remove := by
    intro x y t A c h
    obtain ⟨u, h2, h3, h4⟩ := (tileSpec env F size sub bs fl hs).remove (c := c) h.1
    refine ⟨u, h2, h3, ?_⟩
    rcases h4 with h4 | ⟨h4, h5⟩
    · exact Or.inl h4
    · refine Or.inr ⟨h4, h5, ?_⟩
      by_cases hc : c ∈ A.names
      · obtain ⟨u', hu, -, -, hpc, -⟩ := Tile.removePoints_spec (history_frame hs h.1.1).2.1 c
        have h2 : Tile.removePoints t c = .ok u := h2
        rw [hu] at h2
        have : u' = u := congrArg Res.st h2
        subst this
        intro h; rw [hpc hc] at h; cases h
      · rw [h3 hc]
        exact h.2
  nonempty := fun h => (tileSpec env F size sub bs fl hs).nonempty h.1
  count := fun h => (tileSpec env F size sub bs fl hs).count h.1

/-- what a call at `r` does to a tile -/
theorem did_ready (hs : 0 < size) (hF : alg.family = some F) {a : GridCall} (ha : a.alg = alg) (hr : a.res = some r) {x y : ℚ} {t t' : Tile} {B : Store}
    (ht : TileHistory env x y size bs fl F0 t B) (hF0 : F = F0 ∨ a.clear = true) {rs : List ℚ} (hd : Did env a t t' rs) :
    (t' = t ∧ t.pointCountChanged = false ∧ a.regrid = .update ∧ a.clear = false) ∨ (TileHistory env x y size bs fl F t' B ∧ ContReady alg r t') := by
  cases hd with
  | skipped hu hc hp => exact Or.inl ⟨rfl, hp, hu, hc⟩
  | gridded c hc hl he =>
    right
    have he : (t.grid env c.alg c.res c.clear c.mode c.params c.border).1.err = none := he
    show TileHistory env x y size bs fl F (t.grid env c.alg c.res c.clear c.mode c.params c.border).1.st B ∧
      ContReady alg r (t.grid env c.alg c.res c.clear c.mode c.params c.border).1.st
    have hca : c.alg = alg := hc.alg.trans ha
    have hcr := hc.res r hr
    rw [hca, hcr] at he ⊢
    have e1 : (t.grid env alg (some r) c.clear c.mode c.params c.border).1 = t.gridAt env alg r c.clear c.params c.border :=
      Tile.grid_eq env t alg (some r) c.clear c.mode c.params c.border
    have hp : isPowerOfTwo r = true := by
      rcases Bool.eq_false_or_eq_true (isPowerOfTwo r) with hp | hp
      · exact hp
      · rw [e1, Tile.gridAt_bad env t alg hp] at he; cases he
    obtain ⟨k1, k2, k3⟩ := gridded_state hs ht hF (hF0.imp id hc.clear) hp c.mode c.params c.border he
    refine ⟨k1, k2, k3, ?_⟩
    rw [e1] at he ⊢
    exact Tile.gridAt_alg he

theorem ready_full (hs : 0 < size) (hF : alg.family = some F) (r : ℚ) :
    Regrids env (tileSpec env F0 size sub bs fl hs) (readySpec env F size sub bs fl hs alg r) alg r (fun a => (a.regrid = .full ∨ a.clear = true) ∧ (F = F0 ∨ a.clear = true)) where
  mono := fun hc h => ⟨h.1.imp (fun h => hc.regrid.trans h) hc.clear, h.2.imp id hc.clear⟩
  skip := Or.inr fun _ h => h.1
  did := by
    intro a ha hr hall x y t t' B rs hrep hd
    rcases did_ready hs hF ha hr hrep.1 hall.2 hd with ⟨-, -, h1, h2⟩ | ⟨h1, h3⟩
    · rcases hall.1 with h | h
      · rw [h] at h1; cases h1
      · rw [h] at h2; cases h2
    · exact ⟨⟨h1, hrep.2⟩, fun _ => h3⟩

theorem ready_update (hs : 0 < size) (hF : alg.family = some F) (r : ℚ) :
    Regrids env (readySpec env F size sub bs fl hs alg r) (readySpec env F size sub bs fl hs alg r) alg r (fun _ => True) where
  mono := fun _ h => h
  skip := Or.inl rfl
  did := by
    intro a ha hr _ x y t t' B rs hrep hd
    rcases did_ready hs hF ha hr hrep.1.1 (Or.inl rfl) hd with ⟨rfl, -, -, -⟩ | ⟨h1, h3⟩
    · exact hrep
    · exact ⟨⟨h1, hrep.1.2⟩, fun _ => h3⟩

theorem leafDid_ready (hs : 0 < size) (hF : alg.family = some F) (r : ℚ) : LeafDid env (readySpec env F size sub bs fl hs alg r) alg r (ContReady alg r) where
  run := by
    intro a ha har x y t t1 B rs hrep hd u hu
    have hu : u = t1 := hu
    subst hu
    rcases did_ready hs hF ha har hrep.1.1 (Or.inl rfl) hd with ⟨rfl, h3, -⟩ | ⟨-, h3⟩
    · exact hrep.2 h3
    · exact h3

theorem ready_queried {t u : Tile} (h : ContReady alg r t) (hq : Queried.queried env t u) : ContReady alg r u := by
  obtain ⟨⟨ci, h1, h2⟩, hc, ha⟩ := h
  rcases hq with ⟨layer, res, nodata, zUp, rfl⟩ | hq
  · refine ⟨⟨ci, by rw [(Tile.getLayer_same env t layer res nodata zUp).2]; exact h1, h2⟩, ?_, by rw [Tile.getLayer_alg]; exact ha⟩
    have h1 := (Tile.getLayer_core env t layer res nodata zUp).2.2 r
    unfold Tile.coreAt at h1
    have h2 := congrArg Option.isSome h1
    rw [Option.isSome_map, Option.isSome_map] at h2
    rw [h2]; exact hc
  · have hk : r ∈ t.cells.keys := by
      by_contra hn
      rw [(Dict.get?_eq_none _ _).2 hn] at hc
      cases hc
    have hi := hq.info
    simp only [Tile.toMeta, TileMeta.mk.injEq] at hi
    refine ⟨⟨ci, by rw [hq.idx r hk]; exact h1, h2⟩, by rw [hq.layers r, Option.isSome_map]; exact hc, ?_⟩
    obtain ⟨-, -, -, -, -, -, -, i8, -⟩ := hi
    exact i8.trans ha

theorem readySpec_query (hs : 0 < size) {x y : ℚ} {t u : Tile} {A : Store} (h : (readySpec env F size sub bs fl hs alg r).Rep x y t A) (hq : Queried.queried env t u) :
    (readySpec env F size sub bs fl hs alg r).Rep x y u A := by
  refine ⟨(closed_tile env hs).query F h.1 hq, fun hp => ready_queried (h.2 ?_) hq⟩
  rcases hq with ⟨layer, res, nodata, zUp, rfl⟩ | hq
  · rw [Tile.getLayer_pcc] at hp; exact hp
  · have hi := hq.info
    simp only [Tile.toMeta, TileMeta.mk.injEq] at hi
    rw [hi.2.2.2.2.2.2.2.2.2.1] at hp
    exact hp

theorem ready_leaf (t u : Tile) (h : Queried.queried env t u) (ht : ∀ x, HasLeaves.leaf t x → ContReady alg r x) : ∀ x, HasLeaves.leaf u x → ContReady alg r x := by
  intro x hx
  have hx : x = u := hx
  subst hx
  exact ready_queried (ht t rfl) h

theorem ShowsOf.mono {τ : Type} [TileLike τ] [LayerLike τ] [HasLeaves τ] {C C' : ChildSpec τ size sub bs fl} {n : Nat} {Q : Tile → Prop} {l : Layer} {nodata : Option ℚ} {sel : Store → List Pt}
    {R : List Pt → Option ℚ → Prop} {shown : Option ℚ → Option ℚ} (S : ShowsOf env C n r Q l nodata sel R shown)
    (h : ∀ {x y : ℚ} {t : τ} {A : Store}, C'.Rep x y t A → C.Rep x y t A) : ShowsOf env C' n r Q l nodata sel R shown :=
  ⟨fun z hr hQ => S.ok z (h hr) hQ, fun hr hQ => S.probe (h hr) hQ⟩

theorem Shows.mono {τ : Type} [TileLike τ] [LayerLike τ] [HasLeaves τ] {C C' : ChildSpec τ size sub bs fl} {n : Nat} {Q Q' : Tile → Prop} {l : Layer} {nodata : Option ℚ}
    {R : List Pt → Option ℚ → Prop} {shown : Option ℚ → Option ℚ} (S : Shows env C n r Q l nodata R shown)
    (h : ∀ {x y : ℚ} {t : τ} {A : Store}, C'.Rep x y t A → C.Rep x y t A) (hQ' : ∀ u, Q' u → Q u) : Shows env C' n r Q' l nodata R shown :=
  ⟨fun z hr hQ => S.ok z (h hr) (fun u hu => hQ' u (hQ u hu)), fun hr hQ => S.probe (h hr) (fun u hu => hQ' u (hQ u hu))⟩

/-- a tile that can be asked has layers -/
theorem ready_cells {t : Tile} (hc : (t.cells.get? r).isSome = true) : LayerLike.hasCells t = .ok true := by
  show Except.ok (!t.cells.isEmpty) = _
  cases he : t.cells with
  | nil => rw [he] at hc; cases hc
  | cons p ps => rfl

end Bathy
