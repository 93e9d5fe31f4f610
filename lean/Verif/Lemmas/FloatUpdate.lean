import Verif.Lemmas.FloatRun
import Verif.Lemmas.GridUpdate

/-!
# Tiles that are marked as changed or have the layers of their soundings, in floating point arithmetic
-/

namespace Bathy
open Grid

theorem Arith.canonLayers_plain {M : Arith} {env : Env} {x y w : ℚ} {dk : Layer} {d : PtArr} {F : Family} {alg : Alg} (ha : alg ≠ .cube) (r : ℚ) (params : Option GridParams)
    (border : Option PtArr) : M.canonLayers env x y w dk d F alg r params border = M.canonLayers env x y w dk d F alg r none none := by
  unfold canonLayers algLayers
  cases alg
  · rfl
  · rfl
  · exact absurd rfl ha
  · rfl

/-- the layers at `r` are those of the soundings, see `Current` -/
def FCurrent (M : Arith) (env : Env) (x y size : ℚ) (bs : Bool) (fl : Fields) (F : Family) (alg : Alg) (r : ℚ) (t : Tile) (A : Store) : Prop :=
  ∃ L, M.canonLayers env x y size (Tile.new x y size bs).depthKey ⟨fl, A.allPts⟩ F alg r none none = .ok L ∧ t.coreAt r = some L ∧
    isPowerOfTwo r = true

/-- the tile holds the soundings and is marked as changed or has their layers -/
def fcurSpec (M : Arith) (env : Env) (F : Family) (size sub : ℚ) (bs : Bool) (fl : Fields) (hs : 0 < size) (alg : Alg) (r : ℚ) : ChildSpec (FTile M) size sub bs fl where
  Rep x y t A := (ftileSpec M env F size sub bs fl hs).Rep x y t A ∧ (Tile.pointCountChanged t = false → FCurrent M env x y size bs fl F alg r t A)
  first := by
    intro x y c pts hp hbox
    obtain ⟨t0, u, h1, h2, h3⟩ := (ftileSpec M env F size sub bs fl hs).first (c := c) hp hbox
    refine ⟨t0, u, h1, h2, h3, ?_⟩
    have h1 : Except.ok (Tile.new x y size bs) = (Except.ok t0 : Except Err Tile) := h1
    cases h1
    obtain ⟨u', hu, -, -, hpc, -⟩ := Tile.addPoints_spec (Tile.rep_new x y size bs fl) ⟨fl, pts⟩ rfl c
    have h2 : Tile.addPoints (Tile.new x y size bs) ⟨fl, pts⟩ c = .ok u := h2
    rw [hu] at h2
    have : u' = u := congrArg Res.st h2
    subst this
    intro h; rw [hpc] at h; cases h
  add := by
    intro x y t A c pts h hc hp hbox
    obtain ⟨u, h2, h3⟩ := (ftileSpec M env F size sub bs fl hs).add h.1 hc hp hbox
    refine ⟨u, h2, h3, ?_⟩
    obtain ⟨u', hu, -, -, hpc, -⟩ := Tile.addPoints_spec (float_frame hs h.1.1).2.1 ⟨fl, pts⟩ rfl c
    have h2 : Tile.addPoints t ⟨fl, pts⟩ c = .ok u := h2
    rw [hu] at h2
    have : u' = u := congrArg Res.st h2
    subst this
    intro h; rw [hpc] at h; cases h
  remove := by
    intro x y t A c h
    obtain ⟨u, h2, h3, h4⟩ := (ftileSpec M env F size sub bs fl hs).remove (c := c) h.1
    refine ⟨u, h2, h3, ?_⟩
    rcases h4 with h4 | ⟨h4, h5⟩
    · exact Or.inl h4
    · refine Or.inr ⟨h4, h5, ?_⟩
      by_cases hc : c ∈ A.names
      · obtain ⟨u', hu, -, -, hpc, -⟩ := Tile.removePoints_spec (float_frame hs h.1.1).2.1 c
        have h2 : Tile.removePoints t c = .ok u := h2
        rw [hu] at h2
        have : u' = u := congrArg Res.st h2
        subst this
        intro h; rw [hpc hc] at h; cases h
      · rw [h3 hc, Store.remove_of_not_mem _ _ hc]
        exact h.2
  nonempty := fun h => (ftileSpec M env F size sub bs fl hs).nonempty h.1
  count := fun h => (ftileSpec M env F size sub bs fl hs).count h.1

/-- what a call at `r` does to a tile -/
theorem did_fcurrent {M : Arith} {env : Env} {F0 F : Family} {size : ℚ} {bs : Bool} {fl : Fields} (hs : 0 < size) {alg : Alg} (hF : alg.family = some F) (hne : alg ≠ .cube) {r : ℚ}
    {a : GridCall} (ha : a.alg = alg) (hr : a.res = some r) {x y : ℚ} {t t' : FTile M} {B : Store} (ht : FloatHistory M env x y size bs fl F0 t B) (hF0 : F0 = F ∨ a.clear = true)
    {rs : List ℚ} (hd : Did env a t t' rs) :
    (t' = t ∧ Tile.pointCountChanged t = false ∧ a.regrid = .update ∧ a.clear = false) ∨
    (FloatHistory M env x y size bs fl F t' B ∧ Tile.pointCountChanged t' = false ∧ FCurrent M env x y size bs fl F alg r t' B) := by
  cases hd with
  | skipped hu hc hp => exact Or.inl ⟨rfl, hp, hu, hc⟩
  | gridded c hc hl he =>
    right
    have he : (M.grid env t c.alg c.res c.clear c.mode c.params c.border).1.err = none := he
    show FloatHistory M env x y size bs fl F (M.grid env t c.alg c.res c.clear c.mode c.params c.border).1.st B ∧
      Tile.pointCountChanged (M.grid env t c.alg c.res c.clear c.mode c.params c.border).1.st = false ∧
      FCurrent M env x y size bs fl F alg r (M.grid env t c.alg c.res c.clear c.mode c.params c.border).1.st B
    have hca : c.alg = alg := hc.alg.trans ha
    have hcr := hc.res r hr
    refine ⟨?_, ?_⟩
    · rcases hF0 with rfl | hF0
      · exact float_step ht c (by rw [hca]; exact hF)
      · exact float_step_switch ht c (by rw [hca]; exact hF) (hc.clear hF0) he
    rw [hca, hcr] at he ⊢
    have hch : Tile.chooseResolution env t (some r) c.mode = .ok r := rfl
    have e1 := M.grid_eq env t alg (some r) c.clear c.mode c.params c.border
    rw [hch] at e1
    simp only at e1
    rw [e1] at he ⊢
    have hp : isPowerOfTwo r = true := by
      rcases Bool.eq_false_or_eq_true (isPowerOfTwo r) with hp | hp
      · exact hp
      · rw [M.gridAt_bad env t alg hp] at he; cases he
    have hgr := float_grid hs ht (clear := c.clear) hF (hF0.imp Eq.symm hc.clear) hp c.params c.border
    simp only at hgr
    rw [Arith.canonLayers_plain hne] at hgr
    cases hcan : M.canonLayers env x y size (Tile.new x y size bs).depthKey ⟨fl, B.allPts⟩ F alg r none none with
    | error e => rw [hcan] at hgr; simp only at hgr; rw [hgr] at he; cases he
    | ok L =>
      rw [hcan] at hgr
      simp only at hgr
      exact ⟨hgr.2.2, L, hcan, hgr.2.1, hp⟩

theorem fregrids_full {M : Arith} {env : Env} {F0 F : Family} {size sub : ℚ} {bs : Bool} {fl : Fields} (hs : 0 < size) {alg : Alg} (hF : alg.family = some F) (hne : alg ≠ .cube) (r : ℚ) :
    Regrids env (ftileSpec M env F0 size sub bs fl hs) (fcurSpec M env F size sub bs fl hs alg r) alg r
      (fun a => (a.regrid = .full ∨ a.clear = true) ∧ (F0 = F ∨ a.clear = true)) where
  mono := fun hc h => ⟨h.1.imp (fun h => hc.regrid.trans h) hc.clear, h.2.imp id hc.clear⟩
  skip := Or.inr fun _ h => h.1
  did := by
    intro a ha hr hall x y t t' B rs hrep hd
    rcases did_fcurrent hs hF hne ha hr hrep.1 hall.2 hd with ⟨-, -, h1, h2⟩ | ⟨h1, h2, h3⟩
    · rcases hall.1 with h | h
      · rw [h] at h1; cases h1
      · rw [h] at h2; cases h2
    · exact ⟨⟨h1, hrep.2⟩, fun _ => h3⟩

theorem fregrids_update {M : Arith} {env : Env} {F : Family} {size sub : ℚ} {bs : Bool} {fl : Fields} (hs : 0 < size) {alg : Alg} (hF : alg.family = some F) (hne : alg ≠ .cube) (r : ℚ) :
    Regrids env (fcurSpec M env F size sub bs fl hs alg r) (fcurSpec M env F size sub bs fl hs alg r) alg r (fun _ => True) where
  mono := fun _ h => h
  skip := Or.inl rfl
  did := by
    intro a ha hr _ x y t t' B rs hrep hd
    rcases did_fcurrent hs hF hne ha hr hrep.1.1 (Or.inl rfl) hd with ⟨rfl, -, -, -⟩ | ⟨h1, h2, h3⟩
    · exact hrep
    · exact ⟨⟨h1, hrep.1.2⟩, fun _ => h3⟩

/-- looking at a layer keeps it -/
theorem fcurrent_query {M : Arith} {env : Env} {F : Family} {size : ℚ} {bs : Bool} {fl : Fields} {alg : Alg} {r x y : ℚ} {t u : Tile} {A : Store}
    (h : t.pointCountChanged = false → FCurrent M env x y size bs fl F alg r t A) (hq : Queried.queried env t u) :
    u.pointCountChanged = false → FCurrent M env x y size bs fl F alg r u A := by
  rcases hq with ⟨layer, res, nodata, zUp, rfl⟩ | hq
  rotate_left
  · intro hp
    have hi := hq.info
    simp only [Tile.toMeta, TileMeta.mk.injEq] at hi
    rw [hi.2.2.2.2.2.2.2.2.2.1] at hp
    obtain ⟨L, h1, h2⟩ := h hp
    exact ⟨L, h1, by rw [Tile.reread_coreAt hq]; exact h2⟩
  intro hp
  rw [Tile.getLayer_pcc] at hp
  obtain ⟨L, h1, h2⟩ := h hp
  exact ⟨L, h1, by rw [(Tile.getLayer_core env t layer res nodata zUp).2.2]; exact h2⟩

theorem fcurSpec_query {M : Arith} {env : Env} {F : Family} {size sub : ℚ} {bs : Bool} {fl : Fields} (hs : 0 < size) {alg : Alg} {r x y : ℚ} {t u : FTile M} {A : Store}
    (h : (fcurSpec M env F size sub bs fl hs alg r).Rep x y t A) (hq : Queried.queried env t u) : (fcurSpec M env F size sub bs fl hs alg r).Rep x y u A :=
  ⟨(closed_ftile M env hs).query F h.1 hq, fcurrent_query h.2 hq⟩

end Bathy
