import Verif.Lemmas.LeftBehind
import Verif.Lemmas.GridLeaf

/-!
# Tiles that are either marked as changed or have the layers of their soundings
-/

namespace Bathy
open Grid

namespace Tile

theorem runSlopes_pcc {env : Env} {t u : Tile} {r : ℚ} (h : runSlopes env t r = .ok u) : u.pointCountChanged = t.pointCountChanged := by
  unfold runSlopes at h
  (repeat' split at h) <;> cases h <;> rfl

theorem runPlainOnly_pcc {f : List ℚ → List Int → GridArrays → List ℚ → List ℚ → Except Err GridArrays} {t u : Tile} {r : ℚ} {c : String}
    (h : runPlainOnly f t r c = .ok u) : u.pointCountChanged = t.pointCountChanged := by
  unfold runPlainOnly at h
  simp only at h
  (repeat' split at h) <;> cases h
  rfl

theorem ensureLayer_pcc {env : Env} {t u : Tile} {l : Layer} {r : ℚ} {n : Option ℚ} (h : ensureLayer env t l r n = .ok u) :
    u.pointCountChanged = t.pointCountChanged := by
  unfold ensureLayer fillLayer at h
  (repeat' split at h) <;> first | exact runSlopes_pcc h | exact runPlainOnly_pcc h | (cases h; done) | (cases h; rfl)

theorem getLayer_pcc (env : Env) (t : Tile) (l : Layer) (r n : Option ℚ) (z : Bool) : (getLayer env t l r n z).1.pointCountChanged = t.pointCountChanged := by
  unfold getLayer
  simp only
  split
  · rfl
  · split
    · rfl
    · rfl
    · split
      · rcases leftBehind_cases t l _ with e | ⟨c, ls, a, b, hls, e⟩ <;> rw [e]
      · rename_i u hu
        split
        · exact ensureLayer_pcc hu
        · exact ensureLayer_pcc hu

theorem canonLayers_plain {env : Env} {x y w : ℚ} {dk : Layer} {d : PtArr} {F : Family} {alg : Alg} (ha : alg ≠ .cube) (r : ℚ) (params : Option GridParams) (border : Option PtArr) :
    canonLayers env x y w dk d F alg r params border = canonLayers env x y w dk d F alg r none none := by
  unfold canonLayers algLayers
  cases alg
  · rfl
  · rfl
  · exact absurd rfl ha
  · rfl

end Tile

/-- the layers at `r` are those of the soundings, and `r` is a resolution at which tiles can be gridded -/
def Current (env : Env) (x y size : ℚ) (bs : Bool) (fl : Fields) (F : Family) (alg : Alg) (r : ℚ) (t : Tile) (A : Store) : Prop :=
  ∃ L, Tile.canonLayers env x y size (Tile.new x y size bs).depthKey ⟨fl, A.allPts⟩ F alg r none none = .ok L ∧ t.coreAt r = some L ∧
    isPowerOfTwo r = true

/-- the tile holds the soundings and is marked as changed or has their layers -/
def curSpec (env : Env) (F : Family) (size sub : ℚ) (bs : Bool) (fl : Fields) (hs : 0 < size) (alg : Alg) (r : ℚ) : ChildSpec Tile size sub bs fl where
  Rep x y t A := (tileSpec env F size sub bs fl hs).Rep x y t A ∧ (t.pointCountChanged = false → Current env x y size bs fl F alg r t A)
  first := by
    intro x y c pts hp hbox
    obtain ⟨t0, u, h1, h2, h3⟩ := (tileSpec env F size sub bs fl hs).first (c := c) hp hbox
    refine ⟨t0, u, h1, h2, h3, ?_⟩
    have h1 : Except.ok (Tile.new x y size bs) = Except.ok t0 := h1
    cases h1
    obtain ⟨u', hu, -, -, hpc, -⟩ := Tile.addPoints_spec (Tile.rep_new x y size bs fl) ⟨fl, pts⟩ rfl c
    have h2 : Tile.addPoints (Tile.new x y size bs) ⟨fl, pts⟩ c = .ok u := h2
    rw [hu] at h2
    have : u' = u := congrArg Res.st h2
    subst this
    intro h; rw [hpc] at h; cases h
  add := by
    intro x y t A c pts h hc hp hbox
    obtain ⟨u, h2, h3⟩ := (tileSpec env F size sub bs fl hs).add h.1 hc hp hbox
    refine ⟨u, h2, h3, ?_⟩
    obtain ⟨u', hu, -, -, hpc, -⟩ := Tile.addPoints_spec (history_frame hs h.1.1).2.1 ⟨fl, pts⟩ rfl c
    have h2 : Tile.addPoints t ⟨fl, pts⟩ c = .ok u := h2
    rw [hu] at h2
    have : u' = u := congrArg Res.st h2
    subst this
    intro h; rw [hpc] at h; cases h
  remove := by
    intro x y t A c h
    obtain ⟨u, h2, h3, h4⟩ := (tileSpec env F size sub bs fl hs).remove (c := c) h.1
    refine ⟨u, h2, h3, ?_⟩
    rcases h4 with h4 | ⟨h4, h5⟩
    · exact Or.inl h4
    · refine Or.inr ⟨h4, h5, ?_⟩
      by_cases hc : c ∈ A.names
      · obtain ⟨u', hu, -, -, hpc, -⟩ := Tile.removePoints_spec (history_frame hs h.1.1).2.1 c
        have h2 : Tile.removePoints t c = .ok u := h2
        rw [hu] at h2
        have : u' = u := congrArg Res.st h2
        subst this
        intro h; rw [hpc hc] at h; cases h
      · rw [h3 hc, Store.remove_of_not_mem _ _ hc]
        exact h.2
  nonempty := fun h => (tileSpec env F size sub bs fl hs).nonempty h.1
  count := fun h => (tileSpec env F size sub bs fl hs).count h.1

namespace Grid
variable {τ : Type} [GridLike τ] {size sub : ℚ} {bs : Bool} {fl : Fields}

/-- calls of `grid` with the algorithm and resolution that satisfy `P` lead from `C.Rep` to `C'.Rep` -/
structure Regrids (env : Env) (C C' : ChildSpec τ size sub bs fl) (alg : Alg) (r : ℚ) (P : GridCall → Prop) : Prop where
  mono : ∀ {a c}, CallOf a c → P a → P c
  skip : C = C' ∨ ∀ a, P a → a.regrid = .full ∨ a.clear = true
  did : ∀ {a : GridCall}, a.alg = alg → a.res = some r → P a → ∀ {x y : ℚ} {t t' : τ} {B : Store} {rs : List ℚ}, C.Rep x y t B → Did env a t t' rs →
    C'.Rep x y t' B

theorem gridWith_did [LawfulGrid τ] {env : Env} {C C' : ChildSpec τ size sub bs fl} {g : Grid τ} {a : GridCall} {dask : Option Nat}
    (hd : ∀ {x y : ℚ} {t t' : τ} {B : Store} {rs : List ℚ}, C.Rep x y t B → Did env a t t' rs → C'.Rep x y t' B) (hok : (gridWith env g a dask).err = none) :
    ∃ T T' al gr gp R, g.tiles = some T ∧ SlotsTo C C' T T' ∧ (gridWith env g a dask).st = (g.withAttrs al gr gp []).withTiles T' R := by
  rcases gridWith_spec env g a dask with ⟨al, gr, gp, e, h, -⟩ | ⟨gr, T, hpl, -, hT, -, ⟨hall, h⟩ | ⟨-, e, b, R, -, h⟩⟩
  · rw [h] at hok; cases hok
  · refine ⟨T, _, some a.alg, gr, a.params, _, hT, ?_, by rw [h]; rfl⟩
    have hp : a.res ≠ none → (gridPlan env g a).2 = ⟨a.res, none⟩ := by
      rcases gridPlan_spec env g a with ⟨_, _, _, _, _, h5, _⟩ | ⟨al, gr, gp, e, h5⟩
      · exact h5
      · have h6 := congrArg Res.err hpl; rw [h5] at h6; cases h6
    refine ⟨rfl, rfl, by simp [prefixTiles], ?_⟩
    intro k o o' ho ho'
    have hk := (List.getElem?_eq_some_iff.1 ho).1
    rw [prefixTiles_get, ho, Option.map_some] at ho'
    cases ho'
    rw [if_pos hk]
    cases o with
    | none => exact ⟨rfl, fun t t' h => by cases h⟩
    | some t =>
      obtain ⟨t', h1, h2⟩ := outAt_did hp rfl (hall k _ ho)
      rw [h1]
      refine ⟨rfl, ?_⟩
      intro t1 t2 e1 e2 x y B hB
      cases e1; cases e2
      exact hd hB h2
  · rw [h] at hok; cases hok

theorem grow_did [LawfulGrid τ] {env : Env} {C C' : ChildSpec τ size sub bs fl} {g : Grid τ} {a : GridCall} {dask : Option Nat} {A : Store} (hg : GrowInv C g A)
    (hd : ∀ {x y : ℚ} {t t' : τ} {B : Store} {rs : List ℚ}, C.Rep x y t B → Did env a t t' rs → C'.Rep x y t' B) (hok : (gridWith env g a dask).err = none) :
    GrowInv C' (gridWith env g a dask).st A := by
  obtain ⟨T, T', al, gr, gp, R, hT, hs, h⟩ := gridWith_did hd hok
  rw [h]
  exact grow_to hs hT hg al gr gp [] R

theorem sub_did [LawfulGrid τ] {env : Env} {C C' : ChildSpec τ sub 0 false fl} {x y : ℚ} {g : Grid τ} {a : GridCall} {dask : Option Nat} {A : Store} (hg : SubInv C size x y g A)
    (hd : ∀ {x y : ℚ} {t t' : τ} {B : Store} {rs : List ℚ}, C.Rep x y t B → Did env a t t' rs → C'.Rep x y t' B) (hok : (gridWith env g a dask).err = none) :
    SubInv C' size x y (gridWith env g a dask).st A := by
  obtain ⟨T, T', al, gr, gp, R, hT, hs, h⟩ := gridWith_did hd hok
  rw [h]
  obtain ⟨T0, hf⟩ := hg.frame
  have : T0 = T := by have := hf.tiles; rw [hT] at this; cases this; rfl
  subst this
  exact ⟨hg.name, hg.canGrow, hg.extents, hg.mask, hg.vref, hg.names, hg.ne, hg.cont, hg.nonempty, T', frame_to hs hf al gr gp [] R⟩

/-- what a call did to the tiles of a subgrid -/
theorem did_tiles [LawfulGrid τ] {env : Env} {a : GridCall} {u u' : Grid τ} {rs : List ℚ} (h : Did env a u u' rs) :
    ∃ c : GridCall, c.alg = a.alg ∧ (∀ r, a.res = some r → c.res = some r) ∧
      (∀ i j t, u.TileAt i j t → ∃ t' rs, u'.TileAt i j t' ∧ Did env c t t' rs) ∧ (∀ i j t', u'.TileAt i j t' → ∃ t rs, u.TileAt i j t ∧ Did env c t t' rs) := by
  cases h with
  | skipped hu hc hp =>
    have hp : u.pointCountChanged = false := hp
    have hpt : ∀ i j t, u.TileAt i j t → GridLike.pointCountChanged t = false := by
      rintro i j t ⟨T, hT, hg⟩
      unfold pointCountChanged at hp
      rw [hT] at hp
      simp only [List.any_eq_false] at hp
      have hm : some t ∈ T.flat := by
        unfold Arr2.get? at hg; split at hg
        · exact List.mem_of_getElem? hg
        · cases hg
      simpa using hp _ hm
    exact ⟨a, rfl, fun _ h => h, fun i j t ht => ⟨t, _, ht, Did.skipped hu hc (hpt i j t ht)⟩, fun i j t ht => ⟨t, _, ht, Did.skipped hu hc (hpt i j t ht)⟩⟩
  | gridded c hc hl he =>
    have he : (gridWith env u c none).err = none := he
    obtain ⟨-, -, -, h2, h3, -⟩ := gridWith_at he
    refine ⟨c, hc.alg, hc.res, fun i j t ht => ?_, fun i j t ht => ?_⟩
    · obtain ⟨t', rs, k1, k2, -⟩ := h2 i j t ht
      exact ⟨t', rs, k1, k2⟩
    · obtain ⟨t', rs, k1, k2, -⟩ := h3 i j t ht
      exact ⟨t', rs, k1, k2⟩

theorem regrids_sub [LawfulGrid τ] {env : Env} {C C' : ChildSpec τ sub 0 false fl} {alg : Alg} {r : ℚ} {P : GridCall → Prop} (h : Regrids env C C' alg r P) (hs : 0 < size)
    (hpow : isPowerOfTwo sub = true) : Regrids (size := size) (bs := bs) env (subSpec C hs hpow) (subSpec C' hs hpow) alg r P where
  mono := h.mono
  skip := h.skip.imp (fun h => by rw [h]) (fun h => h)
  did := by
    intro a ha hr hall x y g g' A rs hrep hd
    have hrep : SubInv C size x y g A := hrep
    show SubInv C' size x y g' A
    cases hd with
    | skipped hu hc hp =>
      rcases h.skip with hC | hC
      · rw [← hC]; exact hrep
      · rcases hC a hall with h1 | h1
        · rw [h1] at hu; cases hu
        · rw [h1] at hc; cases hc
    | gridded c hc hl he =>
      have he : (gridWith env g c none).err = none := he
      refine sub_did hrep ?_ he
      intro x y t t' B rs
      exact h.did (hc.alg.trans ha) (hc.res r hr) (h.mono hc hall)

end Grid

/-- what a call at `r` does to a tile -/
theorem did_current {env : Env} {F0 F : Family} {size : ℚ} {bs : Bool} {fl : Fields} (hs : 0 < size) {alg : Alg} (hF : alg.family = some F) (hne : alg ≠ .cube) {r : ℚ}
    {a : GridCall} (ha : a.alg = alg) (hr : a.res = some r) {x y : ℚ} {t t' : Tile} {B : Store} (ht : TileHistory env x y size bs fl F0 t B) (hF0 : F0 = F ∨ a.clear = true) {rs : List ℚ} (hd : Did env a t t' rs) :
    (t' = t ∧ t.pointCountChanged = false ∧ a.regrid = .update ∧ a.clear = false) ∨
    (TileHistory env x y size bs fl F t' B ∧ t'.pointCountChanged = false ∧ Current env x y size bs fl F alg r t' B) := by
  cases hd with
  | skipped hu hc hp => exact Or.inl ⟨rfl, hp, hu, hc⟩
  | gridded c hc hl he =>
    right
    have he : (t.grid env c.alg c.res c.clear c.mode c.params c.border).1.err = none := he
    show TileHistory env x y size bs fl F (t.grid env c.alg c.res c.clear c.mode c.params c.border).1.st B ∧
      (t.grid env c.alg c.res c.clear c.mode c.params c.border).1.st.pointCountChanged = false ∧ Current env x y size bs fl F alg r (t.grid env c.alg c.res c.clear c.mode c.params c.border).1.st B
    have hca : c.alg = alg := hc.alg.trans ha
    have hcr := hc.res r hr
    rw [hca, hcr] at he ⊢
    refine ⟨?_, ?_⟩
    · rcases hF0 with rfl | hF0
      · exact TileHistory.grid ht alg hF _ _ _ _ _
      · rw [hc.clear hF0] at he ⊢
        exact TileHistory.switch ht alg hF _ _ _ _ he
    have hch : Tile.chooseResolution env t (some r) c.mode = .ok r := rfl
    have e1 := Tile.grid_eq env t alg (some r) c.clear c.mode c.params c.border
    rw [hch] at e1
    simp only at e1
    rw [e1] at he ⊢
    have hp : isPowerOfTwo r = true := by
      rcases Bool.eq_false_or_eq_true (isPowerOfTwo r) with hp | hp
      · exact hp
      · rw [Tile.gridAt_bad env t alg hp] at he; cases he
    have hgr := history_grid hs ht (clear := c.clear) hF (hF0.imp Eq.symm hc.clear) hp c.params c.border
    simp only at hgr
    rw [Tile.canonLayers_plain hne] at hgr
    cases hcan : Tile.canonLayers env x y size (Tile.new x y size bs).depthKey ⟨fl, B.allPts⟩ F alg r none none with
    | error e => rw [hcan] at hgr; simp only at hgr; rw [hgr] at he; cases he
    | ok L =>
      rw [hcan] at hgr
      simp only at hgr
      exact ⟨hgr.2.2, L, hcan, hgr.2.1, hp⟩

theorem regrids_full {env : Env} {F0 F : Family} {size sub : ℚ} {bs : Bool} {fl : Fields} (hs : 0 < size) {alg : Alg} (hF : alg.family = some F) (hne : alg ≠ .cube) (r : ℚ) :
    Regrids env (tileSpec env F0 size sub bs fl hs) (curSpec env F size sub bs fl hs alg r) alg r (fun a => (a.regrid = .full ∨ a.clear = true) ∧ (F0 = F ∨ a.clear = true)) where
  mono := fun hc h => ⟨h.1.imp (fun h => hc.regrid.trans h) hc.clear, h.2.imp id hc.clear⟩
  skip := Or.inr fun _ h => h.1
  did := by
    intro a ha hr hall x y t t' B rs hrep hd
    rcases did_current hs hF hne ha hr hrep.1 hall.2 hd with ⟨-, -, h1, h2⟩ | ⟨h1, h2, h3⟩
    · rcases hall.1 with h | h
      · rw [h] at h1; cases h1
      · rw [h] at h2; cases h2
    · exact ⟨⟨h1, hrep.2⟩, fun _ => h3⟩

theorem regrids_update {env : Env} {F : Family} {size sub : ℚ} {bs : Bool} {fl : Fields} (hs : 0 < size) {alg : Alg} (hF : alg.family = some F) (hne : alg ≠ .cube) (r : ℚ) :
    Regrids env (curSpec env F size sub bs fl hs alg r) (curSpec env F size sub bs fl hs alg r) alg r (fun _ => True) where
  mono := fun _ h => h
  skip := Or.inl rfl
  did := by
    intro a ha hr _ x y t t' B rs hrep hd
    rcases did_current hs hF hne ha hr hrep.1.1 (Or.inl rfl) hd with ⟨rfl, -, -, -⟩ | ⟨h1, h2, h3⟩
    · exact hrep
    · exact ⟨⟨h1, hrep.1.2⟩, fun _ => h3⟩

theorem curSpec_query {env : Env} {F : Family} {size sub : ℚ} {bs : Bool} {fl : Fields} (hs : 0 < size) {alg : Alg} {r x y : ℚ} {t u : Tile} {A : Store}
    (h : (curSpec env F size sub bs fl hs alg r).Rep x y t A) (hq : Queried.queried env t u) : (curSpec env F size sub bs fl hs alg r).Rep x y u A := by
  refine ⟨(closed_tile env hs).query F h.1 hq, ?_⟩
  rcases hq with ⟨layer, res, nodata, zUp, rfl⟩ | hq
  rotate_left
  · intro hp
    have hi := hq.info
    simp only [Tile.toMeta, TileMeta.mk.injEq] at hi
    rw [hi.2.2.2.2.2.2.2.2.2.1] at hp
    obtain ⟨L, h1, h2⟩ := h.2 hp
    exact ⟨L, h1, by rw [Tile.reread_coreAt hq]; exact h2⟩
  intro hp
  rw [Tile.getLayer_pcc] at hp
  obtain ⟨L, h1, h2⟩ := h.2 hp
  exact ⟨L, h1, by rw [(Tile.getLayer_core env t layer res nodata zUp).2.2]; exact h2⟩

end Bathy
