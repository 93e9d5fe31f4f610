import Verif.Spec.FloatSurface
import Verif.Lemmas.FloatTile
import Verif.Lemmas.Shaped
import Verif.Lemmas.GridLeaf

/-!
# Grids whose tiles are gridded in floating point arithmetic
-/

namespace Bathy

namespace Arith

theorem runAlg_same {A : Arith} {env : Env} {t u : Tile} {alg : Alg} {r : ℚ} {p : Option GridParams} {b : Option PtArr} (h : A.runAlg env t alg r p b = .ok u) :
    Tile.samePoints t u := by
  have plain : ∀ f, A.runPlain f t r = .ok u → Tile.samePoints t u := by
    intro f hf
    unfold runPlain at hf
    split at hf
    · split at hf
      · cases hf
      · cases hf; exact ⟨rfl, rfl, by simp [Tile.sameFrame]⟩
    · cases hf
    · cases hf
  cases alg with
  | mean => exact plain _ h
  | shoalest => exact plain _ h
  | cube => exact (Tile.runAlg_same (env := env) (alg := .cube) h).1
  | other => cases h; exact Tile.samePoints_refl t

theorem gridAt_samePts (A : Arith) (env : Env) (t : Tile) (alg : Alg) (r : ℚ) (clear : Bool) (p : Option GridParams) (b : Option PtArr) :
    Tile.samePoints t (A.gridAt env t alg r clear p b).st := by
  unfold gridAt
  split
  · have h1 : Tile.samePoints t (if clear then t.clearGrid else t) := by
      cases clear
      · exact Tile.samePoints_refl t
      · exact (Tile.clearGrid_same t).1
    simp only
    generalize hu1 : (if clear then t.clearGrid else t) = u1 at h1
    have h2 := Tile.clearTemp_same u1 r
    generalize hu2 : u1.clearTemp r = u2 at h2
    have e2 : Tile.samePoints t u2 := Tile.samePoints_trans h1 h2.1
    generalize hr3 : (if (!u2.cells.has r || decide (u2.algorithm ≠ some alg)) = true then
        Tile.newGrid { u2 with algorithm := some alg, gridParams := p } r alg else Res.ok u2) = r3
    have h3 : Tile.samePoints u2 r3.st := by
      rw [← hr3]
      split
      · have := Tile.newGrid_same { u2 with algorithm := some alg, gridParams := p } r alg
        exact Tile.samePoints_trans ⟨rfl, rfl, by simp [Tile.sameFrame]⟩ this.1
      · exact Tile.samePoints_refl _
    have e3 : Tile.samePoints t r3.st := Tile.samePoints_trans e2 h3
    unfold Res.andThen
    cases hr : r3.err with
    | some e => exact e3
    | none =>
      simp only
      split
      · exact e3
      · rename_i u4 hp
        have e4 := Tile.samePoints_trans e3 (Tile.prepare_samePts hp)
        split
        · exact e4
        · rename_i u5 hra
          have e5 := Tile.samePoints_trans e4 (runAlg_same hra)
          exact ⟨e5.1, e5.2.1, e5.2.2⟩
  · exact Tile.samePoints_refl t

theorem grid_samePts (A : Arith) (env : Env) (t : Tile) (alg : Alg) (r : Option ℚ) (clear : Bool) (m : AutoMode) (p : Option GridParams)
    (b : Option PtArr) : Tile.samePoints t (A.grid env t alg r clear m p b).1.st := by
  unfold grid
  split
  · exact Tile.samePoints_refl t
  · exact A.gridAt_samePts _ _ _ _ _ _ _

/-- `grid` in terms of `gridAt` -/
theorem grid_eq (A : Arith) (env : Env) (t : Tile) (alg : Alg) (res : Option ℚ) (clear : Bool) (mode : AutoMode) (params : Option GridParams)
    (border : Option PtArr) :
    (A.grid env t alg res clear mode params border).1 =
      match Tile.chooseResolution env t res mode with
      | .error e => .fail t e
      | .ok r => A.gridAt env t alg r clear params border := by
  unfold grid
  cases Tile.chooseResolution env t res mode <;> rfl

end Arith

instance (A : Arith) : LawfulGrid (FTile A) where
  side env t a s buf := by
    obtain ⟨hd, -, h1, h2, h3, h4, -⟩ := A.grid_samePts env t a.alg a.res a.clear a.mode a.params a.border
    show Tile.sidePoints (A.grid env t a.alg a.res a.clear a.mode a.params a.border).1.st s buf = Tile.sidePoints t s buf
    unfold Tile.sidePoints
    rw [hd, h1, h2, h3, h4]
  width env t a := by
    obtain ⟨-, -, -, -, -, -, h5, -⟩ := A.grid_samePts env t a.alg a.res a.clear a.mode a.params a.border
    show some (A.grid env t a.alg a.res a.clear a.mode a.params a.border).1.st.width = some (Tile.width t)
    rw [h5]

/-- `grid` with an algorithm of the same family -/
theorem float_step {M : Arith} {env : Env} {x y size : ℚ} {bs : Bool} {fl : Fields} {F : Family} {t : Tile} {A : Store} (h : FloatHistory M env x y size bs fl F t A) (a : GridCall)
    (ha : a.alg.family = some F) : FloatHistory M env x y size bs fl F (M.grid env t a.alg a.res a.clear a.mode a.params a.border).1.st A := by
  rw [M.grid_eq]
  split
  · exact h
  · exact FloatHistory.grid h a.alg ha _ a.clear a.params a.border

/-- `grid` with an algorithm of another family -/
theorem float_step_switch {M : Arith} {env : Env} {x y size : ℚ} {bs : Bool} {fl : Fields} {F F' : Family} {t : Tile} {A : Store} (h : FloatHistory M env x y size bs fl F t A) (a : GridCall)
    (ha : a.alg.family = some F') (hc : a.clear = true) (he : (M.grid env t a.alg a.res a.clear a.mode a.params a.border).1.err = none) :
    FloatHistory M env x y size bs fl F' (M.grid env t a.alg a.res a.clear a.mode a.params a.border).1.st A := by
  rw [M.grid_eq, hc] at he ⊢
  split at he
  · cases he
  · rename_i r hr
    clear hr
    exact FloatHistory.switch h a.alg ha r a.params a.border he

/-- tiles reached through any history of calls, in arithmetic `M` -/
def ftileSpec (M : Arith) (env : Env) (F : Family) (size sub : ℚ) (bs : Bool) (fl : Fields) (hs : 0 < size) : ChildSpec (FTile M) size sub bs fl where
  Rep x y t A := FloatHistory M env x y size bs fl F t A ∧ A ≠ [] ∧ ∀ q ∈ A, q.2 ≠ []
  first := by
    intro x y c pts hp hbox
    obtain ⟨u, hu, -⟩ := Tile.addPoints_spec (Tile.rep_new x y size bs fl) ⟨fl, pts⟩ rfl c
    refine ⟨Tile.new x y size bs, u, rfl, hu, ?_, by simp, by simpa using hp⟩
    have := FloatHistory.first (A := M) (env := env) (bs := bs) (fl := fl) F pts c hbox
    rw [hu] at this
    exact this
  add := by
    intro x y t A c pts h hc hp hbox
    obtain ⟨h1, h2, h3⟩ := h
    obtain ⟨u, hu, -⟩ := Tile.addPoints_spec (float_frame hs h1).2.1 ⟨fl, pts⟩ rfl c
    refine ⟨u, hu, ?_, by simp, ?_⟩
    · have := FloatHistory.add h1 pts c hbox
      rw [hu, Store.put_new _ _ _ hc] at this
      exact this
    · intro q hq
      rcases List.mem_append.1 hq with hq | hq
      · exact h3 q hq
      · rw [List.mem_singleton] at hq; subst hq; exact hp
  remove := by
    intro x y t A c h
    obtain ⟨h1, h2, h3⟩ := h
    obtain ⟨u, hu, hr, -, -, hab, -⟩ := Tile.removePoints_spec (float_frame hs h1).2.1 c
    refine ⟨u, hu, hab, ?_⟩
    have hh := FloatHistory.remove h1 c
    rw [hu] at hh
    by_cases hA : A.remove c = []
    · left
      refine ⟨hA, ?_⟩
      have hd' : Tile.data u = some ⟨fl, (A.remove c).allPts⟩ := float_data hs hh
      show Tile.isEmpty u = true
      unfold Tile.isEmpty Tile.pointsCount
      rw [hd', hA]
      rfl
    · exact Or.inr ⟨hA, hh, hA, Store.remove_ne c h3⟩
  nonempty := by
    intro x y t A h
    obtain ⟨h1, h2, h3⟩ := h
    have hd := float_data hs h1
    show Tile.isEmpty t = false
    unfold Tile.isEmpty Tile.pointsCount
    rw [hd]
    simp only [beq_eq_false_iff_ne, ne_eq, List.length_eq_zero_iff]
    exact fun he => h2 (Store.nil_of_allPts h3 he)
  count := by
    intro x y t A h
    have hd := float_data hs h.1
    show Tile.pointsCount t = _
    unfold Tile.pointsCount
    rw [hd]

open Grid in
theorem runs_ftile (M : Arith) (env : Env) {F : Family} {alg : Alg} (ha : alg.family = some F) {size sub : ℚ} {bs : Bool} {fl : Fields} (hs : 0 < size) :
    Runs env (ftileSpec M env F size sub bs fl hs) (ftileSpec M env F size sub bs fl hs) alg false where
  run := by
    intro x y t A a hal _ hrep _
    obtain ⟨h1, h2, h3⟩ := hrep
    exact ⟨float_step h1 a (by rw [hal]; exact ha), h2, h3⟩
  keep := fun _ _ _ _ _ h => h

open Grid in
theorem runs_ftile_switch (M : Arith) (env : Env) (F : Family) {F' : Family} {alg : Alg} (ha : alg.family = some F') {size sub : ℚ} {bs : Bool} {fl : Fields} (hs : 0 < size) :
    Runs env (ftileSpec M env F size sub bs fl hs) (ftileSpec M env F' size sub bs fl hs) alg true where
  run := by
    intro x y t A a hal hcl hrep herr
    obtain ⟨h1, h2, h3⟩ := hrep
    exact ⟨float_step_switch h1 a (by rw [hal]; exact ha) (hcl rfl) (herr rfl), h2, h3⟩
  keep := fun h => by cases h

theorem closed_ftile (M : Arith) (env : Env) {size sub : ℚ} {bs : Bool} {fl : Fields} (hs : 0 < size) :
    Grid.Closed env (fun F => ftileSpec M env F size sub bs fl hs) where
  same := fun _ _ ha => runs_ftile M env ha hs
  switch := fun F _ _ ha => runs_ftile_switch M env F ha hs
  query := by
    intro F x y t u A h hq
    rcases hq with ⟨layer, res, nodata, zUp, rfl⟩ | hq
    · exact ⟨FloatHistory.query h.1 layer res nodata zUp, h.2⟩
    · exact ⟨FloatHistory.reread h.1 hq, h.2⟩

/-- the tile is the result of a successful call of `tile.grid` at resolution `r`, made by `grid(a)` -/
def FloatRun (M : Arith) (env : Env) (fl : Fields) (F : Family) (w : ℚ) (bs : Bool) (a : GridCall) (t' : Tile) (r : ℚ) : Prop :=
  ∃ t B c, FloatHistory M env t'.minX t'.minY w bs fl F t B ∧ t'.pts = B.allPts ∧ Grid.CallOf a c ∧ isPowerOfTwo r = true ∧ (∀ r0, a.res = some r0 → r = r0) ∧
    M.gridAt env t c.alg r c.clear c.params c.border = .ok t'

/-- a successful `grid` of a tile -/
theorem float_run {M : Arith} {env : Env} {x y size : ℚ} {bs : Bool} {fl : Fields} {F : Family} {t : Tile} {A : Store} (hs : 0 < size) (h1 : FloatHistory M env x y size bs fl F t A)
    {a c : GridCall} (hca : Grid.CallOf a c) (herr : (M.grid env t c.alg c.res c.clear c.mode c.params c.border).1.err = none) :
    ∃ r u, M.grid env t c.alg c.res c.clear c.mode c.params c.border = (.ok u, some r) ∧ FloatRun M env fl F size bs a u r := by
  obtain ⟨r, u, hr, hp, hg, h2⟩ : ∃ r u, (∀ r0, c.res = some r0 → r = r0) ∧ isPowerOfTwo r = true ∧ M.gridAt env t c.alg r c.clear c.params c.border = .ok u ∧
      M.grid env t c.alg c.res c.clear c.mode c.params c.border = (.ok u, some r) := by
    unfold Arith.grid at herr ⊢
    split
    · rename_i e he; rw [he] at herr; cases herr
    · rename_i r hr
      rw [hr] at herr
      simp only at herr ⊢
      have hp : isPowerOfTwo r = true := by
        rcases Bool.eq_false_or_eq_true (isPowerOfTwo r) with hp | hp
        · exact hp
        · rw [M.gridAt_bad env t c.alg hp] at herr; cases herr
      cases hx : M.gridAt env t c.alg r c.clear c.params c.border with
      | mk st err =>
        rw [hx] at herr; simp only at herr; subst herr
        refine ⟨r, st, ?_, hp, hx, rfl⟩
        intro r0 hr0
        rw [hr0] at hr
        unfold Tile.chooseResolution at hr
        cases hr; rfl
  refine ⟨r, u, h2, ?_⟩
  obtain ⟨hf, hrp, -⟩ := float_frame hs h1
  have hsame := M.gridAt_samePts env t c.alg r c.clear c.params c.border
  rw [hg] at hsame
  have hsame : Tile.samePoints t u := hsame
  refine ⟨t, A, c, ?_, ?_, hca, hp, fun r0 h0 => hr r0 (hca.res r0 h0), hg⟩
  · rw [hsame.2.2.1, hsame.2.2.2.2.1]
    have e1 : Tile.minX t = x := hf.1
    have e2 : Tile.minY t = y := hf.2.2.1
    rw [e1, e2]; exact h1
  · rw [← hrp.pts]; unfold Tile.pts; rw [hsame.1]

open Grid in
theorem leafRuns_ftile (M : Arith) (env : Env) (F : Family) {size sub : ℚ} {bs : Bool} {fl : Fields} (hs : 0 < size) :
    LeafRuns env (ftileSpec M env F size sub bs fl hs) (FloatRun M env fl F size bs) where
  run := by
    intro x y t A a c hrep hca _ herr
    obtain ⟨r, u, h2, hlr⟩ := float_run hs hrep.1 hca herr
    have hl : (GridLike.grid env t c).2 = [r] := by
      show (M.grid env (show Tile from t) c.alg c.res c.clear c.mode c.params c.border).2.toList = [r]
      exact congrArg (fun z : Res Tile × Option ℚ => z.2.toList) h2
    have hst : (GridLike.grid env t c).1.st = u := congrArg (fun z : Res Tile × Option ℚ => z.1.st) h2
    rw [hl, hst]
    constructor
    · intro t' ht'
      have ht' : t' = u := ht'
      subst ht'
      exact ⟨r, by simp, hlr⟩
    · intro r' hr'
      rw [List.mem_singleton] at hr'
      subst hr'
      exact ⟨_, rfl, hlr⟩

/-- single resolution grids -/
theorem fsr_inv {M : Arith} {env : Env} {size : ℚ} {bs : Bool} {fl : Fields} (hs : 0 < size) {F : Family} {s : Bool} {g : Grid (FTile M)} {A : Store}
    (h : FloatSR M env size bs fl F s g A) : Grid.GrowInv (ftileSpec M env F size 0 bs fl hs) g A :=
  (Grid.history_inv (closed_ftile M env hs) hs (fun _ => Grid.growInv_blank _ _) rfl h).1

/-- variable resolution grids -/
theorem fvr_inv {M : Arith} {env : Env} {size sub : ℚ} {bs : Bool} {fl : Fields} (hs : 0 < size) (hpow : isPowerOfTwo sub = true) {F : Family} {s : Bool}
    {g : Grid (Grid (FTile M))} {A : Store} (h : FloatVR M env size sub bs fl F s g A) :
    Grid.GrowInv (subSpec (bs := bs) (ftileSpec M env F sub 0 false fl (isPowerOfTwo_pos hpow)) hs hpow) g A :=
  (Grid.history_inv (Grid.closed_sub (closed_ftile M env (isPowerOfTwo_pos hpow)) hs hpow) hs (fun _ => Grid.growInv_blank _ _) rfl h).1

theorem shaped_ftile (M : Arith) (env : Env) (F : Family) {size sub : ℚ} {bs : Bool} {fl : Fields} (hs : 0 < size) :
    Shaped (show ChildSpec Tile size sub bs fl from ftileSpec M env F size sub bs fl hs) F :=
  ⟨fun h => float_frame hs h.1, fun h => h.2⟩

open Grid

variable {size sub : ℚ} {bs : Bool} {fl : Fields} {F : Family} {A : Store}

/-- the soundings of a tile are among those of the grid -/
theorem sublist_sr {C : ChildSpec Tile size sub bs fl} (S : Shaped C F) {g : Grid Tile} (h : GrowInv C g A) {t : Tile} (ht : g.Leaf t) : t.pts.Sublist A.allPts := by
  obtain ⟨r, c, u, hu, rfl⟩ := ht
  obtain ⟨a, b, e, -, -, -, hrep, -⟩ := tileAt_rep h hu
  rw [(S.shape hrep).2.1.pts, Store.allPts_within]
  exact List.filter_sublist

theorem sublist_vr {C : ChildSpec Tile sub 0 false fl} (S : Shaped C F) (hs : 0 < size) (hsub : isPowerOfTwo sub = true) {g : Grid (Grid Tile)}
    (h : GrowInv (subSpec (bs := bs) C hs hsub) g A) {t : Tile} (ht : g.Leaf t) : t.pts.Sublist A.allPts := by
  obtain ⟨r, c, u, hu, r', c', t', ht', rfl⟩ := ht
  obtain ⟨a, b, e, -, -, -, hrep, -⟩ := tileAt_rep h hu
  have hrep : SubInv _ size _ _ u _ := hrep
  obtain ⟨T, hf⟩ := hrep.frame
  obtain ⟨-, -, h1, -⟩ := frame_tileAt hf.toReady ht'
  rw [(S.shape h1).2.1.pts, Store.allPts_within, Store.allPts_within]
  exact List.filter_sublist.trans List.filter_sublist

end Bathy
