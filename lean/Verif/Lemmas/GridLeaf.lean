import Verif.Lemmas.GridCall
import Verif.Props.TileGridding
import Verif.Spec.AlgCheck

/-!
# The `SRTile` objects after a `grid` call that visits all of them
-/

namespace Bathy
namespace Grid
variable {τ : Type} [GridLike τ]

theorem CallOf.refl (a : GridCall) (h : a.alg ≠ .cube → a.border = none) : CallOf a a := ⟨rfl, rfl, rfl, fun _ => rfl, fun h => h, fun _ h => h, h⟩

theorem CallOf.trans {a b c : GridCall} (h1 : CallOf a b) (h2 : CallOf b c) : CallOf a c where
  alg := h2.alg.trans h1.alg
  regrid := h2.regrid.trans h1.regrid
  params := h2.params.trans h1.params
  clearFull := fun h => (h2.clearFull (h1.regrid.trans h)).trans (h1.clearFull h)
  clear := fun h => h2.clear (h1.clear h)
  res := fun r h => h2.res r (h1.res r h)
  border := fun h => h2.border (by rw [h1.alg]; exact h)

end Grid

open Grid

/-- the tile is the result of a successful call of `tile.grid` at resolution `r`, made by `grid(a)` -/
def LeafRun (env : Env) (fl : Fields) (F : Family) (w : ℚ) (bs : Bool) (a : GridCall) (t' : Tile) (r : ℚ) : Prop :=
  ∃ t B c, TileHistory env t'.minX t'.minY w bs fl F t B ∧ t'.pts = B.allPts ∧ CallOf a c ∧ t.grid env c.alg c.res c.clear c.mode c.params c.border = (.ok t', some r)

namespace Grid
variable {τ : Type} [GridLike τ]
variable {size sub : ℚ} {bs : Bool} {fl : Fields}

/-- the tiles of the objects represented by `C` are gridded by a call that visits all tiles; `P` is what is known of a tile after that -/
structure LeafRuns [HasLeaves τ] (env : Env) (C : ChildSpec τ size sub bs fl) (P : GridCall → Tile → ℚ → Prop) : Prop where
  run : ∀ {x y : ℚ} {t : τ} {A : Store} {a c : GridCall}, C.Rep x y t A → CallOf a c → (a.regrid = .full ∨ a.clear = true) → (GridLike.grid env t c).1.err = none →
    (∀ t', HasLeaves.leaf (GridLike.grid env t c).1.st t' → ∃ r, r ∈ (GridLike.grid env t c).2 ∧ P a t' r) ∧
    (∀ r, r ∈ (GridLike.grid env t c).2 → ∃ t', HasLeaves.leaf (GridLike.grid env t c).1.st t' ∧ P a t' r)

theorem leafRuns_tile (env : Env) (F : Family) {size sub : ℚ} {bs : Bool} {fl : Fields} (hs : 0 < size) :
    LeafRuns env (tileSpec env F size sub bs fl hs) (LeafRun env fl F size bs) where
  run := by
    intro x y t A a c hrep hca _ herr
    obtain ⟨h1, -, -⟩ := hrep
    have herr : (t.grid env c.alg c.res c.clear c.mode c.params c.border).1.err = none := herr
    have hsame := Tile.grid_samePts env t c.alg c.res c.clear c.mode c.params c.border
    have h2 : ∃ r, t.grid env c.alg c.res c.clear c.mode c.params c.border = (.ok (t.grid env c.alg c.res c.clear c.mode c.params c.border).1.st, some r) := by
      unfold Tile.grid at herr ⊢
      split
      · rename_i e he; rw [he] at herr; cases herr
      · rename_i r hr
        rw [hr] at herr
        simp only at herr ⊢
        refine ⟨r, ?_⟩
        rw [if_pos herr]
        cases hx : t.gridAt env c.alg r c.clear c.params c.border with
        | mk st err => rw [hx] at herr; simp only at herr; subst herr; rfl
    obtain ⟨r, h2⟩ := h2
    have hl : (GridLike.grid env t c).2 = [r] := by
      show (t.grid env c.alg c.res c.clear c.mode c.params c.border).2.toList = [r]
      rw [h2]; rfl
    have hst : (GridLike.grid env t c).1.st = (t.grid env c.alg c.res c.clear c.mode c.params c.border).1.st := rfl
    rw [hl, hst]
    obtain ⟨hf, hr, -⟩ := history_frame hs h1
    have hlr : LeafRun env fl F size bs a (t.grid env c.alg c.res c.clear c.mode c.params c.border).1.st r := by
      refine ⟨t, A, c, ?_, ?_, hca, h2⟩
      · rw [hsame.2.2.1, hsame.2.2.2.2.1]
        have e1 : t.minX = x := hf.1
        have e2 : t.minY = y := hf.2.2.1
        rw [e1, e2]; exact h1
      · rw [← hr.pts]; unfold Tile.pts; rw [hsame.1]
    constructor
    · intro t' ht'
      have ht' : t' = _ := ht'
      subst ht'
      exact ⟨r, by simp, hlr⟩
    · intro r' hr'
      rw [List.mem_singleton] at hr'
      subst hr'
      exact ⟨_, rfl, hlr⟩

/-- the leaves of a grid after a call that visits all tiles -/
theorem leaf_grid [LawfulGrid τ] [HasLeaves τ] {env : Env} {C : ChildSpec τ size sub bs fl} {P : GridCall → Tile → ℚ → Prop} (L : LeafRuns env C P)
    {g : Grid τ} (hrep : ∀ r c t, g.TileAt r c t → ∃ x y B, C.Rep x y t B) (hwf : ∀ T, g.tiles = some T → T.WF) {a a' : GridCall} (ha : ∀ c, CallOf a c → CallOf a' c) (hv' : a'.regrid = .full ∨ a'.clear = true)
    (hv : a.regrid = .full ∨ a.clear = true)
    {dask : Option Nat} (h : (gridWith env g a dask).err = none) :
    (∀ t', (gridWith env g a dask).st.Leaf t' → ∃ r, r ∈ (gridWith env g a dask).st.resolutions ∧ P a' t' r) ∧
    (∀ r, r ∈ (gridWith env g a dask).st.resolutions → ∃ t', (gridWith env g a dask).st.Leaf t' ∧ P a' t' r) := by
  obtain ⟨h1, -, -, h2, h3, h4, -⟩ := gridWith_at h
  have hT : ∃ T, g.tiles = some T ∧ T.WF := by
    rcases Option.eq_none_or_eq_some g.tiles with ht | ⟨T, ht⟩
    · unfold isEmpty at h1; rw [ht] at h1; simp at h1
    · exact ⟨T, ht, hwf T ht⟩
  have hno : ¬ (a.regrid = .update ∧ a.clear = false) := by
    rintro ⟨e1, e2⟩
    rcases hv with hv | hv
    · rw [hv] at e1; cases e1
    · rw [hv] at e2; cases e2
  constructor
  · rintro t' ⟨r, c, u, hu, ht'⟩
    obtain ⟨t, rs, ht, hdid, hin⟩ := h3 r c u hu
    cases hdid with
    | skipped hu' hc hp => exact absurd ⟨hu', hc⟩ hno
    | gridded cl hcl _ he =>
      obtain ⟨x, y, B, hB⟩ := hrep r c t ht
      obtain ⟨k1, -⟩ := L.run hB (ha _ hcl) hv' he
      obtain ⟨r', hr', hlr⟩ := k1 t' ht'
      exact ⟨r', hin r' hr', hlr⟩
  · intro x hx
    obtain ⟨r, c, t, u, rs, ht, hu, hdid, hxr⟩ := h4 hT x hx
    cases hdid with
    | skipped hu' hc hp => exact absurd ⟨hu', hc⟩ hno
    | gridded cl hcl _ he =>
      obtain ⟨x', y', B, hB⟩ := hrep r c t ht
      obtain ⟨-, k2⟩ := L.run hB (ha _ hcl) hv' he
      obtain ⟨t', ht', hlr⟩ := k2 x hxr
      exact ⟨t', ⟨r, c, _, hu, ht'⟩, hlr⟩

theorem grow_reps [Holds τ] {C : ChildSpec τ size sub bs fl} {g : Grid τ} {A : Store} (hg : GrowInv C g A) :
    (∀ r c t, g.TileAt r c t → ∃ x y B, C.Rep x y t B) ∧ (∀ T, g.tiles = some T → T.WF) := by
  refine ⟨fun r c t ht => ?_, fun T hT => ?_⟩
  · obtain ⟨i, j, e, -, -, -, h, -⟩ := tileAt_rep hg ht
    exact ⟨_, _, _, h⟩
  · rcases hg.body with ⟨-, h2, -⟩ | ⟨h1, i, j, nx, ny, T0, hf, he⟩
    · rw [h2] at hT; cases hT
    · rw [hf.tiles] at hT; cases hT
      show T.flat.length = T.rows * T.cols
      rw [hf.rep.2.2.1, hf.rep.1, hf.rep.2.1]

theorem sub_reps [Holds τ] {C : ChildSpec τ sub 0 false fl} {x y : ℚ} {g : Grid τ} {A : Store} (hg : SubInv C size x y g A) :
    (∀ r c t, g.TileAt r c t → ∃ x y B, C.Rep x y t B) ∧ (∀ T, g.tiles = some T → T.WF) := by
  obtain ⟨T0, hf⟩ := hg.frame
  refine ⟨fun r c t ht => ?_, fun T hT => ?_⟩
  · obtain ⟨-, -, h, -⟩ := frame_tileAt hf.toReady ht
    exact ⟨_, _, _, h⟩
  · rw [hf.tiles] at hT; cases hT
    show T0.flat.length = T0.rows * T0.cols
    rw [hf.rep.2.2.1, hf.rep.1, hf.rep.2.1]

theorem leafRuns_sub [LawfulGrid τ] [HasLeaves τ] [Holds τ] {env : Env} {C : ChildSpec τ sub 0 false fl} {P : GridCall → Tile → ℚ → Prop} (L : LeafRuns env C P)
    (hs : 0 < size) (hpow : isPowerOfTwo sub = true) : LeafRuns (size := size) (bs := bs) env (subSpec C hs hpow) P where
  run := by
    intro x y g A a c hrep hca hv herr
    have hrep : SubInv C size x y g A := hrep
    have herr : (gridWith env g c none).err = none := herr
    obtain ⟨k1, k2⟩ := leaf_grid L (sub_reps hrep).1 (sub_reps hrep).2 (fun _ h => hca.trans h) hv (hv.imp (fun h => hca.regrid.trans h) hca.clear) herr
    have hl : (GridLike.grid env g c).2 = (gridWith env g c none).st.resolutions := by
      show (if (g.grid env c).err = none then (g.grid env c).st.resolutions else []) = _
      rw [if_pos (show (g.grid env c).err = none from herr)]; rfl
    rw [hl]
    exact ⟨k1, k2⟩

/-! ### calls that cannot fail -/

/-- mean and shoalest gridding at a power of two resolution succeeds -/
structure PlainOk [AlgCheck τ] (env : Env) (C : ChildSpec τ size sub bs fl) (F : Family) : Prop where
  ok : ∀ {x y : ℚ} {t : τ} {A : Store} {c : GridCall} {r : ℚ}, C.Rep x y t A → (c.alg = .mean ∨ c.alg = .shoalest) → (F = .plain ∨ c.clear = true) →
    c.res = some r → isPowerOfTwo r = true → AlgCheck.passes t c.alg c.clear → (GridLike.grid env t c).1.err = none

theorem gridPlan_res {env : Env} {g : Grid τ} {a : GridCall} {r : ℚ} (he : g.isEmpty = false) (hr : a.res = some r)
    (hal : g.gridAlgorithm = none ∨ g.gridAlgorithm = some a.alg ∨ a.clear = true) : (gridPlan env g a).1.err = none := by
  have key : (gridPlan.go env a g).1.err = none := by
    unfold gridPlan.go
    simp only
    have hie : ∀ al gr gp, isEmpty { g with gridAlgorithm := al, gridResolution := gr, gridParams := gp } = g.isEmpty := fun _ _ _ => rfl
    rw [hie, he, if_neg (by simp), hr]
    rfl
  unfold gridPlan
  split
  · rename_i al hal'
    rw [if_neg]
    · exact key
    · rintro ⟨h1, h2⟩
      rcases hal with h | h | h
      · rw [h] at hal'; cases hal'
      · rw [h] at hal'; cases hal'; exact h1 rfl
      · rw [h] at h2; cases h2
  · exact key

theorem gridWith_plainOk [LawfulGrid τ] [AlgCheck τ] {env : Env} {C : ChildSpec τ size sub bs fl} {F : Family} (P : PlainOk env C F) {g : Grid τ}
    (hrep : ∀ r c t, g.TileAt r c t → ∃ x y B, C.Rep x y t B) (hwf : ∀ T, g.tiles = some T → T.WF) (he : g.isEmpty = false) {a : GridCall} {r : ℚ}
    (ha : a.alg = .mean ∨ a.alg = .shoalest) (hF : F = .plain ∨ a.clear = true) (hr : a.res = some r) (hpow : isPowerOfTwo r = true)
    (hal : AlgCheck.passes g a.alg a.clear) (dask : Option Nat) : (gridWith env g a dask).err = none := by
  have hnc : a.alg ≠ .cube := by rintro h; rw [h] at ha; simp at ha
  have hplan := gridPlan_res (env := env) he hr hal.1
  rcases gridWith_spec env g a dask with ⟨al, gr, gp, e, h', h2⟩ | ⟨gr, T, hpl, hne, hT, halg, ⟨hall, h'⟩ | ⟨⟨k, o, ho, hne'⟩, -⟩⟩
  · rw [hplan] at h2; cases h2
  · rw [h']; rfl
  · exfalso
    apply hne'
    have hp : (gridPlan env g a).2 = ⟨a.res, none⟩ := by
      rcases gridPlan_spec env g a with ⟨_, _, _, _, _, h5, _⟩ | ⟨al, gr, gp, e, h5⟩
      · exact h5 (by rw [hr]; simp)
      · have h6 := congrArg Res.err hpl; rw [h5] at h6; cases h6
    rw [hp]
    cases o with
    | none => rfl
    | some t =>
      unfold outAt outcome
      simp only
      split
      · rfl
      · rw [borderFor_plain _ _ _ hnc]
        simp only
        have hw := hwf T hT
        have hk : k < T.rows * T.cols := by
          have hw : T.flat.length = T.rows * T.cols := hw
          rw [← hw]; exact (List.getElem?_eq_some_iff.1 ho).1
        have ht : g.TileAt (k / T.cols) (k % T.cols) t :=
          ⟨T, hT, by unfold Arr2.get?; rw [if_pos ⟨Arr2.div_lt_rows hk, Arr2.mod_lt_cols hk⟩, Nat.div_add_mod']; exact ho⟩
        obtain ⟨x, y, B, hB⟩ := hrep _ _ t ht
        refine P.ok (r := r) hB ha ?_ ?_ hpow ?_
        · rcases hF with h | h
          · exact Or.inl h
          · right
            exact clearNext_clear (clearAt_clear h _) t
        · simp [childCall, hr]
        · refine AlgCheck.mono (hal.2 _ _ t ht) ?_
          intro h
          exact clearNext_clear (clearAt_clear h _) t

theorem plainOk_tile (env : Env) (F : Family) {size sub : ℚ} {bs : Bool} {fl : Fields} (hs : 0 < size) : PlainOk env (tileSpec env F size sub bs fl hs) F where
  ok := by
    intro x y t A c r hrep ha hF hr hpow _
    obtain ⟨h1, -, -⟩ := hrep
    show (t.grid env c.alg c.res c.clear c.mode c.params c.border).1.err = none
    rw [hr]
    rcases ha with ha | ha
    · rw [ha]; exact (C17_mean_is_cell_mean hs h1 hpow hF c.mode c.params c.border).1
    · rw [ha]; exact (C18_shoalest_is_cell_minimum hs h1 hpow hF c.mode c.params c.border).1

theorem sub_isEmpty {C : ChildSpec τ sub 0 false fl} (hs : 0 < sub) {x y : ℚ} {g : Grid τ} {A : Store} (hg : SubInv C size x y g A) : g.isEmpty = false := by
  obtain ⟨T, hf⟩ := hg.frame
  rw [frame_isEmpty C hs hf.toReady hg.ne]; simpa using hg.nonempty

theorem plainOk_sub [LawfulGrid τ] [AlgCheck τ] [Holds τ] {env : Env} {C : ChildSpec τ sub 0 false fl} {F : Family} (P : PlainOk env C F)
    (hs : 0 < size) (hpow : isPowerOfTwo sub = true) : PlainOk (size := size) (bs := bs) env (subSpec C hs hpow) F where
  ok := by
    intro x y g A c r hrep ha hF hr hp hal
    have hrep : SubInv C size x y g A := hrep
    exact gridWith_plainOk P (sub_reps hrep).1 (sub_reps hrep).2 (sub_isEmpty (isPowerOfTwo_pos hpow) hrep) ha hF hr hp hal none

/-- single resolution grids -/
theorem leaves_sr {env : Env} {F : Family} {s : Bool} {A : Store} (hs : 0 < size) {g : Grid Tile} (h : SRHistory env size bs fl F s g A) {a : GridCall} {dask : Option Nat}
    (hv : a.regrid = .full ∨ a.clear = true) (hok : (g.gridWith env a dask).err = none) :
    (∀ t', (gridWith env g a dask).st.Leaf t' → ∃ r, r ∈ (gridWith env g a dask).st.resolutions ∧ LeafRun env fl F size bs a t' r) ∧
    (∀ r, r ∈ (gridWith env g a dask).st.resolutions → ∃ t', (gridWith env g a dask).st.Leaf t' ∧ LeafRun env fl F size bs a t' r) := by
  have hr := grow_reps (sr_inv hs h).1
  exact leaf_grid (leafRuns_tile env F (sub := 0) hs) hr.1 hr.2 (fun _ h => h) hv hv hok

/-- variable resolution grids -/
theorem leaves_vr {env : Env} {F : Family} {s : Bool} {A : Store} (hs : 0 < size) (hsub : isPowerOfTwo sub = true) {g : Grid (Grid Tile)} (h : VRHistory env size sub bs fl F s g A)
    {a : GridCall} {dask : Option Nat} (hv : a.regrid = .full ∨ a.clear = true) (hok : (g.gridWith env a dask).err = none) :
    (∀ t', (gridWith env g a dask).st.Leaf t' → ∃ r, r ∈ (gridWith env g a dask).st.resolutions ∧ LeafRun env fl F sub false a t' r) ∧
    (∀ r, r ∈ (gridWith env g a dask).st.resolutions → ∃ t', (gridWith env g a dask).st.Leaf t' ∧ LeafRun env fl F sub false a t' r) := by
  have hr := grow_reps (vr_inv hs hsub h).1
  exact leaf_grid (leafRuns_sub (leafRuns_tile env F (isPowerOfTwo_pos hsub)) hs hsub) hr.1 hr.2 (fun _ h => h) hv hv hok

end Grid

theorem grid_as_some {env : Env} {t u : Tile} {alg : Alg} {res : Option ℚ} {clear : Bool} {mode : AutoMode} {params : Option GridParams} {border : Option PtArr} {r : ℚ}
    (h : t.grid env alg res clear mode params border = (.ok u, some r)) :
    isPowerOfTwo r = true ∧ (∀ r0, res = some r0 → r = r0) ∧ t.gridAt env alg r clear params border = .ok u ∧
      ∀ mode', t.grid env alg (some r) clear mode' params border = (.ok u, some r) := by
  unfold Tile.grid at h
  split at h
  · cases h
  · rename_i x hx
    simp only [Prod.mk.injEq] at h
    obtain ⟨h1, h2⟩ := h
    rw [h1] at h2
    simp only [Res.ok_err, if_true, Option.some.injEq] at h2
    subst h2
    have hp : isPowerOfTwo x = true := by
      rcases Bool.eq_false_or_eq_true (isPowerOfTwo x) with hp | hp
      · exact hp
      · rw [Tile.gridAt_bad env t alg hp] at h1; cases h1
    refine ⟨hp, ?_, h1, ?_⟩
    · intro r0 hr0
      subst hr0
      unfold Tile.chooseResolution at hx
      cases hx; rfl
    · intro mode'
      unfold Tile.grid Tile.chooseResolution
      simp only [h1, Res.ok_err, if_true]

/-- the call in a `LeafRun` -/
theorem leafRun_call {env : Env} {fl : Fields} {F F' : Family} {w : ℚ} {bs : Bool} {a : GridCall} {t' : Tile} {r : ℚ} (h : LeafRun env fl F w bs a t' r)
    (hF : F' = F ∨ a.clear = true) :
    ∃ t B c, TileHistory env t'.minX t'.minY w bs fl F t B ∧ t'.pts = B.allPts ∧ isPowerOfTwo r = true ∧ (∀ r0, a.res = some r0 → r = r0) ∧
      (F' = F ∨ c.clear = true) ∧ CallOf a c ∧ t.grid env a.alg (some r) c.clear c.mode a.params c.border = (.ok t', some r) := by
  obtain ⟨t, B, c, h1, h2, hc, h3⟩ := h
  obtain ⟨k1, k2, -, k3⟩ := grid_as_some h3
  refine ⟨t, B, c, h1, h2, k1, fun r0 h0 => k2 r0 (hc.res r0 h0), hF.imp id hc.clear, hc, ?_⟩
  rw [← hc.alg, ← hc.params]
  exact k3 c.mode

end Bathy
