import Verif.Lemmas.AutoFixed
import Verif.Props.UpdateSurface

/-!
# C114: surfaces of single resolution grids that choose their own resolution

The usual calls: `grid()` without a resolution, then a layer without a resolution.
-/

namespace Bathy
open Grid

variable {env : Env} {size : ℚ} {bs : Bool} {fl : Fields} {F : Family} {s : Bool} {A A' : Store} {a a0 : GridCall} {r : ℚ} {dask d0 : Option Nat}

/-- the resolution that the grid works out before the tiles are visited -/
def Chosen {τ : Type} [GridLike τ] (env : Env) (g : Grid τ) (m : AutoMode) (r : ℚ) : Prop :=
  (m = .depth ∧ g.resolutionLookup = .ok r) ∨ (m = .density ∧ g.resolutionByDensity env = .ok r)

/-- the plan of a call without a resolution, and of the call with the resolution that is chosen -/
theorem plan_fixed {τ : Type} [GridLike τ] {g : Grid τ} (hn : g.name = "SRGrid_Root") (hr : a.res = none) (hm : a.mode ≠ .other) (hok : (gridPlan env g a).1.err = none) :
    ∃ r, Chosen env g a.mode r ∧ gridPlan env g a = (.ok ((g.withAttrs (some a.alg) (.value r) a.params []).withRes (.auto a.mode)), ⟨some r, some a.mode⟩) ∧
      gridPlan env g { a with res := some r } = (.ok (g.withAttrs (some a.alg) (.value r) a.params []), ⟨some r, none⟩) := by
  have key : (gridPlan.go env a g).1.err = none → ∃ r, Chosen env g a.mode r ∧
      gridPlan.go env a g = (.ok ((g.withAttrs (some a.alg) (.value r) a.params []).withRes (.auto a.mode)), ⟨some r, some a.mode⟩) ∧
      gridPlan.go env { a with res := some r } g = (.ok (g.withAttrs (some a.alg) (.value r) a.params []), ⟨some r, none⟩) := by
    intro h
    have hv : ¬ g.name = "VRGridTile_Root" := by rw [hn]; decide
    unfold gridPlan.go at h
    simp only [hr, hv, if_false] at h
    split at h
    · cases h
    · rename_i he
      have he : ¬ g.isEmpty = true := he
      have fixed : ∀ r, gridPlan.go env { a with res := some r } g = (.ok (g.withAttrs (some a.alg) (.value r) a.params []), ⟨some r, none⟩) := by
        intro r
        unfold gridPlan.go
        simp only
        rw [if_neg (show ¬ isEmpty { g with gridAlgorithm := some a.alg, gridResolution := GridRes.value r, gridParams := a.params } = true from he)]
        rfl
      cases hmode : a.mode with
      | other => exact absurd hmode hm
      | depth =>
        rw [hmode] at h
        simp only at h
        cases hl : g.resolutionLookup with
        | error e =>
          rw [show resolutionLookup { g with gridAlgorithm := some a.alg, gridResolution := GridRes.auto .depth, gridParams := a.params } = .error e from hl] at h
          cases h
        | ok r =>
          refine ⟨r, Or.inl ⟨rfl, hl⟩, ?_, fixed r⟩
          unfold gridPlan.go
          simp only [hr, hv, if_false, hmode]
          rw [if_neg (show ¬ isEmpty { g with gridAlgorithm := some a.alg, gridResolution := GridRes.unset, gridParams := a.params } = true from he),
            show resolutionLookup { g with gridAlgorithm := some a.alg, gridResolution := GridRes.auto .depth, gridParams := a.params } = .ok r from hl]
          rfl
      | density =>
        rw [hmode] at h
        simp only at h
        cases hl : g.resolutionByDensity env with
        | error e =>
          rw [show resolutionByDensity env { g with gridAlgorithm := some a.alg, gridResolution := GridRes.auto .density, gridParams := a.params } = .error e from hl] at h
          cases h
        | ok r =>
          refine ⟨r, Or.inr ⟨rfl, hl⟩, ?_, fixed r⟩
          unfold gridPlan.go
          simp only [hr, hv, if_false, hmode]
          rw [if_neg (show ¬ isEmpty { g with gridAlgorithm := some a.alg, gridResolution := GridRes.unset, gridParams := a.params } = true from he),
            show resolutionByDensity env { g with gridAlgorithm := some a.alg, gridResolution := GridRes.auto .density, gridParams := a.params } = .ok r from hl]
          rfl
  unfold gridPlan at hok ⊢
  cases hal : g.gridAlgorithm with
  | none =>
    rw [hal] at hok
    obtain ⟨r, h1, h2, h3⟩ := key hok
    exact ⟨r, h1, h2, h3⟩
  | some al =>
    rw [hal] at hok
    simp only at hok ⊢
    split at hok
    · cases hok
    · rename_i hne
      obtain ⟨r, h1, h2, h3⟩ := key hok
      exact ⟨r, h1, by rw [if_neg hne]; exact h2, by rw [if_neg hne]; exact h3⟩

/-- the whole run -/
theorem gridWith_fixed {τ : Type} [GridLike τ] [LawfulGrid τ] (h : ModeFree τ env) {g : Grid τ} (hn : g.name = "SRGrid_Root") (hr : a.res = none) (hm : a.mode ≠ .other)
    (hc : dask = none ∨ a.alg ≠ .cube) (hok : (g.gridWith env a dask).err = none) :
    ∃ r, Chosen env g a.mode r ∧ (g.gridWith env { a with res := some r } dask).err = none ∧
      (g.gridWith env a dask).st = (g.gridWith env { a with res := some r } dask).st.withRes (.auto a.mode) := by
  obtain ⟨r, h1, h2, h3⟩ := plan_fixed hn hr hm (plan_ok hok)
  have hn' : (g.withAttrs (some a.alg) (.value r) a.params []).name = "SRGrid_Root" := hn
  refine ⟨r, h1, ?_⟩
  cases dask with
  | none =>
    unfold gridWith grid at hok ⊢
    simp only [h2, h3, Res.andThen_ok, gridRegular_fixed h hn'] at hok ⊢
    exact ⟨hok, trivial⟩
  | some n =>
    have hc : a.alg ≠ .cube := hc.resolve_left (by simp)
    unfold gridWith gridDask at hok ⊢
    simp only [h2, h3, Res.andThen_ok, gridParallel_fixed h n hn' hc] at hok ⊢
    exact ⟨hok, trivial⟩

theorem grow_withRes {τ : Type} [TileLike τ] {size sub : ℚ} {C : ChildSpec τ size sub bs fl} {g : Grid τ} (h : GrowInv C g A) (x : GridRes) : GrowInv C (g.withRes x) A := by
  refine ⟨h.canGrow, h.ox, h.oy, h.tileSize, h.subtileSize, h.backscatter, h.names, h.ne, h.cont, h.body.imp id ?_⟩
  rintro ⟨h1, i, j, nx, ny, T, ⟨hr, hn⟩, he⟩
  exact ⟨h1, i, j, nx, ny, T, ⟨⟨hr.tileSize, hr.subtileSize, hr.backscatter, hr.txs, hr.tys, hr.edgesX, hr.edgesY, hr.tiles, hr.rep, hr.inr, hr.nx_pos, hr.ny_pos, hr.dims⟩, hn⟩, he⟩

/-- a query without a resolution, when there is one -/
theorem default_res {g : Grid Tile} (h : g.resolutions = [r]) (hr : 0 < r) (ls : List Layer) (nodata : Option ℚ) (zUp : Bool) :
    g.getLayersByName env ls none nodata zUp = g.getLayersByName env ls (some r) nodata zUp := by
  have e1 : g.queryRes none = .ok r := by unfold queryRes; rw [h]; rfl
  have e2 : g.queryRes (some r) = .ok r := by unfold queryRes; simp only; rw [if_neg hr.ne']
  unfold getLayersByName
  rw [e1, e2]

/-- the resolutions that can be chosen -/
theorem chosen_values (hs : 0 < size) {g : Grid Tile} (h : SRHistory env size bs fl F s g A) (hex : ∃ i j t, g.TileAt i j t) {m : AutoMode} (hc : Chosen env g m r) :
    (r ∈ tableResolutions ∨ r = size) ∧ r ≤ size := by
  rcases hc with ⟨-, hl⟩ | ⟨-, hl⟩
  · unfold resolutionLookup at hl
    split at hl
    · cases hl
    · simp only [Except.ok.injEq, (sr_inv hs h).1.tileSize] at hl
      subst hl
      refine ⟨?_, min_le_left _ _⟩
      rcases min_choice size (Tile.lookupArgmax (some g.meanDepth)) with e | e
      · right; exact e
      · left; rw [e]; exact lookupArgmax_mem _
  · obtain ⟨i, j, t, ht⟩ := hex
    obtain ⟨⟨i, j, t, ht, hd⟩, -⟩ := byDensity_max (grow_reps (sr_inv hs h).1).2 hl ht
    obtain ⟨x, y, B, hB⟩ := (grow_reps (sr_inv hs h).1).1 i j t ht
    have hf := (history_frame hs hB.1).1
    have hw : t.maxX - t.minX = size := by
      have e1 : t.minX = x := hf.1
      have e2 : t.maxX = x + size := hf.2.1
      rw [e1, e2]; ring
    have := C31_density_resolution_valid env t none r hd
    rw [hw] at this
    exact this

/-- they divide the tile size -/
theorem chosen_divides {k : Nat} (hk : size = 2 ^ k / 4) (h : (r ∈ tableResolutions ∨ r = size) ∧ r ≤ size) : ∃ n : Nat, size = n * r := by
  obtain ⟨h1, h2⟩ := h
  rcases h1 with h1 | rfl
  · have : ∃ j : Nat, r = 2 ^ j / 4 := by
      have : ∀ q ∈ tableResolutions, ∃ j : Fin 13, q = 2 ^ (j : Nat) / 4 := by decide +kernel
      obtain ⟨j, hj⟩ := this r h1
      exact ⟨j, hj⟩
    obtain ⟨j, rfl⟩ := this
    have hjk : j ≤ k := by
      rw [hk] at h2
      by_contra hlt
      have : (2 : ℚ) ^ k < 2 ^ j := pow_lt_pow_right₀ (by norm_num) (by omega)
      linarith
    obtain ⟨d, rfl⟩ := Nat.exists_eq_add_of_le hjk
    exact ⟨2 ^ d, by rw [hk, pow_add]; push_cast; ring⟩
  · exact ⟨1, by simp⟩

/-- **C114** (refinement): a call of a single resolution grid without a resolution is a call with the resolution it chooses: the same soundings, tiles and layers, the same list
of resolutions; the grid only notes that it chose the resolution.  (With Dask and 'cube' the soundings borrowed from the neighbours differ.) -/
theorem C114_auto_is_fixed {g : Grid Tile} (h : SRHistory env size bs fl F s g A) (hr : a.res = none) (hm : a.mode ≠ .other) (hc : dask = none ∨ a.alg ≠ .cube)
    (hok : (g.gridWith env a dask).err = none) :
    ∃ r, Chosen env g a.mode r ∧ (g.gridWith env { a with res := some r } dask).err = none ∧
      (g.gridWith env a dask).st = { (g.gridWith env { a with res := some r } dask).st with gridResolution := .auto a.mode } :=
  gridWith_fixed modeFree_tile (history_name h) hr hm hc hok

theorem chosen_unique {τ : Type} [GridLike τ] {g : Grid τ} {m : AutoMode} {r r' : ℚ} (h : Chosen env g m r) (h' : Chosen env g m r') : r' = r := by
  rcases h with ⟨e1, e2⟩ | ⟨e1, e2⟩ <;> rcases h' with ⟨e3, e4⟩ | ⟨e3, e4⟩
  · rw [e2] at e4; cases e4; rfl
  · rw [e1] at e3; cases e3
  · rw [e1] at e3; cases e3
  · rw [e2] at e4; cases e4; rfl

/-- what is left of the calls since: they are calls -/
theorem since_reachable {τ : Type} [GridLike τ] [Queried τ] {gz g0 g1 : Grid τ} {alg : Alg} (hfam : alg.family = some F) (h0 : GridHistory env gz fl F s g0 A) (h : Since env fl alg r g0 A g1 A') :
    ∃ s', GridHistory env gz fl F s' g1 A' := by
  induction h with
  | refl => exact ⟨_, h0⟩
  | add _ pts c a hok ih => exact ⟨_, ih.choose_spec.add pts c a hok⟩
  | reject _ pts hp c a hno ih => exact ⟨_, ih.choose_spec.reject pts hp c a hno⟩
  | remove _ c hok ih => exact ⟨_, ih.choose_spec.remove c hok⟩
  | query _ hq ih => exact ⟨_, ih.choose_spec.query hq⟩
  | grid _ a ha hr dask hok ih => exact ⟨_, ih.choose_spec.grid a (by rw [ha]; exact hfam) dask⟩

/-- the first call: the grid afterwards, and the resolution -/
theorem auto_first (hs : 0 < size) {g : Grid Tile} (h : SRHistory env size bs fl F s g A) (ha : a.alg = .mean ∨ a.alg = .shoalest) (hF : F = .plain ∨ a.clear = true)
    (hv : a.regrid = .full ∨ a.clear = true) (hr : a.res = none) (hm : a.mode ≠ .other) (hok : (g.gridWith env a dask).err = none) :
    ∃ r, Chosen env g a.mode r ∧ (g.gridWith env a dask).st.resolutions = [r] ∧ ((r ∈ tableResolutions ∨ r = size) ∧ r ≤ size) ∧
      GrowInv (curSpec env .plain size 0 bs fl hs a.alg r) (g.gridWith env a dask).st A ∧
      (g.gridWith env { a with res := some r } dask).err = none ∧ (g.gridWith env a dask).st = (g.gridWith env { a with res := some r } dask).st.withRes (.auto a.mode) := by
  obtain ⟨h1, h2⟩ := plain_family ha
  have hname : g.name = "SRGrid_Root" := history_name h
  obtain ⟨r, hch, hok', hst⟩ := gridWith_fixed modeFree_tile hname hr hm (Or.inr h2) hok
  obtain ⟨r', hch', hp, -⟩ := plan_fixed hname hr hm (plan_ok hok)
  obtain rfl := chosen_unique hch hch'
  obtain ⟨⟨hres, -⟩, hex⟩ := sr_allAt hs h hv hok (congrArg Prod.snd hp)
  have k1 : GrowInv (curSpec env .plain size 0 bs fl hs a.alg r') (g.gridWith env { a with res := some r' } dask).st A :=
    grow_did (sr_inv hs h).1 (fun hB hd => (regrids_full hs h1 h2 r').did (a := { a with res := some r' }) rfl rfl ⟨hv, hF⟩ hB hd) hok'
  have k2 := grow_withRes k1 (.auto a.mode)
  rw [← hst] at k2
  exact ⟨r', hch, hres, chosen_values hs h hex hch, k2, hok', hst⟩

/-- **C114** (single resolution): after any sequence of calls, `grid` without a resolution on all tiles, with 'mean' or 'shoalest', in either mode, with a tile size that is a power
of two from a quarter on, makes a layer asked for without a resolution a surface of all soundings added and not removed (see C100), at the one resolution that is reported. -/
theorem C114_auto_surface_sr {k : Nat} (hk : size = 2 ^ k / 4) {g : Grid Tile} (h : SRHistory env size bs fl F s g A) (ha : a.alg = .mean ∨ a.alg = .shoalest)
    (hF : F = .plain ∨ a.clear = true) (hv : a.regrid = .full ∨ a.clear = true) (hr : a.res = none) (hm : a.mode ≠ .other) (hok : (g.gridWith env a dask).err = none)
    {nodata : Option ℚ} {zUp flip : Bool} {l : Layer} (hl : Ruled a.alg bs fl nodata l) (hflip : flip = true ↔ (zUp = true ↔ ¬ StoredUp (g.gridWith env a dask).st)) :
    ∃ r e arr, (g.gridWith env a dask).st.resolutions = [r] ∧ (r ∈ tableResolutions ∨ r = size) ∧ r ≤ size ∧ (g.gridWith env a dask).st.extents = some e ∧
      (g.gridWith env a dask).st.getLayersByName env [l] none nodata zUp = ((g.gridWith env a dask).st, .ok (some [arr])) ∧
      SurfaceOf (CellRule a.alg l) (shownCell l nodata flip) A.allPts r e arr := by
  have hs : 0 < size := by rw [hk]; positivity
  obtain ⟨r', -, hres, hval, k2, hok', hst⟩ := auto_first hs h ha hF hv hr hm hok
  obtain ⟨n, hn⟩ := chosen_divides hk hval
  have hrp := pos_of_mul hs hn
  have hA := store_ne (sr_inv hs h).1 hok
  have hruns := fun u hu => (Grid.leaves_sr (a := { a with res := some r' }) hs h hv hok').1 u hu
  obtain ⟨e, arr, he, h3, h4⟩ := surface_grow_sr (env := env) (shaped_cur env .plain hs a.alg r') hs k2 hA hrp hn (rule_written hl) (rule_perm hl) (rule_none hl) (rule_fill hl flip)
    (fun t ht => by
      rw [hst] at ht
      obtain ⟨r1, -, hr1⟩ := hruns t ht
      exact leaf_rule (a := { a with res := some r' }) hs hrp hn hr1 ha hF rfl hl) hflip
  exact ⟨r', e, arr, hres, hval.1, hval.2, he, by rw [default_res hres hrp]; exact h3, h4⟩

/-- **C114** (updates): a grid that chose the resolution `r` is changed and brought up to date at `r`, in any order and number.  A further call without a resolution that chooses
`r` again, and may leave out the unchanged tiles, makes `get_layers_by_name` return a surface of just the soundings that are in the grid then.
Missing: calls that choose another resolution, see `C114_violated`. -/
theorem C114_update_surface_sr_partial {k : Nat} (hk : size = 2 ^ k / 4) {g g1 : Grid Tile} (h : SRHistory env size bs fl F s g A) (ha0 : a0.alg = .mean ∨ a0.alg = .shoalest)
    (hF : F = .plain ∨ a0.clear = true) (hv0 : a0.regrid = .full ∨ a0.clear = true) (hr0 : a0.res = none) (hm0 : a0.mode ≠ .other) (hok0 : (g.gridWith env a0 d0).err = none)
    (hres : (g.gridWith env a0 d0).st.resolutions = [r]) (hsince : Since env fl a0.alg r (g.gridWith env a0 d0).st A g1 A')
    (ha : a.alg = a0.alg) (hr : a.res = none) (hch : Chosen env g1 a.mode r) (hok : (g1.gridWith env a dask).err = none)
    {nodata : Option ℚ} {zUp flip : Bool} {l : Layer} (hl : Ruled a0.alg bs fl nodata l) (hflip : flip = true ↔ (zUp = true ↔ ¬ StoredUp (g1.gridWith env a dask).st)) :
    ∃ e arr, (g1.gridWith env a dask).st.extents = some e ∧ (g1.gridWith env a dask).st.getLayersByName env [l] (some r) nodata zUp = ((g1.gridWith env a dask).st, .ok (some [arr])) ∧
      SurfaceOf (CellRule a0.alg l) (shownCell l nodata flip) A'.allPts r e arr := by
  have hs : 0 < size := by rw [hk]; positivity
  obtain ⟨h1, h2⟩ := plain_family ha0
  obtain ⟨r', -, hres', hval, k1, -⟩ := auto_first hs h ha0 hF hv0 hr0 hm0 hok0
  obtain rfl : r' = r := by rw [hres'] at hres; exact (List.cons.inj hres).1
  obtain ⟨n, hn⟩ := chosen_divides hk hval
  have hrp := pos_of_mul hs hn
  have hm : a.mode ≠ .other := by
    intro e
    rcases hch with ⟨e', -⟩ | ⟨e', -⟩ <;> rw [e] at e' <;> cases e'
  obtain ⟨s', hg1⟩ := since_reachable h1 (history_after h h1 (hF.imp Eq.symm id) hok0) hsince
  obtain ⟨r2, hch2, hok2, hst⟩ := gridWith_fixed modeFree_tile (history_name hg1) hr hm (Or.inr (by rw [ha]; exact h2)) hok
  obtain rfl := chosen_unique hch2 hch
  have inv : ∀ {v B}, Since env fl a0.alg r' (g.gridWith env a0 d0).st A v B → GrowInv (curSpec env .plain size 0 bs fl hs a0.alg r') v B :=
    fun hv => since_inv hs (curSpec_query hs) (regrids_update hs h1 h2 r') k1 hv
  have k2 := inv hsince
  have hA := store_ne k2 hok
  have k3 := grow_withRes (inv (hsince.grid { a with res := some r' } ha rfl dask hok2)) (.auto a.mode)
  rw [← hst] at k3
  exact surface_grow_sr (shaped_cur env .plain hs a0.alg r') hs k3 hA hrp hn (rule_written hl) (rule_perm hl) (rule_none hl) (rule_fill hl flip)
    (fun t ht => by
      rw [hst] at ht
      exact current_rule hs hrp hn ha0 hl (leafDid_grid (a := { a with res := some r' }) (leafDid_tile hs h1 h2 r') k2 ha rfl hok2 t ht)) hflip

/-! ### where it ends -/

/-- three soundings about 18 m deep, gridded with the resolution of that depth -/
def shallowSR : Grid Tile := (((newSR 16 false).addPoints ⟨demoFields, demoA⟩ "a" demoArgs).st.gridWith demoEnv { alg := .mean, res := none, mode := .depth } none).st

/-- then one sounding of 300 m -/
def deeperSR : Grid Tile := (shallowSR.addPoints ⟨demoFields, [⟨22, 41, 300, 1, 1⟩]⟩ "b" {}).st

theorem deeperSR_history : SRHistory demoEnv 16 false demoFields .plain false deeperSR [("a", demoA), ("b", [⟨22, 41, 300, 1, 1⟩])] :=
  (((GridHistory.new .plain).add demoA "a" demoArgs (by decide +kernel)).grid { alg := .mean, res := none, mode := .depth } rfl none).add [⟨22, 41, 300, 1, 1⟩] "b" {} (by decide +kernel)

/-- **C114** (violated): an update that works out the resolution anew leaves the unchanged tiles at the old one.  The single resolution grid then has two resolutions; the query without
a resolution that worked before is refused. -/
theorem C114_violated : shallowSR.resolutions = [1/2] ∧ (shallowSR.getLayersByName demoEnv [.depth] none none false).2.isOk = true ∧
    (deeperSR.gridWith demoEnv { alg := .mean, res := none, mode := .depth, regrid := .update } none).err = none ∧
    (deeperSR.gridWith demoEnv { alg := .mean, res := none, mode := .depth, regrid := .update } none).st.resolutions = [1/2, 16] ∧
    ((deeperSR.gridWith demoEnv { alg := .mean, res := none, mode := .depth, regrid := .update } none).st.getLayersByName demoEnv [.depth] none none false).2 = .error .valueError := by
  refine ⟨by decide +kernel, by decide +kernel, by decide +kernel, by decide +kernel, ?_⟩
  have h : ((deeperSR.gridWith demoEnv { alg := .mean, res := none, mode := .depth, regrid := .update } none).st.getLayersByName demoEnv [.depth] none none false).2.toOption = none ∧
      (match ((deeperSR.gridWith demoEnv { alg := .mean, res := none, mode := .depth, regrid := .update } none).st.getLayersByName demoEnv [.depth] none none false).2 with
        | .error e => decide (e = .valueError) | .ok _ => false) = true := by decide +kernel
  cases hx : ((deeperSR.gridWith demoEnv { alg := .mean, res := none, mode := .depth, regrid := .update } none).st.getLayersByName demoEnv [.depth] none none false).2 with
  | ok o => rw [hx] at h; cases h.1
  | error e => rw [hx] at h; simp only [decide_eq_true_eq] at h; rw [h.2]

/-- C114: a grid with soundings of 9 to 40 m, both modes -/
example : (16 : ℚ) = 2 ^ 6 / 4 ∧ (demoSR.gridWith demoEnv { alg := .mean, res := none, mode := .depth } (some 2)).err = none ∧
    (demoSR.gridWith demoEnv { alg := .mean, res := none, mode := .depth } (some 2)).st.resolutions = [1] ∧
    (demoSR.gridWith demoEnv { alg := .shoalest, res := none, mode := .density, clear := true } none).err = none := by decide +kernel

/-- C114 for updates: the resolution is chosen again -/
example : ∃ g1 A', Since demoEnv demoFields .mean (1/2) shallowSR [("a", demoA)] g1 A' ∧ Chosen demoEnv g1 .depth (1/2) ∧
    (g1.gridWith demoEnv { alg := .mean, res := none, mode := .depth, regrid := .update } none).err = none :=
  ⟨_, _, Since.refl.add [⟨22, 41, 19, 1, 1⟩] "b" {} (by decide +kernel), Or.inl ⟨rfl, by decide +kernel⟩, by decide +kernel⟩

end Bathy
