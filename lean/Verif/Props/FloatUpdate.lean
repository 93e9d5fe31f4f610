import Verif.Lemmas.FloatUpdate
import Verif.Props.GridUpdate
import Verif.Props.FloatSurface
import Verif.Props.UpdateSurface

/-!
# C112: updates in floating point arithmetic

C22 and C23 with the arithmetic of C107.  The results are the same bit for bit, whatever the rounding and whatever the order in which the values of a cell are added up, as long
as that order depends on their number only.
-/

namespace Bathy
open Grid

instance (M : Arith) : Alike (FTile M) := inferInstanceAs (Alike Tile)

variable {M : Arith} {env : Env} {size sub : ℚ} {bs : Bool} {fl : Fields} {s : Bool} {A A' : Store} {alg : Alg} {r : ℚ}

theorem alikeRuns_ftile {F : Family} (hs : 0 < size) (hF : alg.family = some F) (hne : alg ≠ .cube) :
    AlikeRuns env (fcurSpec M env F size sub bs fl hs alg r) (SameLayersAt r) alg r where
  run := by
    intro a b ha hb har hbr x y t t1 t2 B rs rs' hrep h1 h2
    have key : ∀ {a t' rs}, a.alg = alg → a.res = some r → Did env a t t' rs → FCurrent M env x y size bs fl F alg r t' B := by
      intro a t' rs ha har h
      rcases did_fcurrent hs hF hne ha har hrep.1.1 (Or.inl rfl) h with ⟨rfl, h3, -⟩ | ⟨-, -, h3⟩
      · exact hrep.2 h3
      · exact h3
    obtain ⟨L1, e1, c1, -⟩ := key ha har h1
    obtain ⟨L2, e2, c2, -⟩ := key hb hbr h2
    rw [e1] at e2; cases e2
    intro l hl
    rw [layerAt_of_core c1 hl, layerAt_of_core c2 hl]

/-- **C112** (single resolution): a grid of floating point layers in any reachable state is gridded with mean or shoalest at the resolution `r` (all tiles).  After that
soundings are added and removed and layers are looked at in any way.  Then the update with the same algorithm and resolution gives, in every tile, the same layers at `r` as the
full run: every value is the same number, not one that is close to it. -/
theorem C112_update_equals_full_sr {F : Family} (hs : 0 < size) {g g1 : Grid (FTile M)} (h : FloatSR M env size bs fl F s g A) (halg : alg = .mean ∨ alg = .shoalest)
    {a0 : GridCall} (ha0 : a0.alg = alg) (hr0 : a0.res = some r) (hv0 : a0.regrid = .full ∨ a0.clear = true) (hF : F = .plain ∨ a0.clear = true) {d0 : Option Nat}
    (hok0 : (g.gridWith env a0 d0).err = none) (hsince : Since env fl alg r (g.gridWith env a0 d0).st A g1 A')
    {a b : GridCall} (ha : a.alg = alg) (hb : b.alg = alg) (har : a.res = some r) (hbr : b.res = some r) (_hau : a.regrid = .update) (_hbf : b.regrid = .full)
    {da db : Option Nat} (hoa : (g1.gridWith env a da).err = none) (hob : (g1.gridWith env b db).err = none) :
    Grid.Alike (SameLayersAt r) (g1.gridWith env a da).st (g1.gridWith env b db).st := by
  obtain ⟨h1, h2⟩ := plain_family halg
  have k1 : GrowInv (fcurSpec M env .plain size 0 bs fl hs alg r) (g.gridWith env a0 d0).st A :=
    grow_did (fsr_inv hs h) (fun hB hd => (fregrids_full hs h1 h2 r).did ha0 hr0 ⟨hv0, hF⟩ hB hd) hok0
  have k2 := since_inv hs (fcurSpec_query hs) (fregrids_update hs h1 h2 r) k1 hsince
  exact alike_gridWith (alikeRuns_ftile hs h1 h2) k2 ha hb har hbr hoa hob

/-- **C112** (variable resolution) -/
theorem C112_update_equals_full_vr {F : Family} (hs : 0 < size) (hsub : isPowerOfTwo sub = true) {g g1 : Grid (Grid (FTile M))} (h : FloatVR M env size sub bs fl F s g A)
    (halg : alg = .mean ∨ alg = .shoalest)
    {a0 : GridCall} (ha0 : a0.alg = alg) (hr0 : a0.res = some r) (hv0 : a0.regrid = .full ∨ a0.clear = true) (hF : F = .plain ∨ a0.clear = true) {d0 : Option Nat}
    (hok0 : (g.gridWith env a0 d0).err = none) (hsince : Since env fl alg r (g.gridWith env a0 d0).st A g1 A')
    {a b : GridCall} (ha : a.alg = alg) (hb : b.alg = alg) (har : a.res = some r) (hbr : b.res = some r) (_hau : a.regrid = .update) (_hbf : b.regrid = .full)
    {da db : Option Nat} (hoa : (g1.gridWith env a da).err = none) (hob : (g1.gridWith env b db).err = none) :
    Grid.Alike (SameLayersAt r) (g1.gridWith env a da).st (g1.gridWith env b db).st := by
  obtain ⟨h1, h2⟩ := plain_family halg
  have hp := isPowerOfTwo_pos hsub
  have k1 : GrowInv (subSpec (bs := bs) (fcurSpec M env .plain sub 0 false fl hp alg r) hs hsub) (g.gridWith env a0 d0).st A :=
    grow_did (fvr_inv hs hsub h) (fun hB hd => (regrids_sub (fregrids_full hp h1 h2 r) hs hsub).did ha0 hr0 ⟨hv0, hF⟩ hB hd) hok0
  have k2 := since_inv hs (sub_query (fcurSpec_query hp) hs hsub) (regrids_sub (fregrids_update hp h1 h2 r) hs hsub) k1 hsince
  exact alike_gridWith (alikeRuns_sub (alikeRuns_ftile hp h1 h2) hs hsub) k2 ha hb har hbr hoa hob

/-- **C112** (single resolution): an update leaves every tile alone whose soundings did not change, if no tile before it (row by row) has changed soundings, see
`C23_update_leaves_tiles_alone_sr_partial` -/
theorem C112_update_keeps_sr (env : Env) {g : Grid (FTile M)} {a : GridCall} (hu : a.regrid = .update) (hc : a.clear = false) {i j : Nat} {t : FTile M}
    (ht : g.TileAt i j t) (hp : Tile.pointCountChanged t = false)
    (hb : ∀ i' j' (t' : FTile M), i' < i ∨ (i' = i ∧ j' < j) → g.TileAt i' j' t' → Tile.pointCountChanged t' = false)
    (dask : Option Nat) : (g.gridWith env a dask).st.TileAt i j t :=
  update_keeps hu hc ht hp (Or.inr hb) dask

/-- **C112** (variable resolution): an update leaves every subgrid alone in which the soundings of no tile changed, whatever happened in the other subgrids -/
theorem C112_update_keeps_vr (env : Env) {g : Grid (Grid (FTile M))} {a : GridCall} (hu : a.regrid = .update) (hc : a.clear = false) {i j : Nat} {u : Grid (FTile M)}
    (ht : g.TileAt i j u) (hp : ∀ i' j' (t : FTile M), u.TileAt i' j' t → Tile.pointCountChanged t = false) (hwf : ∀ T, u.tiles = some T → T.WF) (dask : Option Nat) :
    (g.gridWith env a dask).st.TileAt i j u := by
  refine update_keeps hu hc ht ?_ (Or.inl rfl) dask
  show u.pointCountChanged = false
  unfold pointCountChanged
  rcases Option.eq_none_or_eq_some u.tiles with hT | ⟨T, hT⟩
  · rw [hT]
  · rw [hT]
    simp only
    rw [List.any_eq_false]
    intro o ho
    cases o with
    | none => simp
    | some t =>
      obtain ⟨k, hk⟩ := List.getElem?_of_mem ho
      have hw : T.flat.length = T.rows * T.cols := hwf T hT
      have hkl : k < T.rows * T.cols := by rw [← hw]; exact (List.getElem?_eq_some_iff.1 hk).1
      have := hp (k / T.cols) (k % T.cols) t ⟨T, hT, by
        unfold Arr2.get?; rw [if_pos ⟨Arr2.div_lt_rows hkl, Arr2.mod_lt_cols hkl⟩, Nat.div_add_mod']; exact hk⟩
      have h' : GridLike.pointCountChanged t = false := this
      simp [h']

variable {Z η η' Ω Ω' : ℚ} {cf sf : Fmt} {F : Family} {a a0 : GridCall} {d0 da : Option Nat}

/-- tiles with the layers of their soundings follow the rules -/
theorem fcurrent_rule (hs : 0 < size) (hr : 0 < r) {n : Nat} (hn : size = n * r) (ha : alg = .mean ∨ alg = .shoalest) {nodata : Option ℚ} {l : Layer}
    (hl : Ruled alg bs fl nodata l) {t : Tile} (h : IsFCurrent M env size bs fl .plain alg r t) (hM : Machine cf sf M) (hroom : Room cf sf t.pts.length Z) (hZ : BoundedBy fl Z t.pts) :
    LeafRule r n l (FloatRule M.sto cf sf alg l) t := by
  obtain ⟨x, y, B, h1, L, h2, h3, hp⟩ := h
  have hfam : alg.family = some .plain := by rcases ha with e | e <;> rw [e] <;> rfl
  have hgr := float_grid hs h1 (clear := false) hfam (Or.inl rfl) hp none none
  simp only at hgr
  rw [h2] at hgr
  simp only at hgr
  have hsame := M.gridAt_samePts env t alg r false none none
  have hg : M.gridAt env t alg r false none none = .ok (M.gridAt env t alg r false none none).st := by
    cases hx : M.gridAt env t alg r false none none with
    | mk st err => rw [hx] at hgr; have := hgr.1; simp only at this; subst this; rfl
  obtain ⟨hf, hrep, -⟩ := float_frame hs h1
  have hpts : (M.gridAt env t alg r false none none).st.pts = t.pts := by unfold Tile.pts; rw [hsame.1]
  have hrun : FloatRun M env fl .plain size bs { alg := alg, res := some r } (M.gridAt env t alg r false none none).st r := by
    refine ⟨t, B, { alg := alg, res := some r }, ?_, by rw [hpts, hrep.pts], CallOf.refl _ (fun _ => rfl), hp, fun r0 h0 => by cases h0; rfl, hg⟩
    rw [hsame.2.2.1, hsame.2.2.2.2.1]
    have e1 : t.minX = x := hf.1
    have e2 : t.minY = y := hf.2.2.1
    rw [e1, e2]; exact h1
  obtain ⟨d, k1, k2⟩ := float_leaf_rule hs hr hn hrun ha (Or.inl rfl) hM (by rw [hpts]; exact hroom) (by rw [hpts]; exact hZ) rfl hl
  refine ⟨d, ?_, ?_⟩
  · rw [← layerAt_core (u := (M.gridAt env t alg r false none none).st) (t := t) (hgr.2.1.trans h3.symm) (writtenLayers_core (rule_written hl))]
    exact k1
  · rw [hpts, hsame.2.2.1, hsame.2.2.2.2.1] at k2
    exact k2

/-- **C112** (surface, single resolution): C113 in floating point arithmetic.  After updates the cells are within the same bounds of the exact values as after a full run. -/
theorem C112_update_surface_sr (hs : 0 < size) {g g1 : Grid (FTile M)} (h : FloatSR M env size bs fl F s g A) (ha0 : a0.alg = .mean ∨ a0.alg = .shoalest) (hr0 : a0.res = some r)
    (hv0 : a0.regrid = .full ∨ a0.clear = true) (hF : F = .plain ∨ a0.clear = true) {n : Nat} (hn : size = n * r) (hok0 : (g.gridWith env a0 d0).err = none)
    (hsince : Since env fl a0.alg r (g.gridWith env a0 d0).st A g1 A') (ha : a.alg = a0.alg) (har : a.res = some r) (hok : (g1.gridWith env a da).err = none)
    (hM : Machine cf sf M) (hroom : Room cf sf A'.allPts.length Z) (hZ : BoundedBy fl Z A'.allPts)
    {v : Grid (FTile M)} (hu : Requeried env (g1.gridWith env a da).st v)
    {nodata : Option ℚ} {zUp flip : Bool} {l : Layer} (hl : Ruled a0.alg bs fl nodata l) (hflip : flip = true ↔ (zUp = true ↔ ¬ StoredUp v)) :
    ∃ e arr, v.extents = some e ∧ v.getLayersByName env [l] (some r) nodata zUp = (v, .ok (some [arr])) ∧
      SurfaceOf (FloatRule M.sto cf sf a0.alg l) (shownCell l nodata flip) A'.allPts r e arr := by
  obtain ⟨h1, h2⟩ := plain_family ha0
  have hrp := pos_of_mul hs hn
  have k1 : GrowInv (fcurSpec M env .plain size 0 bs fl hs a0.alg r) (g.gridWith env a0 d0).st A :=
    grow_did (fsr_inv hs h) (fun hB hd => (fregrids_full hs h1 h2 r).did rfl hr0 ⟨hv0, hF⟩ hB hd) hok0
  have inv : ∀ {v B}, Since env fl a0.alg r (g.gridWith env a0 d0).st A v B → GrowInv (fcurSpec M env .plain size 0 bs fl hs a0.alg r) v B :=
    fun hv => since_inv hs (fcurSpec_query hs) (fregrids_update hs h1 h2 r) k1 hv
  have k2 := inv hsince
  have hA := store_ne k2 hok
  have hs2 := hsince.grid a ha har da hok
  have k3 := inv (since_requeried hs2 hu)
  have hne := allPts_ne hA k2.ne
  refine surface_grow_sr (shaped_fcur M env .plain hs a0.alg r) hs (g := v) k3 hA hrp hn (rule_written hl) (frule_perm ha0 hl M.sto cf sf) (frule_none ha0 hl M.sto cf sf)
    (frule_fill ha0 hl M.sto cf sf flip)
    (leaves_requeried (τ := FTile M) (leafRule_queried (rule_saved hl) (writtenLayers_core (rule_written hl))) hu fun t ht => ?_) hflip
  have hsl := sublist_sr (shaped_fcur M env .plain hs a0.alg r) (g := (g1.gridWith env a da).st) (inv hs2) ht
  exact fcurrent_rule hs hrp hn ha0 hl (leafDid_grid (leafDid_ftile hs h1 h2 r) k2 ha har hok t ht) hM (room_sublist hM hsl hne hZ hroom) (bounded_sublist hsl hZ)

/-- **C112** (surface, variable resolution) -/
theorem C112_update_surface_vr (hs : 0 < size) (hsub : isPowerOfTwo sub = true) {q : Nat} (hdiv : size = (q : ℚ) * sub) {g g1 : Grid (Grid (FTile M))} (h : FloatVR M env size sub bs fl F s g A)
    (ha0 : a0.alg = .mean ∨ a0.alg = .shoalest) (hr0 : a0.res = some r)
    (hv0 : a0.regrid = .full ∨ a0.clear = true) (hF : F = .plain ∨ a0.clear = true) {n : Nat} (hn : sub = n * r) (hok0 : (g.gridWith env a0 d0).err = none)
    (hsince : Since env fl a0.alg r (g.gridWith env a0 d0).st A g1 A') (ha : a.alg = a0.alg) (har : a.res = some r) (hok : (g1.gridWith env a da).err = none)
    (hM : Machine cf sf M) (hroom : Room cf sf A'.allPts.length Z) (hZ : BoundedBy fl Z A'.allPts)
    {v : Grid (Grid (FTile M))} (hu : Requeried env (g1.gridWith env a da).st v)
    {nodata : Option ℚ} {zUp flip : Bool} {l : Layer} (hl : Ruled a0.alg false fl nodata l) (hflip : flip = true ↔ (zUp = true ↔ ¬ StoredUp v)) :
    ∃ e arr, v.extents = some e ∧ v.getLayersByName env [l] (some r) nodata zUp = (v, .ok (some [arr])) ∧
      SurfaceOf (FloatRule M.sto cf sf a0.alg l) (shownCell l nodata flip) A'.allPts r e arr := by
  obtain ⟨h1, h2⟩ := plain_family ha0
  have hp := isPowerOfTwo_pos hsub
  have hrp := pos_of_mul hp hn
  have k1 : GrowInv (subSpec (bs := bs) (fcurSpec M env .plain sub 0 false fl hp a0.alg r) hs hsub) (g.gridWith env a0 d0).st A :=
    grow_did (fvr_inv hs hsub h) (fun hB hd => (regrids_sub (fregrids_full hp h1 h2 r) hs hsub).did rfl hr0 ⟨hv0, hF⟩ hB hd) hok0
  have inv : ∀ {v B}, Since env fl a0.alg r (g.gridWith env a0 d0).st A v B → GrowInv (subSpec (bs := bs) (fcurSpec M env .plain sub 0 false fl hp a0.alg r) hs hsub) v B :=
    fun hv => since_inv hs (sub_query (fcurSpec_query hp) hs hsub) (regrids_sub (fregrids_update hp h1 h2 r) hs hsub) k1 hv
  have k2 := inv hsince
  have hA := store_ne k2 hok
  have hs2 := hsince.grid a ha har da hok
  have k3 := inv (since_requeried hs2 hu)
  have hne := allPts_ne hA k2.ne
  refine surface_grow_vr (shaped_fcur M env .plain hp a0.alg r) hs hsub hdiv (g := v) k3 hA hrp hn (rule_written hl) (frule_perm ha0 hl M.sto cf sf) (frule_none ha0 hl M.sto cf sf)
    (frule_fill ha0 hl M.sto cf sf flip)
    (leaves_requeried (τ := Grid (FTile M)) (fun t u hq => leaves_queried (τ := FTile M) (leafRule_queried (rule_saved hl) (writtenLayers_core (rule_written hl))) hq) hu fun t ht => ?_) hflip
  have hsl := sublist_vr (shaped_fcur M env .plain hp a0.alg r) hs hsub (g := (g1.gridWith env a da).st) (inv hs2) ht
  exact fcurrent_rule hp hrp hn ha0 hl (leafDid_grid (leafDid_sub (leafDid_ftile hp h1 h2 r) hs hsub) k2 ha har hok t ht) hM (room_sublist hM hsl hne hZ hroom) (bounded_sublist hsl hZ)

/-- the hypotheses are met: the demo grid is gridded, a container is removed, one is added; both calls return -/
example : ∃ g1 A1, (floatSR.gridWith demoEnv { alg := .mean, res := some 2, clear := true } none).err = none ∧
    Since demoEnv demoFields .mean 2 (floatSR.gridWith demoEnv { alg := .mean, res := some 2, clear := true } none).st demoStore g1 A1 ∧
    (g1.gridWith demoEnv { alg := .mean, res := some 2, regrid := .update } (some 2)).err = none ∧ (g1.gridWith demoEnv { alg := .mean, res := some 2 } none).err = none ∧ A1 ≠ [] :=
  ⟨_, _, by decide +kernel, (Since.refl.remove "b" (by decide +kernel)).add demoA "a" {} (by decide +kernel), by decide +kernel, by decide +kernel, by decide +kernel⟩

example : ∃ g1 A1, (floatVR.gridWith demoEnv { alg := .shoalest, res := some 1, clear := true } none).err = none ∧
    Since demoEnv demoFields .shoalest 1 (floatVR.gridWith demoEnv { alg := .shoalest, res := some 1, clear := true } none).st demoStore g1 A1 ∧
    (g1.gridWith demoEnv { alg := .shoalest, res := some 1, regrid := .update } (some 2)).err = none ∧ (g1.gridWith demoEnv { alg := .shoalest, res := some 1 } none).err = none ∧ A1 ≠ [] :=
  ⟨_, _, by decide +kernel, (Since.refl.remove "b" (by decide +kernel)).add demoA "a" {} (by decide +kernel), by decide +kernel, by decide +kernel, by decide +kernel⟩

private def fg : Grid (FTile numpyArith) := (floatSR.gridWith demoEnv { alg := .mean, res := some 2, clear := true } none).st

private theorem no_tile {i j : Nat} (h : ((fg.tiles.bind (fun T => T.get? i j)).join).isNone = true) (t : FTile numpyArith) : ¬ fg.TileAt i j t := by
  rintro ⟨T, hT, hg⟩
  rw [hT, Option.bind_some, hg] at h
  cases h

/-- an update of a grid none of whose soundings changed -/
example : ∃ t, (fg.gridWith demoEnv { alg := .mean, res := some 4, regrid := .update } none).st.TileAt 0 2 t ∧ Tile.resolutions t = [2] := by
  obtain ⟨t, ht, hP⟩ := exists_tileAt_any (g := fg) (r := 0) (c := 2)
    (fun t => decide (Tile.pointCountChanged t = false ∧ Tile.resolutions t = [2])) (by decide +kernel)
  have hP := of_decide_eq_true hP
  refine ⟨t, C112_update_keeps_sr demoEnv rfl rfl ht hP.1 (fun i' j' t' h ht' => ?_) none, hP.2⟩
  have : i' = 0 ∧ (j' = 0 ∨ j' = 1) := by omega
  rcases this with ⟨rfl, rfl | rfl⟩
  · exact absurd ht' (no_tile (by decide +kernel) t')
  · exact absurd ht' (no_tile (by decide +kernel) t')

private def fv : Grid (Grid (FTile numpyArith)) := (floatVR.gridWith demoEnv { alg := .shoalest, res := some 1, clear := true } none).st
/-- "b" is removed: a subgrid that holds a sounding of "c" only does not change -/
private def fvchanged : Grid (Grid (FTile numpyArith)) := (fv.removePoints "b").st

/-- an update at another resolution: the subgrid whose soundings did not change keeps the old one -/
example : ∃ u : Grid (FTile numpyArith), fvchanged.TileAt 1 2 u ∧ u.tiles.isSome = true ∧ u.resolutions = [1] ∧
    (fvchanged.gridWith demoEnv { alg := .shoalest, res := some 4, regrid := .update } none).st.TileAt 1 2 u := by
  obtain ⟨u, ht, hP⟩ := exists_tileAt_any (g := fvchanged) (r := 1) (c := 2)
    (fun u => decide (u.pointCountChanged = false ∧ u.resolutions = [1] ∧ u.tiles.isSome = true ∧ (u.tiles.all (fun T => decide (T.flat.length = T.rows * T.cols))) = true)) (by decide +kernel)
  have hP := of_decide_eq_true hP
  refine ⟨u, ht, hP.2.2.1, hP.2.1, C112_update_keeps_vr demoEnv rfl rfl ht (fun i' j' t h => ?_) (fun T hT => ?_) none⟩
  · have hp := hP.1
    obtain ⟨T, hT, hg⟩ := h
    unfold pointCountChanged at hp
    rw [hT] at hp
    simp only [List.any_eq_false] at hp
    have hm : some t ∈ T.flat := by
      unfold Arr2.get? at hg; split at hg
      · exact List.mem_of_getElem? hg
      · cases hg
    exact Bool.eq_false_iff.2 (hp _ hm)
  · have := hP.2.2.2
    rw [hT] at this
    show T.flat.length = T.rows * T.cols
    simpa using this

private def fchanged : Grid (FTile numpyArith) := ((fg.removePoints "b").st.addPoints ⟨demoFields, demoA⟩ "a" {}).st
private def fupdated : Grid (FTile numpyArith) := (fchanged.gridWith demoEnv { alg := .mean, res := some 2, regrid := .update } (some 2)).st

/-- the surface of a grid that was changed and updated, with sums in double and layers in single precision -/
example : ∃ e arr, fupdated.extents = some e ∧ fupdated.getLayersByName demoEnv [.depth] (some 2) none false = (fupdated, .ok (some [arr])) ∧
    SurfaceOf (FloatRule numpyArith.sto (fmt64 0 (10 ^ 15)) (fmt32 0 (10 ^ 15)) .mean .depth) (shownCell .depth none false) ((demoStore.remove "b") ++ [("a", demoA)] : Store).allPts 2 e arr :=
  C112_update_surface_sr (n := 8) (Z := 100) (d0 := none) (da := some 2) (a0 := { alg := .mean, res := some 2, clear := true }) (a := { alg := .mean, res := some 2, regrid := .update }) (by norm_num)
    floatSR_history (.inl rfl) rfl
    (.inr rfl) (.inr rfl) (by norm_num) (by decide +kernel) ((Since.refl.remove "b" (by decide +kernel)).add demoA "a" {} (by decide +kernel)) rfl rfl (by decide +kernel)
    (numpyArith_machine _ _) (room_numpy (numpyArith_machine (10 ^ 15) (10 ^ 15)).calcs.η_nonneg (by norm_num) (by norm_num) (by norm_num) (by norm_num) (by decide +kernel) (by norm_num) (by norm_num))
    (by unfold BoundedBy; decide +kernel) .refl
    (.inl rfl) (no_flip (by decide +kernel))

end Bathy
