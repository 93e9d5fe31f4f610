import Verif.Lemmas.UpdateLeaf
import Verif.Props.GridUpdate
import Verif.Props.SurfaceKept

/-!
# C113: the surface after an update

C100 and C102 for grids that were gridded once and are kept up to date by calls that leave out the unchanged tiles.
-/

namespace Bathy
open Grid

variable {env : Env} {size sub : ℚ} {bs : Bool} {fl : Fields} {F : Family} {s : Bool} {A A' : Store} {a a0 : GridCall} {r : ℚ} {d0 da : Option Nat}

/-- tiles with the layers of their soundings follow the rules -/
theorem current_rule (hs : 0 < size) (hr : 0 < r) {n : Nat} (hn : size = n * r) {alg : Alg} (ha : alg = .mean ∨ alg = .shoalest) {nodata : Option ℚ} {l : Layer}
    (hl : Ruled alg bs fl nodata l) {t : Tile} (h : IsCurrent env size bs fl .plain alg r t) : LeafRule r n l (CellRule alg l) t := by
  obtain ⟨x, y, B, h1, L, h2, h3, hp⟩ := h
  have hfam : alg.family = some .plain := by rcases ha with e | e <;> rw [e] <;> rfl
  have hgr := history_grid hs h1 (clear := false) hfam (Or.inl rfl) hp none none
  simp only at hgr
  rw [h2] at hgr
  simp only at hgr
  have hsame := Tile.grid_samePts env t alg (some r) false .depth none none
  have hg : t.grid env alg (some r) false .depth none none = (.ok (t.gridAt env alg r false none none).st, some r) := by
    unfold Tile.grid Tile.chooseResolution
    simp only
    rw [if_pos hgr.1]
    cases hx : t.gridAt env alg r false none none with
    | mk st err => rw [hx] at hgr; have := hgr.1; simp only at this; subst this; rfl
  rw [hg] at hsame
  have hsame : Tile.samePoints t (t.gridAt env alg r false none none).st := hsame
  obtain ⟨hf, hrep, -⟩ := history_frame hs h1
  have hpts : (t.gridAt env alg r false none none).st.pts = t.pts := by unfold Tile.pts; rw [hsame.1]
  have hrun : LeafRun env fl .plain size bs { alg := alg, res := some r } (t.gridAt env alg r false none none).st r := by
    refine ⟨t, B, { alg := alg, res := some r }, ?_, by rw [hpts, hrep.pts], CallOf.refl _ (fun _ => rfl), hg⟩
    rw [hsame.2.2.1, hsame.2.2.2.2.1]
    have e1 : t.minX = x := hf.1
    have e2 : t.minY = y := hf.2.2.1
    rw [e1, e2]; exact h1
  obtain ⟨d, k1, k2⟩ := leaf_rule hs hr hn hrun ha (Or.inl rfl) rfl hl
  refine ⟨d, ?_, ?_⟩
  · rw [← layerAt_core (u := (t.gridAt env alg r false none none).st) (t := t) (hgr.2.1.trans h3.symm) (writtenLayers_core (rule_written hl))]
    exact k1
  · rw [hpts, hsame.2.2.1, hsame.2.2.2.2.1] at k2
    exact k2

/-- queries after other calls -/
theorem since_requeried {τ : Type} [GridLike τ] [Queried τ] {alg : Alg} {g0 g v : Grid τ} {A0 : Store} (h : Since env fl alg r g0 A0 g A) (hu : Requeried env g v) :
    Since env fl alg r g0 A0 v A := by
  unfold Requeried at hu
  induction hu with
  | refl => exact h
  | tail _ hq ih => exact Since.query ih hq

/-- **C113** (single resolution): a grid in any reachable state is gridded with 'mean' or 'shoalest' at a resolution `r` that divides the tile size, all tiles.  After that
soundings are added and removed, layers are looked at and the grid is brought up to date, in any order and number.  After one more `grid` call with the same algorithm and
resolution, which may leave out all tiles without new or removed soundings, `get_layers_by_name` returns a surface of just the soundings that are in the grid then. -/
theorem C113_update_surface_sr (hs : 0 < size) {g g1 : Grid Tile} (h : SRHistory env size bs fl F s g A) (ha0 : a0.alg = .mean ∨ a0.alg = .shoalest) (hr0 : a0.res = some r)
    (hv0 : a0.regrid = .full ∨ a0.clear = true) (hF : F = .plain ∨ a0.clear = true) {n : Nat} (hn : size = n * r) (hok0 : (g.gridWith env a0 d0).err = none)
    (hsince : Since env fl a0.alg r (g.gridWith env a0 d0).st A g1 A') (ha : a.alg = a0.alg) (har : a.res = some r) (hok : (g1.gridWith env a da).err = none)
    {v : Grid Tile} (hu : Requeried env (g1.gridWith env a da).st v)
    {nodata : Option ℚ} {zUp flip : Bool} {l : Layer} (hl : Ruled a0.alg bs fl nodata l) (hflip : flip = true ↔ (zUp = true ↔ ¬ StoredUp v)) :
    ∃ e arr, v.extents = some e ∧ v.getLayersByName env [l] (some r) nodata zUp = (v, .ok (some [arr])) ∧
      SurfaceOf (CellRule a0.alg l) (shownCell l nodata flip) A'.allPts r e arr := by
  obtain ⟨h1, h2⟩ := plain_family ha0
  have hrp := pos_of_mul hs hn
  have k1 : GrowInv (curSpec env .plain size 0 bs fl hs a0.alg r) (g.gridWith env a0 d0).st A :=
    grow_did (sr_inv hs h).1 (fun hB hd => (regrids_full hs h1 h2 r).did rfl hr0 ⟨hv0, hF⟩ hB hd) hok0
  have inv : ∀ {v B}, Since env fl a0.alg r (g.gridWith env a0 d0).st A v B → GrowInv (curSpec env .plain size 0 bs fl hs a0.alg r) v B :=
    fun hv => since_inv hs (curSpec_query hs) (regrids_update hs h1 h2 r) k1 hv
  have k2 := inv hsince
  have hA := store_ne k2 hok
  have k3 := inv (since_requeried (hsince.grid a ha har da hok) hu)
  exact surface_grow_sr (shaped_cur env .plain hs a0.alg r) hs k3 hA hrp hn (rule_written hl) (rule_perm hl) (rule_none hl) (rule_fill hl flip)
    (leaves_requeried (τ := Tile) (leafRule_queried (rule_saved hl) (writtenLayers_core (rule_written hl))) hu
      fun t ht => current_rule hs hrp hn ha0 hl (leafDid_grid (leafDid_tile hs h1 h2 r) k2 ha har hok t ht)) hflip

/-- **C113** (variable resolution) -/
theorem C113_update_surface_vr (hs : 0 < size) (hsub : isPowerOfTwo sub = true) {q : Nat} (hdiv : size = (q : ℚ) * sub) {g g1 : Grid (Grid Tile)} (h : VRHistory env size sub bs fl F s g A)
    (ha0 : a0.alg = .mean ∨ a0.alg = .shoalest) (hr0 : a0.res = some r)
    (hv0 : a0.regrid = .full ∨ a0.clear = true) (hF : F = .plain ∨ a0.clear = true) {n : Nat} (hn : sub = n * r) (hok0 : (g.gridWith env a0 d0).err = none)
    (hsince : Since env fl a0.alg r (g.gridWith env a0 d0).st A g1 A') (ha : a.alg = a0.alg) (har : a.res = some r) (hok : (g1.gridWith env a da).err = none)
    {v : Grid (Grid Tile)} (hu : Requeried env (g1.gridWith env a da).st v)
    {nodata : Option ℚ} {zUp flip : Bool} {l : Layer} (hl : Ruled a0.alg false fl nodata l) (hflip : flip = true ↔ (zUp = true ↔ ¬ StoredUp v)) :
    ∃ e arr, v.extents = some e ∧ v.getLayersByName env [l] (some r) nodata zUp = (v, .ok (some [arr])) ∧
      SurfaceOf (CellRule a0.alg l) (shownCell l nodata flip) A'.allPts r e arr := by
  obtain ⟨h1, h2⟩ := plain_family ha0
  have hp := isPowerOfTwo_pos hsub
  have hrp := pos_of_mul hp hn
  have k1 : GrowInv (subSpec (bs := bs) (curSpec env .plain sub 0 false fl hp a0.alg r) hs hsub) (g.gridWith env a0 d0).st A :=
    grow_did (vr_inv hs hsub h).1 (fun hB hd => (regrids_sub (regrids_full hp h1 h2 r) hs hsub).did rfl hr0 ⟨hv0, hF⟩ hB hd) hok0
  have inv : ∀ {v B}, Since env fl a0.alg r (g.gridWith env a0 d0).st A v B → GrowInv (subSpec (bs := bs) (curSpec env .plain sub 0 false fl hp a0.alg r) hs hsub) v B :=
    fun hv => since_inv hs (sub_query (curSpec_query hp) hs hsub) (regrids_sub (regrids_update hp h1 h2 r) hs hsub) k1 hv
  have k2 := inv hsince
  have hA := store_ne k2 hok
  have k3 := inv (since_requeried (hsince.grid a ha har da hok) hu)
  exact surface_grow_vr (shaped_cur env .plain hp a0.alg r) hs hsub hdiv k3 hA hrp hn (rule_written hl) (rule_perm hl) (rule_none hl) (rule_fill hl flip)
    (leaves_requeried (τ := Grid Tile) (fun t u hq => leaves_queried (τ := Tile) (leafRule_queried (rule_saved hl) (writtenLayers_core (rule_written hl))) hq) hu
      fun t ht => current_rule hp hrp hn ha0 hl (leafDid_grid (leafDid_sub (leafDid_tile hp h1 h2 r) hs hsub) k2 ha har hok t ht)) hflip

/-! ## the hypotheses can be met -/

private def base : Grid Tile := (demoSR.gridWith demoEnv { alg := .mean, res := some 2, clear := true } none).st
private def changed : Grid Tile := ((base.removePoints "b").st.addPoints ⟨demoFields, demoA⟩ "a" {}).st
private def updated : Grid Tile := (changed.gridWith demoEnv { alg := .mean, res := some 2, regrid := .update } (some 2)).st

/-- a container is removed, another one is added, and an update is done by workers -/
example : ∃ e arr, updated.extents = some e ∧ updated.getLayersByName demoEnv [.depth] (some 2) none false = (updated, .ok (some [arr])) ∧
    SurfaceOf (MeanCell round3 Pt.z) (shownCell .depth none false) ((demoStore.remove "b") ++ [("a", demoA)] : Store).allPts 2 e arr :=
  C113_update_surface_sr (n := 8) (d0 := none) (da := some 2) (a0 := { alg := .mean, res := some 2, clear := true }) (a := { alg := .mean, res := some 2, regrid := .update }) (by norm_num) demoSR_history (.inl rfl) rfl
    (.inr rfl) (.inr rfl) (by norm_num) (by decide +kernel) ((Since.refl.remove "b" (by decide +kernel)).add demoA "a" {} (by decide +kernel)) rfl rfl (by decide +kernel) .refl
    (.inl rfl) (no_flip (by decide +kernel))

private def baseVR : Grid (Grid Tile) := (demoVR.gridWith demoEnv { alg := .shoalest, res := some 1, clear := true } none).st
private def changedVR : Grid (Grid Tile) := ((baseVR.removePoints "b").st.addPoints ⟨demoFields, demoA⟩ "a" {}).st
private def updatedVR : Grid (Grid Tile) := (changedVR.gridWith demoEnv { alg := .shoalest, res := some 1, regrid := .update } none).st

example : ∃ e arr, updatedVR.extents = some e ∧ updatedVR.getLayersByName demoEnv [.depth] (some 1) none false = (updatedVR, .ok (some [arr])) ∧
    SurfaceOf (ShoalCell round3) (shownCell .depth none false) ((demoStore.remove "b") ++ [("a", demoA)] : Store).allPts 1 e arr :=
  C113_update_surface_vr (n := 16) (q := 2) (d0 := none) (da := none) (a0 := { alg := .shoalest, res := some 1, clear := true }) (a := { alg := .shoalest, res := some 1, regrid := .update })
    (by norm_num) (by decide +kernel) (by norm_num) demoVR_history (.inr rfl) rfl
    (.inr rfl) (.inr rfl) (by norm_num) (by decide +kernel) ((Since.refl.remove "b" (by decide +kernel)).add demoA "a" {} (by decide +kernel)) rfl rfl (by decide +kernel) .refl
    (.inl rfl) (no_flip (by decide +kernel))

end Bathy
