import Verif.Model.TileGenerator
import Verif.Props.AutoResolution
import Verif.Props.GridResolutions
import Verif.Props.LayersGridded

/-!
# C98: queries without a resolution

Model: `Grid.queryRes` and the functions that ask for it (bathygrid/bgrid.py:756-791, 1189-1277, 1747-1795), `Tile.getLayer` (bathygrid/tile.py:771-841).
-/

namespace Bathy

variable {env : Env} {size sub : ℚ} {bs : Bool} {fl : Fields} {F : Family} {s : Bool} {A : Store}

/-- no resolution given: None, or 0 that counts as missing (`if not resolution`) -/
def NoRes (res : Option ℚ) : Prop := res = none ∨ res = some 0

/-- all queries answer alike with the two resolutions, and leave the same grid behind -/
structure AnswersAlike {τ : Type} [LayerLike τ] (env : Env) (g : Grid τ) (res res' : Option ℚ) : Prop where
  layers : ∀ ls nodata zUp, g.getLayersByName env ls res nodata zUp = g.getLayersByName env ls res' nodata zUp
  trimmed : ∀ ls nodata zUp, g.getLayersTrimmed env ls res nodata zUp = g.getLayersTrimmed env ls res' nodata zUp
  surf : ∀ ls b nodata, g.returnSurf env ls res b nodata = g.returnSurf env ls res' b nodata
  tiles : ∀ ls nodata zUp, g.tilesByResolution env res ls nodata zUp = g.tilesByResolution env res' ls nodata zUp

/-- all queries raise the exception and leave the grid as it is -/
structure QueriesRefused {τ : Type} [LayerLike τ] (env : Env) (g : Grid τ) (res : Option ℚ) (e : Err) : Prop where
  layers : ∀ ls nodata zUp, g.getLayersByName env ls res nodata zUp = (g, .error e)
  trimmed : ∀ ls nodata zUp, g.getLayersTrimmed env ls res nodata zUp = (g, .error e)
  surf : ∀ ls b nodata, g.returnSurf env ls res b nodata = (g, .error e)
  tiles : ∀ ls nodata zUp, g.tilesByResolution env res ls nodata zUp = .fail (g, []) e

section
variable {τ : Type} [LayerLike τ]

theorem alike_of {g : Grid τ} {res res' : Option ℚ} (h : g.queryRes res = g.queryRes res') : AnswersAlike env g res res' := by
  have h1 : ∀ ls nodata zUp, g.getLayersByName env ls res nodata zUp = g.getLayersByName env ls res' nodata zUp := by
    intro ls nodata zUp
    unfold Grid.getLayersByName
    rw [h]
  refine ⟨h1, ?_, ?_, ?_⟩
  · intro ls nodata zUp
    unfold Grid.getLayersTrimmed
    rw [h1]
  · intro ls b nodata
    unfold Grid.returnSurf
    rw [h]
  · intro ls nodata zUp
    unfold Grid.tilesByResolution
    rw [h]

theorem refused_of {g : Grid τ} {res : Option ℚ} {e : Err} (hg : g.noGrid = .ok false) (h : g.queryRes res = .error e) : QueriesRefused env g res e := by
  have h1 : ∀ ls nodata zUp, g.getLayersByName env ls res nodata zUp = (g, .error e) := by
    intro ls nodata zUp
    unfold Grid.getLayersByName
    rw [hg, h]
  refine ⟨h1, ?_, ?_, ?_⟩
  · intro ls nodata zUp
    unfold Grid.getLayersTrimmed
    rw [h1]
  · intro ls b nodata
    unfold Grid.returnSurf
    rw [hg, h]
  · intro ls nodata zUp
    unfold Grid.tilesByResolution
    rw [h]

omit [LayerLike τ] in
theorem queryRes_noRes {g : Grid τ} {res : Option ℚ} (h : NoRes res) :
    g.queryRes res = if g.resolutions.length > 1 then .error .valueError else match g.resolutions with | [] => .error .indexError | r :: _ => .ok r := by
  unfold Grid.queryRes
  rcases h with rfl | rfl
  · rfl
  · simp only [if_true]
    rfl

/-- **C98** (every state of a single or variable resolution grid or subgrid that has been gridded): with two different resolutions recorded, a query
without a resolution picks none of them; it raises ValueError and changes nothing. -/
theorem C98_several {g : Grid τ} (hg : g.noGrid = .ok false) {r r' : ℚ} (hr : r ∈ g.resolutions) (hr' : r' ∈ g.resolutions) (hne : r ≠ r') {res : Option ℚ} (h : NoRes res) :
    QueriesRefused env g res .valueError := by
  refine refused_of hg ?_
  rw [queryRes_noRes h, if_pos]
  match hR : g.resolutions with
  | [] => rw [hR] at hr; cases hr
  | [x] =>
    rw [hR] at hr hr'
    exact absurd ((List.mem_singleton.1 hr).trans (List.mem_singleton.1 hr').symm) hne
  | _ :: _ :: _ => simp

/-- **C98** (every state): with one resolution recorded it is the one that is used. -/
theorem C98_one {g : Grid τ} {r : ℚ} (hr : g.resolutions = [r]) {res : Option ℚ} (h : NoRes res) (h0 : r ≠ 0) : AnswersAlike env g res (some r) := by
  refine alike_of ?_
  rw [queryRes_noRes h, hr]
  unfold Grid.queryRes
  simp [h0]

end

theorem pairwise_only {R : List ℚ} {r : ℚ} (hp : R.Pairwise (· < ·)) (h1 : ∀ x ∈ R, x = r) (h2 : R ≠ []) : R = [r] := by
  match R, hp, h1, h2 with
  | [x], _, h1, _ => rw [h1 x (by simp)]
  | x :: y :: R, hp, h1, _ =>
    have hx := h1 x (by simp)
    have hy := h1 y (by simp)
    have := (List.pairwise_cons.1 hp).1 y (by simp)
    rw [hx, hy] at this
    exact absurd this (lt_irrefl _)

theorem used_asked {a : GridCall} {r0 : ℚ} (ha : a.res = some r0) (hv : a.regrid = .full ∨ a.clear = true) {t t' : Tile} {rs : List ℚ} (h : UsedTile env a t t' rs) : rs = [r0] := by
  rcases h with ⟨h1, h2, -⟩ | ⟨r, clear, mode, border, h1, -, -, h4⟩
  · rcases hv with hv | hv
    · rw [hv] at h1; cases h1
    · rw [hv] at h2; cases h2
  · rw [h1, h4 r0 ha]

/-- **C98** (single resolution) after gridding all tiles at a resolution that was asked for, on top of any earlier gridding at other resolutions: the
recorded list is just that one, so that a query without a resolution is the query at this resolution. -/
theorem C98_after_gridding_sr (hs : 0 < size) {g : Grid Tile} (h : SRHistory env size bs fl F s g A) {a : GridCall} {dask : Option Nat} {r0 : ℚ} (ha : a.res = some r0)
    (h0 : r0 ≠ 0) (hv : a.regrid = .full ∨ a.clear = true) (hok : (g.gridWith env a dask).err = none) {res : Option ℚ} (hn : NoRes res) :
    (g.gridWith env a dask).st.resolutions = [r0] ∧ AnswersAlike env (g.gridWith env a dask).st res (some r0) := by
  obtain ⟨hp, used, h1, h2⟩ := C28_resolutions_sr hs h hok
  have hR : (g.gridWith env a dask).st.resolutions = [r0] := by
    refine pairwise_only hp ?_ ?_
    · intro x hx
      obtain ⟨i, j, t, ht, hx⟩ := (h2 x).1 hx
      obtain ⟨t', -, hu⟩ := h1 i j t ht
      rw [used_asked ha hv hu] at hx
      exact List.mem_singleton.1 hx
    · obtain ⟨u, i, j, t, ht, -⟩ := grow_leaf hs (leafNe_tile env F hs) (sr_inv hs h).1 (store_ne (sr_inv hs h).1 hok)
      obtain ⟨t', -, hu⟩ := h1 i j t ht
      exact List.ne_nil_of_mem ((h2 r0).2 ⟨i, j, t, ht, by rw [used_asked ha hv hu]; simp⟩)
  exact ⟨hR, C98_one hR hn h0⟩

/-- **C98** (variable resolution) -/
theorem C98_after_gridding_vr (hs : 0 < size) (hsub : isPowerOfTwo sub = true) {g : Grid (Grid Tile)} (h : VRHistory env size sub bs fl F s g A) {a : GridCall}
    {dask : Option Nat} {r0 : ℚ} (ha : a.res = some r0) (h0 : r0 ≠ 0) (hv : a.regrid = .full ∨ a.clear = true) (hok : (g.gridWith env a dask).err = none)
    {res : Option ℚ} (hn : NoRes res) :
    (g.gridWith env a dask).st.resolutions = [r0] ∧ AnswersAlike env (g.gridWith env a dask).st res (some r0) := by
  obtain ⟨hp, h1, h2⟩ := C28_resolutions_vr_partial hs hsub h hok
  have hused : ∀ i j u', (g.gridWith env a dask).st.TileAt i j u' → ∃ u, g.TileAt i j u ∧ UsedGrid env a u u' u'.resolutions := by
    intro i j u' hu'
    obtain ⟨u, hu, ⟨h3, h4, -⟩ | h3⟩ := h2 i j u' hu'
    · rcases hv with hv | hv
      · rw [hv] at h3; cases h3
      · rw [hv] at h4; cases h4
    · exact ⟨u, hu, h3⟩
  have hR : (g.gridWith env a dask).st.resolutions = [r0] := by
    refine pairwise_only hp ?_ ?_
    · intro x hx
      obtain ⟨i, j, u', hu', hx⟩ := (h1 x).1 hx
      obtain ⟨u, -, used, h3, h4⟩ := hused i j u' hu'
      obtain ⟨i', j', t, ht, hx⟩ := (h4 x).1 hx
      obtain ⟨t', -, hu⟩ := h3 i' j' t ht
      rw [used_asked ha hv hu] at hx
      exact List.mem_singleton.1 hx
    · obtain ⟨t, i, j, u, hu, i', j', t1, ht, -⟩ := grow_leaf hs (leafNe_sub (leafNe_tile env F (isPowerOfTwo_pos hsub)) hs hsub) (vr_inv hs hsub h).1 (store_ne (vr_inv hs hsub h).1 hok)
      obtain ⟨-, -, -, -, -, -, used', h5, -⟩ := Grid.gridWith_at hok
      obtain ⟨u', hu', -⟩ := h5 i j u hu
      obtain ⟨u2, hu2, used, h3, h4⟩ := hused i j u' hu'
      have : u2 = u := Grid.tileAt_unique hu2 hu
      subst this
      obtain ⟨t', -, hut⟩ := h3 i' j' t1 ht
      exact List.ne_nil_of_mem ((h1 r0).2 ⟨i, j, u', hu', (h4 r0).2 ⟨i', j', t1, ht, by rw [used_asked ha hv hut]; simp⟩⟩)
  exact ⟨hR, C98_one hR hn h0⟩

/-- **C98** for a tile: several resolutions are refused, one is used, of the layers the tile has. -/
theorem C98_tile {t : Tile} (he : t.isEmpty = false) {res : Option ℚ} (h : NoRes res) (l : Layer) (nodata : Option ℚ) (zUp : Bool) :
    (∀ r r', r ∈ t.resolutions → r' ∈ t.resolutions → r ≠ r' → t.getLayer env l res nodata zUp = (t, .error .valueError)) ∧
    (∀ r, t.resolutions = [r] → r ≠ 0 → t.getLayer env l res nodata zUp = t.getLayer env l (some r) nodata zUp) := by
  have hq : Tile.queryResolution t res = Tile.queryResolution t none := by
    rcases h with rfl | rfl
    · rfl
    · unfold Tile.queryResolution; simp only [if_true]
  constructor
  · intro r r' hr hr' hne
    have hlen : t.cells.length > 1 := by
      unfold Tile.resolutions at hr hr'
      match hR : t.cells with
      | [] => rw [hR] at hr; cases hr
      | [x] =>
        rw [hR] at hr hr'
        exact absurd ((List.mem_singleton.1 hr).trans (List.mem_singleton.1 hr').symm) hne
      | _ :: _ :: _ => simp
    unfold Tile.getLayer
    rw [he, hq]
    unfold Tile.queryResolution
    simp only [if_pos hlen]
    rfl
  · intro r hr h0
    unfold Tile.resolutions at hr
    have hq2 : Tile.queryResolution t none = Tile.queryResolution t (some r) := by
      match hR : t.cells with
      | [] => rw [hR] at hr; cases hr
      | [x] =>
        rw [hR] at hr
        have hx : x.1 = r := by simpa [Dict.keys] using hr
        unfold Tile.queryResolution
        rw [hR]
        simp [h0, hx, Dict.has]
      | x :: y :: zs => rw [hR] at hr; simp [Dict.keys] at hr
    unfold Tile.getLayer
    rw [hq, hq2]

/-- **C98** does not hold for the resolutions the tiles have: in the grid of `C28_violated` all tiles have layers at 1/2 only, and the query without
a resolution is refused because of the 2 that is still recorded. -/
theorem C98_violated : ∃ g A, VRHistory demoEnv 32 16 false demoFields .plain false g A ∧ g.noGrid = .ok false ∧ (∃ t, g.Leaf t) ∧ (∀ t, g.Leaf t → t.resolutions = [1/2]) ∧
    QueriesRefused demoEnv g none .valueError := by
  have hh : VRHistory demoEnv 32 16 false demoFields .plain false (stale.gridWith demoEnv update none).st _ :=
    (((((GridHistory.new .plain).add [⟨5, 5, 10, 1, 1⟩] "a" {} (by decide +kernel)).add [⟨20, 20, 50, 1, 1⟩] "b" {} (by decide +kernel)).grid
    { alg := .mean, res := none } rfl none).remove "b" (by decide +kernel)).grid update rfl none
  have hg : (stale.gridWith demoEnv update none).st.noGrid = .ok false := by decide +kernel
  have hd : ∀ o ∈ ((stale.gridWith demoEnv update none).st.tiles.map (fun T => T.flat)).getD [], ∀ u ∈ o, ∀ o' ∈ (u.tiles.map (fun T => T.flat)).getD [], ∀ t ∈ o', t.resolutions = [1/2] := by
    decide +kernel
  refine ⟨_, _, hh, hg, ?_, ?_, C98_several hg (r := 1/2) (r' := 2) (by decide +kernel) (by decide +kernel) (by norm_num) (Or.inl rfl)⟩
  · exact grow_leaf (by norm_num) (leafNe_sub (leafNe_tile demoEnv .plain (by norm_num)) (by norm_num) (by decide +kernel)) (vr_inv (by norm_num) (by decide +kernel) hh).1
      (by decide +kernel)
  rintro t ⟨i, j, u, ⟨T, hT, hu⟩, i', j', t', ⟨T', hT', ht'⟩, rfl⟩
  rw [hT] at hd
  have h1 : some u ∈ T.flat := by
    unfold Arr2.get? at hu; split at hu
    · exact List.mem_of_getElem? hu
    · cases hu
  have h2 : some t ∈ T'.flat := by
    unfold Arr2.get? at ht'; split at ht'
    · exact List.mem_of_getElem? ht'
    · cases ht'
  have h3 := hd _ h1 u rfl
  rw [hT'] at h3
  exact h3 _ h2 t rfl

/-- the hypotheses of C98 are met: a grid gridded at 8 that is then gridded at 4, and the query does answer -/
example : SRHistory demoEnv 16 false demoFields .plain false demoSRg demoStore ∧
    (demoSRg.gridWith demoEnv { alg := .mean, res := some 4 } none).err = none ∧
    (((demoSRg.gridWith demoEnv { alg := .mean, res := some 4 } none).st.getLayersByName demoEnv [.depth] none none false).2.toOption.join).isSome = true ∧
    VRHistory demoEnv 32 16 false demoFields .plain false demoVRg demoStore ∧ (demoVRg.gridWith demoEnv { alg := .mean, res := some 8 } (some 2)).err = none :=
  ⟨demoSRg_history, by decide +kernel, by decide +kernel, demoVRg_history, by decide +kernel⟩

/-- grids and tiles with several resolutions, gridded -/
example : ∃ t : Tile, t.isEmpty = false ∧ (8 : ℚ) ∈ t.resolutions ∧ (4 : ℚ) ∈ t.resolutions ∧
    (∃ g A, SRHistory demoEnv 16 false demoFields .plain false g A ∧ (∃ i j, g.TileAt i j t) ∧ g.resolutions = [4]) := by
  have hd : (((demoSRg.gridWith demoEnv { alg := .mean, res := some 4 } none).st.present.head?).any
      (fun t => !t.isEmpty && decide ((8 : ℚ) ∈ t.resolutions) && decide ((4 : ℚ) ∈ t.resolutions))) = true := by decide +kernel
  obtain ⟨t, ht, h1⟩ := (Option.any_eq_true _ _).1 hd
  simp only [Bool.and_eq_true, decide_eq_true_eq, Bool.not_eq_true'] at h1
  have hh : SRHistory demoEnv 16 false demoFields .plain false (demoSRg.gridWith demoEnv { alg := .mean, res := some 4 } none).st demoStore :=
    demoSRg_history.grid { alg := .mean, res := some 4 } rfl none
  refine ⟨t, h1.1.1, h1.1.2, h1.2, _, _, hh, ?_, by decide +kernel⟩
  exact (Grid.mem_present (Grid.grow_reps (sr_inv (by norm_num) hh).1).2).1 (List.mem_of_mem_head? ht)

end Bathy
