import Verif.Lemmas.GridLeaf
import Verif.Lemmas.TileClear
import Verif.Lemmas.GridExtents
import Verif.Spec.DemoGrid

/-!
# C28, C29: reported resolutions, change of algorithm

Model: `Grid.gridWith` (bathygrid/bgrid.py:1279-1521), sequential and with workers.
-/

namespace Bathy
open Grid

variable {env : Env} {size sub : ℚ} {bs : Bool} {fl : Fields} {F : Family} {s : Bool} {A : Store}

/-- the layers of an algorithm -/
def algorithmLayers (bs : Bool) (fl : Fields) : Family → List Layer
  | .plain => [mainLayer bs, .density] ++ (if fl.hasTvu then [.vertical] else []) ++ (if fl.hasThu then [.horizontal] else [])
  | .cube => [mainLayer bs, .density, .hypCount, .totalUnc, .hypRatio]

theorem initLayers_keys (bs : Bool) (fl : Fields) (F : Family) (n : Nat) : (Tile.initLayers (mainLayer bs) fl F n).map Prod.fst = algorithmLayers bs fl F := by
  cases F with
  | plain => obtain ⟨a, b⟩ := fl; cases a <;> cases b <;> rfl
  | cube => rfl

/-- the tile has the layers of the algorithm at resolution `r` and nothing else -/
def OnlyAt (bs : Bool) (fl : Fields) (F : Family) (t : Tile) (r : ℚ) : Prop := ∃ ls, t.cells = [(r, ls)] ∧ ls.map Prod.fst = algorithmLayers bs fl F

theorem grid_only {w : ℚ} (hw : 0 < w) {x y : ℚ} {t t' : Tile} {B : Store} (h : TileHistory env x y w bs fl F t B) {F' : Family} {alg : Alg} (ha : alg.family = some F')
    {r : ℚ} {mode : AutoMode} {params : Option GridParams} {border : Option PtArr} (hg : t.grid env alg (some r) true mode params border = (.ok t', some r)) :
    OnlyAt bs fl F' t' r := by
  obtain ⟨hp, -, hat, -⟩ := grid_as_some hg
  obtain ⟨L, ls, hL, hls, hcore, hci, -, hoth⟩ := grid_leaves hw h ha (clear := true) (Or.inr rfl) hp params border (by rw [hat]; rfl)
  rw [hat] at hls hci hoth
  have hone : ∀ r', r' ≠ r → t'.cells.get? r' = none := by
    intro r' hr'
    have := hoth r' hr'
    simp only [if_true] at this
    unfold Tile.coreAt at this
    simpa using this
  refine ⟨ls, cells_single hci hls hone, ?_⟩
  have hh : TileHistory env x y w bs fl F' t' B := by
    have := TileHistory.switch h alg ha (some r) mode params border (by rw [hg]; rfl)
    rw [hg] at this; exact this
  obtain ⟨hf, -, hgi⟩ := history_frame hw hh
  have hco : t'.coreAt r = some (core ls) := by
    unfold Tile.coreAt
    have hls : t'.cells.get? r = some ls := hls
    rw [hls]; rfl
  obtain ⟨-, -, -, hlo, -⟩ := hgi.cells r _ hco
  have hk := hlo.1
  have hall := Tile.gridAt_allCore hat r ls hls
  rw [hall, hall, Tile.depthKey_frame hf, mainLayer_new, initLayers_keys] at hk
  exact hk

theorem onlyAt_resolutions {F' : Family} {t : Tile} {r : ℚ} (h : OnlyAt bs fl F' t r) : t.resolutions = [r] := by
  obtain ⟨ls, h, -⟩ := h
  unfold Tile.resolutions
  rw [h]; rfl

theorem leafRun_only {w : ℚ} (hw : 0 < w) {a : GridCall} {t' : Tile} {r : ℚ} (h : LeafRun env fl F w bs a t' r) {F' : Family} (ha : a.alg.family = some F')
    (hc : a.clear = true) : (∀ r0, a.res = some r0 → r = r0) ∧ OnlyAt bs fl F' t' r := by
  obtain ⟨t, B, c, h1, h2, h3, h4, -, h6, h7⟩ := leafRun_call (F' := F') h (Or.inr hc)
  rw [h6.clear hc] at h7
  exact ⟨h4, grid_only hw h1 ha h7⟩

/-! ## C28 -/

theorem grid_ok_some {t : Tile} {alg : Alg} {res : Option ℚ} {clear : Bool} {mode : AutoMode} {params : Option GridParams} {border : Option PtArr}
    (h : (t.grid env alg res clear mode params border).1.err = none) :
    ∃ r, t.grid env alg res clear mode params border = (.ok (t.grid env alg res clear mode params border).1.st, some r) := by
  unfold Tile.grid at h ⊢
  split
  · rename_i e he; rw [he] at h; cases h
  · rename_i r hr
    rw [hr] at h
    simp only at h ⊢
    refine ⟨r, ?_⟩
    rw [if_pos h]
    cases hx : t.gridAt env alg r clear params border with
    | mk st err => rw [hx] at h; simp only at h; subst h; rfl

/-- `grid(a)` turned the tile `t` into `t'`, using the resolutions `rs`: the tile was skipped and has layers at the resolutions `rs`, or it was
gridded at one resolution -/
def UsedTile (env : Env) (a : GridCall) (t t' : Tile) (rs : List ℚ) : Prop :=
  (a.regrid = .update ∧ a.clear = false ∧ t.pointCountChanged = false ∧ t' = t ∧ rs = t.resolutions) ∨
  ∃ r clear mode border, rs = [r] ∧ t.grid env a.alg (some r) clear mode a.params border = (.ok t', some r) ∧ (a.clear = true ∨ a.regrid = .update → clear = true) ∧
    ∀ r0, a.res = some r0 → r = r0

/-- the resolutions `R` are exactly those used for the tiles -/
def UsedGrid (env : Env) (a : GridCall) (g g' : Grid Tile) (R : List ℚ) : Prop :=
  ∃ used : Nat → Nat → List ℚ, (∀ i j t, g.TileAt i j t → ∃ t', g'.TileAt i j t' ∧ UsedTile env a t t' (used i j)) ∧
    ∀ r, r ∈ R ↔ ∃ i j t, g.TileAt i j t ∧ r ∈ used i j

theorem did_tile {a a' : GridCall} (h0 : ∀ c, CallOf a c → CallOf a' c) (hr : a.regrid = a'.regrid) {t t' : Tile} {rs : List ℚ} (h : Did env a t t' rs)
    (hc' : a.clear = false → a'.clear = false) : UsedTile env a' t t' rs := by
  cases h with
  | skipped hu hc hp => exact Or.inl ⟨hr ▸ hu, hc' hc, hp, rfl, rfl⟩
  | gridded c hc hl he =>
    right
    have he : (t.grid env c.alg c.res c.clear c.mode c.params c.border).1.err = none := he
    obtain ⟨r, h1⟩ := grid_ok_some he
    obtain ⟨-, h2, -, h3⟩ := grid_as_some h1
    have hc := h0 c hc
    refine ⟨r, c.clear, c.mode, c.border, ?_, ?_, ?_, fun r0 h0 => h2 r0 (hc.res r0 h0)⟩
    · show (t.grid env c.alg c.res c.clear c.mode c.params c.border).2.toList = [r]
      rw [h1]; rfl
    · rw [← hc.alg, ← hc.params]
      exact h3 c.mode
    · rintro (h | h)
      · exact hc.clear h
      · exact hl (hr.trans h) rfl

theorem usedGrid_of {a a' : GridCall} (h0 : ∀ c, CallOf a c → CallOf a' c) (hr : a.regrid = a'.regrid) (hc' : a.clear = false → a'.clear = false) {g : Grid Tile}
    (hwf : ∀ T, g.tiles = some T → T.WF) {dask : Option Nat} (hok : (gridWith env g a dask).err = none) :
    UsedGrid env a' g (gridWith env g a dask).st (gridWith env g a dask).st.resolutions := by
  obtain ⟨h1, -, -, -, -, -, used, h2, h3⟩ := gridWith_at hok
  have hT : ∃ T, g.tiles = some T ∧ T.WF := by
    rcases Option.eq_none_or_eq_some g.tiles with ht | ⟨T, ht⟩
    · unfold isEmpty at h1; rw [ht] at h1; simp at h1
    · exact ⟨T, ht, hwf T ht⟩
  refine ⟨used, ?_, h3 hT⟩
  intro i j t ht
  obtain ⟨t', h4, h5⟩ := h2 i j t ht
  exact ⟨t', h4, did_tile h0 hr h5 hc'⟩

theorem pairwise_of {τ : Type} [GridLike τ] [LawfulGrid τ] {g : Grid τ} {a : GridCall} {dask : Option Nat} (hok : (gridWith env g a dask).err = none) :
    (gridWith env g a dask).st.resolutions.Pairwise (· < ·) := by
  obtain ⟨-, -, ⟨gr, T', R, h1, h2⟩, -⟩ := gridWith_at hok
  rw [h1]; exact h2

/-- **C28** (single resolution): after a `grid` call that returns, sequential or with workers, the reported resolutions are strictly increasing
and are exactly those used for the tiles: the resolution a tile was gridded at in this call or, for a tile skipped by `regrid_option='update'`,
the resolutions it has layers at. -/
theorem C28_resolutions_sr (hs : 0 < size) {g : Grid Tile} (h : SRHistory env size bs fl F s g A) {a : GridCall} {dask : Option Nat}
    (hok : (g.gridWith env a dask).err = none) :
    (g.gridWith env a dask).st.resolutions.Pairwise (· < ·) ∧ UsedGrid env a g (g.gridWith env a dask).st (g.gridWith env a dask).st.resolutions :=
  ⟨pairwise_of hok, usedGrid_of (fun _ h => h) rfl (fun h => h) (grow_reps (sr_inv hs h).1).2 hok⟩

theorem used_only {w : ℚ} (hw : 0 < w) {x y : ℚ} {t t' : Tile} {B : Store} (h : TileHistory env x y w bs fl F t B) {a : GridCall} {F' : Family} (ha : a.alg.family = some F')
    (hv : a.regrid = .update ∨ a.clear = true) {rs : List ℚ} (hu : UsedTile env a t t' rs) : rs = t'.resolutions := by
  rcases hu with ⟨-, -, -, h1, h2⟩ | ⟨r, clear, mode, border, h1, h2, h3, -⟩
  · rw [h1, h2]
  · have := h3 hv.symm
    subst this
    rw [h1, onlyAt_resolutions (grid_only hw h ha h2)]

/-- **C28** (single resolution), seen from the grid afterwards: with `regrid_option='update'` or `clear_existing=True` the reported resolutions are
exactly those the tiles of the grid have layers at. -/
theorem C28_resolutions_are_those_of_the_tiles_sr (hs : 0 < size) {g : Grid Tile} (h : SRHistory env size bs fl F s g A) {a : GridCall} {dask : Option Nat}
    {F' : Family} (ha : a.alg.family = some F') (hv : a.regrid = .update ∨ a.clear = true) (hok : (g.gridWith env a dask).err = none) (r : ℚ) :
    r ∈ (g.gridWith env a dask).st.resolutions ↔ ∃ i j t, (g.gridWith env a dask).st.TileAt i j t ∧ r ∈ t.resolutions := by
  obtain ⟨-, used, h1, h2⟩ := C28_resolutions_sr hs h hok
  have hreps := (grow_reps (sr_inv hs h).1).1
  obtain ⟨-, -, -, -, h3, -⟩ := gridWith_at hok
  rw [h2]
  constructor
  · rintro ⟨i, j, t, ht, hr⟩
    obtain ⟨t', ht', hu⟩ := h1 i j t ht
    obtain ⟨x, y, B, hB, -⟩ := hreps i j t ht
    exact ⟨i, j, t', ht', used_only hs hB ha hv hu ▸ hr⟩
  · rintro ⟨i, j, t', ht', hr⟩
    obtain ⟨t, rs, ht, -⟩ := h3 i j t' ht'
    obtain ⟨t'', ht'', hu⟩ := h1 i j t ht
    have : t'' = t' := tileAt_unique ht'' ht'
    subst this
    obtain ⟨x, y, B, hB, -⟩ := hreps i j t ht
    exact ⟨i, j, t, ht, by rw [used_only hs hB ha hv hu]; exact hr⟩

/-- **C28, partial** (variable resolution): the reported resolutions are strictly increasing and exactly those of the subgrids; a subgrid is either
skipped (`regrid_option='update'`, no changed tile), and then keeps the list of an earlier call, or its list is exactly the resolutions used for its
tiles.  What is missing: the kept list need not be that of its tiles, see `C28_violated`. -/
theorem C28_resolutions_vr_partial (hs : 0 < size) (hsub : isPowerOfTwo sub = true) {g : Grid (Grid Tile)} (h : VRHistory env size sub bs fl F s g A) {a : GridCall}
    {dask : Option Nat} (hok : (g.gridWith env a dask).err = none) :
    (g.gridWith env a dask).st.resolutions.Pairwise (· < ·) ∧
    (∀ r, r ∈ (g.gridWith env a dask).st.resolutions ↔ ∃ i j u, (g.gridWith env a dask).st.TileAt i j u ∧ r ∈ u.resolutions) ∧
    ∀ i j u', (g.gridWith env a dask).st.TileAt i j u' → ∃ u, g.TileAt i j u ∧
      ((a.regrid = .update ∧ a.clear = false ∧ u.pointCountChanged = false ∧ u' = u) ∨ UsedGrid env a u u' u'.resolutions) := by
  have hg := (vr_inv hs hsub h).1
  obtain ⟨h1, -, -, h2, h3, -, used, h4, h5⟩ := gridWith_at hok
  have hT : ∃ T, g.tiles = some T ∧ T.WF := by
    rcases Option.eq_none_or_eq_some g.tiles with ht | ⟨T, ht⟩
    · unfold isEmpty at h1; rw [ht] at h1; simp at h1
    · exact ⟨T, ht, (grow_reps hg).2 T ht⟩
  have hres : ∀ {u u' : Grid Tile} {rs}, Did env a u u' rs → rs = u'.resolutions := by
    intro u u' rs hd
    cases hd with
    | skipped => rfl
    | gridded c hc hl he =>
      have he : (u.grid env c).err = none := he
      show (if (u.grid env c).err = none then (u.grid env c).st.resolutions else []) = (u.grid env c).st.resolutions
      rw [if_pos he]
  refine ⟨pairwise_of hok, ?_, ?_⟩
  · intro r
    rw [h5 hT]
    constructor
    · rintro ⟨i, j, u, hu, hr⟩
      obtain ⟨u', hu', hd⟩ := h4 i j u hu
      exact ⟨i, j, u', hu', hres hd ▸ hr⟩
    · rintro ⟨i, j, u', hu', hr⟩
      obtain ⟨u, rs, hu, -⟩ := h3 i j u' hu'
      obtain ⟨u'', hu'', hd⟩ := h4 i j u hu
      have : u'' = u' := tileAt_unique hu'' hu'
      subst this
      exact ⟨i, j, u, hu, by rw [hres hd]; exact hr⟩
  · intro i j u' hu'
    obtain ⟨u, rs, hu, hd, -⟩ := h3 i j u' hu'
    refine ⟨u, hu, ?_⟩
    cases hd with
    | skipped hu' hc hp => exact Or.inl ⟨hu', hc, hp, rfl⟩
    | gridded c hc hl he =>
      right
      obtain ⟨x, y, B, hB⟩ := (grow_reps hg).1 i j u hu
      have hB : SubInv (tileSpec env F sub 0 false fl (isPowerOfTwo_pos hsub)) size x y u B := hB
      have he : (gridWith env u c none).err = none := he
      refine usedGrid_of (fun c' h => hc.trans h) hc.regrid (fun hf => ?_) (sub_reps hB).2 he
      rcases Bool.eq_false_or_eq_true a.clear with h | h
      · rw [hc.clear h] at hf; cases hf
      · exact h

/-- witness of C28 and C98 -/
def stale : Grid (Grid Tile) :=
  (((((newVR 32 16 false).addPoints ⟨demoFields, [⟨5, 5, 10, 1, 1⟩]⟩ "a" {}).st.addPoints ⟨demoFields, [⟨20, 20, 50, 1, 1⟩]⟩ "b" {}).st.grid demoEnv { alg := .mean, res := none }).st.removePoints "b").st

/-- witness of C28 and C98 -/
def update : GridCall := { alg := .mean, res := none, regrid := .update }

/-- **C28** does not hold for variable resolution grids: gridded by depth, the two tiles get the resolutions 1/2 and 2; then the container of the
second is removed and with it the tile.  The update finds no changed tile, skips the subgrid and reports 2, which no tile has. -/
theorem C28_violated : ∃ g A, VRHistory demoEnv 32 16 false demoFields .plain false g A ∧ (g.grid demoEnv update).err = none ∧
    (2 : ℚ) ∈ (g.grid demoEnv update).st.resolutions ∧ ∀ t, (g.grid demoEnv update).st.Leaf t → t.resolutions = [1/2] := by
  refine ⟨stale, _, (((((GridHistory.new .plain).add [⟨5, 5, 10, 1, 1⟩] "a" {} (by decide +kernel)).add [⟨20, 20, 50, 1, 1⟩] "b" {} (by decide +kernel)).grid
    { alg := .mean, res := none } rfl none).remove "b" (by decide +kernel)), by decide +kernel, by decide +kernel, ?_⟩
  have hd : ∀ o ∈ ((stale.grid demoEnv update).st.tiles.map (fun T => T.flat)).getD [], ∀ u ∈ o, ∀ o' ∈ (u.tiles.map (fun T => T.flat)).getD [], ∀ t ∈ o', t.resolutions = [1/2] := by
    decide +kernel
  rintro t ⟨i, j, u, ⟨T, hT, hu⟩, i', j', t', ⟨T', hT', ht'⟩, rfl⟩
  rw [hT] at hd
  have h1 : some u ∈ T.flat := by
    unfold Arr2.get? at hu; split at hu
    · exact List.mem_of_getElem? hu
    · cases hu
  have h2 : some t ∈ T'.flat := by
    unfold Arr2.get? at ht'; split at ht'
    · exact List.mem_of_getElem? ht'
    · cases ht'
  have h3 := hd _ h1 u rfl
  rw [hT'] at h3
  exact h3 _ h2 t rfl

/-- the hypotheses of C28 are met, with skipped tiles and two resolutions -/
example : SRHistory demoEnv 16 false demoFields .plain false demoSR demoStore ∧ (demoSR.gridWith demoEnv { alg := .mean, res := none } none).err = none ∧
    (demoSR.gridWith demoEnv { alg := .mean, res := none, regrid := .update } (some 2)).err = none ∧
    VRHistory demoEnv 32 16 false demoFields .plain false demoVR demoStore ∧ (demoVR.gridWith demoEnv { alg := .mean, res := none } none).err = none :=
  ⟨demoSR_history, by decide +kernel, by decide +kernel, demoVR_history, by decide +kernel⟩

/-! ## C29 -/

/-- **C29**: calling `grid` with another algorithm without `clear_existing` raises ValueError and changes nothing; for every state of a single or
variable resolution grid or subgrid, sequential or with workers. -/
theorem C29_other_algorithm_refused {τ : Type} [GridLike τ] (env : Env) (g : Grid τ) (a : GridCall) (dask : Option Nat) {al : Alg} (hal : g.gridAlgorithm = some al)
    (hne : al ≠ a.alg) (hc : a.clear = false) : g.gridWith env a dask = .fail g .valueError := by
  have hp : (gridPlan env g a).1 = .fail g .valueError := by
    unfold gridPlan
    rw [hal]
    simp only
    rw [if_pos ⟨hne, hc⟩]
  cases dask with
  | none => show grid env g a = _; unfold grid; simp only [hp]; rfl
  | some n => show gridDask env n g a = _; unfold gridDask; simp only [hp]; rfl

/-- **C29** (single resolution): after `grid(…, clear_existing=True)` returns, whatever was there before, each tile has the layers of the new
algorithm at one of the reported resolutions (the requested one, if one was requested), and no other layers. -/
theorem C29_cleared_sr (hs : 0 < size) {g : Grid Tile} (h : SRHistory env size bs fl F s g A) {a : GridCall} {F' : Family} (ha : a.alg.family = some F')
    (hc : a.clear = true) {dask : Option Nat} (hok : (g.gridWith env a dask).err = none) :
    (g.gridWith env a dask).st.gridAlgorithm = some a.alg ∧
    ∀ i j t, (g.gridWith env a dask).st.TileAt i j t → ∃ r ∈ (g.gridWith env a dask).st.resolutions, (∀ r0, a.res = some r0 → r = r0) ∧ OnlyAt bs fl F' t r := by
  refine ⟨?_, ?_⟩
  · obtain ⟨-, -, ⟨gr, T', R, h1, -⟩, -⟩ := gridWith_at hok
    rw [h1]; rfl
  · intro i j t ht
    obtain ⟨r, h1, h2⟩ := (leaves_sr hs h (Or.inr hc) hok).1 t ⟨i, j, t, ht, rfl⟩
    exact ⟨r, h1, leafRun_only hs h2 ha hc⟩

/-- **C29** (variable resolution) -/
theorem C29_cleared_vr (hs : 0 < size) (hsub : isPowerOfTwo sub = true) {g : Grid (Grid Tile)} (h : VRHistory env size sub bs fl F s g A) {a : GridCall} {F' : Family}
    (ha : a.alg.family = some F') (hc : a.clear = true) {dask : Option Nat} (hok : (g.gridWith env a dask).err = none) :
    (g.gridWith env a dask).st.gridAlgorithm = some a.alg ∧
    ∀ t, (g.gridWith env a dask).st.Leaf t → ∃ r ∈ (g.gridWith env a dask).st.resolutions, (∀ r0, a.res = some r0 → r = r0) ∧ OnlyAt false fl F' t r := by
  refine ⟨?_, ?_⟩
  · obtain ⟨-, -, ⟨gr, T', R, h1, -⟩, -⟩ := gridWith_at hok
    rw [h1]; rfl
  · intro t ht
    obtain ⟨r, h1, h2⟩ := (leaves_vr hs hsub h (Or.inr hc) hok).1 t ht
    exact ⟨r, h1, leafRun_only (isPowerOfTwo_pos hsub) h2 ha hc⟩

private def gridded : Grid Tile := (((newSR 16 false).addPoints ⟨demoFields, demoA⟩ "a" {}).st.grid demoEnv { alg := .mean, res := some 1 }).st
private def failed : Grid Tile := (gridded.grid demoEnv { alg := .cube, res := some 3, clear := true }).st

/-- **C29**, as a statement about the layers and not about the attribute `grid_algorithm`, does not hold: the attribute is set before the tiles are
gridded.  A grid with mean layers; `grid('cube', resolution=3, clear_existing=True)` raises ValueError and leaves the mean layers but says `cube`; then
`grid('cube', resolution=2)` without `clear_existing` is accepted, and a tile has mean layers at 1 and CUBE layers at 2. -/
theorem C29_violated : (gridded.grid demoEnv { alg := .cube, res := some 3, clear := true }).err = some .valueError ∧
    (failed.grid demoEnv { alg := .cube, res := some 2 }).err = none ∧
    ∃ t, (failed.grid demoEnv { alg := .cube, res := some 2 }).st.TileAt 0 0 t ∧
      t.cells.map (fun p => (p.1, p.2.map Prod.fst)) = [(1, algorithmLayers false demoFields .plain), (2, algorithmLayers false demoFields .cube)] := by
  refine ⟨by decide +kernel, by decide +kernel, ?_⟩
  obtain ⟨t, ht, hP⟩ := exists_tileAt_any (g := (failed.grid demoEnv { alg := .cube, res := some 2 }).st) (r := 0) (c := 0)
    (fun t => decide (t.cells.map (fun p => (p.1, p.2.map Prod.fst)) = [(1, algorithmLayers false demoFields .plain), (2, algorithmLayers false demoFields .cube)])) (by decide +kernel)
  exact ⟨t, ht, of_decide_eq_true hP⟩

/-- the hypotheses of C29 are met: grids with layers of mean, gridded with CUBE -/
example : demoSR.gridAlgorithm = some .mean ∧ (demoSR.gridWith demoEnv { alg := .cube, res := some 1 } none).err = some .valueError ∧
    (demoSR.gridWith demoEnv { alg := .cube, res := some 1, clear := true } none).err = none ∧
    (demoVR.gridWith demoEnv { alg := .shoalest, res := none, clear := true } (some 3)).err = none := by
  refine ⟨by decide +kernel, by decide +kernel, by decide +kernel, by decide +kernel⟩

end Bathy
