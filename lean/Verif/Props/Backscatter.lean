import Verif.Props.GridGridding

/-!
# C63: the main layer of backscatter grids

Model: `Tile.depthKey` (bathygrid/tile.py), `Tile.new`, `Grid.newSub` (bathygrid/maingrid.py:37-61).
-/

namespace Bathy
open Grid

variable {env : Env} {size sub : ℚ} {bs : Bool} {fl : Fields} {F : Family} {s : Bool} {A : Store}

/-- at every resolution the tile has the layer `yes` and not the layer `no` -/
def OnlyUnder (t : Tile) (yes no : Layer) : Prop := ∀ res ls, t.cells.get? res = some ls → (∃ a, ls.get? yes = some a) ∧ ls.get? no = none

/-- the main layer of a tile of a history -/
theorem history_mainLayer {x y : ℚ} {t : Tile} (hs : 0 < size) (h : TileHistory env x y size bs fl F t A) :
    OnlyUnder t (if bs then .intensity else .depth) (if bs then .depth else .intensity) := by
  intro res ls hls
  obtain ⟨hf, -, hg⟩ := history_frame hs h
  have hcore : t.coreAt res = some (core ls) := by unfold Tile.coreAt; rw [hls]; rfl
  obtain ⟨-, -, -, ⟨hk, -⟩, -⟩ := hg.cells res _ hcore
  have hcc : core (core ls) = core ls := by unfold core; rw [List.filter_filter]; simp
  rw [hcc] at hk
  have hd : t.depthKey = if bs then .intensity else .depth := by
    unfold Tile.depthKey; rw [hf.2.2.2.2.2.2]; rfl
  rw [hd] at hk
  have hmem : ∀ l : Layer, l ∈ (core ls).keys ↔ l ∈ (Tile.initLayers (if bs then .intensity else .depth) fl F (ncells t.width res)).map Prod.fst := by
    intro l; rw [← hk]; rfl
  have hi : ∀ n, (Tile.initLayers (if bs then .intensity else .depth) fl F n).map Prod.fst = (Tile.initLayers (if bs then .intensity else .depth) fl F 0).map Prod.fst := by
    intro n; obtain ⟨tv, th⟩ := fl; cases F <;> cases tv <;> cases th <;> rfl
  rw [hi] at hmem
  have y1 : (if bs then Layer.intensity else .depth) ∈ (core ls).keys := by
    rw [hmem]; cases bs <;> cases F <;> simp [Tile.initLayers]
  have y2 : (if bs then Layer.depth else .intensity) ∉ (core ls).keys := by
    rw [hmem]
    obtain ⟨tv, th⟩ := fl
    cases bs <;> cases F <;> cases tv <;> cases th <;> decide
  constructor
  · rw [← core_get? ls (by cases bs <;> rfl)]
    have := (Dict.get?_eq_none (core ls) _).not.2 (not_not.2 y1)
    exact Option.ne_none_iff_exists'.1 this
  · rw [← core_get? ls (by cases bs <;> rfl)]
    exact (Dict.get?_eq_none _ _).2 y2

/-- **C63** (single resolution grids): after any calls, the tiles of a grid created with `is_backscatter=True` have the layer 'intensity' and no layer
'depth' at every resolution, and the other way round without the flag.  That the layer holds the gridded values is in C17 and C18
(`C17_mean_grid_sr`, `C18_shoalest_grid_sr`, for both kinds). -/
theorem C63_intensity_sr (hs : 0 < size) {g : Grid Tile} (h : SRHistory env size bs fl F s g A) {r c : Nat} {t : Tile} (ht : g.TileAt r c t) :
    OnlyUnder t (if bs then .intensity else .depth) (if bs then .depth else .intensity) := by
  obtain ⟨a, b, e, -, -, -, hrep, -⟩ := tileAt_rep (sr_inv hs h).1 ht
  exact history_mainLayer hs hrep.1

/-- **C63** (variable resolution grids), the part that holds: grids created without the flag.
Missing: grids created with `is_backscatter=True`, see `C63_fails_vr`. -/
theorem C63_depth_vr_partial (hs : 0 < size) (hsub : isPowerOfTwo sub = true) {g : Grid (Grid Tile)} (h : VRHistory env size sub false fl F s g A) {t : Tile} (ht : g.Leaf t) :
    OnlyUnder t .depth .intensity := by
  obtain ⟨r, c, u, hu, r', c', t', ht', e⟩ := ht
  have e : t = t' := e
  subst e
  obtain ⟨a, b, e, -, -, -, hrep, -⟩ := tileAt_rep (vr_inv hs hsub h).1 hu
  have hrep : SubInv _ size _ _ u _ := hrep
  obtain ⟨T, hf⟩ := hrep.frame
  obtain ⟨-, -, h1, -⟩ := frame_tileAt hf.toReady ht'
  exact history_mainLayer (isPowerOfTwo_pos hsub) h1.1

/-- **C63** fails for all variable resolution grids: whatever the flag, the tiles have the layer 'depth' and no layer 'intensity'. -/
theorem C63_fails_vr (hs : 0 < size) (hsub : isPowerOfTwo sub = true) {g : Grid (Grid Tile)} (h : VRHistory env size sub bs fl F s g A) {t : Tile} (ht : g.Leaf t) :
    OnlyUnder t .depth .intensity := by
  obtain ⟨r, c, u, hu, r', c', t', ht', e⟩ := ht
  have e : t = t' := e
  subst e
  obtain ⟨a, b, e, -, -, -, hrep, -⟩ := tileAt_rep (vr_inv hs hsub h).1 hu
  have hrep : SubInv _ size _ _ u _ := hrep
  obtain ⟨T, hf⟩ := hrep.frame
  obtain ⟨-, -, h1, -⟩ := frame_tileAt hf.toReady ht'
  exact history_mainLayer (isPowerOfTwo_pos hsub) h1.1

/-- a gridded backscatter grid -/
def backSR : Grid Tile := (((newSR 16 true).addPoints ⟨demoFields, demoA⟩ "a" {}).st.gridWith demoEnv { alg := .mean, res := some 4 } none).st
def backVR : Grid (Grid Tile) := (((newVR 32 16 true).addPoints ⟨demoFields, demoA⟩ "a" {}).st.gridWith demoEnv { alg := .mean, res := some 4 } none).st

theorem backSR_history : SRHistory demoEnv 16 true demoFields .plain false backSR [("a", demoA)] :=
  ((GridHistory.new .plain).add demoA "a" {} (by decide +kernel)).grid { alg := .mean, res := some 4 } rfl none
theorem backVR_history : VRHistory demoEnv 32 16 true demoFields .plain false backVR [("a", demoA)] :=
  ((GridHistory.new .plain).add demoA "a" {} (by decide +kernel)).grid { alg := .mean, res := some 4 } rfl none

/-- the hypotheses of `C63_intensity_sr` are met by a tile with layers -/
example : ∃ t ls, backSR.TileAt 0 0 t ∧ t.cells.get? 4 = some ls ∧ (∃ a, ls.get? .intensity = some a) ∧ ls.get? .depth = none := by
  obtain ⟨t, ht, h⟩ := exists_tileAt_any (g := backSR) (r := 0) (c := 0) (fun t : Tile => (t.cells.get? 4).isSome) (by decide +kernel)
  obtain ⟨ls, hls⟩ := Option.isSome_iff_exists.1 h
  exact ⟨t, ls, ht, hls, C63_intensity_sr (by norm_num) backSR_history ht 4 ls hls⟩

/-- **C63** is false for variable resolution grids: a gridded backscatter grid has a tile whose values are under 'depth'. -/
theorem C63_violated : ∃ g A t ls, VRHistory demoEnv 32 16 true demoFields .plain false g A ∧ g.isBackscatter = true ∧ g.Leaf t ∧ t.cells.get? 4 = some ls ∧
    (∃ a, ls.get? .depth = some a) ∧ ls.get? .intensity = none := by
  obtain ⟨u, hu, h⟩ := exists_tileAt_any (g := backVR) (r := 0) (c := 0) (fun u : Grid Tile => ((u.tiles.bind (fun T => T.get? 0 0)).join).any (fun t => (t.cells.get? 4).isSome))
    (by decide +kernel)
  obtain ⟨t, ht, h'⟩ := exists_tileAt_any _ h
  obtain ⟨ls, hls⟩ := Option.isSome_iff_exists.1 h'
  have hl : backVR.Leaf t := ⟨0, 0, u, hu, 0, 0, t, ht, rfl⟩
  exact ⟨backVR, _, t, ls, backVR_history, by decide +kernel, hl, hls, C63_fails_vr (by norm_num) (by decide +kernel) backVR_history hl 4 ls hls⟩

end Bathy
