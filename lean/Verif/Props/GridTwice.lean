import Verif.Lemmas.GridTwice
import Verif.Props.GridResolutions

/-!
# Gridding twice

C26: calling `grid` twice with the same arguments and no change of the points in between gives what calling it once gives.

Model: `Grid.grid`, `Grid.gridRegular`, `Grid.gridParallel` (bathygrid/bgrid.py:1279-1521), `Tile.grid` (bathygrid/tile.py:686-790).
-/

namespace Bathy
open Grid
variable {env : Env} {size sub : ℚ} {bs : Bool} {fl : Fields}

/-- the two tiles have the same layers, depth (or intensity), density, uncertainty, …, at every resolution -/
def SameLayers (t t' : Tile) : Prop := ∀ r l, l.isCore = true → t.layerAt r l = t'.layerAt r l

theorem gridAt_unchanged {t : Tile} {alg : Alg} {r : ℚ} {clear : Bool} {params : Option GridParams} {border : Option PtArr}
    (h : (t.gridAt env alg r clear params border).err = none) : (t.gridAt env alg r clear params border).st.pointCountChanged = false := by
  unfold Tile.gridAt at h ⊢
  split
  · rename_i hp
    rw [if_pos hp] at h
    simp only at h ⊢
    generalize (if !((if clear then t.clearGrid else t).clearTemp r).cells.has r || decide (((if clear then t.clearGrid else t).clearTemp r).algorithm ≠ some alg) then
        Tile.newGrid { (if clear then t.clearGrid else t).clearTemp r with algorithm := some alg, gridParams := params } r alg
      else .ok ((if clear then t.clearGrid else t).clearTemp r)) = R3 at h ⊢
    unfold Res.andThen at h ⊢
    cases he : R3.err with
    | some e => rw [he] at h; cases h
    | none =>
      rw [he] at h
      simp only at h ⊢
      cases hq : Tile.prepare R3.st r with
      | error e => rw [hq] at h; cases h
      | ok t4 =>
        rw [hq] at h
        simp only at h ⊢
        cases hr : Tile.runAlg env t4 alg r params border with
        | error e => rw [hr] at h; cases h
        | ok t5 => rfl
  · rename_i hp
    rw [if_neg hp] at h; cases h

theorem idem_tile (env : Env) (hs : 0 < size) (F F' : Family) : Idem (size := size) (sub := sub) (bs := bs) (fl := fl) env (tileSpec env F size sub bs fl hs) SameLayers F F' where
  refl := fun _ _ _ _ => rfl
  dens := by
    intro x y t A c hrep ha hF he
    obtain ⟨-, hr, -⟩ := history_frame hs hrep.1
    exact Tile.chooseResolution_congr env (Tile.grid_same env t c.alg c.res c.clear c.mode c.params c.border hr.idx).1 none .density
  twice := by
    intro x y t A c hrep ha hF he
    obtain ⟨h1, h2, h3⟩ := C26_tile_idempotent hs hrep.1 c.alg ha c.clear hF c.res c.mode c.params c.border he
    exact ⟨h1, congrArg Option.toList h2, fun r l hl => (h3 r l hl).symm⟩
  unchanged := by
    intro x y t A c hrep ha hF he
    have he : (t.grid env c.alg c.res c.clear c.mode c.params c.border).1.err = none := he
    obtain ⟨r, hr⟩ := grid_ok_some he
    obtain ⟨-, -, hat, -⟩ := grid_as_some hr
    have := gridAt_unchanged (env := env) (t := t) (alg := c.alg) (r := r) (clear := c.clear) (params := c.params) (border := c.border) (by rw [hat]; rfl)
    rw [hat] at this
    exact this
  res := by
    intro x y t A c hrep ha hF he hcl
    have hcl : c.clear = true := hcl rfl
    have he : (t.grid env c.alg c.res c.clear c.mode c.params c.border).1.err = none := he
    obtain ⟨r, hr⟩ := grid_ok_some he
    obtain ⟨-, -, -, hsome⟩ := grid_as_some hr
    have h1 := hsome c.mode
    rw [hcl] at h1
    have := onlyAt_resolutions (grid_only hs hrep.1 ha h1)
    show (t.grid env c.alg c.res c.clear c.mode c.params c.border).2.toList = (t.grid env c.alg c.res c.clear c.mode c.params c.border).1.st.resolutions
    rw [hcl] at hr ⊢
    rw [this, hr]; rfl

/-- **C26** (single resolution): if `grid` returns, calling it again with the same arguments returns too, reports the same resolutions, and leaves in every
tile the layers of the first call; for every reachable grid, every algorithm, resolution or automatic choice, full or update run, with or without workers. -/
theorem C26_grid_twice_sr {F F' : Family} {s : Bool} {A : Store} (hs : 0 < size) {g : Grid Tile} (h : SRHistory env size bs fl F s g A) {a : GridCall}
    (ha : a.alg.family = some F') (hF : F' = F ∨ a.clear = true) {dask : Option Nat} (hok : (g.gridWith env a dask).err = none) :
    let once := (g.gridWith env a dask).st
    let twice := once.gridWith env a dask
    twice.err = none ∧ twice.st.resolutions = once.resolutions ∧ Grid.Alike SameLayers once twice.st := by
  have hr := grow_reps (sr_inv hs h).1
  obtain ⟨h1, h2, h3, -⟩ := gridWith_twice (idem_tile (sub := 0) env hs F F') hr.1 hr.2 ha hF hok
  exact ⟨h1, h2, h3⟩

/-- **C26** (variable resolution) -/
theorem C26_grid_twice_vr {F F' : Family} {s : Bool} {A : Store} (hs : 0 < size) (hsub : isPowerOfTwo sub = true) {g : Grid (Grid Tile)} (h : VRHistory env size sub bs fl F s g A) {a : GridCall}
    (ha : a.alg.family = some F') (hF : F' = F ∨ a.clear = true) {dask : Option Nat} (hok : (g.gridWith env a dask).err = none) :
    let once := (g.gridWith env a dask).st
    let twice := once.gridWith env a dask
    twice.err = none ∧ twice.st.resolutions = once.resolutions ∧ Grid.Alike SameLayers once twice.st := by
  have hr := grow_reps (vr_inv hs hsub h).1
  obtain ⟨h1, h2, h3, -⟩ := gridWith_twice (idem_sub (bs := bs) (idem_tile (sub := 0) env (isPowerOfTwo_pos hsub) F F') hs hsub) hr.1 hr.2 ha hF hok
  exact ⟨h1, h2, h3⟩

/-- the hypotheses are met, with CUBE after mean, and an automatic resolution -/
example : (demoSR.gridWith demoEnv { alg := .cube, res := none, mode := .density, clear := true } none).err = none ∧
    (demoSR.gridWith demoEnv { alg := .cube, res := none, mode := .density, clear := true } none).st.resolutions ≠ [] := by decide +kernel

/-- … and with an update run over workers -/
example : (demoVR.gridWith demoEnv { alg := .mean, res := none, regrid := .update } (some 2)).err = none ∧
    (demoVR.gridWith demoEnv { alg := .mean, res := none, regrid := .update } (some 2)).st.resolutions ≠ [] := by decide +kernel

end Bathy
