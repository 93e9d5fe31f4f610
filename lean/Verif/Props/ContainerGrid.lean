import Verif.Lemmas.ContTile
import Verif.Spec.DemoGrid
import Verif.Lemmas.ShowsOf
import Verif.Props.SlopeGrid

/-!
# C120: the surface of one container
-/

namespace Bathy

variable {env : Env} {size sub : ℚ} {bs : Bool} {fl : Fields} {F : Family} {s : Bool} {A : Store} {a : GridCall} {dask : Option Nat}

/-- a tile that can be asked for containers at `r` -/
def ContReady (alg : Alg) (r : ℚ) (t : Tile) : Prop := t.Indexed r ∧ (t.cells.get? r).isSome = true ∧ t.algorithm = some alg

theorem part_ptsOf (c : String) : Part (fun A => A.ptsOf c) := ⟨fun A x y s => Store.ptsOf_within A c x y s, fun _ _ hp => Store.mem_ptsOf hp⟩

theorem ptsOf_ne {A : Store} {c : String} (hne : ∀ q ∈ A, q.2 ≠ []) (hc : c ∈ A.names) : A.ptsOf c ≠ [] := by
  obtain ⟨q, hq, rfl⟩ := List.mem_map.1 hc
  obtain ⟨p, hp⟩ := List.exists_mem_of_ne_nil _ (hne q hq)
  exact List.ne_nil_of_mem (List.mem_flatMap.2 ⟨q, List.mem_filter.2 ⟨hq, by simp⟩, hp⟩)

theorem showsOf_cont {alg : Alg} (ha : alg = .mean ∨ alg = .shoalest) (hs : 0 < size) {r : ℚ} (hr : 0 < r) {n : Nat} (hn : size = (n : ℚ) * r) (c : String) (nodata : Option ℚ) :
    ShowsOf env (tileSpec env F size sub bs fl hs) n r (ContReady alg r) (.cont c) nodata (fun A => A.ptsOf c) (PlainCell alg) (fun v => v.or nodata) where
  ok := by
    intro x y t A zUp hrep hQ
    obtain ⟨h1, h2, h3⟩ := hrep
    obtain ⟨hi, hc, halg⟩ := hQ t rfl
    have hP := allPts_ne h2 h3
    have hci : c ∈ A.names → t.ContIndexed r c := by
      intro hm
      obtain ⟨ci, k1, k2⟩ := hi
      obtain ⟨-, hrep, -⟩ := history_frame hs h1
      have hmem : (t.container.get? c).isSome = true := by
        rw [Dict.get?_isSome, Dict.has_iff, hrep.container, slicesFrom_keys]; exact hm
      obtain ⟨⟨s, e⟩, hse⟩ := Option.isSome_iff_exists.1 hmem
      exact ⟨ci, s, e, k1, hse, fun i hi => k2 i (List.mem_of_mem_take (List.mem_of_mem_drop hi))⟩
    obtain ⟨a, hE, hq⟩ := cont_answers hs h1 ha halg hc c hci nodata zUp
    refine ⟨_, hq, ⟨?_, ?_⟩, ?_⟩
    · intro ho
      split at ho
      · rename_i h
        rcases h with h | ⟨h, h' | h'⟩
        · exact absurd h hP
        · exact absurd h (ptsOf_ne h3 h')
        · exact ⟨h, h'⟩
      · cases ho
    · rintro ⟨h0, hnd⟩
      rw [if_pos (Or.inr ⟨h0, Or.inr hnd⟩)]
    · intro b hb
      split at hb
      · cases hb
      · cases hb
        have hnc : ncells size r = n := by rw [hn]; exact ncells_mul hr n
        rw [hnc] at hE
        obtain ⟨-, e1, e2, e3⟩ := hE
        refine ⟨e1, e2, fun i j hi hj => ?_⟩
        obtain ⟨v, v1, v2⟩ := e3 i j hi hj
        exact ⟨v, v2, by rw [Arr2.get?_map, v1]; rfl⟩
  probe := by
    intro x y t A _ hQ
    obtain ⟨-, hc, -⟩ := hQ t rfl
    show Except.ok (!t.cells.isEmpty) = _
    cases he : t.cells with
    | nil => rw [he] at hc; cases hc
    | cons p ps => rfl

theorem leafRun_cont {w r r' : ℚ} {t : Tile} (hw : 0 < w) (h : LeafRun env fl F w bs a t r') {F' : Family} (ha : a.alg.family = some F') (hF : F' = F ∨ a.clear = true) (hr : a.res = some r) :
    ContReady a.alg r t := by
  obtain ⟨k1, k2⟩ := leafRun_ready hw h ha hF hr
  obtain ⟨t0, B, c, -, -, -, hr', -, -, hgr⟩ := leafRun_call h hF
  have : r' = r := hr' r hr
  subst this
  refine ⟨k1, k2, ?_⟩
  have hst : (t0.gridAt env a.alg r' c.clear a.params c.border) = .ok t := congrArg Prod.fst hgr
  have := Tile.gridAt_alg (env := env) (t := t0) (alg := a.alg) (r := r') (clear := c.clear) (params := a.params) (border := c.border) (by rw [hst]; rfl)
  rw [hst] at this
  exact this

theorem cont_fill {alg : Alg} (ha : alg = .mean ∨ alg = .shoalest) (c : String) (nodata : Option ℚ) :
    ∃ v : Option ℚ, PlainCell alg [] v ∧ v.or nodata = Tile.nodataFor (.cont c) nodata := by
  refine ⟨none, ?_, rfl⟩
  rcases ha with rfl | rfl
  · exact ⟨fun _ => rfl, fun h => absurd rfl h⟩
  · exact ⟨fun _ => rfl, fun h => absurd rfl h⟩

/-- what a query for the container `c` shows: the surface of its soundings alone; for a name under which there are none a surface of `nodata`, and nothing at all if that is NaN -/
def ContainerShown (alg : Alg) (P : List Pt) (r : ℚ) (nodata : Option ℚ) (e : Extents) (o : Option (List LayerArr)) : Prop :=
  (P = [] ∧ nodata = none ∧ o = none) ∨ ((P ≠ [] ∨ nodata ≠ none) ∧ ∃ arr, o = some [arr] ∧ SurfaceOf (PlainCell alg) (fun v => v.or nodata) P r e arr)

theorem containerShown_of {alg : Alg} {P : List Pt} {r : ℚ} {nodata : Option ℚ} {e : Extents} {o : Option LayerArr} (h1 : o = none ↔ P = [] ∧ nodata = none)
    (h3 : ∀ arr, o = some arr → SurfaceOf (PlainCell alg) (fun v => v.or nodata) P r e arr) :
    ContainerShown alg P r nodata e (o.map (fun a => [a])) := by
  cases o with
  | none => exact Or.inl ⟨(h1.1 rfl).1, (h1.1 rfl).2, rfl⟩
  | some arr =>
    refine Or.inr ⟨?_, arr, rfl, h3 arr rfl⟩
    by_contra hh
    rw [not_or, not_not, not_not] at hh
    cases h1.2 hh

/-- **C120** (single resolution grids): after any sequence of calls, a `grid` call of all tiles by mean or shoalest, at a resolution that divides the tile size, makes `get_layers_by_name`
asked for a container return the surface of the soundings added under this name, whatever the other containers hold; `nodata` where it has no soundings.  The sign does not depend on
`z_positive_up`. -/
theorem C120_surface_sr (hs : 0 < size) {g : Grid Tile} (h : SRHistory env size bs fl F s g A) (ha : a.alg = .mean ∨ a.alg = .shoalest) (hF : F = .plain ∨ a.clear = true)
    (hv : a.regrid = .full ∨ a.clear = true) {r : ℚ} (hr : a.res = some r) {n : Nat} (hn : size = n * r) (hok : (g.gridWith env a dask).err = none)
    (c : String) (nodata : Option ℚ) (zUp : Bool) :
    ∃ e o, (g.gridWith env a dask).st.extents = some e ∧ ((g.gridWith env a dask).st.getLayersByName env [.cont c] (some r) nodata zUp).2 = .ok o ∧
      ContainerShown a.alg (A.ptsOf c) r nodata e o := by
  have hrp := pos_of_mul hs hn
  have hfam : a.alg.family = some .plain := by rcases ha with e | e <;> rw [e] <;> rfl
  have hF' : Family.plain = F ∨ a.clear = true := hF.imp Eq.symm id
  have h1 : SRHistory env size bs fl .plain s (g.gridWith env a dask).st A := history_after h hfam hF' hok
  obtain ⟨e, o, k1, k2, k3, k4⟩ := Grid.grow_showsOf (part_ptsOf c) (showsOf_cont ha hs hrp hn c nodata) (sr_inv hs h1).1 hs (store_ne (sr_inv hs h).1 hok)
    (fun u hu => by obtain ⟨r', -, hr'⟩ := (Grid.leaves_sr hs h hv hok).1 u hu; exact leafRun_cont hs hr' hfam hF' hr) hrp hn (cont_fill ha c nodata) zUp
  exact ⟨e, _, k1, k2, containerShown_of k3 k4⟩

/-- **C120** (variable resolution grids): the resolution divides the subtile size, which divides the tile size -/
theorem C120_surface_vr (hs : 0 < size) (hsub : isPowerOfTwo sub = true) {q : Nat} (hdiv : size = (q : ℚ) * sub) {g : Grid (Grid Tile)}
    (h : VRHistory env size sub bs fl F s g A) (ha : a.alg = .mean ∨ a.alg = .shoalest) (hF : F = .plain ∨ a.clear = true)
    (hv : a.regrid = .full ∨ a.clear = true) {r : ℚ} (hr : a.res = some r) {n : Nat} (hn : sub = n * r) (hok : (g.gridWith env a dask).err = none)
    (c : String) (nodata : Option ℚ) (zUp : Bool) :
    ∃ e o, (g.gridWith env a dask).st.extents = some e ∧ ((g.gridWith env a dask).st.getLayersByName env [.cont c] (some r) nodata zUp).2 = .ok o ∧
      ContainerShown a.alg (A.ptsOf c) r nodata e o := by
  have hsp := isPowerOfTwo_pos hsub
  have hrp := pos_of_mul hsp hn
  have hfam : a.alg.family = some .plain := by rcases ha with e | e <;> rw [e] <;> rfl
  have hF' : Family.plain = F ∨ a.clear = true := hF.imp Eq.symm id
  have h1 : VRHistory env size sub bs fl .plain s (g.gridWith env a dask).st A := history_after h hfam hF' hok
  have S := Grid.showsOf_sub (size := size) (bs := bs) (q := q) (part_ptsOf c) (showsOf_cont (env := env) (F := .plain) (bs := false) (fl := fl) (sub := 0) ha hsp hrp hn c nodata)
    (fun {x y t B} hrep hQ => by
      obtain ⟨-, hc, -⟩ := hQ t rfl
      show Except.ok (!t.cells.isEmpty) = _
      cases he : t.cells with
      | nil => rw [he] at hc; cases hc
      | cons p ps => rfl) hs hsub hdiv hrp hn (cont_fill ha c nodata)
  obtain ⟨e, o, k1, k2, k3, k4⟩ := Grid.grow_showsOf (part_ptsOf c) S (vr_inv hs hsub h1).1 hs (store_ne (vr_inv hs hsub h).1 hok)
    (fun u hu => by obtain ⟨r', -, hr'⟩ := (Grid.leaves_vr hs hsub h hv hok).1 u hu; exact leafRun_cont hsp hr' hfam hF' hr) hrp
    (by rw [hdiv, hn]; push_cast; ring) (cont_fill ha c nodata) zUp
  exact ⟨e, _, k1, k2, containerShown_of k3 k4⟩

/-- the cells of a layer that are not blank: value and flat index -/
private def marked (a : LayerArr) : List (Option ℚ × Nat) := a.flat.zipIdx.filter (fun q => q.1.isSome)

/-- a container added after the last `grid` call has no cell numbers yet, and asking for it raises: the `grid` call of `C120_surface_sr` is needed.  The containers that were there
before are still shown. -/
theorem C120_not_gridded : ∃ g A, SRHistory demoEnv 16 false demoFields .plain false g A ∧ A.names = ["b", "c", "d"] ∧
    ((g.getLayersByName demoEnv [.cont "d"] (some 8) none true).2.toOption = none) ∧
    (match (g.getLayersByName demoEnv [.cont "c"] (some 8) none true).2 with
      | .ok (some [a]) => marked a == [(some 9, 34), (some 40, 78)]
      | _ => false) = true := by
  refine ⟨_, _, demoSRg_history.add [⟨20, 21, 50, 1, 1⟩] "d" {} (by decide +kernel), ?_⟩
  decide +kernel

/-- the hypotheses of `C120_surface_sr` and the surfaces it promises: "b" alone, although the cells of "c" have soundings too; not turned upside down -/
example : SRHistory demoEnv 16 false demoFields .plain false demoSR demoStore ∧ (demoSR.gridWith demoEnv { alg := .mean, res := some 8 } none).err = none ∧
    (match (demoSRg.getLayersByName demoEnv [.cont "b"] (some 8) none true).2 with
      | .ok (some [a]) => a.rows == 12 && a.cols == 12 && a.get? 0 4 == some (some (25/2)) && a.get? 2 6 == some none
      | _ => false) = true ∧
    (match (demoSRg.getLayersByName demoEnv [.depth] (some 8) none true).2 with
      | .ok (some [a]) => a.rows == 12 && a.cols == 12 && a.get? 0 4 == some (some (-25/2)) && a.get? 2 6 == some (some (-9))
      | _ => false) = true := by
  refine ⟨demoSR_history, ?_⟩
  decide +kernel

/-- the hypotheses of `C120_surface_vr`; a removed container has no soundings, and without a `nodata` there is no array -/
example : VRHistory demoEnv 32 16 false demoFields .plain false demoVR demoStore ∧ (demoVR.gridWith demoEnv { alg := .mean, res := some 8 } none).err = none ∧
    (match (demoVRg.getLayersByName demoEnv [.cont "c"] (some 8) none false).2 with
      | .ok (some [a]) => a.rows == 16 && a.cols == 16 && a.get? 2 6 == some (some 9)
      | _ => false) = true ∧
    (match (demoVRg.getLayersByName demoEnv [.cont "a"] (some 8) none false).2 with | .ok none => true | _ => false) = true ∧
    (match (demoVRg.getLayersByName demoEnv [.cont "a"] (some 8) (some 5) false).2 with
      | .ok (some [a]) => a.flat.all (fun v => v == some 5)
      | _ => false) = true := by
  refine ⟨demoVR_history, ?_⟩
  decide +kernel

end Bathy
