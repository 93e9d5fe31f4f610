import Verif.Lemmas.StatsLattice
import Verif.Props.Backscatter

/-!
# C71-C74: the statistics of the cells of a whole grid

Model: `HasStats` (bathygrid/tile.py:96-234, 843-873, bathygrid/bgrid.py:209-311, 1900-1919).
Spec: the squares `[i·r, (i+1)·r) × [j·r, (j+1)·r)` of the plane that hold soundings (`latticeCells`), and the soundings in each (`inLattice`).

The theorems are about the state after a call `grid(…, clear_existing=True)` that returns normally, made in any reachable state.
-/

namespace Bathy
open Grid

variable {env : Env} {size sub : ℚ} {bs : Bool} {fl : Fields} {F F' : Family} {s : Bool} {A : Store}

/-! ## C71 -/

theorem pos_of_mul {n : Nat} {r w : ℚ} (hw : 0 < w) (h : w = n * r) : 0 < r := by
  by_contra hneg
  have : (n : ℚ) * r ≤ 0 := mul_nonpos_of_nonneg_of_nonpos (by positivity) (not_lt.1 hneg)
  linarith

/-- **C71** (single resolution), the part that holds: after a call with `clear_existing`, `density_count` lists positive numbers that add up to the number
of soundings.  When the grid has one resolution `r` that divides the tile size, the list has one number for each square of the lattice that
holds soundings, the number of soundings in it; `density_per_square_meter` is the list divided by `r²`, and `return_layer_values('density')` is the same list.
Missing: calls without `clear_existing`, after which the soundings are counted once for each resolution, see `C71_violated`. -/
theorem C71_density_count_sr_partial (hs : 0 < size) {g : Grid Tile} (h : SRHistory env size bs fl F s g A) {a : GridCall} {dask : Option Nat}
    (ha : a.alg.family = some F') (hc : a.clear = true) (hok : (g.gridWith env a dask).err = none) :
    ∃ L, HasStats.densityCount (g.gridWith env a dask).st = .ok L ∧ L.sum = (A.allPts.length : ℚ) ∧ (∀ v ∈ L, 0 < v) ∧
      HasStats.layerValues (g.gridWith env a dask).st .density = .ok L ∧
      ∀ (r : ℚ) (n : Nat), (g.gridWith env a dask).st.resolutions = [r] → size = n * r →
        L.Perm ((latticeCells r A.allPts).map (fun k => ((inLattice r A.allPts k).length : ℚ))) ∧
        HasStats.densityPerSquareMeter (g.gridWith env a dask).st = .ok (L.map (fun v => v / r ^ 2)) := by
  have h' := h.switch a ha hc dask hok
  have hall := allCleared_sr hs h ha hc hok
  generalize (g.gridWith env a dask).st = g' at h' hall ⊢
  refine ⟨(LeafList.leaves g').flatMap (fun t => cellNumbers size t (oneRes t)), extend_sr (fun t ht => (hall t ht).2.densityCount), ?_, AllCleared.pos,
    extend_sr (fun t ht => (hall t ht).2.densityValues), ?_⟩
  · rw [hall.sum, ← all_leaves_sr, (C01_conservation_sr hs h').2.1.length_eq]
  · intro r n hr hn
    rw [hr] at hall
    have hrp := pos_of_mul hs hn
    have hl := lattice_sr hs h' hrp hn
    subst hn
    refine ⟨hall.lattice hl, ?_⟩
    rw [List.map_flatMap]
    refine extend_sr (fun t ht => ?_)
    rw [(hall.single t ht).1]
    exact (hall.single t ht).2.densityPerSquareMeter

/-- **C71** (variable resolution), the part that holds: as `C71_density_count_sr_partial`. -/
theorem C71_density_count_vr_partial (hs : 0 < size) (hsub : isPowerOfTwo sub = true) {g : Grid (Grid Tile)} (h : VRHistory env size sub bs fl F s g A) {a : GridCall}
    {dask : Option Nat} (ha : a.alg.family = some F') (hc : a.clear = true) (hok : (g.gridWith env a dask).err = none) :
    ∃ L, HasStats.densityCount (g.gridWith env a dask).st = .ok L ∧ L.sum = (A.allPts.length : ℚ) ∧ (∀ v ∈ L, 0 < v) ∧
      HasStats.layerValues (g.gridWith env a dask).st .density = .ok L ∧
      ∀ (r : ℚ) (n m : Nat), (g.gridWith env a dask).st.resolutions = [r] → sub = n * r → size = m * sub →
        L.Perm ((latticeCells r A.allPts).map (fun k => ((inLattice r A.allPts k).length : ℚ))) ∧
        HasStats.densityPerSquareMeter (g.gridWith env a dask).st = .ok (L.map (fun v => v / r ^ 2)) := by
  have h' := h.switch a ha hc dask hok
  have hall := allCleared_vr hs hsub h ha hc hok
  have hsp := isPowerOfTwo_pos hsub
  generalize (g.gridWith env a dask).st = g' at h' hall ⊢
  refine ⟨(LeafList.leaves g').flatMap (fun t => cellNumbers sub t (oneRes t)), extend_vr (fun t ht => (hall t ht).2.densityCount), ?_, AllCleared.pos,
    extend_vr (f := fun t => t.layerValues .density) (fun t ht => (hall t ht).2.densityValues), ?_⟩
  · rw [hall.sum, ← all_leaves_vr, (C01_conservation_vr hs hsub h').2.1.length_eq]
  · intro r n m hr hn hm
    rw [hr] at hall
    have hrp := pos_of_mul hsp hn
    have hl := lattice_vr hs hsub h' hrp hn hm
    rw [hn] at hall ⊢
    refine ⟨hall.lattice hl, ?_⟩
    rw [List.map_flatMap]
    refine extend_vr (fun t ht => ?_)
    rw [(hall.single t ht).1]
    exact (hall.single t ht).2.densityPerSquareMeter

def statCall : GridCall := { alg := .mean, res := some 8, clear := true }

/-- the hypotheses are met: five soundings in four cells of 8 m -/
example : HasStats.densityCount (demoSR.gridWith demoEnv statCall none).st = .ok [2, 1, 1, 1] ∧ demoStore.allPts.length = 5 ∧
    (latticeCells 8 demoStore.allPts).length = 4 ∧ (demoSR.gridWith demoEnv statCall none).err = none ∧ (demoSR.gridWith demoEnv statCall none).st.resolutions = [8] ∧ (16 : ℚ) = (2 : Nat) * 8 := by
  decide +kernel
example : HasStats.densityCount (demoVR.gridWith demoEnv statCall (some 2)).st = .ok [2, 1, 1, 1] ∧ (demoVR.gridWith demoEnv statCall (some 2)).err = none ∧
    (demoVR.gridWith demoEnv statCall (some 2)).st.resolutions = [8] ∧ (16 : ℚ) = (2 : Nat) * 8 ∧ (32 : ℚ) = (2 : Nat) * 16 := by
  decide +kernel

/-- **C71** is false without `clear_existing`: the grid was gridded at 2 m, soundings were removed and added, and it was gridded at 8 m.  Tiles that hold
both resolutions are counted twice: nine are counted where there are five. -/
theorem C71_violated : ∃ g A L, SRHistory demoEnv 16 false demoFields .plain false g A ∧ g.resolutions = [8] ∧ HasStats.densityCount g = .ok L ∧ L.sum ≠ (A.allPts.length : ℚ) := by
  refine ⟨demoSRg, demoStore, [1, 1, 1, 2, 1, 1, 1, 1], demoSRg_history, by decide +kernel, ?_, ?_⟩ <;> decide +kernel

/-! ## C72 -/

theorem round3_exact {v : ℚ} {k : ℤ} (h : v * 1000 = k) : round3 v = v := by
  unfold round3
  simp only [h, Int.floor_intCast, sub_self]
  rw [if_pos (by norm_num), ← h]
  ring

theorem sum_near (Ls : List Tile) (f : Tile → Nat) (r : ℚ) :
    |(Ls.map (fun t => round3 ((f t : ℚ) * r ^ 2))).sum - ((Ls.map f).sum : ℚ) * r ^ 2| ≤ (Ls.length : ℚ) / 2000 := by
  induction Ls with
  | nil => simp
  | cons t Ls ih =>
    have h1 := (C17_rounding ((f t : ℚ) * r ^ 2)).2
    rw [abs_le] at ih h1 ⊢
    simp only [List.map_cons, List.sum_cons, List.length_cons]
    push_cast at ih ⊢
    constructor <;> nlinarith [ih.1, ih.2, h1.1, h1.2]

theorem sum_exact (Ls : List Tile) (f : Tile → Nat) {r : ℚ} {k : ℤ} (hk : r ^ 2 * 1000 = k) :
    (Ls.map (fun t => round3 ((f t : ℚ) * r ^ 2))).sum = ((Ls.map f).sum : ℚ) * r ^ 2 := by
  induction Ls with
  | nil => simp
  | cons t Ls ih =>
    have h1 : round3 ((f t : ℚ) * r ^ 2) = (f t : ℚ) * r ^ 2 := round3_exact (k := f t * k) (by push_cast; rw [← hk]; ring)
    simp only [List.map_cons, List.sum_cons]
    rw [ih, h1]
    push_cast
    ring

theorem sum_div (l : List Tile) (f : Tile → ℚ) (c : ℚ) : (l.map (fun t => f t / c)).sum = (l.map f).sum / c := by
  induction l with
  | nil => simp
  | cons a l ih => rw [List.map_cons, List.map_cons, List.sum_cons, List.sum_cons, ih]; ring

/-- the areas of the tiles, in both units -/
theorem area_of {alg : Alg} {n : Nat} {Ls : List Tile} {r : ℚ} {P : List Pt} (h : AllCleared alg F' bs (n * r) Ls [r]) (hl : OnLattice r n Ls P) :
    ∃ f : Tile → ℚ, (∀ t ∈ Ls, t.coverageArea = .ok (f t) ∧ HasStats.coverageAreaNm t = .ok (f t / (3434290012 / 1000))) ∧
      |(Ls.map f).sum - ((latticeCells r P).length : ℚ) * r ^ 2| ≤ (Ls.length : ℚ) / 2000 ∧
      (∀ k : ℤ, r ^ 2 * 1000 = k → (Ls.map f).sum = ((latticeCells r P).length : ℚ) * r ^ 2) := by
  have hcov : ∀ t ∈ Ls, t.coverageArea = .ok (round3 (((occupied n t.minX t.minY r t.pts).length : ℚ) * r ^ 2)) := by
    intro t ht
    have := (h.single t ht).2.coverageArea
    rwa [ncells_mul hl.pos] at this
  refine ⟨fun t => round3 (((occupied n t.minX t.minY r t.pts).length : ℚ) * r ^ 2), ?_, ?_, ?_⟩
  · intro t ht
    refine ⟨hcov t ht, ?_⟩
    show (match t.coverageArea with | .ok a => Except.ok (a / (3434290012 / 1000)) | .error e => .error e) = _
    rw [hcov t ht]
  · rw [← hl.count]
    exact sum_near Ls (fun t => (occupied n t.minX t.minY r t.pts).length) r
  · intro k hk
    rw [← hl.count]
    exact sum_exact Ls (fun t => (occupied n t.minX t.minY r t.pts).length) hk

theorem oneCount_lattice {n : Nat} {Ls : List Tile} {r : ℚ} {P : List Pt} (hl : OnLattice r n Ls P) (hne : Ls ≠ []) :
    oneCount r (Ls.map (fun t => (occupied n t.minX t.minY r t.pts).length)) = [(r, (latticeCells r P).length)] := by
  unfold oneCount
  rw [if_neg (by simpa using hne), hl.count]

/-- a grid with a resolution has tiles -/
theorem leaves_ne_sr (hs : 0 < size) {g : Grid Tile} (h : SRHistory env size bs fl F s g A) {a : GridCall} {dask : Option Nat} (ha : a.alg.family = some F') (hc : a.clear = true)
    (hok : (g.gridWith env a dask).err = none) {r : ℚ} (hr : (g.gridWith env a dask).st.resolutions = [r]) : LeafList.leaves (g.gridWith env a dask).st ≠ [] := by
  obtain ⟨t, ⟨i, j, t', ht, -⟩, -⟩ := (leaves_sr hs h (Or.inr hc) hok).2 r (by rw [hr]; exact List.mem_singleton.2 rfl)
  rw [leaves_tiles]
  exact List.ne_nil_of_mem ((mem_present (sr_wf hs (h.switch a ha hc dask hok))).2 ⟨i, j, ht⟩)

theorem leaves_ne_vr (hs : 0 < size) (hsub : isPowerOfTwo sub = true) {g : Grid (Grid Tile)} (h : VRHistory env size sub bs fl F s g A) {a : GridCall} {dask : Option Nat}
    (ha : a.alg.family = some F') (hc : a.clear = true) (hok : (g.gridWith env a dask).err = none) {r : ℚ} (hr : (g.gridWith env a dask).st.resolutions = [r]) :
    LeafList.leaves (g.gridWith env a dask).st ≠ [] := by
  obtain ⟨t, ⟨i, j, u, hu, i', j', t', ht, -⟩, -⟩ := (leaves_vr hs hsub h (Or.inr hc) hok).2 r (by rw [hr]; exact List.mem_singleton.2 rfl)
  obtain ⟨k1, k2⟩ := vr_wf hs hsub (h.switch a ha hc dask hok)
  have h1 := (mem_present k1).2 ⟨i, j, hu⟩
  have h2 := (mem_present (k2 i j u hu)).2 ⟨i', j', ht⟩
  rw [← leaves_tiles] at h2
  exact List.ne_nil_of_mem (mem_leaves_sub h1 h2)

/-- **C72** (single resolution), the part that holds: after a call with `clear_existing` that leaves one resolution `r` dividing the tile size,
`coverage_area_square_meters` is the area of the squares of the lattice that hold soundings, up to 0.0005 for each tile, and exactly when `1000·r²` is an integer
(all resolutions of 0.5 m and more; 0.25 m is not among them); `coverage_area_square_nm` is that divided by 3434290.012, and `cell_count` (algorithms 'mean' and
'shoalest') is the number of these squares.
Missing: finer resolutions, see `C72_violated`; a square nautical mile of 1852² m², see `C72_mile_violated`; calls without `clear_existing` (C71). -/
theorem C72_coverage_sr_partial (hs : 0 < size) {g : Grid Tile} (h : SRHistory env size bs fl F s g A) {a : GridCall} {dask : Option Nat}
    (ha : a.alg.family = some F') (hc : a.clear = true) (hok : (g.gridWith env a dask).err = none) {r : ℚ} {n : Nat}
    (hr : (g.gridWith env a dask).st.resolutions = [r]) (hn : size = n * r) :
    ∃ v, HasStats.coverageArea (g.gridWith env a dask).st = .ok v ∧ HasStats.coverageAreaNm (g.gridWith env a dask).st = .ok (v / (3434290012 / 1000)) ∧
      |v - ((latticeCells r A.allPts).length : ℚ) * r ^ 2| ≤ ((g.gridWith env a dask).st.present.length : ℚ) / 2000 ∧
      (∀ k : ℤ, r ^ 2 * 1000 = k → v = ((latticeCells r A.allPts).length : ℚ) * r ^ 2) ∧
      (F' = .plain → HasStats.cellCount (g.gridWith env a dask).st = .ok [(r, (latticeCells r A.allPts).length)]) := by
  have h' := h.switch a ha hc dask hok
  have hall := allCleared_sr hs h ha hc hok
  have hne := leaves_ne_sr hs h ha hc hok hr
  generalize (g.gridWith env a dask).st = g' at h' hall hr hne ⊢
  rw [hr] at hall
  have hl := lattice_sr hs h' (pos_of_mul hs hn) hn
  subst hn
  obtain ⟨f, h1, h2, h3⟩ := area_of hall hl
  refine ⟨((LeafList.leaves g').map f).sum, add_sr (fun t ht => (h1 t ht).1), ?_, ?_, h3, ?_⟩
  · rw [← sum_div]
    exact add_sr (fun t ht => (h1 t ht).2)
  · rw [leaves_tiles] at h2 ⊢
    exact h2
  · rintro rfl
    rw [count_sr (r := r) (fun t ht => (hall.single t ht).2.cellCount), ncells_mul hl.pos, oneCount_lattice hl hne]

/-- **C72** (variable resolution), the part that holds: as `C72_coverage_sr_partial`. -/
theorem C72_coverage_vr_partial (hs : 0 < size) (hsub : isPowerOfTwo sub = true) {g : Grid (Grid Tile)} (h : VRHistory env size sub bs fl F s g A) {a : GridCall}
    {dask : Option Nat} (ha : a.alg.family = some F') (hc : a.clear = true) (hok : (g.gridWith env a dask).err = none) {r : ℚ} {n m : Nat}
    (hr : (g.gridWith env a dask).st.resolutions = [r]) (hn : sub = n * r) (hm : size = m * sub) :
    ∃ v, HasStats.coverageArea (g.gridWith env a dask).st = .ok v ∧ HasStats.coverageAreaNm (g.gridWith env a dask).st = .ok (v / (3434290012 / 1000)) ∧
      |v - ((latticeCells r A.allPts).length : ℚ) * r ^ 2| ≤ ((LeafList.leaves (g.gridWith env a dask).st).length : ℚ) / 2000 ∧
      (∀ k : ℤ, r ^ 2 * 1000 = k → v = ((latticeCells r A.allPts).length : ℚ) * r ^ 2) ∧
      (F' = .plain → HasStats.cellCount (g.gridWith env a dask).st = .ok [(r, (latticeCells r A.allPts).length)]) := by
  have h' := h.switch a ha hc dask hok
  have hall := allCleared_vr hs hsub h ha hc hok
  have hne := leaves_ne_vr hs hsub h ha hc hok hr
  generalize (g.gridWith env a dask).st = g' at h' hall hr hne ⊢
  rw [hr] at hall
  have hl := lattice_vr hs hsub h' (pos_of_mul (isPowerOfTwo_pos hsub) hn) hn hm
  rw [hn] at hall
  obtain ⟨f, h1, h2, h3⟩ := area_of hall hl
  refine ⟨((LeafList.leaves g').map f).sum, add_vr (fun t ht => (h1 t ht).1), ?_, h2, h3, ?_⟩
  · rw [← sum_div]
    exact add_vr (fun t ht => (h1 t ht).2)
  · rintro rfl
    rw [count_vr (r := r) (fun t ht => (hall.single t ht).2.cellCount), ncells_mul hl.pos, oneCount_lattice hl hne]

/-- the hypotheses are met: four cells of 64 m² -/
example : HasStats.coverageArea (demoSR.gridWith demoEnv statCall none).st = .ok 256 ∧ HasStats.cellCount (demoSR.gridWith demoEnv statCall none).st = .ok [(8, 4)] ∧
    ((8 : ℚ) ^ 2 * 1000 = (64000 : ℤ)) := by decide +kernel
example : HasStats.coverageArea (demoVR.gridWith demoEnv statCall none).st = .ok 256 ∧ HasStats.cellCount (demoVR.gridWith demoEnv statCall none).st = .ok [(8, 4)] := by decide +kernel

/-- **C72** is false at 0.25 m: five cells of 0.0625 m² in four tiles are 0.3125 m², the grid says 0.311 m² (the areas are rounded tile by tile). -/
theorem C72_violated : ∃ g A v, SRHistory demoEnv 16 false demoFields .plain false g A ∧ g.resolutions = [1/4] ∧ HasStats.coverageArea g = .ok v ∧
    v ≠ ((latticeCells (1/4) A.allPts).length : ℚ) * (1/4) ^ 2 ∧ round3 v ≠ round3 (((latticeCells (1/4) A.allPts).length : ℚ) * (1/4) ^ 2) :=
  ⟨_, demoStore, 311 / 1000, demoSR_history.grid { alg := .mean, res := some (1/4), clear := true } rfl none, by decide +kernel, by decide +kernel, by decide +kernel, by decide +kernel⟩

/-- **C72** is false for square nautical miles of 1852² m²: the divisor is that of a mile of about 1853.18 m, whatever the grid. -/
theorem C72_mile_violated {g : Grid Tile} {v w : ℚ} (h1 : HasStats.coverageArea g = .ok v) (h2 : HasStats.coverageAreaNm g = .ok w) (hv : v ≠ 0) : w * 1852 ^ 2 ≠ v := by
  have h1' : g.addAll (fun t => Tile.coverageArea t) = .ok v := h1
  have key : HasStats.coverageAreaNm g = .ok (v / (3434290012 / 1000)) := by
    show g.addAll HasStats.coverageAreaNm = _
    unfold Grid.addAll at h1' ⊢
    have gen : ∀ (l : List Tile) (vs : List ℚ), l.mapM (fun t => Tile.coverageArea t) = .ok vs → l.mapM (HasStats.coverageAreaNm (τ := Tile)) = .ok (vs.map (fun x => x / (3434290012 / 1000))) := by
      intro l
      induction l with
      | nil => intro vs h; cases h; rfl
      | cons t l ih =>
        intro vs h
        rw [List.mapM_cons] at h
        cases ht : t.coverageArea with
        | error e => rw [ht] at h; cases h
        | ok x =>
          rw [ht] at h
          cases hl : l.mapM (fun t => Tile.coverageArea t) with
          | error e => rw [hl] at h; cases h
          | ok xs =>
            rw [hl] at h; cases h
            have e : HasStats.coverageAreaNm t = .ok (x / (3434290012 / 1000)) := by
              show (match t.coverageArea with | .ok a => Except.ok (a / (3434290012 / 1000)) | .error e => .error e) = _
              rw [ht]
            rw [List.mapM_cons, e, ih xs hl]
            rfl
    cases hp : g.present.mapM (fun t => Tile.coverageArea t) with
    | error e => rw [hp] at h1'; cases h1'
    | ok vs =>
      rw [hp] at h1'; cases h1'
      rw [gen _ _ hp]
      simp only [Except.ok.injEq]
      clear hp h1 h2 hv gen
      induction vs with
      | nil => simp
      | cons a l ih => rw [List.map_cons, List.sum_cons, List.sum_cons, ih]; ring
  rw [key] at h2
  cases h2
  intro h
  apply hv
  have : v * (1852 ^ 2 - 3434290012 / 1000) = 0 := by linarith
  rcases mul_eq_zero.1 this with h | h
  · exact h
  · norm_num at h

/-- a grid that meets the hypotheses of `C72_mile_violated` -/
example : HasStats.coverageArea (demoSR.gridWith demoEnv statCall none).st = .ok 256 ∧ HasStats.coverageAreaNm (demoSR.gridWith demoEnv statCall none).st = .ok (256 / (3434290012 / 1000)) := by
  decide +kernel

/-! ## C73 -/

/-- pairs of a number of soundings, divided by `area`, and a depth, for each square of the lattice that holds soundings -/
def DensityDepths (alg : Alg) (area r : ℚ) (pts : List Pt) (L : List (ℚ × Option ℚ)) : Prop :=
  ∃ cs, cs.Perm (latticeCells r pts) ∧
    List.Forall₂ (fun q k => q.1 = ((inLattice r pts k).length : ℚ) / area ∧ PlainCell alg (inLattice r pts k) q.2) L cs

theorem depths_of {alg : Alg} {n : Nat} {Ls : List Tile} {r : ℚ} {P : List Pt} (h : AllCleared alg .plain false (n * r) Ls [r]) (hl : OnLattice r n Ls P) (area : ℚ → ℚ) :
    ∃ f : Tile → List (ℚ × Option ℚ),
      (∀ t ∈ Ls, t.vsDepth area = .ok (f t)) ∧
      DensityDepths alg (area r) r P (Ls.flatMap f) := by
  let f : Tile → List (ℚ × Option ℚ) := fun t =>
    match t.vsDepth area with
    | .ok l => l | .error _ => []
  have hf : ∀ t ∈ Ls, ∃ l, t.vsDepth area = .ok l ∧ f t = l ∧
      List.Forall₂ (fun q rc => q.1 = ((inCell t.minX t.minY r rc.1 rc.2 t.pts).length : ℚ) / area r ∧ PlainCell alg (inCell t.minX t.minY r rc.1 rc.2 t.pts) q.2) l
        (occupied n t.minX t.minY r t.pts) := by
    intro t ht
    obtain ⟨l, h1, h2⟩ := (h.single t ht).2.countDepth area
    rw [ncells_mul hl.pos] at h2
    refine ⟨l, h1, ?_, h2⟩
    show (match t.vsDepth area with
    | .ok l => l | .error _ => []) = l
    rw [h1]
  refine ⟨f, ?_, ?_⟩
  · intro t ht
    obtain ⟨l, h1, h2, -⟩ := hf t ht
    rw [h1, h2]
  · refine hl.values (R := fun ps (q : ℚ × Option ℚ) => q.1 = (ps.length : ℚ) / area r ∧ PlainCell alg ps q.2) ?_ ?_
    · rintro ps ps' v hp ⟨h1, h2⟩
      exact ⟨by rw [h1, hp.length_eq], plainCell_perm hp h2⟩
    · intro t ht
      obtain ⟨l, -, h2, h3⟩ := hf t ht
      rw [h2]
      exact h3

/-- **C73** (single resolution), the part that holds: for grids of depths gridded with 'mean' or 'shoalest' and `clear_existing`, at one resolution `r` that divides
the tile size, `density_count_vs_depth` pairs, for each square of the lattice that holds soundings, their number with the mean or least depth of just these soundings, rounded;
`density_per_square_meter_vs_depth` the same with the number divided by `r²`.
Missing: backscatter grids, where both raise ValueError, see `C73_fails_backscatter`; CUBE, whose depths are not specified. -/
theorem C73_density_depth_sr_partial (hs : 0 < size) {g : Grid Tile} (h : SRHistory env size false fl F s g A) {a : GridCall} {dask : Option Nat}
    (ha : a.alg.family = some .plain) (hc : a.clear = true) (hok : (g.gridWith env a dask).err = none) {r : ℚ} {n : Nat}
    (hr : (g.gridWith env a dask).st.resolutions = [r]) (hn : size = n * r) :
    (∃ L, HasStats.densityCountVsDepth (g.gridWith env a dask).st = .ok L ∧ DensityDepths a.alg 1 r A.allPts L) ∧
    (∃ L, HasStats.densityPerSquareMeterVsDepth (g.gridWith env a dask).st = .ok L ∧ DensityDepths a.alg (r ^ 2) r A.allPts L) := by
  have h' := h.switch a ha hc dask hok
  have hall := allCleared_sr hs h ha hc hok
  generalize (g.gridWith env a dask).st = g' at h' hall hr ⊢
  rw [hr] at hall
  have hl := lattice_sr hs h' (pos_of_mul hs hn) hn
  subst hn
  constructor
  · obtain ⟨f, h1, h2⟩ := depths_of hall hl (fun _ => 1)
    exact ⟨_, extend_sr h1, h2⟩
  · obtain ⟨f, h1, h2⟩ := depths_of hall hl (fun r => r ^ 2)
    exact ⟨_, extend_sr h1, h2⟩

/-- **C73** (variable resolution, also those created for backscatter, whose tiles hold depths, see C63): as `C73_density_depth_sr_partial`. -/
theorem C73_density_depth_vr_partial (hs : 0 < size) (hsub : isPowerOfTwo sub = true) {g : Grid (Grid Tile)} (h : VRHistory env size sub bs fl F s g A) {a : GridCall}
    {dask : Option Nat} (ha : a.alg.family = some .plain) (hc : a.clear = true) (hok : (g.gridWith env a dask).err = none) {r : ℚ} {n m : Nat}
    (hr : (g.gridWith env a dask).st.resolutions = [r]) (hn : sub = n * r) (hm : size = m * sub) :
    (∃ L, HasStats.densityCountVsDepth (g.gridWith env a dask).st = .ok L ∧ DensityDepths a.alg 1 r A.allPts L) ∧
    (∃ L, HasStats.densityPerSquareMeterVsDepth (g.gridWith env a dask).st = .ok L ∧ DensityDepths a.alg (r ^ 2) r A.allPts L) := by
  have h' := h.switch a ha hc dask hok
  have hall := allCleared_vr hs hsub h ha hc hok
  generalize (g.gridWith env a dask).st = g' at h' hall hr ⊢
  rw [hr] at hall
  have hl := lattice_vr hs hsub h' (pos_of_mul (isPowerOfTwo_pos hsub) hn) hn hm
  rw [hn] at hall
  constructor
  · obtain ⟨f, h1, h2⟩ := depths_of hall hl (fun _ => 1)
    exact ⟨_, extend_vr h1, h2⟩
  · obtain ⟨f, h1, h2⟩ := depths_of hall hl (fun r => r ^ 2)
    exact ⟨_, extend_vr h1, h2⟩

/-- the hypotheses are met -/
example : HasStats.densityCountVsDepth (demoSR.gridWith demoEnv statCall none).st = .ok [(2, some (25 / 2)), (1, some 9), (1, some 40), (1, some 14)] ∧
    HasStats.densityPerSquareMeterVsDepth (demoVR.gridWith demoEnv statCall none).st = .ok [(1 / 32, some (25 / 2)), (1 / 64, some 9), (1 / 64, some 40), (1 / 64, some 14)] := by
  decide +kernel

theorem densityDepth_none {area : ℚ} {ls : Dict Layer LayerArr} (h : ls.get? .depth = none) : Tile.densityDepth area ls = .error .valueError := by
  unfold Tile.densityDepth
  rw [h]
  cases ls.get? .density <;> rfl

theorem mapM_value_error {α β : Type} {f : α → Except Err β} : ∀ {l : List α}, (∀ a ∈ l, (∃ b, f a = .ok b) ∨ f a = .error .valueError) → (∃ a ∈ l, f a = .error .valueError) →
    l.mapM f = .error .valueError := by
  intro l
  induction l with
  | nil => rintro - ⟨a, ha, -⟩; cases ha
  | cons a l ih =>
    rintro h ⟨b, hb, he⟩
    rw [List.mapM_cons]
    rcases h a List.mem_cons_self with ⟨x, hx⟩ | hx
    · rw [hx]
      rcases List.mem_cons.1 hb with rfl | hb
      · rw [hx] at he; cases he
      · rw [show (Except.ok x >>= fun r => do let rs ← l.mapM f; pure (r :: rs) : Except Err (List β)) = (do let rs ← l.mapM f; pure (x :: rs)) from rfl,
          ih (fun c hc => h c (List.mem_cons_of_mem _ hc)) ⟨b, hb, he⟩]
        rfl
    · rw [hx]; rfl

theorem countDepth_backscatter {t : Tile} (area : ℚ → ℚ) (h : ∀ p ∈ t.cells, Dict.get? p.2 .depth = none) :
    t.vsDepth area =
      if t.cells = [] then .ok [] else .error Err.valueError := by
  unfold Tile.vsDepth
  cases hc : t.cells with
  | nil => rfl
  | cons p l =>
    rw [hc] at h
    rw [List.mapM_cons, densityDepth_none (h p List.mem_cons_self)]
    simp only [reduceCtorEq, if_false]
    rfl

/-- **C73** fails for all gridded backscatter grids: as soon as one tile of a single resolution grid created with `is_backscatter=True` has been gridded,
`density_count_vs_depth` and `density_per_square_meter_vs_depth` raise ValueError ('No depth layer found'). -/
theorem C73_fails_backscatter (hs : 0 < size) {g : Grid Tile} (h : SRHistory env size true fl F s g A) (hg : ∃ i j t, g.TileAt i j t ∧ t.cells ≠ []) :
    HasStats.densityCountVsDepth g = .error .valueError ∧ HasStats.densityPerSquareMeterVsDepth g = .error .valueError := by
  have hwf := sr_wf hs h
  have hno : ∀ t ∈ g.present, ∀ p ∈ t.cells, Dict.get? p.2 .depth = none := by
    intro t ht p hp
    obtain ⟨i, j, ht⟩ := (mem_present hwf).1 ht
    obtain ⟨a, b, e, -, -, -, hrep, -⟩ := tileAt_rep (sr_inv hs h).1 ht
    have hci := (history_cells hs hrep.1).1
    have := C63_intensity_sr hs h ht p.1 p.2 (Dict.get?_of_mem t.cells hci hp)
    exact this.2
  obtain ⟨i, j, t, ht, hne⟩ := hg
  have hmem := (mem_present hwf).2 ⟨i, j, ht⟩
  have key : ∀ area : ℚ → ℚ, g.extendAll (Tile.vsDepth area) = .error .valueError := by
    intro area
    unfold Grid.extendAll
    rw [mapM_value_error]
    · intro u hu
      rw [countDepth_backscatter area (hno u hu)]
      split
      · exact Or.inl ⟨_, rfl⟩
      · exact Or.inr rfl
    · exact ⟨t, hmem, by rw [countDepth_backscatter area (hno t hmem), if_neg hne]⟩
  exact ⟨key (fun _ => 1), key (fun r => r ^ 2)⟩

/-- the hypotheses are met -/
example : ∃ i j t, backSR.TileAt i j t ∧ t.cells ≠ [] := by
  obtain ⟨t, ht, h⟩ := exists_tileAt_any (g := backSR) (r := 0) (c := 0) (fun t : Tile => !t.cells.isEmpty) (by decide +kernel)
  exact ⟨0, 0, t, ht, by intro he; rw [he] at h; cases h⟩

/-! ## C74 -/

theorem mainValues_of {alg : Alg} {n : Nat} {Ls : List Tile} {r : ℚ} {P : List Pt} (h : AllCleared alg .plain bs (n * r) Ls [r]) (hl : OnLattice r n Ls P) :
    ∃ f : Tile → List ℚ, (∀ t ∈ Ls, t.layerValues (mainLayer bs) = .ok (f t)) ∧
      ∃ cs, cs.Perm (latticeCells r P) ∧ List.Forall₂ (fun v k => PlainCell alg (inLattice r P k) (some v)) (Ls.flatMap f) cs := by
  let f : Tile → List ℚ := fun t => match t.layerValues (mainLayer bs) with | .ok l => l | .error _ => []
  have hf : ∀ t ∈ Ls, ∃ l, t.layerValues (mainLayer bs) = .ok l ∧ f t = l ∧
      List.Forall₂ (fun v rc => PlainCell alg (inCell t.minX t.minY r rc.1 rc.2 t.pts) (some v)) l (occupied n t.minX t.minY r t.pts) := by
    intro t ht
    obtain ⟨l, h1, h2⟩ := (h.single t ht).2.mainValues
    rw [ncells_mul hl.pos] at h2
    refine ⟨l, h1, ?_, h2⟩
    show (match t.layerValues (mainLayer bs) with | .ok l => l | .error _ => []) = l
    rw [h1]
  refine ⟨f, ?_, ?_⟩
  · intro t ht
    obtain ⟨l, h1, h2, -⟩ := hf t ht
    rw [h1, h2]
  · refine hl.values (R := fun ps (v : ℚ) => PlainCell alg ps (some v)) (fun ps ps' v hp h => plainCell_perm hp h) ?_
    intro t ht
    obtain ⟨l, -, h2, h3⟩ := hf t ht
    rw [h2]
    exact h3

/-- **C74** (single resolution): after a call of 'mean' or 'shoalest' with `clear_existing` that leaves one resolution `r` dividing the tile size,
`return_layer_values` of the layer 'depth' ('intensity' for backscatter) has one value for each square of the lattice that holds soundings: the mean or least z of just these, rounded. -/
theorem C74_layer_values_sr (hs : 0 < size) {g : Grid Tile} (h : SRHistory env size bs fl F s g A) {a : GridCall} {dask : Option Nat}
    (ha : a.alg.family = some .plain) (hc : a.clear = true) (hok : (g.gridWith env a dask).err = none) {r : ℚ} {n : Nat}
    (hr : (g.gridWith env a dask).st.resolutions = [r]) (hn : size = n * r) :
    ∃ L cs, HasStats.layerValues (g.gridWith env a dask).st (if bs then .intensity else .depth) = .ok L ∧ cs.Perm (latticeCells r A.allPts) ∧
      List.Forall₂ (fun v k => PlainCell a.alg (inLattice r A.allPts k) (some v)) L cs := by
  have h' := h.switch a ha hc dask hok
  have hall := allCleared_sr hs h ha hc hok
  generalize (g.gridWith env a dask).st = g' at h' hall hr ⊢
  rw [hr] at hall
  have hl := lattice_sr hs h' (pos_of_mul hs hn) hn
  subst hn
  obtain ⟨f, h1, cs, h2, h3⟩ := mainValues_of hall hl
  exact ⟨_, cs, extend_sr (f := fun t => t.layerValues (mainLayer bs)) h1, h2, h3⟩

/-- **C74** (variable resolution; also for backscatter the layer is 'depth', see C63) -/
theorem C74_layer_values_vr (hs : 0 < size) (hsub : isPowerOfTwo sub = true) {g : Grid (Grid Tile)} (h : VRHistory env size sub bs fl F s g A) {a : GridCall}
    {dask : Option Nat} (ha : a.alg.family = some .plain) (hc : a.clear = true) (hok : (g.gridWith env a dask).err = none) {r : ℚ} {n m : Nat}
    (hr : (g.gridWith env a dask).st.resolutions = [r]) (hn : sub = n * r) (hm : size = m * sub) :
    ∃ L cs, HasStats.layerValues (g.gridWith env a dask).st .depth = .ok L ∧ cs.Perm (latticeCells r A.allPts) ∧
      List.Forall₂ (fun v k => PlainCell a.alg (inLattice r A.allPts k) (some v)) L cs := by
  have h' := h.switch a ha hc dask hok
  have hall := allCleared_vr hs hsub h ha hc hok
  generalize (g.gridWith env a dask).st = g' at h' hall hr ⊢
  rw [hr] at hall
  have hl := lattice_vr hs hsub h' (pos_of_mul (isPowerOfTwo_pos hsub) hn) hn hm
  rw [hn] at hall
  obtain ⟨f, h1, cs, h2, h3⟩ := mainValues_of hall hl
  exact ⟨_, cs, extend_vr (f := fun t => t.layerValues .depth) h1, h2, h3⟩

/-- the hypotheses are met -/
example : HasStats.layerValues (demoSR.gridWith demoEnv statCall none).st .depth = .ok [25 / 2, 9, 40, 14] ∧
    HasStats.layerValues (demoVR.gridWith demoEnv statCall none).st .depth = .ok [25 / 2, 9, 40, 14] := by decide +kernel

end Bathy
