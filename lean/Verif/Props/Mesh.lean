import Verif.Model.Mesh
import Verif.Props.PointQuery

/-!
# C95: the coloured meshes of `plot`

Model: `Verif/Model/Mesh.lean` (bathygrid/bgrid.py:1523-1548).  Specification: `StoredCell`, `shownValue`, `fillValue` (`Verif/Spec/Layers.lean`).
-/

namespace Bathy
open Grid

variable {env : Env} {size sub : ℚ} {bs : Bool} {fl : Fields} {F : Family} {s : Bool} {A : Store}

/-- the mesh has, at the right place, exactly the cells of the grid at this resolution: colour (i, j) belongs to the square with lower left corner (xs[j], ys[i]) -/
structure MeshShows {τ : Type} [HasLeaves τ] (g : Grid τ) (l : Layer) (r : ℚ) (flip : Bool) (m : Mesh) : Prop where
  size : 0 < m.data.rows ∧ 0 < m.data.cols ∧ m.data.rows ≤ m.ys.length ∧ m.data.cols ≤ m.xs.length
  stepX : ∀ j x x', m.xs[j]? = some x → m.xs[j + 1]? = some x' → x' = x + r
  stepY : ∀ i y y', m.ys[i]? = some y → m.ys[i + 1]? = some y' → y' = y + r
  value : ∀ i j x y z, i < m.data.rows → j < m.data.cols → m.xs[j]? = some x → m.ys[i]? = some y → StoredCell g l r x y z →
    m.data.get? i j = some (some (shownValue l flip z))
  empty : ∀ i j x y, i < m.data.rows → j < m.data.cols → m.xs[j]? = some x → m.ys[i]? = some y → (∀ z, ¬ StoredCell g l r x y z) →
    m.data.get? i j = some (fillValue l none)
  all : ∀ x y z, StoredCell g l r x y z → ∃ i j, i < m.data.rows ∧ j < m.data.cols ∧ m.xs[j]? = some x ∧ m.ys[i]? = some y

/-- every square has four corners: one corner more than squares, in both directions -/
def Mesh.Closed (m : Mesh) : Prop := m.xs.length = m.data.cols + 1 ∧ m.ys.length = m.data.rows + 1

/-- a stored cell in the last column or row of the grid -/
def ReachesEdge {τ : Type} [HasLeaves τ] (g : Grid τ) (m : Mesh) (r : ℚ) : Prop :=
  ∃ e, g.extents = some e ∧ ((∃ x, m.xs[m.data.cols - 1]? = some x ∧ e.maxX ≤ x + r) ∨ ∃ y, m.ys[m.data.rows - 1]? = some y ∧ e.maxY ≤ y + r)

theorem axis_get {lo hi r : ℚ} (hr : 0 < r) {n : Nat} (hn : (n : ℚ) * r = hi - lo) {c0 c1 : Nat} (hc : c0 < c1) (hc1 : c1 ≤ n) {xs : List ℚ}
    (hxs : xs = Tile.slice (arange lo hi r) c0 (c1 + 1)) :
    c1 - c0 ≤ xs.length ∧ (∀ j, j < c1 - c0 → xs[j]? = some (lo + ((c0 + j : Nat) : ℚ) * r)) ∧ (∀ j x, xs[j]? = some x → x = lo + ((c0 + j : Nat) : ℚ) * r) ∧
      (xs.length = c1 - c0 + 1 ↔ lo + ((c1 - 1 : Nat) : ℚ) * r + r < hi) := by
  rw [slice_arange hr hn] at hxs
  have hlen : xs.length = min (c1 + 1) n - c0 := by rw [hxs]; simp
  have hget : ∀ j, j < xs.length → xs[j]? = some (lo + ((c0 + j : Nat) : ℚ) * r) := by
    intro j hj
    rw [hlen] at hj
    rw [hxs, List.getElem?_map, List.getElem?_range hj]
    rfl
  refine ⟨by omega, fun j hj => hget j (by omega), fun j x hx => ?_, ?_⟩
  · have hj := (List.getElem?_eq_some_iff.1 hx).1
    rw [hget j hj] at hx
    exact (Option.some.inj hx).symm
  · have e : lo + ((c1 - 1 : Nat) : ℚ) * r + r = lo + (c1 : ℚ) * r := by
      have : ((c1 - 1 : Nat) : ℚ) = (c1 : ℚ) - 1 := by rw [Nat.cast_sub (by omega)]; simp
      rw [this]; ring
    rw [e, show hi = lo + (n : ℚ) * r by linarith, add_lt_add_iff_left, mul_lt_mul_iff_left₀ hr, Nat.cast_lt, hlen]
    omega

/-- one mesh -/
theorem mesh_of {τ : Type} [LayerLike τ] [HasLeaves τ] {g g' : Grid τ} {l : Layer} {r : ℚ} (hr : 0 < r) {sf : Surf} {flip : Bool} (hflip : flip = true ↔ StoredUp g)
    (hm : ∀ g' o, g.getLayersByName env [l] (some r) none false = (g', .ok o) → MosaicSpec g [l] r none false g' o)
    (hq : g.returnSurf env [l] (some r) true none = (g', .ok sf)) :
    g' = g ∧ ∃ d, sf.trimmed.data = [d] ∧ MeshShows g l r flip ⟨sf.xs, sf.ys, d⟩ ∧ (Mesh.Closed ⟨sf.xs, sf.ys, d⟩ ↔ ¬ ReachesEdge g ⟨sf.xs, sf.ys, d⟩ r) := by
  obtain ⟨⟨hg, e, a, b, he, hd, hrows, hcols, hsh, hbox, hpart⟩, e', he', hxs, hys⟩ := returnSurf_spec hr hm hq
  rw [he] at he'; cases he'
  have hsh := hsh flip (by simp [hflip])
  have hcr : sf.trimmed.cmin < sf.trimmed.cmax := by obtain ⟨i, hi⟩ := hbox.left; exact (hbox.all _ _ hi).2.2.2
  have hrr : sf.trimmed.rmin < sf.trimmed.rmax := by obtain ⟨i, hi⟩ := hbox.top; exact (hbox.all _ _ hi).2.1
  obtain ⟨x1, x2, x3, x4⟩ := axis_get hr hcols hcr hbox.inside.2 hxs
  obtain ⟨y1, y2, y3, y4⟩ := axis_get hr hrows hrr hbox.inside.1 hys
  obtain ⟨p1, p2, p3⟩ := hpart
  have hin := hbox.inside
  refine ⟨hg, b, hd, ⟨⟨?_, ?_, ?_, ?_⟩, ?_, ?_, ?_, ?_, ?_⟩, ?_⟩
  · show 0 < b.rows; omega
  · show 0 < b.cols; omega
  · show b.rows ≤ sf.ys.length; omega
  · show b.cols ≤ sf.xs.length; omega
  · intro j x x' h1 h2
    rw [x3 j x h1, x3 (j + 1) x' h2]
    push_cast; ring
  · intro i y y' h1 h2
    rw [y3 i y h1, y3 (i + 1) y' h2]
    push_cast; ring
  · intro i j x y z hi hj hx hy hz
    have hi : i < b.rows := hi
    have hj : j < b.cols := hj
    show b.get? i j = _
    rw [p3 i j hi hj]
    rw [x3 j x hx, y3 i y hy] at hz
    exact hsh.value _ _ z (by omega) (by omega) hz
  · intro i j x y hi hj hx hy hz
    have hi : i < b.rows := hi
    have hj : j < b.cols := hj
    show b.get? i j = _
    rw [p3 i j hi hj]
    rw [x3 j x hx, y3 i y hy] at hz
    exact hsh.empty _ _ (by omega) (by omega) hz
  · intro x y z hz
    obtain ⟨i, j, hi, hj, rfl, rfl⟩ := hsh.all x y z hz
    obtain ⟨k1, k2, k3, k4⟩ := hbox.all i j ⟨_, hsh.value i j z hi hj hz⟩
    refine ⟨i - sf.trimmed.rmin, j - sf.trimmed.cmin, ?_, ?_, ?_, ?_⟩
    · show _ < b.rows; omega
    · show _ < b.cols; omega
    · rw [x2 _ (by omega), show sf.trimmed.cmin + (j - sf.trimmed.cmin) = j by omega]
    · rw [y2 _ (by omega), show sf.trimmed.rmin + (i - sf.trimmed.rmin) = i by omega]
  · unfold Mesh.Closed ReachesEdge
    simp only
    rw [p1, p2, x4, y4]
    have ex := x2 (sf.trimmed.cmax - sf.trimmed.cmin - 1) (by omega)
    have ey := y2 (sf.trimmed.rmax - sf.trimmed.rmin - 1) (by omega)
    rw [show sf.trimmed.cmin + (sf.trimmed.cmax - sf.trimmed.cmin - 1) = sf.trimmed.cmax - 1 by omega] at ex
    rw [show sf.trimmed.rmin + (sf.trimmed.rmax - sf.trimmed.rmin - 1) = sf.trimmed.rmax - 1 by omega] at ey
    rw [ex, ey, he]
    constructor
    · rintro ⟨h1, h2⟩ ⟨e', he', ⟨x, hx, hlt⟩ | ⟨y, hy, hlt⟩⟩
      · cases he'; cases hx; linarith
      · cases he'; cases hy; linarith
    · intro hn
      constructor
      · by_contra hlt
        exact hn ⟨e, rfl, Or.inl ⟨_, rfl, not_lt.1 hlt⟩⟩
      · by_contra hlt
        exact hn ⟨e, rfl, Or.inr ⟨_, rfl, not_lt.1 hlt⟩⟩

/-- what `plot` should hand over, and when the squares have all their corners -/
def PlotSpec {τ : Type} [HasLeaves τ] (g : Grid τ) (l : Layer) (flip : Bool) (rs : List ℚ) (ms : List Mesh) : Prop :=
  List.Forall₂ (fun m r => MeshShows g l r flip m ∧ (m.Closed ↔ ¬ ReachesEdge g m r)) ms rs

theorem meshLoop_of {τ : Type} [LayerLike τ] [HasLeaves τ] {g : Grid τ} {l : Layer} {flip : Bool} (hflip : flip = true ↔ StoredUp g) {rs rs0 : List ℚ} (hr : ∀ r ∈ rs, 0 < r)
    (hm : ∀ r ∈ rs, ∀ g' o, g.getLayersByName env [l] (some r) none false = (g', .ok o) → MosaicSpec g [l] r none false g' o) {ms0 ms : List Mesh} {g' : Grid τ}
    (h0 : PlotSpec g l flip rs0 ms0) (h : g.meshLoop env l rs ms0 = (g', .ok ms)) : g' = g ∧ PlotSpec g l flip (rs0 ++ rs) ms := by
  induction rs generalizing rs0 ms0 with
  | nil =>
    unfold Grid.meshLoop at h
    cases h
    rw [List.append_nil]
    exact ⟨rfl, h0⟩
  | cons r rs ih =>
    unfold Grid.meshLoop at h
    split at h
    · cases h
    · rename_i g1 sf hq
      obtain ⟨hg, d, hd, hsp⟩ := mesh_of (hr r List.mem_cons_self) hflip (hm r List.mem_cons_self) hq
      subst hg
      rw [hd] at h
      simp only at h
      have := ih (fun q hq => hr q (List.mem_cons_of_mem _ hq)) (fun q hq => hm q (List.mem_cons_of_mem _ hq)) (rs0 := rs0 ++ [r]) (List.rel_append h0 (List.Forall₂.cons hsp List.Forall₂.nil)) h
      rw [List.append_assoc] at this
      exact this

theorem plotRes_pos {τ : Type} [GridLike τ] [Queried τ] [Recorded τ] {g : Grid τ} (h : g.ResOk) {res : Option ℚ} (hr : ∀ r, res = some r → 0 ≤ r) : ∀ r ∈ g.plotRes res, 0 < r := by
  have hg : ∀ r ∈ g.resolutions, 0 < r := fun r hm => isPowerOfTwo_pos (h.res r hm)
  cases res with
  | none => exact hg
  | some r0 =>
    intro r hm
    unfold Grid.plotRes at hm
    simp only at hm
    split at hm
    · exact hg r hm
    · rename_i h0
      rw [List.mem_singleton.1 hm]
      exact lt_of_le_of_ne (hr r0 rfl) (Ne.symm h0)

theorem plot_of {τ : Type} [LayerLike τ] [HasLeaves τ] {g : Grid τ} {l : Layer} {flip : Bool} (hflip : flip = true ↔ StoredUp g) {res : Option ℚ} (hr : ∀ r ∈ g.plotRes res, 0 < r)
    (hm : ∀ r ∈ g.plotRes res, ∀ g' o, g.getLayersByName env [l] (some r) none false = (g', .ok o) → MosaicSpec g [l] r none false g' o) {ms : List Mesh} {g' : Grid τ}
    (h : g.plot env l res = (g', .ok ms)) : g' = g ∧ PlotSpec g l flip (g.plotRes res) ms := by
  unfold Grid.plot at h
  split at h
  · cases h
  · cases h
  · exact meshLoop_of hflip hr hm List.Forall₂.nil h

/-- **C95** (single resolution grids): `plot` of a gridded layer hands over one mesh for each resolution, the one asked for or all of the grid; each has the cells of the grid at their places
and with their values (depths negated if stored positive up).  All squares of a mesh have their four corners exactly if no cell of it is in the last column or row of the grid.
Missing for the full claim: the corners at the upper ends of the grid, see `C95_violated`. -/
theorem C95_plot_sr_partial (hs : 0 < size) {g : Grid Tile} (h : SRHistory env size bs fl F s g A) {l : Layer} (hl : l.isCore = true) {flip : Bool} (hflip : flip = true ↔ StoredUp g)
    {res : Option ℚ} (hr : ∀ r, res = some r → 0 ≤ r) {g' : Grid Tile} {ms : List Mesh} (hq : g.plot env l res = (g', .ok ms)) : g' = g ∧ PlotSpec g l flip (g.plotRes res) ms :=
  have hp := plotRes_pos (Grid.resOk_history (Grid.resOk_blank _ _ _ _ _ _ _ _) h) hr
  plot_of hflip hp (fun r hr' _ _ hh => C34_mosaic_sr hs h hl (hp r hr') hh) hq

/-- **C95** (variable resolution grids), partial in the same way -/
theorem C95_plot_vr_partial (hs : 0 < size) (hpow : isPowerOfTwo sub = true) {q : Nat} (hdiv : size = (q : ℚ) * sub) {g : Grid (Grid Tile)} (h : VRHistory env size sub bs fl F s g A)
    {l : Layer} (hl : l.isCore = true) {flip : Bool} (hflip : flip = true ↔ StoredUp g) {res : Option ℚ} (hr : ∀ r, res = some r → 0 ≤ r) {g' : Grid (Grid Tile)} {ms : List Mesh}
    (hq : g.plot env l res = (g', .ok ms)) : g' = g ∧ PlotSpec g l flip (g.plotRes res) ms :=
  have hp := plotRes_pos (Grid.resOk_history (Grid.resOk_blank _ _ _ _ _ _ _ _) h) hr
  plot_of hflip hp (fun r hr' _ _ hh => C34_mosaic_vr hs hpow hdiv h hl (hp r hr') hh) hq

/-- **C95**: before anything is gridded `plot` raises ValueError -/
theorem C95_not_gridded {g : Grid Tile} (h : g.tiles = none ∨ ∃ t ts, g.present = t :: ts ∧ t.cells = []) (l : Layer) (res : Option ℚ) : g.plot env l res = (g, .error .valueError) := by
  have hn : g.noGrid = .ok true := by
    unfold Grid.noGrid
    rcases h with h | ⟨t, ts, hp, ht⟩
    · rw [h]
    · cases hT : g.tiles with
      | none => rfl
      | some T =>
        simp only [hp, List.head?_cons]
        show (LayerLike.probe t).map (!·) = .ok true
        simp [LayerLike.probe, ht, Except.map]
  unfold Grid.plot
  rw [hn]

/-- **C95 is violated**: in a grid of one tile with a cell in the last column the two cells have two corners along x; the sizes of the arrays fit neither corners nor centres, as there are
two corners along y for one row. -/
theorem C95_violated : SRHistory demoEnv 16 false demoFields .plain false edgeGrid [("a", [⟨1, 1, 5, 1, 1⟩, ⟨15, 1, 7, 1, 1⟩])] ∧
    ∃ m, (edgeGrid.plot demoEnv .depth none).2 = .ok [m] ∧ ¬ m.Closed ∧ m.xs.length = m.data.cols ∧ m.ys.length = m.data.rows + 1 := by
  refine ⟨((GridHistory.new .plain).add _ "a" _ (by decide +kernel)).grid { alg := .mean, res := some 8 } rfl none, ⟨[0, 8], [0, 8], ⟨1, 2, [some 5, some 7]⟩⟩, by decide +kernel, ?_, rfl, rfl⟩
  rintro ⟨h, -⟩
  cases h

/-- the hypotheses are met: one resolution, and two of a variable resolution grid; with all corners -/
example : (match (demoSRg.plot demoEnv .depth none).2 with
      | .ok [m] => decide (m.xs = [-24, -16, -8, 0, 8, 16, 24, 32, 40] ∧ m.data.cols = 8 ∧ m.data.rows = 9)
      | _ => false) = true ∧
    (match (fineGrid.plot demoEnv .depth none).2 with
      | .ok [m, m'] => decide (m.xs = [0, 8] ∧ m.data.cols = 1 ∧ m'.ys = [0, 16, 32, 48] ∧ m'.data.rows = 3)
      | _ => false) = true := ⟨by decide +kernel, by decide +kernel⟩

example : ((newSR 16 false).addPoints ⟨demoFields, demoA⟩ "a" {}).st.present.head?.map Tile.cells = some [] := by decide +kernel

end Bathy
