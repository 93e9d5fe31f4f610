import Verif.Lemmas.GridPts
import Verif.Lemmas.Shaped
import Verif.Lemmas.GridFresh
import Verif.Lemmas.GridExtents
import Verif.Spec.DemoEnv

/-!
# C01 – C12: soundings, tiles and extents of a grid

Model: `Grid.addPoints`, `Grid.removePoints`, `Grid.gridWith` (bathygrid/grids.py, bathygrid/bgrid.py), for the single resolution grid
(`SRHistory`) and the variable resolution grid (`VRHistory`).
Specification: `Store` (`Verif/Spec/Points.lean`), `Holds`, `Grid.TileAt`, `Grid.underAt` (`Verif/Spec/Soundings.lean`).
-/

namespace Bathy
open Grid

variable {env : Env} {size sub : ℚ} {bs : Bool} {fl : Fields} {F : Family} {s : Bool} {A : Store}

/-! ## C01 -/

/-- **C01** (single resolution): after any history the number of points is that of the containers added and not removed, and the
soundings in the tiles are exactly those, each once, also container by container. -/
theorem C01_conservation_sr (hs : 0 < size) {g : Grid Tile} (h : SRHistory env size bs fl F s g A) :
    g.pointsCount = A.allPts.length ∧ (Holds.all g).Perm A.allPts ∧ ∀ c, (Holds.under g c).Perm (A.ptsOf c) := by
  have hi := (sr_inv hs h).1
  exact ⟨grow_pointsCount hs hi, grow_all (tilePts env F size 0 bs fl hs) hs hi, grow_under (tilePts env F size 0 bs fl hs) hs hi⟩

/-- **C01** (variable resolution) -/
theorem C01_conservation_vr (hs : 0 < size) (hsub : isPowerOfTwo sub = true) {g : Grid (Grid Tile)} (h : VRHistory env size sub bs fl F s g A) :
    g.pointsCount = A.allPts.length ∧ (Holds.all g).Perm A.allPts ∧ ∀ c, (Holds.under g c).Perm (A.ptsOf c) := by
  have hi := (vr_inv hs hsub h).1
  have P := subPts (size := size) (bs := bs) _ (tilePts env F sub 0 false fl (isPowerOfTwo_pos hsub)) hs hsub
  exact ⟨grow_pointsCount hs hi, grow_all P hs hi, grow_under P hs hi⟩

/-! ## C02 -/

/-- **C02** (single resolution): the tile in row `r`, column `c` covers exactly that square of the grid, and its soundings lie in it. -/
theorem C02_tile_contains_sr (hs : 0 < size) {g : Grid Tile} (h : SRHistory env size bs fl F s g A) {r c : Nat} {t : Tile} (ht : g.TileAt r c t) :
    ∃ e, g.extents = some e ∧ t.minX = e.minX + (c : ℚ) * size ∧ t.maxX = t.minX + size ∧ t.minY = e.minY + (r : ℚ) * size ∧
      t.maxY = t.minY + size ∧ t.maxX ≤ e.maxX ∧ t.maxY ≤ e.maxY ∧
      ∀ p ∈ t.pts, t.minX ≤ p.x ∧ p.x < t.maxX ∧ t.minY ≤ p.y ∧ p.y < t.maxY :=
  contains_sr (shaped_tile env F hs) (sr_inv hs h).1 ht

/-- **C02** (single resolution): the soundings of a tile are exactly those of the grid that lie in its square. -/
theorem C02_tile_exact_sr (hs : 0 < size) {g : Grid Tile} (h : SRHistory env size bs fl F s g A) {r c : Nat} {t : Tile} (ht : g.TileAt r c t) :
    t.pts = A.allPts.filter (fun p => decide (t.minX ≤ p.x ∧ p.x < t.maxX ∧ t.minY ≤ p.y ∧ p.y < t.maxY)) := by
  obtain ⟨a, b, e, he, e1, e2, hrep, -, e3, e4⟩ := tileAt_rep (sr_inv hs h).1 ht
  obtain ⟨hf, hr, -⟩ := history_frame hs hrep.1
  have f1 : t.minX = (a : ℚ) * size := hf.1
  have f2 : t.maxX = (a : ℚ) * size + size := hf.2.1
  have f3 : t.minY = (b : ℚ) * size := hf.2.2.1
  have f4 : t.maxY = (b : ℚ) * size + size := hf.2.2.2.1
  rw [hr.pts, Store.allPts_within, f1, f2, f3, f4]
  rfl

/-- **C02** (variable resolution): the subgrid in row `r`, column `c` has the extents of that square, and each of its tiles covers the
square of its own row and column, with its soundings in both. -/
theorem C02_tile_contains_vr (hs : 0 < size) (hsub : isPowerOfTwo sub = true) {g : Grid (Grid Tile)} (h : VRHistory env size sub bs fl F s g A)
    {r c : Nat} {u : Grid Tile} (hu : g.TileAt r c u) :
    ∃ e x y, g.extents = some e ∧ x = e.minX + (c : ℚ) * size ∧ y = e.minY + (r : ℚ) * size ∧ u.extents = some ⟨x, x + size, y, y + size⟩ ∧
      ∀ r' c' t, u.TileAt r' c' t → t.minX = x + (c' : ℚ) * sub ∧ t.maxX = t.minX + sub ∧ t.minY = y + (r' : ℚ) * sub ∧ t.maxY = t.minY + sub ∧
        ∀ p ∈ t.pts, t.minX ≤ p.x ∧ p.x < t.maxX ∧ t.minY ≤ p.y ∧ p.y < t.maxY ∧ InBox x y size p :=
  contains_vr (shaped_tile env F (isPowerOfTwo_pos hsub)) hs hsub (vr_inv hs hsub h).1 hu

/-! ## C03 -/

/-- an accepted `add_points` keeps every tile at its place -/
theorem add_keeps_tiles {τ : Type} [TileLike τ] [Holds τ] {C : ChildSpec τ size sub bs fl} (P : PtsSpec C) (hs : 0 < size) {g : Grid τ} (hg : GrowInv C g A)
    {pts : List Pt} {c : String} {a : AddArgs} (hok : (g.addPoints ⟨fl, pts⟩ c a).err = none) {r k : Nat} {t : τ} (ht : g.TileAt r k t) :
    ∃ (i j : ℤ) (r' k' : Nat) (t' : τ), (g.addPoints ⟨fl, pts⟩ c a).st.TileAt r' k' t' ∧
      C.Rep ((i : ℚ) * size) ((j : ℚ) * size) t (A.within ((i : ℚ) * size) ((j : ℚ) * size) size) ∧
      C.Rep ((i : ℚ) * size) ((j : ℚ) * size) t' ((A ++ [(c, pts)]).within ((i : ℚ) * size) ((j : ℚ) * size) size) ∧ c ∉ A.names ∧
      (∀ n, n ≠ c → Holds.under t' n = Holds.under t n) ∧
      (Holds.all t').Perm (Holds.all t ++ pts.filter (fun p => decide (InBox ((i : ℚ) * size) ((j : ℚ) * size) size p))) ∧
      ((∀ p ∈ pts, ¬ InBox ((i : ℚ) * size) ((j : ℚ) * size) size p) → t' = t) := by
  have hp : pts ≠ [] := by rintro rfl; exact addPoints_nil hg c a fl hok
  have hc : c ∉ A.names := by
    intro hc
    have : g.info.container.has c = true := by rw [Dict.has_iff, hg.cont]; exact hc
    unfold addPoints at hok
    rw [this] at hok
    simp at hok
  have hm : (g.info.update c a).err = none := by
    rcases Option.eq_none_or_eq_some (g.info.update c a).err with hm | ⟨e, hm⟩
    · exact hm
    · exfalso
      unfold addPoints at hok
      simp only [hm] at hok
      split at hok
      · simp at hok
      · simp at hok
  obtain ⟨u, hu, hinv, hkeep, -⟩ := addPoints_grow C hs hg hc hp hm
  rw [hu]
  obtain ⟨i, j, e, he, e1, e2, hrep, hne, -⟩ := tileAt_rep hg ht
  have hne' : (A ++ [(c, pts)]).within ((i : ℚ) * size) ((j : ℚ) * size) size ≠ [] := by
    rw [Store.within_append]; exact fun h => hne (List.append_eq_nil_iff.1 h).1
  have hA : A ≠ [] := by rintro rfl; exact hne rfl
  obtain ⟨r', k', t', ht', hrep', horg⟩ := rep_tileAt hs hinv hne'
  refine ⟨i, j, r', k', t', ht', hrep, hrep', hc, ?_, ?_, ?_⟩
  · intro n hn
    rw [P.eq hrep' n, P.eq hrep n, Store.within_append]
    refine P.append _ _ _ _ _ ?_
    intro h
    have := (Store.names_within _ _ _ _).subset h
    simp [Store.names] at this
    exact hn this
  · refine (P.all hrep' (Store.within_box _ _ _ _)).trans ?_
    rw [Store.within_append, Store.allPts_append, Store.allPts_within [(c, pts)]]
    have : Store.allPts [(c, pts)] = pts := by simp [Store.allPts]
    rw [this]
    exact (P.all hrep (Store.within_box _ _ _ _)).symm.append_right _
  · intro hno
    obtain ⟨i0, j0, nx, ny, T, hf, hext⟩ := grow_body hg hA
    have hlx : g.txs.length = nx := by rw [hf.txs]; simp [originsOf]
    have hk1 := tile?_of_tileAt ht (by intro T' hT'; rw [hf.tiles] at hT'; cases hT'; rw [hf.rep.2.1, hlx])
    obtain ⟨hr1, hr2, -⟩ := frame_tileAt hf.toReady ht
    have ho1 : g.tileOrigin (r * g.txs.length + k) = some ((i : ℚ) * size, (j : ℚ) * size) := by
      rw [hlx, tileOrigin_eq hf.txs hf.tys (Arr2.idx_lt hr1 hr2)]
      unfold slotX slotY
      rw [Arr2.idx_mod hr2, Arr2.idx_div hr2]
      rw [hext] at he
      cases he
      rw [e1, e2]
    obtain ⟨k2, hk2, ho2⟩ := hkeep _ t _ _ hk1 ho1 (by rw [hg.tileSize]; exact hno)
    obtain ⟨i1, j1, nx1, ny1, T1, hf1, hext1⟩ := grow_body hinv (by simp)
    have hlx1 : u.txs.length = nx1 := by rw [hf1.txs]; simp [originsOf]
    have hkt := tile?_of_tileAt ht' (by intro T' hT'; rw [hf1.tiles] at hT'; cases hT'; rw [hf1.rep.2.1, hlx1])
    have hkeq : k2 = r' * u.txs.length + k' := by
      have hk2l : k2 < ny1 * nx1 := by
        rw [← hf1.rep.2.2.1]
        unfold tile? at hk2
        rw [hf1.tiles] at hk2
        exact (List.getElem?_eq_some_iff.1 hk2).1
      have hk3l : r' * u.txs.length + k' < ny1 * nx1 := by
        rw [← hf1.rep.2.2.1]
        unfold tile? at hkt
        rw [hf1.tiles] at hkt
        exact (List.getElem?_eq_some_iff.1 hkt).1
      have q1 := tileOrigin_eq hf1.txs hf1.tys hk2l
      have q2 := tileOrigin_eq hf1.txs hf1.tys hk3l
      rw [ho2] at q1
      rw [horg] at q2
      rw [q1] at q2
      simp only [Option.some.injEq, Prod.mk.injEq, slotX, slotY] at q2
      obtain ⟨z1, z2⟩ := q2
      have z3 := mul_right_cancel₀ hs.ne' (add_left_cancel z1)
      have z4 := mul_right_cancel₀ hs.ne' (add_left_cancel z2)
      have z5 : k2 % nx1 = (r' * u.txs.length + k') % nx1 := by exact_mod_cast z3
      have z6 : k2 / nx1 = (r' * u.txs.length + k') / nx1 := by exact_mod_cast z4
      rw [← Nat.div_add_mod' k2 nx1, z5, z6, Nat.div_add_mod']
    rw [hkeq, hkt] at hk2
    cases hk2
    rfl

/-- **C03** (single resolution): after an accepted `add_points` each tile is found at the same origin, with the soundings it had followed by
the new ones in its square; tiles that get no new sounding are unchanged in every respect (layers, indices, flags). -/
theorem C03_growth_keeps_tiles_sr (hs : 0 < size) {g : Grid Tile} (h : SRHistory env size bs fl F s g A) {pts : List Pt} {n : String} {a : AddArgs}
    (hok : (g.addPoints ⟨fl, pts⟩ n a).err = none) {r c : Nat} {t : Tile} (ht : g.TileAt r c t) :
    ∃ r' c' t', (g.addPoints ⟨fl, pts⟩ n a).st.TileAt r' c' t' ∧ t'.minX = t.minX ∧ t'.maxX = t.maxX ∧ t'.minY = t.minY ∧ t'.maxY = t.maxY ∧
      t'.pts = t.pts ++ pts.filter (fun p => decide (InBox t.minX t.minY size p)) ∧ (∀ m, m ≠ n → t'.under m = t.under m) ∧
      ((∀ p ∈ pts, ¬ InBox t.minX t.minY size p) → t' = t) := by
  obtain ⟨i, j, r', c', t', h1, h2, h3, h4, h5, -, h6⟩ := add_keeps_tiles (tilePts env F size 0 bs fl hs) hs (sr_inv hs h).1 hok ht
  obtain ⟨f1, q1, -⟩ := history_frame hs h2.1
  obtain ⟨f2, q2, -⟩ := history_frame hs h3.1
  have e1 : t.minX = (i : ℚ) * size := f1.1
  have e2 : t.minY = (j : ℚ) * size := f1.2.2.1
  refine ⟨r', c', t', h1, f2.1.trans f1.1.symm, f2.2.1.trans f1.2.1.symm, f2.2.2.1.trans f1.2.2.1.symm, f2.2.2.2.1.trans f1.2.2.2.1.symm, ?_, h5, ?_⟩
  · rw [q1.pts, q2.pts, e1, e2, Store.within_append, Store.allPts_append, Store.allPts_within [(n, pts)]]
    simp [Store.allPts]
  · rw [e1, e2]; exact h6

/-- **C03** (variable resolution): the same for the subgrids. -/
theorem C03_growth_keeps_tiles_vr (hs : 0 < size) (hsub : isPowerOfTwo sub = true) {g : Grid (Grid Tile)} (h : VRHistory env size sub bs fl F s g A)
    {pts : List Pt} {n : String} {a : AddArgs} (hok : (g.addPoints ⟨fl, pts⟩ n a).err = none) {r c : Nat} {u : Grid Tile} (hu : g.TileAt r c u) :
    ∃ r' c' u' e, (g.addPoints ⟨fl, pts⟩ n a).st.TileAt r' c' u' ∧ u.extents = some e ∧ u'.extents = some e ∧
      (Holds.all u').Perm (Holds.all u ++ pts.filter (fun p => decide (InBox e.minX e.minY size p))) ∧
      (∀ m, m ≠ n → Holds.under u' m = Holds.under u m) ∧ ((∀ p ∈ pts, ¬ InBox e.minX e.minY size p) → u' = u) := by
  have P := subPts (size := size) (bs := bs) _ (tilePts env F sub 0 false fl (isPowerOfTwo_pos hsub)) hs hsub
  obtain ⟨i, j, r', c', u', h1, h2, h3, h4, h5, h6, h7⟩ := add_keeps_tiles P hs (vr_inv hs hsub h).1 hok hu
  exact ⟨r', c', u', _, h1, SubInv.extents h2, SubInv.extents h3, h6, h5, h7⟩

/-! ## C04 -/

/-- **C04** (single resolution): a `remove_points` that returns leaves, at every place of the grid, the soundings of all other containers as
they were, in value and order, and none of the removed one. -/
theorem C04_remove_exact_sr (hs : 0 < size) {g : Grid Tile} (h : SRHistory env size bs fl F s g A) {n : String} (hok : (g.removePoints n).err = none)
    (r c : Nat) (m : String) : (g.removePoints n).st.underAt r c m = if m = n then [] else g.underAt r c m := by
  obtain ⟨u, hu, hinv, -, -, he, -⟩ := removePoints_grow _ hs (sr_inv hs h).1 n (Or.inr hok)
  rw [hu]
  exact remove_underAt (tilePts env F size 0 bs fl hs) hs (sr_inv hs h).1 hinv he r c m

/-- **C04** (variable resolution) -/
theorem C04_remove_exact_vr (hs : 0 < size) (hsub : isPowerOfTwo sub = true) {g : Grid (Grid Tile)} (h : VRHistory env size sub bs fl F s g A) {n : String}
    (hok : (g.removePoints n).err = none) (r c : Nat) (m : String) :
    (g.removePoints n).st.underAt r c m = if m = n then [] else g.underAt r c m := by
  obtain ⟨u, hu, hinv, -, -, he, -⟩ := removePoints_grow _ hs (vr_inv hs hsub h).1 n (Or.inr hok)
  rw [hu]
  exact remove_underAt (subPts (size := size) (bs := bs) _ (tilePts env F sub 0 false fl (isPowerOfTwo_pos hsub)) hs hsub) hs (vr_inv hs hsub h).1 hinv he r c m

/-! ## C05, C06 -/

theorem add_duplicate {τ : Type} [TileLike τ] {C : ChildSpec τ size sub bs fl} {g : Grid τ} (hg : GrowInv C g A) {n : String} (hn : n ∈ A.names) (d : PtArr) (a : AddArgs) :
    g.addPoints d n a = .fail g .valueError := by
  have : g.info.container.has n = true := by rw [Dict.has_iff, hg.cont]; exact hn
  unfold addPoints
  rw [this]
  rfl

/-- **C05**: adding a container that is in the grid raises ValueError and leaves the grid as it was, whatever the data and arguments. -/
theorem C05_duplicate_rejected_sr (hs : 0 < size) {g : Grid Tile} (h : SRHistory env size bs fl F s g A) {n : String} (hn : n ∈ A.names) (d : PtArr) (a : AddArgs) :
    (g.addPoints d n a).err = some .valueError ∧ (g.addPoints d n a).st = g := by
  rw [add_duplicate (sr_inv hs h).1 hn d a]; exact ⟨rfl, rfl⟩

/-- **C05** (variable resolution) -/
theorem C05_duplicate_rejected_vr (hs : 0 < size) (hsub : isPowerOfTwo sub = true) {g : Grid (Grid Tile)} (h : VRHistory env size sub bs fl F s g A) {n : String}
    (hn : n ∈ A.names) (d : PtArr) (a : AddArgs) : (g.addPoints d n a).err = some .valueError ∧ (g.addPoints d n a).st = g := by
  rw [add_duplicate (vr_inv hs hsub h).1 hn d a]; exact ⟨rfl, rfl⟩

/-- **C06**: removing a container that is not in the grid (never added, or removed before) changes nothing and raises nothing. -/
theorem C06_unknown_remove_sr (hs : 0 < size) {g : Grid Tile} (h : SRHistory env size bs fl F s g A) {n : String} (hn : n ∉ A.names) :
    (g.removePoints n).err = none ∧ (g.removePoints n).st = g := by
  rw [removePoints_unknown (by rw [(sr_inv hs h).1.cont]; exact hn)]; exact ⟨rfl, rfl⟩

/-- **C06** (variable resolution) -/
theorem C06_unknown_remove_vr (hs : 0 < size) (hsub : isPowerOfTwo sub = true) {g : Grid (Grid Tile)} (h : VRHistory env size sub bs fl F s g A) {n : String}
    (hn : n ∉ A.names) : (g.removePoints n).err = none ∧ (g.removePoints n).st = g := by
  rw [removePoints_unknown (by rw [(vr_inv hs hsub h).1.cont]; exact hn)]; exact ⟨rfl, rfl⟩

/-- **C06** (second removal): after a `remove_points` that returned, removing the same container again does nothing. -/
theorem C06_second_remove_sr (hs : 0 < size) {g : Grid Tile} (h : SRHistory env size bs fl F s g A) {n : String} (hok : (g.removePoints n).err = none) :
    ((g.removePoints n).st.removePoints n).err = none ∧ ((g.removePoints n).st.removePoints n).st = (g.removePoints n).st := by
  refine C06_unknown_remove_sr hs (GridHistory.remove h n hok) ?_
  simp [Store.names, Store.remove]

/-! ## C07 -/

/-- the tiles and geometry of two grids agree -/
def SameTiles {τ : Type} (g u : Grid τ) : Prop :=
  g.tiles = u.tiles ∧ g.extents = u.extents ∧ g.txs = u.txs ∧ g.tys = u.tys ∧ g.edgesX = u.edgesX ∧ g.edgesY = u.edgesY ∧ g.width = u.width ∧
    g.height = u.height ∧ g.maximumTiles = u.maximumTiles ∧ g.numberOfTiles = u.numberOfTiles ∧ g.meanDepth = u.meanDepth

theorem emptied_reusable {τ : Type} [TileLike τ] {C : ChildSpec τ size sub bs fl} {g : Grid τ} (hs : 0 < size) (hg : GrowInv C g []) (name : String) (d : PtArr) (n : String)
    (a : AddArgs) (h1 : (g.info.update n a).err = none) (h2 : (Meta.update {} n a).err = none) :
    (g.addPoints d n a).err = ((blank name true 0 0 size sub bs none : Grid τ).addPoints d n a).err ∧
      ((g.addPoints d n a).err = none → SameTiles (g.addPoints d n a).st ((blank name true 0 0 size sub bs none : Grid τ).addPoints d n a).st) := by
  have ht : g.tiles = none := by
    rcases hg.body with ⟨-, e, -⟩ | ⟨e, -⟩
    · exact e
    · exact absurd rfl e
  have hk : SameKind g (blank name true 0 0 size sub bs none : Grid τ) :=
    ⟨hg.canGrow, hg.ox, hg.oy, hg.tileSize, hg.subtileSize, hg.backscatter, ht⟩
  have he : g.isEmpty = true := by rw [grow_isEmpty hs hg]; simp
  have hn : g.info.container.has n = false := by rw [Dict.has_false_iff, hg.cont]; simp [Store.names]
  obtain ⟨q1, q2⟩ := addPoints_same hk he hg.canGrow d n a hn rfl h1 h2
  refine ⟨q1, fun h => ?_⟩
  obtain ⟨z1, z2, z3⟩ := q2 h
  exact ⟨z1.tiles, z1.extents, z1.txs, z1.tys, z1.edgesX, z1.edgesY, z1.width, z1.height, z1.maximumTiles, z2, z3⟩

/-- **C07** (single resolution): once every container is removed the grid is empty, has no points and no tile objects, and the next
`add_points` (whose metadata both grids accept) succeeds or raises as on a new grid and makes the same tiles and extents. -/
theorem C07_emptied_sr (hs : 0 < size) {g : Grid Tile} (h : SRHistory env size bs fl F s g []) :
    g.isEmpty = true ∧ g.pointsCount = 0 ∧ g.tileObjects = 0 ∧ g.info.container.keys = [] ∧
      ∀ d n a, (g.info.update n a).err = none → (Meta.update {} n a).err = none →
        (g.addPoints d n a).err = ((newSR size bs).addPoints d n a).err ∧
          ((g.addPoints d n a).err = none → SameTiles (g.addPoints d n a).st ((newSR size bs).addPoints d n a).st) := by
  have hi := (sr_inv hs h).1
  have ht : g.tiles = none := by
    rcases hi.body with ⟨-, e, -⟩ | ⟨e, -⟩
    · exact e
    · exact absurd rfl e
  exact ⟨by rw [grow_isEmpty hs hi]; simp, grow_pointsCount hs hi, by unfold tileObjects slotList; rw [ht]; rfl, hi.cont,
    fun d n a h1 h2 => emptied_reusable hs hi _ d n a h1 h2⟩

/-- **C07** (variable resolution) -/
theorem C07_emptied_vr (hs : 0 < size) (hsub : isPowerOfTwo sub = true) {g : Grid (Grid Tile)} (h : VRHistory env size sub bs fl F s g []) :
    g.isEmpty = true ∧ g.pointsCount = 0 ∧ g.tileObjects = 0 ∧ g.info.container.keys = [] ∧
      ∀ d n a, (g.info.update n a).err = none → (Meta.update {} n a).err = none →
        (g.addPoints d n a).err = ((newVR size sub bs).addPoints d n a).err ∧
          ((g.addPoints d n a).err = none → SameTiles (g.addPoints d n a).st ((newVR size sub bs).addPoints d n a).st) := by
  have hi := (vr_inv hs hsub h).1
  have ht : g.tiles = none := by
    rcases hi.body with ⟨-, e, -⟩ | ⟨e, -⟩
    · exact e
    · exact absurd rfl e
  exact ⟨by rw [grow_isEmpty hs hi]; simp, grow_pointsCount hs hi, by unfold tileObjects slotList; rw [ht]; rfl, hi.cont,
    fun d n a h1 h2 => emptied_reusable hs hi _ d n a h1 h2⟩

/-! ## C08 -/

/-- **C08**, the part that holds (single resolution): `remove_points` of any container completes without an exception, as long as the grid has
not been emptied and refilled with a single container.  Missing: that case, in which the code raises IndexError, see `C08_violated`. -/
theorem C08_remove_total_sr_partial (hs : 0 < size) {g : Grid Tile} (h : SRHistory env size bs fl F false g A) (n : String) :
    (g.removePoints n).err = none := by
  obtain ⟨u, hu, -⟩ := removePoints_grow _ hs (sr_inv hs h).1 n (Or.inl ((sr_inv hs h).2 rfl).1)
  rw [hu]; rfl

/-- **C08**, the part that holds (variable resolution) -/
theorem C08_remove_total_vr_partial (hs : 0 < size) (hsub : isPowerOfTwo sub = true) {g : Grid (Grid Tile)} (h : VRHistory env size sub bs fl F false g A) (n : String) :
    (g.removePoints n).err = none := by
  obtain ⟨u, hu, -⟩ := removePoints_grow _ hs (vr_inv hs hsub h).1 n (Or.inl ((vr_inv hs hsub h).2 rfl).1)
  rw [hu]; rfl

/-! ## C09 -/

theorem tileObjects_count {τ : Type} [TileLike τ] {C : ChildSpec τ size sub bs fl} {x0 y0 : ℚ} {nx ny : Nat} {T : Arr2 (Option τ)} {g : Grid τ} (hf : Frame C x0 y0 nx ny T g A) :
    g.numberOfTiles = some (g.tileObjects : Int) := by
  rw [hf.num]
  unfold tileObjects slotList
  rw [hf.tiles, List.countP_eq_length_filter]

/-- **C09** (single resolution): `number_of_tiles` is the number of tile objects (`None` or 0 for a grid without soundings), and every tile
object holds a sounding. -/
theorem C09_tile_count_sr (hs : 0 < size) {g : Grid Tile} (h : SRHistory env size bs fl F s g A) :
    (A ≠ [] → g.numberOfTiles = some (g.tileObjects : Int)) ∧ (A = [] → g.tileObjects = 0 ∧ (g.numberOfTiles = none ∨ g.numberOfTiles = some 0)) ∧
      ∀ r c t, g.TileAt r c t → t.pts ≠ [] := by
  have hi := (sr_inv hs h).1
  refine ⟨?_, ?_, ?_⟩
  · intro hA
    obtain ⟨i, j, nx, ny, T, hf, -⟩ := grow_body hi hA
    exact tileObjects_count hf
  · intro hA
    rcases hi.body with ⟨-, e, e'⟩ | ⟨e, -⟩
    · exact ⟨by unfold tileObjects slotList; rw [e]; rfl, e'⟩
    · exact absurd hA e
  · intro r c t ht
    obtain ⟨a, b, e, -, -, -, hrep, hne, -⟩ := tileAt_rep hi ht
    rw [(history_frame hs hrep.1).2.1.pts]
    exact fun h => hne (Store.nil_of_allPts (Store.within_ne _ _ _ _) h)

/-- **C09** (variable resolution): also for every subgrid and its tiles. -/
theorem C09_tile_count_vr (hs : 0 < size) (hsub : isPowerOfTwo sub = true) {g : Grid (Grid Tile)} (h : VRHistory env size sub bs fl F s g A) :
    (A ≠ [] → g.numberOfTiles = some (g.tileObjects : Int)) ∧ (A = [] → g.tileObjects = 0 ∧ (g.numberOfTiles = none ∨ g.numberOfTiles = some 0)) ∧
      ∀ r c u, g.TileAt r c u → u.numberOfTiles = some (u.tileObjects : Int) ∧ 0 < u.tileObjects ∧ ∀ r' c' t, u.TileAt r' c' t → t.pts ≠ [] := by
  have hi := (vr_inv hs hsub h).1
  refine ⟨?_, ?_, ?_⟩
  · intro hA
    obtain ⟨i, j, nx, ny, T, hf, -⟩ := grow_body hi hA
    exact tileObjects_count hf
  · intro hA
    rcases hi.body with ⟨-, e, e'⟩ | ⟨e, -⟩
    · exact ⟨by unfold tileObjects slotList; rw [e]; rfl, e'⟩
    · exact absurd hA e
  · intro r c u hu
    obtain ⟨a, b, e, -, -, -, hrep, hne, -⟩ := tileAt_rep hi hu
    have hrep : SubInv _ size _ _ u _ := hrep
    obtain ⟨T, hf⟩ := hrep.frame
    refine ⟨tileObjects_count hf, ?_, ?_⟩
    · have he := tilesRep_empty _ (isPowerOfTwo_pos hsub) hf.rep hf.inr hrep.ne
      have hne' : decide (A.within ((a : ℚ) * size) ((b : ℚ) * size) size = []) = false := by simpa using hne
      rw [hne', Bool.not_false, List.any_eq_true] at he
      obtain ⟨o, ho, hso⟩ := he
      unfold tileObjects slotList
      rw [hf.tiles]
      exact List.length_pos_of_mem (List.mem_filter.2 ⟨ho, hso⟩)
    · intro r' c' t ht
      obtain ⟨-, -, h1, h2⟩ := frame_tileAt hf.toReady ht
      rw [(history_frame (isPowerOfTwo_pos hsub) h1.1).2.1.pts]
      exact fun h => h2 (Store.nil_of_allPts (Store.within_ne _ _ _ _) h)

/-! ## C10 – C12 -/

/-- extents in whole tiles from (i, j) · size, `nx` by `ny` tiles, the tile origins listed, all soundings inside -/
def Aligned {τ : Type} (g : Grid τ) (size : ℚ) (pts : List Pt) : Prop :=
  ∃ (i j : ℤ) (nx ny : ℕ), 0 < nx ∧ 0 < ny ∧ g.extents = some ⟨i * size, (i + nx) * size, j * size, (j + ny) * size⟩ ∧
    g.txs = (List.range nx).map (fun k : Nat => ((i + k) * size : ℚ)) ∧ g.tys = (List.range ny).map (fun k : Nat => ((j + k) * size : ℚ)) ∧
    ∀ p ∈ pts, i * size ≤ p.x ∧ p.x < (i + nx) * size ∧ j * size ≤ p.y ∧ p.y < (j + ny) * size

theorem grow_aligned {τ : Type} [TileLike τ] {C : ChildSpec τ size sub bs fl} {g : Grid τ} (hg : GrowInv C g A) (hA : A ≠ []) : Aligned g size A.allPts := by
  obtain ⟨i, j, nx, ny, T, hf, he⟩ := grow_body hg hA
  refine ⟨i, j, nx, ny, hf.nx_pos, hf.ny_pos, ?_, ?_, ?_, ?_⟩
  · rw [he]; congr 2 <;> ring
  · rw [hf.txs]; unfold originsOf; apply List.map_congr_left; intro k _; ring
  · rw [hf.tys]; unfold originsOf; apply List.map_congr_left; intro k _; ring
  · intro p hp
    obtain ⟨h1, h2, h3, h4⟩ := hf.inr p hp
    exact ⟨h1, by linarith, h3, by linarith⟩

/-- **C10**: for a grid with origin (0, 0) that holds soundings the extents are multiples of the tile size, the tile origins are
min, min + size, … up to max, and every stored sounding is inside (greater or equal min, less than max). -/
theorem C10_extents_sr (hs : 0 < size) {g : Grid Tile} (h : SRHistory env size bs fl F s g A) (hA : A ≠ []) : Aligned g size A.allPts :=
  grow_aligned (sr_inv hs h).1 hA

/-- **C10** (variable resolution) -/
theorem C10_extents_vr (hs : 0 < size) (hsub : isPowerOfTwo sub = true) {g : Grid (Grid Tile)} (h : VRHistory env size sub bs fl F s g A) (hA : A ≠ []) :
    Aligned g size A.allPts := grow_aligned (vr_inv hs hsub h).1 hA

theorem add_grows {τ : Type} [TileLike τ] {C : ChildSpec τ size sub bs fl} (hs : 0 < size) {g : Grid τ} (hg : GrowInv C g A) (hA : A ≠ []) {pts : List Pt} {n : String} {a : AddArgs}
    (hok : (g.addPoints ⟨fl, pts⟩ n a).err = none) {e : Extents} (he : g.extents = some e) :
    ∃ e', (g.addPoints ⟨fl, pts⟩ n a).st.extents = some e' ∧ e'.minX ≤ e.minX ∧ e'.minY ≤ e.minY ∧ e.maxX + size ≤ e'.maxX ∧ e.maxY + size ≤ e'.maxY ∧
      ((∀ p ∈ pts, e.minX ≤ p.x ∧ p.x ≤ e.maxX ∧ e.minY ≤ p.y ∧ p.y ≤ e.maxY) →
        e' = ⟨e.minX, e.maxX + size, e.minY, e.maxY + size⟩) := by
  have hp : pts ≠ [] := by rintro rfl; exact addPoints_nil hg n a fl hok
  have hc : n ∉ A.names := by
    intro hc
    rw [add_duplicate hg hc] at hok
    cases hok
  have hm : (g.info.update n a).err = none := by
    rcases Option.eq_none_or_eq_some (g.info.update n a).err with hm | ⟨e, hm⟩
    · exact hm
    · exfalso
      unfold addPoints at hok
      simp only [hm] at hok
      split at hok
      · simp at hok
      · simp at hok
  obtain ⟨u, hu, -, -, -, -, i, j, nx, ny, T, hf, hext, hstep⟩ := addPoints_grow C hs hg hc hp hm
  obtain ⟨i0, j0, w, ht, T0, hf0, he0⟩ := grow_body hg hA
  rw [he] at he0
  cases he0
  have hemp : g.isEmpty = false := by rw [grow_isEmpty hs hg]; simpa using hA
  obtain ⟨b, d, hb, hd, hbw, hdh, hin⟩ := hstep.grown i0 j0 w ht hemp he
  rw [hu]
  have hb' : (i0 : ℚ) = (i : ℚ) + (b : ℚ) := by rw [← hb]; push_cast; ring
  have hd' : (j0 : ℚ) = (j : ℚ) + (d : ℚ) := by rw [← hd]; push_cast; ring
  have b0 : (0 : ℚ) ≤ (b : ℚ) * size := mul_nonneg (Nat.cast_nonneg _) hs.le
  have d0 : (0 : ℚ) ≤ (d : ℚ) * size := mul_nonneg (Nat.cast_nonneg _) hs.le
  have w1 : ((b : ℚ) + (w : ℚ) + 1) * size ≤ (nx : ℚ) * size := mul_le_mul_of_nonneg_right (by exact_mod_cast hbw) hs.le
  have w2 : ((d : ℚ) + (ht : ℚ) + 1) * size ≤ (ny : ℚ) * size := mul_le_mul_of_nonneg_right (by exact_mod_cast hdh) hs.le
  refine ⟨_, hext, ?_, ?_, ?_, ?_, ?_⟩
  · simp only; rw [hb']; linarith
  · simp only; rw [hd']; linarith
  · simp only; rw [hb']; linarith
  · simp only; rw [hd']; linarith
  · intro hall
    obtain ⟨rfl, rfl, rfl, rfl⟩ := hin hall
    have e1 : i = i0 := by omega
    have e2 : j = j0 := by omega
    subst e1; subst e2
    simp only [Extents.mk.injEq]
    refine ⟨trivial, ?_, trivial, ?_⟩ <;> push_cast <;> ring

/-- **C11**, what the code does instead (single resolution): every accepted `add_points` to a grid that has soundings extends it by at least
one tile to the right and to the top, and never cuts anything off; data inside the extents extends it by exactly one tile each.
The property asks for unchanged extents in that case: see `C11_violated`.  What does hold of it is that the lower left corner stays. -/
theorem C11_extents_grow_sr_partial (hs : 0 < size) {g : Grid Tile} (h : SRHistory env size bs fl F s g A) (hA : A ≠ []) {pts : List Pt} {n : String} {a : AddArgs}
    (hok : (g.addPoints ⟨fl, pts⟩ n a).err = none) {e : Extents} (he : g.extents = some e) :
    ∃ e', (g.addPoints ⟨fl, pts⟩ n a).st.extents = some e' ∧ e'.minX ≤ e.minX ∧ e'.minY ≤ e.minY ∧ e.maxX + size ≤ e'.maxX ∧ e.maxY + size ≤ e'.maxY ∧
      ((∀ p ∈ pts, e.minX ≤ p.x ∧ p.x ≤ e.maxX ∧ e.minY ≤ p.y ∧ p.y ≤ e.maxY) →
        e' = ⟨e.minX, e.maxX + size, e.minY, e.maxY + size⟩) :=
  add_grows hs (sr_inv hs h).1 hA hok he

/-- **C11**, what the code does instead (variable resolution) -/
theorem C11_extents_grow_vr_partial (hs : 0 < size) (hsub : isPowerOfTwo sub = true) {g : Grid (Grid Tile)} (h : VRHistory env size sub bs fl F s g A) (hA : A ≠ [])
    {pts : List Pt} {n : String} {a : AddArgs} (hok : (g.addPoints ⟨fl, pts⟩ n a).err = none) {e : Extents} (he : g.extents = some e) :
    ∃ e', (g.addPoints ⟨fl, pts⟩ n a).st.extents = some e' ∧ e'.minX ≤ e.minX ∧ e'.minY ≤ e.minY ∧ e.maxX + size ≤ e'.maxX ∧ e.maxY + size ≤ e'.maxY ∧
      ((∀ p ∈ pts, e.minX ≤ p.x ∧ p.x ≤ e.maxX ∧ e.minY ≤ p.y ∧ p.y ≤ e.maxY) →
        e' = ⟨e.minX, e.maxX + size, e.minY, e.maxY + size⟩) :=
  add_grows hs (vr_inv hs hsub h).1 hA hok he

/-! ### C12 -/

/-- **C12**, what the code does instead: whatever the origin, the tile edges after the first `add_points` are at multiples of the tile size
(not at origin + k · tile size), and if the origin is a tile or more away from 0 the extents leave out one of the soundings. -/
theorem C12_violated_general {ox oy : ℚ} (hs : 0 < size) {pts : List Pt} (hp : pts ≠ []) {n : String} {a : AddArgs} (hm : (Meta.update {} n a).err = none) :
    ∃ e, ((blank "SRGrid_Root" true ox oy size 0 bs none : Grid Tile).addPoints ⟨fl, pts⟩ n a).st.extents = some e ∧
      (∃ i i' j j' : ℤ, e = ⟨i * size, i' * size, j * size, j' * size⟩) ∧
      (size ≤ |ox| → ∃ p ∈ pts, ¬ (e.minX ≤ p.x ∧ p.x < e.maxX)) ∧ (size ≤ |oy| → ∃ p ∈ pts, ¬ (e.minY ≤ p.y ∧ p.y < e.maxY)) := by
  obtain ⟨x0, x1, y0, y1, m1, m2, m3, m4, he⟩ := first_extents (g := (blank "SRGrid_Root" true ox oy size 0 bs none : Grid Tile)) rfl rfl
    (d := ⟨fl, pts⟩) hp (n := n) (a := a) rfl hm
  have e1 : (blank "SRGrid_Root" true ox oy size 0 bs none : Grid Tile).originX = ox := rfl
  have e2 : (blank "SRGrid_Root" true ox oy size 0 bs none : Grid Tile).originY = oy := rfl
  have e3 : (blank "SRGrid_Root" true ox oy size 0 bs none : Grid Tile).tileSize = size := rfl
  rw [e1, e2, e3] at he
  have mult : ∀ lo hi o : ℚ, ∃ k k' : ℤ, adjust lo hi o size = (k * size, k' * size) := by
    intro lo hi o
    unfold adjust
    simp only
    split
    · exact ⟨⌊(lo - o) / size⌋, ⌈(hi - o) / size⌉ + 1, Prod.ext rfl (by push_cast; ring)⟩
    · exact ⟨_, _, rfl⟩
  have miss : ∀ lo hi o : ℚ, size ≤ |o| → ¬ ((adjust lo hi o size).1 ≤ lo ∧ hi < (adjust lo hi o size).2) := by
    rintro lo hi o ho ⟨h1, h2⟩
    rcases le_abs'.1 ho with h | h
    · -- the origin is at most -size
      have : (lo - o) / size < ⌊(lo - o) / size⌋ + 1 := Int.lt_floor_add_one _
      rw [div_lt_iff₀ hs] at this
      have h1 : (⌊(lo - o) / size⌋ : ℚ) * size ≤ lo := h1
      linarith
    · have hc : (⌈(hi - o) / size⌉ : ℚ) < (hi - o) / size + 1 := Int.ceil_lt_add_one _
      have hc' : (⌈(hi - o) / size⌉ : ℚ) * size < hi - o + size := by
        have := mul_lt_mul_of_pos_right hc hs
        rw [add_mul, div_mul_cancel₀ _ hs.ne'] at this
        linarith
      unfold adjust at h2
      simp only at h2
      split at h2
      · linarith
      · linarith
  refine ⟨_, he, ?_, ?_, ?_⟩
  · obtain ⟨i, i', hi⟩ := mult x0 x1 ox
    obtain ⟨j, j', hj⟩ := mult y0 y1 oy
    exact ⟨i, i', j, j', by rw [hi, hj]⟩
  · intro ho
    obtain ⟨p, hp, rfl⟩ := List.mem_map.1 m1
    obtain ⟨q, hq, rfl⟩ := List.mem_map.1 m2
    by_cases h1 : (adjust p.x q.x ox size).1 ≤ p.x
    · exact ⟨q, hq, fun h => miss p.x q.x ox ho ⟨h1, h.2⟩⟩
    · exact ⟨p, hp, fun h => h1 h.1⟩
  · intro ho
    obtain ⟨p, hp, rfl⟩ := List.mem_map.1 m3
    obtain ⟨q, hq, rfl⟩ := List.mem_map.1 m4
    by_cases h1 : (adjust p.y q.y oy size).1 ≤ p.y
    · exact ⟨q, hq, fun h => miss p.y q.y oy ho ⟨h1, h.2⟩⟩
    · exact ⟨p, hp, fun h => h1 h.1⟩

/-- extents in whole tiles counted from the origin, all soundings inside -/
def AlignedAt {τ : Type} (g : Grid τ) (ox oy size : ℚ) (pts : List Pt) : Prop :=
  ∃ (i j : ℤ) (nx ny : ℕ), g.extents = some ⟨ox + i * size, ox + (i + nx) * size, oy + j * size, oy + (j + ny) * size⟩ ∧
    g.txs = (List.range nx).map (fun k : Nat => (ox + (i + k) * size : ℚ)) ∧ g.tys = (List.range ny).map (fun k : Nat => (oy + (j + k) * size : ℚ)) ∧
    ∀ p ∈ pts, ox + i * size ≤ p.x ∧ p.x < ox + (i + nx) * size ∧ oy + j * size ≤ p.y ∧ p.y < oy + (j + ny) * size

/-- **C12**, the part that holds: for the origin (0, 0), after any history.  Missing: every other origin, see `C12_violated`. -/
theorem C12_origin_partial (hs : 0 < size) {g : Grid Tile} (h : SRHistory env size bs fl F s g A) (hA : A ≠ []) : AlignedAt g 0 0 size A.allPts := by
  obtain ⟨i, j, nx, ny, -, -, h1, h2, h3, h4⟩ := C10_extents_sr hs h hA
  refine ⟨i, j, nx, ny, ?_, ?_, ?_, ?_⟩
  · simpa using h1
  · simpa using h2
  · simpa using h3
  · simpa using h4

/-! ## concrete histories -/

private def pA : List Pt := [⟨3, 5, 10, 0, 0⟩, ⟨20, 5, 11, 0, 0⟩, ⟨21, 40, 12, 0, 0⟩]
private def pB : List Pt := [⟨3, 6, 13, 0, 0⟩, ⟨-20, 70, 14, 0, 0⟩]
private def pC : List Pt := [⟨200, 200, 9, 0, 0⟩, ⟨3, 5, 9, 0, 0⟩]

/-- a single resolution history: two containers, one rejected, gridded in parallel, one removed (C01 – C06, C08 – C11) -/
example : ∃ g, SRHistory demoEnv 16 false {} .plain false g [("b", pB)] ∧ g.pointsCount = 2 ∧ g.tileObjects = 2 ∧
    (∃ t, g.TileAt 4 0 t) ∧ (g.addPoints ⟨{}, pC⟩ "c" {}).err = none ∧ g.extents = some ⟨-32, 48, 0, 80⟩ ∧ "b" ∈ Store.names [("b", pB)] := by
  refine ⟨_, (((((GridHistory.new .plain).add pA "a" {} (by decide +kernel)).add pB "b" {} (by decide +kernel)).reject pA (by decide) "a" {}
    (by decide +kernel)).grid { alg := .mean, res := some 4 } rfl (some 3)).remove "a" (by decide +kernel), ?_⟩
  exact ⟨by decide +kernel, by decide +kernel, exists_tileAt (by decide +kernel), by decide +kernel, by decide +kernel, by decide +kernel⟩

/-- a variable resolution history: tiles of 32, subtiles of 16 -/
example : ∃ g, VRHistory demoEnv 32 16 false {} .plain false g [("b", pB)] ∧ g.pointsCount = 2 ∧ g.tileObjects = 2 ∧
    (∃ u, g.TileAt 2 0 u) ∧ (g.addPoints ⟨{}, pC⟩ "c" {}).err = none ∧ g.extents = some ⟨-32, 64, 0, 96⟩ ∧ isPowerOfTwo 16 = true := by
  refine ⟨_, (((((GridHistory.new .plain).add pA "a" {} (by decide +kernel)).add pB "b" {} (by decide +kernel)).reject pA (by decide) "a" {}
    (by decide +kernel)).grid { alg := .mean, res := some 4 } rfl (some 3)).remove "a" (by decide +kernel), ?_⟩
  exact ⟨by decide +kernel, by decide +kernel, exists_tileAt (by decide +kernel), by decide +kernel, by decide +kernel, by decide +kernel⟩

/-- an emptied grid (C07), single and variable resolution -/
example : ∃ g, SRHistory demoEnv 16 false {} .plain true g [] ∧ (g.info.update "c" {}).err = none ∧ (g.addPoints ⟨{}, pC⟩ "c" {}).err = none := by
  refine ⟨_, (((GridHistory.new .plain).add pA "a" {} (by decide +kernel)).remove "a" (by decide +kernel)), ?_⟩
  decide +kernel

example : ∃ g, VRHistory demoEnv 32 16 false {} .plain true g [] ∧ (g.info.update "c" {}).err = none ∧ (g.addPoints ⟨{}, pC⟩ "c" {}).err = none := by
  refine ⟨_, (((GridHistory.new .plain).add pA "a" {} (by decide +kernel)).remove "a" (by decide +kernel)), ?_⟩
  decide +kernel

/-- **C08** does not hold: a grid is filled by two containers, emptied, filled by a larger container; removing that one raises IndexError, because
the mask of existing tiles is still that of the first filling.  The container name is gone by then, its soundings are not all gone. -/
theorem C08_violated : ∃ g A, SRHistory demoEnv 16 false {} .plain true g A ∧ "c" ∈ A.names ∧ (g.removePoints "c").err = some .indexError ∧
    "c" ∉ (g.removePoints "c").st.info.container.keys ∧ (g.removePoints "c").st.tileObjects = 1 := by
  refine ⟨_, _, (((((GridHistory.new .plain).add pA "a" {} (by decide +kernel)).add pB "b" {} (by decide +kernel)).remove "a" (by decide +kernel)).remove "b"
    (by decide +kernel)).add pC "c" {} (by decide +kernel), ?_⟩
  decide +kernel

/-- **C11** does not hold: adding the same soundings again, under another name, extends the grid. -/
theorem C11_violated : ∃ g A, SRHistory demoEnv 16 false {} .plain false g A ∧ g.extents = some ⟨0, 32, 0, 48⟩ ∧
    (∀ p ∈ pA, (0 : ℚ) ≤ p.x ∧ p.x < 32 ∧ 0 ≤ p.y ∧ p.y < 48) ∧ (g.addPoints ⟨{}, pA⟩ "b" {}).err = none ∧
    (g.addPoints ⟨{}, pA⟩ "b" {}).st.extents = some ⟨0, 48, 0, 64⟩ := by
  refine ⟨_, _, (GridHistory.new .plain).add pA "a" {} (by decide +kernel), ?_⟩
  decide +kernel

/-- **C12** does not hold: with the origin (16, 0) a sounding is outside of the extents and `add_points` raises IndexError; with the
origin (-16, 0) a sounding is put into a tile that does not contain it. -/
theorem C12_violated :
    (((blank "SRGrid_Root" true 16 0 16 0 false none : Grid Tile).addPoints ⟨{}, [⟨20, 5, 1, 0, 0⟩, ⟨60, 5, 1, 0, 0⟩]⟩ "a" {}).st.extents = some ⟨0, 48, 0, 16⟩ ∧
      ((blank "SRGrid_Root" true 16 0 16 0 false none : Grid Tile).addPoints ⟨{}, [⟨20, 5, 1, 0, 0⟩, ⟨60, 5, 1, 0, 0⟩]⟩ "a" {}).err = some .indexError) ∧
    (((blank "SRGrid_Root" true (-16) 0 16 0 false none : Grid Tile).addPoints ⟨{}, [⟨20, 25, 1, 0, 0⟩, ⟨40, 10, 1, 0, 0⟩]⟩ "a" {}).err = none ∧
      ∃ t, ((blank "SRGrid_Root" true (-16) 0 16 0 false none : Grid Tile).addPoints ⟨{}, [⟨20, 25, 1, 0, 0⟩, ⟨40, 10, 1, 0, 0⟩]⟩ "a" {}).st.TileAt 1 1 t ∧
        ∃ p ∈ t.pts, ¬ (t.minX ≤ p.x)) := by
  refine ⟨by decide +kernel, by decide +kernel, ?_⟩
  obtain ⟨t, ht, hP⟩ := exists_tileAt_any (g := ((blank "SRGrid_Root" true (-16) 0 16 0 false none : Grid Tile).addPoints
    ⟨{}, [⟨20, 25, 1, 0, 0⟩, ⟨40, 10, 1, 0, 0⟩]⟩ "a" {}).st) (r := 1) (c := 1) (fun t => t.pts.any (fun p => !decide (t.minX ≤ p.x))) (by decide +kernel)
  obtain ⟨p, hp, hq⟩ := List.any_eq_true.1 hP
  exact ⟨t, ht, p, hp, by simpa using hq⟩

end Bathy
