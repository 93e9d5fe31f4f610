import Verif.Lemmas.Neighbours
import Verif.Lemmas.GridExtents
import Verif.Lemmas.GridCall
import Verif.Spec.DemoGrid
import Verif.Spec.Cube

/-!
# C39, C40: soundings near the border

Model: `Grid.neighbor`, `Grid.neighborPoints` (bathygrid/bgrid.py:892-1002).  Specification: `NearBorder`, `Beside` (`Verif/Spec/Neighbours.lean`), applied to
the soundings the user has put into the grid.
-/

namespace Bathy
open Grid

variable {env : Env} {size sub : ℚ} {bs : Bool} {fl : Fields} {F : Family} {s : Bool} {A : Store}

/-- **C39**: for a tile of a single resolution grid the answer is the soundings of the grid in the four neighbouring squares within the buffer of
the common border, each as often as it was added, and None if there are none. -/
theorem C39_neighbour_soundings (hs : 0 < size) {g : Grid Tile} (h : SRHistory env size bs fl F s g A) {r c : Nat} {t : Tile} (ht : g.TileAt r c t) (buf : ℚ) :
    ∃ o, g.neighborPoints (r * g.txs.length + c) buf = .ok o ∧ (answerPts o).Perm (A.allPts.filter (fun p => decide (NearBorder t.minX t.minY size buf p))) ∧
      (o = none ↔ ∀ p ∈ A.allPts, ¬ NearBorder t.minX t.minY size buf p) ∧ ∀ d, o = some d → d.fields = fl := by
  have hi := (sr_inv hs h).1
  rcases hi.body with ⟨-, h2, -⟩ | ⟨hA, i, j, nx, ny, T, hf, hext⟩
  · obtain ⟨T, hT, -⟩ := ht; rw [hT] at h2; cases h2
  · obtain ⟨hr, hc, hrep, -⟩ := frame_tileAt hf.toReady ht
    have hfr := (history_frame hs hrep.1).1
    have f1 : t.minX = (i : ℚ) * size + (c : ℚ) * size := hfr.1
    have f3 : t.minY = (j : ℚ) * size + (r : ℚ) * size := hfr.2.2.1
    have hl : g.txs.length = nx := by rw [hf.txs]; simp [originsOf]
    rw [hl]
    rw [← f1, ← f3] at hrep
    have hslot : ∀ sd, ∃ ls, g.neighborSide (r * nx + c) buf sd = .ok ls ∧ (∀ d ∈ ls, d.fields = fl) ∧
        (ls.map PtArr.pts).flatten = sidePts sd t.minX t.minY size buf A.allPts := by
      intro sd
      have := neighbor_slot _ hf.toReady hr hc sd
      rw [← f1, ← f3] at this
      have hw : (A.within (sideX sd t.minX size) (sideY sd t.minY size) size).allPts.filter
          (fun p => decide (sideNear sd (sideX sd t.minX size) (sideY sd t.minY size) size buf p)) = sidePts sd t.minX t.minY size buf A.allPts := by
        rw [Store.allPts_within, List.filter_filter]
        unfold sidePts
        apply List.filter_congr
        intro p _
        rw [Bool.eq_iff_iff]
        simp only [Bool.and_eq_true, decide_eq_true_eq]
        exact and_comm
      unfold neighborSide
      rcases this with ⟨e1, e2⟩ | ⟨t', e1, hne, hrep', -⟩
      · rw [e1]
        refine ⟨[], rfl, by simp, ?_⟩
        rw [← hw, e2]; rfl
      · rw [e1]
        refine ⟨_, sidePoints_tile hs hrep' hne sd buf, ?_, ?_⟩
        · intro d hd
          rw [List.mem_singleton.1 hd]
        · rw [← hw]; simp
    obtain ⟨o, ho, hc⟩ := neighborPoints_of _ hslot
    have hperm := sidePts_perm (size := size) t.minX t.minY buf A.allPts
    refine ⟨o, ho, ?_, ?_, ?_⟩
    · rcases hc with ⟨rfl, h0⟩ | ⟨rfl, -⟩
      · rw [h0] at hperm; exact hperm
      · exact hperm
    · have hnil : (∀ p ∈ A.allPts, ¬ NearBorder t.minX t.minY size buf p) ↔ A.allPts.filter (fun p => decide (NearBorder t.minX t.minY size buf p)) = [] := by
        rw [List.filter_eq_nil_iff]
        simp only [decide_eq_true_eq]
      rw [hnil]
      rcases hc with ⟨rfl, h0⟩ | ⟨rfl, h0⟩
      · rw [h0] at hperm
        exact iff_of_true rfl hperm.nil_eq.symm
      · refine iff_of_false (by simp) ?_
        intro h1
        rw [h1] at hperm
        exact h0 hperm.eq_nil
    · rintro d rfl
      rcases hc with ⟨h0, -⟩ | ⟨h0, -⟩
      · cases h0
      · cases h0; rfl

/-- a row of three tiles and one above; the middle one is asked about -/
def rowPts : List Pt := [⟨20, 5, 1, 0, 0⟩, ⟨15, 3, 2, 0, 0⟩, ⟨9, 3, 3, 0, 0⟩, ⟨33, 3, 4, 0, 0⟩, ⟨40, 3, 5, 0, 0⟩, ⟨20, 17, 6, 0, 0⟩, ⟨33, 17, 7, 0, 0⟩]

def rowGrid : Grid Tile := ((newSR 16 false).addPoints ⟨{}, rowPts⟩ "a" {}).st

theorem rowGrid_history : SRHistory demoEnv 16 false {} .plain false rowGrid [("a", rowPts)] := (GridHistory.new .plain).add rowPts "a" {} (by decide +kernel)

/-- the hypotheses of `C39_neighbour_soundings` are met, with a tile that has neighbours near and far, and soundings diagonally opposite that do not count -/
example : ∃ t, rowGrid.TileAt 0 1 t ∧ t.minX = 16 ∧ ∃ o, rowGrid.neighborPoints 1 2 = .ok o ∧
    (answerPts o).Perm [⟨15, 3, 2, 0, 0⟩, ⟨33, 3, 4, 0, 0⟩, ⟨20, 17, 6, 0, 0⟩] := by
  have he : ∃ t, rowGrid.TileAt 0 1 t ∧ t.minX = 16 ∧ t.minY = 0 := by
    obtain ⟨t, ht, h⟩ := exists_tileAt_any (g := rowGrid) (r := 0) (c := 1) (fun t : Tile => decide (t.minX = 16 ∧ t.minY = 0)) (by decide +kernel)
    exact ⟨t, ht, by simpa using h⟩
  obtain ⟨t, ht, h1, h2⟩ := he
  obtain ⟨o, ho, hp, -⟩ := C39_neighbour_soundings (by norm_num) rowGrid_history ht 2
  rw [h1, h2] at hp
  refine ⟨t, ht, h1, o, ?_, ?_⟩
  · have : rowGrid.txs.length = 3 := by decide +kernel
    rw [this] at ho
    exact ho
  · have : (Store.allPts [("a", rowPts)]).filter (fun p => decide (NearBorder 16 0 16 2 p)) = [⟨15, 3, 2, 0, 0⟩, ⟨33, 3, 4, 0, 0⟩, ⟨20, 17, 6, 0, 0⟩] := by decide +kernel
    rwa [this] at hp

/-- the slot in row `r'`, column `c'` shares an edge with the one in row `r`, column `c` -/
def EdgeAdjacent (r c r' c' : Nat) : Prop := (r' + 1 = r ∧ c' = c) ∨ (r' = r ∧ c' = c + 1) ∨ (r' = r + 1 ∧ c' = c) ∨ (r' = r ∧ c' + 1 = c)

/-- the neighbours in the sense of the code share an edge -/
theorem neighbor_adjacent {τ : Type} {g : Grid τ} {T : Arr2 (Option τ)} (hT : g.tiles = some T) {r c : Nat} (hc : c < T.cols) {sd : Side} {u : τ}
    (h : g.neighbor (r * T.cols + c) sd = some u) : ∃ r' c', g.TileAt r' c' u ∧ EdgeAdjacent r c r' c' := by
  have hj : ∀ {o : Option (Option τ)}, o.join = some u → o = some (some u) := by
    intro o ho
    rcases o with _ | _ | v
    · cases ho
    · cases ho
    · cases ho; rfl
  unfold neighbor at h
  rw [hT] at h
  simp only [Arr2.idx_div hc, Arr2.idx_mod hc] at h
  unfold EdgeAdjacent
  cases sd with
  | up =>
    simp only at h
    split at h
    · cases h
    · rename_i h0
      exact ⟨r - 1, c, ⟨T, hT, hj h⟩, .inl ⟨by omega, rfl⟩⟩
  | right => exact ⟨r, c + 1, ⟨T, hT, hj h⟩, .inr (.inl ⟨rfl, rfl⟩)⟩
  | down => exact ⟨r + 1, c, ⟨T, hT, hj h⟩, .inr (.inr (.inl ⟨rfl, rfl⟩))⟩
  | left =>
    simp only at h
    split at h
    · cases h
    · rename_i h0
      exact ⟨r, c - 1, ⟨T, hT, hj h⟩, .inr (.inr (.inr ⟨rfl, by omega⟩))⟩

/-- every tile that shares an edge is a neighbour in the sense of the code -/
theorem adjacent_neighbor {τ : Type} {g : Grid τ} {T : Arr2 (Option τ)} (hT : g.tiles = some T) {r c r' c' : Nat} (hc : c < T.cols) {u : τ}
    (hu : g.TileAt r' c' u) (h : EdgeAdjacent r c r' c') : ∃ sd, g.neighbor (r * T.cols + c) sd = some u := by
  obtain ⟨T', hT', hg⟩ := hu
  rw [hT] at hT'; cases hT'
  have hj : (T.get? r' c').join = some u := by rw [hg]; rfl
  unfold neighbor
  rw [hT]
  simp only [Arr2.idx_div hc, Arr2.idx_mod hc]
  rcases h with ⟨rfl, rfl⟩ | ⟨rfl, rfl⟩ | ⟨rfl, rfl⟩ | ⟨rfl, rfl⟩
  · exact ⟨.up, by simpa using hj⟩
  · exact ⟨.right, hj⟩
  · exact ⟨.down, hj⟩
  · exact ⟨.left, by simpa using hj⟩

/-- **C40**, the part that holds: if the tile size is a multiple of the subtile size and every neighbouring subgrid has all its tiles, the call succeeds; the
answer holds every sounding within the buffer of the common border, and only soundings of the neighbouring squares.
Missing: neighbouring subgrids with a tile missing, see `C40_fails`, and that the answer holds nothing outside the buffer, see `C40_violated`. -/
theorem C40_neighbour_soundings_partial (hs : 0 < size) (hsub : isPowerOfTwo sub = true) {m : Nat} (hm : size = (m : ℚ) * sub) {g : Grid (Grid Tile)}
    (h : VRHistory env size sub bs fl F s g A) {r c : Nat} {u : Grid Tile} (hu : g.TileAt r c u) {x y : ℚ} (hx : u.extents = some ⟨x, x + size, y, y + size⟩)
    (hfull : ∀ r' c' v, g.TileAt r' c' v → EdgeAdjacent r c r' c' → ∀ o ∈ v.slotList, o.isSome) (buf : ℚ) :
    ∃ o, g.neighborPoints (r * g.txs.length + c) buf = .ok o ∧
      (A.allPts.filter (fun p => decide (NearBorder x y size buf p))).Subperm (answerPts o) ∧
      (answerPts o).Subperm (A.allPts.filter (fun p => decide (Beside x y size p))) := by
  have hi := (vr_inv hs hsub h).1
  have hsp := isPowerOfTwo_pos hsub
  have hmp : 0 < m := by
    rcases Nat.eq_zero_or_pos m with h0 | h0
    · rw [h0] at hm; push_cast at hm; rw [zero_mul] at hm; exact absurd hm hs.ne'
    · exact h0
  rcases hi.body with ⟨-, h2, -⟩ | ⟨hA, i, j, nx, ny, T, hf, hext⟩
  · obtain ⟨T, hT, -⟩ := hu; rw [hT] at h2; cases h2
  · obtain ⟨hr, hc, hrep, -⟩ := frame_tileAt hf.toReady hu
    have hrep : SubInv _ size _ _ u _ := hrep
    have hcols : T.cols = nx := hf.rep.2.1
    have hl : g.txs.length = nx := by rw [hf.txs]; simp [originsOf]
    have hxy : x = (i : ℚ) * size + (c : ℚ) * size ∧ y = (j : ℚ) * size + (r : ℚ) * size := by
      have := hrep.extents
      rw [hx] at this
      simp only [Option.some.injEq, Extents.mk.injEq] at this
      exact ⟨this.1, this.2.2.1⟩
    rw [hl]
    have hslot : ∀ sd, ∃ ls, g.neighborSide (r * nx + c) buf sd = .ok ls ∧ (∀ d ∈ ls, d.fields = fl) ∧
        (sidePts sd x y size buf A.allPts).Subperm (ls.map PtArr.pts).flatten ∧
        ((ls.map PtArr.pts).flatten).Subperm (A.allPts.filter (fun p => decide (InBox (sideX sd x size) (sideY sd y size) size p))) := by
      intro sd
      have := neighbor_slot _ hf.toReady hr hc sd
      rw [← hxy.1, ← hxy.2] at this
      have hw : (A.within (sideX sd x size) (sideY sd y size) size).allPts.filter
          (fun p => decide (sideNear sd (sideX sd x size) (sideY sd y size) size buf p)) = sidePts sd x y size buf A.allPts := by
        rw [Store.allPts_within, List.filter_filter]
        unfold sidePts
        apply List.filter_congr
        intro p _
        rw [Bool.eq_iff_iff]
        simp only [Bool.and_eq_true, decide_eq_true_eq]
        exact and_comm
      unfold neighborSide
      rcases this with ⟨e1, e2⟩ | ⟨v, e1, hne, hrep'⟩
      · rw [e1]
        refine ⟨[], rfl, by simp, ?_, ?_⟩
        · rw [← hw, e2]; exact List.Subperm.refl _
        · exact List.nil_subperm
      · rw [e1]
        have hrep' : SubInv _ size _ _ v _ := hrep'
        have hb : ∀ p ∈ (A.within (sideX sd x size) (sideY sd y size) size).allPts, InBox (sideX sd x size) (sideY sd y size) size p := Store.within_box _ _ _ _
        obtain ⟨b1, b2⟩ := subNear_bounds hsp hm hmp sd buf hb
        rw [← hcols] at e1 hc
        obtain ⟨r', c', hv, had⟩ := neighbor_adjacent hf.tiles hc e1
        rcases sidePoints_sub hsp hrep' sd buf with ⟨⟨o, ho, e⟩, -⟩ | ⟨-, ls, h3, h4, h5⟩
        · have := hfull r' c' v hv had o ho
          rw [e] at this; cases this
        · refine ⟨ls, h3, h4, ?_, ?_⟩
          · rw [← hw, h5]; exact b1
          · rw [← Store.allPts_within, h5]; exact b2
    choose L hL hfl hlow hup using hslot
    obtain ⟨o, ho, hc⟩ := neighborPoints_of (fl := fl) (fun sd => ((L sd).map PtArr.pts).flatten) (fun sd => ⟨L sd, hL sd, hfl sd, rfl⟩)
    have ha : answerPts o = ((L .up).map PtArr.pts).flatten ++ ((L .right).map PtArr.pts).flatten ++ ((L .down).map PtArr.pts).flatten ++ ((L .left).map PtArr.pts).flatten := by
      rcases hc with ⟨rfl, h0⟩ | ⟨rfl, -⟩
      · exact h0.symm
      · rfl
    refine ⟨o, ho, ?_, ?_⟩
    · rw [ha]
      exact (sidePts_perm (size := size) x y buf A.allPts).symm.subperm.trans (subperm_append (subperm_append (subperm_append (hlow .up) (hlow .right)) (hlow .down)) (hlow .left))
    · rw [ha]
      exact (subperm_append (subperm_append (subperm_append (hup .up) (hup .right)) (hup .down)) (hup .left)).trans (beside_perm (size := size) x y A.allPts).subperm

/-- **C40** fails: whenever a neighbouring subgrid has a slot without tile, the call raises AttributeError. -/
theorem C40_fails (hs : 0 < size) (hsub : isPowerOfTwo sub = true) {g : Grid (Grid Tile)} (h : VRHistory env size sub bs fl F s g A) {r c r' c' : Nat}
    {u v : Grid Tile} (hu : g.TileAt r c u) (hv : g.TileAt r' c' v) (had : EdgeAdjacent r c r' c') (hno : none ∈ v.slotList) (buf : ℚ) :
    g.neighborPoints (r * g.txs.length + c) buf = .error .attributeError := by
  have hi := (vr_inv hs hsub h).1
  have hsp := isPowerOfTwo_pos hsub
  rcases hi.body with ⟨-, h2, -⟩ | ⟨hA, i, j, nx, ny, T, hf, hext⟩
  · obtain ⟨T, hT, -⟩ := hu; rw [hT] at h2; cases h2
  · obtain ⟨hr, hc, -, -⟩ := frame_tileAt hf.toReady hu
    have hcols : T.cols = nx := hf.rep.2.1
    have hl : g.txs.length = nx := by rw [hf.txs]; simp [originsOf]
    rw [hl]
    have hside : ∀ sd, (∃ ls, g.neighborSide (r * nx + c) buf sd = .ok ls) ∨ g.neighborSide (r * nx + c) buf sd = .error .attributeError := by
      intro sd
      unfold neighborSide
      rcases neighbor_slot _ hf.toReady hr hc sd with ⟨e1, e2⟩ | ⟨w, e1, hne, hrep'⟩
      · rw [e1]; exact .inl ⟨[], rfl⟩
      · rw [e1]
        have hrep' : SubInv _ size _ _ w _ := hrep'
        rcases sidePoints_sub hsp hrep' sd buf with ⟨-, h3⟩ | ⟨-, ls, h3, -⟩
        · exact .inr h3
        · exact .inl ⟨ls, h3⟩
    have hbad : ∃ sd, g.neighborSide (r * nx + c) buf sd = .error .attributeError := by
      obtain ⟨sd, e1⟩ := adjacent_neighbor hf.tiles (by rw [hcols]; exact hc) hv had
      rw [hcols] at e1
      refine ⟨sd, ?_⟩
      unfold neighborSide
      rcases neighbor_slot _ hf.toReady hr hc sd with ⟨e2, -⟩ | ⟨w, e2, hne, hrep'⟩
      · rw [e1] at e2; cases e2
      · rw [e1] at e2
        obtain rfl : v = w := by cases e2; rfl
        have hrep' : SubInv _ size _ _ v _ := hrep'
        rw [e1]
        rcases sidePoints_sub hsp hrep' sd buf with ⟨-, h3⟩ | ⟨h3, -⟩
        · exact h3
        · have := h3 none hno
          cases this
    unfold neighborPoints
    have : [Side.up, .right, .down, .left].mapM (g.neighborSide (r * nx + c) buf) = .error .attributeError := by
      simp only [List.mapM_cons, List.mapM_nil]
      obtain ⟨sd, hb⟩ := hbad
      rcases hside .up with ⟨l1, h1⟩ | h1
      · rcases hside .right with ⟨l2, h2⟩ | h2
        · rcases hside .down with ⟨l3, h3⟩ | h3
          · rcases hside .left with ⟨l4, h4⟩ | h4
            · cases sd
              · rw [h1] at hb; cases hb
              · rw [h2] at hb; cases hb
              · rw [h3] at hb; cases hb
              · rw [h4] at hb; cases hb
            · simp only [h1, h2, h3, h4]; rfl
          · simp only [h1, h2, h3]; rfl
        · simp only [h1, h2]; rfl
      · simp only [h1]; rfl
    rw [this]

/-- two subgrids; the right one has all four tiles -/
def pairPts : List Pt := [⟨5, 5, 1, 0, 0⟩, ⟨17, 3, 2, 0, 0⟩, ⟨25, 3, 3, 0, 0⟩, ⟨22, 10, 4, 0, 0⟩, ⟨30, 10, 5, 0, 0⟩]

def pairGrid : Grid (Grid Tile) := ((newVR 16 8 false).addPoints ⟨{}, pairPts⟩ "a" {}).st

theorem pairGrid_history : VRHistory demoEnv 16 8 false {} .plain false pairGrid [("a", pairPts)] := (GridHistory.new .plain).add pairPts "a" {} (by decide +kernel)

/-- the hypotheses of `C40_neighbour_soundings_partial` are met -/
example : ∃ u, pairGrid.TileAt 0 0 u ∧ u.extents = some ⟨0, 0 + 16, 0, 0 + 16⟩ ∧ (∀ r' c' v, pairGrid.TileAt r' c' v → EdgeAdjacent 0 0 r' c' → ∀ o ∈ v.slotList, o.isSome) ∧
    ∃ v, pairGrid.TileAt 0 1 v := by
  obtain ⟨u, hu, h⟩ := exists_tileAt_any (g := pairGrid) (r := 0) (c := 0) (fun u : Grid Tile => decide (u.extents = some ⟨0, 0 + 16, 0, 0 + 16⟩)) (by decide +kernel)
  obtain ⟨v, hv, h'⟩ := exists_tileAt_any (g := pairGrid) (r := 0) (c := 1) (fun u : Grid Tile => u.slotList.all Option.isSome) (by decide +kernel)
  refine ⟨u, hu, by simpa using h, ?_, v, hv⟩
  intro r' c' w hw had
  rcases had with ⟨h1, -⟩ | ⟨rfl, rfl⟩ | ⟨rfl, rfl⟩ | ⟨-, h1⟩
  · omega
  · rw [tileAt_unique hw hv]
    exact List.all_eq_true.1 h'
  · exfalso
    obtain ⟨T, hT, hg⟩ := hw
    have : ((pairGrid.tiles.bind (fun T => T.get? (0 + 1) 0)).join).isSome = false := by decide +kernel
    rw [hT] at this
    simp only [Option.bind_some, hg] at this
    cases this
  · omega

/-- **C40** is false: also with all tiles there, soundings far from the common border are returned (⟨25, 3⟩ is 9 units from the border at 16, the buffer is 2);
and the call fails when a tile of the neighbour is missing. -/
theorem C40_violated :
    (∃ g A d, VRHistory demoEnv 16 8 false {} .plain false g A ∧ g.neighborPoints 0 2 = .ok (some d) ∧ (⟨25, 3, 3, 0, 0⟩ : Pt) ∈ d.pts ∧ ¬ NearBorder 0 0 16 2 ⟨25, 3, 3, 0, 0⟩) ∧
    (∃ g A r c u, VRHistory demoEnv 16 8 false {} .plain false g A ∧ g.TileAt r c u ∧ g.neighborPoints (r * g.txs.length + c) 2 = .error .attributeError) := by
  refine ⟨⟨pairGrid, _, ⟨{}, [⟨17, 3, 2, 0, 0⟩, ⟨25, 3, 3, 0, 0⟩]⟩, pairGrid_history, by decide +kernel, by decide, by decide +kernel⟩, ?_⟩
  obtain ⟨v, hv, -⟩ := exists_tileAt_any (g := pairGrid) (r := 0) (c := 1) (fun _ : Grid Tile => true) (by decide +kernel)
  exact ⟨pairGrid, _, 0, 1, v, pairGrid_history, hv, by decide +kernel⟩

end Bathy
