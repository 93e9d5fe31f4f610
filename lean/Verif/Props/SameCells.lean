import Verif.Lemmas.SameCells
import Verif.Props.Backscatter
import Verif.Props.Layers

/-!
# C85: the layers of a grid have numbers in the same cells

Model: `Tile.gridAt`, `Tile.resetLayers`, `Tile.runPlain` (bathygrid/tile.py), `npGridMean`, `npGridShoalest` (bathygrid/algorithms.py).
-/

namespace Bathy
open Grid

variable {env : Env} {size sub : ℚ} {bs : Bool} {fl : Fields} {s : Bool} {A : Store}

/-- some tile stores a number for the layer in the cell with lower left corner (x, y) -/
def Numbered {τ : Type} [HasLeaves τ] (g : τ) (l : Layer) (res x y : ℚ) : Prop := ∃ z, StoredCell g l res x y z

/-- The main layer and the uncertainties have numbers in the same cells, which are those with a positive density; densities are numbers of soundings. -/
structure SameCells {τ : Type} [HasLeaves τ] (g : τ) (main : Layer) (fl : Fields) (res : ℚ) : Prop where
  vertical : fl.hasTvu = true → ∀ x y, Numbered g .vertical res x y ↔ Numbered g main res x y
  horizontal : fl.hasThu = true → ∀ x y, Numbered g .horizontal res x y ↔ Numbered g main res x y
  density : ∀ x y, (∃ n, 0 < n ∧ StoredCell g .density res x y n) ↔ Numbered g main res x y
  count : ∀ x y z, StoredCell g .density res x y z → ∃ n : Nat, z = (n : ℚ)

/-- two arrays made from the same soundings -/
theorem paired {a a' : LayerArr} {n : Nat} {x y res : ℚ} {pts : List Pt} {R R' : List Pt → Option ℚ → Prop} (h : EachCell a n x y res pts R) (h' : EachCell a' n x y res pts R')
    {i j : Nat} {v : Option ℚ} (hv : a.get? i j = some v) : ∃ ps v', a'.get? i j = some v' ∧ R ps v ∧ R' ps v' := by
  obtain ⟨-, r1, c1, e1⟩ := h
  obtain ⟨-, r2, c2, e2⟩ := h'
  have hij : i < a.rows ∧ j < a.cols := by
    by_contra hn; rw [Arr2.get?_none_of_not_lt a hn] at hv; cases hv
  rw [r1, c1] at hij
  obtain ⟨w, hw, hR⟩ := e1 i j hij.1 hij.2
  obtain ⟨w', hw', hR'⟩ := e2 i j hij.1 hij.2
  rw [hv, Option.some.injEq] at hw
  subst hw
  exact ⟨_, w', hw', hR, hR'⟩

/-- a stored cell of one layer gives the cell of another layer of the same tile -/
theorem stored_paired {τ : Type} [HasLeaves τ] {g : τ} {l l' : Layer} {w res : ℚ} {R R' : List Pt → Option ℚ → Prop}
    (hl : l.isCore = true) (hl' : l'.isCore = true)
    (h : ∀ u, HasLeaves.leaf g u → ∀ ls, u.cells.get? res = some ls → ∃ x y pts,
      (∃ a, (core ls).get? l = some a ∧ EachCell a (ncells w res) x y res pts R) ∧ (∃ a, (core ls).get? l' = some a ∧ EachCell a (ncells w res) x y res pts R'))
    {x y z : ℚ} (hz : StoredCell g l res x y z) : ∃ ps v', R ps (some z) ∧ R' ps v' ∧ ∀ z', v' = some z' → StoredCell g l' res x y z' := by
  obtain ⟨u, ls, a, i, j, h1, h2, h3, h4, h5, h6⟩ := hz
  obtain ⟨x0, y0, pts, ⟨b, hb, eb⟩, b', hb', eb'⟩ := h u h1 ls h2
  rw [core_get? ls hl, h3, Option.some.injEq] at hb
  subst hb
  rw [core_get? ls hl'] at hb'
  obtain ⟨ps, v', q1, q2, q3⟩ := paired eb eb' h4
  exact ⟨ps, v', q2, q3, fun z' hz' => ⟨u, ls, b', i, j, h1, h2, hb', by rw [q1, hz'], h5, h6⟩⟩

/-- from the tiles to the whole grid -/
theorem sameCells_of_leaves {τ : Type} [HasLeaves τ] {g : τ} {main : Layer} (hm : main.isCore = true) {w res : ℚ}
    (h : ∀ u, HasLeaves.leaf g u → ∀ ls, u.cells.get? res = some ls → ∃ x y pts, Tile.MadeFrom main fl x y w res pts (core ls)) : SameCells g main fl res := by
  have some_of : ∀ {ps : List Pt} {z : ℚ} {v : Option ℚ}, Tile.FilledCell ps (some z) → Tile.FilledCell ps v → ∃ z', v = some z' := by
    intro ps z v h1 h2
    apply Option.ne_none_iff_exists'.1
    intro hv
    have := h1.2 (h2.1 hv); cases this
  have both : ∀ {l l' : Layer}, l.isCore = true → l'.isCore = true → (∀ u, HasLeaves.leaf g u → ∀ ls, u.cells.get? res = some ls → ∃ x y pts,
      (∃ a, (core ls).get? l = some a ∧ EachCell a (ncells w res) x y res pts Tile.FilledCell) ∧
      (∃ a, (core ls).get? l' = some a ∧ EachCell a (ncells w res) x y res pts Tile.FilledCell)) → ∀ x y, Numbered g l res x y → Numbered g l' res x y := by
    intro l l' hl hl' hq x y ⟨z, hz⟩
    obtain ⟨ps, v', q1, q2, q3⟩ := stored_paired hl hl' hq hz
    obtain ⟨z', rfl⟩ := some_of q1 q2
    exact ⟨z', q3 z' rfl⟩
  refine ⟨fun hv x y => ⟨both rfl hm ?_ x y, both hm rfl ?_ x y⟩, fun hv x y => ⟨both rfl hm ?_ x y, both hm rfl ?_ x y⟩, fun x y => ⟨?_, ?_⟩, ?_⟩
  · intro u hu ls hls; obtain ⟨x, y, pts, m1, -, m3, m4⟩ := h u hu ls hls; exact ⟨x, y, pts, m3 hv, m1⟩
  · intro u hu ls hls; obtain ⟨x, y, pts, m1, -, m3, m4⟩ := h u hu ls hls; exact ⟨x, y, pts, m1, m3 hv⟩
  · intro u hu ls hls; obtain ⟨x, y, pts, m1, -, m3, m4⟩ := h u hu ls hls; exact ⟨x, y, pts, m4 hv, m1⟩
  · intro u hu ls hls; obtain ⟨x, y, pts, m1, -, m3, m4⟩ := h u hu ls hls; exact ⟨x, y, pts, m1, m4 hv⟩
  · rintro ⟨n, hn, hz⟩
    obtain ⟨ps, v', q1, q2, q3⟩ := stored_paired (R := CountCell) (R' := Tile.FilledCell) (w := w) rfl hm
      (fun u hu ls hls => by obtain ⟨x, y, pts, m1, m2, -⟩ := h u hu ls hls; exact ⟨x, y, pts, m2, m1⟩) hz
    have : ¬ v' = none := by
      intro hv
      have := q2.1 hv
      subst this
      simp only [CountCell, List.length_nil, Option.some.injEq] at q1
      rw [q1] at hn; simp at hn
    obtain ⟨z', rfl⟩ := Option.ne_none_iff_exists'.1 this
    exact ⟨z', q3 z' rfl⟩
  · rintro ⟨z, hz⟩
    obtain ⟨ps, v', q1, q2, q3⟩ := stored_paired (R := Tile.FilledCell) (R' := CountCell) (w := w) hm rfl
      (fun u hu ls hls => by obtain ⟨x, y, pts, m1, m2, -⟩ := h u hu ls hls; exact ⟨x, y, pts, m1, m2⟩) hz
    have hps : ps ≠ [] := by rintro rfl; have := q1.2 rfl; cases this
    exact ⟨_, by have := List.length_pos_iff.2 hps; exact_mod_cast this, q3 _ q2⟩
  · intro x y z hz
    obtain ⟨ps, v', q1, -⟩ := stored_paired (R := CountCell) (R' := CountCell) (w := w) rfl rfl
      (fun u hu ls hls => by obtain ⟨x, y, pts, m1, m2, -⟩ := h u hu ls hls; exact ⟨x, y, pts, m2, m2⟩) hz
    exact ⟨ps.length, by simpa [CountCell] using q1⟩

theorem sr_made (hs : 0 < size) {g : Grid Tile} (h : SRHistory env size bs fl .plain s g A) {r c : Nat} {u : Tile} (ht : g.TileAt r c u) {res : ℚ} {ls : Dict Layer LayerArr}
    (hls : u.cells.get? res = some ls) : ∃ x y pts, Tile.MadeFrom (if bs then .intensity else .depth) fl x y size res pts (core ls) := by
  obtain ⟨a, b, e, -, -, -, hrep, -⟩ := tileAt_rep (sr_inv hs h).1 ht
  have hcore : u.coreAt res = some (core ls) := by unfold Tile.coreAt; rw [hls]; rfl
  obtain ⟨pts, hp⟩ := history_made hs hrep.1 rfl res _ hcore
  have hd : u.depthKey = if bs then .intensity else .depth := by
    unfold Tile.depthKey; rw [(history_frame hs hrep.1).1.2.2.2.2.2.2]; rfl
  rw [hd] at hp
  exact ⟨_, _, pts, hp⟩

theorem vr_made (hs : 0 < size) (hsub : isPowerOfTwo sub = true) {g : Grid (Grid Tile)} (h : VRHistory env size sub bs fl .plain s g A) {r c r' c' : Nat} {v : Grid Tile}
    (hv : g.TileAt r c v) {u : Tile} (ht : v.TileAt r' c' u) {res : ℚ} {ls : Dict Layer LayerArr} (hls : u.cells.get? res = some ls) :
    ∃ x y pts, Tile.MadeFrom .depth fl x y sub res pts (core ls) := by
  obtain ⟨a, b, e, -, -, -, hrep, -⟩ := tileAt_rep (vr_inv hs hsub h).1 hv
  have hrep : SubInv _ size _ _ v _ := hrep
  obtain ⟨T, hf⟩ := hrep.frame
  obtain ⟨-, -, h1, -⟩ := frame_tileAt hf.toReady ht
  have hcore : u.coreAt res = some (core ls) := by unfold Tile.coreAt; rw [hls]; rfl
  obtain ⟨pts, hp⟩ := history_made (isPowerOfTwo_pos hsub) h1.1 rfl res _ hcore
  have hd : u.depthKey = .depth := by
    unfold Tile.depthKey; rw [(history_frame (isPowerOfTwo_pos hsub) h1.1).1.2.2.2.2.2.2]; rfl
  rw [hd] at hp
  exact ⟨_, _, pts, hp⟩

/-- **C85** (single resolution grids).  After any calls, if the last algorithms are mean and shoalest: at every resolution the cells with a number in the main layer, the cells with
a vertical uncertainty, the cells with a horizontal uncertainty and the cells with a positive density are the same, and densities are whole numbers. -/
theorem C85_same_cells_sr (hs : 0 < size) {g : Grid Tile} (h : SRHistory env size bs fl .plain s g A) (res : ℚ) :
    SameCells g (if bs then .intensity else .depth) fl res := by
  refine sameCells_of_leaves (w := size) (by cases bs <;> rfl) ?_
  rintro u ⟨r, c, t, ht, rfl⟩ ls hls
  exact sr_made hs h ht hls

/-- **C85** (variable resolution grids).  The main layer is always 'depth' there (C63). -/
theorem C85_same_cells_vr (hs : 0 < size) (hsub : isPowerOfTwo sub = true) {g : Grid (Grid Tile)} (h : VRHistory env size sub bs fl .plain s g A) (res : ℚ) :
    SameCells g .depth fl res := by
  refine sameCells_of_leaves (w := sub) rfl ?_
  rintro u ⟨r, c, v, hv, r', c', t, ht, e⟩ ls hls
  have e : u = t := e
  subst e
  exact vr_made hs hsub h hv ht hls

/-- the examples have stored cells of all layers -/
example : SRHistory demoEnv 16 false demoFields .plain false demoSRg demoStore ∧ demoFields.hasTvu = true ∧ Numbered demoSRg .vertical 8 0 0 ∧
    Numbered demoSRg .depth 8 0 0 ∧ SameCells demoSRg .depth demoFields 8 := by
  have hS := C85_same_cells_sr (by norm_num) demoSRg_history 8
  have : ∃ r c, ∃ t ∈ (demoSRg.tiles.bind (fun T => T.get? r c)).bind id, t.minX = 0 ∧ t.minY = 0 ∧
      (((t.cells.get? 8).bind (fun ls => ls.get? .vertical)).bind (fun a => a.get? 0 0)).bind id = some (1 : ℚ) := ⟨0, 2, by decide +kernel⟩
  obtain ⟨r, c, t, ht, hx, hy, hv⟩ := this
  have h1 : Numbered demoSRg .vertical 8 0 0 := by
    simp only [Option.mem_def, Option.bind_eq_some_iff, id_eq, exists_eq_right] at ht hv
    obtain ⟨T, hT, ht⟩ := ht
    obtain ⟨a, ⟨ls, h1, h2⟩, h3⟩ := hv
    exact ⟨1, t, ls, a, 0, 0, ⟨r, c, t, ⟨T, hT, ht⟩, rfl⟩, h1, h2, h3, by rw [hx]; simp, by rw [hy]; simp⟩
  exact ⟨demoSRg_history, rfl, h1, (hS.vertical rfl 0 0).1 h1, hS⟩

/-- numbers for all of these layers, or for none -/
theorem allOrNone_float {τ : Type} [HasLeaves τ] {g : Grid τ} {main : Layer} {res : ℚ} (h : ∀ r c t, g.TileAt r c t → SameCells t main fl res) {layers : List Layer}
    (hl : ∀ l ∈ layers, l = main ∨ (l = .vertical ∧ fl.hasTvu = true) ∨ (l = .horizontal ∧ fl.hasThu = true)) : g.AllOrNone layers res := by
  intro r c t ht
  have hS := h r c t ht
  have hiff : ∀ l ∈ layers, ∀ x y, Numbered t l res x y ↔ Numbered t main res x y := by
    intro l hm x y
    rcases hl l hm with rfl | ⟨rfl, hv⟩ | ⟨rfl, hv⟩
    · rfl
    · exact hS.vertical hv x y
    · exact hS.horizontal hv x y
  by_cases hn : ∃ x y, Numbered t main res x y
  · obtain ⟨x, y, hn⟩ := hn
    exact Or.inl (fun l hm => ⟨x, y, (hiff l hm x y).2 hn⟩)
  · exact Or.inr (fun l hm x y z hz => hn ⟨x, y, (hiff l hm x y).1 ⟨z, hz⟩⟩)

/-- **C35** (part) Any list of different layers out of the main layer and the uncertainties: in every grid whose last algorithms are mean and shoalest, each layer is returned in
its own slot.  (`C35_own_slot_sr_partial` without a hypothesis on the tiles.) -/
theorem C35_main_and_uncertainty_sr (hs : 0 < size) {g : Grid Tile} (h : SRHistory env size bs fl .plain s g A) {layers : List Layer} (hnd : layers.Nodup)
    (hl : ∀ l ∈ layers, l = (if bs then .intensity else .depth) ∨ (l = .vertical ∧ fl.hasTvu = true) ∨ (l = .horizontal ∧ fl.hasThu = true)) {res : ℚ} (hres : 0 < res)
    {nodata : Option ℚ} {zUp : Bool} {g' : Grid Tile} {o : Option (List LayerArr)} (hq : g.getLayersByName env layers (some res) nodata zUp = (g', .ok o)) :
    MosaicSpec g layers res nodata zUp g' o := by
  refine C35_own_slot_sr_partial hs h ?_ hnd hres (allOrNone_float (fl := fl) (main := if bs then .intensity else .depth) ?_ hl) hq
  · intro l hm
    rcases hl l hm with rfl | ⟨rfl, -⟩ | ⟨rfl, -⟩
    · cases bs <;> rfl
    · rfl
    · rfl
  · intro r c t ht
    refine sameCells_of_leaves (w := size) (by cases bs <;> rfl) ?_
    intro u hu ls hls
    have hu : u = t := hu
    subst hu
    exact sr_made hs h ht hls

/-- **C35** (part), variable resolution grids -/
theorem C35_main_and_uncertainty_vr (hs : 0 < size) (hsub : isPowerOfTwo sub = true) {q : Nat} (hdiv : size = (q : ℚ) * sub) {g : Grid (Grid Tile)}
    (h : VRHistory env size sub bs fl .plain s g A) {layers : List Layer} (hnd : layers.Nodup)
    (hl : ∀ l ∈ layers, l = .depth ∨ (l = .vertical ∧ fl.hasTvu = true) ∨ (l = .horizontal ∧ fl.hasThu = true)) {res : ℚ} (hres : 0 < res)
    {nodata : Option ℚ} {zUp : Bool} {g' : Grid (Grid Tile)} {o : Option (List LayerArr)} (hq : g.getLayersByName env layers (some res) nodata zUp = (g', .ok o)) :
    MosaicSpec g layers res nodata zUp g' o := by
  refine C35_own_slot_vr_partial hs hsub hdiv h ?_ hnd hres (allOrNone_float (fl := fl) (main := .depth) ?_ hl) hq
  · intro l hm
    rcases hl l hm with rfl | ⟨rfl, -⟩ | ⟨rfl, -⟩ <;> rfl
  · intro r c v hv
    refine sameCells_of_leaves (w := sub) rfl ?_
    rintro u ⟨r', c', t, ht, e⟩ ls hls
    have e : u = t := e
    subst e
    exact vr_made hs hsub h hv ht hls

/-- both are met by the gridded examples -/
example : (match (demoSRg.getLayersByName demoEnv [.vertical, .depth] (some 8) none false).2 with
      | .ok (some [a, d]) => a.get? 0 4 == some (some 1) && d.get? 0 4 == some (some (25 / 2))
      | _ => false) = true ∧
    (match (demoVRg.getLayersByName demoEnv [.depth, .horizontal, .vertical] (some 8) none false).2 with
      | .ok (some [a, _, b]) => a.get? 0 4 == some (some (25 / 2)) && b.get? 0 4 == some (some 1)
      | _ => false) = true := by decide +kernel

end Bathy
