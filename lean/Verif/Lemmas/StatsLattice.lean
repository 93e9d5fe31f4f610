import Verif.Lemmas.StatsGrid
import Verif.Props.GridPoints

/-!
# Reachable grids cut along a lattice
-/

namespace Bathy
open Grid

variable {env : Env} {size sub : ℚ} {bs : Bool} {fl : Fields} {F F' : Family} {s : Bool} {A : Store}

theorem sr_wf (hs : 0 < size) {g : Grid Tile} (h : SRHistory env size bs fl F s g A) : ∀ T, g.tiles = some T → T.WF := (grow_reps (sr_inv hs h).1).2

theorem grow_wf_vr {C : ChildSpec Tile sub 0 false fl} (hs : 0 < size) (hsub : isPowerOfTwo sub = true) {g : Grid (Grid Tile)} (h : GrowInv (subSpec (bs := bs) C hs hsub) g A) :
    (∀ T, g.tiles = some T → T.WF) ∧ ∀ i j u, g.TileAt i j u → ∀ T, u.tiles = some T → T.WF := by
  refine ⟨(grow_reps h).2, ?_⟩
  intro i j u hu
  obtain ⟨a, b, e, -, -, -, hrep, -⟩ := tileAt_rep h hu
  have hrep : SubInv _ size _ _ u _ := hrep
  exact (sub_reps hrep).2

theorem vr_wf (hs : 0 < size) (hsub : isPowerOfTwo sub = true) {g : Grid (Grid Tile)} (h : VRHistory env size sub bs fl F s g A) :
    (∀ T, g.tiles = some T → T.WF) ∧ ∀ i j u, g.TileAt i j u → ∀ T, u.tiles = some T → T.WF := grow_wf_vr hs hsub (vr_inv hs hsub h).1

theorem box_of {w : ℚ} {t : Tile} {p : Pt} (h1 : t.maxX = t.minX + w) (h3 : t.maxY = t.minY + w)
    (hp : t.minX ≤ p.x ∧ p.x < t.maxX ∧ t.minY ≤ p.y ∧ p.y < t.maxY) : InBox t.minX t.minY w p := by
  obtain ⟨k1, k2, k3, k4⟩ := hp
  exact ⟨k1, by rw [← h1]; exact k2, k3, by rw [← h3]; exact k4⟩

theorem lattice_grow_sr {C : ChildSpec Tile size sub bs fl} (S : Shaped C F) (hs : 0 < size) {g : Grid Tile} (h : GrowInv C g A) {r : ℚ} {n : Nat} (hr : 0 < r) (hn : size = n * r) :
    OnLattice r n (LeafList.leaves g) A.allPts where
  pos := hr
  npos := by
    rcases Nat.eq_zero_or_pos n with h0 | h0
    · rw [hn, h0] at hs; simp at hs
    · exact h0
  origin := by
    intro t ht
    rw [leaves_tiles] at ht
    obtain ⟨i, j, ht⟩ := (mem_present (grow_reps h).2).1 ht
    obtain ⟨a, b, e, -, -, -, hrep, -⟩ := tileAt_rep h ht
    obtain ⟨hf, -⟩ := S.shape hrep
    have f1 : t.minX = (a : ℚ) * size := hf.1
    have f3 : t.minY = (b : ℚ) * size := hf.2.2.1
    refine ⟨a * n, b * n, ?_, ?_⟩
    · rw [f1, hn]; push_cast; ring
    · rw [f3, hn]; push_cast; ring
  box := by
    intro t ht p hp
    rw [leaves_tiles] at ht
    obtain ⟨i, j, ht⟩ := (mem_present (grow_reps h).2).1 ht
    obtain ⟨e, -, -, k2, -, k4, -, -, k⟩ := contains_sr S h ht
    rw [← hn]
    exact box_of k2 k4 (k p hp)
  apart := by
    rw [leaves_tiles]
    refine pairwise_present (grow_reps h).2 ?_
    intro i j i' j' t u ht hu hne
    obtain ⟨e, he, k1, -, k3, -⟩ := contains_sr S h ht
    obtain ⟨e', he', k1', -, k3', -⟩ := contains_sr S h hu
    rw [he] at he'; cases he'
    rw [← hn]
    exact apart_of k1 k3 k1' k3' hs hne
  all := by
    rw [← all_leaves_sr]
    exact grow_all (shapedPts S) hs h

theorem lattice_grow_vr {C : ChildSpec Tile sub 0 false fl} (S : Shaped C F) (hs : 0 < size) (hsub : isPowerOfTwo sub = true) {g : Grid (Grid Tile)}
    (h : GrowInv (subSpec (bs := bs) C hs hsub) g A) {r : ℚ} {n m : Nat} (hr : 0 < r)
    (hn : sub = n * r) (hm : size = m * sub) : OnLattice r n (LeafList.leaves g) A.allPts := by
  have hsp := isPowerOfTwo_pos hsub
  obtain ⟨hwf, hwf'⟩ := grow_wf_vr hs hsub h
  have hmem : ∀ t ∈ LeafList.leaves g, ∃ i j u i' j', g.TileAt i j u ∧ u.TileAt i' j' t := by
    intro t ht
    rw [leaves_present, List.mem_flatMap] at ht
    obtain ⟨u, hu, ht⟩ := ht
    obtain ⟨i, j, hu⟩ := (mem_present hwf).1 hu
    rw [leaves_tiles] at ht
    obtain ⟨i', j', ht⟩ := (mem_present (hwf' i j u hu)).1 ht
    exact ⟨i, j, u, i', j', hu, ht⟩
  refine ⟨hr, ?_, ?_, ?_, ?_, ?_⟩
  · rcases Nat.eq_zero_or_pos n with h0 | h0
    · rw [hn, h0] at hsp; simp at hsp
    · exact h0
  · intro t ht
    obtain ⟨i, j, u, i', j', hu, ht⟩ := hmem t ht
    obtain ⟨a, b, e, -, -, -, hrep, -⟩ := tileAt_rep h hu
    have hrep : SubInv _ size _ _ u _ := hrep
    obtain ⟨T, hf⟩ := hrep.frame
    obtain ⟨-, -, h1, -⟩ := frame_tileAt hf.toReady ht
    obtain ⟨hf, -⟩ := S.shape h1
    have f1 : t.minX = (a : ℚ) * size + (j' : ℚ) * sub := hf.1
    have f3 : t.minY = (b : ℚ) * size + (i' : ℚ) * sub := hf.2.2.1
    refine ⟨a * m * n + j' * n, b * m * n + i' * n, ?_, ?_⟩
    · rw [f1, hm, hn]; push_cast; ring
    · rw [f3, hm, hn]; push_cast; ring
  · intro t ht p hp
    obtain ⟨i, j, u, i', j', hu, ht⟩ := hmem t ht
    obtain ⟨e, x, y, -, -, -, -, k⟩ := contains_vr S hs hsub h hu
    obtain ⟨-, k2, -, k4, k5⟩ := k i' j' t ht
    obtain ⟨q1, q2, q3, q4, -⟩ := k5 p hp
    rw [← hn]
    exact box_of k2 k4 ⟨q1, q2, q3, q4⟩
  · rw [← hn, leaves_present, List.pairwise_flatMap]
    constructor
    · intro u hu
      obtain ⟨i, j, hu⟩ := (mem_present hwf).1 hu
      rw [leaves_tiles]
      refine pairwise_present (hwf' i j u hu) ?_
      intro i1 j1 i2 j2 t1 t2 ht1 ht2 hne
      obtain ⟨e, x, y, -, -, -, -, k⟩ := contains_vr S hs hsub h hu
      obtain ⟨k1, -, k3, -⟩ := k i1 j1 t1 ht1
      obtain ⟨k1', -, k3', -⟩ := k i2 j2 t2 ht2
      exact apart_of k1 k3 k1' k3' hsp hne
    · refine pairwise_present hwf ?_
      intro i j i' j' u v hu hv hne t ht t' ht' p hp hp'
      rw [leaves_tiles] at ht ht'
      obtain ⟨i1, j1, ht⟩ := (mem_present (hwf' i j u hu)).1 ht
      obtain ⟨i2, j2, ht'⟩ := (mem_present (hwf' i' j' v hv)).1 ht'
      have inside : ∀ {i j u i1 j1 t}, g.TileAt i j u → u.TileAt i1 j1 t → InBox t.minX t.minY sub p →
          ∃ e, g.extents = some e ∧ InBox (e.minX + (j : ℚ) * size) (e.minY + (i : ℚ) * size) size p := by
        intro i j u i1 j1 t hu ht hp
        obtain ⟨e, x, y, he, e1, e2, hext, k⟩ := contains_vr S hs hsub h hu
        obtain ⟨k1, -, k3, -⟩ := k i1 j1 t ht
        obtain ⟨a, b, -, -, -, -, hrep, -⟩ := tileAt_rep h hu
        have hrep : SubInv _ size _ _ u _ := hrep
        obtain ⟨T, hf⟩ := hrep.frame
        obtain ⟨l1, l2, -, -⟩ := frame_tileAt hf.toReady ht
        rw [hm, ncells_mul hsp] at l1 l2
        refine ⟨e, he, ?_⟩
        rw [← e1, ← e2]
        obtain ⟨q1, q2, q3, q4⟩ := hp
        rw [k1] at q1 q2; rw [k3] at q3 q4
        have c1 : (0 : ℚ) ≤ (j1 : ℚ) * sub := by positivity
        have c2 : (0 : ℚ) ≤ (i1 : ℚ) * sub := by positivity
        have c3 : ((j1 : ℚ) + 1) * sub ≤ m * sub := by
          apply mul_le_mul_of_nonneg_right _ hsp.le; exact_mod_cast l2
        have c4 : ((i1 : ℚ) + 1) * sub ≤ m * sub := by
          apply mul_le_mul_of_nonneg_right _ hsp.le; exact_mod_cast l1
        rw [← hm] at c3 c4
        exact ⟨by linarith, by linarith, by linarith, by linarith⟩
      obtain ⟨e, he, hb⟩ := inside hu ht hp
      obtain ⟨e', he', hb'⟩ := inside hv ht' hp'
      rw [he] at he'; cases he'
      let t0 : Tile := Tile.new (e.minX + (j : ℚ) * size) (e.minY + (i : ℚ) * size) size false
      let t1 : Tile := Tile.new (e.minX + (j' : ℚ) * size) (e.minY + (i' : ℚ) * size) size false
      exact apart_of (t := t0) (u := t1) rfl rfl rfl rfl hs hne p hb hb'
  · rw [← all_leaves_vr]
    exact grow_all (subPts (size := size) (bs := bs) _ (shapedPts S) hs hsub) hs h

theorem lattice_sr (hs : 0 < size) {g : Grid Tile} (h : SRHistory env size bs fl F s g A) {r : ℚ} {n : Nat} (hr : 0 < r) (hn : size = n * r) :
    OnLattice r n (LeafList.leaves g) A.allPts := lattice_grow_sr (shaped_tile env F hs) hs (sr_inv hs h).1 hr hn

theorem lattice_vr (hs : 0 < size) (hsub : isPowerOfTwo sub = true) {g : Grid (Grid Tile)} (h : VRHistory env size sub bs fl F s g A) {r : ℚ} {n m : Nat} (hr : 0 < r)
    (hn : sub = n * r) (hm : size = m * sub) : OnLattice r n (LeafList.leaves g) A.allPts :=
  lattice_grow_vr (shaped_tile env F (isPowerOfTwo_pos hsub)) hs hsub (vr_inv hs hsub h).1 hr hn hm

/-! ### from the cells of the tiles to the squares of the lattice -/

theorem numbers_flatMap (r : ℚ) (n : Nat) (Ls : List Tile) (f : List Pt → α) :
    Ls.flatMap (fun t => (occupied n t.minX t.minY r t.pts).map (fun rc => f (inCell t.minX t.minY r rc.1 rc.2 t.pts))) = (slotsOf r n Ls).map (fun q => f (slotPts r q)) := by
  unfold slotsOf
  rw [List.map_flatMap]
  congr 1
  funext t
  rw [List.map_map]
  rfl

/-- a list of values, one for each cell, whose relation to the soundings does not depend on their order -/
theorem OnLattice.values {β : Type} {r : ℚ} {n : Nat} {Ls : List Tile} {P : List Pt} (h : OnLattice r n Ls P) {R : List Pt → β → Prop}
    (hR : ∀ ps ps' v, ps.Perm ps' → R ps v → R ps' v) {f : Tile → List β}
    (hf : ∀ t ∈ Ls, List.Forall₂ (fun v rc => R (inCell t.minX t.minY r rc.1 rc.2 t.pts) v) (f t) (occupied n t.minX t.minY r t.pts)) :
    ∃ cs, cs.Perm (latticeCells r P) ∧ List.Forall₂ (fun v k => R (inLattice r P k) v) (Ls.flatMap f) cs := by
  refine ⟨_, h.keys_perm, ?_⟩
  rw [List.forall₂_map_right_iff]
  have : List.Forall₂ (fun v q => R (slotPts r q) v) (Ls.flatMap f) (slotsOf r n Ls) := by
    unfold slotsOf
    have key : ∀ l : List Tile, (∀ t ∈ l, t ∈ Ls) → List.Forall₂ (fun v q => R (slotPts r q) v) (l.flatMap f)
        (l.flatMap (fun t => (occupied n t.minX t.minY r t.pts).map (fun rc => (t, rc)))) := by
      intro l
      induction l with
      | nil => intro _; exact List.Forall₂.nil
      | cons t l ih =>
        intro hl
        rw [List.flatMap_cons, List.flatMap_cons]
        refine List.rel_append ?_ (ih (fun u hu => hl u (List.mem_cons_of_mem _ hu)))
        rw [List.forall₂_map_right_iff]
        exact hf t (hl t List.mem_cons_self)
    exact key Ls (fun _ h => h)
  rw [List.forall₂_iff_get] at this ⊢
  refine ⟨this.1, ?_⟩
  intro i h1 h2
  exact hR _ _ _ (h.slotPts_perm (List.get_mem _ _)) (this.2 i h1 h2)

theorem OnLattice.count {r : ℚ} {n : Nat} {Ls : List Tile} {P : List Pt} (h : OnLattice r n Ls P) :
    (Ls.map (fun t => (occupied n t.minX t.minY r t.pts).length)).sum = (latticeCells r P).length := by
  rw [← h.keys_perm.length_eq, List.length_map]
  unfold slotsOf
  rw [List.length_flatMap]
  congr 2
  funext t
  rw [List.length_map]

end Bathy

namespace Bathy
open Grid
variable {env : Env} {size sub : ℚ} {bs : Bool} {fl : Fields} {F F' : Family} {s : Bool} {A : Store}

/-- the resolution of a tile that has one -/
def oneRes (t : Tile) : ℚ := match t.cells with | p :: _ => p.1 | [] => 0

theorem Cleared.oneRes {alg : Alg} {w : ℚ} {t : Tile} {r : ℚ} (h : Cleared alg F' bs w t r) : oneRes t = r := by
  obtain ⟨ls, n, h1, -⟩ := h.layers
  unfold Bathy.oneRes
  rw [h1]

/-- a grid all of whose tiles were gridded at one of its resolutions, with nothing else left in them -/
def AllCleared (alg : Alg) (F' : Family) (bs : Bool) (w : ℚ) (Ls : List Tile) (rs : List ℚ) : Prop :=
  ∀ t ∈ Ls, oneRes t ∈ rs ∧ Cleared alg F' bs w t (oneRes t)

theorem allCleared_sr (hs : 0 < size) {g : Grid Tile} (h : SRHistory env size bs fl F s g A) {a : GridCall} {dask : Option Nat} (ha : a.alg.family = some F') (hc : a.clear = true)
    (hok : (g.gridWith env a dask).err = none) : AllCleared a.alg F' bs size (LeafList.leaves (g.gridWith env a dask).st) (g.gridWith env a dask).st.resolutions := by
  intro t ht
  obtain ⟨r, hr, hl⟩ := (leaves_sr hs h (Or.inr hc) hok).1 t (leaf_of_mem_sr (sr_wf hs (h.switch a ha hc dask hok)) ht)
  have := (leafRun_cleared hs hl ha hc).2
  rw [this.oneRes]
  exact ⟨hr, this⟩

theorem allCleared_vr (hs : 0 < size) (hsub : isPowerOfTwo sub = true) {g : Grid (Grid Tile)} (h : VRHistory env size sub bs fl F s g A) {a : GridCall} {dask : Option Nat}
    (ha : a.alg.family = some F') (hc : a.clear = true) (hok : (g.gridWith env a dask).err = none) :
    AllCleared a.alg F' false sub (LeafList.leaves (g.gridWith env a dask).st) (g.gridWith env a dask).st.resolutions := by
  intro t ht
  obtain ⟨k1, k2⟩ := vr_wf hs hsub (h.switch a ha hc dask hok)
  obtain ⟨r, hr, hl⟩ := (leaves_vr hs hsub h (Or.inr hc) hok).1 t (leaf_of_mem_vr k1 k2 ht)
  have := (leafRun_cleared (isPowerOfTwo_pos hsub) hl ha hc).2
  rw [this.oneRes]
  exact ⟨hr, this⟩

/-- all tiles are at the only resolution of the grid -/
theorem AllCleared.single {alg : Alg} {w : ℚ} {Ls : List Tile} {r : ℚ} (h : AllCleared alg F' bs w Ls [r]) : ∀ t ∈ Ls, oneRes t = r ∧ Cleared alg F' bs w t r := by
  intro t ht
  obtain ⟨h1, h2⟩ := h t ht
  have := List.mem_singleton.1 h1
  rw [this] at h2
  exact ⟨this, h2⟩

theorem AllCleared.sum {alg : Alg} {w : ℚ} {Ls : List Tile} {rs : List ℚ} (h : AllCleared alg F' bs w Ls rs) :
    (Ls.flatMap (fun t => cellNumbers w t (oneRes t))).sum = ((Ls.flatMap Tile.pts).length : ℚ) := by
  induction Ls with
  | nil => rfl
  | cons t Ls ih =>
    rw [List.flatMap_cons, List.flatMap_cons, List.sum_append, List.length_append, ih (fun u hu => h u (List.mem_cons_of_mem _ hu)), numbers_sum (h t List.mem_cons_self).2]
    push_cast; rfl

theorem AllCleared.pos {w : ℚ} {Ls : List Tile} : ∀ v ∈ Ls.flatMap (fun t => cellNumbers w t (oneRes t)), 0 < v := by
  intro v hv
  obtain ⟨t, -, hv⟩ := List.mem_flatMap.1 hv
  exact numbers_pos _ _ _ v hv

theorem flatMap_congr_mem {α β : Type} {l : List α} {f f' : α → List β} (h : ∀ a ∈ l, f a = f' a) : l.flatMap f = l.flatMap f' := by
  induction l with
  | nil => rfl
  | cons a l ih => rw [List.flatMap_cons, List.flatMap_cons, h a List.mem_cons_self, ih (fun b hb => h b (List.mem_cons_of_mem _ hb))]

/-- the numbers of soundings in the cells are those in the squares of the lattice -/
theorem AllCleared.lattice {alg : Alg} {n : Nat} {Ls : List Tile} {r : ℚ} {P : List Pt} (h : AllCleared alg F' bs (n * r) Ls [r]) (hl : OnLattice r n Ls P) :
    (Ls.flatMap (fun t => cellNumbers (n * r) t (oneRes t))).Perm ((latticeCells r P).map (fun k => ((inLattice r P k).length : ℚ))) := by
  have e : Ls.flatMap (fun t => cellNumbers (n * r) t (oneRes t)) = (slotsOf r n Ls).map (fun q => ((slotPts r q).length : ℚ)) := by
    rw [← numbers_flatMap r n Ls (fun ps => (ps.length : ℚ))]
    refine flatMap_congr_mem ?_
    intro t ht
    rw [(h.single t ht).1]
    unfold cellNumbers
    rw [ncells_mul hl.pos]
  rw [e]
  have : (slotsOf r n Ls).map (fun q => ((slotPts r q).length : ℚ)) = ((slotsOf r n Ls).map (slotKey r)).map (fun k => ((inLattice r P k).length : ℚ)) := by
    rw [List.map_map]
    refine List.map_congr_left ?_
    intro q hq
    simp only [Function.comp]
    rw [(hl.slotPts_perm hq).length_eq]
  rw [this]
  exact hl.keys_perm.map _

/-! ### values of layers -/

theorem plainCell_perm {alg : Alg} {ps ps' : List Pt} {v : Option ℚ} (hp : ps.Perm ps') (h : PlainCell alg ps v) : PlainCell alg ps' v := by
  have e : ps' = [] ↔ ps = [] := ⟨fun h => (h ▸ hp).eq_nil, fun h => (h ▸ hp.symm).eq_nil⟩
  have shoal : ShoalCell round3 ps v → ShoalCell round3 ps' v := by
    rintro ⟨h1, h2⟩
    refine ⟨fun he => h1 (e.1 he), fun hne => ?_⟩
    obtain ⟨m, ⟨m1, m2⟩, hm⟩ := h2 (fun he => hne (e.2 he))
    exact ⟨m, ⟨(hp.map _).mem_iff.1 m1, fun x hx => m2 x ((hp.map _).mem_iff.2 hx)⟩, hm⟩
  have mean : MeanCell round3 Pt.z ps v → MeanCell round3 Pt.z ps' v := by
    rintro ⟨h1, h2⟩
    refine ⟨fun he => h1 (e.1 he), fun hne => ?_⟩
    rw [h2 (fun he => hne (e.2 he))]
    unfold meanOf
    rw [(hp.map _).sum_eq, (hp.map _).length_eq]
  cases alg with
  | mean => exact mean h
  | shoalest => exact shoal h
  | cube => exact shoal h
  | other => exact shoal h

/-- the pairs of a count layer and another one, cells without soundings left out -/
theorem pairs_flat {n d : LayerArr} {k : Nat} {x y r area : ℚ} {pts : List Pt} {R : List Pt → Option ℚ → Prop} (hn : EachCell n k x y r pts CountCell) (hd : EachCell d k x y r pts R) :
    List.Forall₂ (fun q rc => q.1 = ((inCell x y r rc.1 rc.2 pts).length : ℚ) / area ∧ R (inCell x y r rc.1 rc.2 pts) q.2)
      ((n.flat.zip d.flat).filterMap (fun q => match q.1 with | some v => if v > 0 then some (v / area, q.2) else none | none => none)) (occupied k x y r pts) := by
  rw [count_flat hn]
  unfold countsOf occupied
  have := eachCell_flat hd
  generalize cellsOf k = cs at this
  generalize d.flat = f at this
  induction this with
  | nil => exact List.Forall₂.nil
  | @cons v rc f cs hv _ ih =>
    rw [List.map_cons, List.map_cons, List.zip_cons_cons, List.filterMap_cons, List.filter_cons]
    by_cases hp : inCell x y r rc.1 rc.2 pts = []
    · simp only [hp, List.length_nil, Nat.cast_zero, gt_iff_lt, lt_self_iff_false, if_false, ne_eq, not_true_eq_false, decide_false, Bool.false_eq_true]
      exact ih
    · have hpos : (0 : ℚ) < ((inCell x y r rc.1 rc.2 pts).length : ℚ) := by exact_mod_cast List.length_pos_iff.2 hp
      simp only [gt_iff_lt, hpos, if_true, ne_eq, hp, not_false_eq_true, decide_true]
      exact List.Forall₂.cons ⟨rfl, hv⟩ ih

/-- the values of a layer, cells without soundings left out -/
theorem values_flat {d : LayerArr} {k : Nat} {x y r : ℚ} {pts : List Pt} {R : List Pt → Option ℚ → Prop} (hR : ∀ ps v, R ps v → (v = none ↔ ps = []))
    (hd : EachCell d k x y r pts R) :
    List.Forall₂ (fun v rc => R (inCell x y r rc.1 rc.2 pts) (some v)) (d.flat.filterMap id) (occupied k x y r pts) := by
  unfold occupied
  have := eachCell_flat hd
  generalize cellsOf k = cs at this
  generalize d.flat = f at this
  induction this with
  | nil => exact List.Forall₂.nil
  | @cons v rc f cs hv _ ih =>
    rw [List.filterMap_cons, List.filter_cons]
    by_cases hp : inCell x y r rc.1 rc.2 pts = []
    · rw [(hR _ _ hv).2 hp]
      simp only [hp, ne_eq, not_true_eq_false, decide_false, Bool.false_eq_true, if_false]
      exact ih
    · cases v with
      | none => exact absurd ((hR _ _ hv).1 rfl) hp
      | some v =>
        simp only [id, ne_eq, hp, not_false_eq_true, decide_true, if_true]
        exact List.Forall₂.cons hv ih

theorem Cleared.mainValues {alg : Alg} {w : ℚ} {t : Tile} {r : ℚ} (h : Cleared alg .plain bs w t r) :
    ∃ l, t.layerValues (mainLayer bs) = .ok l ∧
      List.Forall₂ (fun v rc => PlainCell alg (inCell t.minX t.minY r rc.1 rc.2 t.pts) (some v)) l (occupied (ncells w r) t.minX t.minY r t.pts) := by
  obtain ⟨ls, n, h1, -, -, h4⟩ := h.layers
  obtain ⟨d, rest, h5, h6⟩ := h4 rfl
  refine ⟨_, ?_, values_flat (fun _ _ => plainCell_none) h6⟩
  unfold Tile.layerValues
  rw [h1, h5]
  cases bs <;> simp [mainLayer, Dict.get?]

theorem Cleared.densityValues {alg : Alg} {w : ℚ} {t : Tile} {r : ℚ} (h : Cleared alg F' bs w t r) : t.layerValues .density = .ok (cellNumbers w t r) := by
  obtain ⟨ls, n, h1, h2, h3, -⟩ := h.layers
  unfold Tile.layerValues
  rw [h1]
  simp only [List.map_cons, List.map_nil, h2, List.flatten_cons, List.flatten_nil, List.append_nil]
  congr 1
  unfold cellNumbers
  rw [count_flat h3, ← occupied_counts]
  simp only [List.filterMap_map, Function.comp_def, id, List.filterMap_some]
  refine List.filter_congr ?_
  intro v hv
  unfold countsOf at hv
  obtain ⟨rc, -, rfl⟩ := List.mem_map.1 hv
  have : (0 : ℚ) ≤ ((inCell t.minX t.minY r rc.1 rc.2 t.pts).length : ℚ) := by positivity
  rw [decide_eq_decide]
  constructor
  · intro h; exact lt_of_le_of_ne this (Ne.symm h)
  · intro h; exact h.ne'

theorem Cleared.countDepth {alg : Alg} {w : ℚ} {t : Tile} {r : ℚ} (h : Cleared alg .plain false w t r) (area : ℚ → ℚ) :
    ∃ l, t.vsDepth area = .ok l ∧
      List.Forall₂ (fun q rc => q.1 = ((inCell t.minX t.minY r rc.1 rc.2 t.pts).length : ℚ) / area r ∧ PlainCell alg (inCell t.minX t.minY r rc.1 rc.2 t.pts) q.2) l
        (occupied (ncells w r) t.minX t.minY r t.pts) := by
  obtain ⟨ls, n, h1, h2, h3, h4⟩ := h.layers
  obtain ⟨d, rest, h5, h6⟩ := h4 rfl
  have hd : Dict.get? ls .depth = some d := by rw [h5]; simp [mainLayer, Dict.get?]
  refine ⟨_, ?_, pairs_flat h3 h6⟩
  unfold Tile.vsDepth
  rw [h1]
  have : n.rows = d.rows ∧ n.cols = d.cols := ⟨h3.2.1.trans h6.2.1.symm, h3.2.2.1.trans h6.2.2.1.symm⟩
  simp only [List.mapM_cons, List.mapM_nil, Tile.densityDepth, h2, hd, this, and_self, if_true]
  simp
  rfl

end Bathy
