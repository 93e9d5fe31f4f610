import Verif.Lemmas.GridGrow

/-!
# Invariant of a growing grid, and `add_points`
-/

namespace Bathy

namespace Meta

theorem updateEpsg_container (m : Meta) (crs : Option Crs) : (updateEpsg m crs).st.container = m.container := by
  unfold updateEpsg
  repeat' split
  all_goals rfl

/-- `_update_metadata` registers the container only if it does not raise -/
theorem update_container (m : Meta) (c : String) (a : AddArgs) :
    ((update m c a).err = none ∧ ∃ fs, (update m c a).st.container = m.container.set c fs) ∨
    (∃ e, (update m c a).err = some e) ∧ (update m c a).st.container = m.container := by
  have hc := updateEpsg_container m a.crs
  unfold update
  generalize hr : updateEpsg m a.crs = r at hc
  obtain ⟨s, err⟩ := r
  cases err with
  | some e => exact Or.inr ⟨⟨e, rfl⟩, hc⟩
  | none =>
    simp only at hc
    unfold Res.andThen
    simp only
    split
    · exact Or.inr ⟨⟨_, rfl⟩, hc⟩
    · split
      · exact Or.inr ⟨⟨_, rfl⟩, hc⟩
      · split
        · exact Or.inr ⟨⟨_, rfl⟩, hc⟩
        · exact Or.inl ⟨rfl, _, by simp only [Res.ok_st]; rw [hc]⟩

end Meta

namespace Grid
variable {τ : Type} [TileLike τ] {size sub : ℚ} {bs : Bool} {fl : Fields}

/-- configuration and geometry of a grid of `nx` by `ny` tiles at (x0, y0), whose tile array `T` holds `A` -/
structure Ready (C : ChildSpec τ size sub bs fl) (x0 y0 : ℚ) (nx ny : Nat) (T : Arr2 (Option τ)) (g : Grid τ) (A : Store) : Prop where
  tileSize : g.tileSize = size
  subtileSize : g.subtileSize = sub
  backscatter : g.isBackscatter = bs
  txs : g.txs = originsOf x0 size nx
  tys : g.tys = originsOf y0 size ny
  edgesX : g.edgesX = edgesOf x0 size nx
  edgesY : g.edgesY = edgesOf y0 size ny
  tiles : g.tiles = some T
  rep : TilesRep C x0 y0 nx ny T A
  inr : ∀ p ∈ A.allPts, InRect x0 y0 size nx ny p
  nx_pos : 0 < nx
  ny_pos : 0 < ny
  dims : ∀ e, g.extents = some e → g.width = some (e.maxX - e.minX) ∧ g.height = some (e.maxY - e.minY)

/-- `Ready`, and the number of tiles is right -/
structure Frame (C : ChildSpec τ size sub bs fl) (x0 y0 : ℚ) (nx ny : Nat) (T : Arr2 (Option τ)) (g : Grid τ) (A : Store) : Prop extends
    Ready C x0 y0 nx ny T g A where
  num : g.numberOfTiles = some ((T.flat.countP Option.isSome : Nat) : Int)

/-- tiles that get none of the points stay as they are, at their place -/
def Keeps (g u : Grid τ) (pts : List Pt) : Prop :=
  ∀ k t x y, g.tile? k = some (some t) → g.tileOrigin k = some (x, y) → (∀ p ∈ pts, ¬ InBox x y g.tileSize p) →
    ∃ k', u.tile? k' = some (some t) ∧ u.tileOrigin k' = some (x, y)

/-- the tile with origin `p` is `t` -/
def Has (g : Grid τ) (t : τ) (p : ℚ × ℚ) : Prop := ∃ k, g.tile? k = some (some t) ∧ g.tileOrigin k = some p

omit [TileLike τ] in
theorem keeps_refl (g : Grid τ) (pts : List Pt) : Keeps g g pts := fun k _ _ _ h1 h2 _ => ⟨k, h1, h2⟩

/-- `_add_points_to_tiles` on a grid with its geometry and tile array in place -/
theorem addToTiles_ready (C : ChildSpec τ size sub bs fl) (hs : 0 < size) {x0 y0 : ℚ} {nx ny : Nat} {T : Arr2 (Option τ)} {g : Grid τ} {A : Store}
    (h : Ready C x0 y0 nx ny T g A) {c : String} {pts : List Pt} (hc : c ∉ A.names) (hin : ∀ p ∈ pts, InRect x0 y0 size nx ny p) (md : ℚ) :
    ∃ T', (addToTiles g ⟨fl, pts⟩ c).andThen (fun g => .ok { g with meanDepth := md }) =
        .ok { g with tiles := some T', numberOfTiles := some ((T'.flat.countP Option.isSome : Nat) : Int), meanDepth := md } ∧
      Frame C x0 y0 nx ny T' { g with tiles := some T', numberOfTiles := some ((T'.flat.countP Option.isSome : Nat) : Int), meanDepth := md }
        (A ++ [(c, pts)]) ∧
      Keeps g { g with tiles := some T', numberOfTiles := some ((T'.flat.countP Option.isSome : Nat) : Int), meanDepth := md } pts := by
  obtain ⟨T', h1, h2, h3⟩ := addToTiles_spec C hs h.tileSize h.subtileSize h.backscatter h.txs h.tys h.edgesX h.edgesY h.tiles h.rep hc hin
  refine ⟨T', by rw [h1]; rfl, ⟨⟨h.tileSize, h.subtileSize, h.backscatter, h.txs, h.tys, h.edgesX, h.edgesY, rfl, h2, ?_, h.nx_pos, h.ny_pos, h.dims⟩, rfl⟩, ?_⟩
  · intro p hp
    rw [Store.allPts_append, List.mem_append] at hp
    rcases hp with hp | hp
    · exact h.inr p hp
    · exact hin p (by simpa [Store.allPts] using hp)
  · intro k t x y hk ho hno
    have hk1 : k < ny * nx := by
      rw [← h.rep.2.2.1]
      unfold tile? at hk
      rw [h.tiles] at hk
      exact (List.getElem?_eq_some_iff.1 hk).1
    have ho' := tileOrigin_eq h.txs h.tys hk1
    rw [ho] at ho'
    cases ho'
    refine ⟨k, ?_, ho⟩
    unfold tile? at hk ⊢
    rw [h.tiles] at hk
    simp only [Option.bind_some] at hk ⊢
    rw [h.tileSize] at hno
    rw [h3 k hk1 hno, hk]

/-- invariant of a grid that can grow, with its origin at (0, 0), holding the soundings `A` -/
structure GrowInv (C : ChildSpec τ size sub bs fl) (g : Grid τ) (A : Store) : Prop where
  canGrow : g.canGrow = true
  ox : g.originX = 0
  oy : g.originY = 0
  tileSize : g.tileSize = size
  subtileSize : g.subtileSize = sub
  backscatter : g.isBackscatter = bs
  names : A.names.Nodup
  ne : ∀ q ∈ A, q.2 ≠ []
  cont : g.info.container.keys = A.names
  body : (A = [] ∧ g.tiles = none ∧ (g.numberOfTiles = none ∨ g.numberOfTiles = some 0)) ∨
    (A ≠ [] ∧ ∃ (i j : ℤ) (nx ny : Nat) (T : Arr2 (Option τ)), Frame C ((i : ℚ) * size) ((j : ℚ) * size) nx ny T g A ∧
      g.extents = some ⟨(i : ℚ) * size, (i : ℚ) * size + (nx : ℚ) * size, (j : ℚ) * size, (j : ℚ) * size + (ny : ℚ) * size⟩)

theorem frame_isEmpty (C : ChildSpec τ size sub bs fl) (hs : 0 < size) {x0 y0 : ℚ} {nx ny : Nat} {T : Arr2 (Option τ)} {g : Grid τ} {A : Store}
    (h : Ready C x0 y0 nx ny T g A) (hne : ∀ q ∈ A, q.2 ≠ []) : g.isEmpty = decide (A = []) := by
  unfold isEmpty
  rw [h.tiles]
  simp only
  rw [tilesRep_empty C hs h.rep h.inr hne, Bool.not_not]

/-- one dimension of growing -/
theorem grow1 {size : ℚ} (hs : 0 < size) {i : ℤ} {w : ℕ} (hw : 0 < w) {x0 x1 : ℚ} :
    ∃ (i' : ℤ) (N b : ℕ), adjust (min x0 ((i : ℚ) * size)) (max x1 ((i : ℚ) * size + (w : ℚ) * size)) 0 size =
        ((i' : ℚ) * size, (i' : ℚ) * size + (N : ℚ) * size) ∧
      (i : ℚ) * size = (i' : ℚ) * size + (b : ℚ) * size ∧ b + w < N ∧ (i' : ℚ) * size ≤ x0 ∧ x1 < (i' : ℚ) * size + (N : ℚ) * size ∧
      ((i : ℚ) * size ≤ x0 → x1 ≤ (i : ℚ) * size + (w : ℚ) * size → b = 0 ∧ N = w + 1) := by
  have hwq : (0 : ℚ) < (w : ℚ) * size := mul_pos (by exact_mod_cast hw) hs
  have hle : min x0 ((i : ℚ) * size) ≤ max x1 ((i : ℚ) * size + (w : ℚ) * size) :=
    le_trans (min_le_right _ _) (le_trans (by linarith) (le_max_right _ _))
  obtain ⟨i', N, hN, hadj, h1, h2, h3, h4⟩ := adjust_spec hs hle
  have hi : i' ≤ i := by
    have : (i' : ℚ) * size ≤ (i : ℚ) * size := le_trans h1 (min_le_right _ _)
    have := le_of_mul_le_mul_right this hs
    exact_mod_cast this
  have hb : (((i - i').toNat : ℕ) : ℚ) = (i : ℚ) - (i' : ℚ) := by
    have : (((i - i').toNat : ℤ) : ℚ) = ((i - i' : ℤ) : ℚ) := by rw [Int.toNat_of_nonneg (by omega)]
    push_cast at this
    exact this
  refine ⟨i', N, (i - i').toNat, hadj, by rw [hb]; ring, ?_, le_trans h1 (min_le_left _ _), lt_of_le_of_lt (le_max_left _ _) h3, ?_⟩
  · have h5 : (i : ℚ) * size + (w : ℚ) * size < (i' : ℚ) * size + (N : ℚ) * size := lt_of_le_of_lt (le_max_right _ _) h3
    have h6 : (((i - i').toNat : ℕ) : ℚ) * size + (w : ℚ) * size < (N : ℚ) * size := by rw [hb]; linarith
    have h7 : ((((i - i').toNat : ℕ) : ℚ) + (w : ℚ)) * size < (N : ℚ) * size := by linarith
    have := lt_of_mul_lt_mul_right h7 hs.le
    exact_mod_cast this
  · intro g1 g2
    rw [min_eq_right g1] at h2
    rw [max_eq_right g2] at h3 h4
    have e1 : (i : ℚ) * size < ((i' : ℚ) + 1) * size := by linarith
    have e2 := lt_of_mul_lt_mul_right e1 hs.le
    have e3 : i < i' + 1 := by exact_mod_cast e2
    have e4 : i = i' := by omega
    subst e4
    refine ⟨by simp, ?_⟩
    have e5 : (N : ℚ) * size ≤ ((w : ℚ) + 1) * size := by linarith
    have e6 := le_of_mul_le_mul_right e5 hs
    have e7 : N ≤ w + 1 := by exact_mod_cast e6
    have e8 : (w : ℚ) * size < (N : ℚ) * size := by linarith
    have e9 := lt_of_mul_lt_mul_right e8 hs.le
    have e10 : w < N := by exact_mod_cast e9
    omega

omit [TileLike τ] in
theorem updateBase_empty {g : Grid τ} {pts : List Pt} (he : g.isEmpty = true) (hg : g.canGrow = true) {x0 x1 y0 y1 : ℚ}
    (h1 : listMin (pts.map Pt.x) = some x0) (h2 : listMax (pts.map Pt.x) = some x1) (h3 : listMin (pts.map Pt.y) = some y0)
    (h4 : listMax (pts.map Pt.y) = some y1) : updateBase g pts = g.buildGrid ⟨x0, x1, y0, y1⟩ := by
  unfold updateBase
  rw [he, hg, h1, h2, h3, h4]
  rfl

omit [TileLike τ] in
theorem updateBase_grow {g : Grid τ} {pts : List Pt} (he : g.isEmpty = false) (hg : g.canGrow = true) {x0 x1 y0 y1 : ℚ} {e : Extents}
    (h1 : listMin (pts.map Pt.x) = some x0) (h2 : listMax (pts.map Pt.x) = some x1) (h3 : listMin (pts.map Pt.y) = some y0)
    (h4 : listMax (pts.map Pt.y) = some y1) (h5 : g.extents = some e) :
    updateBase g pts = g.buildGrid ⟨min x0 e.minX, max x1 e.maxX, min y0 e.minY, max y1 e.maxY⟩ := by
  unfold updateBase
  rw [he, hg, h1, h2, h3, h4, h5]
  rfl

/-- a tile array without tiles holds nothing -/
theorem tilesRep_nil (C : ChildSpec τ size sub bs fl) (x0 y0 : ℚ) (nx ny : Nat) : TilesRep C x0 y0 nx ny (Arr2.fill ny nx none) [] := by
  refine ⟨rfl, rfl, by simp [Arr2.fill], ?_⟩
  intro k o ho
  simp only [Arr2.fill, List.getElem?_replicate] at ho
  split at ho
  · cases ho; exact Or.inl ⟨rfl, rfl⟩
  · cases ho

/-- geometry after an accepted `add_points` -/
structure GrowStep (g u : Grid τ) (size : ℚ) (pts : List Pt) (i j : ℤ) (nx ny : Nat) : Prop where
  /-- on an empty grid the extents are the smallest whole tiles with the points strictly inside -/
  fresh : g.isEmpty = true → (∃ p ∈ pts, p.x < (i : ℚ) * size + size) ∧ (∃ p ∈ pts, (i : ℚ) * size + (nx : ℚ) * size ≤ p.x + size) ∧
    (∃ p ∈ pts, p.y < (j : ℚ) * size + size) ∧ (∃ p ∈ pts, (j : ℚ) * size + (ny : ℚ) * size ≤ p.y + size)
  /-- otherwise they contain the old extents and are larger by at least one tile -/
  grown : ∀ i0 j0 w h, g.isEmpty = false → g.extents = some (⟨(i0 : ℤ) * size, (i0 : ℤ) * size + (w : ℕ) * size, (j0 : ℤ) * size, (j0 : ℤ) * size + (h : ℕ) * size⟩ : Extents) →
    ∃ b a : ℕ, i + b = i0 ∧ j + a = j0 ∧ b + w < nx ∧ a + h < ny ∧
      ((∀ p ∈ pts, (i0 : ℚ) * size ≤ p.x ∧ p.x ≤ (i0 : ℚ) * size + (w : ℚ) * size ∧ (j0 : ℚ) * size ≤ p.y ∧ p.y ≤ (j0 : ℚ) * size + (h : ℚ) * size) →
        b = 0 ∧ a = 0 ∧ nx = w + 1 ∧ ny = h + 1)
  mask : g.isEmpty = false → ∃ m, u.mask = some m ∧ m.flat.length = ny * nx
  mask_fresh : g.isEmpty = true → u.mask = g.mask

theorem cast_mul_inj {size : ℚ} (hs : 0 < size) {i i' : ℤ} {b : ℕ} (h : (i : ℚ) * size = (i' : ℚ) * size + (b : ℚ) * size) : i' + b = i := by
  have h1 : (i : ℚ) * size = ((i' : ℚ) + (b : ℚ)) * size := by rw [h]; ring
  have h2 := mul_right_cancel₀ hs.ne' h1
  have : i = i' + (b : ℤ) := by exact_mod_cast h2
  omega

/-- The grid `g2` that `add_points` has put together, with its new extents and the old tiles in their places, before it adds the points. -/
structure Placed (C : ChildSpec τ size sub bs fl) (x0 y0 : ℚ) (nx ny : Nat) (g1 g2 : Grid τ) (A : Store) (pts : List Pt) : Prop where
  step : ∃ ga, updateBase g1 pts = .ok ga ∧ placeTiles ga = .ok g2
  ready : ∃ T, Ready C x0 y0 nx ny T g2 A
  inr : ∀ p ∈ pts, InRect x0 y0 size nx ny p
  has : ∀ t p, g2.Has t p ↔ g1.Has t p

/-- an accepted `add_points` of a growing grid -/
theorem addPoints_placed (C : ChildSpec τ size sub bs fl) (hs : 0 < size) {g : Grid τ} {A : Store} (h : GrowInv C g A) {c : String} {pts : List Pt}
    {a : AddArgs} (hc : c ∉ A.names) (hp : pts ≠ []) (hm : (g.info.update c a).err = none) :
    ∃ u, addPoints g ⟨fl, pts⟩ c a = .ok u ∧ GrowInv C u (A ++ [(c, pts)]) ∧ Keeps g u pts ∧ u.meanDepth = meanDepthOf pts ∧
      u.info = (g.info.update c a).st ∧ ∃ (i j : ℤ) (nx ny : Nat) (T : Arr2 (Option τ)),
        Frame C ((i : ℚ) * size) ((j : ℚ) * size) nx ny T u (A ++ [(c, pts)]) ∧
        u.extents = some ⟨(i : ℚ) * size, (i : ℚ) * size + (nx : ℚ) * size, (j : ℚ) * size, (j : ℚ) * size + (ny : ℚ) * size⟩ ∧
        GrowStep g u size pts i j nx ny ∧ ∃ g2, Placed C ((i : ℚ) * size) ((j : ℚ) * size) nx ny { g with info := (g.info.update c a).st } g2 A pts ∧ g2.mask = u.mask := by
  obtain ⟨x0, hx0, mx0, lx0⟩ := listMin_spec (l := pts.map Pt.x) (by simpa using hp)
  obtain ⟨x1, hx1, mx1, lx1⟩ := listMax_spec (l := pts.map Pt.x) (by simpa using hp)
  obtain ⟨y0, hy0, my0, ly0⟩ := listMin_spec (l := pts.map Pt.y) (by simpa using hp)
  obtain ⟨y1, hy1, my1, ly1⟩ := listMax_spec (l := pts.map Pt.y) (by simpa using hp)
  have bx : ∀ p ∈ pts, x0 ≤ p.x ∧ p.x ≤ x1 := fun p hp => ⟨lx0 _ (List.mem_map_of_mem hp), lx1 _ (List.mem_map_of_mem hp)⟩
  have by' : ∀ p ∈ pts, y0 ≤ p.y ∧ p.y ≤ y1 := fun p hp => ⟨ly0 _ (List.mem_map_of_mem hp), ly1 _ (List.mem_map_of_mem hp)⟩
  have hkeys : c ∉ g.info.container.keys := by rw [h.cont]; exact hc
  obtain ⟨fs, hfs⟩ : ∃ fs, (g.info.update c a).st.container = g.info.container.set c fs := by
    rcases Meta.update_container g.info c a with ⟨-, h⟩ | ⟨⟨e, he⟩, -⟩
    · exact h
    · rw [hm] at he; cases he
  have hcont : (g.info.update c a).st.container.keys = (A ++ [(c, pts)]).names := by
    rw [hfs, Dict.set_of_not_mem _ _ _ hkeys]
    simp only [Dict.keys, List.map_append, Store.names] at *
    rw [show List.map Prod.fst g.info.container = List.map Prod.fst A from h.cont]
    rfl
  have hnames : (A ++ [(c, pts)]).names.Nodup := by
    rw [← Store.put_new A c pts hc]; exact Store.names_put_nodup A c pts h.names
  have hne : ∀ q ∈ A ++ [(c, pts)], q.2 ≠ [] := by
    intro q hq
    rcases List.mem_append.1 hq with hq | hq
    · exact h.ne q hq
    · rw [List.mem_singleton] at hq; subst hq; exact hp
  have hstart : addPoints g ⟨fl, pts⟩ c a = (updateBase { g with info := (g.info.update c a).st } pts).andThen (fun g =>
        (placeTiles g).andThen (fun g => (addToTiles g ⟨fl, pts⟩ c).andThen (fun g => .ok { g with meanDepth := meanDepthOf pts }))) := by
    unfold addPoints
    rw [(Dict.has_false_iff _ _).2 hkeys]
    simp only [Bool.false_eq_true, if_false, hm]
  generalize hg1 : ({ g with info := (g.info.update c a).st } : Grid τ) = g1 at hstart ⊢
  have e_info : g1.info = (g.info.update c a).st := by rw [← hg1]
  have e_grow : g1.canGrow = true := by rw [← hg1]; exact h.canGrow
  have e_emp : g1.isEmpty = g.isEmpty := by rw [← hg1]; rfl
  have e_size : g1.tileSize = size := by rw [← hg1]; exact h.tileSize
  have e_adj : ∀ e, g1.adjustExtents e = ⟨(adjust e.minX e.maxX 0 size).1, (adjust e.minX e.maxX 0 size).2, (adjust e.minY e.maxY 0 size).1,
      (adjust e.minY e.maxY 0 size).2⟩ := by
    intro e
    unfold adjustExtents
    rw [e_grow, if_pos rfl, e_size, ← hg1]
    simp only [h.ox, h.oy]
  have hframe1 : ∀ {i j : ℤ} {nx ny : Nat} {T : Arr2 (Option τ)}, Frame C ((i : ℚ) * size) ((j : ℚ) * size) nx ny T g A →
      Frame C ((i : ℚ) * size) ((j : ℚ) * size) nx ny T g1 A := by
    intro i j nx ny T hf
    subst hg1
    exact ⟨⟨hf.tileSize, hf.subtileSize, hf.backscatter, hf.txs, hf.tys, hf.edgesX, hf.edgesY, hf.tiles, hf.rep, hf.inr, hf.nx_pos, hf.ny_pos, hf.dims⟩, hf.num⟩
  rcases h.body with ⟨hA, ht, -⟩ | ⟨hA, i0, j0, w, ht, T, hf, hext⟩
  · -- the grid is empty
    have hemp : g1.isEmpty = true := by rw [e_emp]; unfold isEmpty; rw [ht]
    have hx01 : x0 ≤ x1 := by
      obtain ⟨p, hp', rfl⟩ := List.mem_map.1 mx0; exact (bx p hp').2
    have hy01 : y0 ≤ y1 := by
      obtain ⟨p, hp', rfl⟩ := List.mem_map.1 my0; exact (by' p hp').2
    obtain ⟨i, nx, hnx, hax, ax1, ax2, ax3, ax4⟩ := adjust_spec hs hx01
    obtain ⟨j, ny, hny, hay, ay1, ay2, ay3, ay4⟩ := adjust_spec hs hy01
    have hadj := e_adj ⟨x0, x1, y0, y1⟩
    simp only [hax, hay] at hadj
    have hW : (0 : ℚ) < (nx : ℚ) * size := mul_pos (by exact_mod_cast hnx) hs
    have hH : (0 : ℚ) < (ny : ℚ) * size := mul_pos (by exact_mod_cast hny) hs
    obtain ⟨m, hbuild⟩ := buildGrid_fresh hs e_size hadj hW hH (Or.inl hemp)
    rw [ncells_mul hs, ncells_mul hs] at hbuild
    have hbase := (updateBase_empty hemp e_grow hx0 hx1 hy0 hy1).trans hbuild
    rw [hbase, Res.andThen_ok] at hstart
    generalize hg2 : ({ g1 with extents := some ⟨(i : ℚ) * size, (i : ℚ) * size + (nx : ℚ) * size, (j : ℚ) * size, (j : ℚ) * size + (ny : ℚ) * size⟩, txs := originsOf ((i : ℚ) * size) size nx, tys := originsOf ((j : ℚ) * size) size ny, edgesX := edgesOf ((i : ℚ) * size) size nx, edgesY := edgesOf ((j : ℚ) * size) size ny, width := some ((i : ℚ) * size + (nx : ℚ) * size - (i : ℚ) * size), height := some ((j : ℚ) * size + (ny : ℚ) * size - (j : ℚ) * size), maximumTiles := m } : Grid τ) = g2 at hstart hbase
    have hemp2 : g2.isEmpty = true := by rw [← hg2]; exact hemp
    have hplace : placeTiles g2 = .ok { g2 with tiles := some (Arr2.fill ny nx none) } := by
      unfold placeTiles
      rw [hemp2]
      simp only [if_true]
      rw [← hg2]
      simp only [originsOf_length]
    rw [hplace, Res.andThen_ok] at hstart
    subst hA
    have hready : Ready C ((i : ℚ) * size) ((j : ℚ) * size) nx ny (Arr2.fill ny nx none) { g2 with tiles := some (Arr2.fill ny nx none) } [] := by
      subst hg2
      subst hg1
      exact ⟨h.tileSize, h.subtileSize, h.backscatter, rfl, rfl, rfl, rfl, rfl, tilesRep_nil C _ _ _ _, by simp [Store.allPts], hnx, hny, by rintro _ ⟨rfl⟩; exact ⟨rfl, rfl⟩⟩
    have hin : ∀ p ∈ pts, InRect ((i : ℚ) * size) ((j : ℚ) * size) size nx ny p := by
      intro p hp
      exact ⟨le_trans ax1 (bx p hp).1, lt_of_le_of_lt (bx p hp).2 ax3, le_trans ay1 (by' p hp).1, lt_of_le_of_lt (by' p hp).2 ay3⟩
    obtain ⟨T', hadd, hfr, -⟩ := addToTiles_ready C hs hready hc hin (meanDepthOf pts)
    rw [hadd] at hstart
    refine ⟨_, hstart, ?_, ?_, rfl, ?_, i, j, nx, ny, T', hfr, ?_, ?_, { g2 with tiles := some (Arr2.fill ny nx none) }, ⟨⟨g2, hbase, hplace⟩, ⟨_, hready⟩, hin, ?_⟩, rfl⟩
    · subst hg2
      subst hg1
      exact ⟨h.canGrow, h.ox, h.oy, h.tileSize, h.subtileSize, h.backscatter, hnames, hne, hcont, Or.inr ⟨by simp, i, j, nx, ny, T', hfr, rfl⟩⟩
    · intro k t x y hk
      unfold tile? at hk
      rw [ht] at hk
      cases hk
    · subst hg2
      subst hg1
      rfl
    · subst hg2
      rfl
    · constructor
      · intro _
        refine ⟨?_, ?_, ?_, ?_⟩
        · obtain ⟨p, hp', hpx⟩ := List.mem_map.1 mx0; exact ⟨p, hp', by rw [hpx]; exact ax2⟩
        · obtain ⟨p, hp', hpx⟩ := List.mem_map.1 mx1; exact ⟨p, hp', by rw [hpx]; exact ax4⟩
        · obtain ⟨p, hp', hpx⟩ := List.mem_map.1 my0; exact ⟨p, hp', by rw [hpx]; exact ay2⟩
        · obtain ⟨p, hp', hpx⟩ := List.mem_map.1 my1; exact ⟨p, hp', by rw [hpx]; exact ay4⟩
      · intro i0 j0 w h hne
        rw [← e_emp, hemp] at hne; cases hne
      · intro hne
        rw [← e_emp, hemp] at hne; cases hne
      · intro _
        subst hg2
        subst hg1
        rfl
    · intro t p
      constructor
      · rintro ⟨k, hk, -⟩
        simp only [tile?, Option.bind_some, Arr2.fill, List.getElem?_replicate] at hk
        split at hk <;> simp at hk
      · rintro ⟨k, hk, -⟩
        unfold tile? at hk
        have : g1.tiles = none := by rw [← hg1]; exact ht
        rw [this] at hk
        cases hk
  · -- the grid has tiles
    have hf1 := hframe1 hf
    have hemp : g1.isEmpty = false := by rw [frame_isEmpty C hs hf1.toReady h.ne]; simpa using hA
    have hext1 : g1.extents = g.extents := by rw [← hg1]
    obtain ⟨i, nx, b, hax, ax0, ax1, ax2, ax3, ax4⟩ := grow1 hs (i := i0) hf.nx_pos (x0 := x0) (x1 := x1)
    obtain ⟨j, ny, d, hay, ay0, ay1, ay2, ay3, ay4⟩ := grow1 hs (i := j0) hf.ny_pos (x0 := y0) (x1 := y1)
    have hadj := e_adj ⟨min x0 ((i0 : ℚ) * size), max x1 ((i0 : ℚ) * size + (w : ℚ) * size), min y0 ((j0 : ℚ) * size), max y1 ((j0 : ℚ) * size + (ht : ℚ) * size)⟩
    simp only [hax, hay] at hadj
    obtain ⟨m, hbuild⟩ := buildGrid_grow hs e_size hadj hemp e_grow hf.nx_pos hf.ny_pos (le_of_lt ax1) (le_of_lt ay1) ax0 ay0 hf1.txs hf1.tys
    have hbase := (updateBase_grow hemp e_grow hx0 hx1 hy0 hy1 (hext1.trans hext)).trans hbuild
    rw [hbase, Res.andThen_ok] at hstart
    generalize hg2 : ({ g1 with mask := some (Arr2.ofFn ny nx (fun r c => decide (d ≤ r ∧ r < d + ht) && decide (b ≤ c ∧ c < b + w))), extents := some ⟨(i : ℚ) * size, (i : ℚ) * size + (nx : ℚ) * size, (j : ℚ) * size, (j : ℚ) * size + (ny : ℚ) * size⟩, txs := originsOf ((i : ℚ) * size) size nx, tys := originsOf ((j : ℚ) * size) size ny, edgesX := edgesOf ((i : ℚ) * size) size nx, edgesY := edgesOf ((j : ℚ) * size) size ny, width := some ((i : ℚ) * size + (nx : ℚ) * size - (i : ℚ) * size), height := some ((j : ℚ) * size + (ny : ℚ) * size - (j : ℚ) * size), maximumTiles := m } : Grid τ) = g2 at hstart hbase
    have hemp2 : g2.isEmpty = false := by rw [← hg2]; exact hemp
    obtain ⟨l, hl, hlrep, hlold, hlnew⟩ := placeTiles_rep C hs (le_of_lt ax1) (le_of_lt ay1) ax0 ay0 hf.rep hf.inr
    have hplace : placeTiles g2 = .ok { g2 with tiles := some ⟨ny, nx, l⟩ } := by
      have ht2 : g2.tiles = some T := by rw [← hg2]; exact hf1.tiles
      have hgr2 : g2.canGrow = true := by rw [← hg2]; exact e_grow
      have hm2 : g2.mask = some (Arr2.ofFn ny nx (fun r c => decide (d ≤ r ∧ r < d + ht) && decide (b ≤ c ∧ c < b + w))) := by rw [← hg2]
      have hx2 : g2.txs.length = nx := by rw [← hg2]; exact originsOf_length _ _ _
      have hy2 : g2.tys.length = ny := by rw [← hg2]; exact originsOf_length _ _ _
      unfold placeTiles
      rw [hemp2, hgr2, ht2, hm2]
      simp only [Bool.false_eq_true, if_false, if_true, hx2, hy2, Arr2.fill, hl]
    rw [hplace, Res.andThen_ok] at hstart
    have hold : ∀ p ∈ A.allPts, InRect ((i : ℚ) * size) ((j : ℚ) * size) size nx ny p := by
      intro p hp
      obtain ⟨r1, r2, r3, r4⟩ := hf.inr p hp
      have b0 : (0 : ℚ) ≤ (b : ℚ) * size := mul_nonneg (Nat.cast_nonneg _) hs.le
      have d0 : (0 : ℚ) ≤ (d : ℚ) * size := mul_nonneg (Nat.cast_nonneg _) hs.le
      have ax1' : ((b : ℚ) + (w : ℚ)) * size ≤ (nx : ℚ) * size := mul_le_mul_of_nonneg_right (by exact_mod_cast le_of_lt ax1) hs.le
      have ay1' : ((d : ℚ) + (ht : ℚ)) * size ≤ (ny : ℚ) * size := mul_le_mul_of_nonneg_right (by exact_mod_cast le_of_lt ay1) hs.le
      exact ⟨by linarith, by linarith, by linarith, by linarith⟩
    have hready : Ready C ((i : ℚ) * size) ((j : ℚ) * size) nx ny ⟨ny, nx, l⟩ { g2 with tiles := some ⟨ny, nx, l⟩ } A := by
      subst hg2
      subst hg1
      exact ⟨h.tileSize, h.subtileSize, h.backscatter, rfl, rfl, rfl, rfl, rfl, hlrep, hold, by omega, by omega, by rintro _ ⟨rfl⟩; exact ⟨rfl, rfl⟩⟩
    have hin : ∀ p ∈ pts, InRect ((i : ℚ) * size) ((j : ℚ) * size) size nx ny p := by
      intro p hp
      exact ⟨le_trans ax2 (bx p hp).1, lt_of_le_of_lt (bx p hp).2 ax3, le_trans ay2 (by' p hp).1, lt_of_le_of_lt (by' p hp).2 ay3⟩
    obtain ⟨T', hadd, hfr, hkeep⟩ := addToTiles_ready C hs hready hc hin (meanDepthOf pts)
    rw [hadd] at hstart
    refine ⟨_, hstart, ?_, ?_, rfl, ?_, i, j, nx, ny, T', hfr, ?_, ?_, { g2 with tiles := some ⟨ny, nx, l⟩ }, ⟨⟨g2, hbase, hplace⟩, ⟨_, hready⟩, hin, ?_⟩, rfl⟩
    · subst hg2
      subst hg1
      exact ⟨h.canGrow, h.ox, h.oy, h.tileSize, h.subtileSize, h.backscatter, hnames, hne, hcont, Or.inr ⟨by simp, i, j, nx, ny, T', hfr, rfl⟩⟩
    · intro k t x y hk ho hno
      have hk1 : k < ht * w := by
        rw [← hf.rep.2.2.1]
        unfold tile? at hk
        rw [hf.tiles] at hk
        exact (List.getElem?_eq_some_iff.1 hk).1
      have ho' := tileOrigin_eq hf.txs hf.tys hk1
      rw [ho] at ho'
      cases ho'
      have hq1 := Arr2.div_lt_rows hk1
      have hq2 := Arr2.mod_lt_cols hk1
      have hkb := blockIdx_lt (le_of_lt ay1) (le_of_lt ax1) hk1
      have e1 : blockIdx nx d b w k / nx = d + k / w := Arr2.idx_div (by omega)
      have e2 : blockIdx nx d b w k % nx = b + k % w := Arr2.idx_mod (by omega)
      have ho2 := tileOrigin_eq hready.txs hready.tys hkb
      have esx : slotX ((i : ℚ) * size) size nx (blockIdx nx d b w k) = slotX ((i0 : ℚ) * size) size w k := by
        unfold slotX; rw [e2, ax0]; push_cast; ring
      have esy : slotY ((j : ℚ) * size) size nx (blockIdx nx d b w k) = slotY ((j0 : ℚ) * size) size w k := by
        unfold slotY; rw [e1, ay0]; push_cast; ring
      rw [esx, esy] at ho2
      refine hkeep (blockIdx nx d b w k) t _ _ ?_ ho2 ?_
      · unfold tile? at hk ⊢
        rw [hf.tiles] at hk
        simp only [Option.bind_some] at hk ⊢
        rw [hlold k hk1, hk]
      · intro p hp
        rw [h.tileSize] at hno
        rw [hready.tileSize]
        exact hno p hp
    · subst hg2
      subst hg1
      rfl
    · subst hg2
      rfl
    · constructor
      · intro he
        rw [← e_emp, hemp] at he; cases he
      · intro i0' j0' w' ht' _ hext'
        rw [hext, Option.some.injEq, Extents.mk.injEq] at hext'
        obtain ⟨q1, q2, q3, q4⟩ := hext'
        have hi : i0' = i0 := by
          have := mul_right_cancel₀ hs.ne' q1; exact_mod_cast this.symm
        have hj : j0' = j0 := by
          have := mul_right_cancel₀ hs.ne' q3; exact_mod_cast this.symm
        subst hi; subst hj
        have hw' : w' = w := by
          have := mul_right_cancel₀ hs.ne' (add_left_cancel q2); exact_mod_cast this.symm
        have hh' : ht' = ht := by
          have := mul_right_cancel₀ hs.ne' (add_left_cancel q4); exact_mod_cast this.symm
        subst hw'; subst hh'
        refine ⟨b, d, cast_mul_inj hs ax0, cast_mul_inj hs ay0, ax1, ay1, ?_⟩
        intro hall
        obtain ⟨px0, hpx0, ex0⟩ := List.mem_map.1 mx0
        obtain ⟨px1, hpx1, ex1⟩ := List.mem_map.1 mx1
        obtain ⟨py0, hpy0, ey0⟩ := List.mem_map.1 my0
        obtain ⟨py1, hpy1, ey1⟩ := List.mem_map.1 my1
        obtain ⟨r1, r2⟩ := ax4 (by rw [← ex0]; exact (hall _ hpx0).1) (by rw [← ex1]; exact (hall _ hpx1).2.1)
        obtain ⟨r3, r4⟩ := ay4 (by rw [← ey0]; exact (hall _ hpy0).2.2.1) (by rw [← ey1]; exact (hall _ hpy1).2.2.2)
        exact ⟨r1, r3, r2, r4⟩
      · intro _
        refine ⟨Arr2.ofFn ny nx (fun r c => decide (d ≤ r ∧ r < d + ht) && decide (b ≤ c ∧ c < b + w)), ?_, by simp [Arr2.ofFn]⟩
        subst hg2
        rfl
      · intro he
        rw [← e_emp, hemp] at he; cases he
    · intro t p
      have hidx : ∀ k, k < ht * w → tileOrigin ({ g2 with tiles := some ⟨ny, nx, l⟩ } : Grid τ) (blockIdx nx d b w k) = g1.tileOrigin k := by
        intro k hk1
        have hq1 := Arr2.div_lt_rows hk1
        have hq2 := Arr2.mod_lt_cols hk1
        have hkb := blockIdx_lt (le_of_lt ay1) (le_of_lt ax1) hk1
        have e1 : blockIdx nx d b w k / nx = d + k / w := Arr2.idx_div (by omega)
        have e2 : blockIdx nx d b w k % nx = b + k % w := Arr2.idx_mod (by omega)
        have esx : slotX ((i : ℚ) * size) size nx (blockIdx nx d b w k) = slotX ((i0 : ℚ) * size) size w k := by
          unfold slotX; rw [e2, ax0]; push_cast; ring
        have esy : slotY ((j : ℚ) * size) size nx (blockIdx nx d b w k) = slotY ((j0 : ℚ) * size) size w k := by
          unfold slotY; rw [e1, ay0]; push_cast; ring
        rw [tileOrigin_eq hready.txs hready.tys hkb, tileOrigin_eq hf1.txs hf1.tys hk1, esx, esy]
      constructor
      · rintro ⟨k, hk, ho⟩
        simp only [tile?, Option.bind_some] at hk
        obtain ⟨k0, hk0, rfl⟩ := hlnew k t hk
        refine ⟨k0, ?_, by rw [← hidx k0 hk0]; exact ho⟩
        unfold tile?
        rw [hf1.tiles, Option.bind_some, ← hlold k0 hk0, hk]
      · rintro ⟨k, hk, ho⟩
        unfold tile? at hk
        rw [hf1.tiles, Option.bind_some] at hk
        have hk1 : k < ht * w := by rw [← hf.rep.2.2.1]; exact (List.getElem?_eq_some_iff.1 hk).1
        exact ⟨blockIdx nx d b w k, by simp only [tile?, Option.bind_some]; rw [hlold k hk1, hk], by rw [hidx k hk1]; exact ho⟩

/-- an accepted `add_points` of a growing grid -/
theorem addPoints_grow (C : ChildSpec τ size sub bs fl) (hs : 0 < size) {g : Grid τ} {A : Store} (h : GrowInv C g A) {c : String} {pts : List Pt}
    {a : AddArgs} (hc : c ∉ A.names) (hp : pts ≠ []) (hm : (g.info.update c a).err = none) :
    ∃ u, addPoints g ⟨fl, pts⟩ c a = .ok u ∧ GrowInv C u (A ++ [(c, pts)]) ∧ Keeps g u pts ∧ u.meanDepth = meanDepthOf pts ∧
      u.info = (g.info.update c a).st ∧ ∃ (i j : ℤ) (nx ny : Nat) (T : Arr2 (Option τ)),
        Frame C ((i : ℚ) * size) ((j : ℚ) * size) nx ny T u (A ++ [(c, pts)]) ∧
        u.extents = some ⟨(i : ℚ) * size, (i : ℚ) * size + (nx : ℚ) * size, (j : ℚ) * size, (j : ℚ) * size + (ny : ℚ) * size⟩ ∧
        GrowStep g u size pts i j nx ny := by
  obtain ⟨u, h1, h2, h3, h4, h5, i, j, nx, ny, T, h6, h7, h8, -⟩ := addPoints_placed C hs h hc hp hm
  exact ⟨u, h1, h2, h3, h4, h5, i, j, nx, ny, T, h6, h7, h8⟩

end Grid
end Bathy
