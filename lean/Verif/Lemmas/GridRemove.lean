import Verif.Lemmas.GridAdd
import Verif.Lemmas.TileHistory

/-!
# `remove_points` of a grid, and the number of soundings
-/

namespace Bathy

theorem bins_perm {α : Type} (f : α → Nat) (l : List α) (n : Nat) :
    ((List.range n).flatMap (fun k => l.filter (fun p => decide (f p = k)))).Perm (l.filter (fun p => decide (f p < n))) := by
  induction n with
  | zero => simp
  | succ n ih =>
    rw [List.range_succ, List.flatMap_append]
    simp only [List.flatMap_cons, List.flatMap_nil, List.append_nil]
    refine (ih.append_right _).trans ?_
    clear ih
    induction l with
    | nil => simp
    | cons a l ih =>
      simp only [List.filter_cons]
      by_cases h1 : f a < n
      · have h2 : ¬ f a = n := by omega
        have h3 : f a < n + 1 := by omega
        simp only [h1, h2, h3, decide_true, decide_false, if_true, Bool.false_eq_true, if_false, List.cons_append]
        exact ih.cons a
      · by_cases h2 : f a = n
        · have h3 : f a < n + 1 := by omega
          simp only [h2, decide_true, decide_false, if_true, Bool.false_eq_true, if_false, Nat.lt_irrefl, Nat.lt_succ_self]
          exact List.perm_middle.trans (ih.cons a)
        · have h3 : ¬ f a < n + 1 := by omega
          simp only [h1, h2, h3, decide_false, Bool.false_eq_true, if_false]
          exact ih

namespace Grid
variable {τ : Type} [TileLike τ] {size sub : ℚ} {bs : Bool} {fl : Fields}

/-- the soundings of a rectangle of tiles, tile by tile -/
theorem slots_perm (hs : 0 < size) {x0 y0 : ℚ} {nx ny : Nat} (l : List Pt) (hin : ∀ p ∈ l, InRect x0 y0 size nx ny p) :
    ((List.range (ny * nx)).flatMap (fun k => l.filter (fun p => decide (InBox (slotX x0 size nx k) (slotY y0 size nx k) size p)))).Perm l := by
  have h := bins_perm (cellOf x0 y0 size nx) l (ny * nx)
  have e1 : l.filter (fun p => decide (cellOf x0 y0 size nx p < ny * nx)) = l := by
    rw [List.filter_eq_self]
    intro p hp
    simpa using cellOf_rect_lt hs (hin p hp)
  rw [e1] at h
  have e2 : (List.range (ny * nx)).flatMap (fun k => l.filter (fun p => decide (cellOf x0 y0 size nx p = k))) =
      (List.range (ny * nx)).flatMap (fun k => l.filter (fun p => decide (InBox (slotX x0 size nx k) (slotY y0 size nx k) size p))) := by
    apply List.flatMap_congr
    intro k hk
    apply List.filter_congr
    intro p hp
    have := cellOf_rect_iff hs (hin p hp) (List.mem_range.1 hk)
    simp only [this]
  rw [e2] at h
  exact h

/-- number of soundings in the tiles -/
theorem tilesRep_count (C : ChildSpec τ size sub bs fl) (hs : 0 < size) {x0 y0 : ℚ} {nx ny : Nat} {T : Arr2 (Option τ)} {A : Store}
    (h : TilesRep C x0 y0 nx ny T A) (hin : ∀ p ∈ A.allPts, InRect x0 y0 size nx ny p) :
    (T.flat.map (fun o => match o with | some x => TileLike.pointsCount x | none => 0)).sum = A.allPts.length := by
  obtain ⟨-, -, hlen, hslot⟩ := h
  rw [← (slots_perm hs A.allPts hin).length_eq, List.length_flatMap]
  congr 1
  apply List.ext_getElem
  · simp [hlen]
  · intro k h1 h2
    simp only [List.getElem_map, List.getElem_range]
    have hk : k < T.flat.length := by simpa using h1
    have := hslot k _ (List.getElem?_eq_getElem hk)
    rcases this with ⟨e1, e2⟩ | ⟨t, e1, e2, e3⟩
    · rw [e1, ← Store.allPts_within, e2]; rfl
    · rw [e1, ← Store.allPts_within]; exact C.count e3

theorem pointsCount_frame (C : ChildSpec τ size sub bs fl) (hs : 0 < size) {x0 y0 : ℚ} {nx ny : Nat} {T : Arr2 (Option τ)} {g : Grid τ} {A : Store}
    (h : Ready C x0 y0 nx ny T g A) (hne : ∀ q ∈ A, q.2 ≠ []) : g.pointsCount = A.allPts.length := by
  unfold pointsCount
  rw [frame_isEmpty C hs h hne, h.tiles]
  simp only
  by_cases hA : A = []
  · subst hA; simp [Store.allPts]
  · simp only [hA, decide_false, Bool.false_eq_true, if_false]
    exact tilesRep_count C hs h.rep h.inr

omit [TileLike τ] in
theorem keys_pop_names {d : Dict String (List String)} {A : Store} (h : d.keys = A.names) (c : String) : (d.pop c).keys = (A.remove c).names := by
  simp only [Dict.keys, Dict.pop, Store.names, Store.remove] at *
  have e1 : List.map Prod.fst (List.filter (fun p => decide (p.1 ≠ c)) A) = (List.map Prod.fst A).filter (fun k => decide (k ≠ c)) := by
    rw [List.filter_map]; rfl
  rw [e1, ← h, List.filter_map]
  congr 1
  apply List.filter_congr
  intro p _
  simp

/-- `remove_points` of a container of a grid with tiles -/
theorem removePoints_frame (C : ChildSpec τ size sub bs fl) (hs : 0 < size) {x0 y0 : ℚ} {nx ny : Nat} {T : Arr2 (Option τ)} {g : Grid τ} {A : Store}
    (h : Frame C x0 y0 nx ny T g A) (hne : ∀ q ∈ A, q.2 ≠ []) (hcont : g.info.container.keys = A.names) {c : String} (hc : c ∈ A.names)
    (hm : MaskOk g (ny * nx) ∨ (removePoints g c).err = none) :
    ∃ T' m', removePoints g c = .ok { g with info := { g.info with container := g.info.container.pop c }, mask := m', tiles := (if A.remove c = [] then none else some T'), numberOfTiles := some ((T'.flat.countP Option.isSome : Nat) : Int) } ∧
      Ready C x0 y0 nx ny T' { g with info := { g.info with container := g.info.container.pop c }, mask := m', tiles := some T', numberOfTiles := some ((T'.flat.countP Option.isSome : Nat) : Int) } (A.remove c) ∧
      (MaskOk g (ny * nx) → MaskOk { g with mask := m' } (ny * nx)) ∧ m'.map Arr2.dims = g.mask.map Arr2.dims ∧
      (∀ k : Nat, c ∉ (A.within (slotX x0 size nx k) (slotY y0 size nx k) size).names → T'.flat[k]? = T.flat[k]?) := by
  have hA : A ≠ [] := by rintro rfl; simp [Store.names] at hc
  have hhas : g.info.container.has c = true := by rw [Dict.has_iff, hcont]; exact hc
  obtain ⟨hr1, hr2, hlen, hslot⟩ := h.rep
  generalize hg0 : ({ g with info := { g.info with container := g.info.container.pop c } } : Grid τ) = g0 at *
  have hg0t : g0.tiles = some T := by rw [← hg0]; exact h.tiles
  have hg0m : g0.mask = g.mask := by rw [← hg0]
  have hg0n : g0.numberOfTiles = some ((T.flat.countP Option.isSome : Nat) : Int) := by rw [← hg0]; exact h.num
  have hemp : g0.isEmpty = false := by
    have : g0.isEmpty = g.isEmpty := by rw [← hg0]; rfl
    rw [this, frame_isEmpty C hs h.toReady hne]; simpa using hA
  have hslots : g0.slots = ny * nx := by unfold slots; rw [hg0t]; exact hlen
  have hrun : removePoints g c = (Res.forEach (List.range (ny * nx)) g0 (removeFromTile c)).andThen
      (fun g => .ok (if g.isEmpty then { g with tiles := none } else g)) := by
    unfold removePoints
    rw [hhas]
    simp only [if_true]
    rw [hg0, hemp, hslots]
    simp only [Bool.false_eq_true, if_false]
  have hself : ({ g0 with tiles := some T, mask := g.mask, numberOfTiles := some ((T.flat.countP Option.isSome : Nat) : Int) } : Grid τ) = g0 := by
    rw [← hg0t, ← hg0m, ← hg0n]
  obtain ⟨T', m', h1, h2, h3, h4, h5, h6, h7, h8⟩ := removeLoop_spec C (g := g0) (minX := x0) (minY := y0) (nx := nx) (ny := ny) (A := A) c
    (List.range (ny * nx)) List.nodup_range (fun k hk => List.mem_range.1 hk) T hlen g.mask
    (by
      rcases hm with hm | hm
      · left; exact hm
      · right
        rw [hrun] at hm
        rw [hself]
        exact (Res.andThen_err_none hm).1) (fun k _ o ho => hslot k o ho)
  rw [hself] at h1
  have hready : Ready C x0 y0 nx ny T' { g0 with mask := m', tiles := some T', numberOfTiles := some ((T'.flat.countP Option.isSome : Nat) : Int) } (A.remove c) := by
    have hTR : TilesRep C x0 y0 nx ny T' (A.remove c) := by
      refine ⟨by rw [h4, hr1], by rw [h5, hr2], h6, ?_⟩
      intro k o ho
      have hk : k < ny * nx := by rw [← h6]; exact (List.getElem?_eq_some_iff.1 ho).1
      rw [Store.within_remove]
      exact (h8 k (List.mem_range.2 hk) o ho).1
    have hin : ∀ p ∈ (A.remove c).allPts, InRect x0 y0 size nx ny p := fun p hp => h.inr p (Store.mem_allPts_remove hp)
    subst hg0
    exact ⟨h.tileSize, h.subtileSize, h.backscatter, h.txs, h.tys, h.edgesX, h.edgesY, rfl, hTR, hin, h.nx_pos, h.ny_pos, h.dims⟩
  refine ⟨T', m', ?_, ?_, h2, h3, ?_⟩
  · rw [hrun, h1, Res.andThen_ok]
    have hemp' := frame_isEmpty C hs hready (Store.remove_ne c hne)
    have : isEmpty { g0 with tiles := some T', mask := m', numberOfTiles := some ((T'.flat.countP Option.isSome : Nat) : Int) } = decide (A.remove c = []) := hemp'
    rw [this]
    subst hg0
    by_cases hr : A.remove c = [] <;> simp [hr]
  · subst hg0; exact hready
  · intro k hk
    by_cases hkl : k < ny * nx
    · have hk' : k < T'.flat.length := by rw [h6]; exact hkl
      have := (h8 k (List.mem_range.2 hkl) _ (List.getElem?_eq_getElem hk')).2 hk
      rw [this, List.getElem?_eq_getElem hk']
    · rw [List.getElem?_eq_none (by omega), List.getElem?_eq_none (by omega)]

/-- `remove_points` of an unknown container does nothing -/
theorem removePoints_unknown {g : Grid τ} {c : String} (h : c ∉ g.info.container.keys) : removePoints g c = .ok g := by
  unfold removePoints
  rw [(Dict.has_false_iff _ _).2 h]
  rfl

/-- `remove_points` of a growing grid that does not raise -/
theorem removePoints_grow (C : ChildSpec τ size sub bs fl) (hs : 0 < size) {g : Grid τ} {A : Store} (h : GrowInv C g A) (c : String)
    (hm : MaskOk g g.slots ∨ (removePoints g c).err = none) :
    ∃ u, removePoints g c = .ok u ∧ GrowInv C u (A.remove c) ∧ (MaskOk g g.slots → u.tiles ≠ none → MaskOk u u.slots) ∧
      u.mask.map Arr2.dims = g.mask.map Arr2.dims ∧ u.extents = g.extents ∧ (u.tiles ≠ none → u.slots = g.slots) ∧
      (∀ k t x y, u.tiles ≠ none → g.tile? k = some (some t) → g.tileOrigin k = some (x, y) → c ∉ (A.within x y size).names →
        u.tile? k = some (some t) ∧ u.tileOrigin k = some (x, y)) := by
  by_cases hc : c ∈ A.names
  · have hA : A ≠ [] := by rintro rfl; simp [Store.names] at hc
    rcases h.body with ⟨h0, -⟩ | ⟨-, i, j, nx, ny, T, hf, hext⟩
    · exact absurd h0 hA
    · have hslots : g.slots = ny * nx := by unfold slots; rw [hf.tiles]; exact hf.rep.2.2.1
      rw [hslots] at hm
      obtain ⟨T', m', h1, h2, h3, h4, h5⟩ := removePoints_frame C hs hf h.ne h.cont hc hm
      refine ⟨_, h1, ⟨h.canGrow, h.ox, h.oy, h.tileSize, h.subtileSize, h.backscatter, Store.names_remove_nodup A c h.names, Store.remove_ne c h.ne,
        keys_pop_names h.cont c, ?_⟩, ?_, h4, rfl, ?_, ?_⟩
      · by_cases hr : A.remove c = []
        · left
          refine ⟨hr, by simp [hr], Or.inr ?_⟩
          have he := tilesRep_empty C hs h2.rep h2.inr (Store.remove_ne c h.ne)
          rw [hr] at he
          have hz : T'.flat.countP Option.isSome = 0 := by
            rw [List.countP_eq_zero]
            intro o ho hso
            have : T'.flat.any Option.isSome = true := List.any_eq_true.2 ⟨o, ho, hso⟩
            rw [this] at he
            simp at he
          simp [hz]
        · right
          refine ⟨hr, i, j, nx, ny, T', ⟨?_, rfl⟩, hext⟩
          simp only [hr, if_false]
          exact h2
      · intro hmk hne
        by_cases hr : A.remove c = []
        · simp [hr] at hne
        · have : slots { g with info := { g.info with container := g.info.container.pop c }, mask := m', tiles := (if A.remove c = [] then none else some T'), numberOfTiles := some ((T'.flat.countP Option.isSome : Nat) : Int) } = ny * nx := by
            simp only [slots, hr, if_false]; exact h2.rep.2.2.1
          rw [this]
          rw [hslots] at hmk
          exact h3 hmk
      · intro hne
        by_cases hr : A.remove c = []
        · simp [hr] at hne
        · rw [hslots]
          simp only [slots, hr, if_false]; exact h2.rep.2.2.1
      · intro k t x y hne hk ho hcb
        by_cases hr : A.remove c = []
        · simp [hr] at hne
        · have hk1 : k < ny * nx := by
            rw [← hf.rep.2.2.1]
            unfold tile? at hk
            rw [hf.tiles] at hk
            exact (List.getElem?_eq_some_iff.1 hk).1
          have ho' := tileOrigin_eq hf.txs hf.tys hk1
          rw [ho] at ho'
          cases ho'
          refine ⟨?_, ho⟩
          unfold tile? at hk ⊢
          rw [hf.tiles] at hk
          simp only [hr, if_false, Option.bind_some] at hk ⊢
          rw [h5 k hcb, hk]
  · refine ⟨g, removePoints_unknown (by rw [h.cont]; exact hc), by rw [Store.remove_of_not_mem _ _ hc]; exact h, fun h _ => h, rfl, rfl, fun _ => rfl, fun k t x y _ h1 h2 _ => ⟨h1, h2⟩⟩

end Grid

/-! ### tiles as children -/

/-- tiles reached through any history of calls -/
def tileSpec (env : Env) (F : Family) (size sub : ℚ) (bs : Bool) (fl : Fields) (hs : 0 < size) : ChildSpec Tile size sub bs fl where
  Rep x y t A := TileHistory env x y size bs fl F t A ∧ A ≠ [] ∧ ∀ q ∈ A, q.2 ≠ []
  first := by
    intro x y c pts hp hbox
    obtain ⟨u, hu, -⟩ := Tile.addPoints_spec (Tile.rep_new x y size bs fl) ⟨fl, pts⟩ rfl c
    refine ⟨Tile.new x y size bs, u, rfl, hu, ?_, by simp, by simpa using hp⟩
    have := TileHistory.first (env := env) (bs := bs) (fl := fl) F pts c hbox
    rw [hu] at this
    exact this
  add := by
    intro x y t A c pts h hc hp hbox
    obtain ⟨h1, h2, h3⟩ := h
    obtain ⟨u, hu, -⟩ := Tile.addPoints_spec (history_frame hs h1).2.1 ⟨fl, pts⟩ rfl c
    refine ⟨u, hu, ?_, by simp, ?_⟩
    · have := TileHistory.add h1 pts c hbox
      rw [hu, Store.put_new _ _ _ hc] at this
      exact this
    · intro q hq
      rcases List.mem_append.1 hq with hq | hq
      · exact h3 q hq
      · rw [List.mem_singleton] at hq; subst hq; exact hp
  remove := by
    intro x y t A c h
    obtain ⟨h1, h2, h3⟩ := h
    obtain ⟨u, hu, hr, -, -, hab, -⟩ := Tile.removePoints_spec (history_frame hs h1).2.1 c
    refine ⟨u, hu, hab, ?_⟩
    have hh := TileHistory.remove h1 c
    rw [hu] at hh
    by_cases hA : A.remove c = []
    · left
      refine ⟨hA, ?_⟩
      have hd := history_data hs hh
      have hd' : u.data = some ⟨fl, (A.remove c).allPts⟩ := hd
      show Tile.isEmpty u = true
      unfold Tile.isEmpty Tile.pointsCount
      rw [hd', hA]
      rfl
    · exact Or.inr ⟨hA, hh, hA, Store.remove_ne c h3⟩
  nonempty := by
    intro x y t A h
    obtain ⟨h1, h2, h3⟩ := h
    have hd := history_data hs h1
    show Tile.isEmpty t = false
    unfold Tile.isEmpty Tile.pointsCount
    rw [hd]
    simp only [beq_eq_false_iff_ne, ne_eq, List.length_eq_zero_iff]
    exact fun he => h2 (Store.nil_of_allPts h3 he)
  count := by
    intro x y t A h
    have hd := history_data hs h.1
    show Tile.pointsCount t = _
    unfold Tile.pointsCount
    rw [hd]

namespace Grid
variable {τ : Type} [TileLike τ] {size sub sub' : ℚ} {bs : Bool} {fl : Fields}

/-- invariant of a subgrid of a variable resolution grid: a fixed square, tiles of size `sub` -/
structure SubInv (C : ChildSpec τ sub 0 false fl) (size x y : ℚ) (g : Grid τ) (A : Store) : Prop where
  name : g.name = ""
  canGrow : g.canGrow = false
  extents : g.extents = some ⟨x, x + size, y, y + size⟩
  mask : ∀ m, g.mask = some m → m = ⟨0, 0, []⟩
  vref : g.info.vref = none
  names : A.names.Nodup
  ne : ∀ q ∈ A, q.2 ≠ []
  cont : g.info.container.keys = A.names
  nonempty : A ≠ []
  frame : ∃ T, Frame C x y (ncells size sub) (ncells size sub) T g A

theorem update_sub (m : Meta) (c : String) (h : m.vref = none) : (m.update c {}).err = none ∧ (m.update c {}).st.vref = none := by
  unfold Meta.update Meta.updateEpsg Crs.truthy
  simp only [Bool.false_eq_true, if_false, Res.andThen_ok]
  unfold Meta.checkVref
  rw [h]
  simp only [Meta.mergeTime, Res.ok_err, Res.ok_st, and_self]

theorem inRect_of_inBox {size sub x y : ℚ} (hs : 0 < size) (hsub : 0 < sub) {p : Pt} (h : InBox x y size p) :
    InRect x y sub (ncells size sub) (ncells size sub) p := by
  obtain ⟨h1, h2, h3, h4⟩ := h
  have := ncells_le hs hsub
  exact ⟨h1, by linarith, h3, by linarith⟩

/-- `add_points` of a subgrid with tiles -/
theorem addPoints_subPlaced (C : ChildSpec τ sub 0 false fl) (hs : 0 < size) (hsub : 0 < sub) {x y : ℚ} {g : Grid τ} {A : Store} (h : SubInv C size x y g A)
    {c : String} {pts : List Pt} (hc : c ∉ A.names) (hp : pts ≠ []) (hbox : ∀ p ∈ pts, InBox x y size p) :
    ∃ u, addPoints g ⟨fl, pts⟩ c {} = .ok u ∧ SubInv C size x y u (A ++ [(c, pts)]) ∧
      ∃ g2, Placed C x y (ncells size sub) (ncells size sub) { g with info := (g.info.update c {}).st } g2 A pts ∧ g2.mask = u.mask := by
  have hkeys : c ∉ g.info.container.keys := by rw [h.cont]; exact hc
  obtain ⟨hm, hv⟩ := update_sub g.info c h.vref
  obtain ⟨T, hf⟩ := h.frame
  obtain ⟨fs, hfs⟩ : ∃ fs, (g.info.update c {}).st.container = g.info.container.set c fs := by
    rcases Meta.update_container g.info c {} with ⟨-, h⟩ | ⟨⟨e, he⟩, -⟩
    · exact h
    · rw [hm] at he; cases he
  have hcont : (g.info.update c {}).st.container.keys = (A ++ [(c, pts)]).names := by
    rw [hfs, Dict.set_of_not_mem _ _ _ hkeys]
    simp only [Dict.keys, List.map_append, Store.names] at *
    rw [show List.map Prod.fst g.info.container = List.map Prod.fst A from h.cont]
    rfl
  generalize hg1 : ({ g with info := (g.info.update c {}).st } : Grid τ) = g1 at *
  have hready : Ready C x y (ncells size sub) (ncells size sub) T g1 A := by
    subst hg1
    exact ⟨hf.tileSize, hf.subtileSize, hf.backscatter, hf.txs, hf.tys, hf.edgesX, hf.edgesY, hf.tiles, hf.rep, hf.inr, hf.nx_pos, hf.ny_pos, hf.dims⟩
  have hemp : g1.isEmpty = false := by
    rw [frame_isEmpty C hsub hready h.ne]; simpa using h.nonempty
  have hgr : g1.canGrow = false := by rw [← hg1]; exact h.canGrow
  obtain ⟨T', hadd, hfr, -⟩ := addToTiles_ready C hsub hready hc (fun p hp => inRect_of_inBox hs hsub (hbox p hp)) (meanDepthOf pts)
  have hbase : updateBase g1 pts = .ok g1 := by
    unfold updateBase
    rw [hemp, hgr]
    simp only [Bool.false_eq_true, if_false]
  have hplace : placeTiles g1 = .ok g1 := by
    unfold placeTiles
    rw [hemp, hgr]
    simp only [Bool.false_eq_true, if_false]
  refine ⟨_, Eq.trans ?_ hadd, ⟨by subst hg1; exact h.name, hgr, ?_, ?_, ?_, ?_, ?_, ?_, by simp, T', hfr⟩, g1,
    ⟨⟨g1, hbase, hplace⟩, ⟨T, hready⟩, fun p hp => inRect_of_inBox hs hsub (hbox p hp), fun _ _ => Iff.rfl⟩, rfl⟩
  · unfold addPoints
    rw [(Dict.has_false_iff _ _).2 hkeys]
    simp only [Bool.false_eq_true, if_false, hm]
    rw [hg1, hbase, Res.andThen_ok, hplace, Res.andThen_ok]
  · subst hg1; exact h.extents
  · subst hg1; exact h.mask
  · subst hg1; exact hv
  · rw [← Store.put_new A c pts hc]; exact Store.names_put_nodup A c pts h.names
  · intro q hq
    rcases List.mem_append.1 hq with hq | hq
    · exact h.ne q hq
    · rw [List.mem_singleton] at hq; subst hq; exact hp
  · subst hg1; exact hcont

theorem addPoints_sub (C : ChildSpec τ sub 0 false fl) (hs : 0 < size) (hsub : 0 < sub) {x y : ℚ} {g : Grid τ} {A : Store} (h : SubInv C size x y g A)
    {c : String} {pts : List Pt} (hc : c ∉ A.names) (hp : pts ≠ []) (hbox : ∀ p ∈ pts, InBox x y size p) :
    ∃ u, addPoints g ⟨fl, pts⟩ c {} = .ok u ∧ SubInv C size x y u (A ++ [(c, pts)]) := by
  obtain ⟨u, h1, h2, -⟩ := addPoints_subPlaced C hs hsub h hc hp hbox
  exact ⟨u, h1, h2⟩

/-- the first `add_points` of a new subgrid -/
theorem addPoints_newSubPlaced (C : ChildSpec τ sub 0 false fl) (hs : 0 < size) (hpow : isPowerOfTwo sub = true) {x y : ℚ}
    {c : String} {pts : List Pt} (hp : pts ≠ []) (hbox : ∀ p ∈ pts, InBox x y size p) :
    ∃ g0 u, newSub x y size sub = .ok g0 ∧ addPoints (τ := τ) g0 ⟨fl, pts⟩ c {} = .ok u ∧ SubInv C size x y u [(c, pts)] ∧
      ∃ g2, Placed C x y (ncells size sub) (ncells size sub) { g0 with info := (g0.info.update c {}).st } g2 [] pts ∧ g2.mask = u.mask := by
  have hsub := isPowerOfTwo_pos hpow
  obtain ⟨hm, hv⟩ := update_sub {} c rfl
  generalize hg0 : (blank "" false x y sub 0 false (some ⟨x, x + size, y, y + size⟩) : Grid τ) = g0
  have hi0 : g0.info = {} := by rw [← hg0]; rfl
  have hnew : newSub (τ := τ) x y size sub = .ok g0 := by unfold newSub; rw [hpow, if_pos rfl, hg0]
  obtain ⟨fs, hfs⟩ : ∃ fs, (Meta.update {} c {}).st.container = Dict.set [] c fs := by
    rcases Meta.update_container {} c {} with ⟨-, h⟩ | ⟨⟨e, he⟩, -⟩
    · exact h
    · rw [hm] at he; cases he
  generalize hg1 : ({ g0 with info := (Meta.update {} c {}).st } : Grid τ) = g1
  have hemp : g1.isEmpty = true := by rw [← hg1, ← hg0]; rfl
  have hgr : g1.canGrow = false := by rw [← hg1, ← hg0]; rfl
  have hsz : g1.tileSize = sub := by rw [← hg1, ← hg0]; rfl
  have hext : g1.extents = some ⟨x, x + size, y, y + size⟩ := by rw [← hg1, ← hg0]; rfl
  have hadj : g1.adjustExtents ⟨x, x + size, y, y + size⟩ = ⟨x, x + size, y, y + size⟩ := by
    unfold adjustExtents; rw [hgr]; rfl
  obtain ⟨m, hbuild⟩ := buildGrid_fresh hsub hsz hadj hs hs (Or.inl hemp)
  generalize hg2 : ({ g1 with extents := some ⟨x, x + size, y, y + size⟩, txs := originsOf x sub (ncells size sub), tys := originsOf y sub (ncells size sub), edgesX := edgesOf x sub (ncells size sub), edgesY := edgesOf y sub (ncells size sub), width := some (x + size - x), height := some (y + size - y), maximumTiles := m } : Grid τ) = g2 at hbuild
  have hemp2 : g2.isEmpty = true := by rw [← hg2]; exact hemp
  have hplace : placeTiles g2 = .ok { g2 with tiles := some (Arr2.fill (ncells size sub) (ncells size sub) none) } := by
    unfold placeTiles
    rw [hemp2]
    simp only [if_true]
    rw [← hg2]
    simp only [originsOf_length]
  have hready : Ready C x y (ncells size sub) (ncells size sub) (Arr2.fill (ncells size sub) (ncells size sub) none)
      { g2 with tiles := some (Arr2.fill (ncells size sub) (ncells size sub) none) } [] := by
    subst hg2
    subst hg1
    subst hg0
    exact ⟨rfl, rfl, rfl, rfl, rfl, rfl, rfl, rfl, tilesRep_nil C _ _ _ _, by simp [Store.allPts], ncells_pos hs hsub, ncells_pos hs hsub, by rintro _ ⟨rfl⟩; exact ⟨rfl, rfl⟩⟩
  obtain ⟨T', hadd, hfr, -⟩ := addToTiles_ready C hsub hready (c := c) (by simp [Store.names]) (fun p hp => inRect_of_inBox hs hsub (hbox p hp)) (meanDepthOf pts)
  have hbase : updateBase g1 pts = .ok g2 := by
    unfold updateBase
    rw [hemp, hgr, hext]
    simp only [Bool.false_eq_true, if_false, if_true]
    exact hbuild
  refine ⟨g0, _, hnew, ?_, ⟨by subst hg2; subst hg1; subst hg0; rfl, ?_, ?_, ?_, ?_, by simp [Store.names], by simpa using hp, ?_, by simp, T', hfr⟩,
    { g2 with tiles := some (Arr2.fill (ncells size sub) (ncells size sub) none) },
    ⟨⟨g2, by rw [hi0, hg1]; exact hbase, hplace⟩, ⟨_, hready⟩, fun p hp => inRect_of_inBox hs hsub (hbox p hp), ?_⟩, rfl⟩
  · unfold addPoints
    rw [hi0]
    have : Dict.has (Meta.container {}) c = false := rfl
    rw [this]
    simp only [Bool.false_eq_true, if_false, hm]
    rw [hg1, hbase, Res.andThen_ok, hplace, Res.andThen_ok]
    exact hadd
  · subst hg2; subst hg1; subst hg0; rfl
  · subst hg2; rfl
  · subst hg2; subst hg1; subst hg0; intro m hm; cases hm
  · subst hg2; subst hg1; exact hv
  · subst hg2; subst hg1
    simp only
    rw [hfs]
    rfl
  · intro t p
    constructor
    · rintro ⟨k, hk, -⟩
      simp only [tile?, Option.bind_some, Arr2.fill, List.getElem?_replicate] at hk
      split at hk <;> simp at hk
    · rintro ⟨k, hk, -⟩
      have : g0.tiles = none := by rw [← hg0]; rfl
      simp only [tile?, this, Option.bind_none] at hk
      cases hk

theorem addPoints_newSub (C : ChildSpec τ sub 0 false fl) (hs : 0 < size) (hpow : isPowerOfTwo sub = true) {x y : ℚ}
    {c : String} {pts : List Pt} (hp : pts ≠ []) (hbox : ∀ p ∈ pts, InBox x y size p) :
    ∃ g0 u, newSub x y size sub = .ok g0 ∧ addPoints (τ := τ) g0 ⟨fl, pts⟩ c {} = .ok u ∧ SubInv C size x y u [(c, pts)] := by
  obtain ⟨g0, u, h1, h2, h3, -⟩ := addPoints_newSubPlaced C hs hpow hp hbox
  exact ⟨g0, u, h1, h2, h3⟩

end Grid

/-- subgrids as tiles of a variable resolution grid -/
def subSpec {τ : Type} [TileLike τ] {size sub : ℚ} {bs : Bool} {fl : Fields} (C : ChildSpec τ sub 0 false fl) (hs : 0 < size)
    (hpow : isPowerOfTwo sub = true) : ChildSpec (Grid τ) size sub bs fl where
  Rep x y g A := Grid.SubInv C size x y g A
  first := fun hp hbox => Grid.addPoints_newSub C hs hpow hp hbox
  add := fun h hc hp hbox => Grid.addPoints_sub C hs (isPowerOfTwo_pos hpow) h hc hp hbox
  remove := by
    intro x y g A c h
    have hsub := isPowerOfTwo_pos hpow
    obtain ⟨T, hf⟩ := h.frame
    by_cases hc : c ∈ A.names
    · have hmask : Grid.MaskOk g (ncells size sub * ncells size sub) := by
        intro m hm hany; rw [h.mask m hm] at hany; cases hany
      obtain ⟨T', m', h1, h2, -, h4, -⟩ := Grid.removePoints_frame C hsub hf h.ne h.cont hc (Or.inl hmask)
      have hm' : ∀ m, m' = some m → m = ⟨0, 0, []⟩ := by
        rintro m rfl
        cases hg : g.mask with
        | none => rw [hg] at h4; cases h4
        | some m0 =>
          rw [hg, Option.map_some, Option.map_some, h.mask m0 hg] at h4
          exact Arr2.eq_blank (Option.some.inj h4)
      refine ⟨_, h1, fun hn => absurd hc hn, ?_⟩
      by_cases hr : A.remove c = []
      · left
        refine ⟨hr, ?_⟩
        simp only [hr, if_true]
        rfl
      · right
        refine ⟨hr, h.name, h.canGrow, h.extents, hm', h.vref, Store.names_remove_nodup A c h.names, Store.remove_ne c h.ne, Grid.keys_pop_names h.cont c, hr,
          T', ?_, rfl⟩
        simp only [hr, if_false]
        exact h2
    · refine ⟨g, Grid.removePoints_unknown (by rw [h.cont]; exact hc), fun _ => rfl, Or.inr ?_⟩
      rw [Store.remove_of_not_mem _ _ hc]
      exact ⟨h.nonempty, h⟩
  nonempty := by
    intro x y g A h
    obtain ⟨T, hf⟩ := h.frame
    show Grid.isEmpty g = false
    rw [Grid.frame_isEmpty C (isPowerOfTwo_pos hpow) hf.toReady h.ne]
    simpa using h.nonempty
  count := by
    intro x y g A h
    obtain ⟨T, hf⟩ := h.frame
    exact Grid.pointsCount_frame C (isPowerOfTwo_pos hpow) hf.toReady h.ne

end Bathy
