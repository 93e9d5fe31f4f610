import Verif.Lemmas.DiskRun

/-!
# Tiles and subgrids with their folders
-/

namespace Bathy
namespace Tile

theorem foldl_clearTemp_edges (rs : List ℚ) (t : Tile) : (rs.foldl clearTemp t).edgesX = t.edgesX ∧ (rs.foldl clearTemp t).edgesY = t.edgesY := by
  induction rs generalizing t with
  | nil => exact ⟨rfl, rfl⟩
  | cons r rs ih =>
    rw [List.foldl_cons]
    obtain ⟨h1, h2⟩ := ih (t.clearTemp r)
    rw [h1, h2]
    unfold clearTemp
    split <;> exact ⟨rfl, rfl⟩

theorem removePoints_edges (t : Tile) (c : String) : (t.removePoints c).st.edgesX = t.edgesX ∧ (t.removePoints c).st.edgesY = t.edgesY := by
  unfold removePoints
  split
  · exact ⟨rfl, rfl⟩
  · split
    · exact ⟨rfl, rfl⟩
    · simp only
      split
      · exact foldl_clearTemp_edges _ _
      · exact ⟨rfl, rfl⟩

theorem addPoints_edges (t : Tile) (d : PtArr) (c : String) : (t.addPoints d c).st.edgesX = t.edgesX ∧ (t.addPoints d c).st.edgesY = t.edgesY := by
  unfold addPoints
  split
  · exact ⟨rfl, rfl⟩
  · have h1 : ∀ r : Res Tile, r = (if t.container.has c then removePoints t c else .ok t) → r.st.edgesX = t.edgesX ∧ r.st.edgesY = t.edgesY := by
      intro r hr
      subst hr
      split
      · exact removePoints_edges t c
      · exact ⟨rfl, rfl⟩
    generalize hr : (if t.container.has c then removePoints t c else Res.ok t) = r
    obtain ⟨h2, h3⟩ := h1 r hr.symm
    obtain ⟨u, e⟩ := r
    cases e with
    | some e => exact ⟨h2, h3⟩
    | none =>
      simp only [Res.andThen]
      simp only at h2 h3
      split
      · exact ⟨h2, h3⟩
      · split
        · obtain ⟨e1, e2⟩ := foldl_clearTemp_edges _ _
          simp only [Res.ok_st]
          rw [e1, e2]
          exact ⟨h2, h3⟩
        · exact ⟨h2, h3⟩

/-- the gridded layers on disk stay right when the gridded layers do not change -/
theorem HoldsGrid.of_core {t u : Tile} {f : TileFolder} (h : HoldsGrid t f) (hc : ∀ r, u.coreAt r = t.coreAt r) (hx : u.edgesX = t.edgesX) (hy : u.edgesY = t.edgesY) : HoldsGrid u f := by
  have hk : ∀ r, r ∈ u.cells.keys ↔ r ∈ t.cells.keys := fun r => by rw [mem_cells, mem_cells, hc]
  refine ⟨fun r l => ?_, fun r hr => ?_, fun r hr => ?_⟩
  · rw [h.layers]
    by_cases hl : l ∈ savedLayers
    · rw [if_pos hl, if_pos hl]
      have hcore : l.isCore = true := by rw [← isCore_saved]; simpa using hl
      have e : ∀ v : Tile, (v.cells.get? r).bind (·.get? l) = (v.coreAt r).bind (·.get? l) := by
        intro v
        unfold coreAt
        cases v.cells.get? r with
        | none => rfl
        | some ls => simp only [Option.bind_some, Option.map_some, core_get? ls hcore]
      rw [e, e, hc]
    · rw [if_neg hl, if_neg hl]
  · rw [hx]; exact h.edgesX r ((hk r).1 hr)
  · rw [hy]; exact h.edgesY r ((hk r).1 hr)

theorem HoldsGrid.empty {t : Tile} (h : t.cells = []) : HoldsGrid t {} := by
  refine ⟨fun r l => ?_, fun r hr => ?_, fun r hr => ?_⟩
  · rw [h]; split <;> rfl
  · rw [h] at hr; cases hr
  · rw [h] at hr; cases hr

theorem dropTemp_coreAt (t : Tile) (r : ℚ) : t.dropTemp.coreAt r = t.coreAt r := by
  unfold coreAt dropTemp
  simp only [Dict.get?_mapVals]
  cases t.cells.get? r with
  | none => rfl
  | some ls => simp only [Option.map_some, core_core]

theorem Holds.dropTemp {t : Tile} {f : TileFolder} (h : Holds t f) : Holds t.dropTemp f :=
  ⟨h.info, h.data, h.grid.of_core (dropTemp_coreAt t) rfl rfl, fun r hr => h.indices r (by rw [mem_cells, dropTemp_coreAt] at hr; rw [mem_cells]; exact hr)⟩

theorem kept_points (b : Backend) {t : Tile} (hs : t.Saveable) {o : Option TileFolder} (hp : HoldsGrid t (o.getD {})) : Grid.Kept Holds b .points t o t := by
  obtain ⟨f, h1, h2, h3, h4⟩ := flush_points b hs ⟨o, []⟩ hp
  refine ⟨(flush b .points (some t) ⟨o, []⟩).st.2, f, ?_, h3, h4⟩
  show flush b .points (some t) ⟨o, []⟩ = _
  refine (Res.eq_ok_of_err h1).trans (congrArg Res.ok (Prod.ext h2 rfl))

theorem kept_grid (b : Backend) {t : Tile} (hs : t.Saveable) {o : Option TileFolder} (hp : HoldsData t (o.getD {})) : Grid.Kept Holds b .grid t o t.dropTemp := by
  obtain ⟨f, h1, h2, h3, h4⟩ := flush_grid b hs ⟨o, []⟩ hp
  refine ⟨(flush b .grid (some t) ⟨o, []⟩).st.2, f, ?_, h3, h4.dropTemp⟩
  show flush b .grid (some t) ⟨o, []⟩ = _
  refine (Res.eq_ok_of_err h1).trans (congrArg Res.ok (Prod.ext h2 rfl))

theorem dropped (b : Backend) (part : Part) (o : Option TileFolder) : Grid.Dropped Tile (fun _ : TileFolder => False) b part o :=
  ⟨Disk.write ⟨o, []⟩ (fun _ => none), rfl, fun f h => by cases h⟩

end Tile

/-- tiles with their folders -/
theorem tileDisk (env : Env) (size sub : ℚ) (bs : Bool) (fl : Fields) (hs : 0 < size) :
    Grid.DiskSpec env (fun F => tileSpec env F size sub bs fl hs) Tile.Holds (fun _ : TileFolder => False) where
  first := by
    intro b F x y c pts o hp hbox ho
    obtain ⟨t0, u, h1, h2, h3⟩ := (tileSpec env F size sub bs fl hs).first (c := c) hp hbox
    have ho' : o = none := by
      cases o with
      | none => rfl
      | some f => exact (ho f rfl).elim
    subst ho'
    refine ⟨t0, u, ⟨none, []⟩, h1, h2, h3, ?_, ?_⟩
    · show (⟨((t0.addPoints ⟨fl, pts⟩ c).st, _), (t0.addPoints ⟨fl, pts⟩ c).err⟩ : Res (Tile × Disk (Option TileFolder))) = _
      rw [show t0.addPoints ⟨fl, pts⟩ c = .ok u from h2]; rfl
    · refine Tile.kept_points b (tileSpec_saveable h3) ?_
      have e : t0 = Tile.new x y size bs := by cases h1; rfl
      have hu : u = (t0.addPoints ⟨fl, pts⟩ c).st := (congrArg Res.st (show t0.addPoints ⟨fl, pts⟩ c = .ok u from h2)).symm
      refine (Tile.HoldsGrid.empty (t := t0) (by rw [e]; rfl)).of_core ?_ ?_ ?_
      · intro r; rw [hu]; exact (Tile.addPoints_idx t0 _ c).2 r
      · rw [hu]; exact (Tile.addPoints_edges t0 _ c).1
      · rw [hu]; exact (Tile.addPoints_edges t0 _ c).2
  add := by
    intro b F x y t A c pts f h hc hp hbox hf
    obtain ⟨u, h1, h2⟩ := (tileSpec env F size sub bs fl hs).add h hc hp hbox
    refine ⟨u, ⟨some f, []⟩, h1, h2, ?_, ?_⟩
    · show (⟨((t.addPoints ⟨fl, pts⟩ c).st, _), (t.addPoints ⟨fl, pts⟩ c).err⟩ : Res (Tile × Disk (Option TileFolder))) = _
      rw [show t.addPoints ⟨fl, pts⟩ c = .ok u from h1]; rfl
    · refine Tile.kept_points b (tileSpec_saveable h2) ?_
      have hu : u = (t.addPoints ⟨fl, pts⟩ c).st := (congrArg Res.st (show t.addPoints ⟨fl, pts⟩ c = .ok u from h1)).symm
      refine hf.grid.of_core ?_ ?_ ?_
      · intro r; rw [hu]; exact (Tile.addPoints_idx t _ c).2 r
      · rw [hu]; exact (Tile.addPoints_edges t _ c).1
      · rw [hu]; exact (Tile.addPoints_edges t _ c).2
  remove := by
    intro b F x y t A c f h hf
    obtain ⟨u, h1, -, h3⟩ := (tileSpec env F size sub bs fl hs).remove (c := c) h
    refine ⟨u, ⟨some f, []⟩, h1, ?_, ?_, fun _ => Tile.dropped b .points _⟩
    · show (⟨((t.removePoints c).st, _), (t.removePoints c).err⟩ : Res (Tile × Disk (Option TileFolder))) = _
      rw [show t.removePoints c = .ok u from h1]; rfl
    · intro he
      rcases h3 with ⟨-, h3⟩ | ⟨-, h3⟩
      · rw [he] at h3; cases h3
      · refine Tile.kept_points b (tileSpec_saveable h3) ?_
        have hu : u = (t.removePoints c).st := (congrArg Res.st (show t.removePoints c = .ok u from h1)).symm
        refine hf.grid.of_core ?_ ?_ ?_
        · intro r; rw [hu]; exact (Tile.removePoints_idx t c).2 r
        · rw [hu]; exact (Tile.removePoints_edges t c).1
        · rw [hu]; exact (Tile.removePoints_edges t c).2
  grid := by
    intro b F F' a x y t A f hF hFF h hf
    refine ⟨rfl, fun he => ⟨rfl, (GridLike.grid env t a).1.st.dropTemp, ?_, ?_⟩⟩
    · have hrep : (tileSpec env F' size sub bs fl hs).Rep x y (GridLike.grid env t a).1.st A := by
        rcases hFF with rfl | hc
        · exact (runs_tile env hF hs).run a rfl (by simp) h (by simp)
        · exact (runs_tile_switch env F hF hs).run a rfl (fun _ => hc) h (fun _ => he)
      refine Tile.kept_grid b (tileSpec_saveable hrep) ?_
      have := (Tile.grid_samePts env t a.alg a.res a.clear a.mode a.params a.border).1
      show Tile.HoldsData (t.grid env a.alg a.res a.clear a.mode a.params a.border).1.st f
      unfold Tile.HoldsData
      rw [this]; exact hf.data
    · have hrep : (tileSpec env F' size sub bs fl hs).Rep x y (GridLike.grid env t a).1.st A := by
        rcases hFF with rfl | hc
        · exact (runs_tile env hF hs).run a rfl (by simp) h (by simp)
        · exact (runs_tile_switch env F hF hs).run a rfl (fun _ => hc) h (fun _ => he)
      exact requeried_tile env _ _ (Tile.dropTemp_reread (tileSpec_saveable hrep))
  gone := fun b part o _ => Tile.dropped b part o

namespace Grid
variable {τ φ : Type} {D : τ → φ → Prop}

theorem HeaderOk.weaken {exact : Bool} {g : Grid τ} {F : GridFolder φ} (h : HeaderOk exact g F) : HeaderOk false g F := by
  obtain ⟨hd, h1, h2, -⟩ := h.info
  exact ⟨⟨hd, h1, h2, by simp⟩, h.txs, h.tys, h.edgesX, h.edgesY, h.mask⟩

theorem Synced.weaken {G : φ → Prop} {exact : Bool} {g : Grid τ} {R : Root φ} (h : Synced D G exact g R) : Synced D G false g R := by
  obtain ⟨F, h1, h2, h3⟩ := h
  exact ⟨F, h1, h2.weaken, h3⟩

/-- the folder of a grid without tiles -/
theorem leftover_of {exact : Bool} {g : Grid τ} (he : g.isEmpty = true) {F : GridFolder φ} (h : Synced D (fun _ => False) exact g (some F)) : HeaderOnly g.width g.height F := by
  obtain ⟨F', h1, h2, h3⟩ := h
  cases h1
  have ex : ∀ {α : Type} [IsArr α] {o : Option (Stored α)} {a : α}, o.map Stored.value = some a → ∃ s, o = some s := by
    intro α _ o a h
    cases o with
    | none => cases h
    | some s => exact ⟨s, rfl⟩
  obtain ⟨hd, h4, h5, -⟩ := h2.info
  refine ⟨⟨hd, h4, by rw [h5]; rfl, by rw [h5]; rfl⟩, ex h2.txs, ex h2.tys, ex h2.edgesX, ex h2.edgesY, ex h2.mask, fun p => ?_⟩
  cases hf : F.tiles.get? p with
  | none => rfl
  | some f => exact (h3.rest p f hf (fun t => isEmpty_has he t p)).elim

variable [DiskLike τ φ] [Queried τ] [LawfulGrid τ] [LawfulQuery τ] {size sub : ℚ} {bs : Bool} {fl : Fields}

/-- subgrids with their folders -/
theorem subDisk {env : Env} {C : Family → ChildSpec τ sub 0 false fl} (S : DiskSpec env C D (fun _ : φ => False)) (hs : 0 < size) (hpow : isPowerOfTwo sub = true) :
    DiskSpec (size := size) (bs := bs) env (fun F => subSpec (C F) hs hpow) (fun g F => Synced D (fun _ => False) false g (some F)) (Leftover size) where
  first := by
    intro b F x y c pts o hp hbox ho
    obtain ⟨g0, u, h1, h2, h3, g2, h4, h5⟩ := addPoints_newSubPlaced (C F) hs hpow (c := c) hp hbox
    have hg0 : g0 = blank "" false x y sub 0 false (some ⟨x, x + size, y, y + size⟩) := by
      unfold newSub at h1
      rw [hpow, if_pos rfl] at h1
      cases h1; rfl
    obtain ⟨d', e1, e2⟩ := addPointsD_spec S b F (isPowerOfTwo_pos hpow) (update_sub g0.info c (by rw [hg0]; rfl)).1 (by rw [hg0]; simp [blank, Dict.keys]) (by simp [Store.names]) h2 h4
      (by rw [h5]; intro m hm _; exact h3.mask m hm) ⟨o, []⟩ ⟨fun t p h => absurd h (isEmpty_has (by rw [hg0]; rfl) t p), fun p f hf _ => by
        cases o with
        | none => cases hf
        | some f0 =>
          have := (ho f0 rfl).tiles p
          have hf : f0.tiles.get? p = some f := hf
          rw [this] at hf; cases hf⟩
    obtain ⟨F', e3, e4⟩ := e2
    refine ⟨g0, u, d', h1, h2, h3, e1, ⟨d'.now, []⟩, F', rfl, e3, F', rfl, ?_⟩
    rw [← e3]; exact e4
  add := by
    intro b F x y g A c pts f h hc hp hbox hf
    obtain ⟨u, h2, h3, g2, h4, h5⟩ := addPoints_subPlaced (C F) hs (isPowerOfTwo_pos hpow) h hc hp hbox
    obtain ⟨f', e0, -, hsync⟩ := hf
    obtain ⟨d', e1, e2⟩ := addPointsD_spec S b F (isPowerOfTwo_pos hpow) (update_sub g.info c h.vref).1 (by rw [SubInv.cont h]; exact hc) hc h2 h4
      (by rw [h5]; intro m hm _; exact h3.mask m hm) ⟨some f, []⟩ hsync
    obtain ⟨F', e3, e4⟩ := e2
    refine ⟨u, d', h2, h3, e1, ⟨d'.now, []⟩, F', rfl, e3, F', rfl, ?_⟩
    rw [← e3]; exact e4
  remove := by
    intro b F x y g A c f h hf
    have h : SubInv (C F) size x y g A := h
    obtain ⟨T, hfr⟩ := h.frame
    obtain ⟨u, hu, -⟩ := (subSpec (size := size) (bs := bs) (C F) hs hpow).remove (c := c) h
    have hu : removePoints g c = .ok u := hu
    have hm : MaskProper u.mask := by
      by_cases hc : c ∈ A.names
      · have hmask : MaskOk g (ncells size sub * ncells size sub) := by
          intro m hm hany; rw [h.mask m hm] at hany; cases hany
        obtain ⟨T', m', h1, h2, -, h4, -⟩ := removePoints_frame (C F) (isPowerOfTwo_pos hpow) hfr h.ne h.cont hc (Or.inl hmask)
        rw [hu] at h1
        have h1 := congrArg Res.st h1
        simp only [Res.ok_st] at h1
        rw [h1]
        exact maskProper_dims h4 (fun m hm _ => h.mask m hm)
      · rw [removePoints_unknown (by rw [h.cont]; exact hc)] at hu
        obtain rfl : g = u := congrArg Res.st hu
        exact fun m hm _ => h.mask m hm
    have hdim : u.width = g.width ∧ u.height = g.height := by
      by_cases hc : c ∈ A.names
      · have hmask : MaskOk g (ncells size sub * ncells size sub) := by
          intro m hm hany; rw [h.mask m hm] at hany; cases hany
        obtain ⟨T', m', h1, -⟩ := removePoints_frame (C F) (isPowerOfTwo_pos hpow) hfr h.ne h.cont hc (Or.inl hmask)
        rw [hu] at h1
        have h1 := congrArg Res.st h1
        simp only [Res.ok_st] at h1
        rw [h1]
        exact ⟨rfl, rfl⟩
      · rw [removePoints_unknown (by rw [h.cont]; exact hc)] at hu
        obtain rfl : g = u := congrArg Res.st hu
        exact ⟨rfl, rfl⟩
    obtain ⟨hw, hh⟩ := hfr.dims _ h.extents
    obtain ⟨d', e1, e2⟩ := removePointsD_spec S b F (isPowerOfTwo_pos hpow) hfr.toReady hu hm ⟨some f, []⟩ hf
    have e2' := e2
    obtain ⟨F', e3, e4⟩ := e2'
    refine ⟨u, d', hu, e1, fun _ => ⟨⟨d'.now, []⟩, F', rfl, e3, ?_⟩, fun he => ⟨⟨d'.now, []⟩, rfl, fun f' hf' => ?_⟩⟩
    · have := e2.weaken
      rw [e3] at this
      exact this
    · have hf' : d'.now = some f' := hf'
      rw [hf'] at e2
      have := leftover_of he e2
      rw [hdim.1, hdim.2, hw, hh] at this
      simpa using this
  grid := by
    intro b F F' a x y g A f hF hFF h hf
    have h : SubInv (C F) size x y g A := h
    obtain ⟨T, hfr⟩ := h.frame
    obtain ⟨f', e0, -, hsync⟩ := hf
    obtain ⟨h1, h2⟩ := gridRunD_spec S b (isPowerOfTwo_pos hpow) hfr.toReady (fun m hm _ => h.mask m hm) a hF hFF ⟨some f, []⟩ hsync
    refine ⟨h1, fun he => ?_⟩
    obtain ⟨v, d', e1, e2, e3, e4⟩ := h2 he
    refine ⟨?_, v, ?_, e2⟩
    · show (if (gridRunD env b a (g, ⟨some f, []⟩)).err = none then (gridRunD env b a (g, ⟨some f, []⟩)).st.1.resolutions else []) = (if (g.grid env a).err = none then (g.grid env a).st.resolutions else [])
      have he : (g.grid env a).err = none := he
      rw [e1, he]
      simpa using e3
    · show Kept _ b .grid (gridRunD env b a (g, ⟨some f, []⟩)).st.1 (gridRunD env b a (g, ⟨some f, []⟩)).st.2.now v
      rw [e1]
      have e5 := e4.weaken
      obtain ⟨F1, e6, -⟩ := e4
      rw [e6] at e5
      exact ⟨⟨d'.now, []⟩, F1, rfl, e6, e5⟩
  gone := fun b part o ho => ⟨⟨o, []⟩, rfl, ho⟩

end Grid
end Bathy
