import Verif.Model.TileGenerator
import Verif.Spec.Classes

/-!
# Methods of a grid under another class name
-/

namespace Bathy

/-- the result of a call, seen through a function of the state -/
def Res.onSt {σ ρ : Type} (f : σ → ρ) (r : Res σ) : Res ρ := ⟨f r.st, r.err⟩

namespace Res
variable {σ ρ : Type}

@[simp] theorem onSt_ok (f : σ → ρ) (s : σ) : (ok s).onSt f = ok (f s) := rfl
@[simp] theorem onSt_fail (f : σ → ρ) (s : σ) (e : Err) : (fail s e).onSt f = fail (f s) e := rfl
@[simp] theorem onSt_st (f : σ → ρ) (r : Res σ) : (r.onSt f).st = f r.st := rfl
@[simp] theorem onSt_err (f : σ → ρ) (r : Res σ) : (r.onSt f).err = r.err := rfl

theorem onSt_andThen (f : σ → ρ) {r : Res σ} {k : σ → Res σ} {k' : ρ → Res ρ} (h : ∀ s, k' (f s) = (k s).onSt f) : (r.onSt f).andThen k' = (r.andThen k).onSt f := by
  obtain ⟨s, _ | e⟩ := r
  · exact h s
  · rfl

theorem onSt_forEach {α : Type} (f : σ → ρ) {body : σ → α → Res σ} {body' : ρ → α → Res ρ} (h : ∀ s x, body' (f s) x = (body s x).onSt f) (l : List α) (s : σ) :
    forEach l (f s) body' = (forEach l s body).onSt f := by
  induction l generalizing s with
  | nil => rfl
  | cons x xs ih =>
    rw [forEach_cons, forEach_cons, h]
    exact onSt_andThen f (fun s => ih s)

theorem onSt_forEach_of {α : Type} (f : σ → ρ) {P : σ → Prop} {body : σ → α → Res σ} {body' : ρ → α → Res ρ} (h : ∀ s x, P s → body' (f s) x = (body s x).onSt f ∧ P (body s x).st)
    (l : List α) {s : σ} (hs : P s) : forEach l (f s) body' = (forEach l s body).onSt f := by
  induction l generalizing s with
  | nil => rfl
  | cons x xs ih =>
    obtain ⟨h1, h2⟩ := h s x hs
    rw [forEach_cons, forEach_cons, h1]
    cases hb : (body s x).err with
    | none =>
      rw [andThen_of_err_none (by exact hb), andThen_of_err_none hb]
      exact ih h2
    | some e => unfold andThen; simp [hb, onSt]

end Res

namespace Grid
variable {τ : Type} (n : String)

@[simp] theorem isEmpty_rename (g : Grid τ) : (g.rename n).isEmpty = g.isEmpty := rfl
@[simp] theorem tile_rename (g : Grid τ) (k : Nat) : (g.rename n).tile? k = g.tile? k := rfl
@[simp] theorem slots_rename (g : Grid τ) : (g.rename n).slots = g.slots := rfl
@[simp] theorem tileOrigin_rename (g : Grid τ) (k : Nat) : (g.rename n).tileOrigin k = g.tileOrigin k := rfl

@[simp] theorem setTile_rename (g : Grid τ) (k : Nat) (o : Option τ) : (g.rename n).setTile k o = (g.setTile k o).rename n := by
  unfold setTile
  show (match g.tiles with | some t => _ | none => _) = _
  cases g.tiles <;> rfl

theorem buildGrid_rename (g : Grid τ) (e : Extents) : (g.rename n).buildGrid e = (g.buildGrid e).onSt (rename n) := by
  unfold buildGrid
  have ha : (g.rename n).adjustExtents e = g.adjustExtents e := rfl
  rw [ha]
  generalize g.adjustExtents e = e
  have hs : (g.rename n).tileSize = g.tileSize := rfl
  have ht : (g.rename n).txs = g.txs := rfl
  have hy : (g.rename n).tys = g.tys := rfl
  have hc : (g.rename n).canGrow = g.canGrow := rfl
  have he : isEmpty { g.rename n with extents := some e } = isEmpty { g with extents := some e } := rfl
  simp only [he]
  simp only [hs, ht, hy, hc]
  generalize appendEdge (arange e.minX e.maxX g.tileSize) g.tileSize = o1
  generalize appendEdge (arange e.minY e.maxY g.tileSize) g.tileSize = o2
  generalize existingMask g.txs g.tys (arange e.minX e.maxX g.tileSize) (arange e.minY e.maxY g.tileSize) = o3
  split
  · cases o3 <;> cases o1 <;> cases o2 <;> rfl
  · cases o1 <;> cases o2 <;> rfl

theorem updateBase_rename (g : Grid τ) (pts : List Pt) : (g.rename n).updateBase pts = (g.updateBase pts).onSt (rename n) := by
  unfold updateBase
  have hc : (g.rename n).canGrow = g.canGrow := rfl
  have he : (g.rename n).extents = g.extents := rfl
  simp only [isEmpty_rename, hc, he]
  generalize listMin (pts.map Pt.x) = a
  generalize listMax (pts.map Pt.x) = b
  generalize listMin (pts.map Pt.y) = c
  generalize listMax (pts.map Pt.y) = d
  split
  · split
    · cases a <;> cases b <;> cases c <;> cases d <;> first | rfl | exact buildGrid_rename n g _
    · cases g.extents <;> first | rfl | exact buildGrid_rename n g _
  · split
    · cases a <;> cases b <;> cases c <;> cases d <;> cases g.extents <;> first | rfl | exact buildGrid_rename n g _
    · rfl

theorem placeTiles_rename (g : Grid τ) : (g.rename n).placeTiles = g.placeTiles.onSt (rename n) := by
  unfold placeTiles
  have h1 : (g.rename n).canGrow = g.canGrow := rfl
  have h2 : (g.rename n).tiles = g.tiles := rfl
  have h3 : (g.rename n).mask = g.mask := rfl
  have h4 : (g.rename n).txs = g.txs := rfl
  have h5 : (g.rename n).tys = g.tys := rfl
  simp only [isEmpty_rename, h1, h2, h3, h4, h5]
  split
  · rfl
  · split
    · cases g.tiles with
      | none => rfl
      | some t =>
        cases g.mask with
        | none => rfl
        | some m =>
          simp only
          cases assignMask (Arr2.fill g.tys.length g.txs.length (none : Option τ)).flat m.flat t.flat <;> rfl
    · rfl

section
variable [TileLike τ]

theorem addToTile_rename (fields : Fields) (pts : List Pt) (bins : List Nat) (c : String) (g : Grid τ) (k : Nat) :
    addToTile fields pts bins c (g.rename n) k = (addToTile fields pts bins c g k).onSt (rename n) := by
  unfold addToTile
  have h1 : (g.rename n).tileSize = g.tileSize := rfl
  have h2 : (g.rename n).subtileSize = g.subtileSize := rfl
  have h3 : (g.rename n).isBackscatter = g.isBackscatter := rfl
  simp only [tile_rename, tileOrigin_rename, h1, h2, h3, setTile_rename]
  split
  · rfl
  · split <;> rfl

theorem addToTiles_rename (g : Grid τ) (d : PtArr) (c : String) : (g.rename n).addToTiles d c = (g.addToTiles d c).onSt (rename n) := by
  unfold addToTiles
  have h1 : (g.rename n).edgesX = g.edgesX := rfl
  have h2 : (g.rename n).edgesY = g.edgesY := rfl
  rw [h1, h2]
  split
  · rfl
  · rw [Res.onSt_forEach (rename n) (fun s x => addToTile_rename n _ _ _ _ s x)]
    exact Res.onSt_andThen _ (fun s => rfl)

/-- `add_points` does not look at the class -/
theorem addPoints_rename (g : Grid τ) (d : PtArr) (c : String) (a : AddArgs) : (g.rename n).addPoints d c a = (g.addPoints d c a).onSt (rename n) := by
  unfold addPoints
  have h1 : (g.rename n).info = g.info := rfl
  rw [h1]
  split
  · rfl
  · simp only
    cases (g.info.update c a).err with
    | some e => rfl
    | none =>
      simp only
      have h2 : updateBase { g.rename n with info := (g.info.update c a).st } d.pts = (updateBase { g with info := (g.info.update c a).st } d.pts).onSt (rename n) :=
        updateBase_rename n { g with info := (g.info.update c a).st } d.pts
      rw [h2]
      refine Res.onSt_andThen _ (fun s => ?_)
      rw [placeTiles_rename]
      refine Res.onSt_andThen _ (fun s => ?_)
      rw [addToTiles_rename]
      exact Res.onSt_andThen _ (fun s => rfl)

omit [TileLike τ] in
theorem removeTile_rename (g : Grid τ) (k : Nat) : (g.rename n).removeTile k = (g.removeTile k).onSt (rename n) := by
  unfold removeTile
  rw [tile_rename]
  have h1 : (g.rename n).mask = g.mask := rfl
  have h2 : ∀ s : Grid τ, (match (s.rename n).numberOfTiles with
      | some m => Res.ok ({ s.rename n with numberOfTiles := some (m - 1) }.setTile k none) | none => .fail (s.rename n) .typeError) =
      ((match s.numberOfTiles with
      | some m => Res.ok ({ s with numberOfTiles := some (m - 1) }.setTile k none) | none => .fail s .typeError) : Res (Grid τ)).onSt (rename n) := by
    intro s
    have h3 : (s.rename n).numberOfTiles = s.numberOfTiles := rfl
    rw [h3]
    cases s.numberOfTiles with
    | none => rfl
    | some m =>
      show Res.ok (setTile ({ s with numberOfTiles := some (m - 1) }.rename n) k none) = _
      rw [setTile_rename]
      rfl
  split
  · simp only [h1]
    cases g.mask with
    | none => exact h2 g
    | some m =>
      simp only
      split
      · split
        · exact h2 { g with mask := some (m.setFlat k false) }
        · rfl
      · exact h2 g
  · rfl

theorem removeFromTile_rename (c : String) (g : Grid τ) (k : Nat) : removeFromTile c (g.rename n) k = (removeFromTile c g k).onSt (rename n) := by
  unfold removeFromTile
  rw [tile_rename]
  split
  · simp only [setTile_rename]
    split
    · rfl
    · split
      · exact removeTile_rename n _ k
      · rfl
  · rfl

/-- `remove_points` does not look at the class -/
theorem removePoints_rename (g : Grid τ) (c : String) : (g.rename n).removePoints c = (g.removePoints c).onSt (rename n) := by
  unfold removePoints
  have h1 : (g.rename n).info = g.info := rfl
  rw [h1]
  split
  · have h2 : isEmpty { g.rename n with info := { g.info with container := g.info.container.pop c } } = isEmpty { g with info := { g.info with container := g.info.container.pop c } } := rfl
    have h3 : slots { g.rename n with info := { g.info with container := g.info.container.pop c } } = slots { g with info := { g.info with container := g.info.container.pop c } } := rfl
    have h4 : Res.forEach (List.range (slots { g with info := { g.info with container := g.info.container.pop c } }))
        { g.rename n with info := { g.info with container := g.info.container.pop c } } (removeFromTile c) =
        (Res.forEach (List.range (slots { g with info := { g.info with container := g.info.container.pop c } }))
          { g with info := { g.info with container := g.info.container.pop c } } (removeFromTile c)).onSt (rename n) :=
      Res.onSt_forEach (rename n) (fun s x => removeFromTile_rename n c s x) _ { g with info := { g.info with container := g.info.container.pop c } }
    simp only [h2, h3, h4]
    have h5 : ∀ s : Grid τ, (Res.ok (if (s.rename n).isEmpty then { s.rename n with tiles := none } else s.rename n)) =
        (Res.ok (if s.isEmpty then { s with tiles := none } else s)).onSt (rename n) := by
      intro s
      rw [isEmpty_rename]
      split <;> rfl
    split
    · exact h5 { g with info := { g.info with container := g.info.container.pop c } }
    · exact Res.onSt_andThen _ h5
  · rfl

end

section
variable [GridLike τ]

omit [GridLike τ] in
@[simp] theorem setTile_name (g : Grid τ) (k : Nat) (o : Option τ) : (g.setTile k o).name = g.name := by
  unfold setTile; split <;> rfl

theorem borderFor_rename (g : Grid τ) (k : Nat) (t : τ) (alg : Alg) (limit : Option ℚ) (gb : Option PtArr) :
    (g.rename n).borderFor k t alg limit gb = g.borderFor k t alg limit gb := rfl

/-- the arguments of the calls for the tiles are the same for the two classes -/
def SameCalls (m : String) (a : GridCall) (p p' : Plan) : Prop :=
  ∀ s : Grid τ, s.name = m → ∀ clear b, (s.rename n).childCall a p' clear b = s.childCall a p clear b

theorem gridStep_rename (env : Env) {m : String} {a : GridCall} {p p' : Plan} (hc : SameCalls (τ := τ) n m a p p') (s : Grid τ × Bool) (k : Nat) (hm : s.1.name = m) :
    gridStep env a p' (s.1.rename n, s.2) k = (gridStep env a p s k).onSt (fun s => (s.1.rename n, s.2)) ∧ (gridStep env a p s k).st.1.name = m := by
  obtain ⟨g, clear⟩ := s
  have hm : g.name = m := hm
  unfold gridStep
  simp only [tile_rename, borderFor_rename, setTile_rename, hc g hm]
  split
  · split
    · exact ⟨rfl, hm⟩
    · split
      · exact ⟨rfl, hm⟩
      · split
        · exact ⟨rfl, by simpa using hm⟩
        · exact ⟨rfl, by simpa using hm⟩
  · exact ⟨rfl, hm⟩

theorem gridRegular_rename (env : Env) {a : GridCall} {p p' : Plan} (g : Grid τ) (hc : SameCalls (τ := τ) n g.name a p p') :
    (g.rename n).gridRegular env a p' = (g.gridRegular env a p).onSt (rename n) := by
  unfold gridRegular
  have h := Res.onSt_forEach_of (fun s : Grid τ × Bool => (s.1.rename n, s.2)) (P := fun s => s.1.name = g.name) (fun s x hs => gridStep_rename n env hc s x hs)
    (List.range g.slots) (s := (g, a.clear)) rfl
  simp only [slots_rename]
  have h : Res.forEach (List.range g.slots) (g.rename n, a.clear) (gridStep env a p') = _ := h
  rw [h]
  simp only [Res.onSt_err, Res.onSt_st]
  split <;> rfl

theorem runJobs_rename (env : Env) (g : Grid τ) (jobs : List (Job τ)) : runJobs env (g.rename n) jobs = (runJobs env g jobs).onSt (rename n) := by
  have hfold : ∀ (l : List (Job τ × (Res τ × List ℚ))) (g : Grid τ), l.foldl (fun g jr => g.setTile jr.1.idx (some jr.2.1.st)) (g.rename n) =
      (l.foldl (fun g jr => g.setTile jr.1.idx (some jr.2.1.st)) g).rename n := by
    intro l
    induction l with
    | nil => intro g; rfl
    | cons x xs ih => intro g; rw [List.foldl_cons, List.foldl_cons, setTile_rename, ih]
  unfold runJobs
  simp only [hfold]
  split <;> rfl

theorem runJobs_name (env : Env) (g : Grid τ) (jobs : List (Job τ)) : (runJobs env g jobs).st.name = g.name := by
  have hfold : ∀ (l : List (Job τ × (Res τ × List ℚ))) (g : Grid τ), (l.foldl (fun g jr => g.setTile jr.1.idx (some jr.2.1.st)) g).name = g.name := by
    intro l
    induction l with
    | nil => intro g; rfl
    | cons x xs ih => intro g; rw [List.foldl_cons, ih, setTile_name]
  unfold runJobs
  simp only
  split
  · rfl
  · exact hfold _ g

/-- the state of the parallel loop under another name -/
def ParState.rename (s : ParState τ) : ParState τ := ⟨s.grid.rename n, s.clear, s.jobs⟩

theorem parStep_rename (env : Env) (w : Nat) {m : String} {a : GridCall} {p p' : Plan} (hc : SameCalls (τ := τ) n m a p p') (hp : parLimit a p' = parLimit a p) (s : ParState τ) (k : Nat)
    (hm : s.grid.name = m) :
    parStep env w a p' (ParState.rename n s) k = (parStep env w a p s k).onSt (ParState.rename n) ∧ (parStep env w a p s k).st.grid.name = m := by
  obtain ⟨g, clear, jobs⟩ := s
  have hm : g.name = m := hm
  unfold parStep ParState.rename
  simp only [tile_rename, borderFor_rename, hp, hc g hm, runJobs_rename]
  split
  · split
    · exact ⟨rfl, hm⟩
    · split
      · exact ⟨rfl, hm⟩
      · split
        · exact ⟨rfl, hm⟩
        · split
          · exact ⟨rfl, (runJobs_name env g _).trans hm⟩
          · exact ⟨rfl, hm⟩
  · exact ⟨rfl, hm⟩

theorem gridParallel_rename (env : Env) (w : Nat) {a : GridCall} {p p' : Plan} (g : Grid τ) (hc : SameCalls (τ := τ) n g.name a p p') (hp : parLimit a p' = parLimit a p) :
    (g.rename n).gridParallel env w a p' = (g.gridParallel env w a p).onSt (rename n) := by
  unfold gridParallel
  have h := Res.onSt_forEach_of (ParState.rename (τ := τ) n) (P := fun s => s.grid.name = g.name) (fun s x hs => parStep_rename n env w hc hp s x hs)
    (List.range g.slots) (s := ⟨{ g with resolutions := [] }, a.clear, []⟩) rfl
  have h : Res.forEach (List.range g.slots) (⟨{ g.rename n with resolutions := [] }, a.clear, []⟩ : ParState τ) (parStep env w a p') = _ := h
  simp only [slots_rename, h, Res.onSt_err, Res.onSt_st]
  split
  · rfl
  · have h2 : ∀ (s : ParState τ), lastJobs env (ParState.rename n s).grid (ParState.rename n s).jobs = (lastJobs env s.grid s.jobs).onSt (Grid.rename n) := by
      intro s
      unfold lastJobs
      show (if s.jobs.isEmpty then _ else _) = _
      split
      · rfl
      · exact runJobs_rename n env s.grid s.jobs
    rw [h2]
    exact Res.onSt_andThen _ (fun s => rfl)

/-- the part of `grid` after the plan -/
def gridAfter (env : Env) (g : Grid τ) (a : GridCall) (dask : Option Nat) (p : Plan) : Res (Grid τ) :=
  match dask with
  | none => g.gridRegular env a p
  | some w => g.gridParallel env w a p

theorem gridWith_eq (env : Env) (g : Grid τ) (a : GridCall) (dask : Option Nat) :
    g.gridWith env a dask = (gridPlan env g a).1.andThen (fun g' => g'.gridAfter env a dask (gridPlan env g a).2) := by
  cases dask <;> rfl

theorem gridAfter_rename (env : Env) {a : GridCall} {p p' : Plan} (g : Grid τ) (dask : Option Nat) (hc : SameCalls (τ := τ) n g.name a p p') (hp : parLimit a p' = parLimit a p) :
    (g.rename n).gridAfter env a dask p' = (g.gridAfter env a dask p).onSt (rename n) := by
  cases dask with
  | none => exact gridRegular_rename n env g hc
  | some w => exact gridParallel_rename n env w g hc hp

end

section
variable [LayerLike τ]

theorem getTileData_rename (env : Env) (g : Grid τ) (row col : Nat) (res : ℚ) (layers : List Layer) (nodata : Option ℚ) (zUp : Bool) :
    (g.rename n).getTileData env row col res layers nodata zUp =
      ((g.getTileData env row col res layers nodata zUp).1.rename n, (g.getTileData env row col res layers nodata zUp).2) := by
  unfold getTileData
  have h1 : (g.rename n).tiles = g.tiles := rfl
  have h2 : (g.rename n).tileSize = g.tileSize := rfl
  have h3 : (g.rename n).positiveUp = g.positiveUp := rfl
  simp only [h1, h2, h3, setTile_rename]
  split
  · rfl
  · split
    · rfl
    · split
      · rfl
      · split
        · rfl
        · split <;> rfl

theorem mosaicStep_rename (env : Env) (res : ℚ) (layers : List Layer) (nodata : Option ℚ) (zUp : Bool) (s : MosaicState τ) (k : Nat) :
    mosaicStep env res layers nodata zUp { s with grid := s.grid.rename n } k = (mosaicStep env res layers nodata zUp s k).onSt (fun s => { s with grid := s.grid.rename n }) := by
  unfold mosaicStep
  have h1 : (s.grid.rename n).txs = s.grid.txs := rfl
  simp only [tile_rename, h1, getTileData_rename]
  split
  · rcases s.grid.getTileData env (k / s.grid.txs.length) (k % s.grid.txs.length) res layers nodata zUp with ⟨g1, e | d⟩
    · rfl
    · simp only
      split <;> rfl
  · rfl

/-- `get_layers_by_name` does not look at the class -/
theorem getLayersByName_rename (env : Env) (g : Grid τ) (layers : List Layer) (res nodata : Option ℚ) (zUp : Bool) :
    (g.rename n).getLayersByName env layers res nodata zUp = ((g.getLayersByName env layers res nodata zUp).1.rename n, (g.getLayersByName env layers res nodata zUp).2) := by
  unfold getLayersByName
  have h1 : (g.rename n).noGrid = g.noGrid := rfl
  have h2 : (g.rename n).queryRes res = g.queryRes res := rfl
  have h3 : ∀ r, (g.rename n).buildLayerGrid r nodata = g.buildLayerGrid r nodata := fun _ => rfl
  have h4 : ∀ r data, Res.forEach (List.range g.slots) (⟨g.rename n, data, true⟩ : MosaicState τ) (mosaicStep env r layers nodata zUp) =
      (Res.forEach (List.range g.slots) (⟨g, data, true⟩ : MosaicState τ) (mosaicStep env r layers nodata zUp)).onSt (fun s => { s with grid := s.grid.rename n }) :=
    fun r data => Res.onSt_forEach (fun s : MosaicState τ => { s with grid := s.grid.rename n }) (fun s k => mosaicStep_rename n env r layers nodata zUp s k) _ ⟨g, data, true⟩
  simp only [h1, h2, h3, slots_rename, h4, Res.onSt_err, Res.onSt_st]
  split
  · rfl
  · rfl
  · split
    · rfl
    · split
      · rfl
      · split <;> rfl

end

end Grid
end Bathy
