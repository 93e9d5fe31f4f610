import Verif.Lemmas.GridAdd

/-!
# Adding to an empty grid depends only on its shape
-/

namespace Bathy
namespace Grid
variable {τ : Type}

/-- the same kind of grid with the same tiles -/
structure SameKind (g u : Grid τ) : Prop where
  canGrow : g.canGrow = u.canGrow
  ox : g.originX = u.originX
  oy : g.originY = u.originY
  tileSize : g.tileSize = u.tileSize
  subtileSize : g.subtileSize = u.subtileSize
  backscatter : g.isBackscatter = u.isBackscatter
  tiles : g.tiles = u.tiles

/-- also the same geometry -/
structure SameShape (g u : Grid τ) : Prop extends SameKind g u where
  extents : g.extents = u.extents
  txs : g.txs = u.txs
  tys : g.tys = u.tys
  edgesX : g.edgesX = u.edgesX
  edgesY : g.edgesY = u.edgesY
  width : g.width = u.width
  height : g.height = u.height
  maximumTiles : g.maximumTiles = u.maximumTiles

theorem sameKind_isEmpty {g u : Grid τ} (h : SameKind g u) : g.isEmpty = u.isEmpty := by unfold isEmpty; rw [h.tiles]

theorem buildGrid_same {g u : Grid τ} (h : SameKind g u) (he : g.isEmpty = true) (e : Extents) :
    (buildGrid g e).err = (buildGrid u e).err ∧ ((buildGrid g e).err = none → SameShape (buildGrid g e).st (buildGrid u e).st) := by
  have key : ∀ v : Grid τ, v.isEmpty = true → buildGrid v e =
      match appendEdge (arange (v.adjustExtents e).minX (v.adjustExtents e).maxX v.tileSize) v.tileSize, appendEdge (arange (v.adjustExtents e).minY (v.adjustExtents e).maxY v.tileSize) v.tileSize with
      | some ex, some ey => Res.ok { v with extents := some (v.adjustExtents e), txs := arange (v.adjustExtents e).minX (v.adjustExtents e).maxX v.tileSize, tys := arange (v.adjustExtents e).minY (v.adjustExtents e).maxY v.tileSize, edgesX := ex, edgesY := ey, width := some ((v.adjustExtents e).maxX - (v.adjustExtents e).minX), height := some ((v.adjustExtents e).maxY - (v.adjustExtents e).minY), maximumTiles := some ((arange (v.adjustExtents e).minX (v.adjustExtents e).maxX v.tileSize).length * (arange (v.adjustExtents e).minY (v.adjustExtents e).maxY v.tileSize).length) }
      | _, _ => .fail { v with extents := some (v.adjustExtents e) } .indexError := by
    intro v hv
    unfold buildGrid
    have e1 : isEmpty { v with extents := some (v.adjustExtents e) } = true := hv
    simp only [e1, Bool.not_true, Bool.false_and, Bool.false_eq_true, if_false]
    rfl
  have he' : u.isEmpty = true := by rw [← sameKind_isEmpty h]; exact he
  have hadj : g.adjustExtents e = u.adjustExtents e := by unfold adjustExtents; rw [h.canGrow, h.ox, h.oy, h.tileSize]
  rw [key g he, key u he', hadj, h.tileSize]
  cases appendEdge (arange (u.adjustExtents e).minX (u.adjustExtents e).maxX u.tileSize) u.tileSize with
  | none => exact ⟨rfl, fun h => by cases h⟩
  | some ex =>
    cases appendEdge (arange (u.adjustExtents e).minY (u.adjustExtents e).maxY u.tileSize) u.tileSize with
    | none => exact ⟨rfl, fun h => by cases h⟩
    | some ey =>
      refine ⟨rfl, fun _ => ?_⟩
      exact ⟨⟨h.canGrow, h.ox, h.oy, rfl, h.subtileSize, h.backscatter, h.tiles⟩, rfl, rfl, rfl, rfl, rfl, rfl, rfl, rfl⟩

theorem updateBase_same {g u : Grid τ} (h : SameKind g u) (he : g.isEmpty = true) (hg : g.canGrow = true) (pts : List Pt) :
    (updateBase g pts).err = (updateBase u pts).err ∧ ((updateBase g pts).err = none → SameShape (updateBase g pts).st (updateBase u pts).st) := by
  have he' : u.isEmpty = true := by rw [← sameKind_isEmpty h]; exact he
  have hg' : u.canGrow = true := by rw [← h.canGrow]; exact hg
  unfold updateBase
  rw [he, he', hg, hg']
  simp only [if_true]
  cases listMin (pts.map Pt.x) with
  | none => exact ⟨rfl, fun h => by cases h⟩
  | some x0 =>
    cases listMax (pts.map Pt.x) with
    | none => exact ⟨rfl, fun h => by cases h⟩
    | some x1 =>
      cases listMin (pts.map Pt.y) with
      | none => exact ⟨rfl, fun h => by cases h⟩
      | some y0 =>
        cases listMax (pts.map Pt.y) with
        | none => exact ⟨rfl, fun h => by cases h⟩
        | some y1 => exact buildGrid_same h he _

theorem placeTiles_same {g u : Grid τ} (h : SameShape g u) (he : g.isEmpty = true) :
    ∃ g' u', placeTiles g = .ok g' ∧ placeTiles u = .ok u' ∧ SameShape g' u' := by
  have he' : u.isEmpty = true := by rw [← sameKind_isEmpty h.toSameKind]; exact he
  unfold placeTiles
  rw [he, he']
  refine ⟨_, _, rfl, rfl, ⟨h.canGrow, h.ox, h.oy, h.tileSize, h.subtileSize, h.backscatter, ?_⟩, h.extents, h.txs, h.tys, h.edgesX, h.edgesY, h.width, h.height, h.maximumTiles⟩
  simp only [h.txs, h.tys]

theorem setTile_same {g u : Grid τ} (h : SameShape g u) (k : Nat) (o : Option τ) : SameShape (g.setTile k o) (u.setTile k o) := by
  unfold setTile
  rw [h.tiles]
  rcases Option.eq_none_or_eq_some u.tiles with ht | ⟨T, ht⟩
  · rw [ht]; exact h
  · rw [ht]
    exact ⟨⟨h.canGrow, h.ox, h.oy, h.tileSize, h.subtileSize, h.backscatter, rfl⟩, h.extents, h.txs, h.tys, h.edgesX, h.edgesY, h.width, h.height, h.maximumTiles⟩

theorem addToTile_same [TileLike τ] {g u : Grid τ} (h : SameShape g u) (fl : Fields) (pts : List Pt) (bins : List Nat) (c : String) (k : Nat) :
    (addToTile fl pts bins c g k).err = (addToTile fl pts bins c u k).err ∧ SameShape (addToTile fl pts bins c g k).st (addToTile fl pts bins c u k).st := by
  have e1 : g.tile? k = u.tile? k := by unfold tile?; rw [h.tiles]
  have e2 : g.tileOrigin k = u.tileOrigin k := by unfold tileOrigin; rw [h.txs, h.tys]
  unfold addToTile
  simp only [e1, e2, h.tileSize, h.subtileSize, h.backscatter]
  split
  · exact ⟨rfl, h⟩
  · split
    · exact ⟨rfl, setTile_same h _ _⟩
    · exact ⟨rfl, setTile_same h _ _⟩

theorem addLoop_same [TileLike τ] (fl : Fields) (pts : List Pt) (bins : List Nat) (c : String) (ks : List Nat) {g u : Grid τ} (h : SameShape g u) :
    (Res.forEach ks g (addToTile fl pts bins c)).err = (Res.forEach ks u (addToTile fl pts bins c)).err ∧
      SameShape (Res.forEach ks g (addToTile fl pts bins c)).st (Res.forEach ks u (addToTile fl pts bins c)).st := by
  induction ks generalizing g u with
  | nil => exact ⟨rfl, h⟩
  | cons k ks ih =>
    obtain ⟨h1, h2⟩ := addToTile_same h fl pts bins c k
    rw [Res.forEach_cons, Res.forEach_cons]
    generalize hr : addToTile fl pts bins c g k = r at *
    generalize hr' : addToTile fl pts bins c u k = r' at *
    obtain ⟨st, err⟩ := r
    obtain ⟨st', err'⟩ := r'
    simp only at h1
    subst h1
    cases err with
    | some e => exact ⟨rfl, h2⟩
    | none => exact ih h2

/-- `add_points` to an empty grid that can grow: whether it succeeds, and the tiles and geometry it makes, depend only on the kind of grid -/
theorem addPoints_same [TileLike τ] {g u : Grid τ} (h : SameKind g u) (he : g.isEmpty = true) (hg : g.canGrow = true) (d : PtArr) (c : String) (a : AddArgs)
    (h1 : g.info.container.has c = false) (h2 : u.info.container.has c = false) (h3 : (g.info.update c a).err = none) (h4 : (u.info.update c a).err = none) :
    (addPoints g d c a).err = (addPoints u d c a).err ∧ ((addPoints g d c a).err = none →
      SameShape (addPoints g d c a).st (addPoints u d c a).st ∧ (addPoints g d c a).st.numberOfTiles = (addPoints u d c a).st.numberOfTiles ∧
        (addPoints g d c a).st.meanDepth = (addPoints u d c a).st.meanDepth) := by
  unfold addPoints
  simp only [h1, h2, h3, h4, Bool.false_eq_true, if_false]
  generalize hg1 : ({ g with info := (g.info.update c a).st } : Grid τ) = g1
  generalize hu1 : ({ u with info := (u.info.update c a).st } : Grid τ) = u1
  have hk : SameKind g1 u1 := by
    subst hg1; subst hu1
    exact ⟨h.canGrow, h.ox, h.oy, h.tileSize, h.subtileSize, h.backscatter, h.tiles⟩
  have he1 : g1.isEmpty = true := by subst hg1; exact he
  have hgr : g1.canGrow = true := by subst hg1; exact hg
  obtain ⟨q1, q2⟩ := updateBase_same hk he1 hgr d.pts
  have hkeep : ∀ st, updateBase g1 d.pts = .ok st → st.isEmpty = true := by
    intro st hst
    have : (updateBase g1 d.pts).st.tiles = g1.tiles := by
      unfold updateBase
      rw [he1, hgr]
      simp only [if_true]
      split
      · unfold buildGrid
        simp only
        have : ∀ e, isEmpty { g1 with extents := e } = true := fun _ => he1
        simp only [this, Bool.not_true, Bool.false_and, Bool.false_eq_true, if_false]
        split <;> rfl
      · rfl
    rw [hst] at this
    unfold isEmpty at he1 ⊢
    rw [show (Res.ok st).st = st from rfl] at this
    rw [this]; exact he1
  generalize hr : updateBase g1 d.pts = r at *
  generalize hr' : updateBase u1 d.pts = r' at *
  obtain ⟨st, err⟩ := r
  obtain ⟨st', err'⟩ := r'
  simp only at q1
  subst q1
  cases err with
  | some e => exact ⟨rfl, fun h => by cases h⟩
  | none =>
    have q3 := q2 rfl
    obtain ⟨g2, u2, w1, w2, w3⟩ := placeTiles_same q3 (hkeep st rfl)
    have e1 : (⟨st, none⟩ : Res (Grid τ)) = .ok st := rfl
    have e2 : (⟨st', none⟩ : Res (Grid τ)) = .ok st' := rfl
    rw [e1, e2]
    simp only [Res.andThen_ok, w1, w2]
    unfold addToTiles
    rw [w3.edgesX, w3.edgesY]
    cases bin2d [d.pts.map Pt.x] [d.pts.map Pt.y] u2.edgesX u2.edgesY with
    | error e => exact ⟨rfl, fun h => by cases h⟩
    | ok bins =>
      simp only
      obtain ⟨z1, z2⟩ := addLoop_same d.fields d.pts bins c (npUnique bins) w3
      generalize hq : Res.forEach (npUnique bins) g2 (addToTile d.fields d.pts bins c) = q at *
      generalize hq' : Res.forEach (npUnique bins) u2 (addToTile d.fields d.pts bins c) = q' at *
      obtain ⟨qs, qe⟩ := q
      obtain ⟨qs', qe'⟩ := q'
      simp only at z1 z2
      subst z1
      cases qe with
      | some e => exact ⟨rfl, fun h => by cases h⟩
      | none =>
        refine ⟨rfl, fun _ => ⟨?_, ?_, rfl⟩⟩
        · exact ⟨⟨z2.canGrow, z2.ox, z2.oy, z2.tileSize, z2.subtileSize, z2.backscatter, z2.tiles⟩, z2.extents, z2.txs, z2.tys, z2.edgesX, z2.edgesY, z2.width, z2.height, z2.maximumTiles⟩
        · show some ((countTiles qs : Nat) : Int) = some ((countTiles qs' : Nat) : Int)
          unfold countTiles
          rw [z2.tiles]

end Grid
end Bathy
