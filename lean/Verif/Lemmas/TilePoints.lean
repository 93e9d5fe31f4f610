import Verif.Lemmas.BoolIndex
import Verif.Lemmas.Binning
import Verif.Spec.Points

/-!
# the points of a tile refine the ordered store
-/

namespace Bathy

namespace Store

theorem remove_append (A B : Store) (c : String) : remove (A ++ B) c = remove A c ++ remove B c := by
  simp [remove]

theorem remove_of_not_mem (A : Store) (c : String) (h : c ∉ A.names) : remove A c = A := by
  unfold remove; rw [List.filter_eq_self]
  intro p hp
  simp only [ne_eq, decide_eq_true_eq]
  intro he; exact h (he ▸ List.mem_map_of_mem (f := Prod.fst) hp)

theorem mem_names_remove (A : Store) (c c' : String) : c' ∈ (remove A c).names ↔ c' ≠ c ∧ c' ∈ A.names := by
  simp only [names, remove, List.mem_map, List.mem_filter, ne_eq, decide_eq_true_eq]
  constructor
  · rintro ⟨p, ⟨hp, hne⟩, rfl⟩; exact ⟨hne, p, hp, rfl⟩
  · rintro ⟨hne, p, hp, rfl⟩; exact ⟨p, ⟨hp, hne⟩, rfl⟩

theorem names_remove_nodup (A : Store) (c : String) (h : A.names.Nodup) : (remove A c).names.Nodup := by
  unfold names remove at *
  exact h.sublist (List.Sublist.map _ List.filter_sublist)

theorem names_put_nodup (A : Store) (c : String) (p : List Pt) (h : A.names.Nodup) : (put A c p).names.Nodup := by
  have h1 := names_remove_nodup A c h
  have h2 : c ∉ (remove A c).names := by rw [mem_names_remove]; simp
  unfold put
  unfold names at *
  rw [List.map_append, List.nodup_append]
  refine ⟨h1, by simp, ?_⟩
  intro a ha b hb
  simp at hb; subst hb
  intro he; subst he; exact h2 ha

theorem allPts_append (A B : Store) : allPts (A ++ B) = allPts A ++ allPts B := by simp [allPts]

theorem allPts_cons (p : String × List Pt) (B : Store) : allPts (p :: B) = p.2 ++ allPts B := by simp [allPts]

theorem split_of_mem {A : Store} {c : String} (h : c ∈ A.names) (hn : A.names.Nodup) :
    ∃ (A1 : Store) (p : List Pt) (A2 : Store), A = A1 ++ (c, p) :: A2 ∧ c ∉ names A1 ∧ c ∉ names A2 := by
  induction A with
  | nil => simp [names] at h
  | cons q A ih =>
    simp only [names, List.map_cons, List.nodup_cons] at hn
    by_cases hq : q.1 = c
    · refine ⟨[], q.2, A, ?_, by simp [names], ?_⟩
      · rw [← hq]; rfl
      · rw [← hq]; exact hn.1
    · have h' : c ∈ names A := by
        simp only [names, List.map_cons, List.mem_cons] at h
        rcases h with h | h
        · exact absurd h.symm hq
        · exact h
      obtain ⟨A1, p, A2, e, n1, n2⟩ := ih h' hn.2
      refine ⟨q :: A1, p, A2, by rw [e]; rfl, ?_, n2⟩
      simp only [names, List.map_cons, List.mem_cons, not_or]
      exact ⟨Ne.symm hq, n1⟩

end Store

/-- the slices `container[name] = [start, end]` that belong to a store laid out from offset `off` -/
def slicesFrom (off : Nat) : Store → Dict String (Nat × Nat)
  | [] => []
  | (c, p) :: rest => (c, (off, off + p.length)) :: slicesFrom (off + p.length) rest

theorem slicesFrom_append (off : Nat) (A B : Store) :
    slicesFrom off (A ++ B) = slicesFrom off A ++ slicesFrom (off + A.allPts.length) B := by
  induction A generalizing off with
  | nil => simp [slicesFrom, Store.allPts]
  | cons q A ih =>
    obtain ⟨c, p⟩ := q
    simp only [List.cons_append, slicesFrom, ih, Store.allPts_cons, List.length_append, Nat.add_assoc]

theorem slicesFrom_keys (off : Nat) (A : Store) : (slicesFrom off A).keys = A.names := by
  induction A generalizing off with
  | nil => rfl
  | cons q A ih =>
    obtain ⟨c, p⟩ := q
    simp only [slicesFrom, Dict.keys, Store.names, List.map_cons] at *
    rw [ih]

theorem slicesFrom_bounds (off : Nat) (A : Store) (q : String × Nat × Nat) (h : q ∈ slicesFrom off A) :
    off ≤ q.2.1 ∧ q.2.1 ≤ q.2.2 ∧ q.2.2 ≤ off + A.allPts.length := by
  induction A generalizing off with
  | nil => simp [slicesFrom] at h
  | cons r A ih =>
    obtain ⟨c, p⟩ := r
    simp only [slicesFrom, List.mem_cons] at h
    rw [Store.allPts_cons]
    rcases h with rfl | h
    · simp
    · have := ih _ h
      simp only [List.length_append]; omega

/-- moving the offset shifts all slices -/
theorem slicesFrom_shift (off k : Nat) (A : Store) (f : String → Nat × Nat → Nat × Nat)
    (hf : ∀ c v, off + k ≤ v.1 → v.1 ≤ v.2 → f c v = (v.1 - k, v.2 - k)) :
    Dict.mapVals (slicesFrom (off + k) A) f = slicesFrom off A := by
  induction A generalizing off with
  | nil => rfl
  | cons q A ih =>
    obtain ⟨c, p⟩ := q
    simp only [slicesFrom, Dict.mapVals, List.map_cons]
    rw [hf c _ (by simp) (by simp)]
    have h1 : off + k + p.length = off + p.length + k := by omega
    rw [h1]
    have := ih (off + p.length) (fun c v h1 h2 => hf c v (by omega) h2)
    unfold Dict.mapVals at this
    rw [this]
    congr 3
    · omega
    · omega

theorem slicesFrom_get (A1 A2 : Store) (c : String) (p : List Pt) (h : c ∉ A1.names) :
    Dict.get? (slicesFrom 0 (A1 ++ (c, p) :: A2)) c = some (A1.allPts.length, A1.allPts.length + p.length) := by
  rw [slicesFrom_append]
  generalize hB : slicesFrom (0 + A1.allPts.length) ((c, p) :: A2) = B
  have hk : c ∉ (slicesFrom 0 A1).keys := by rw [slicesFrom_keys]; exact h
  have : ∀ d : Dict String (Nat × Nat), c ∉ d.keys → Dict.get? (d ++ B) c = Dict.get? B c := by
    intro d hd
    induction d with
    | nil => rfl
    | cons q d ih =>
      simp only [Dict.keys, List.map_cons, List.mem_cons, not_or] at hd
      rw [List.cons_append, Dict.get?_cons, if_neg (Ne.symm hd.1)]
      exact ih hd.2
  rw [this _ hk, ← hB, slicesFrom, Dict.get?_cons]
  simp

namespace Tile

theorem clearTemp_fields (t : Tile) (r : ℚ) :
    (t.clearTemp r).data = t.data ∧ (t.clearTemp r).container = t.container ∧ (t.clearTemp r).cellIdx = t.cellIdx ∧
    (t.clearTemp r).minX = t.minX ∧ (t.clearTemp r).maxX = t.maxX ∧ (t.clearTemp r).minY = t.minY ∧
    (t.clearTemp r).maxY = t.maxY ∧ (t.clearTemp r).width = t.width ∧ (t.clearTemp r).height = t.height ∧
    (t.clearTemp r).isBackscatter = t.isBackscatter ∧ (t.clearTemp r).edgesX = t.edgesX ∧
    (t.clearTemp r).edgesY = t.edgesY ∧ (t.clearTemp r).algorithm = t.algorithm ∧
    (t.clearTemp r).gridParams = t.gridParams ∧ (t.clearTemp r).pointCountChanged = t.pointCountChanged := by
  unfold clearTemp; split <;> simp

theorem foldl_clearTemp_fields (rs : List ℚ) (t : Tile) :
    let u := rs.foldl clearTemp t
    u.data = t.data ∧ u.container = t.container ∧ u.cellIdx = t.cellIdx ∧
    u.minX = t.minX ∧ u.maxX = t.maxX ∧ u.minY = t.minY ∧ u.maxY = t.maxY ∧ u.width = t.width ∧ u.height = t.height ∧
    u.isBackscatter = t.isBackscatter ∧ u.edgesX = t.edgesX ∧ u.edgesY = t.edgesY ∧ u.algorithm = t.algorithm ∧
    u.gridParams = t.gridParams ∧ u.pointCountChanged = t.pointCountChanged := by
  induction rs generalizing t with
  | nil => simp
  | cons r rs ih =>
    have h1 := clearTemp_fields t r
    have h2 := ih (t.clearTemp r)
    simp only [List.foldl_cons] at *
    simp only [h2, h1, and_self]

/-- the extents, size and kind of the tile -/
def sameFrame (t u : Tile) : Prop :=
  u.minX = t.minX ∧ u.maxX = t.maxX ∧ u.minY = t.minY ∧ u.maxY = t.maxY ∧ u.width = t.width ∧ u.height = t.height ∧
    u.isBackscatter = t.isBackscatter

theorem sameFrame_refl (t : Tile) : sameFrame t t := by simp [sameFrame]
theorem sameFrame_trans {t u v : Tile} (h1 : sameFrame t u) (h2 : sameFrame u v) : sameFrame t v := by
  unfold sameFrame at *; simp_all

/-- The points part of the tile represents the store `A`, soundings having the fields `fl`. -/
structure Rep (t : Tile) (A : Store) (fl : Fields) : Prop where
  names : A.names.Nodup
  container : t.container = slicesFrom 0 A
  pts : t.pts = A.allPts
  fields : ∀ d, t.data = some d → d.fields = fl
  empty : t.data = none → A = []
  idx : ∀ r l, (r, l) ∈ t.cellIdx → l.length = t.pts.length

theorem rep_new (x y s : ℚ) (b : Bool) (fl : Fields) : Rep (Tile.new x y s b) [] fl := by
  constructor <;> simp [Tile.new, Store.names, slicesFrom, Tile.pts, Store.allPts]

theorem removePoints_of_not_mem (t : Tile) (c : String) (h : c ∉ t.container.keys) : removePoints t c = .ok t := by
  unfold removePoints
  rw [(Dict.get?_eq_none _ _).2 h]

/-- `remove_points` of a container that is in the tile, field by field -/
theorem removePoints_mem {t : Tile} {c : String} {s e : Nat} {d : PtArr} (hc : t.container.get? c = some (s, e))
    (hd : t.data = some d) (hall : t.cellIdx.all (fun q => q.2.length == d.pts.length) = true) :
    ∃ u, removePoints t c = .ok u ∧ sameFrame t u ∧
      u.data = some { d with pts := boolIndex d.pts (removeMask d.pts.length s e) } ∧
      u.container = (t.container.mapVals (fun _ v => if v.1 ≥ e then
        (v.1 - (min e d.pts.length - min s d.pts.length), v.2 - (min e d.pts.length - min s d.pts.length)) else v)).pop c ∧
      u.cellIdx = t.cellIdx.mapVals (fun _ l => boolIndex l (removeMask d.pts.length s e)) ∧
      u.edgesX = t.edgesX ∧ u.edgesY = t.edgesY ∧ u.algorithm = t.algorithm ∧ u.gridParams = t.gridParams ∧
      u.pointCountChanged = true ∧
      u.cells = ((t.cellIdx.keys).foldl clearTemp t).cells := by
  unfold removePoints
  rw [hc, hd]
  simp only [hall, if_true]
  refine ⟨_, rfl, ?_⟩
  have hcells : ∀ (rs : List ℚ) (t u : Tile), t.cells = u.cells → (rs.foldl clearTemp t).cells = (rs.foldl clearTemp u).cells := by
    intro rs
    induction rs with
    | nil => intro t u h; exact h
    | cons r rs ih =>
      intro t u h
      apply ih
      unfold clearTemp; rw [h]; split <;> simp_all
  generalize hw : ({ t with
    container := Dict.mapVals t.container (fun _ v => if v.1 ≥ e then
        (v.1 - (min e d.pts.length - min s d.pts.length), v.2 - (min e d.pts.length - min s d.pts.length)) else v),
    cellIdx := Dict.mapVals t.cellIdx (fun _ l => boolIndex l (removeMask d.pts.length s e)), data := some d } : Tile) = w
  have hk : Dict.keys (Dict.mapVals t.cellIdx (fun _ l => boolIndex l (removeMask d.pts.length s e))) = Dict.keys t.cellIdx :=
    Dict.keys_mapVals _ _
  rw [hk]
  obtain ⟨f1, f2, f3, f4, f5, f6, f7, f8, f9, f10, f11, f12, f13, f14, f15⟩ := foldl_clearTemp_fields (Dict.keys t.cellIdx) w
  simp only [sameFrame, f2, f3, f4, f5, f6, f7, f8, f9, f10, f11, f12, f13, f14]
  rw [hcells _ w t (by rw [← hw])]
  subst hw
  simp

/-- effect of `remove_points` on the points part -/
theorem removePoints_spec {t : Tile} {A : Store} {fl : Fields} (h : Rep t A fl) (c : String) :
    ∃ u, removePoints t c = .ok u ∧ Rep u (A.remove c) fl ∧ sameFrame t u ∧
      (c ∈ A.names → u.pointCountChanged = true) ∧ (c ∉ A.names → u = t) ∧
      (t.data ≠ none → u.data ≠ none) := by
  by_cases hc : c ∈ A.names
  · obtain ⟨A1, p, A2, rfl, n1, n2⟩ := Store.split_of_mem hc h.names
    have hget : t.container.get? c = some (A1.allPts.length, A1.allPts.length + p.length) := by
      rw [h.container]; exact slicesFrom_get A1 A2 c p n1
    obtain ⟨d, hd⟩ : ∃ d, t.data = some d := by
      cases hdt : t.data with
      | none => have := h.empty hdt; simp at this
      | some d => exact ⟨d, rfl⟩
    have hpts : d.pts = A1.allPts ++ p ++ A2.allPts := by
      have := h.pts
      simp only [Tile.pts, hd, Store.allPts_append, Store.allPts_cons] at this
      rw [this]; simp
    have hall : t.cellIdx.all (fun q => q.2.length == d.pts.length) = true := by
      rw [List.all_eq_true]
      intro q hq
      have := h.idx q.1 q.2 hq
      simp only [Tile.pts, hd] at this
      simpa using this
    have hmask := boolIndex_removeMask A1.allPts p A2.allPts
    rw [← hpts] at hmask
    have hrem : Store.remove (A1 ++ (c, p) :: A2) c = A1 ++ A2 := by
      rw [Store.remove_append, Store.remove_of_not_mem A1 c n1]
      have : Store.remove ((c, p) :: A2) c = Store.remove A2 c := by simp [Store.remove]
      rw [this, Store.remove_of_not_mem A2 c n2]
    have hchunk : min (A1.allPts.length + p.length) d.pts.length - min A1.allPts.length d.pts.length = p.length := by
      have : d.pts.length = A1.allPts.length + p.length + A2.allPts.length := by rw [hpts]; simp [Nat.add_assoc]
      omega
    obtain ⟨u, hu, hfr, u1, u2, u3, -, -, -, -, u8, -⟩ := removePoints_mem hget hd hall
    rw [hchunk] at u2
    have hcont : u.container = slicesFrom 0 (A1 ++ A2) := by
      rw [u2, h.container, slicesFrom_append, slicesFrom_append, slicesFrom]
      have e1 : Dict.mapVals (slicesFrom 0 A1) (fun _ v => if v.1 ≥ A1.allPts.length + p.length then
          (v.1 - p.length, v.2 - p.length) else v) = slicesFrom 0 A1 := by
        unfold Dict.mapVals
        conv => rhs; rw [← List.map_id (slicesFrom 0 A1)]
        apply List.map_congr_left
        intro q hq
        have hb := slicesFrom_bounds 0 A1 q hq
        obtain ⟨qc, q1, q2⟩ := q
        simp only [ge_iff_le, id] at *
        split
        · have : p.length = 0 := by omega
          rw [this]; simp
        · rfl
      have e2 : Dict.mapVals (slicesFrom (0 + A1.allPts.length + p.length) A2) (fun _ v => if v.1 ≥ A1.allPts.length + p.length then
          (v.1 - p.length, v.2 - p.length) else v) = slicesFrom (0 + A1.allPts.length) A2 := by
        apply slicesFrom_shift
        intro c v h1 _
        rw [if_pos (by omega)]
      have emap : ∀ (d1 d2 : Dict String (Nat × Nat)) (f : String → Nat × Nat → Nat × Nat),
          Dict.mapVals (d1 ++ d2) f = Dict.mapVals d1 f ++ Dict.mapVals d2 f := by
        intro d1 d2 f; simp [Dict.mapVals]
      have epop : ∀ (d1 d2 : Dict String (Nat × Nat)), Dict.pop (d1 ++ d2) c = Dict.pop d1 c ++ Dict.pop d2 c := by
        intro d1 d2; simp [Dict.pop]
      rw [emap, e1, epop, Dict.pop_of_not_mem _ _ (by rw [slicesFrom_keys]; exact n1)]
      congr 1
      have : ∀ (v : Nat × Nat) (d : Dict String (Nat × Nat)) (f : String → Nat × Nat → Nat × Nat),
          Dict.pop (Dict.mapVals ((c, v) :: d) f) c = Dict.pop (Dict.mapVals d f) c := by
        intro v d f; simp [Dict.mapVals, Dict.pop]
      rw [this, e2, Dict.pop_of_not_mem _ _ (by rw [slicesFrom_keys]; exact n2)]
    refine ⟨u, hu, ?_, hfr, fun _ => u8, fun hn => absurd hc hn, fun _ => by rw [u1]; simp⟩
    rw [hrem]
    refine ⟨?_, hcont, ?_, ?_, ?_, ?_⟩
    · rw [← hrem]; exact Store.names_remove_nodup _ _ h.names
    · simp only [Tile.pts, u1]; rw [hmask, Store.allPts_append]
    · intro d' hd'
      rw [u1, Option.some.injEq] at hd'
      rw [← hd']; exact h.fields d hd
    · intro hd'; rw [u1] at hd'; simp at hd'
    · intro r l hl
      simp only [Tile.pts, u1]
      rw [u3] at hl
      simp only [Dict.mapVals, List.mem_map] at hl
      obtain ⟨q, hq, he⟩ := hl
      cases he
      apply boolIndex_length_map
      have := h.idx q.1 q.2 hq
      simpa only [Tile.pts, hd] using this
  · have hk : c ∉ t.container.keys := by rw [h.container, slicesFrom_keys]; exact hc
    refine ⟨t, removePoints_of_not_mem t c hk, ?_, sameFrame_refl t, fun h => absurd h hc, fun _ => rfl, fun h => h⟩
    rw [Store.remove_of_not_mem A c hc]; exact h

/-- `add_points` when the tile holds data and the container is not in it, field by field -/
theorem addPoints_some {t : Tile} {c : String} {old d : PtArr} (hd : t.data = some old) (hc : c ∉ t.container.keys)
    (hf : old.fields = d.fields) :
    ∃ u, addPoints t d c = .ok u ∧ sameFrame t u ∧
      u.data = some { old with pts := old.pts ++ d.pts } ∧
      u.container = t.container ++ [(c, (old.pts.length, old.pts.length + d.pts.length))] ∧
      u.cellIdx = t.cellIdx.mapVals (fun _ l => l ++ List.replicate d.pts.length (-1)) ∧
      u.edgesX = t.edgesX ∧ u.edgesY = t.edgesY ∧ u.algorithm = t.algorithm ∧ u.gridParams = t.gridParams ∧
      u.pointCountChanged = true ∧
      u.cells = ((t.cellIdx.keys).foldl clearTemp t).cells := by
  have hhas : t.container.has c = false := (Dict.has_false_iff _ _).2 hc
  unfold addPoints
  rw [hd]
  simp only [hhas, Bool.false_eq_true, if_false, Res.andThen_ok, hd, hf, if_true]
  refine ⟨_, rfl, ?_⟩
  have hcells : ∀ (rs : List ℚ) (t u : Tile), t.cells = u.cells → (rs.foldl clearTemp t).cells = (rs.foldl clearTemp u).cells := by
    intro rs
    induction rs with
    | nil => intro t u h; exact h
    | cons r rs ih =>
      intro t u h
      apply ih
      unfold clearTemp; rw [h]; split <;> simp_all
  generalize hw : ({ t with
    container := Dict.set t.container c (old.pts.length, old.pts.length + d.pts.length),
    cellIdx := Dict.mapVals t.cellIdx (fun _ l => l ++ List.replicate d.pts.length (-1)),
    data := some { fields := d.fields, pts := old.pts ++ d.pts } } : Tile) = w
  have hk : Dict.keys (Dict.mapVals t.cellIdx (fun _ l => l ++ List.replicate d.pts.length (-1))) = Dict.keys t.cellIdx :=
    Dict.keys_mapVals _ _
  rw [hk]
  obtain ⟨f1, f2, f3, f4, f5, f6, f7, f8, f9, f10, f11, f12, f13, f14, f15⟩ := foldl_clearTemp_fields (Dict.keys t.cellIdx) w
  simp only [sameFrame, f1, f2, f3, f4, f5, f6, f7, f8, f9, f10, f11, f12, f13, f14]
  rw [hcells _ w t (by rw [← hw])]
  subst hw
  simp [Dict.set_of_not_mem _ _ _ hc]

/-- effect of `add_points` on the points part -/
theorem addPoints_spec {t : Tile} {A : Store} {fl : Fields} (h : Rep t A fl) (d : PtArr) (hf : d.fields = fl) (c : String) :
    ∃ u, addPoints t d c = .ok u ∧ Rep u (A.put c d.pts) fl ∧ sameFrame t u ∧ u.pointCountChanged = true ∧
      u.data ≠ none := by
  have main : ∀ t A, Rep t A fl → t.data ≠ none → c ∉ A.names →
      ∃ u, addPoints t d c = .ok u ∧ Rep u (A ++ [(c, d.pts)]) fl ∧ sameFrame t u ∧ u.pointCountChanged = true ∧
        u.data ≠ none := by
    intro t A h hdn hc
    obtain ⟨old, hd⟩ := Option.ne_none_iff_exists'.1 hdn
    have hk : c ∉ t.container.keys := by rw [h.container, slicesFrom_keys]; exact hc
    obtain ⟨u, hu, hfr, u1, u2, u3, -, -, -, -, u8, -⟩ := addPoints_some hd hk ((h.fields old hd).trans hf.symm)
    have hp : old.pts = A.allPts := by have := h.pts; simpa only [Tile.pts, hd] using this
    refine ⟨u, hu, ?_, hfr, u8, by rw [u1]; simp⟩
    refine ⟨?_, ?_, ?_, ?_, ?_, ?_⟩
    · have := Store.names_put_nodup A c d.pts h.names
      rw [Store.put, Store.remove_of_not_mem A c hc] at this; exact this
    · rw [u2, h.container, slicesFrom_append, hp]; simp [slicesFrom]
    · simp only [Tile.pts, u1, Store.allPts_append, hp]; simp [Store.allPts]
    · intro d' hd'; rw [u1, Option.some.injEq] at hd'; rw [← hd']; exact h.fields old hd
    · intro hd'; rw [u1] at hd'; simp at hd'
    · intro r l hl
      rw [u3] at hl
      simp only [Dict.mapVals, List.mem_map] at hl
      obtain ⟨q, hq, he⟩ := hl
      cases he
      have := h.idx q.1 q.2 hq
      simp only [Tile.pts, hd] at this
      simp only [Tile.pts, u1, List.length_append, List.length_replicate, this]
  cases hd : t.data with
  | none =>
    have hA := h.empty hd
    subst hA
    refine ⟨{ t with data := some d, container := [(c, (0, d.pts.length))],
                     cellIdx := t.cellIdx.mapVals (fun _ _ => List.replicate d.pts.length (-1)), pointCountChanged := true },
      by simp [addPoints, hd], ?_, sameFrame_refl t, rfl, by simp⟩
    refine ⟨?_, ?_, ?_, ?_, ?_, ?_⟩
    · simp [Store.put, Store.remove, Store.names]
    · simp [Store.put, Store.remove, slicesFrom]
    · simp [Store.put, Store.remove, Store.allPts, Tile.pts]
    · intro d' hd'; simp only [Option.some.injEq] at hd'; rw [← hd']; exact hf
    · intro hd'; simp at hd'
    · intro r l hl
      simp only [Dict.mapVals, List.mem_map] at hl
      obtain ⟨q, hq, he⟩ := hl
      cases he
      simp [Tile.pts]
  | some old =>
    by_cases hc : c ∈ A.names
    · obtain ⟨v, hv, hr, hfr, -, -, hdn⟩ := removePoints_spec h c
      have hvn : c ∉ (A.remove c).names := by rw [Store.mem_names_remove]; simp
      obtain ⟨u, hu, hru, hfru, hp, hn⟩ := main v (A.remove c) hr (hdn (by rw [hd]; simp)) hvn
      refine ⟨u, ?_, hru, sameFrame_trans hfr hfru, hp, hn⟩
      rw [← hu]
      have hhas : t.container.has c = true := by
        rw [Dict.has_iff, h.container, slicesFrom_keys]; exact hc
      have hhas' : v.container.has c = false := by
        rw [Dict.has_false_iff, hr.container, slicesFrom_keys]; exact hvn
      obtain ⟨vd, hvd⟩ := Option.ne_none_iff_exists'.1 (hdn (by rw [hd]; simp))
      unfold addPoints
      simp only [hd, hhas, hv, hvd, hhas', if_true, Bool.false_eq_true, if_false, Res.andThen_ok]
    · have := main t A h (by rw [hd]; simp) hc
      rw [Store.put, Store.remove_of_not_mem A c hc]; exact this

end Tile
end Bathy
