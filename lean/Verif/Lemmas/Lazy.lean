import Verif.Spec.Lazy
import Verif.Lemmas.StoreTile

/-!
# Lemmas on arrays that are read when they are needed
-/

namespace Bathy

open LTile

theorem Agree.get? {κ α : Type} [DecidableEq κ] {f : TileFolder} {d : Dict κ (Lz α)} {e : Dict κ α} (h : Agree f d e) (k : κ) :
    Option.Rel (fun x a => x f = .ok a) (d.get? k) (e.get? k) := by
  induction h with
  | nil => exact .none
  | @cons p q d e hp _ ih =>
    rw [Dict.get?_cons, Dict.get?_cons, hp.1]
    split
    · exact .some hp.2
    · exact ih

theorem Agree.keys {κ α : Type} {f : TileFolder} {d : Dict κ (Lz α)} {e : Dict κ α} (h : Agree f d e) : d.keys = e.keys := by
  unfold Dict.keys
  induction h with
  | nil => rfl
  | cons hp _ ih => rw [List.map_cons, List.map_cons, hp.1, ih]

/-- the dictionary with all its arrays in memory -/
def memAll {κ α : Type} (e : Dict κ α) : Dict κ (Lz α) := e.map (fun q => (q.1, Lz.mem q.2))

theorem agree_memAll {κ α : Type} (f : TileFolder) (e : Dict κ α) : Agree f (memAll e) e := by
  unfold Agree memAll
  induction e with
  | nil => exact .nil
  | cons q e ih => exact .cons ⟨rfl, rfl⟩ ih

theorem keys_memAll {κ α : Type} (e : Dict κ α) : (memAll e).keys = e.keys := (agree_memAll {} e).keys

theorem renew_all {κ α : Type} [DecidableEq κ] {f : TileFolder} {todo : Dict κ (Lz α)} {e : Dict κ α} (h : Agree f todo e) (done : Dict κ (Lz α))
    (hn : (Dict.keys (todo ++ done)).Nodup) : (Dict.keys todo).foldlM (renew1 f) (todo ++ done) = .ok (done ++ memAll e) := by
  induction h generalizing done with
  | nil =>
    show Except.ok _ = _
    simp [memAll]
  | @cons p q todo e hp hr ih =>
    obtain ⟨k, x⟩ := p
    have hn' : k ∉ Dict.keys (todo ++ done) ∧ (Dict.keys (todo ++ done)).Nodup := by
      simpa [Dict.keys] using hn
    have hx : x f = .ok q.2 := hp.2
    have e1 : renew1 f ((k, x) :: todo ++ done) k = .ok (todo ++ (done ++ [(k, Lz.mem q.2)])) := by
      unfold renew1
      rw [List.cons_append, Dict.get?_cons, if_pos rfl]
      simp only [hx]
      have e2 : Dict.pop ((k, x) :: (todo ++ done)) k = todo ++ done := by
        unfold Dict.pop
        rw [List.filter_cons_of_neg (by simp)]
        exact Dict.pop_of_not_mem _ _ hn'.1
      rw [e2, Dict.set_of_not_mem _ _ _ hn'.1, List.append_assoc]
    show (renew1 f ((k, x) :: todo ++ done) k >>= fun d => (Dict.keys todo).foldlM (renew1 f) d) = _
    rw [e1]
    show (Dict.keys todo).foldlM (renew1 f) (todo ++ (done ++ [(k, Lz.mem q.2)])) = _
    rw [ih]
    · have hk : k = q.1 := hp.1
      simp [memAll, hk]
    · have := hn'
      simp only [Dict.keys, List.map_append, List.map_cons, List.map_nil] at this ⊢
      rw [← List.append_assoc]
      exact List.Nodup.append this.2 (List.nodup_singleton _) (by simpa [List.disjoint_singleton] using this.1)

theorem renew_dict {κ α : Type} [DecidableEq κ] {f : TileFolder} {d : Dict κ (Lz α)} {e : Dict κ α} (h : Agree f d e) (hn : d.keys.Nodup) :
    d.keys.foldlM (renew1 f) d = .ok (memAll e) := by
  have := renew_all h [] (by rwa [List.append_nil])
  rwa [List.append_nil, List.nil_append] at this

theorem renew1_get? {κ α : Type} [DecidableEq κ] {f : TileFolder} {d : Dict κ (Lz α)} {k : κ} {a : α} (h : Option.Rel (fun x a => x f = .ok a) (d.get? k) (some a)) :
    ∃ d', renew1 f d k = .ok d' ∧ d'.get? k = some (Lz.mem a) ∧ ∀ k' ≠ k, d'.get? k' = d.get? k' := by
  unfold renew1
  generalize hx : d.get? k = o at h
  cases h with
  | some hx' =>
    simp only [hx']
    exact ⟨_, rfl, Dict.get?_set_self _ _ _, fun k' hk => by rw [Dict.get?_pop_set, if_neg hk]⟩

namespace LTile

/-- the cells of the tile with all layers in memory -/
def memCells (c : Dict ℚ (Dict Layer LayerArr)) : Dict ℚ (Dict Layer (Lz LayerArr)) := c.map (fun q => (q.1, memAll q.2))

theorem set_middle {ν : Type} (done rest : Dict ℚ ν) (r : ℚ) (v w : ν) (h : (Dict.keys (done ++ (r, v) :: rest)).Nodup) :
    Dict.get? (done ++ (r, v) :: rest) r = some v ∧ Dict.set (done ++ (r, v) :: rest) r w = done ++ (r, w) :: rest := by
  induction done with
  | nil => exact ⟨by rw [List.nil_append, Dict.get?_cons, if_pos rfl], by rw [List.nil_append, Dict.set_cons, if_pos rfl]; rfl⟩
  | cons p done ih =>
    have h' : p.1 ∉ Dict.keys (done ++ (r, v) :: rest) ∧ (Dict.keys (done ++ (r, v) :: rest)).Nodup := by
      simpa [Dict.keys] using h
    have hne : p.1 ≠ r := by
      intro e
      apply h'.1
      rw [e]
      simp [Dict.keys]
    obtain ⟨i1, i2⟩ := ih h'.2
    refine ⟨?_, ?_⟩
    · rw [List.cons_append, Dict.get?_cons, if_neg hne, i1]
    · rw [List.cons_append, Dict.set_cons, if_neg hne, i2]
      rfl

theorem renewRes_all {f : TileFolder} {u : Tile} {todo : Dict ℚ (Dict Layer (Lz LayerArr))} {todoU : Dict ℚ (Dict Layer LayerArr)}
    (h : List.Forall₂ (fun p q => p.1 = q.1 ∧ Agree f p.2 q.2) todo todoU) (done : Dict ℚ (Dict Layer (Lz LayerArr))) (t : LTile)
    (hc : t.cells = done ++ todo) (hn : t.cells.keys.Nodup) (hl : ∀ p ∈ todo, p.2.keys.Nodup)
    (hx : ∀ r ∈ Dict.keys todo, Option.Rel (fun x a => x f = .ok a) (t.edgesX.get? r) (u.edgesX.get? r) ∧ (u.edgesX.get? r).isSome)
    (hy : ∀ r ∈ Dict.keys todo, Option.Rel (fun x a => x f = .ok a) (t.edgesY.get? r) (u.edgesY.get? r) ∧ (u.edgesY.get? r).isSome) :
    ∃ t', (Dict.keys todo).foldlM (renewRes f) t = .ok t' ∧ t'.info = t.info ∧ t'.data = t.data ∧ t'.cellIdx = t.cellIdx ∧ t'.cells = done ++ memCells todoU ∧
      (∀ r ∈ Dict.keys todo, t'.edgesX.get? r = (u.edgesX.get? r).map Lz.mem ∧ t'.edgesY.get? r = (u.edgesY.get? r).map Lz.mem) ∧
      (∀ r, r ∉ Dict.keys todo → t'.edgesX.get? r = t.edgesX.get? r ∧ t'.edgesY.get? r = t.edgesY.get? r) := by
  induction h generalizing done t with
  | nil => exact ⟨t, rfl, rfl, rfl, rfl, (by rw [hc]; rfl), (fun r hr => by simp [Dict.keys] at hr), (fun r _ => ⟨rfl, rfl⟩)⟩
  | @cons p q todo todoU hp hr ih =>
    obtain ⟨r, ls⟩ := p
    have hmem : r ∈ Dict.keys ((r, ls) :: todo) := by simp [Dict.keys]
    obtain ⟨hx1, hx2⟩ := hx r hmem
    obtain ⟨hy1, hy2⟩ := hy r hmem
    obtain ⟨ax, hax⟩ := Option.isSome_iff_exists.1 hx2
    obtain ⟨ay, hay⟩ := Option.isSome_iff_exists.1 hy2
    rw [hax] at hx1
    rw [hay] at hy1
    obtain ⟨ex, ex1, ex2, ex3⟩ := renew1_get? hx1
    obtain ⟨ey, ey1, ey2, ey3⟩ := renew1_get? hy1
    rw [hc] at hn
    obtain ⟨g1, g2⟩ := set_middle done todo r ls (memAll q.2) hn
    have e1 : renewRes f t r = .ok { t with cells := (done ++ [(r, memAll q.2)]) ++ todo, edgesX := ex, edgesY := ey } := by
      unfold renewRes
      rw [hc, g1]
      simp only [renew_dict hp.2 (hl _ List.mem_cons_self), ex1, ey1, bind, Except.bind, pure, Except.pure, g2]
      rw [List.append_assoc]
      rfl
    have hnot : r ∉ Dict.keys todo := by
      have hn' : (Dict.keys done ++ (r :: Dict.keys todo)).Nodup := by simpa [Dict.keys] using hn
      exact (List.nodup_cons.1 (List.nodup_append.1 hn').2.1).1
    obtain ⟨t', k1, k2, k3, k4, k5, k6, k7⟩ := ih (done ++ [(r, memAll q.2)]) { t with cells := (done ++ [(r, memAll q.2)]) ++ todo, edgesX := ex, edgesY := ey } rfl
      (by simpa [Dict.keys] using hn) (fun p hp => hl p (List.mem_cons_of_mem _ hp))
      (fun r' hr' => by
        have hne : r' ≠ r := fun e => hnot (e ▸ hr')
        show Option.Rel _ (ex.get? r') _ ∧ _
        rw [ex3 r' hne]
        exact hx r' (by simp only [Dict.keys, List.map_cons, List.mem_cons]; exact .inr hr'))
      (fun r' hr' => by
        have hne : r' ≠ r := fun e => hnot (e ▸ hr')
        show Option.Rel _ (ey.get? r') _ ∧ _
        rw [ey3 r' hne]
        exact hy r' (by simp only [Dict.keys, List.map_cons, List.mem_cons]; exact .inr hr'))
    refine ⟨t', ?_, k2, k3, k4, ?_, ?_, ?_⟩
    · show (renewRes f t r >>= fun t => (Dict.keys todo).foldlM (renewRes f) t) = _
      rw [e1]
      exact k1
    · have hk : r = q.1 := hp.1
      rw [k5]
      simp [memCells, hk]
    · intro r' hr'
      by_cases hin : r' ∈ Dict.keys todo
      · exact k6 r' hin
      · have e : r' = r := by
          simp only [Dict.keys, List.map_cons, List.mem_cons] at hr'
          exact hr'.resolve_right hin
        obtain ⟨j1, j2⟩ := k7 r' hin
        rw [j1, j2, e, hax, hay]
        exact ⟨ex2, ey2⟩
    · intro r' hr'
      simp only [Dict.keys, List.map_cons, List.mem_cons, not_or] at hr'
      obtain ⟨j1, j2⟩ := k7 r' hr'.2
      rw [j1, j2]
      exact ⟨ex3 r' hr'.1, ey3 r' hr'.1⟩

theorem forall₂_keys {ν μ : Type} {R : ν → μ → Prop} {d : Dict ℚ ν} {e : Dict ℚ μ} (h : List.Forall₂ (fun p q => p.1 = q.1 ∧ R p.2 q.2) d e) : d.keys = e.keys := by
  unfold Dict.keys
  induction h with
  | nil => rfl
  | cons hp _ ih => rw [List.map_cons, List.map_cons, hp.1, ih]

theorem memCells_sees (g : TileFolder) (c : Dict ℚ (Dict Layer LayerArr)) : List.Forall₂ (fun p q => p.1 = q.1 ∧ Agree g p.2 q.2) (memCells c) c := by
  unfold memCells
  induction c with
  | nil => exact .nil
  | cons q c ih => exact .cons ⟨rfl, agree_memAll g q.2⟩ ih

theorem rel_mem {α : Type} (g : TileFolder) (o : Option α) : Option.Rel (fun (x : Lz α) a => x g = .ok a) (o.map Lz.mem) o := by
  cases o with
  | none => exact .none
  | some a => exact .some rfl

/-- what `_load_tile_data_to_memory` does: the part that is asked for can be read whatever becomes of the folder, the rest stays as it was -/
theorem toMemory_spec (part : Tile.Part) {t : LTile} {f : TileFolder} {u : Tile} (hs : t.Sees f u) (hk : t.Keys) (hr : part ≠ .points → u.EdgesKnown) :
    ∃ t', t.toMemory part f = .ok t' ∧ t'.info = t.info ∧
      t'.data = (if part = .grid then t.data else u.data.map Lz.mem) ∧
      t'.cells = (if part = .points then t.cells else memCells u.cells) ∧
      (part = .points → t'.edgesX = t.edgesX ∧ t'.edgesY = t.edgesY) ∧
      (part ≠ .points → ∀ r ∈ u.cells.keys, t'.edgesX.get? r = (u.edgesX.get? r).map Lz.mem ∧ t'.edgesY.get? r = (u.edgesY.get? r).map Lz.mem) ∧
      (∀ r, r ∉ u.cells.keys → t'.edgesX.get? r = t.edgesX.get? r ∧ t'.edgesY.get? r = t.edgesY.get? r) ∧
      t'.cellIdx = memAll u.cellIdx := by
  -- the soundings
  have h1 : ∃ t1, (if part = .grid then Except.ok t else renewData f t) = .ok t1 ∧ t1 = { t with data := if part = .grid then t.data else u.data.map Lz.mem } := by
    by_cases h : part = .grid
    · rw [if_pos h, if_pos h]
      exact ⟨t, rfl, rfl⟩
    · rw [if_neg h, if_neg h]
      have hd := hs.data
      unfold SeesData at hd
      unfold renewData
      generalize hx : t.data = o at hd
      generalize u.data = a at hd
      cases hd with
      | none => exact ⟨t, rfl, by rw [Option.map_none, ← hx]⟩
      | some he => exact ⟨_, by simp only [he]; rfl, rfl⟩
  obtain ⟨t1, e1, d1⟩ := h1
  -- the layers
  have h2 : ∃ t2, (if part = .points then Except.ok t1 else t1.cells.keys.foldlM (renewRes f) t1) = .ok t2 ∧ t2.info = t.info ∧ t2.data = t1.data ∧
      t2.cellIdx = t.cellIdx ∧ t2.cells = (if part = .points then t.cells else memCells u.cells) ∧
      (part = .points → t2.edgesX = t.edgesX ∧ t2.edgesY = t.edgesY) ∧
      (part ≠ .points → ∀ r ∈ u.cells.keys, t2.edgesX.get? r = (u.edgesX.get? r).map Lz.mem ∧ t2.edgesY.get? r = (u.edgesY.get? r).map Lz.mem) ∧
      (∀ r, r ∉ u.cells.keys → t2.edgesX.get? r = t.edgesX.get? r ∧ t2.edgesY.get? r = t.edgesY.get? r) := by
    subst d1
    by_cases h : part = .points
    · rw [if_pos h, if_pos h]
      exact ⟨_, rfl, rfl, rfl, rfl, rfl, fun _ => ⟨rfl, rfl⟩, fun hne => absurd h hne, fun r _ => ⟨rfl, rfl⟩⟩
    · rw [if_neg h, if_neg h]
      have hkeys : t.cells.keys = u.cells.keys := forall₂_keys hs.grid.cells
      obtain ⟨t2, k1, k2, k3, k4, k5, k6, k7⟩ := renewRes_all (u := u) hs.grid.cells [] { t with data := if part = .grid then t.data else u.data.map Lz.mem } rfl hk.cells hk.layers
        (fun r hr' => by
          have hr' : r ∈ u.cells.keys := hkeys ▸ hr'
          exact ⟨hs.grid.edgesX r hr', (hr h r hr').1⟩)
        (fun r hr' => by
          have hr' : r ∈ u.cells.keys := hkeys ▸ hr'
          exact ⟨hs.grid.edgesY r hr', (hr h r hr').2⟩)
      refine ⟨t2, k1, k2, k3, k4, k5, fun e => absurd e h, fun _ r hr' => k6 r (show r ∈ t.cells.keys from hkeys ▸ hr'), fun r hr' => k7 r (show r ∉ t.cells.keys from hkeys ▸ hr')⟩
  obtain ⟨t2, e2, i2, d2, x2, c2, p2, n2, o2⟩ := h2
  refine ⟨{ t2 with cellIdx := memAll u.cellIdx }, ?_, i2, ?_, c2, p2, n2, o2, rfl⟩
  · unfold toMemory
    rw [e1]
    show (if part = .points then Except.ok t1 else t1.cells.keys.foldlM (renewRes f) t1).bind (renewIdx f) = _
    rw [e2]
    show renewIdx f t2 = _
    unfold renewIdx
    rw [x2, renew_dict hs.idx hk.idx]
  · show t2.data = _
    rw [d2, d1]

/-! ### saving -/

theorem get?_memAll {κ α : Type} [DecidableEq κ] (e : Dict κ α) (k : κ) : (memAll e).get? k = (e.get? k).map Lz.mem := by
  unfold memAll
  induction e with
  | nil => rfl
  | cons q e ih =>
    rw [List.map_cons, Dict.get?_cons, Dict.get?_cons, ih]
    split <;> rfl

theorem get?_memCells (c : Dict ℚ (Dict Layer LayerArr)) (r : ℚ) : (memCells c).get? r = (c.get? r).map memAll := by
  unfold memCells
  induction c with
  | nil => rfl
  | cons q c ih =>
    rw [List.map_cons, Dict.get?_cons, Dict.get?_cons, ih]
    split <;> rfl

theorem keys_memCells (c : Dict ℚ (Dict Layer LayerArr)) : (memCells c).keys = c.keys := forall₂_keys (memCells_sees {} c)

theorem forEach_foldl {σ α β : Type} (h : β → α) {body : σ → α → Res σ} {g : σ → β → σ} (hb : ∀ s x, body s (h x) = .ok (g s x)) (xs : List β) (s : σ) :
    Res.forEach (xs.map h) s body = .ok (xs.foldl g s) := by
  induction xs generalizing s with
  | nil => rfl
  | cons x xs ih => rw [List.map_cons, Res.forEach_cons, hb, Res.andThen_ok, ih, List.foldl_cons]

theorem saveArr_mem {α : Type} (rm : TileFolder → TileFolder) (a : α) (put : α → TileFolder → TileFolder) (d : Tile.TileDisk) :
    saveArr rm (Lz.mem a) put d = .ok (Tile.inFolder (Tile.inFolder d rm) (put a)) := rfl

theorem saveData_eq (b : Backend) {t : LTile} {u : Tile} (h : t.data = u.data.map Lz.mem) (d : Tile.TileDisk) : saveData b t d = .ok (Tile.saveData b u d) := by
  unfold saveData Tile.saveData
  rw [h]
  cases u.data <;> rfl

theorem saveLayers_eq (b : Backend) (r : ℚ) (ls : Dict Layer LayerArr) (d : Tile.TileDisk) : saveLayers b r (memAll ls) d = .ok (Tile.saveLayers b r ls d) := by
  unfold saveLayers Tile.saveLayers
  have := forEach_foldl (σ := Tile.TileDisk) (fun l : Layer => l) (body := fun d l =>
    match (memAll ls).get? l with
    | some x => saveArr (fun f => { f with layers := f.layers.pop (r, l) }) x (fun a f => { f with layers := f.layers.set (r, l) (b.store (some a)) }) d
    | none => .ok d) (g := fun d l =>
    match ls.get? l with
    | some a => Tile.inFolder (Tile.inFolder d (fun f => { f with layers := f.layers.pop (r, l) })) (fun f => { f with layers := f.layers.set (r, l) (b.store (some a)) })
    | none => d) (fun d l => by
      simp only [get?_memAll]
      cases ls.get? l <;> rfl) Tile.writtenLayers d
  rw [List.map_id'] at this
  exact this

theorem saveRes_eq (b : Backend) {t : LTile} {u : Tile} (hc : t.cells = memCells u.cells) {r : ℚ}
    (he : t.edgesX.get? r = (u.edgesX.get? r).map Lz.mem ∧ t.edgesY.get? r = (u.edgesY.get? r).map Lz.mem) (d : Tile.TileDisk) :
    saveRes b t d r = Tile.saveRes b u d r := by
  unfold saveRes Tile.saveRes
  rw [hc, get?_memCells, he.1, he.2]
  cases u.cells.get? r with
  | none => rfl
  | some ls =>
    simp only [Option.map_some, saveLayers_eq, Res.andThen_ok]
    cases u.edgesX.get? r with
    | none => rfl
    | some ex =>
      simp only [Option.map_some, saveArr_mem, Res.andThen_ok]
      cases u.edgesY.get? r <;> rfl

theorem saveIndices_eq (b : Backend) {t : LTile} {u : Tile} (h : t.cellIdx = memAll u.cellIdx) (d : Tile.TileDisk) :
    saveIndices b t d = .ok (Tile.saveIndices b u d) := by
  unfold saveIndices Tile.saveIndices
  rw [h]
  exact forEach_foldl (σ := Tile.TileDisk) (fun q : ℚ × List Int => (q.1, Lz.mem q.2)) (fun _ _ => rfl) u.cellIdx d

theorem forEach_congr' {σ α : Type} {xs : List α} {f g : σ → α → Res σ} (h : ∀ s, ∀ x ∈ xs, f s x = g s x) (s : σ) : Res.forEach xs s f = Res.forEach xs s g := by
  induction xs generalizing s with
  | nil => rfl
  | cons x xs ih =>
    rw [Res.forEach_cons, Res.forEach_cons, h s x List.mem_cons_self]
    congr 1
    funext s'
    exact ih (fun s y hy => h s y (List.mem_cons_of_mem _ hy)) s'

/-- a tile that is in memory is written as in the model without arrays on disk -/
theorem saveTileData_eq (b : Backend) (part : Tile.Part) {t : LTile} {u : Tile} (hd : part ≠ .grid → t.data = u.data.map Lz.mem)
    (hc : part ≠ .points → t.cells = memCells u.cells)
    (he : part ≠ .points → ∀ r ∈ u.cells.keys, t.edgesX.get? r = (u.edgesX.get? r).map Lz.mem ∧ t.edgesY.get? r = (u.edgesY.get? r).map Lz.mem)
    (hi : t.cellIdx = memAll u.cellIdx) (d : Tile.TileDisk) : saveTileData b t part d = Tile.saveTileData b u part d := by
  have h1 : (if part = .grid then Res.ok d else saveData b t d) = Res.ok (if part = .grid then d else Tile.saveData b u d) := by
    by_cases h : part = .grid
    · rw [if_pos h, if_pos h]
    · rw [if_neg h, if_neg h, saveData_eq b (hd h)]
  have h2 : ∀ d, (if part = .points then Res.ok d else Res.forEach t.cells.keys (Tile.removeCells d) (saveRes b t)) =
      (if part = .points then Res.ok d else Res.forEach u.cells.keys (Tile.removeCells d) (Tile.saveRes b u)) := by
    intro d
    by_cases h : part = .points
    · rw [if_pos h, if_pos h]
    · rw [if_neg h, if_neg h, show t.cells.keys = u.cells.keys by rw [hc h, keys_memCells]]
      exact forEach_congr' (fun s r hr => saveRes_eq b (hc h) (he h r hr) s) _
  have h3 : saveIndices b t = fun d => Res.ok (Tile.saveIndices b u d) := funext (fun d => saveIndices_eq b hi d)
  unfold saveTileData Tile.saveTileData
  simp only
  rw [h1, Res.andThen_ok, h2, h3]

/-- what writing a part of a tile leaves alone -/
theorem saveTile_frame (b : Backend) (part : Tile.Part) {u : Tile} (hr : part ≠ .points → u.EdgesKnown) (hn : u.cellIdx.keys.Nodup) (d : Tile.TileDisk) :
    ∃ f, (Tile.saveTile b (some u) part d).err = none ∧ (Tile.saveTile b (some u) part d).st.now = some f ∧ f.info = .full u.toMeta ∧
      (part = .points → f.layers = (d.now.getD {}).layers ∧ f.edgesX = (d.now.getD {}).edgesX ∧ f.edgesY = (d.now.getD {}).edgesY) ∧
      (part = .grid → f.data = (d.now.getD {}).data) := by
  have hm := Tile.saveMeta_now u d
  have hall : ∀ r ∈ u.cells.keys, part ≠ .points → u.HasRes r := by
    intro r hr' hp
    obtain ⟨ls, hl⟩ := (Dict.mem_keys_iff _ _).1 hr'
    obtain ⟨ex, hx⟩ := Option.isSome_iff_exists.1 (hr hp r hr').1
    obtain ⟨ey, hy⟩ := Option.isSome_iff_exists.1 (hr hp r hr').2
    exact ⟨ls, ex, ey, hl, hx, hy⟩
  unfold Tile.saveTile Tile.saveTileData
  simp only
  cases part with
  | all =>
    simp only [reduceCtorEq, if_false]
    obtain ⟨f, e1, e2, e3, e4, e5, _⟩ := Tile.saveAllRes_now b u u.cells.keys (fun r h => hall r h (by decide)) (Tile.removeCells_now (Tile.saveData_now b u hm))
    obtain ⟨I, i1, _⟩ := Tile.saveIndices_now b u hn e2
    rw [Res.andThen_of_err_none e1]
    exact ⟨_, rfl, i1, e3, (fun h => by cases h), (fun h => by cases h)⟩
  | points =>
    simp only [reduceCtorEq, if_false, if_true, Res.andThen_ok]
    obtain ⟨I, i1, _⟩ := Tile.saveIndices_now b u hn (Tile.saveData_now b u hm)
    exact ⟨_, rfl, i1, rfl, (fun _ => ⟨rfl, rfl, rfl⟩), (fun h => by cases h)⟩
  | grid =>
    simp only [reduceCtorEq, if_false, if_true]
    obtain ⟨f, e1, e2, e3, e4, e5, _⟩ := Tile.saveAllRes_now b u u.cells.keys (fun r h => hall r h (by decide)) (Tile.removeCells_now hm)
    obtain ⟨I, i1, _⟩ := Tile.saveIndices_now b u hn e2
    rw [Res.andThen_of_err_none e1]
    exact ⟨_, rfl, i1, e3, (fun h => by cases h), (fun _ => e4)⟩

/-! ### loading -/

/-- both raise the same exception, or both return -/
def Both {α β : Type} (R : α → β → Prop) : Except Err α → Except Err β → Prop
  | .ok a, .ok b => R a b
  | .error e, .error e' => e = e'
  | _, _ => False

theorem Both.bind {α β γ δ : Type} {R : α → β → Prop} {S : γ → δ → Prop} {a : Except Err α} {c : Except Err β} (h : Both R a c) {k : α → Except Err γ} {l : β → Except Err δ}
    (hk : ∀ x y, R x y → Both S (k x) (l y)) : Both S (a >>= k) (c >>= l) := by
  cases a with
  | error e =>
    cases c with
    | error e' => exact h
    | ok y => exact False.elim h
  | ok x =>
    cases c with
    | error e' => exact False.elim h
    | ok y => exact hk x y h

theorem Both.map {α β γ δ : Type} {R : α → β → Prop} {S : γ → δ → Prop} {a : Except Err α} {c : Except Err β} (h : Both R a c) {k : α → γ} {l : β → δ}
    (hk : ∀ x y, R x y → S (k x) (l y)) : Both S (a.map k) (c.map l) := by
  cases a with
  | error e =>
    cases c with
    | error e' => exact h
    | ok y => exact False.elim h
  | ok x =>
    cases c with
    | error e' => exact False.elim h
    | ok y => exact hk x y h

theorem both_foldlM {σ τ α : Type} {R : σ → τ → Prop} {f : σ → α → Except Err σ} {g : τ → α → Except Err τ} (h : ∀ s t a, R s t → Both R (f s a) (g t a))
    (xs : List α) {s : σ} {t : τ} (hr : R s t) : Both R (xs.foldlM f s) (xs.foldlM g t) := by
  induction xs generalizing s t with
  | nil => exact hr
  | cons x xs ih =>
    rw [List.foldlM_cons, List.foldlM_cons]
    exact (h s t x hr).bind (fun s t h => ih h)

/-- the tile is the one of the model, and every part of it is in memory or comes from its own files -/
structure Linked (f : TileFolder) (t : LTile) (u : Tile) : Prop where
  sees : t.Sees f u
  data : t.DataOwn
  grid : t.GridOwn
  keys : t.Keys
  edges : u.EdgesKnown

theorem rel_set {κ ν μ : Type} [DecidableEq κ] {R : ν → μ → Prop} {d : Dict κ ν} {e : Dict κ μ} (h : List.Forall₂ (fun p q => p.1 = q.1 ∧ R p.2 q.2) d e) (k : κ) {v : ν} {w : μ} (hv : R v w) :
    List.Forall₂ (fun p q => p.1 = q.1 ∧ R p.2 q.2) (d.set k v) (e.set k w) := by
  induction h with
  | nil => exact .cons ⟨rfl, hv⟩ .nil
  | @cons p q d e hp hr ih =>
    rw [Dict.set_cons, Dict.set_cons, hp.1]
    split
    · exact .cons ⟨rfl, hv⟩ hr
    · exact .cons hp ih

theorem mem_set {κ ν : Type} [DecidableEq κ] {d : Dict κ ν} {k : κ} {v : ν} {p : κ × ν} (h : p ∈ d.set k v) : p ∈ d ∨ p.2 = v := by
  induction d with
  | nil =>
    rw [Dict.set_nil, List.mem_singleton] at h
    exact .inr (by rw [h])
  | cons q d ih =>
    rw [Dict.set_cons] at h
    split at h
    · rcases List.mem_cons.1 h with e | e
      · exact .inr (by rw [e])
      · exact .inl (List.mem_cons_of_mem _ e)
    · rcases List.mem_cons.1 h with e | e
      · exact .inl (e ▸ List.mem_cons_self)
      · exact (ih e).imp (List.mem_cons_of_mem _) id

theorem readArr_ok {α : Type} [IsArr α] {o : Option (Stored α)} {s : Stored α} (h : o = some s) : readArr o = .ok s.value := by rw [h]; rfl

theorem loadLayers_agree (f : TileFolder) (r : ℚ) : Agree f (loadLayers f r) (Tile.loadLayers f r) := by
  unfold loadLayers Tile.loadLayers Agree
  generalize Tile.savedLayers = L
  induction L with
  | nil => exact .nil
  | cons l L ih =>
    rw [List.filterMap_cons, List.filterMap_cons]
    cases h : f.layers.get? (r, l) with
    | none => exact ih
    | some s =>
      simp only [Option.map_some]
      exact .cons ⟨rfl, readArr_ok h⟩ ih

theorem loadLayers_keys (f : TileFolder) (r : ℚ) : (loadLayers f r).keys.Nodup := by
  have e : (loadLayers f r).keys = Tile.savedLayers.filter (fun l => (f.layers.get? (r, l)).isSome) := by
    unfold loadLayers Dict.keys
    generalize Tile.savedLayers = L
    induction L with
    | nil => rfl
    | cons l L ih =>
      rw [List.filterMap_cons, List.filter_cons]
      cases h : f.layers.get? (r, l) with
      | none => simpa using ih
      | some s => simpa using ih
  rw [e]
  exact List.Nodup.filter _ (by decide)

theorem loadRes_linked {f : TileFolder} {t : LTile} {u : Tile} (h : Linked f t u) (r : ℚ) : Both (Linked f) (loadRes f t r) (Tile.loadRes f u r) := by
  unfold loadRes Tile.loadRes
  cases hx : readArr (f.edgesX.get? r) with
  | error e => exact rfl
  | ok ex =>
    cases hy : readArr (f.edgesY.get? r) with
    | error e => exact rfl
    | ok ey =>
      refine ⟨⟨h.sees.info, h.sees.data, ⟨rel_set h.sees.grid.cells r (loadLayers_agree f r), ?_, ?_⟩, h.sees.idx⟩, h.data, ⟨?_, ?_, ?_⟩, ⟨?_, ?_, h.keys.idx⟩, ?_⟩
      · intro r' hr'
        simp only at hr' ⊢
        rw [Dict.get?_set, Dict.get?_set]
        split
        · exact .some hx
        · rename_i hne
          exact h.sees.grid.edgesX r' (((Dict.mem_keys_set _ _ _ _).1 hr').resolve_left hne)
      · intro r' hr'
        simp only at hr' ⊢
        rw [Dict.get?_set, Dict.get?_set]
        split
        · exact .some hy
        · rename_i hne
          exact h.sees.grid.edgesY r' (((Dict.mem_keys_set _ _ _ _).1 hr').resolve_left hne)
      · intro p hp q hq f1 f2 e1 e2 e3
        rcases mem_set hp with k | k
        · exact h.grid.cells p k q hq f1 f2 e1 e2 e3
        · rw [k] at hq
          unfold loadLayers at hq
          obtain ⟨l, _, hl⟩ := List.mem_filterMap.1 hq
          obtain ⟨s, _, hs⟩ := Option.map_eq_some_iff.1 hl
          rw [← hs]
          simp only [e1]
      · intro r' x hx' f1 f2 e1 e2 e3
        simp only at hx'
        rw [Dict.get?_set] at hx'
        split at hx'
        · rw [← Option.some.inj hx']
          simp only [e2]
        · exact h.grid.edgesX r' x hx' f1 f2 e1 e2 e3
      · intro r' x hx' f1 f2 e1 e2 e3
        simp only at hx'
        rw [Dict.get?_set] at hx'
        split at hx'
        · rw [← Option.some.inj hx']
          simp only [e3]
        · exact h.grid.edgesY r' x hx' f1 f2 e1 e2 e3
      · exact Dict.keys_set_nodup _ _ _ h.keys.cells
      · intro p hp
        rcases mem_set hp with k | k
        · exact h.keys.layers p k
        · rw [k]
          exact loadLayers_keys f r
      · intro r' hr'
        simp only at hr' ⊢
        rw [Dict.get?_set, Dict.get?_set]
        by_cases e : r' = r
        · rw [if_pos e, if_pos e]
          exact ⟨rfl, rfl⟩
        · rw [if_neg e, if_neg e]
          exact h.edges r' (((Dict.mem_keys_set _ _ _ _).1 hr').resolve_left e)

theorem loadIndex_linked {f : TileFolder} {t : LTile} {u : Tile} (h : Linked f t u) (r : ℚ) : Both (Linked f) (loadIndex f t r) (Tile.loadIndex f u r) := by
  unfold loadIndex Tile.loadIndex
  cases hx : readArr (f.indices.get? r) with
  | error e => exact rfl
  | ok l =>
    exact ⟨⟨h.sees.info, h.sees.data, ⟨h.sees.grid.cells, h.sees.grid.edgesX, h.sees.grid.edgesY⟩, rel_set (R := fun (x : Lz (List Int)) a => x f = .ok a) h.sees.idx r hx⟩, h.data, ⟨h.grid.cells, h.grid.edgesX, h.grid.edgesY⟩,
      ⟨h.keys.cells, h.keys.layers, Dict.keys_set_nodup _ _ _ h.keys.idx⟩, h.edges⟩

theorem loadData_linked {f : TileFolder} {t : LTile} {u : Tile} (h : Linked f t u) :
    Both (Linked f) ((readArr f.data).map (fun _ => { t with data := some (fun f => readArr f.data) })) ((readArr f.data).map (fun d => { u with data := some d })) := by
  cases hx : readArr f.data with
  | error e => exact rfl
  | ok a =>
    refine ⟨⟨h.sees.info, .some hx, ⟨h.sees.grid.cells, h.sees.grid.edgesX, h.sees.grid.edgesY⟩, h.sees.idx⟩, ?_, ⟨h.grid.cells, h.grid.edgesX, h.grid.edgesY⟩, ⟨h.keys.cells, h.keys.layers, h.keys.idx⟩, h.edges⟩
    intro x hx' f1 f2 e
    rw [← Option.some.inj hx']
    simp only [e]

theorem loadTileData_linked {f : TileFolder} (part : Tile.Part) {t : LTile} {u : Tile} (h : Linked f t u) : Both (Linked f) (loadTileData f part t) (Tile.loadTileData f part u) := by
  unfold loadTileData Tile.loadTileData
  cases part with
  | all =>
    simp only [reduceCtorEq, if_false]
    exact (loadData_linked h).bind (fun _ _ h => (both_foldlM (fun _ _ a h => loadRes_linked h a) _ h).bind (fun _ _ h => both_foldlM (fun _ _ a h => loadIndex_linked h a) _ h))
  | points =>
    simp only [reduceCtorEq, if_false, if_true]
    exact (loadData_linked h).bind (fun _ _ h => both_foldlM (fun _ _ a h => loadIndex_linked h a) _ h)
  | grid =>
    simp only [reduceCtorEq, if_false, if_true]
    exact (both_foldlM (fun _ _ a h => loadRes_linked h a) _ h).bind (fun _ _ h => both_foldlM (fun _ _ a h => loadIndex_linked h a) _ h)

/-- there is no tile, or the tile is linked to its folder -/
def LinkedOpt (f : TileFolder) : Option LTile → Option Tile → Prop
  | none, none => True
  | some t, some u => Linked f t u
  | _, _ => False

theorem linked_new (f : TileFolder) (x y size : ℚ) (bs : Bool) : Linked f (new x y size bs) (Tile.new x y size bs) :=
  ⟨⟨rfl, .none, ⟨.nil, (fun r h => by cases h), (fun r h => by cases h)⟩, .nil⟩, (fun x h => by cases h),
    ⟨(fun p h => by cases h), (fun r x h => by cases h), (fun r x h => by cases h)⟩, ⟨.nil, (fun p h => by cases h), .nil⟩, (fun r h => by cases h)⟩

theorem loadMeta_linked {f : TileFolder} {t : LTile} {u : Tile} (h : Linked f t u) : Both (Linked f) (loadMeta f t) (Tile.loadMeta f u) := by
  unfold loadMeta Tile.loadMeta
  cases f.info with
  | absent => exact rfl
  | cut => exact rfl
  | full m =>
    exact ⟨⟨rfl, h.sees.data, ⟨h.sees.grid.cells, h.sees.grid.edgesX, h.sees.grid.edgesY⟩, h.sees.idx⟩, h.data, ⟨h.grid.cells, h.grid.edgesX, h.grid.edgesY⟩,
      ⟨h.keys.cells, h.keys.layers, h.keys.idx⟩, h.edges⟩

theorem linkedOpt_getD {f : TileFolder} {t : Option LTile} {u : Option Tile} (h : LinkedOpt f t u) : Linked f (t.getD (new 0 0 0 false)) (u.getD (Tile.new 0 0 0 false)) := by
  cases t with
  | none =>
    cases u with
    | none => exact linked_new f 0 0 0 false
    | some u => exact False.elim h
  | some t =>
    cases u with
    | none => exact False.elim h
    | some u => exact h

theorem loadTile_linked (part : Tile.Part) {t : Option LTile} {u : Option Tile} {f : Option TileFolder} (h : ∀ f', f = some f' → LinkedOpt f' t u) :
    Both (LinkedOpt (f.getD {})) (loadTile t part f) (Tile.loadTile u part f) := by
  unfold loadTile Tile.loadTile
  cases f with
  | none => exact trivial
  | some f =>
    exact ((loadMeta_linked (linkedOpt_getD (h f rfl))).bind (fun t1 u1 h1 => loadTileData_linked part h1)).map (fun _ _ h => h)

/-! ### saving and loading together -/

theorem dataOwn_mem {t : LTile} {o : Option PtArr} (h : t.data = o.map Lz.mem) : t.DataOwn := by
  intro x hx f f' _
  rw [h] at hx
  obtain ⟨a, _, ha⟩ := Option.map_eq_some_iff.1 hx
  rw [← ha]
  rfl

theorem forall₂_own {α β : Type} {R S : α → β → Prop} {xs : List α} {ys : List β} (h : List.Forall₂ R xs ys) (hi : ∀ x ∈ xs, ∀ y, R x y → S x y) : List.Forall₂ S xs ys := by
  induction h with
  | nil => exact .nil
  | @cons x y xs ys hr _ ih => exact .cons (hi x List.mem_cons_self y hr) (ih (fun z hz => hi z (List.mem_cons_of_mem _ hz)))

theorem rel_own {α β : Type} {R S : α → β → Prop} {x : Option α} {y : Option β} (h : Option.Rel R x y) (hi : ∀ a, x = some a → ∀ c, R a c → S a c) : Option.Rel S x y := by
  cases h with
  | none => exact .none
  | some h => exact .some (hi _ rfl _ h)

theorem sees_data_own {t : LTile} {u : Tile} {f f' : TileFolder} (ho : t.DataOwn) (e : f.data = f'.data) (h : t.SeesData f u) : t.SeesData f' u :=
  rel_own h (fun x hx a ha => by rw [← ho x hx f f' e]; exact ha)

theorem sees_grid_own {t : LTile} {u : Tile} {f f' : TileFolder} (ho : t.GridOwn) (e1 : f.layers = f'.layers) (e2 : f.edgesX = f'.edgesX) (e3 : f.edgesY = f'.edgesY)
    (h : t.SeesGrid f u) : t.SeesGrid f' u := by
  refine ⟨forall₂_own h.cells (fun p hp q hq => ⟨hq.1, forall₂_own hq.2 (fun x hx y hy => ⟨hy.1, ?_⟩)⟩),
    (fun r hr => rel_own (h.edgesX r hr) (fun x hx a ha => ?_)), (fun r hr => rel_own (h.edgesY r hr) (fun x hx a ha => ?_))⟩
  · rw [← ho.cells p hp x hx f f' e1 e2 e3]
    exact hy.2
  · rw [← ho.edgesX r x hx f f' e1 e2 e3]
    exact ha
  · rw [← ho.edgesY r x hx f f' e1 e2 e3]
    exact ha

theorem mem_memAll {κ α : Type} {e : Dict κ α} {q : κ × Lz α} (h : q ∈ memAll e) : ∃ a, q.2 = Lz.mem a := by
  obtain ⟨p, _, hp⟩ := List.mem_map.1 h
  exact ⟨p.2, by rw [← hp]⟩

theorem mem_memCells {c : Dict ℚ (Dict Layer LayerArr)} {p : ℚ × Dict Layer (Lz LayerArr)} (h : p ∈ memCells c) : ∃ q ∈ c, p.1 = q.1 ∧ p.2 = memAll q.2 := by
  obtain ⟨q, hq, e⟩ := List.mem_map.1 h
  exact ⟨q, hq, by rw [← e], by rw [← e]⟩

theorem layers_nodup {f : TileFolder} {t : LTile} {u : Tile} (hs : t.SeesGrid f u) (hk : t.Keys) : ∀ q ∈ u.cells, q.2.keys.Nodup := by
  intro q hq
  have : ∀ {xs : Dict ℚ (Dict Layer (Lz LayerArr))} {ys : Dict ℚ (Dict Layer LayerArr)}, List.Forall₂ (fun p q => p.1 = q.1 ∧ Agree f p.2 q.2) xs ys →
      (∀ p ∈ xs, p.2.keys.Nodup) → ∀ q ∈ ys, q.2.keys.Nodup := by
    intro xs ys h
    induction h with
    | nil =>
      intro _ q hq
      cases hq
    | cons hp _ ih =>
      intro hn q hq
      rcases List.mem_cons.1 hq with e | e
      · rw [e, ← hp.2.keys]
        exact hn _ List.mem_cons_self
      · exact ih (fun p hp => hn p (List.mem_cons_of_mem _ hp)) q e
  exact this hs.cells hk.layers q hq

/-- the same, where the soundings may also depend on other files, unless `p` -/
structure Linked' (p : Prop) (f : TileFolder) (t : LTile) (u : Tile) : Prop where
  sees : t.Sees f u
  data : p → t.DataOwn
  grid : t.GridOwn
  keys : t.Keys
  edges : u.EdgesKnown

theorem Linked.weaken {p : Prop} {f : TileFolder} {t : LTile} {u : Tile} (h : Linked f t u) : Linked' p f t u := ⟨h.sees, fun _ => h.data, h.grid, h.keys, h.edges⟩

/-- Saving: the tile is written as in the model, and what it refers to afterwards is what is in the folder then. -/
theorem saveTile_linked (b : Backend) (part : Tile.Part) {t : LTile} {u : Tile} {src : TileFolder} {d : Tile.TileDisk} (h : Linked' (part = .grid) src t u)
    (hsrc : part ≠ .all → src = d.now.getD {}) :
    ∃ t' f, LTile.saveTile b (some t) part src d = .ok (some t', (Tile.saveTile b (some u) part d).st) ∧ (Tile.saveTile b (some u) part d).err = none ∧
      (Tile.saveTile b (some u) part d).st.now = some f ∧ Linked f t' u := by
  obtain ⟨t', e0, ei, ed, ec, eep, ee, een, ex⟩ := toMemory_spec part h.sees h.keys (fun _ => h.edges)
  have hidx : u.cellIdx.keys.Nodup := by
    rw [← h.sees.idx.keys]
    exact h.keys.idx
  obtain ⟨f, f1, f2, f3, f4, f5⟩ := saveTile_frame b part (fun _ => h.edges) hidx d
  have hsave : saveTileData b t' part (saveMeta t'.info d) = Tile.saveTile b (some u) part d := by
    rw [ei, h.sees.info]
    exact saveTileData_eq b part (fun hp => by rw [ed, if_neg hp]) (fun hp => by rw [ec, if_neg hp]) ee ex _
  refine ⟨t', f, ?_, f1, f2, ?_⟩
  · unfold LTile.saveTile
    simp only [e0, hsave]
    rw [f1]
    rfl
  have hd : t'.SeesData f u ∧ t'.DataOwn := by
    by_cases hp : part = .grid
    · rw [if_pos hp] at ed
      have ho : t'.DataOwn := by
        intro x hx
        exact h.data hp x (by rw [← ed]; exact hx)
      refine ⟨sees_data_own ho (f := src) ?_ ?_, ho⟩
      · rw [f5 hp, hsrc (by rw [hp]; decide)]
      · unfold SeesData
        rw [ed]
        exact h.sees.data
    · rw [if_neg hp] at ed
      refine ⟨?_, dataOwn_mem ed⟩
      unfold SeesData
      rw [ed]
      exact rel_mem f _
  have hg : t'.SeesGrid f u ∧ t'.GridOwn ∧ t'.cells.keys.Nodup ∧ ∀ p ∈ t'.cells, p.2.keys.Nodup := by
    by_cases hp : part = .points
    · rw [if_pos hp] at ec
      obtain ⟨ea, eb⟩ := eep hp
      have ho : t'.GridOwn := ⟨(by rw [ec]; exact h.grid.cells), (by rw [ea]; exact h.grid.edgesX), (by rw [eb]; exact h.grid.edgesY)⟩
      have hs := hsrc (by rw [hp]; decide)
      obtain ⟨g1, g2, g3⟩ := f4 hp
      refine ⟨sees_grid_own ho (f := src) (by rw [g1, hs]) (by rw [g2, hs]) (by rw [g3, hs]) ⟨(by rw [ec]; exact h.sees.grid.cells),
        (by rw [ea]; exact h.sees.grid.edgesX), (by rw [eb]; exact h.sees.grid.edgesY)⟩, ho, (by rw [ec]; exact h.keys.cells), (by rw [ec]; exact h.keys.layers)⟩
    · rw [if_neg hp] at ec
      refine ⟨⟨(by rw [ec]; exact memCells_sees f u.cells), (fun r hr => ?_), (fun r hr => ?_)⟩, ⟨?_, ?_, ?_⟩, ?_, ?_⟩
      · rw [(ee hp r hr).1]
        exact rel_mem f _
      · rw [(ee hp r hr).2]
        exact rel_mem f _
      · intro p hp' q hq f1 f2 _ _ _
        rw [ec] at hp'
        obtain ⟨q', _, _, e2⟩ := mem_memCells hp'
        rw [e2] at hq
        obtain ⟨a, ha⟩ := mem_memAll hq
        rw [ha]
        rfl
      · intro r x hx f1 f2 g1 g2 g3
        by_cases hr : r ∈ u.cells.keys
        · rw [(ee hp r hr).1] at hx
          obtain ⟨a, _, ha⟩ := Option.map_eq_some_iff.1 hx
          rw [← ha]
          rfl
        · rw [(een r hr).1] at hx
          exact h.grid.edgesX r x hx f1 f2 g1 g2 g3
      · intro r x hx f1 f2 g1 g2 g3
        by_cases hr : r ∈ u.cells.keys
        · rw [(ee hp r hr).2] at hx
          obtain ⟨a, _, ha⟩ := Option.map_eq_some_iff.1 hx
          rw [← ha]
          rfl
        · rw [(een r hr).2] at hx
          exact h.grid.edgesY r x hx f1 f2 g1 g2 g3
      · rw [ec, keys_memCells, ← forall₂_keys h.sees.grid.cells]
        exact h.keys.cells
      · intro p hp'
        rw [ec] at hp'
        obtain ⟨q, hq, _, e2⟩ := mem_memCells hp'
        rw [e2, keys_memAll]
        exact layers_nodup h.sees.grid h.keys q hq
  refine ⟨⟨by rw [ei]; exact h.sees.info, hd.1, hg.1, by rw [ex]; exact agree_memAll f _⟩, hd.2, hg.2.1, ⟨hg.2.2.1, hg.2.2.2, by rw [ex, keys_memAll]; exact hidx⟩, h.edges⟩

/-- `_save_tile` and `_load_tile` -/
theorem flush_linked (b : Backend) (part : Tile.Part) {t : LTile} {u : Tile} {d : Tile.TileDisk} (h : Linked' (part = .grid) (d.now.getD {}) t u) :
    (LTile.flush b part (some t) d).err = (Tile.flush b part (some u) d).err ∧ (LTile.flush b part (some t) d).st.2 = (Tile.flush b part (some u) d).st.2 ∧
      LinkedOpt ((LTile.flush b part (some t) d).st.2.now.getD {}) (LTile.flush b part (some t) d).st.1 (Tile.flush b part (some u) d).st.1 := by
  obtain ⟨t', f, e1, e2, e3, e4⟩ := saveTile_linked b part (t := t) (u := u) (src := d.now.getD {}) (d := d) h (fun _ => rfl)
  have hl := loadTile_linked part (t := some t') (u := some u) (f := some f) (fun f' e => Option.some.inj e ▸ e4)
  unfold LTile.flush Tile.flush
  simp only [e1, Res.ok, e2, e3]
  generalize loadTile (some t') part (some f) = a at hl ⊢
  generalize Tile.loadTile (some u) part (some f) = c at hl ⊢
  cases a with
  | error x =>
    cases c with
    | error y => exact ⟨congrArg some hl, rfl, by simp only [Res.fail, e3]; exact e4⟩
    | ok y => exact False.elim hl
  | ok x =>
    cases c with
    | error y => exact False.elim hl
    | ok y => exact ⟨rfl, rfl, by simp only [e3]; exact hl⟩

theorem flush_none (b : Backend) (part : Tile.Part) (d : Tile.TileDisk) :
    (LTile.flush b part none d).st.2 = (Tile.flush b part none d).st.2 ∧ (LTile.flush b part none d).st.1 = none ∧ (Tile.flush b part none d).st.1 = none := ⟨rfl, rfl, rfl⟩

theorem Keeps.own {t' t : LTile} (h : t'.Keeps t) (ho : t.GridOwn) : t'.GridOwn := by
  refine ⟨?_, ?_, ?_⟩
  · intro p hp q hq f f' e1 e2 e3
    rcases h.cells p hp q hq with ⟨a, ha⟩ | ⟨p0, h0, hq0⟩
    · rw [ha]
      rfl
    · exact ho.cells p0 h0 q hq0 f f' e1 e2 e3
  · intro r x hx f f' e1 e2 e3
    rcases h.edgesX r x hx with ⟨a, ha⟩ | h0
    · rw [ha]
      rfl
    · exact ho.edgesX r x h0 f f' e1 e2 e3
  · intro r x hx f f' e1 e2 e3
    rcases h.edgesY r x hx with ⟨a, ha⟩ | h0
    · rw [ha]
      rfl
    · exact ho.edgesY r x h0 f f' e1 e2 e3

/-- after `_load_tile_data_to_memory` of everything the arrays are in memory -/
theorem toMemory_all {t t' : LTile} {f : TileFolder} {u : Tile} (h : Linked f t u) (e : t.toMemory .all f = .ok t') : t'.DataOwn ∧ t'.GridOwn := by
  obtain ⟨t1, e0, _, ed, ec, _, ee, een, _⟩ := toMemory_spec .all h.sees h.keys (fun _ => h.edges)
  have := e0.symm.trans e
  cases this
  rw [if_neg (by decide)] at ed ec
  refine ⟨dataOwn_mem ed, ?_, ?_, ?_⟩
  · intro p hp q hq f1 f2 _ _ _
    rw [ec] at hp
    obtain ⟨q', _, _, e2⟩ := mem_memCells hp
    rw [e2] at hq
    obtain ⟨a, ha⟩ := mem_memAll hq
    rw [ha]
    rfl
  · intro r x hx f1 f2 g1 g2 g3
    by_cases hr : r ∈ u.cells.keys
    · rw [(ee (by decide) r hr).1] at hx
      obtain ⟨a, _, ha⟩ := Option.map_eq_some_iff.1 hx
      rw [← ha]
      rfl
    · rw [(een r hr).1] at hx
      exact h.grid.edgesX r x hx f1 f2 g1 g2 g3
  · intro r x hx f1 f2 g1 g2 g3
    by_cases hr : r ∈ u.cells.keys
    · rw [(ee (by decide) r hr).2] at hx
      obtain ⟨a, _, ha⟩ := Option.map_eq_some_iff.1 hx
      rw [← ha]
      rfl
    · rw [(een r hr).2] at hx
      exact h.grid.edgesY r x hx f1 f2 g1 g2 g3

theorem DataOwn.of_eq {t t' : LTile} (h : t'.data = t.data) (ho : t.DataOwn) : t'.DataOwn := fun x hx => ho x (h ▸ hx)

end LTile
end Bathy
