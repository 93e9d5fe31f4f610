import Verif.Model.Storage
import Verif.Lemmas.TileCells

/-!
# saving one tile to its folder and loading it
-/

namespace Bathy

namespace Dict
variable {κ ν : Type} [DecidableEq κ]

theorem get?_set (d : Dict κ ν) (k k' : κ) (v : ν) : (d.set k v).get? k' = if k' = k then some v else d.get? k' := by
  by_cases h : k' = k
  · subst h; rw [get?_set_self, if_pos rfl]
  · rw [get?_set_ne _ _ h, if_neg h]

theorem get?_pop (d : Dict κ ν) (k k' : κ) : (d.pop k).get? k' = if k' = k then none else d.get? k' := by
  by_cases h : k' = k
  · subst h; rw [if_pos rfl, get?_eq_none, mem_keys_pop]; simp
  · rw [get?_pop_ne _ h, if_neg h]

theorem get?_pop_set (d : Dict κ ν) (k k' : κ) (v : ν) : ((d.pop k).set k v).get? k' = if k' = k then some v else d.get? k' := by
  rw [get?_set]
  by_cases h : k' = k
  · rw [if_pos h, if_pos h]
  · rw [if_neg h, if_neg h, get?_pop_ne _ h]

theorem mem_keys_iff (d : Dict κ ν) (k : κ) : k ∈ d.keys ↔ ∃ v, d.get? k = some v := by
  rw [← has_iff, ← get?_isSome, Option.isSome_iff_exists]

theorem set_self {d : Dict κ ν} {k : κ} {v : ν} (h : d.get? k = some v) : d.set k v = d := by
  induction d with
  | nil => cases h
  | cons p d ih =>
    rw [set_cons]
    rw [get?_cons] at h
    by_cases hk : p.1 = k
    · rw [if_pos hk] at h ⊢
      rw [← hk, ← Option.some.inj h]
    · rw [if_neg hk] at h ⊢
      rw [ih h]

/-- `for k in ks: d[k] = g(k)` -/
def setAll (d : Dict κ ν) (ks : List κ) (g : κ → ν) : Dict κ ν := ks.foldl (fun d k => d.set k (g k)) d

theorem get?_setAll (ks : List κ) (d : Dict κ ν) (g : κ → ν) (k : κ) :
    (d.setAll ks g).get? k = if k ∈ ks then some (g k) else d.get? k := by
  unfold setAll
  induction ks generalizing d with
  | nil => simp
  | cons a ks ih =>
    rw [List.foldl_cons, ih, get?_set]
    by_cases h1 : k ∈ ks
    · simp [h1]
    · by_cases h2 : k = a
      · subst h2; simp [h1]
      · simp [h1, h2]

theorem setAll_self (ks : List κ) {d : Dict κ ν} {g : κ → ν} (h : ∀ k ∈ ks, d.get? k = some (g k)) : d.setAll ks g = d := by
  unfold setAll
  induction ks with
  | nil => rfl
  | cons a ks ih =>
    rw [List.foldl_cons, set_self (h a List.mem_cons_self)]
    exact ih (fun k hk => h k (List.mem_cons_of_mem _ hk))

theorem keys_setAll_nodup (ks : List κ) {d : Dict κ ν} (g : κ → ν) (h : d.keys.Nodup) : (d.setAll ks g).keys.Nodup := by
  unfold setAll
  induction ks generalizing d with
  | nil => exact h
  | cons a ks ih => rw [List.foldl_cons]; exact ih (keys_set_nodup _ _ _ h)

omit [DecidableEq κ] in
theorem mapVals_congr {μ : Type} {d : Dict κ ν} {f g : κ → ν → μ} (h : ∀ p ∈ d, f p.1 p.2 = g p.1 p.2) : d.mapVals f = d.mapVals g := by
  unfold mapVals
  exact List.map_congr_left (fun p hp => by rw [h p hp])

/-- setting every key of a dict -/
theorem setAll_mapVals (ks : List κ) {d : Dict κ ν} (g : κ → ν) (hd : d.keys.Nodup) (hk : ∀ k ∈ ks, k ∈ d.keys) :
    d.setAll ks g = d.mapVals (fun k v => if k ∈ ks then g k else v) := by
  unfold setAll
  induction ks generalizing d with
  | nil =>
    simp only [List.foldl_nil, List.not_mem_nil, if_false]
    unfold mapVals; simp
  | cons a ks ih =>
    rw [List.foldl_cons]
    have hset : d.set a (g a) = d.mapVals (fun k v => if k = a then g k else v) := by
      have ha := hk a List.mem_cons_self
      clear hk ih
      induction d with
      | nil => simp [keys] at ha
      | cons p d ih =>
        simp only [keys, List.map_cons, List.nodup_cons] at hd
        rw [set_cons]
        by_cases h : p.1 = a
        · rw [if_pos h]
          unfold mapVals
          rw [List.map_cons]
          simp only [h, if_true]
          congr 1
          conv_lhs => rw [← List.map_id d]
          refine List.map_congr_left (fun q hq => ?_)
          have : q.1 ≠ a := fun e => hd.1 (by rw [h, ← e]; exact List.mem_map_of_mem hq)
          simp [this]
        · rw [if_neg h]
          have ha' : a ∈ keys d := by
            simp only [keys, List.map_cons, List.mem_cons] at ha
            rcases ha with e | e
            · exact absurd e.symm h
            · exact e
          rw [ih hd.2 ha']
          unfold mapVals
          rw [List.map_cons]
          simp only [h, if_false]
    have hkeys : (d.set a (g a)).keys = d.keys := by rw [hset, keys_mapVals]
    rw [ih (by rw [hkeys]; exact hd) (fun k hk' => by rw [hkeys]; exact hk k (List.mem_cons_of_mem _ hk')), hset]
    unfold mapVals
    rw [List.map_map]
    refine List.map_congr_left (fun p _ => ?_)
    simp only [Function.comp, List.mem_cons]
    by_cases h1 : p.1 ∈ ks
    · simp [h1]
    · by_cases h2 : p.1 = a <;> simp [h1, h2]

theorem foldl_pop (ks : List κ) (d : Dict κ ν) (h : ∀ k ∈ d.keys, k ∈ ks) : ks.foldl pop d = [] := by
  have : ∀ (ks : List κ) (d : Dict κ ν) (k : κ), k ∈ (ks.foldl pop d).keys → k ∈ d.keys ∧ k ∉ ks := by
    intro ks
    induction ks with
    | nil => intro d k hk; exact ⟨hk, List.not_mem_nil⟩
    | cons a ks ih =>
      intro d k hk
      rw [List.foldl_cons] at hk
      obtain ⟨h1, h2⟩ := ih _ _ hk
      rw [mem_keys_pop] at h1
      exact ⟨h1.2, by rw [List.mem_cons]; rintro (e | e); exacts [h1.1 e, h2 e]⟩
  have h2 : ∀ k, k ∉ (ks.foldl pop d).keys := fun k hk => (this ks d k hk).2 (h k (this ks d k hk).1)
  generalize ks.foldl pop d = r at h2
  cases r with
  | nil => rfl
  | cons p r => exact absurd (by simp [keys]) (h2 p.1)

end Dict

/-- the array survives being written: an array without elements is written as `np.array([])` -/
def ProperArr {α : Type} [IsArr α] (a : α) : Prop := IsArr.size a = 0 → a = IsArr.blank

theorem store_value {α : Type} [IsArr α] (b : Backend) {a : α} (h : ProperArr a) : (b.store (some a)).value = a := by
  cases b with
  | numpy => rfl
  | zarr =>
    simp only [Backend.store]
    split
    · rename_i e; exact (h e).symm
    · rfl

theorem properArr_list {β : Type} (l : List β) : ProperArr l := fun h => List.eq_nil_of_length_eq_zero h

namespace Tile

@[simp] theorem inFolder_now (d : TileDisk) (f : TileFolder → TileFolder) : (inFolder d f).now = d.now.map f := rfl
@[simp] theorem mkFolder_now (d : TileDisk) : (mkFolder d).now = some (d.now.getD {}) := rfl

theorem saveMeta_now (t : Tile) (d : TileDisk) : (saveMeta t d).now = some { (d.now.getD {}) with info := .full t.toMeta } := by
  simp [saveMeta]

theorem saveData_now (b : Backend) (t : Tile) {d : TileDisk} {f : TileFolder} (h : d.now = some f) :
    (saveData b t d).now = some { f with data := some (b.store t.data) } := by
  simp [saveData, h]

theorem foldl_inFolder {α : Type} (g : α → TileFolder → TileFolder) (ks : List α) {d : TileDisk} {f : TileFolder} (h : d.now = some f) :
    (ks.foldl (fun d k => inFolder d (g k)) d).now = some (ks.foldl (fun f k => g k f) f) := by
  induction ks generalizing d f with
  | nil => exact h
  | cons k ks ih => rw [List.foldl_cons, List.foldl_cons]; exact ih (by simp [h])

theorem removeCells_now {d : TileDisk} {f : TileFolder} (h : d.now = some f) :
    (removeCells d).now = some { f with layers := [], edgesX := [], edgesY := [], indices := [] } := by
  have e1 : ∀ (ks : List (ℚ × Layer)) (f : TileFolder), ks.foldl (fun f k => { f with layers := f.layers.pop k }) f = { f with layers := ks.foldl Dict.pop f.layers } := by
    intro ks; induction ks with
    | nil => intro f; rfl
    | cons k ks ih => intro f; rw [List.foldl_cons, ih]; rfl
  have e2 : ∀ (ks : List ℚ) (f : TileFolder), ks.foldl (fun f k => { f with edgesX := f.edgesX.pop k }) f = { f with edgesX := ks.foldl Dict.pop f.edgesX } := by
    intro ks; induction ks with
    | nil => intro f; rfl
    | cons k ks ih => intro f; rw [List.foldl_cons, ih]; rfl
  have e3 : ∀ (ks : List ℚ) (f : TileFolder), ks.foldl (fun f k => { f with edgesY := f.edgesY.pop k }) f = { f with edgesY := ks.foldl Dict.pop f.edgesY } := by
    intro ks; induction ks with
    | nil => intro f; rfl
    | cons k ks ih => intro f; rw [List.foldl_cons, ih]; rfl
  have e4 : ∀ (ks : List ℚ) (f : TileFolder), ks.foldl (fun f k => { f with indices := f.indices.pop k }) f = { f with indices := ks.foldl Dict.pop f.indices } := by
    intro ks; induction ks with
    | nil => intro f; rfl
    | cons k ks ih => intro f; rw [List.foldl_cons, ih]; rfl
  unfold removeCells
  rw [h]
  simp only
  have h1 := foldl_inFolder (fun k (f : TileFolder) => { f with layers := f.layers.pop k }) f.layers.keys h
  rw [e1, Dict.foldl_pop _ _ (fun k hk => hk)] at h1
  have h2 := foldl_inFolder (fun k (f : TileFolder) => { f with edgesX := f.edgesX.pop k }) f.edgesX.keys h1
  rw [e2, Dict.foldl_pop _ _ (fun k hk => hk)] at h2
  have h3 := foldl_inFolder (fun k (f : TileFolder) => { f with edgesY := f.edgesY.pop k }) f.edgesY.keys h2
  rw [e3, Dict.foldl_pop _ _ (fun k hk => hk)] at h3
  have h4 := foldl_inFolder (fun k (f : TileFolder) => { f with indices := f.indices.pop k }) f.indices.keys h3
  rw [e4, Dict.foldl_pop _ _ (fun k hk => hk)] at h4
  exact h4

theorem saveLayers_now (b : Backend) (r : ℚ) (ls : Dict Layer LayerArr) {d : TileDisk} {f : TileFolder} (h : d.now = some f) :
    ∃ L, (saveLayers b r ls d).now = some { f with layers := L } ∧
      ∀ r' l, L.get? (r', l) = if r' = r ∧ l ∈ writtenLayers ∧ l ∈ ls.keys then (ls.get? l).map (fun a => b.store (some a)) else f.layers.get? (r', l) := by
  unfold saveLayers
  generalize writtenLayers = W
  induction W generalizing d f with
  | nil => exact ⟨f.layers, h, by simp⟩
  | cons k W ih =>
    rw [List.foldl_cons]
    cases hk : ls.get? k with
    | none =>
      obtain ⟨L, h1, h2⟩ := ih h
      refine ⟨L, h1, fun r' l => ?_⟩
      rw [h2]
      have : k ∉ ls.keys := (Dict.get?_eq_none _ _).1 hk
      by_cases hl : l = k
      · subst hl; simp [this]
      · simp [hl]
    | some a =>
      simp only
      obtain ⟨L, h1, h2⟩ := ih (d := inFolder (inFolder d (fun f => { f with layers := f.layers.pop (r, k) }))
        (fun f => { f with layers := f.layers.set (r, k) (b.store (some a)) }))
        (f := { f with layers := (f.layers.pop (r, k)).set (r, k) (b.store (some a)) }) (by simp [h])
      refine ⟨L, h1, fun r' l => ?_⟩
      rw [h2, Dict.get?_pop_set]
      have hkk : k ∈ ls.keys := (Dict.mem_keys_iff _ _).2 ⟨a, hk⟩
      by_cases hl : l = k
      · subst hl
        by_cases hr : r' = r
        · simp [hr, hkk, hk]
        · simp [hr]
      · simp [hl]

/-- the resolution can be written: its layers and cell edges are there -/
def HasRes (t : Tile) (r : ℚ) : Prop := ∃ ls ex ey, t.cells.get? r = some ls ∧ t.edgesX.get? r = some ex ∧ t.edgesY.get? r = some ey

theorem saveRes_now (b : Backend) (t : Tile) {d : TileDisk} {f : TileFolder} (h : d.now = some f) {r : ℚ} (hr : t.HasRes r) :
    ∃ f', (saveRes b t d r).err = none ∧ (saveRes b t d r).st.now = some f' ∧ f'.info = f.info ∧ f'.data = f.data ∧ f'.indices = f.indices ∧
      (∀ r' l, f'.layers.get? (r', l) = if r' = r ∧ l ∈ writtenLayers ∧ ((t.cells.get? r).bind (·.get? l)).isSome then
        ((t.cells.get? r).bind (·.get? l)).map (fun a => b.store (some a)) else f.layers.get? (r', l)) ∧
      (∀ r', f'.edgesX.get? r' = if r' = r then (t.edgesX.get? r).map (fun a => b.store (some a)) else f.edgesX.get? r') ∧
      (∀ r', f'.edgesY.get? r' = if r' = r then (t.edgesY.get? r).map (fun a => b.store (some a)) else f.edgesY.get? r') := by
  obtain ⟨ls, ex, ey, h1, h2, h3⟩ := hr
  obtain ⟨L, h4, h5⟩ := saveLayers_now b r ls h
  unfold saveRes
  rw [h1]
  simp only [h2, h3]
  refine ⟨{ f with layers := L, edgesX := (f.edgesX.pop r).set r (b.store (some ex)), edgesY := (f.edgesY.pop r).set r (b.store (some ey)) }, rfl, ?_, rfl, rfl, rfl, ?_, ?_, ?_⟩
  · simp [h4]
  · intro r' l
    rw [h5]
    simp only [Option.bind_some]
    refine if_congr ?_ rfl rfl
    rw [Dict.get?_isSome, Dict.has_iff]
  · intro r'; rw [Dict.get?_pop_set]; rfl
  · intro r'; rw [Dict.get?_pop_set]; rfl

theorem saveAllRes_now (b : Backend) (t : Tile) (rs : List ℚ) (hr : ∀ r ∈ rs, t.HasRes r) {d : TileDisk} {f : TileFolder} (h : d.now = some f) :
    ∃ f', (Res.forEach rs d (saveRes b t)).err = none ∧ (Res.forEach rs d (saveRes b t)).st.now = some f' ∧
      f'.info = f.info ∧ f'.data = f.data ∧ f'.indices = f.indices ∧
      (∀ r' l, f'.layers.get? (r', l) = if r' ∈ rs ∧ l ∈ writtenLayers ∧ ((t.cells.get? r').bind (·.get? l)).isSome then
        ((t.cells.get? r').bind (·.get? l)).map (fun a => b.store (some a)) else f.layers.get? (r', l)) ∧
      (∀ r', f'.edgesX.get? r' = if r' ∈ rs then (t.edgesX.get? r').map (fun a => b.store (some a)) else f.edgesX.get? r') ∧
      (∀ r', f'.edgesY.get? r' = if r' ∈ rs then (t.edgesY.get? r').map (fun a => b.store (some a)) else f.edgesY.get? r') := by
  induction rs generalizing d f with
  | nil => exact ⟨f, rfl, h, rfl, rfl, rfl, by simp, by simp, by simp⟩
  | cons r rs ih =>
    obtain ⟨f1, e1, n1, i1, d1, x1, l1, ex1, ey1⟩ := saveRes_now b t h (hr r List.mem_cons_self)
    obtain ⟨f2, e2, n2, i2, d2, x2, l2, ex2, ey2⟩ := ih (fun r' h' => hr r' (List.mem_cons_of_mem _ h')) n1
    rw [Res.forEach_cons, Res.andThen_of_err_none e1]
    refine ⟨f2, e2, n2, i2.trans i1, d2.trans d1, x2.trans x1, fun r' l => ?_, fun r' => ?_, fun r' => ?_⟩
    · rw [l2, l1]
      by_cases h1 : r' ∈ rs
      · by_cases h2 : l ∈ writtenLayers ∧ ((t.cells.get? r').bind (·.get? l)).isSome = true
        · rw [if_pos ⟨h1, h2⟩, if_pos ⟨List.mem_cons_of_mem _ h1, h2⟩]
        · rw [if_neg (fun e => h2 e.2), if_neg (fun e => h2 (by obtain ⟨rfl, e⟩ := e; exact e)), if_neg (fun e => h2 e.2)]
      · rw [if_neg (fun e => h1 e.1)]
        by_cases h2 : r' = r
        · subst h2; simp
        · rw [if_neg (fun e => h2 e.1), if_neg (fun e => (List.mem_cons.1 e.1).elim h2 h1)]
    · rw [ex2, ex1]
      by_cases h1 : r' ∈ rs
      · simp [h1]
      · by_cases h2 : r' = r
        · subst h2; simp [h1]
        · simp [h1, h2]
    · rw [ey2, ey1]
      by_cases h1 : r' ∈ rs
      · simp [h1]
      · by_cases h2 : r' = r
        · subst h2; simp [h1]
        · simp [h1, h2]

theorem saveIndices_now (b : Backend) (t : Tile) (hn : t.cellIdx.keys.Nodup) {d : TileDisk} {f : TileFolder} (h : d.now = some f) :
    ∃ I, (saveIndices b t d).now = some { f with indices := I } ∧
      ∀ r, I.get? r = match t.cellIdx.get? r with | some l => some (b.store (some l)) | none => f.indices.get? r := by
  unfold saveIndices
  generalize t.cellIdx = c at hn
  induction c generalizing d f with
  | nil => exact ⟨f.indices, h, by simp⟩
  | cons p c ih =>
    rw [List.foldl_cons]
    simp only [Dict.keys, List.map_cons, List.nodup_cons] at hn
    obtain ⟨I, h1, h2⟩ := ih (d := inFolder (inFolder d (fun f => { f with indices := f.indices.pop p.1 }))
        (fun f => { f with indices := f.indices.set p.1 (b.store (some p.2)) }))
        (f := { f with indices := (f.indices.pop p.1).set p.1 (b.store (some p.2)) }) (by simp [h]) hn.2
    refine ⟨I, h1, fun r => ?_⟩
    rw [h2, Dict.get?_cons, Dict.get?_pop_set]
    by_cases hr : p.1 = r
    · have : Dict.get? c r = none := (Dict.get?_eq_none _ _).2 (by rw [← hr]; exact hn.1)
      rw [this, if_pos hr]; simp [hr]
    · rw [if_neg hr, if_neg (Ne.symm hr)]

/-- `folder` holds the soundings of the tile -/
def HoldsData (t : Tile) (f : TileFolder) : Prop := f.data.map Stored.value = t.data

/-- `folder` holds the gridded layers of the tile -/
structure HoldsGrid (t : Tile) (f : TileFolder) : Prop where
  layers : ∀ r l, (f.layers.get? (r, l)).map Stored.value = if l ∈ savedLayers then (t.cells.get? r).bind (·.get? l) else none
  edgesX : ∀ r ∈ t.cells.keys, (f.edgesX.get? r).map Stored.value = t.edgesX.get? r
  edgesY : ∀ r ∈ t.cells.keys, (f.edgesY.get? r).map Stored.value = t.edgesY.get? r

/-- `folder` holds the tile -/
structure Holds (t : Tile) (f : TileFolder) : Prop where
  info : f.info = .full t.toMeta
  data : HoldsData t f
  grid : HoldsGrid t f
  indices : ∀ r ∈ t.cells.keys, (f.indices.get? r).map Stored.value = t.cellIdx.get? r

/-- the layers of one resolution that are written, in the order they are read -/
def pick (ls : Dict Layer LayerArr) : Dict Layer LayerArr := savedLayers.filterMap (fun l => (ls.get? l).map (fun a => (l, a)))

/-- tiles that can be written and read -/
structure Saveable (t : Tile) : Prop where
  cells : t.cells.keys.Nodup
  idx : t.cellIdx.keys.Nodup
  res : ∀ r ∈ t.cells.keys, t.HasRes r
  idxAll : ∀ r ∈ t.cells.keys, r ∈ t.cellIdx.keys
  data : ∃ d, t.data = some d ∧ d.pts ≠ []
  full : ∀ r ls, t.cells.get? r = some ls → pick ls = core ls ∧ core ls ≠ []
  proper : ∀ r ls l a, t.cells.get? r = some ls → l ∈ savedLayers → ls.get? l = some a → ProperArr a

theorem mem_written (l : Layer) : l ∈ writtenLayers ↔ l ∈ savedLayers := by
  simp only [writtenLayers, savedLayers, List.mem_cons, List.not_mem_nil, or_false]
  tauto

theorem saveTile_holds (b : Backend) {t : Tile} (hs : t.Saveable) (part : Part) (d : TileDisk)
    (hp : part = .points → HoldsGrid t (d.now.getD {})) (hg : part = .grid → HoldsData t (d.now.getD {})) :
    ∃ f, (saveTile b (some t) part d).err = none ∧ (saveTile b (some t) part d).st.now = some f ∧ Holds t f := by
  unfold saveTile saveTileData
  simp only
  obtain ⟨dd, hd, hne⟩ := hs.data
  have hprop : ProperArr dd := fun e => absurd (List.eq_nil_of_length_eq_zero e) hne
  -- the soundings
  have h1 : ∃ f, (if part = .grid then saveMeta t d else saveData b t (saveMeta t d)).now = some f ∧ f.info = .full t.toMeta ∧ HoldsData t f ∧
      f.layers = (d.now.getD {}).layers ∧ f.edgesX = (d.now.getD {}).edgesX ∧ f.edgesY = (d.now.getD {}).edgesY := by
    by_cases h : part = .grid
    · rw [if_pos h]
      exact ⟨_, saveMeta_now t d, rfl, hg h, rfl, rfl, rfl⟩
    · rw [if_neg h]
      refine ⟨_, saveData_now b t (saveMeta_now t d), rfl, ?_, rfl, rfl, rfl⟩
      simp only [HoldsData, hd, Option.map_some, store_value b hprop]
  obtain ⟨f, h1, hi, hdt, hl, hx, hy⟩ := h1
  generalize (if part = .grid then saveMeta t d else saveData b t (saveMeta t d)) = d1 at h1
  -- the layers
  have h2 : ∃ f2, (if part = .points then Res.ok d1 else Res.forEach t.cells.keys (removeCells d1) (saveRes b t)).err = none ∧
      (if part = .points then Res.ok d1 else Res.forEach t.cells.keys (removeCells d1) (saveRes b t)).st.now = some f2 ∧
      f2.info = f.info ∧ f2.data = f.data ∧ HoldsGrid t f2 := by
    by_cases h : part = .points
    · rw [if_pos h]
      have := hp h
      exact ⟨f, rfl, h1, rfl, rfl, by rw [hl]; exact this.layers, by rw [hx]; exact this.edgesX, by rw [hy]; exact this.edgesY⟩
    · rw [if_neg h]
      obtain ⟨f2, e2, n2, i2, dd2, -, l2, x2, y2⟩ := saveAllRes_now b t t.cells.keys hs.res (removeCells_now h1)
      refine ⟨f2, e2, n2, i2, dd2, ?_, ?_, ?_⟩
      · intro r l
        rw [l2]
        simp only [mem_written]
        by_cases hr : r ∈ t.cells.keys
        · obtain ⟨ls, hls⟩ := (Dict.mem_keys_iff _ _).1 hr
          simp only [hls, Option.bind_some]
          by_cases hsl : l ∈ savedLayers
          · cases hll : ls.get? l with
            | none => simp
            | some a => simp [hr, hsl, store_value b (hs.proper r ls l a hls hsl hll)]
          · simp [hsl]
        · rw [if_neg (fun e => hr e.1), (Dict.get?_eq_none t.cells r).2 hr]
          simp
      · intro r hr
        rw [x2, if_pos hr]
        cases t.edgesX.get? r with
        | none => rfl
        | some a => simp [store_value b (properArr_list a)]
      · intro r hr
        rw [y2, if_pos hr]
        cases t.edgesY.get? r with
        | none => rfl
        | some a => simp [store_value b (properArr_list a)]
  obtain ⟨f2, e2, n2, i2, dd2, g2⟩ := h2
  rw [Res.andThen_of_err_none e2]
  obtain ⟨I, h3, h4⟩ := saveIndices_now b t hs.idx n2
  refine ⟨{ f2 with indices := I }, rfl, h3, by rw [← hi, ← i2], ?_, ⟨g2.layers, g2.edgesX, g2.edgesY⟩, ?_⟩
  · unfold HoldsData; rw [← hdt, ← dd2]
  · intro r hr
    obtain ⟨l, hl⟩ := (Dict.mem_keys_iff _ _).1 (hs.idxAll r hr)
    simp only [h4, hl, Option.map_some, store_value b (properArr_list l)]

/-! ### loading -/

theorem mem_found (f : TileFolder) (r : ℚ) : r ∈ foundResolutions f ↔ ∃ l, (f.layers.get? (r, l)).isSome := by
  unfold foundResolutions
  rw [mem_npUnique, List.mem_map]
  constructor
  · rintro ⟨⟨r', l⟩, h, rfl⟩
    obtain ⟨v, hv⟩ := (Dict.mem_keys_iff _ _).1 h
    exact ⟨l, by simp [hv]⟩
  · rintro ⟨l, h⟩
    obtain ⟨v, hv⟩ := Option.isSome_iff_exists.1 h
    exact ⟨(r, l), (Dict.mem_keys_iff _ _).2 ⟨v, hv⟩, rfl⟩

theorem loadLayers_eq {t : Tile} {f : TileFolder} (h : HoldsGrid t f) {r : ℚ} {ls : Dict Layer LayerArr} (hr : t.cells.get? r = some ls) :
    loadLayers f r = pick ls := by
  unfold loadLayers pick
  refine List.filterMap_congr (fun l hl => ?_)
  have := h.layers r l
  rw [if_pos hl, hr, Option.bind_some] at this
  rw [← this]
  cases f.layers.get? (r, l) <;> rfl

theorem found_iff {t : Tile} (hs : t.Saveable) {f : TileFolder} (h : HoldsGrid t f) (r : ℚ) : r ∈ foundResolutions f ↔ r ∈ t.cells.keys := by
  rw [mem_found]
  constructor
  · rintro ⟨l, hl⟩
    have := h.layers r l
    obtain ⟨v, hv⟩ := Option.isSome_iff_exists.1 hl
    rw [hv, Option.map_some] at this
    split at this
    · cases hc : t.cells.get? r with
      | none => rw [hc] at this; cases this
      | some ls => exact (Dict.mem_keys_iff _ _).2 ⟨ls, hc⟩
    · cases this
  · intro hr
    obtain ⟨ls, hls⟩ := (Dict.mem_keys_iff _ _).1 hr
    obtain ⟨h1, h2⟩ := hs.full r ls hls
    rw [← h1] at h2
    obtain ⟨p, hp⟩ := List.exists_mem_of_ne_nil _ h2
    unfold pick at hp
    obtain ⟨l, hl, ha⟩ := List.mem_filterMap.1 hp
    refine ⟨l, ?_⟩
    have := h.layers r l
    rw [if_pos hl, hls, Option.bind_some] at this
    cases hll : ls.get? l with
    | none => rw [hll] at ha; cases ha
    | some a =>
      rw [hll] at this
      cases hf : f.layers.get? (r, l) with
      | none => rw [hf] at this; cases this
      | some v => rfl

theorem readArr_eq {α : Type} [IsArr α] {o : Option (Stored α)} {a : α} (h : o.map Stored.value = some a) : readArr o = .ok a := by
  cases o with
  | none => cases h
  | some s => simp only [Option.map_some, Option.some.injEq] at h; simp [readArr, h]

theorem foldlM_loadRes (f : TileFolder) (ex ey : ℚ → List ℚ) (ls : ℚ → Dict Layer LayerArr) (rs : List ℚ)
    (h : ∀ r ∈ rs, readArr (f.edgesX.get? r) = .ok (ex r) ∧ readArr (f.edgesY.get? r) = .ok (ey r) ∧ loadLayers f r = ls r) (t : Tile) :
    rs.foldlM (loadRes f) t = .ok { t with cells := t.cells.setAll rs ls, edgesX := t.edgesX.setAll rs ex, edgesY := t.edgesY.setAll rs ey } := by
  induction rs generalizing t with
  | nil => rfl
  | cons r rs ih =>
    obtain ⟨h1, h2, h3⟩ := h r List.mem_cons_self
    rw [List.foldlM_cons]
    have : loadRes f t r = .ok { t with cells := t.cells.set r (ls r), edgesX := t.edgesX.set r (ex r), edgesY := t.edgesY.set r (ey r) } := by
      unfold loadRes; rw [h1, h2, h3]
    rw [this]
    exact ih (fun r' h' => h r' (List.mem_cons_of_mem _ h')) _

theorem foldlM_loadIndex (f : TileFolder) (ix : ℚ → List Int) (rs : List ℚ) (h : ∀ r ∈ rs, readArr (f.indices.get? r) = .ok (ix r)) (t : Tile) :
    rs.foldlM (loadIndex f) t = .ok { t with cellIdx := t.cellIdx.setAll rs ix } := by
  induction rs generalizing t with
  | nil => rfl
  | cons r rs ih =>
    rw [List.foldlM_cons]
    have : loadIndex f t r = .ok { t with cellIdx := t.cellIdx.set r (ix r) } := by
      unfold loadIndex; rw [h r List.mem_cons_self]
    rw [this]
    exact ih (fun r' h' => h r' (List.mem_cons_of_mem _ h')) _

/-- layers and cell edges as they are read -/
def coreOr (t : Tile) (r : ℚ) : Dict Layer LayerArr := core ((t.cells.get? r).getD [])
def edgeXOr (t : Tile) (r : ℚ) : List ℚ := (t.edgesX.get? r).getD []
def edgeYOr (t : Tile) (r : ℚ) : List ℚ := (t.edgesY.get? r).getD []
def idxOr (t : Tile) (r : ℚ) : List Int := (t.cellIdx.get? r).getD []

/-- the tile object `old` after the folder of `t` was read into it -/
theorem loadTile_eq {t : Tile} (hs : t.Saveable) {f : TileFolder} (h : Holds t f) (part : Part) (old : Option Tile) :
    loadTile old part (some f) = .ok (some (
      let o := (old.getD (Tile.new 0 0 0 false)).setMeta t.toMeta
      { o with
        data := if part = .grid then o.data else t.data
        cells := if part = .points then o.cells else o.cells.setAll (foundResolutions f) t.coreOr
        edgesX := if part = .points then o.edgesX else o.edgesX.setAll (foundResolutions f) t.edgeXOr
        edgesY := if part = .points then o.edgesY else o.edgesY.setAll (foundResolutions f) t.edgeYOr
        cellIdx := o.cellIdx.setAll (foundResolutions f) t.idxOr })) := by
  have hres : ∀ r ∈ foundResolutions f, readArr (f.edgesX.get? r) = .ok (t.edgeXOr r) ∧ readArr (f.edgesY.get? r) = .ok (t.edgeYOr r) ∧
      loadLayers f r = t.coreOr r := by
    intro r hr
    rw [found_iff hs h.grid] at hr
    obtain ⟨ls, ex, ey, h1, h2, h3⟩ := hs.res r hr
    refine ⟨readArr_eq ?_, readArr_eq ?_, ?_⟩
    · rw [h.grid.edgesX r hr]; simp [edgeXOr, h2]
    · rw [h.grid.edgesY r hr]; simp [edgeYOr, h3]
    · rw [loadLayers_eq h.grid h1, (hs.full r ls h1).1]; simp [coreOr, h1]
  have hidx : ∀ r ∈ foundResolutions f, readArr (f.indices.get? r) = .ok (t.idxOr r) := by
    intro r hr
    rw [found_iff hs h.grid] at hr
    obtain ⟨l, hl⟩ := (Dict.mem_keys_iff _ _).1 (hs.idxAll r hr)
    refine readArr_eq ?_
    rw [h.indices r hr]; simp [idxOr, hl]
  obtain ⟨d, hd, -⟩ := hs.data
  have hdata : readArr f.data = .ok d := readArr_eq (by rw [← hd]; exact h.data)
  unfold loadTile loadMeta
  simp only [h.info]
  have hb : ∀ (x : Tile) (g : Tile → Except Err Tile), Except.bind (.ok x) g = g x := fun _ _ => rfl
  rw [hb]
  unfold loadTileData
  generalize (old.getD (Tile.new 0 0 0 false)).setMeta t.toMeta = o
  cases part with
  | all =>
    simp only [reduceCtorEq, if_false, hdata, Except.map, bind, Except.bind]
    rw [foldlM_loadRes f _ _ _ _ hres]
    simp only
    rw [foldlM_loadIndex f _ _ hidx, hd]
  | points =>
    simp only [reduceCtorEq, if_false, if_true, hdata, Except.map, bind, Except.bind, pure, Except.pure]
    rw [foldlM_loadIndex f _ _ hidx, hd]
  | grid =>
    simp only [reduceCtorEq, if_false, if_true, bind, Except.bind, pure, Except.pure]
    rw [foldlM_loadRes f _ _ _ _ hres]
    simp only
    rw [foldlM_loadIndex f _ _ hidx]
    rfl

/-- the tile without the layers that were only made by queries -/
def dropTemp (t : Tile) : Tile := { t with cells := t.cells.mapVals (fun _ ls => core ls) }

theorem setMeta_toMeta (t : Tile) : t.setMeta t.toMeta = t := rfl

theorem flush_points (b : Backend) {t : Tile} (hs : t.Saveable) (d : TileDisk) (hp : HoldsGrid t (d.now.getD {})) :
    ∃ f, (flush b .points (some t) d).err = none ∧ (flush b .points (some t) d).st.1 = some t ∧ (flush b .points (some t) d).st.2.now = some f ∧
      Holds t f := by
  obtain ⟨f, h1, h2, h3⟩ := saveTile_holds b hs .points d (fun _ => hp) (fun e => by cases e)
  unfold flush
  simp only [h1, h2, loadTile_eq hs h3]
  refine ⟨f, rfl, ?_, h2, h3⟩
  simp only [Res.ok_st, Option.getD_some, setMeta_toMeta, if_true, reduceCtorEq, if_false]
  rw [Dict.setAll_self]
  intro r hr
  rw [found_iff hs h3.grid] at hr
  obtain ⟨l, hl⟩ := (Dict.mem_keys_iff _ _).1 (hs.idxAll r hr)
  simp [idxOr, hl]

theorem flush_grid (b : Backend) {t : Tile} (hs : t.Saveable) (d : TileDisk) (hp : HoldsData t (d.now.getD {})) :
    ∃ f, (flush b .grid (some t) d).err = none ∧ (flush b .grid (some t) d).st.1 = some t.dropTemp ∧ (flush b .grid (some t) d).st.2.now = some f ∧
      Holds t f := by
  obtain ⟨f, h1, h2, h3⟩ := saveTile_holds b hs .grid d (fun e => by cases e) (fun _ => hp)
  unfold flush
  simp only [h1, h2, loadTile_eq hs h3]
  refine ⟨f, rfl, ?_, h2, h3⟩
  simp only [Res.ok_st, Option.getD_some, setMeta_toMeta, if_true, reduceCtorEq, if_false]
  have hf := found_iff hs h3.grid
  rw [Dict.setAll_self (d := t.edgesX), Dict.setAll_self (d := t.edgesY), Dict.setAll_self (d := t.cellIdx),
    Dict.setAll_mapVals _ _ hs.cells (fun k hk => (hf k).1 hk)]
  · unfold dropTemp
    congr 2
    refine Dict.mapVals_congr (fun p hp => ?_)
    have hm : p.1 ∈ t.cells.keys := List.mem_map_of_mem hp
    rw [if_pos ((hf _).2 hm)]
    simp [coreOr, Dict.get?_of_mem t.cells hs.cells hp]
  · intro r hr
    obtain ⟨l, hl⟩ := (Dict.mem_keys_iff _ _).1 (hs.idxAll r ((hf r).1 hr))
    simp [idxOr, hl]
  · intro r hr
    obtain ⟨ls, ex, ey, g1, g2, g3⟩ := hs.res r ((hf r).1 hr)
    simp [edgeYOr, g3]
  · intro r hr
    obtain ⟨ls, ex, ey, g1, g2, g3⟩ := hs.res r ((hf r).1 hr)
    simp [edgeXOr, g2]

end Tile
end Bathy
