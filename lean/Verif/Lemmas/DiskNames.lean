import Verif.Spec.DiskNames
import Verif.Lemmas.StoreTile

/-!
# Helper lemmas for C103
-/

namespace Bathy

variable {fmt : ℚ → Name} {parse : Name → Option ℚ}

/-! ## texts -/

theorem FloatText.inj (h : FloatText fmt parse) {a b : ℚ} (e : fmt a = fmt b) : a = b := by
  have := h.parse_fmt a
  rw [e, h.parse_fmt b] at this
  exact (Option.some.inj this).symm

/-- two texts without '_' before a '_' -/
theorem append_sep {a b x y : Name} (ha : '_' ∉ a) (hb : '_' ∉ b) (e : a ++ '_' :: x = b ++ '_' :: y) : a = b ∧ x = y := by
  induction a generalizing b with
  | nil =>
    cases b with
    | nil => simpa using e
    | cons c b =>
      simp only [List.nil_append, List.cons_append, List.cons.injEq] at e
      exact absurd (by rw [← e.1]; exact List.mem_cons_self) hb
  | cons c a ih =>
    cases b with
    | nil =>
      simp only [List.nil_append, List.cons_append, List.cons.injEq] at e
      exact absurd (by rw [e.1]; exact List.mem_cons_self) ha
    | cons d b =>
      simp only [List.cons_append, List.cons.injEq] at e
      obtain ⟨h1, h2⟩ := ih (fun h => ha (List.mem_cons_of_mem _ h)) (fun h => hb (List.mem_cons_of_mem _ h)) e.2
      exact ⟨by rw [e.1, h1], h2⟩

theorem splitU_ne (n : Name) : splitU n ≠ [] := by
  cases n with
  | nil => simp [splitU]
  | cons c cs =>
    unfold splitU
    split
    · simp
    · split <;> simp

theorem splitU_append {a : Name} (ha : '_' ∉ a) (x : Name) : splitU (a ++ '_' :: x) = a :: splitU x := by
  induction a with
  | nil => simp [splitU]
  | cons c a ih =>
    have hc : c ≠ '_' := fun e => ha (by rw [e]; exact List.mem_cons_self)
    rw [List.cons_append, splitU, if_neg hc, ih (fun h => ha (List.mem_cons_of_mem _ h))]

theorem splitU_plain {a : Name} (ha : '_' ∉ a) : splitU a = [a] := by
  induction a with
  | nil => rfl
  | cons c a ih =>
    have hc : c ≠ '_' := fun e => ha (by rw [e]; exact List.mem_cons_self)
    rw [splitU, if_neg hc, ih (fun h => ha (List.mem_cons_of_mem _ h))]

theorem key_inj {l m : Layer} (hl : l ∈ Tile.savedLayers) (hm : m ∈ Tile.savedLayers) (e : l.key = m.key) : l = m := by
  simp only [Tile.savedLayers, List.mem_cons, List.not_mem_nil, or_false] at hl hm
  rcases hl with rfl | rfl | rfl | rfl | rfl | rfl | rfl | rfl <;> rcases hm with rfl | rfl | rfl | rfl | rfl | rfl | rfl | rfl <;>
    first | rfl | exact absurd e (by decide)

theorem start_ne_e (h : FloatText fmt parse) (q : ℚ) (x y : Name) : fmt q ++ x ≠ 'e' :: y := by
  obtain ⟨c, cs, e, hc⟩ := h.start q
  rw [e]
  intro k
  simp only [List.cons_append, List.cons.injEq] at k
  rw [k.1] at hc
  revert hc
  decide

theorem path_inj (h : FloatText fmt parse) {p q : TilePart} (hp : p.Kept) (hq : q.Kept) (e : p.path fmt = q.path fmt) : p = q := by
  have e0 : ∀ r : ℚ, ['c', 'e', 'l', 'l', '_', 'e', 'd', 'g', 'e', 's', '_', 'x', '_'] ++ fmt r = 'c' :: 'e' :: 'l' :: 'l' :: '_' :: 'e' :: 'd' :: 'g' :: 'e' :: 's' :: '_' :: 'x' :: '_' :: fmt r := fun _ => rfl
  have e1 : ∀ r : ℚ, ['c', 'e', 'l', 'l', '_', 'e', 'd', 'g', 'e', 's', '_', 'y', '_'] ++ fmt r = 'c' :: 'e' :: 'l' :: 'l' :: '_' :: 'e' :: 'd' :: 'g' :: 'e' :: 's' :: '_' :: 'y' :: '_' :: fmt r := fun _ => rfl
  have e2 : ∀ (r : ℚ) (x : Name), ['c', 'e', 'l', 'l', 's', '_'] ++ fmt r ++ x = 'c' :: 'e' :: 'l' :: 'l' :: 's' :: '_' :: (fmt r ++ x) := fun _ _ => rfl
  have e3 : ∀ (r : ℚ) (x : Name), ['c', 'e', 'l', 'l', '_'] ++ fmt r ++ x = 'c' :: 'e' :: 'l' :: 'l' :: '_' :: (fmt r ++ x) := fun _ _ => rfl
  have e4 : metaPath = 'm' :: ['e', 't', 'a', 'd', 'a', 't', 'a', '.', 'j', 's', 'o', 'n'] := rfl
  have e5 : dataPath = 'd' :: ['a', 't', 'a'] := rfl
  cases p <;> cases q <;>
    simp only [TilePart.path, layerPath, edgesXPath, edgesYPath, indicesPath, e0, e1, e2, e3, e4, e5, List.cons.injEq, true_and, false_and, and_false,
      Char.reduceEq, reduceCtorEq] at e ⊢
  case layer.layer r l r' l' =>
    obtain ⟨k1, k2⟩ := append_sep (h.plain r) (h.plain r') e
    rw [h.inj k1, key_inj hp hq k2]
  case edgesX.edgesX r r' => rw [h.inj e]
  case edgesY.edgesY r r' => rw [h.inj e]
  case indices.indices r r' => rw [h.inj (append_sep (h.plain r) (h.plain r') e).1]
  case edgesX.indices r r' => exact absurd e.symm (start_ne_e h _ _ _)
  case edgesY.indices r r' => exact absurd e.symm (start_ne_e h _ _ _)
  case indices.edgesX r r' => exact absurd e (start_ne_e h _ _ _)
  case indices.edgesY r r' => exact absurd e (start_ne_e h _ _ _)

/-- which names begin with 'cell' -/
theorem take_cell (fmt : ℚ → Name) (p : TilePart) : ((p.path fmt).take 4 = ['c', 'e', 'l', 'l']) ↔ p ≠ .info ∧ p ≠ .data := by
  cases p <;> simp [TilePart.path, layerPath, edgesXPath, edgesYPath, indicesPath, metaPath, dataPath]

/-! ## reading -/

theorem scanStep_path (h : FloatText fmt parse) (p : TilePart) (found : List ℚ) :
    Dir.scanStep parse found (p.path fmt) = .ok (match p with | .layer r _ => if r ∈ found then found else found ++ [r] | _ => found) := by
  have e1 : ∀ n : Name, splitU (['c', 'e', 'l', 'l', '_'] ++ n) = ['c', 'e', 'l', 'l'] :: splitU n := fun n => by
    rw [show ['c', 'e', 'l', 'l', '_'] ++ n = ['c', 'e', 'l', 'l'] ++ '_' :: n from rfl]; exact splitU_append (by decide) n
  have e2 : ∀ n : Name, splitU (['c', 'e', 'l', 'l', 's', '_'] ++ n) = ['c', 'e', 'l', 'l', 's'] :: splitU n := fun n => by
    rw [show ['c', 'e', 'l', 'l', 's', '_'] ++ n = ['c', 'e', 'l', 'l', 's'] ++ '_' :: n from rfl]; exact splitU_append (by decide) n
  have hc : ['c', 'e', 'l', 'l'] ≠ ['c', 'e', 'l', 'l', 's'] := by decide
  cases p with
  | info =>
    unfold Dir.scanStep
    rw [show splitU (TilePart.path fmt .info) = [metaPath] from splitU_plain (by simp [TilePart.path, metaPath])]
    simp [metaPath]
  | data =>
    unfold Dir.scanStep
    rw [show splitU (TilePart.path fmt .data) = [dataPath] from splitU_plain (by simp [TilePart.path, dataPath])]
    simp [dataPath]
  | layer r l =>
    have e : splitU (TilePart.path fmt (.layer r l)) = ['c', 'e', 'l', 'l', 's'] :: fmt r :: splitU l.key := by
      show splitU (['c', 'e', 'l', 'l', 's', '_'] ++ fmt r ++ '_' :: l.key) = _
      rw [List.append_assoc, e2, splitU_append (h.plain r)]
    unfold Dir.scanStep
    rw [e]
    simp only [if_true, h.parse_fmt]
  | edgesX r =>
    have e : splitU (TilePart.path fmt (.edgesX r)) = ['c', 'e', 'l', 'l'] :: splitU (['e', 'd', 'g', 'e', 's', '_', 'x', '_'] ++ fmt r) := by
      rw [← e1, ← List.append_assoc]; rfl
    unfold Dir.scanStep
    rw [e]
    simp only [if_neg hc]
  | edgesY r =>
    have e : splitU (TilePart.path fmt (.edgesY r)) = ['c', 'e', 'l', 'l'] :: splitU (['e', 'd', 'g', 'e', 's', '_', 'y', '_'] ++ fmt r) := by
      rw [← e1, ← List.append_assoc]; rfl
    unfold Dir.scanStep
    rw [e]
    simp only [if_neg hc]
  | indices r =>
    have e : splitU (TilePart.path fmt (.indices r)) = ['c', 'e', 'l', 'l'] :: splitU (fmt r ++ ['_', 'i', 'n', 'd', 'i', 'c', 'e', 's']) := by
      rw [← e1, ← List.append_assoc]; rfl
    unfold Dir.scanStep
    rw [e]
    simp only [if_neg hc]

/-- the resolutions found in any list of names of the folder -/
theorem scan_names (h : FloatText fmt parse) (names : List Name) (hn : ∀ n ∈ names, ∃ p : TilePart, p.Kept ∧ n = p.path fmt) (found : List ℚ) :
    ∃ rs, names.foldlM (Dir.scanStep parse) found = .ok rs ∧ ∀ r, r ∈ rs ↔ r ∈ found ∨ ∃ l ∈ Tile.savedLayers, layerPath fmt r l ∈ names := by
  induction names generalizing found with
  | nil => exact ⟨found, rfl, fun r => by simp⟩
  | cons n ns ih =>
    obtain ⟨p, hp, rfl⟩ := hn n List.mem_cons_self
    rw [List.foldlM_cons, scanStep_path h]
    show ∃ rs, List.foldlM (Dir.scanStep parse) _ ns = _ ∧ _
    obtain ⟨rs, h1, h2⟩ := ih (fun n hn' => hn n (List.mem_cons_of_mem _ hn')) _
    refine ⟨rs, h1, fun r => ?_⟩
    rw [h2]
    clear h1 h2 ih
    have key : ∀ l ∈ Tile.savedLayers, (layerPath fmt r l = p.path fmt ↔ p = .layer r l) := fun l hl =>
      ⟨fun e => (path_inj h (p := .layer r l) hl hp e).symm, fun e => by rw [e]; rfl⟩
    simp only [List.mem_cons, and_or_left, exists_or]
    cases p with
    | layer r' l' =>
      have e1 : (r ∈ if r' ∈ found then found else found ++ [r']) ↔ r ∈ found ∨ r = r' := by
        split
        · constructor
          · exact Or.inl
          · rintro (k | rfl) <;> assumption
        · simp
      have e2 : (∃ l ∈ Tile.savedLayers, layerPath fmt r l = TilePart.path fmt (.layer r' l')) ↔ r = r' := by
        constructor
        · rintro ⟨l, hl, e⟩
          cases (key l hl).1 e
          rfl
        · rintro rfl
          exact ⟨l', hp, rfl⟩
      rw [e1, e2, or_assoc]
    | _ =>
      simp only
      constructor
      · rintro (k | k)
        · exact .inl k
        · exact .inr (.inr k)
      · rintro (k | ⟨l, hl, k⟩ | k)
        · exact .inl k
        · cases (key l hl).1 k
        · exact .inr k

theorem scan_found (h : FloatText fmt parse) {listdir : Dir → List Name} (hl : Lists listdir) {f : TileFolder} {D : Dir} (hD : Named fmt f D) :
    Dir.scan parse (listdir D) = .ok (Tile.foundResolutions f) := by
  obtain ⟨rs, h1, h2⟩ := scan_names h (listdir D) (fun n hn => hD.only n ((hl D n).1 hn)) []
  unfold Dir.scan
  rw [h1]
  refine congrArg Except.ok (npUnique_congr fun r => ?_)
  rw [h2]
  simp only [List.not_mem_nil, false_or, List.mem_map]
  constructor
  · rintro ⟨l, hs, hn⟩
    have := (hl D _).1 hn
    rw [Dict.mem_keys_iff] at this
    obtain ⟨v, hv⟩ := this
    have hi := hD.item (.layer r l) hs
    rw [show TilePart.path fmt (.layer r l) = layerPath fmt r l from rfl, hv] at hi
    replace hi : some v = (f.layers.get? (r, l)).map .layer := hi
    cases hg : f.layers.get? (r, l) with
    | none => rw [hg] at hi; cases hi
    | some a => exact ⟨(r, l), (Dict.mem_keys_iff _ _).2 ⟨a, hg⟩, rfl⟩
  · rintro ⟨⟨r', l⟩, hk, rfl⟩
    refine ⟨l, hD.layers _ hk, (hl D _).2 ?_⟩
    obtain ⟨a, ha⟩ := (Dict.mem_keys_iff _ _).1 hk
    rw [Dict.mem_keys_iff]
    have hi := hD.item (.layer r' l) (hD.layers _ hk)
    replace hi : Dict.get? D (layerPath fmt r' l) = (f.layers.get? (r', l)).map .layer := hi
    rw [ha] at hi
    exact ⟨_, hi⟩

theorem readNums_eq {D : Dir} {n : Name} {o : Option (Stored (List ℚ))} (h : Dict.get? D n = o.map .nums) : Dir.readNums D n = readArr o := by
  unfold Dir.readNums readArr
  rw [h]
  cases o <;> rfl

theorem readInts_eq {D : Dir} {n : Name} {o : Option (Stored (List Int))} (h : Dict.get? D n = o.map .ints) : Dir.readInts D n = readArr o := by
  unfold Dir.readInts readArr
  rw [h]
  cases o <;> rfl

theorem readPts_eq {D : Dir} {n : Name} {o : Option (Stored PtArr)} (h : Dict.get? D n = o.map .pts) : Dir.readPts D n = readArr o := by
  unfold Dir.readPts readArr
  rw [h]
  cases o <;> rfl

theorem readLayer_eq {D : Dir} {n : Name} {o : Option (Stored LayerArr)} (h : Dict.get? D n = o.map .layer) : Dir.readLayer D n = o.map Stored.value := by
  unfold Dir.readLayer
  rw [h]
  cases o <;> rfl

theorem loadRes_named {f : TileFolder} {D : Dir} (hD : Named fmt f D) : Dir.loadRes fmt D = Tile.loadRes f := by
  funext t r
  unfold Dir.loadRes Tile.loadRes
  rw [show Dir.readNums D (edgesXPath fmt r) = _ from readNums_eq (hD.item (.edgesX r) trivial), show Dir.readNums D (edgesYPath fmt r) = _ from readNums_eq (hD.item (.edgesY r) trivial)]
  have e : (Tile.savedLayers.filterMap (fun l => (Dir.readLayer D (layerPath fmt r l)).map (fun a => (l, a)))) = Tile.loadLayers f r := by
    unfold Tile.loadLayers
    refine List.filterMap_congr fun l hl => ?_
    rw [show Dir.readLayer D (layerPath fmt r l) = _ from readLayer_eq (hD.item (.layer r l) hl), Option.map_map]
    rfl
  rw [e]
  rfl

theorem loadIndex_named {f : TileFolder} {D : Dir} (hD : Named fmt f D) : Dir.loadIndex fmt D = Tile.loadIndex f := by
  funext t r
  unfold Dir.loadIndex Tile.loadIndex
  rw [show Dir.readInts D (indicesPath fmt r) = _ from readInts_eq (hD.item (.indices r) trivial)]
  cases readArr (f.indices.get? r) <;> rfl

theorem loadMeta_named {f : TileFolder} {D : Dir} (hD : Named fmt f D) (t : Tile) : Dir.loadMeta D t = Tile.loadMeta f t := by
  unfold Dir.loadMeta Tile.loadMeta
  rw [show Dict.get? D metaPath = _ from hD.item .info trivial]
  unfold TileFolder.item
  cases f.info <;> rfl

theorem loadData_named (h : FloatText fmt parse) {listdir : Dir → List Name} (hl : Lists listdir) {f : TileFolder} {D : Dir} (hD : Named fmt f D) (part : Tile.Part) (t : Tile) :
    Dir.loadData fmt parse listdir D part t = Tile.loadTileData f part t := by
  unfold Dir.loadData Tile.loadTileData
  rw [scan_found h hl hD, show Dir.readPts D dataPath = _ from readPts_eq (hD.item .data trivial), loadRes_named hD, loadIndex_named hD]
  rfl

/-! ## writing -/

theorem keys_saveItem {D : Dir} {n m : Name} {i : Item} (h : m ∈ Dict.keys (Dir.saveItem n i D)) : m = n ∨ m ∈ Dict.keys D := by
  unfold Dir.saveItem at h
  rw [Dict.mem_keys_set, Dict.mem_keys_pop] at h
  tauto

/-- one thing is written -/
theorem named_save (h : FloatText fmt parse) {f f' : TileFolder} {D : Dir} (hD : Named fmt f D) (p : TilePart) (hp : p.Kept) (i : Item)
    (hf : ∀ q, f'.item q = if q = p then some i else f.item q) (hk : ∀ k ∈ f'.layers.keys, k.2 ∈ Tile.savedLayers) : Named fmt f' (Dir.saveItem (p.path fmt) i D) := by
  refine ⟨fun q hq => ?_, fun n hn => ?_, hk⟩
  · unfold Dir.saveItem
    rw [Dict.get?_pop_set, hf]
    by_cases e : q = p
    · rw [e, if_pos rfl, if_pos rfl]
    · rw [if_neg (fun k => e (path_inj h hq hp k)), if_neg e, hD.item q hq]
  · rcases keys_saveItem hn with rfl | hn
    · exact ⟨p, hp, rfl⟩
    · exact hD.only n hn

theorem named_meta (h : FloatText fmt parse) {f : TileFolder} {D : Dir} (hD : Named fmt f D) (t : Tile) : Named fmt { f with info := .full t.toMeta } (Dir.saveMeta t D) := by
  refine ⟨fun q hq => ?_, fun n hn => ?_, hD.layers⟩
  · unfold Dir.saveMeta
    rw [Dict.get?_set]
    by_cases e : q = .info
    · subst e
      exact if_pos rfl
    · rw [if_neg (show ¬ TilePart.path fmt q = metaPath from fun k => e (path_inj h hq (q := .info) trivial k)), hD.item q hq]
      cases q <;> first | rfl | exact absurd rfl e
  · unfold Dir.saveMeta at hn
    rw [Dict.mem_keys_set] at hn
    rcases hn with rfl | hn
    · exact ⟨.info, trivial, rfl⟩
    · exact hD.only n hn

theorem foldl_pop_cell (names : List Name) (D : Dir) (n : Name) :
    Dict.get? (Dir.removeCells names D) n = (if n ∈ names ∧ n.take 4 = ['c', 'e', 'l', 'l'] then none else Dict.get? D n) ∧
      ∀ m ∈ Dict.keys (Dir.removeCells names D), m ∈ Dict.keys D := by
  unfold Dir.removeCells
  induction names generalizing D with
  | nil => exact ⟨by simp, fun m hm => hm⟩
  | cons a ns ih =>
    rw [List.foldl_cons]
    obtain ⟨h1, h2⟩ := ih (if a.take 4 = ['c', 'e', 'l', 'l'] then Dict.pop D a else D)
    constructor
    · rw [h1]
      by_cases ha : a.take 4 = ['c', 'e', 'l', 'l']
      · rw [if_pos ha, Dict.get?_pop]
        by_cases e : n = a
        · subst e; simp [ha]
        · simp [e]
      · rw [if_neg ha]
        by_cases e : n = a
        · subst e; simp [ha]
        · simp [e]
    · intro m hm
      have := h2 m hm
      split at this
      · exact ((Dict.mem_keys_pop _ _ _).1 this).2
      · exact this

theorem named_clear {listdir : Dir → List Name} (hl : Lists listdir) {f : TileFolder} {D : Dir} (hD : Named fmt f D) :
    Named fmt { f with layers := [], edgesX := [], edgesY := [], indices := [] } (Dir.removeCells (listdir D) D) := by
  refine ⟨fun q hq => ?_, fun n hn => hD.only n ((foldl_pop_cell (listdir D) D n).2 n hn), fun k hk => nomatch hk⟩
  rw [(foldl_pop_cell (listdir D) D _).1]
  simp only [take_cell]
  by_cases e : q ≠ .info ∧ q ≠ .data
  · have hnone : TileFolder.item { f with layers := [], edgesX := [], edgesY := [], indices := [] } q = none := by
      cases q <;> first | rfl | exact absurd rfl e.1 | exact absurd rfl e.2
    rw [hnone]
    split
    · rfl
    · rename_i k
      rw [Dict.get?_eq_none]
      exact fun hm => k ⟨(hl D _).2 hm, e⟩
  · rw [if_neg (fun k => e k.2), hD.item q hq]
    have : q = .info ∨ q = .data := by
      by_contra k
      exact e ⟨fun x => k (.inl x), fun x => k (.inr x)⟩
    rcases this with rfl | rfl <;> rfl

theorem named_layers (h : FloatText fmt parse) (b : Backend) (r : ℚ) (ls : Dict Layer LayerArr) {f : TileFolder} {D : Dir} (hD : Named fmt f D) {d : Tile.TileDisk} (hd : d.now = some f) :
    ∃ f', (Tile.saveLayers b r ls d).now = some f' ∧ Named fmt f' (Dir.saveLayers fmt b r ls D) := by
  unfold Tile.saveLayers Dir.saveLayers
  have hW : ∀ l ∈ Tile.writtenLayers, l ∈ Tile.savedLayers := fun l => (Tile.mem_written l).1
  revert hW
  generalize Tile.writtenLayers = W
  intro hW
  induction W generalizing d f D with
  | nil => exact ⟨f, hd, hD⟩
  | cons l W ih =>
    rw [List.foldl_cons, List.foldl_cons]
    cases hg : ls.get? l with
    | none => exact ih hD hd (fun m hm => hW m (List.mem_cons_of_mem _ hm))
    | some a =>
      refine ih (f := { f with layers := (f.layers.pop (r, l)).set (r, l) (b.store (some a)) }) ?_ (by simp [hd]) (fun m hm => hW m (List.mem_cons_of_mem _ hm))
      refine named_save h hD (.layer r l) (hW l List.mem_cons_self) _ (fun q => ?_) (fun k hk => ?_)
      · cases q with
        | layer r' l' =>
          unfold TileFolder.item
          simp only [Dict.get?_pop_set, Prod.mk.injEq, TilePart.layer.injEq]
          split <;> rfl
        | _ => rfl
      · rw [Dict.mem_keys_set, Dict.mem_keys_pop] at hk
        rcases hk with rfl | ⟨-, hk⟩
        · exact hW l List.mem_cons_self
        · exact hD.layers k hk

theorem named_res (h : FloatText fmt parse) (b : Backend) (t : Tile) (r : ℚ) {f : TileFolder} {D : Dir} (hD : Named fmt f D) {d : Tile.TileDisk} (hd : d.now = some f) :
    (Dir.saveRes fmt b t D r).err = (Tile.saveRes b t d r).err ∧ ∃ f', (Tile.saveRes b t d r).st.now = some f' ∧ Named fmt f' (Dir.saveRes fmt b t D r).st := by
  unfold Dir.saveRes Tile.saveRes
  cases t.cells.get? r with
  | none => exact ⟨rfl, f, hd, hD⟩
  | some ls =>
    obtain ⟨f1, h1, h2⟩ := named_layers h b r ls hD hd
    simp only
    cases t.edgesX.get? r with
    | none => exact ⟨rfl, f1, h1, h2⟩
    | some ex =>
      simp only
      have h3 : Named fmt { f1 with edgesX := (f1.edgesX.pop r).set r (b.store (some ex)) } (Dir.saveItem (edgesXPath fmt r) (.nums (b.store (some ex))) (Dir.saveLayers fmt b r ls D)) := by
        refine named_save h h2 (.edgesX r) trivial _ (fun q => ?_) h2.layers
        cases q with
        | edgesX r' =>
          unfold TileFolder.item
          simp only [Dict.get?_pop_set, TilePart.edgesX.injEq]
          split <;> rfl
        | _ => rfl
      cases t.edgesY.get? r with
      | none => exact ⟨rfl, _, by simp [Res.fail, h1], h3⟩
      | some ey =>
        refine ⟨rfl, { f1 with edgesX := (f1.edgesX.pop r).set r (b.store (some ex)), edgesY := (f1.edgesY.pop r).set r (b.store (some ey)) }, by simp [h1], ?_⟩
        refine named_save h h3 (.edgesY r) trivial _ (fun q => ?_) h2.layers
        cases q with
        | edgesY r' =>
          unfold TileFolder.item
          simp only [Dict.get?_pop_set, TilePart.edgesY.injEq]
          split <;> rfl
        | _ => rfl

theorem named_allRes (h : FloatText fmt parse) (b : Backend) (t : Tile) (rs : List ℚ) {f : TileFolder} {D : Dir} (hD : Named fmt f D) {d : Tile.TileDisk} (hd : d.now = some f) :
    (Res.forEach rs D (Dir.saveRes fmt b t)).err = (Res.forEach rs d (Tile.saveRes b t)).err ∧
      ∃ f', (Res.forEach rs d (Tile.saveRes b t)).st.now = some f' ∧ Named fmt f' (Res.forEach rs D (Dir.saveRes fmt b t)).st := by
  induction rs generalizing f D d with
  | nil => exact ⟨rfl, f, hd, hD⟩
  | cons r rs ih =>
    obtain ⟨h1, f1, h2, h3⟩ := named_res h b t r hD hd
    unfold Res.forEach Res.andThen
    rw [h1]
    cases (Tile.saveRes b t d r).err with
    | none => exact ih h3 h2
    | some e => exact ⟨rfl, f1, h2, h3⟩

theorem named_indices (h : FloatText fmt parse) (b : Backend) (t : Tile) {f : TileFolder} {D : Dir} (hD : Named fmt f D) {d : Tile.TileDisk} (hd : d.now = some f) :
    ∃ f', (Tile.saveIndices b t d).now = some f' ∧ Named fmt f' (Dir.saveIndices fmt b t D) := by
  unfold Tile.saveIndices Dir.saveIndices
  generalize t.cellIdx = c
  induction c generalizing d f D with
  | nil => exact ⟨f, hd, hD⟩
  | cons p c ih =>
    rw [List.foldl_cons, List.foldl_cons]
    refine ih (f := { f with indices := (f.indices.pop p.1).set p.1 (b.store (some p.2)) }) ?_ (by simp [hd])
    refine named_save h hD (.indices p.1) trivial _ (fun q => ?_) hD.layers
    cases q with
    | indices r' =>
      unfold TileFolder.item
      simp only [Dict.get?_pop_set, TilePart.indices.injEq]
      split <;> rfl
    | _ => rfl

theorem named_data (h : FloatText fmt parse) {listdir : Dir → List Name} (hl : Lists listdir) (b : Backend) (t : Tile) (part : Tile.Part) {f : TileFolder} {D : Dir}
    (hD : Named fmt f D) {d : Tile.TileDisk} (hd : d.now = some f) :
    (Dir.saveData fmt listdir b t part D).err = (Tile.saveTileData b t part d).err ∧
      ∃ f', (Tile.saveTileData b t part d).st.now = some f' ∧ Named fmt f' (Dir.saveData fmt listdir b t part D).st := by
  unfold Dir.saveData Tile.saveTileData
  have h1 : ∃ f1, (if part = .grid then d else Tile.saveData b t d).now = some f1 ∧
      Named fmt f1 (if part = .grid then D else Dir.saveItem dataPath (.pts (b.store t.data)) D) := by
    split
    · exact ⟨f, hd, hD⟩
    · refine ⟨_, Tile.saveData_now b t hd, named_save h hD .data trivial _ (fun q => ?_) hD.layers⟩
      cases q <;> rfl
  obtain ⟨f1, e1, n1⟩ := h1
  simp only
  generalize (if part = .grid then d else Tile.saveData b t d) = d1 at e1 ⊢
  generalize (if part = .grid then D else Dir.saveItem dataPath (.pts (b.store t.data)) D) = D1 at n1 ⊢
  by_cases hp : part = .points
  · rw [if_pos hp, if_pos hp]
    exact ⟨rfl, named_indices h b t n1 e1⟩
  · rw [if_neg hp, if_neg hp]
    obtain ⟨k1, f2, k2, k3⟩ := named_allRes h b t t.cells.keys (named_clear hl n1) (Tile.removeCells_now e1)
    unfold Res.andThen
    rw [k1]
    cases (Res.forEach t.cells.keys (Tile.removeCells d1) (Tile.saveRes b t)).err with
    | none => exact ⟨rfl, named_indices h b t k3 k2⟩
    | some e => exact ⟨rfl, f2, k2, k3⟩

theorem named_empty (fmt : ℚ → Name) : Named fmt {} [] := by
  refine ⟨fun q _ => ?_, fun n hn => absurd hn List.not_mem_nil, fun k hk => absurd hk List.not_mem_nil⟩
  cases q <;> rfl

end Bathy
