import Mathlib.Logic.Encodable.Basic
import Mathlib.Logic.Equiv.Nat
import Verif.Lemmas.DiskNames
import Verif.Lemmas.DiskGrid
import Verif.Props.Save

/-!
# C103: names on disk

In Storage.lean the arrays of a tile are found by resolution and layer, the folders of the tiles by origin.  `Dir.saveTile`, `Dir.loadTile` (Model/DiskNames.lean)
write and read with the names of the code.
-/

namespace Bathy

variable {fmt : ℚ → Name} {parse : Name → Option ℚ}

/-- **C103** Two things in the folder of a tile never have the same name, and the names that begin with 'cell' are those of layers, cell edges and cell indices. -/
theorem C103_parts (h : FloatText fmt parse) :
    (∀ p q : TilePart, p.Kept → q.Kept → p.path fmt = q.path fmt → p = q) ∧
    ∀ p : TilePart, (p.path fmt).take 4 = ['c', 'e', 'l', 'l'] ↔ p ≠ .info ∧ p ≠ .data :=
  ⟨fun _ _ hp hq e => path_inj h hp hq e, take_cell fmt⟩

/-- **C103** (keys): the layers of a tile that are not named after a line have different keys, also those that are never saved. -/
theorem C103_keys {l l' : Layer} (hl : ∀ c, l ≠ .cont c ∧ l ≠ .contDensity c) (hl' : ∀ c, l' ≠ .cont c ∧ l' ≠ .contDensity c) (e : l.key = l'.key) : l = l' := by
  cases l <;> cases l' <;> first
    | rfl
    | exact absurd rfl (hl _).1
    | exact absurd rfl (hl _).2
    | exact absurd rfl (hl' _).1
    | exact absurd rfl (hl' _).2
    | exact absurd e (by decide)

example : ∀ c, Layer.xSlope ≠ .cont c ∧ Layer.xSlope ≠ .contDensity c := by intro c; simp

/-- **C103** Writing a tile with the names has the same effect as in Storage.lean, for every tile, part and former contents, also if it raises. -/
theorem C103_save (h : FloatText fmt parse) {listdir : Dir → List Name} (hl : Lists listdir) (b : Backend) (t : Option Tile) (part : Tile.Part) {d : Tile.TileDisk} {D : Option Dir}
    (hD : NamedFolder fmt d.now D) :
    (Dir.saveTile fmt listdir b t part D).err = (Tile.saveTile b t part d).err ∧ NamedFolder fmt (Tile.saveTile b t part d).st.now (Dir.saveTile fmt listdir b t part D).st := by
  cases t with
  | none => exact ⟨rfl, trivial⟩
  | some t =>
    have h0 : Named fmt (d.now.getD {}) (D.getD []) := by
      cases hf : d.now with
      | none =>
        cases D with
        | none => exact named_empty fmt
        | some D => rw [hf] at hD; exact absurd hD id
      | some f =>
        cases D with
        | none => rw [hf] at hD; exact absurd hD id
        | some D => rw [hf] at hD; exact hD
    obtain ⟨h1, f', h2, h3⟩ := named_data h hl b t part (named_meta h h0 t) (Tile.saveMeta_now t d)
    refine ⟨h1, ?_⟩
    show NamedFolder fmt (Tile.saveTileData b t part (Tile.saveMeta t d)).st.now (some _)
    rw [h2]
    exact h3

/-- **C103** Reading a tile with the names gives the same as in Storage.lean, in whatever order `os.listdir` has the names. -/
theorem C103_load (h : FloatText fmt parse) {listdir : Dir → List Name} (hl : Lists listdir) (old : Option Tile) (part : Tile.Part) {f : Option TileFolder} {D : Option Dir}
    (hD : NamedFolder fmt f D) : Dir.loadTile fmt parse listdir old part D = Tile.loadTile old part f := by
  cases f with
  | none =>
    cases D with
    | none => rfl
    | some D => exact absurd hD id
  | some f =>
    cases D with
    | none => exact absurd hD id
    | some D =>
      have hD : Named fmt f D := hD
      unfold Dir.loadTile Tile.loadTile
      simp only [loadMeta_named hD]
      congr 1
      cases Tile.loadMeta f (old.getD (Tile.new 0 0 0 false)) with
      | error e => rfl
      | ok t => exact loadData_named h hl hD part t

/-- **C103** Different origins give different folder names, and none of these is the name of another file in the root folder of the grid. -/
theorem C103_tile_names (h : FloatText fmt parse) (p q : ℚ × ℚ) : (tileName fmt p = tileName fmt q → p = q) ∧ tileName fmt p ∉ rootFiles := by
  refine ⟨fun e => ?_, fun hm => ?_⟩
  · obtain ⟨h1, h2⟩ := append_sep (h.plain _) (h.plain _) e
    exact Prod.ext (h.inj h1) (h.inj h2)
  · obtain ⟨c, cs, e, hc⟩ := h.start p.1
    unfold tileName at hm
    rw [e] at hm
    simp only [rootFiles, List.mem_cons, List.not_mem_nil, or_false, List.cons_append, List.cons.injEq] at hm
    rcases hm with ⟨rfl, -⟩ | ⟨rfl, -⟩ | ⟨rfl, -⟩ | ⟨rfl, -⟩ | ⟨rfl, -⟩ | ⟨rfl, -⟩ <;> revert hc <;> decide

variable {env : Env} {size sub : ℚ} {bs : Bool} {fl : Fields} {F : Family} {s : Bool} {A : Store}

/-- the slot of a tile of a growing grid -/
theorem slot_rep {τ : Type} [TileLike τ] {C : ChildSpec τ size sub bs fl} {g : Grid τ} (h : Grid.GrowInv C g A) {k : Nat} {t : τ} (hk : g.tile? k = some (some t)) :
    ∃ x y B, g.tileOrigin k = some (x, y) ∧ C.Rep x y t B := by
  rcases h.body with ⟨-, e, -⟩ | ⟨-, i, j, nx, ny, T, hf, -⟩
  · unfold Grid.tile? at hk
    rw [e] at hk
    cases hk
  · unfold Grid.tile? at hk
    rw [hf.tiles] at hk
    obtain ⟨h1, h2, h3, h4⟩ := hf.rep
    replace hk : T.flat[k]? = some (some t) := hk
    have hlt : k < ny * nx := by
      rw [← h3]
      exact (List.getElem?_eq_some_iff.1 hk).1
    rcases h4 k _ hk with ⟨e, -⟩ | ⟨t', e, -, hrep⟩
    · cases e
    · cases e
      exact ⟨_, _, _, Grid.tileOrigin_eq hf.txs hf.tys hlt, hrep⟩

/-- two slots of a growing grid -/
theorem slots_distinct {τ : Type} [TileLike τ] (hs : 0 < size) {C : ChildSpec τ size sub bs fl} {g : Grid τ} (h : Grid.GrowInv C g A) {j k : Nat} {o o' : Option τ}
    (hj : g.tile? j = some o) (hk : g.tile? k = some o') (e : g.tileOrigin j = g.tileOrigin k) : j = k := by
  rcases h.body with ⟨-, e', -⟩ | ⟨-, i', j', nx, ny, T, hf, -⟩
  · unfold Grid.tile? at hk
    rw [e'] at hk
    cases hk
  · unfold Grid.tile? at hk hj
    rw [hf.tiles] at hk hj
    obtain ⟨-, -, h3, -⟩ := hf.rep
    have lt : ∀ {n : Nat} {o : Option τ}, T.flat[n]? = some o → n < ny * nx := fun {n o} hn => by
      rw [← h3]
      exact (List.getElem?_eq_some_iff.1 hn).1
    have ek := Grid.tileOrigin_eq hf.txs hf.tys (lt hk)
    exact Grid.origin_inj hs hf.txs hf.tys (lt hj) (lt hk) (e.trans ek) ek

/-- **C103** In every reachable grid: the folder of a tile, named after its place in the grid now, is the one named after the corner the tile was made with
(bathygrid/bgrid.py:650-653), however the grid has grown since; different places have different folders. -/
theorem C103_places_sr (h : FloatText fmt parse) (hs : 0 < size) {g : Grid Tile} (hg : SRHistory env size bs fl F s g A) :
    (∀ k t, g.tile? k = some (some t) → (g.tileOrigin k).map (tileName fmt) = some (tileName fmt (t.minX, t.minY))) ∧
    (∀ j k o o', g.tile? j = some o → g.tile? k = some o' → (g.tileOrigin j).map (tileName fmt) = (g.tileOrigin k).map (tileName fmt) → j = k) := by
  have hi := (sr_inv hs hg).1
  refine ⟨fun k t hk => ?_, fun j k o o' hj hk e => slots_distinct hs hi hj hk (Option.map_injective (fun p q => (C103_tile_names h p q).1) e)⟩
  obtain ⟨x, y, B, ho, hrep⟩ := slot_rep hi hk
  obtain ⟨hf, -, -⟩ := history_frame hs hrep.1
  have f1 : t.minX = x := hf.1
  have f3 : t.minY = y := hf.2.2.1
  rw [ho, f1, f3]
  rfl

/-- **C103** (variable resolution; the corner the subgrid was made with is the corner of its extents) -/
theorem C103_places_vr (h : FloatText fmt parse) (hs : 0 < size) (hsub : isPowerOfTwo sub = true) {g : Grid (Grid Tile)} (hg : VRHistory env size sub bs fl F s g A) :
    (∀ k u, g.tile? k = some (some u) → ∃ e, u.extents = some e ∧ (g.tileOrigin k).map (tileName fmt) = some (tileName fmt (e.minX, e.minY)) ∧
      ∀ k' t, u.tile? k' = some (some t) → (u.tileOrigin k').map (tileName fmt) = some (tileName fmt (t.minX, t.minY))) ∧
    (∀ j k o o', g.tile? j = some o → g.tile? k = some o' → (g.tileOrigin j).map (tileName fmt) = (g.tileOrigin k).map (tileName fmt) → j = k) := by
  have hi := (vr_inv hs hsub hg).1
  refine ⟨fun k u hk => ?_, fun j k o o' hj hk e => slots_distinct hs hi hj hk (Option.map_injective (fun p q => (C103_tile_names h p q).1) e)⟩
  obtain ⟨x, y, B, ho, hrep⟩ := slot_rep hi hk
  have hrep : Grid.SubInv _ size x y u B := hrep
  refine ⟨_, hrep.extents, by rw [ho]; rfl, fun k' t hk' => ?_⟩
  obtain ⟨T, hf⟩ := hrep.frame
  unfold Grid.tile? at hk'
  rw [hf.tiles] at hk'
  obtain ⟨h1, h2, h3, h4⟩ := hf.rep
  replace hk' : T.flat[k']? = some (some t) := hk'
  have hlt := (List.getElem?_eq_some_iff.1 hk').1
  rw [h3] at hlt
  rcases h4 k' _ hk' with ⟨e, -⟩ | ⟨t', e, -, hr⟩
  · cases e
  · cases e
    obtain ⟨hfr, -, -⟩ := history_frame (isPowerOfTwo_pos hsub) hr.1
    rw [Grid.tileOrigin_eq hf.txs hf.tys hlt]
    have f1 : t.minX = _ := hfr.1
    have f3 : t.minY = _ := hfr.2.2.1
    rw [f1, f3]
    rfl

/-! ## examples -/

/-- a way to write numbers: the code number of the fraction, in strokes -/
def strokes (q : ℚ) : Name := '-' :: List.replicate (Encodable.encode (q.num, q.den)) '1'

open Classical in
/-- the number that was written -/
noncomputable def unstrokes (n : Name) : Option ℚ := if h : ∃ q, strokes q = n then some h.choose else none

theorem strokes_inj {p q : ℚ} (e : strokes p = strokes q) : p = q := by
  unfold strokes at e
  have := congrArg List.length e
  simp only [List.length_cons, List.length_replicate, Nat.add_right_cancel_iff] at this
  have := Encodable.encode_injective this
  simp only [Prod.mk.injEq] at this
  exact Rat.ext this.1 this.2

theorem strokes_text : FloatText strokes unstrokes where
  parse_fmt q := by
    unfold unstrokes
    have h : ∃ p, strokes p = strokes q := ⟨q, rfl⟩
    rw [dif_pos h]
    exact congrArg some (strokes_inj h.choose_spec)
  plain q := by
    unfold strokes
    simp
  start q := ⟨'-', _, rfl, .inl rfl⟩

/-- names in the order they were made -/
theorem lists_keys : Lists (fun D => Dict.keys D) := fun _ _ => Iff.rfl

/-- names in the opposite order -/
theorem lists_reverse : Lists (fun D => (Dict.keys D).reverse) := fun _ _ => List.mem_reverse

/-- the names of the code: 'cells_0.5_vertical_uncertainty' is in three pieces or more, the second is the resolution -/
example : splitU ("cells_0.5_vertical_uncertainty".toList) = ["cells".toList, "0.5".toList, "vertical".toList, "uncertainty".toList] := by decide +kernel

/-- a tile is written to an empty place and read back with the names in the opposite order -/
example (b : Backend) (t : Tile) (part : Tile.Part) :
    (Dir.saveTile strokes (fun D => Dict.keys D) b (some t) part none).err = (Tile.saveTile b (some t) part ⟨none, []⟩).err ∧
    Dir.loadTile strokes unstrokes (fun D => (Dict.keys D).reverse) none part (Dir.saveTile strokes (fun D => Dict.keys D) b (some t) part none).st =
      Tile.loadTile none part (Tile.saveTile b (some t) part ⟨none, []⟩).st.now := by
  obtain ⟨h1, h2⟩ := C103_save strokes_text lists_keys b (some t) part (d := ⟨none, []⟩) (D := none) trivial
  exact ⟨h1, C103_load strokes_text lists_reverse none part h2⟩

example : tileName strokes (0, 16) ≠ tileName strokes (16, 0) := fun e => by
  have := (C103_tile_names strokes_text _ _).1 e
  simp at this

example (k : Nat) (t : Tile) (hk : demoSRg.tile? k = some (some t)) : (demoSRg.tileOrigin k).map (tileName strokes) = some (tileName strokes (t.minX, t.minY)) :=
  (C103_places_sr strokes_text (by norm_num) demoSRg_history).1 k t hk

example (k : Nat) (u : Grid Tile) (hk : demoVRg.tile? k = some (some u)) : ∃ e, u.extents = some e ∧
    (demoVRg.tileOrigin k).map (tileName strokes) = some (tileName strokes (e.minX, e.minY)) := by
  obtain ⟨e, h1, h2, -⟩ := (C103_places_vr strokes_text (by norm_num) (by decide +kernel) demoVRg_history).1 k u hk
  exact ⟨e, h1, h2⟩

/-- there are such tiles -/
example : ∃ k t, demoSRg.tile? k = some (some t) := by
  have h : ((List.range 4).any fun k => match demoSRg.tile? k with | some (some _) => true | _ => false) = true := by decide +kernel
  obtain ⟨k, -, hk⟩ := List.any_eq_true.1 h
  cases e : demoSRg.tile? k with
  | none => rw [e] at hk; cases hk
  | some o =>
    cases o with
    | none => rw [e] at hk; cases hk
    | some t => exact ⟨k, t, e⟩

end Bathy
