import Verif.Props.Layers
import Verif.Lemmas.GridExtents

/-!
# C38: sign of depths
-/

namespace Bathy

/-- the array, whose entry (i, j) is for the cell at (x0 + j·res, y0 + i·res), holds the negated stored depth everywhere if the convention that was
asked for is not the one in which the depths are stored; otherwise, and for other layers than depth always, it holds the stored number -/
def SignRule {τ : Type} [HasLeaves τ] (g : Grid τ) (l : Layer) (res : ℚ) (zUp : Bool) (x0 y0 : ℚ) (a : LayerArr) : Prop :=
  ∀ x y z, StoredCell g l res x y z → ∃ i j : Nat, x = x0 + (j : ℚ) * res ∧ y = y0 + (i : ℚ) * res ∧
    ((l = .depth ∧ ((zUp = true ∧ ¬ StoredUp g) ∨ (zUp = false ∧ StoredUp g)) → a.get? i j = some (some (-z))) ∧
     (l ≠ .depth ∨ (zUp = true ∧ StoredUp g) ∨ (zUp = false ∧ ¬ StoredUp g) → a.get? i j = some (some z)))

theorem signRule_of_spec {τ : Type} [HasLeaves τ] {g g' : Grid τ} {layers : List Layer} {res : ℚ} {nodata : Option ℚ} {zUp : Bool} {D : List LayerArr}
    (h : MosaicSpec g layers res nodata zUp g' (some D)) : ∃ e, g.extents = some e ∧ ∀ (k : Nat) l, layers[k]? = some l → ∃ a, D[k]? = some a ∧ SignRule g l res zUp e.minX e.minY a := by
  obtain ⟨-, e, he, hk⟩ := h.shows D rfl
  refine ⟨e, he, fun k l hl => ?_⟩
  obtain ⟨a, ha, -, -, hsh⟩ := hk k l hl
  refine ⟨a, ha, fun x y z hz => ?_⟩
  by_cases hst : StoredUp g
  · have hs := hsh (!zUp) (by simp [hst])
    obtain ⟨i, j, hi, hj, hx, hy⟩ := hs.all x y z hz
    have hv := hs.value i j z hi hj (by rw [← hx, ← hy]; exact hz)
    refine ⟨i, j, hx, hy, fun hc => ?_, fun hc => ?_⟩
    · rw [hv]
      obtain ⟨h1, h2⟩ := hc
      have : zUp = false := by rcases h2 with h2 | h2; exacts [absurd hst h2.2, h2.1]
      simp [shownValue, h1, this]
    · rw [hv]
      rcases hc with h1 | h1 | h1
      · simp [shownValue, h1]
      · simp [shownValue, h1.1]
      · exact absurd hst h1.2
  · have hs := hsh zUp (by simp [hst])
    obtain ⟨i, j, hi, hj, hx, hy⟩ := hs.all x y z hz
    have hv := hs.value i j z hi hj (by rw [← hx, ← hy]; exact hz)
    refine ⟨i, j, hx, hy, fun hc => ?_, fun hc => ?_⟩
    · rw [hv]
      obtain ⟨h1, h2⟩ := hc
      have : zUp = true := by rcases h2 with h2 | h2; exacts [h2.1, absurd h2.2 hst]
      simp [shownValue, h1, this]
    · rw [hv]
      rcases hc with h1 | h1 | h1
      · simp [shownValue, h1]
      · exact absurd h1.2 hst
      · simp [shownValue, h1.1]

/-- **C38** (single resolution grids), for every gridded layer of a grid in any state. -/
theorem C38_sign_sr {env : Env} {size : ℚ} {bs : Bool} {fl : Fields} (hs : 0 < size) {F : Family} {s : Bool} {g : Grid Tile} {A : Store}
    (h : SRHistory env size bs fl F s g A) {l : Layer} (hl : l.isCore = true) {res : ℚ} (hres : 0 < res) {nodata : Option ℚ} {zUp : Bool} {g' : Grid Tile}
    {D : List LayerArr} (hq : g.getLayersByName env [l] (some res) nodata zUp = (g', .ok (some D))) :
    ∃ e a, g.extents = some e ∧ D = [a] ∧ SignRule g l res zUp e.minX e.minY a := by
  have hm := C34_mosaic_sr hs h hl hres hq
  obtain ⟨e, he, hk⟩ := signRule_of_spec hm
  obtain ⟨a, ha, hr⟩ := hk 0 l rfl
  have hlen := (hm.shows D rfl).1
  match D, hlen, ha with
  | [b], _, ha => exact ⟨e, b, he, rfl, by cases ha; exact hr⟩

/-- **C38** (variable resolution grids). -/
theorem C38_sign_vr {env : Env} {size sub : ℚ} {bs : Bool} {fl : Fields} (hs : 0 < size) (hpow : isPowerOfTwo sub = true) {q : Nat} (hdiv : size = (q : ℚ) * sub)
    {F : Family} {s : Bool} {g : Grid (Grid Tile)} {A : Store} (h : VRHistory env size sub bs fl F s g A) {l : Layer} (hl : l.isCore = true) {res : ℚ} (hres : 0 < res)
    {nodata : Option ℚ} {zUp : Bool} {g' : Grid (Grid Tile)} {D : List LayerArr} (hq : g.getLayersByName env [l] (some res) nodata zUp = (g', .ok (some D))) :
    ∃ e a, g.extents = some e ∧ D = [a] ∧ SignRule g l res zUp e.minX e.minY a := by
  have hm := C34_mosaic_vr hs hpow hdiv h hl hres hq
  obtain ⟨e, he, hk⟩ := signRule_of_spec hm
  obtain ⟨a, ha, hr⟩ := hk 0 l rfl
  have hlen := (hm.shows D rfl).1
  match D, hlen, ha with
  | [b], _, ha => exact ⟨e, b, he, rfl, by cases ha; exact hr⟩

/-- **C38** for all layers of a tile, also slopes and containers: a call for positive up differs from a call for positive down in the sign of the
depths and in nothing else (the places without a value show the same nodata value in both). -/
theorem C38_sign_tile (env : Env) (t : Tile) (l : Layer) (res nodata : Option ℚ) :
    (t.getLayer env l res nodata true).1 = (t.getLayer env l res nodata false).1 ∧
    match (t.getLayer env l res nodata false).2, (t.getLayer env l res nodata true).2 with
    | .error e, .error e' => e = e'
    | .ok none, .ok none => True
    | .ok (some a), .ok (some b) => ∃ st, (∃ r, ((t.getLayer env l res nodata false).1).layerAt r l = some st) ∧ b.rows = a.rows ∧ b.cols = a.cols ∧
        ∀ i j, (∀ z, st.get? i j = some (some z) → a.get? i j = some (some z) ∧ b.get? i j = some (some (if l = .depth then -z else z))) ∧
          (st.get? i j = some none → a.get? i j = some (fillValue l nodata) ∧ b.get? i j = some (fillValue l nodata))
    | _, _ => False := by
  unfold Tile.getLayer
  simp only
  split
  · exact ⟨rfl, trivial⟩
  · split
    · exact ⟨rfl, rfl⟩
    · exact ⟨rfl, trivial⟩
    · split
      · exact ⟨rfl, rfl⟩
      · rename_i t' _
        split
        · exact ⟨rfl, rfl⟩
        · rename_i st hst
          refine ⟨rfl, ?_⟩
          simp only
          cases h1 : Tile.finishLayer l (Tile.nodataFor l nodata) false st with
          | none =>
            have : Tile.finishLayer l (Tile.nodataFor l nodata) true st = none := by
              unfold Tile.finishLayer at h1 ⊢
              split at h1
              · rename_i hh; rw [if_pos hh]
              · cases h1
            rw [this]; trivial
          | some a =>
            obtain ⟨b, h2⟩ : ∃ b, Tile.finishLayer l (Tile.nodataFor l nodata) true st = some b := by
              unfold Tile.finishLayer at h1 ⊢
              split at h1
              · cases h1
              · rename_i hh; rw [if_neg hh]; exact ⟨_, rfl⟩
            rw [h2]
            obtain ⟨a1, a2, -, a3, a4, -⟩ := finish_get h1
            obtain ⟨b1, b2, -, b3, b4, -⟩ := finish_get h2
            refine ⟨st, ⟨_, by unfold Tile.layerAt; exact hst⟩, by rw [a1, b1], by rw [a2, b2], fun i j => ⟨fun z hz => ⟨?_, ?_⟩, fun hn => ?_⟩⟩
            · rw [a3 i j z hz]; simp [shownValue]
            · rw [b3 i j z hz]; simp [shownValue]
            · rw [a4 i j hn, b4 i j hn, fillValue_eq]; exact ⟨rfl, rfl⟩

/-- a grid whose depths are stored positive up -/
def upGrid : Grid Tile :=
  (((newSR 16 false).addPoints ⟨demoFields, [⟨1, 1, -5, 1, 1⟩, ⟨20, 1, -7, 1, 1⟩]⟩ "a" { vref := some "VERTCRS[\"x\",AXIS[\"height (h)\",up]]" }).st.gridWith demoEnv { alg := .mean, res := some 8 } none).st

theorem upGrid_history : SRHistory demoEnv 16 false demoFields .plain false upGrid [("a", [⟨1, 1, -5, 1, 1⟩, ⟨20, 1, -7, 1, 1⟩])] :=
  ((GridHistory.new .plain).add _ "a" _ (by decide +kernel)).grid { alg := .mean, res := some 8 } rfl none

/-- both conventions occur, and the calls return -/
example : StoredUp upGrid ∧ ¬ StoredUp demoSRg ∧ SRHistory demoEnv 16 false demoFields .plain false upGrid [("a", [⟨1, 1, -5, 1, 1⟩, ⟨20, 1, -7, 1, 1⟩])] ∧
    (match (upGrid.getLayersByName demoEnv [.depth] (some 8) none false).2, (upGrid.getLayersByName demoEnv [.depth] (some 8) none true).2 with
      | .ok (some [a]), .ok (some [b]) => a.get? 0 2 == some (some 7) && b.get? 0 2 == some (some (-7))
      | _, _ => false) = true := by
  refine ⟨⟨"VERTCRS[\"x\",AXIS[\"height (h)\",up]]", by decide +kernel, by decide +kernel⟩, ?_, upGrid_history, by decide +kernel⟩
  rintro ⟨s, hs, -⟩
  have : demoSRg.info.vref = none := by decide +kernel
  rw [this] at hs; cases hs

/-- a container layer and the depth of a tile -/
example : ∃ t : Tile, demoSRg.TileAt 0 2 t ∧ (t.getLayer demoEnv .depth (some 8) none true).2 ≠ .ok none ∧ (t.getLayer demoEnv (.cont "b") (some 8) none true).2 ≠ .ok none := by
  obtain ⟨t, ht, hP⟩ := Grid.exists_tileAt_any (g := demoSRg) (r := 0) (c := 2) (fun t => decide ((t.getLayer demoEnv .depth (some 8) none true).2 ≠ .ok none ∧
    (t.getLayer demoEnv (.cont "b") (some 8) none true).2 ≠ .ok none)) (by decide +kernel)
  exact ⟨t, ht, of_decide_eq_true hP⟩

end Bathy
