import Verif.Lemmas.LayerAnswers
import Verif.Spec.DemoGrid

/-!
# C34, C35, C38: layers of the whole grid
-/

namespace Bathy

/-- what a call `get_layers_by_name(layers, res, nodata, z_positive_up)` should leave behind and return -/
structure MosaicSpec {τ : Type} [HasLeaves τ] (g : Grid τ) (layers : List Layer) (res : ℚ) (nodata : Option ℚ) (zUp : Bool) (g' : Grid τ) (o : Option (List LayerArr)) : Prop where
  /-- the grid is not changed -/
  same : g' = g
  /-- None is returned exactly when no tile stores a number -/
  none_iff : o = none ↔ ∀ l ∈ layers, ∀ x y z, ¬ StoredCell g l res x y z
  /-- one array per layer, over the extents of the grid, with the stored cells at their places; depths are negated exactly when the convention
  asked for is not the stored one -/
  shows : ∀ D, o = some D → D.length = layers.length ∧ ∃ e, g.extents = some e ∧ ∀ (k : Nat) l, layers[k]? = some l → ∃ a, D[k]? = some a ∧
    (a.rows : ℚ) * res = e.maxY - e.minY ∧ (a.cols : ℚ) * res = e.maxX - e.minX ∧
    ∀ flip, (flip = true ↔ (zUp = true ↔ ¬ StoredUp g)) → ShowsCells g l res nodata flip e.minX e.minY a

theorem mosaic_of_answers {τ : Type} [TileLike τ] [LayerLike τ] [HasLeaves τ] {size sub : ℚ} {bs : Bool} {fl : Fields} {env : Env} {C : ChildSpec τ size sub bs fl}
    (L : Grid.Answers env C) {g : Grid τ} {A : Store} (hg : Grid.GrowInv C g A) {layers : List Layer} (hcore : ∀ l ∈ layers, l.isCore = true) (hnd : layers.Nodup)
    {res : ℚ} (hres : 0 < res) (hall : g.AllOrNone layers res) {nodata : Option ℚ} {zUp : Bool} {g' : Grid τ} {o : Option (List LayerArr)}
    (h : g.getLayersByName env layers (some res) nodata zUp = (g', .ok o)) : MosaicSpec g layers res nodata zUp g' o := by
  obtain ⟨h1, h2, h3⟩ := Grid.grow_answers L hg hcore hnd hres hall h
  refine ⟨h1, ⟨h2, ?_⟩, ?_⟩
  · intro hno
    cases o with
    | none => rfl
    | some D =>
      obtain ⟨-, ⟨l, hl, x, y, z, hz⟩, -⟩ := h3 D rfl
      exact absurd hz (hno l hl x y z)
  · intro D hD
    obtain ⟨k1, -, e, he, k2⟩ := h3 D hD
    refine ⟨k1, e, he, ?_⟩
    intro k l hk
    obtain ⟨a, m1, m2, m3, m4⟩ := k2 k l hk
    refine ⟨a, m1, m2, m3, ?_⟩
    intro flip hf
    have : flip = Grid.flips g zUp := by
      rw [Bool.eq_iff_iff, hf, flips_eq]
    rw [this]; exact m4

/-- **C34** (single resolution grids).  Every gridded layer of a grid in any state is returned as an array over the extents of the grid, in which
the entry (i, j) is the stored number of the tile cell with lower left corner (min_x + j·res, min_y + i·res), or the nodata value if no tile stores
a number for that place; no stored number is missing. -/
theorem C34_mosaic_sr {env : Env} {size : ℚ} {bs : Bool} {fl : Fields} (hs : 0 < size) {F : Family} {s : Bool} {g : Grid Tile} {A : Store}
    (h : SRHistory env size bs fl F s g A) {l : Layer} (hl : l.isCore = true) {res : ℚ} (hres : 0 < res) {nodata : Option ℚ} {zUp : Bool} {g' : Grid Tile}
    {o : Option (List LayerArr)} (hq : g.getLayersByName env [l] (some res) nodata zUp = (g', .ok o)) : MosaicSpec g [l] res nodata zUp g' o :=
  mosaic_of_answers (answers_tile env F hs) (sr_inv hs h).1 (by simpa using hl) (by simp) hres (Grid.allOrNone_single g l res) hq

/-- **C34** (variable resolution grids). -/
theorem C34_mosaic_vr {env : Env} {size sub : ℚ} {bs : Bool} {fl : Fields} (hs : 0 < size) (hpow : isPowerOfTwo sub = true) {q : Nat} (hdiv : size = (q : ℚ) * sub)
    {F : Family} {s : Bool} {g : Grid (Grid Tile)} {A : Store} (h : VRHistory env size sub bs fl F s g A) {l : Layer} (hl : l.isCore = true) {res : ℚ} (hres : 0 < res)
    {nodata : Option ℚ} {zUp : Bool} {g' : Grid (Grid Tile)} {o : Option (List LayerArr)} (hq : g.getLayersByName env [l] (some res) nodata zUp = (g', .ok o)) :
    MosaicSpec g [l] res nodata zUp g' o :=
  mosaic_of_answers (Grid.answers_sub (answers_tile env F (isPowerOfTwo_pos hpow)) hs hpow hdiv) (vr_inv hs hpow h).1 (by simpa using hl) (by simp) hres
    (Grid.allOrNone_single g l res) hq

/-- the values of the example are there and two of them are known -/
example : SRHistory demoEnv 16 false demoFields .plain false demoSRg demoStore ∧
    (demoSRg.getLayersByName demoEnv [.depth] (some 8) none false).1 = demoSRg ∧
    ∃ a, (demoSRg.getLayersByName demoEnv [.depth] (some 8) none false).2 = .ok (some [a]) ∧ a.rows = 12 ∧ a.get? 0 4 = some (some (25 / 2)) ∧ a.get? 2 6 = some (some 9) ∧
      a.get? 0 0 = some none := by
  refine ⟨demoSRg_history, ?_⟩
  have : ∃ a, (demoSRg.getLayersByName demoEnv [.depth] (some 8) none false).2 = .ok (some [a]) ∧ a.rows = 12 ∧ a.get? 0 4 = some (some (25 / 2)) ∧ a.get? 2 6 = some (some 9) ∧
      a.get? 0 0 = some none := by
    have h : (match (demoSRg.getLayersByName demoEnv [.depth] (some 8) none false).2 with
      | .ok (some [a]) => a.rows == 12 && a.get? 0 4 == some (some (25 / 2)) && a.get? 2 6 == some (some 9) && a.get? 0 0 == some none
      | _ => false) = true := by decide +kernel
    split at h
    · rename_i a ha
      simp only [Bool.and_eq_true, beq_iff_eq] at h
      exact ⟨a, ha, h.1.1.1, h.1.1.2, h.1.2, h.2⟩
    · cases h
  obtain ⟨a, h1, h2⟩ := this
  exact ⟨(C34_mosaic_sr (by norm_num) demoSRg_history rfl (by norm_num) (Prod.ext_iff.2 ⟨rfl, h1⟩)).same, a, h1, h2⟩

example : VRHistory demoEnv 32 16 false demoFields .plain false demoVRg demoStore ∧ (32 : ℚ) = ((2 : Nat) : ℚ) * 16 ∧
    (match (demoVRg.getLayersByName demoEnv [.depth] (some 8) (some 99) true).2 with
      | .ok (some [a]) => a.rows == 16 && a.get? 0 4 == some (some (-25 / 2)) && a.get? 2 6 == some (some (-9)) && a.get? 0 0 == some (some 99)
      | _ => false) = true := ⟨demoVRg_history, by norm_num, by decide +kernel⟩

/-- **C35**, partial: a list of different gridded layers, when every tile stores numbers for all of them or for none of them (a single
resolution tile that was gridded by mean or shoalest has numbers in all its layers).  Each layer is then returned in its own slot.
Missing: lists for which some tile has one layer without another, see `C35_violated`. -/
theorem C35_own_slot_sr_partial {env : Env} {size : ℚ} {bs : Bool} {fl : Fields} (hs : 0 < size) {F : Family} {s : Bool} {g : Grid Tile} {A : Store}
    (h : SRHistory env size bs fl F s g A) {layers : List Layer} (hcore : ∀ l ∈ layers, l.isCore = true) (hnd : layers.Nodup) {res : ℚ} (hres : 0 < res)
    (hall : g.AllOrNone layers res) {nodata : Option ℚ} {zUp : Bool} {g' : Grid Tile}
    {o : Option (List LayerArr)} (hq : g.getLayersByName env layers (some res) nodata zUp = (g', .ok o)) : MosaicSpec g layers res nodata zUp g' o :=
  mosaic_of_answers (answers_tile env F hs) (sr_inv hs h).1 hcore hnd hres hall hq

/-- **C35**, partial, variable resolution grids. -/
theorem C35_own_slot_vr_partial {env : Env} {size sub : ℚ} {bs : Bool} {fl : Fields} (hs : 0 < size) (hpow : isPowerOfTwo sub = true) {q : Nat} (hdiv : size = (q : ℚ) * sub)
    {F : Family} {s : Bool} {g : Grid (Grid Tile)} {A : Store} (h : VRHistory env size sub bs fl F s g A) {layers : List Layer} (hcore : ∀ l ∈ layers, l.isCore = true)
    (hnd : layers.Nodup) {res : ℚ} (hres : 0 < res) (hall : g.AllOrNone layers res)
    {nodata : Option ℚ} {zUp : Bool} {g' : Grid (Grid Tile)} {o : Option (List LayerArr)} (hq : g.getLayersByName env layers (some res) nodata zUp = (g', .ok o)) :
    MosaicSpec g layers res nodata zUp g' o :=
  mosaic_of_answers (Grid.answers_sub (answers_tile env F (isPowerOfTwo_pos hpow)) hs hpow hdiv) (vr_inv hs hpow h).1 hcore hnd hres hall hq

/-- two containers in two tiles -/
def slotGrid : Grid Tile :=
  (((((newSR 16 false).addPoints ⟨demoFields, [⟨1, 1, 5, 1, 1⟩]⟩ "a" {}).st.addPoints ⟨demoFields, [⟨20, 1, 7, 1, 1⟩]⟩ "b" {}).st).gridWith demoEnv { alg := .mean, res := some 8 } none).st

/-- **C35 is violated**: the tile of container b has no soundings of container a, so its depths (here 7) end up in the array that is returned for
the layer of container a. -/
theorem C35_violated : SRHistory demoEnv 16 false demoFields .plain false slotGrid [("a", [⟨1, 1, 5, 1, 1⟩]), ("b", [⟨20, 1, 7, 1, 1⟩])] ∧
    ∃ a d, (slotGrid.getLayersByName demoEnv [.cont "a", .depth] (some 8) none false).2 = .ok (some [a, d]) ∧
      a.get? 0 0 = some (some 5) ∧ d.get? 0 0 = some (some 5) ∧ a.get? 0 2 = some (some 7) ∧ d.get? 0 2 = some none := by
  refine ⟨((((GridHistory.new .plain).add _ "a" {} (by decide +kernel)).add _ "b" {} (by decide +kernel)).grid { alg := .mean, res := some 8 } rfl none), ?_⟩
  have h : (match (slotGrid.getLayersByName demoEnv [.cont "a", .depth] (some 8) none false).2 with
    | .ok (some [a, d]) => a.get? 0 0 == some (some 5) && d.get? 0 0 == some (some 5) && a.get? 0 2 == some (some 7) && d.get? 0 2 == some none
    | _ => false) = true := by decide +kernel
  split at h
  · rename_i a d ha
    simp only [Bool.and_eq_true, beq_iff_eq] at h
    exact ⟨a, d, ha, h.1.1.1, h.1.1.2, h.1.2, h.2⟩
  · cases h

end Bathy
