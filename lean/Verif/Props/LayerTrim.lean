import Verif.Props.Layers
import Verif.Props.LayersGridded

/-!
# C36: trimming layers to their values
-/

namespace Bathy

/-- the array has a value (not NaN) at (i, j) -/
def HasValue (a : LayerArr) (i j : Nat) : Prop := ∃ z, a.get? i j = some (some z)

/-- rows r0 to r1 - 1 and columns c0 to c1 - 1 are the smallest box with all values of the array -/
structure Box (a : LayerArr) (r0 r1 c0 c1 : Nat) : Prop where
  inside : r1 ≤ a.rows ∧ c1 ≤ a.cols
  /-- no value is outside -/
  all : ∀ i j, HasValue a i j → r0 ≤ i ∧ i < r1 ∧ c0 ≤ j ∧ j < c1
  /-- the outermost rows and columns hold values -/
  top : ∃ j, HasValue a r0 j
  bottom : ∃ i j, i + 1 = r1 ∧ HasValue a i j
  left : ∃ i, HasValue a i c0
  right : ∃ i j, j + 1 = c1 ∧ HasValue a i j

/-- `b` is the part of `a` in rows r0 to r1 - 1 and columns c0 to c1 - 1 -/
def IsPart (a b : LayerArr) (r0 r1 c0 c1 : Nat) : Prop :=
  b.rows = r1 - r0 ∧ b.cols = c1 - c0 ∧ ∀ i j, i < b.rows → j < b.cols → b.get? i j = a.get? (r0 + i) (c0 + j)

theorem hasValue_bounds {a : LayerArr} {i j : Nat} (h : HasValue a i j) : i < a.rows ∧ j < a.cols := by
  obtain ⟨z, hz⟩ := h
  exact get?_bounds hz

theorem rowHas_iff {a : LayerArr} {i : Nat} : rowHas a i = true ↔ ∃ j, HasValue a i j := by
  unfold rowHas
  rw [List.any_eq_true]
  constructor
  · rintro ⟨j, -, hj⟩
    obtain ⟨z, hz⟩ := Option.isSome_iff_exists.1 hj
    exact ⟨j, z, by simpa [Option.join_eq_some_iff] using hz⟩
  · rintro ⟨j, hv⟩
    have := hasValue_bounds hv
    obtain ⟨z, hz⟩ := hv
    exact ⟨j, List.mem_range.2 this.2, by rw [hz]; rfl⟩

theorem colHas_iff {a : LayerArr} {j : Nat} : colHas a j = true ↔ ∃ i, HasValue a i j := by
  unfold colHas
  rw [List.any_eq_true]
  constructor
  · rintro ⟨i, -, hi⟩
    obtain ⟨z, hz⟩ := Option.isSome_iff_exists.1 hi
    exact ⟨i, z, by simpa [Option.join_eq_some_iff] using hz⟩
  · rintro ⟨i, hv⟩
    have := hasValue_bounds hv
    obtain ⟨z, hz⟩ := hv
    exact ⟨i, List.mem_range.2 this.1, by rw [hz]; rfl⟩

/-- first and last element of an increasing filter of a range -/
theorem filter_ends {n : Nat} {P : Nat → Bool} {lo hi : Nat} (h0 : ((List.range n).filter P).head? = some lo) (h1 : ((List.range n).filter P).getLast? = some hi) :
    P lo = true ∧ P hi = true ∧ hi < n ∧ ∀ i, i < n → P i = true → lo ≤ i ∧ i ≤ hi := by
  have hlo := List.mem_filter.1 (List.mem_of_head? h0)
  have hhi := List.mem_filter.1 (List.mem_of_getLast? h1)
  refine ⟨hlo.2, hhi.2, List.mem_range.1 hhi.1, fun i hi' hP => ?_⟩
  have hm : i ∈ (List.range n).filter P := List.mem_filter.2 ⟨List.mem_range.2 hi', hP⟩
  have hs : ((List.range n).filter P).Pairwise (· < ·) := (List.pairwise_lt_range).filter P
  generalize hl : (List.range n).filter P = l at *
  constructor
  · cases l with
    | nil => cases h0
    | cons a as =>
      cases h0
      rcases List.mem_cons.1 hm with rfl | hm
      · exact le_refl _
      · exact ((List.pairwise_cons.1 hs).1 i hm).le
  · rcases List.eq_nil_or_concat l with rfl | ⟨as, a, rfl⟩
    · cases hm
    · rw [List.concat_eq_append] at h1 hm hs
      rw [List.getLast?_append] at h1
      cases h1
      rcases List.mem_append.1 hm with hm | hm
      · exact ((List.pairwise_append.1 hs).2.2 i hm a (by simp)).le
      · rw [List.mem_singleton.1 hm]; exact le_refl _

theorem filter_ends_ok {n : Nat} {P : Nat → Bool} {i : Nat} (hi : i < n) (h : P i = true) :
    ∃ lo hi, ((List.range n).filter P).head? = some lo ∧ ((List.range n).filter P).getLast? = some hi := by
  have hm : i ∈ (List.range n).filter P := List.mem_filter.2 ⟨List.mem_range.2 hi, h⟩
  have hne := List.ne_nil_of_mem hm
  exact ⟨_, _, List.head?_eq_some_head hne, List.getLast?_eq_some_getLast hne⟩

theorem trim_of {d : LayerArr} {ds : List LayerArr} (hshape : ∀ a ∈ d :: ds, ∀ i j, i < d.rows → j < d.cols → ∃ v, a.get? i j = some v) {s : Trimmed} (h : trim (some (d :: ds)) = .ok s) :
    Box d s.rmin s.rmax s.cmin s.cmax ∧ s.data.length = ds.length + 1 ∧
      ∀ (k : Nat) a, (d :: ds)[k]? = some a → ∃ b, s.data[k]? = some b ∧ IsPart a b s.rmin s.rmax s.cmin s.cmax := by
  unfold trim at h
  simp only at h
  split at h
  · rename_i r0 r1 c0 c1 e1 e2 e3 e4
    cases h
    obtain ⟨k1, k2, k3, k4⟩ := filter_ends e1 e2
    obtain ⟨l1, l2, l3, l4⟩ := filter_ends e3 e4
    refine ⟨⟨⟨k3, l3⟩, fun i j hv => ?_, rowHas_iff.1 k1, ?_, colHas_iff.1 l1, ?_⟩, by simp, ?_⟩
    · obtain ⟨hi, hj⟩ := hasValue_bounds hv
      have a1 := k4 i hi (rowHas_iff.2 ⟨j, hv⟩)
      have a2 := l4 j hj (colHas_iff.2 ⟨i, hv⟩)
      dsimp only
      omega
    · obtain ⟨j, hj⟩ := rowHas_iff.1 k2; exact ⟨r1, j, rfl, hj⟩
    · obtain ⟨i, hi⟩ := colHas_iff.1 l2; exact ⟨i, c1, rfl, hi⟩
    · intro k a hk
      refine ⟨crop a r0 (r1 + 1) c0 (c1 + 1), by rw [List.getElem?_map, hk]; rfl, rfl, rfl, fun i j hi hj => ?_⟩
      have hi : i < r1 + 1 - r0 := hi
      have hj : j < c1 + 1 - c0 := hj
      obtain ⟨v, hv⟩ := hshape a (List.mem_of_getElem? hk) (r0 + i) (c0 + j) (by omega) (by omega)
      unfold crop
      rw [Arr2.get?_ofFn _ hi hj, hv]
      rfl
  · cases h

/-- **C36**, the trimming itself: for any list of arrays of the same shape, the arrays that come back are the parts of the arrays in the smallest
box with all values of the first one, and the reported corners are those of the box. -/
theorem C36_trim {d : LayerArr} {ds : List LayerArr} (hshape : ∀ a ∈ d :: ds, a.WF ∧ a.rows = d.rows ∧ a.cols = d.cols) {s : Trimmed} (h : trim (some (d :: ds)) = .ok s) :
    Box d s.rmin s.rmax s.cmin s.cmax ∧ s.data.length = ds.length + 1 ∧
      ∀ (k : Nat) a, (d :: ds)[k]? = some a → ∃ b, s.data[k]? = some b ∧ IsPart a b s.rmin s.rmax s.cmin s.cmax :=
  trim_of (fun a ha i j hi hj => by obtain ⟨hw, hr, hc⟩ := hshape a ha; exact Arr2.get?_isSome a hw (by rw [hr]; exact hi) (by rw [hc]; exact hj)) h

/-- **C36**: it works whenever there is a value -/
theorem C36_trim_ok (d : LayerArr) (ds : List LayerArr) : (∃ s, trim (some (d :: ds)) = .ok s) ↔ ∃ i j, HasValue d i j := by
  constructor
  · rintro ⟨s, h⟩
    unfold trim at h
    simp only at h
    split at h
    · rename_i r0 r1 c0 c1 e1 e2 e3 e4
      obtain ⟨j, hj⟩ := rowHas_iff.1 (filter_ends e1 e2).1
      exact ⟨_, j, hj⟩
    · cases h
  · rintro ⟨i, j, hv⟩
    obtain ⟨hi, hj⟩ := hasValue_bounds hv
    obtain ⟨r0, r1, e1, e2⟩ := filter_ends_ok hi (rowHas_iff.2 ⟨j, hv⟩)
    obtain ⟨c0, c1, e3, e4⟩ := filter_ends_ok hj (colHas_iff.2 ⟨i, hv⟩)
    unfold trim
    simp only [e1, e2, e3, e4]
    exact ⟨_, rfl⟩

/-- what `get_layers_trimmed([l], res, nodata, z_positive_up)` should return for a grid: the smallest part of the array over the extents of the
grid that has all its values -/
def TrimSpec {τ : Type} [HasLeaves τ] (g : Grid τ) (l : Layer) (res : ℚ) (nodata : Option ℚ) (zUp : Bool) (g' : Grid τ) (s : Trimmed) : Prop :=
  g' = g ∧ ∃ e a b, g.extents = some e ∧ s.data = [b] ∧ (a.rows : ℚ) * res = e.maxY - e.minY ∧ (a.cols : ℚ) * res = e.maxX - e.minX ∧
    (∀ flip, (flip = true ↔ (zUp = true ↔ ¬ StoredUp g)) → ShowsCells g l res nodata flip e.minX e.minY a) ∧
    Box a s.rmin s.rmax s.cmin s.cmax ∧ IsPart a b s.rmin s.rmax s.cmin s.cmax

theorem shows_total {τ : Type} [HasLeaves τ] {g : τ} {l : Layer} {res : ℚ} {nodata : Option ℚ} {flip : Bool} {x0 y0 : ℚ} {a : LayerArr} (h : ShowsCells g l res nodata flip x0 y0 a)
    {i j : Nat} (hi : i < a.rows) (hj : j < a.cols) : ∃ v, a.get? i j = some v := by
  by_cases hz : ∃ z, StoredCell g l res (x0 + (j : ℚ) * res) (y0 + (i : ℚ) * res) z
  · obtain ⟨z, hz⟩ := hz; exact ⟨_, h.value i j z hi hj hz⟩
  · push Not at hz; exact ⟨_, h.empty i j hi hj hz⟩

theorem trimSpec_of {τ : Type} [LayerLike τ] [HasLeaves τ] {env : Env} {g g' : Grid τ} {l : Layer} {res : ℚ} {nodata : Option ℚ} {zUp : Bool} {s : Trimmed}
    (hm : ∀ g' o, g.getLayersByName env [l] (some res) nodata zUp = (g', .ok o) → MosaicSpec g [l] res nodata zUp g' o)
    (hq : g.getLayersTrimmed env [l] (some res) nodata zUp = (g', .ok s)) : TrimSpec g l res nodata zUp g' s := by
  unfold Grid.getLayersTrimmed at hq
  split at hq
  · cases hq
  · rename_i g1 data he
    obtain ⟨h1, h2⟩ := Prod.ext_iff.1 hq
    have h1 : g1 = g' := h1
    have h2 : trim data = .ok s := h2
    subst h1
    have hsp := hm _ _ he
    cases data with
    | none => cases h2
    | some D =>
      obtain ⟨hlen, e, hext, hk⟩ := hsp.shows D rfl
      obtain ⟨a, ha, hr, hc, hsh⟩ := hk 0 l rfl
      match D, hlen, ha with
      | [d], _, ha =>
        cases ha
        classical
        have htot : ∀ b ∈ [a], ∀ i j, i < a.rows → j < a.cols → ∃ v, b.get? i j = some v := by
          intro b hb i j hi hj
          rw [List.mem_singleton.1 hb]
          exact shows_total (hsh (decide (zUp = true ↔ ¬ StoredUp g)) decide_eq_true_iff) hi hj
        obtain ⟨hbox, hl, hp⟩ := trim_of htot h2
        obtain ⟨b, hb, hpart⟩ := hp 0 a rfl
        refine ⟨hsp.same, e, a, b, hext, ?_, hr, hc, hsh, hbox, hpart⟩
        match hsd : s.data, hl, hb with
        | [b'], _, hb => cases hb; rfl

/-- **C36** (single resolution grids): one gridded layer of a grid in any state. -/
theorem C36_trimmed_sr_partial {env : Env} {size : ℚ} {bs : Bool} {fl : Fields} (hs : 0 < size) {F : Family} {s : Bool} {g : Grid Tile} {A : Store}
    (h : SRHistory env size bs fl F s g A) {l : Layer} (hl : l.isCore = true) {res : ℚ} (hres : 0 < res) {nodata : Option ℚ} {zUp : Bool} {g' : Grid Tile}
    {t : Trimmed} (hq : g.getLayersTrimmed env [l] (some res) nodata zUp = (g', .ok t)) : TrimSpec g l res nodata zUp g' t :=
  trimSpec_of (fun _ _ hh => C34_mosaic_sr hs h hl hres hh) hq

/-- **C36** (variable resolution grids). -/
theorem C36_trimmed_vr_partial {env : Env} {size sub : ℚ} {bs : Bool} {fl : Fields} (hs : 0 < size) (hpow : isPowerOfTwo sub = true) {q : Nat} (hdiv : size = (q : ℚ) * sub)
    {F : Family} {s : Bool} {g : Grid (Grid Tile)} {A : Store} (h : VRHistory env size sub bs fl F s g A) {l : Layer} (hl : l.isCore = true) {res : ℚ} (hres : 0 < res)
    {nodata : Option ℚ} {zUp : Bool} {g' : Grid (Grid Tile)} {t : Trimmed} (hq : g.getLayersTrimmed env [l] (some res) nodata zUp = (g', .ok t)) :
    TrimSpec g l res nodata zUp g' t :=
  trimSpec_of (fun _ _ hh => C34_mosaic_vr hs hpow hdiv h hl hres hh) hq

/-- the trimmed array of the example leaves out empty rows and columns -/
example : SRHistory demoEnv 16 false demoFields .plain false demoSRg demoStore ∧
    (match (demoSRg.getLayersTrimmed demoEnv [.depth] (some 8) none false).2 with
      | .ok s => decide (s.rmin = 0 ∧ s.rmax = 9 ∧ s.cmin = 1 ∧ s.cmax = 9)
      | _ => false) = true ∧
    (match (demoVRg.getLayersTrimmed demoEnv [.depth] (some 8) none true).2 with
      | .ok s => decide (s.rmin = 0 ∧ s.rmax = 9 ∧ s.cmin = 1 ∧ s.cmax = 9)
      | _ => false) = true := ⟨demoSRg_history, by decide +kernel, by decide +kernel⟩

example : ∃ d e : LayerArr, (∀ a ∈ [d, e], a.WF ∧ a.rows = d.rows ∧ a.cols = d.cols) ∧ (∃ i j, HasValue d i j) ∧
    (match trim (some [d, e]) with | .ok s => decide (s.rmin = 0 ∧ s.rmax = 1 ∧ s.cmin = 1 ∧ s.cmax = 2) | _ => false) = true :=
  ⟨⟨2, 2, [none, some 3, none, none]⟩, ⟨2, 2, [some 1, some 3, none, none]⟩, by simp [Arr2.WF], ⟨0, 1, 3, by decide +kernel⟩, by decide +kernel⟩

/-- one tile with two containers -/
def lostGrid : Grid Tile :=
  (((((newSR 16 false).addPoints ⟨demoFields, [⟨1, 1, 5, 1, 1⟩]⟩ "a" {}).st.addPoints ⟨demoFields, [⟨9, 9, 7, 1, 1⟩]⟩ "b" {}).st).gridWith demoEnv { alg := .mean, res := some 8 } none).st

/-- **C36 is violated** for lists of layers: all of them are trimmed to the box of the first one, here the grid of container a, which leaves out
the depth at (9, 9). -/
theorem C36_violated : SRHistory demoEnv 16 false demoFields .plain false lostGrid [("a", [⟨1, 1, 5, 1, 1⟩]), ("b", [⟨9, 9, 7, 1, 1⟩])] ∧
    (∃ a d, (lostGrid.getLayersByName demoEnv [.cont "a", .depth] (some 8) none false).2 = .ok (some [a, d]) ∧ d.get? 1 1 = some (some 7)) ∧
    (∃ s, (lostGrid.getLayersTrimmed demoEnv [.cont "a", .depth] (some 8) none false).2 = .ok s ∧ ∀ b ∈ s.data, b.rows = 1 ∧ b.cols = 1 ∧ b.get? 0 0 = some (some 5)) := by
  refine ⟨((((GridHistory.new .plain).add _ "a" {} (by decide +kernel)).add _ "b" {} (by decide +kernel)).grid { alg := .mean, res := some 8 } rfl none), ?_, ?_⟩
  · have h : (match (lostGrid.getLayersByName demoEnv [.cont "a", .depth] (some 8) none false).2 with
      | .ok (some [_, d]) => d.get? 1 1 == some (some 7)
      | _ => false) = true := by decide +kernel
    split at h
    · rename_i a d ha
      exact ⟨a, d, ha, by simpa using h⟩
    · cases h
  · have h : (match (lostGrid.getLayersTrimmed demoEnv [.cont "a", .depth] (some 8) none false).2 with
      | .ok s => decide (∀ b ∈ s.data, b.rows = 1 ∧ b.cols = 1 ∧ b.get? 0 0 = some (some 5))
      | _ => false) = true := by decide +kernel
    split at h
    · rename_i s hs
      exact ⟨s, hs, of_decide_eq_true h⟩
    · cases h

end Bathy
