import Verif.Lemmas.Stats

/-!
# The tiles after a call of `grid` with `clear_existing`, and their statistics
-/

namespace Bathy
open Grid

variable {env : Env} {size sub : ℚ} {bs : Bool} {fl : Fields} {F F' : Family} {s : Bool} {A : Store}

/-- a tile that holds one resolution only, gridded from its soundings -/
structure Cleared (alg : Alg) (F' : Family) (bs : Bool) (w : ℚ) (t : Tile) (r : ℚ) : Prop where
  wpos : 0 < w
  pow : isPowerOfTwo r = true
  box : ∀ p ∈ t.pts, InBox t.minX t.minY w p
  layers : ∃ ls n, t.cells = [(r, ls)] ∧ Dict.get? ls .density = some n ∧ EachCell n (ncells w r) t.minX t.minY r t.pts CountCell ∧
    (F' = .plain → ∃ d rest, ls = (mainLayer bs, d) :: rest ∧ EachCell d (ncells w r) t.minX t.minY r t.pts (PlainCell alg))

theorem leafRun_cleared {w : ℚ} {a : GridCall} {t' : Tile} {r : ℚ} (hw : 0 < w) (h : LeafRun env fl F w bs a t' r) (ha : a.alg.family = some F') (hc : a.clear = true) :
    (∀ r0, a.res = some r0 → r = r0) ∧ Cleared a.alg F' bs w t' r := by
  obtain ⟨t, B, c, h1, h2, h3, h4, h5, h6, h7⟩ := leafRun_call (F' := F') h (Or.inr hc)
  have hcc : c.clear = true := h6.clear hc
  have hr := isPowerOfTwo_pos h3
  have hst : (t.gridAt env a.alg r c.clear a.params c.border).st = t' := by
    have := congrArg (fun q => q.1.st) h7
    exact this
  have hok : (t.gridAt env a.alg r c.clear a.params c.border).err = none := by
    have := congrArg (fun q => q.1.err) h7
    exact this
  obtain ⟨L, ls, hL, hls, hcore, hci, hsame, hoth⟩ := grid_leaves hw h1 ha (Or.inr hcc) h3 a.params c.border hok
  have hbox := history_box hw h1
  refine ⟨h4, hw, h3, by rw [h2]; exact hbox, ?_⟩
  obtain ⟨n, ln, en⟩ := canon_density env (mainLayer_cases bs) hw hr (⟨fl, B.allPts⟩ : PtArr) hbox ha a.params c.border hL
  have hln : ls.get? .density = some n := by rw [← core_get? ls (l := .density) rfl, hcore]; exact ln
  have hnone : ∀ q, q ≠ r → (t.gridAt env a.alg r c.clear a.params c.border).st.cells.get? q = none := by
    intro q hne
    have := hoth q hne
    rw [hcc] at this
    rw [hcc]
    unfold Tile.coreAt at this
    exact Option.map_eq_none_iff.1 this
  have hcell := cells_single hci hls hnone
  rw [hst] at hcell hci
  refine ⟨ls, n, hcell, hln, by rw [h2]; exact en, ?_⟩
  rintro rfl
  have hmain : ∃ d, L.get? (mainLayer bs) = some d ∧ EachCell d (ncells w r) t'.minX t'.minY r B.allPts (PlainCell a.alg) := by
    cases halg : a.alg with
    | mean =>
      obtain ⟨L', hL', ⟨d, ld, ed⟩, -⟩ := Tile.canon_mean env (mainLayer_cases bs) hw hr ⟨fl, B.allPts⟩ hbox a.params c.border
      rw [halg, hL'] at hL; cases hL
      exact ⟨d, ld, ed⟩
    | shoalest =>
      obtain ⟨L', hL', ⟨d, ld, ed⟩, -⟩ := Tile.canon_shoalest env (mainLayer_cases bs) hw hr ⟨fl, B.allPts⟩ hbox a.params c.border
      rw [halg, hL'] at hL; cases hL
      exact ⟨d, ld, ed⟩
    | cube => rw [halg] at ha; cases ha
    | other => rw [halg] at ha; cases ha
  obtain ⟨d, ld, ed⟩ := hmain
  obtain ⟨d', rest, hd'⟩ := hci.2 (r, ls) (by rw [hcell]; exact List.mem_singleton.2 rfl)
  simp only at hd'
  have hld : ls.get? (mainLayer bs) = some d := by
    rw [← core_get? ls (mainLayer_core bs), hcore]; exact ld
  have hdd : d' = d := by
    rw [hd', Dict.get?_cons, if_pos rfl] at hld
    exact Option.some.inj hld
  subst hdd
  exact ⟨d', rest, hd', by rw [h2]; exact ed⟩

/-! ### the numbers of one tile -/

/-- the numbers of soundings in the cells of a tile -/
def cellNumbers (w : ℚ) (t : Tile) (r : ℚ) : List ℚ :=
  (occupied (ncells w r) t.minX t.minY r t.pts).map (fun rc => ((inCell t.minX t.minY r rc.1 rc.2 t.pts).length : ℚ))

theorem Cleared.positives {alg : Alg} {w : ℚ} {t : Tile} {r : ℚ} (h : Cleared alg F' bs w t r) :
    ∃ ls n, t.cells = [(r, ls)] ∧ Dict.get? ls .density = some n ∧ Tile.positives n = cellNumbers w t r := by
  obtain ⟨ls, n, h1, h2, h3, -⟩ := h.layers
  exact ⟨ls, n, h1, h2, by rw [positives_flat h3, occupied_counts]; rfl⟩

theorem Cleared.densityCount {alg : Alg} {w : ℚ} {t : Tile} {r : ℚ} (h : Cleared alg F' bs w t r) : t.densityCount = .ok (cellNumbers w t r) := by
  obtain ⟨ls, n, h1, h2, h3⟩ := h.positives
  unfold Tile.densityCount
  rw [h1]
  simp only [List.mapM_cons, List.mapM_nil, h2, Option.map_some, h3]
  simp

theorem Cleared.densityPerSquareMeter {alg : Alg} {w : ℚ} {t : Tile} {r : ℚ} (h : Cleared alg F' bs w t r) :
    t.densityPerSquareMeter = .ok ((cellNumbers w t r).map (fun v => v / r ^ 2)) := by
  obtain ⟨ls, n, h1, h2, h3⟩ := h.positives
  unfold Tile.densityPerSquareMeter
  rw [h1]
  simp only [List.mapM_cons, List.mapM_nil, h2, Option.map_some, h3]
  simp

theorem Cleared.coverageArea {alg : Alg} {w : ℚ} {t : Tile} {r : ℚ} (h : Cleared alg F' bs w t r) :
    t.coverageArea = .ok (round3 (((occupied (ncells w r) t.minX t.minY r t.pts).length : ℚ) * r ^ 2)) := by
  obtain ⟨ls, n, h1, h2, h3⟩ := h.positives
  unfold Tile.coverageArea
  rw [h1]
  simp only [List.mapM_cons, List.mapM_nil, h2, Option.map_some, h3]
  simp [cellNumbers]

theorem Cleared.cellCount {alg : Alg} {w : ℚ} {t : Tile} {r : ℚ} (h : Cleared alg .plain bs w t r) :
    HasStats.cellCount t = .ok [(r, (occupied (ncells w r) t.minX t.minY r t.pts).length)] := by
  obtain ⟨ls, n, h1, -, -, h4⟩ := h.layers
  obtain ⟨d, rest, h5, h6⟩ := h4 rfl
  show (match t.cellCount with | some d => Except.ok d | none => .error Err.indexError) = _
  have : t.cellCount = some [(r, (occupied (ncells w r) t.minX t.minY r t.pts).length)] := by
    unfold Tile.cellCount
    rw [h1, h5]
    simp only [List.mapM_cons, List.mapM_nil]
    rw [valid_flat _ h6]
    · rfl
    · intro ps v hv
      have := plainCell_none hv
      rw [← not_iff_not, not_not, ← this]
      simp
  rw [this]

theorem numbers_sum {alg : Alg} {w : ℚ} {t : Tile} {r : ℚ} (h : Cleared alg F' bs w t r) : (cellNumbers w t r).sum = (t.pts.length : ℚ) := by
  unfold cellNumbers
  rw [← occupied_counts, sum_filter_pos]
  · exact counts_sum h.wpos (isPowerOfTwo_pos h.pow) _ h.box
  · intro v hv
    unfold countsOf at hv
    obtain ⟨rc, -, rfl⟩ := List.mem_map.1 hv
    positivity

theorem numbers_pos (w : ℚ) (t : Tile) (r : ℚ) : ∀ v ∈ cellNumbers w t r, 0 < v := by
  unfold cellNumbers
  rw [← occupied_counts]
  intro v hv
  simpa using (List.mem_filter.1 hv).2

/-! ### the whole grid -/

theorem extend_sr {β : Type} {f : Tile → Except Err (List β)} {h : Tile → List β} {g : Grid Tile} (hf : ∀ t ∈ LeafList.leaves g, f t = .ok (h t)) :
    g.extendAll f = .ok ((LeafList.leaves g).flatMap h) := by
  rw [leaves_tiles] at hf ⊢
  exact extendAll_ok hf

theorem mem_leaves_sub {g : Grid (Grid Tile)} {u : Grid Tile} {t : Tile} (hu : u ∈ g.present) (ht : t ∈ LeafList.leaves u) : t ∈ LeafList.leaves g := by
  rw [leaves_present]
  exact List.mem_flatMap.2 ⟨u, hu, ht⟩

theorem extend_vr {β : Type} {f : Tile → Except Err (List β)} {h : Tile → List β} {g : Grid (Grid Tile)} (hf : ∀ t ∈ LeafList.leaves g, f t = .ok (h t)) :
    g.extendAll (Grid.extendAll f) = .ok ((LeafList.leaves g).flatMap h) := by
  rw [extendAll_ok (h := fun u => (LeafList.leaves u).flatMap h) (fun u hu => extend_sr (fun t ht => hf t (mem_leaves_sub hu ht))), leaves_present, List.flatMap_assoc]

theorem add_sr {f : Tile → Except Err ℚ} {h : Tile → ℚ} {g : Grid Tile} (hf : ∀ t ∈ LeafList.leaves g, f t = .ok (h t)) :
    g.addAll f = .ok ((LeafList.leaves g).map h).sum := by
  rw [leaves_tiles] at hf ⊢
  exact addAll_ok hf

theorem sum_map_flatMap {α β : Type} (l : List α) (f : α → List β) (h : β → ℚ) : ((l.flatMap f).map h).sum = (l.map (fun a => ((f a).map h).sum)).sum := by
  induction l with
  | nil => rfl
  | cons a l ih => rw [List.flatMap_cons, List.map_append, List.sum_append, ih, List.map_cons, List.sum_cons]

theorem add_vr {f : Tile → Except Err ℚ} {h : Tile → ℚ} {g : Grid (Grid Tile)} (hf : ∀ t ∈ LeafList.leaves g, f t = .ok (h t)) :
    g.addAll (Grid.addAll f) = .ok ((LeafList.leaves g).map h).sum := by
  rw [addAll_ok (h := fun u => ((LeafList.leaves u).map h).sum) (fun u hu => add_sr (fun t ht => hf t (mem_leaves_sub hu ht))), leaves_present, sum_map_flatMap]

/-- counts at one resolution -/
def oneCount (r : ℚ) (l : List Nat) : Dict ℚ Nat := if l = [] then [] else [(r, l.sum)]

theorem addCounts_one (r : ℚ) (l l' : List Nat) : addCounts (oneCount r l) (oneCount r l') = oneCount r (l ++ l') := by
  unfold oneCount
  by_cases h' : l' = []
  · subst h'; simp [addCounts]
  · by_cases h : l = []
    · subst h
      simp [h', addCounts, Dict.get?, Dict.set]
    · simp [h, h', addCounts, Dict.get?, Dict.set]

theorem fold_one (r : ℚ) (ls : List (List Nat)) (l : List Nat) : (ls.map (oneCount r)).foldl addCounts (oneCount r l) = oneCount r (l ++ ls.flatten) := by
  induction ls generalizing l with
  | nil => simp
  | cons a ls ih => rw [List.map_cons, List.foldl_cons, addCounts_one, ih, List.flatten_cons, List.append_assoc]

theorem cellCount_of {τ : Type} [HasStats τ] {g : Grid τ} {r : ℚ} {h : τ → List Nat} (hf : ∀ t ∈ g.present, HasStats.cellCount t = .ok (oneCount r (h t))) :
    HasStats.cellCount g = .ok (oneCount r (g.present.flatMap h)) := by
  show g.cellCount = _
  unfold Grid.cellCount
  rw [mapM_ok_of hf]
  simp only
  have := fold_one r (g.present.map h) []
  rw [List.map_map] at this
  rw [show (fun t => oneCount r (h t)) = oneCount r ∘ h from rfl]
  have e : ([] : Dict ℚ Nat) = oneCount r [] := rfl
  rw [e, this, List.nil_append, List.flatMap_def]

theorem count_sr {r : ℚ} {h : Tile → Nat} {g : Grid Tile} (hf : ∀ t ∈ LeafList.leaves g, HasStats.cellCount t = .ok [(r, h t)]) :
    HasStats.cellCount g = .ok (oneCount r ((LeafList.leaves g).map h)) := by
  rw [leaves_tiles] at hf ⊢
  rw [cellCount_of (r := r) (h := fun t => [h t]) (fun t ht => by rw [hf t ht]; simp [oneCount])]
  congr 2
  induction g.present with
  | nil => rfl
  | cons a l ih => rw [List.flatMap_cons, ih]; rfl

theorem count_vr {r : ℚ} {h : Tile → Nat} {g : Grid (Grid Tile)} (hf : ∀ t ∈ LeafList.leaves g, HasStats.cellCount t = .ok [(r, h t)]) :
    HasStats.cellCount g = .ok (oneCount r ((LeafList.leaves g).map h)) := by
  rw [cellCount_of (h := fun u => (LeafList.leaves u).map h) (fun u hu => count_sr (fun t ht => hf t (mem_leaves_sub hu ht))), leaves_present, List.map_flatMap]

/-! ### the tiles are on the lattice -/

theorem ncells_mul {r : ℚ} (hr : 0 < r) (n : Nat) : ncells (n * r) r = n := by
  unfold ncells
  rw [mul_div_cancel_right₀ _ hr.ne', Int.ceil_natCast, Int.toNat_natCast]

theorem apart_of {w : ℚ} {t u : Tile} {x y : ℚ} {i j i' j' : Nat} (h1 : t.minX = x + (j : ℚ) * w) (h2 : t.minY = y + (i : ℚ) * w)
    (h3 : u.minX = x + (j' : ℚ) * w) (h4 : u.minY = y + (i' : ℚ) * w) (hw : 0 < w) (hne : ¬ (i = i' ∧ j = j')) : Apart w t u := by
  have one : ∀ {a b : Nat} {z v : ℚ}, a ≠ b → z + (a : ℚ) * w ≤ v → v < z + (a : ℚ) * w + w → z + (b : ℚ) * w ≤ v → v < z + (b : ℚ) * w + w → False := by
    intro a b z v hab k1 k2 k3 k4
    rcases Nat.lt_or_gt_of_ne hab with h | h
    · have : ((a : ℚ) + 1) ≤ b := by exact_mod_cast h
      nlinarith
    · have : ((b : ℚ) + 1) ≤ a := by exact_mod_cast h
      nlinarith
  rintro p ⟨a1, a2, a3, a4⟩ ⟨b1, b2, b3, b4⟩
  rw [h1] at a1 a2; rw [h2] at a3 a4; rw [h3] at b1 b2; rw [h4] at b3 b4
  by_cases hi : i = i'
  · exact one (fun h => hne ⟨hi, h⟩) a1 a2 b1 b2
  · exact one hi a3 a4 b3 b4

/-- pairs of tiles in different slots -/
theorem pairwise_present {τ : Type} {g : Grid τ} (hwf : ∀ T, g.tiles = some T → T.WF) {R : τ → τ → Prop}
    (h : ∀ i j i' j' t u, g.TileAt i j t → g.TileAt i' j' u → ¬ (i = i' ∧ j = j') → R t u) : g.present.Pairwise R := by
  unfold present
  cases hg : g.tiles with
  | none => exact List.Pairwise.nil
  | some T =>
    have hlen : T.flat.length = T.rows * T.cols := hwf T hg
    simp only
    rw [List.pairwise_filterMap, List.pairwise_iff_getElem]
    intro k l hk hl hkl t ht u hu
    have hk' : k < T.rows * T.cols := by rw [← hlen]; exact hk
    have hl' : l < T.rows * T.cols := by rw [← hlen]; exact hl
    have at_ : ∀ {m : Nat} (hm : m < T.flat.length) {v : τ}, T.flat[m] = some v → g.TileAt (m / T.cols) (m % T.cols) v := by
      intro m hm v hv
      have hm' : m < T.rows * T.cols := by rw [← hlen]; exact hm
      refine ⟨T, hg, ?_⟩
      unfold Arr2.get?
      rw [if_pos ⟨Arr2.div_lt_rows hm', Arr2.mod_lt_cols hm'⟩, Nat.div_add_mod', List.getElem?_eq_getElem hm, hv]
    refine h _ _ _ _ t u (at_ hk ht) (at_ hl hu) ?_
    rintro ⟨e1, e2⟩
    have : k = l := by rw [← Nat.div_add_mod' k T.cols, ← Nat.div_add_mod' l T.cols, e1, e2]
    omega

end Bathy
