import Verif.Lemmas.TileCells

/-!
# sums and counts over the cells of a layer
-/

namespace Bathy

theorem mem_cellsOf {n : Nat} {rc : Nat × Nat} : rc ∈ cellsOf n ↔ rc.1 < n ∧ rc.2 < n := by
  unfold cellsOf
  rw [List.mem_map]
  constructor
  · rintro ⟨k, hk, rfl⟩
    rw [List.mem_range] at hk
    exact ⟨Arr2.div_lt_rows hk, Arr2.mod_lt_cols hk⟩
  · rintro ⟨h1, h2⟩
    refine ⟨rc.1 * n + rc.2, List.mem_range.2 (Arr2.idx_lt h1 h2), ?_⟩
    rw [Arr2.idx_div h2, Arr2.idx_mod h2]

theorem cellsOf_nodup (n : Nat) : (cellsOf n).Nodup := by
  unfold cellsOf
  refine List.Nodup.map_on ?_ List.nodup_range
  intro a ha b hb h
  have h1 := congrArg Prod.fst h
  have h2 := congrArg Prod.snd h
  simp only at h1 h2
  rw [← Nat.div_add_mod a n, ← Nat.div_add_mod b n, h1, h2]

/-- a layer listed row after row -/
theorem eachCell_flat {a : LayerArr} {n : Nat} {x y res : ℚ} {pts : List Pt} {R : List Pt → Option ℚ → Prop}
    (h : EachCell a n x y res pts R) :
    List.Forall₂ (fun v rc => R (inCell x y res rc.1 rc.2 pts) v) a.flat (cellsOf n) := by
  obtain ⟨h0, h1, h2, h3⟩ := h
  rw [List.forall₂_iff_get]
  refine ⟨by simp [cellsOf, h0], ?_⟩
  intro k hk hk'
  have hk2 : k < n * n := by rw [← h0]; exact hk
  obtain ⟨v, hv, hR⟩ := h3 (k / n) (k % n) (Arr2.div_lt_rows hk2) (Arr2.mod_lt_cols hk2)
  rw [Arr2.get?_eq_flat _ (by rw [h1]; exact Arr2.div_lt_rows hk2) (by rw [h2]; exact Arr2.mod_lt_cols hk2), h2] at hv
  have e : k / n * n + k % n = k := by rw [Nat.mul_comm]; exact Nat.div_add_mod k n
  rw [e] at hv
  have : a.flat.get ⟨k, hk⟩ = v := by
    rw [List.getElem?_eq_getElem hk] at hv
    exact Option.some.inj hv
  rw [this]
  simpa [cellsOf] using hR

theorem count_flat {a : LayerArr} {n : Nat} {x y res : ℚ} {pts : List Pt} (h : EachCell a n x y res pts CountCell) :
    a.flat = (countsOf n x y res pts).map some := by
  have := eachCell_flat h
  unfold countsOf
  rw [List.map_map]
  generalize cellsOf n = cs at this
  generalize a.flat = f at this
  induction this with
  | nil => rfl
  | @cons v rc f cs hv _ ih =>
    rw [List.map_cons, ← ih]
    unfold CountCell at hv
    rw [hv]; rfl

theorem valid_flat {a : LayerArr} {n : Nat} {x y res : ℚ} {pts : List Pt} {R : List Pt → Option ℚ → Prop}
    (hR : ∀ ps v, R ps v → (v.isSome = true ↔ ps ≠ [])) (h : EachCell a n x y res pts R) :
    Tile.countValid a = (occupied n x y res pts).length := by
  have := eachCell_flat h
  unfold Tile.countValid occupied
  rw [← List.countP_eq_length_filter]
  generalize cellsOf n = cs at this
  generalize a.flat = f at this
  induction this with
  | nil => rfl
  | @cons v rc f cs hv _ ih =>
    have := hR _ _ hv
    by_cases hp : inCell x y res rc.1 rc.2 pts ≠ []
    · rw [List.countP_cons_of_pos (this.2 hp), List.countP_cons_of_pos (by simpa using hp), ih]
    · have hn : ¬ v.isSome = true := fun h => hp (this.1 h)
      rw [List.countP_cons_of_neg hn, List.countP_cons_of_neg (by simpa using hp), ih]

theorem positives_flat {a : LayerArr} {n : Nat} {x y res : ℚ} {pts : List Pt} (h : EachCell a n x y res pts CountCell) :
    Tile.positives a = (countsOf n x y res pts).filter (fun v => decide (0 < v)) := by
  unfold Tile.positives
  rw [count_flat h]
  induction countsOf n x y res pts with
  | nil => rfl
  | cons v l ih =>
    rw [List.map_cons, List.filterMap_cons, List.filter_cons]
    by_cases hv : 0 < v
    · simp [hv, ih]
    · simp [hv, ih]

theorem counts_pos_length (n : Nat) (x y res : ℚ) (pts : List Pt) :
    ((countsOf n x y res pts).filter (fun v => decide (0 < v))).length = (occupied n x y res pts).length := by
  unfold countsOf occupied
  induction cellsOf n with
  | nil => rfl
  | cons rc l ih =>
    rw [List.map_cons, List.filter_cons, List.filter_cons]
    by_cases he : inCell x y res rc.1 rc.2 pts = []
    · simp [he] at ih ⊢; exact ih
    · have : 0 < (inCell x y res rc.1 rc.2 pts).length := List.length_pos_iff.2 he
      have h2 : (0 : ℚ) < ((inCell x y res rc.1 rc.2 pts).length : ℚ) := by exact_mod_cast this
      simp only [h2, he, decide_true, ne_eq, not_false_eq_true, if_true, List.length_cons, ih]

/-- each sounding of the tile lies in exactly one cell -/
theorem cell_unique {x y width res : ℚ} (hw : 0 < width) (hr : 0 < res) {p : Pt} (h : InBox x y width p) :
    ∃! rc : Nat × Nat, rc.1 < ncells width res ∧ rc.2 < ncells width res ∧ InCell x y res rc.1 rc.2 p := by
  have hrow : rowOf y res p < ncells width res := row_lt hw hr h.2.2.2
  have hcol : colOf x res p < ncells width res := row_lt hw hr h.2.1
  refine ⟨(rowOf y res p, colOf x res p), ⟨hrow, hcol, (cellOf_eq_iff hw hr h hcol).1 rfl⟩, ?_⟩
  rintro ⟨r, c⟩ ⟨-, h2, h3⟩
  have := (cellOf_eq_iff hw hr h h2).2 h3
  obtain ⟨e1, e2⟩ := Arr2.idx_inj hcol h2 this
  rw [e1, e2]

theorem sum_indicator {α : Type} (l : List α) (hn : l.Nodup) (P : α → Prop) [DecidablePred P] (h : ∃! a, a ∈ l ∧ P a) :
    (l.map (fun a => if P a then (1 : ℚ) else 0)).sum = 1 := by
  obtain ⟨a, ⟨ha, hp⟩, hu⟩ := h
  induction l with
  | nil => simp at ha
  | cons b l ih =>
    rw [List.nodup_cons] at hn
    rw [List.map_cons, List.sum_cons]
    by_cases hb : P b
    · have e : b = a := hu b ⟨List.mem_cons_self, hb⟩
      have hz : (l.map (fun a => if P a then (1 : ℚ) else 0)).sum = 0 := by
        apply List.sum_eq_zero
        intro v hv
        obtain ⟨c, hc, rfl⟩ := List.mem_map.1 hv
        have : ¬ P c := by
          intro hpc
          have e2 : c = a := hu c ⟨List.mem_cons_of_mem _ hc, hpc⟩
          rw [e2, ← e] at hc; exact hn.1 hc
        rw [if_neg this]
      rw [if_pos hb, hz]; norm_num
    · have ha' : a ∈ l := by
        rcases List.mem_cons.1 ha with rfl | h
        · exact absurd hp hb
        · exact h
      rw [if_neg hb, ih hn.2 (fun c hc => hu c ⟨List.mem_cons_of_mem _ hc.1, hc.2⟩) ha']; norm_num

theorem sum_map_add {α : Type} (l : List α) (f g : α → ℚ) : (l.map (fun a => f a + g a)).sum = (l.map f).sum + (l.map g).sum := by
  induction l with
  | nil => simp
  | cons a l ih => simp only [List.map_cons, List.sum_cons, ih]; ring

theorem counts_sum {x y width res : ℚ} (hw : 0 < width) (hr : 0 < res) (pts : List Pt) (hbox : ∀ p ∈ pts, InBox x y width p) :
    (countsOf (ncells width res) x y res pts).sum = (pts.length : ℚ) := by
  induction pts with
  | nil =>
    apply List.sum_eq_zero
    intro v hv
    obtain ⟨c, hc, rfl⟩ := List.mem_map.1 hv
    simp [inCell]
  | cons p pts ih =>
    have ih := ih (fun q hq => hbox q (List.mem_cons_of_mem _ hq))
    unfold countsOf at ih ⊢
    have e : ∀ rc : Nat × Nat, ((inCell x y res rc.1 rc.2 (p :: pts)).length : ℚ) =
        (if InCell x y res rc.1 rc.2 p then (1 : ℚ) else 0) + ((inCell x y res rc.1 rc.2 pts).length : ℚ) := by
      intro rc
      unfold inCell
      rw [List.filter_cons]
      by_cases h : InCell x y res rc.1 rc.2 p
      · simp only [h, decide_true, if_true, List.length_cons]; push_cast; ring
      · simp [h]
    simp only [e]
    rw [sum_map_add, ih, sum_indicator _ (cellsOf_nodup _)]
    · rw [List.length_cons]; push_cast; ring
    · obtain ⟨rc, ⟨h1, h2, h3⟩, hu⟩ := cell_unique hw hr (hbox p List.mem_cons_self)
      refine ⟨rc, ⟨mem_cellsOf.2 ⟨h1, h2⟩, h3⟩, ?_⟩
      rintro rc' ⟨h4, h5⟩
      exact hu rc' ⟨(mem_cellsOf.1 h4).1, (mem_cellsOf.1 h4).2, h5⟩

theorem layerSum_counts {a : LayerArr} {n : Nat} {x y res : ℚ} {pts : List Pt} (h : EachCell a n x y res pts CountCell) :
    layerSum a = (countsOf n x y res pts).sum := by
  unfold layerSum
  rw [count_flat h, List.map_map]
  congr 1
  conv_rhs => rw [← List.map_id (countsOf n x y res pts)]
  apply List.map_congr_left
  intro v _
  rfl

/-- a dict with a single key -/
theorem cells_single {dk : Layer} {cells : Dict ℚ (Dict Layer LayerArr)} (h : CInv dk cells) {res : ℚ} {ls : Dict Layer LayerArr}
    (h1 : cells.get? res = some ls) (h2 : ∀ r, r ≠ res → cells.get? r = none) : cells = [(res, ls)] := by
  have hk : ∀ p ∈ cells, p.1 = res := by
    intro p hp
    by_contra hne
    have := Dict.get?_of_mem cells (k := p.1) (v := p.2) h.1 hp
    rw [h2 _ hne] at this; cases this
  cases cells with
  | nil => cases h1
  | cons p rest =>
    have e1 : p.1 = res := hk p List.mem_cons_self
    cases rest with
    | nil =>
      rw [Dict.get?_cons, if_pos e1] at h1
      cases h1
      rw [← e1]
    | cons q rest =>
      have e2 : q.1 = res := hk q (List.mem_cons_of_mem _ List.mem_cons_self)
      have := h.1
      simp [e1, e2] at this

end Bathy
