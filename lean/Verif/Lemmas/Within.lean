import Verif.Spec.Tiles
import Verif.Lemmas.Cells
import Verif.Lemmas.TilePoints

/-!
# Lemmas about the distribution of soundings over tiles
-/

namespace Bathy

namespace Store

theorem within_append (A B : Store) (x y s : ℚ) : within (A ++ B) x y s = within A x y s ++ within B x y s := by
  simp [within]

theorem within_nil (x y s : ℚ) : within [] x y s = [] := rfl

theorem within_single (c : String) (pts : List Pt) (x y s : ℚ) (h : pts.filter (fun p => decide (InBox x y s p)) ≠ []) :
    within [(c, pts)] x y s = [(c, pts.filter (fun p => decide (InBox x y s p)))] := by
  unfold within
  rw [List.map_singleton, List.filter_singleton]
  simp only [h, decide_true, cond_true, ne_eq, not_false_eq_true]

theorem within_single_nil (c : String) (pts : List Pt) (x y s : ℚ) (h : pts.filter (fun p => decide (InBox x y s p)) = []) :
    within [(c, pts)] x y s = [] := by
  unfold within
  rw [List.map_singleton, List.filter_singleton]
  simp [h]

theorem within_remove (A : Store) (c : String) (x y s : ℚ) : within (remove A c) x y s = remove (within A x y s) c := by
  unfold within remove
  rw [List.filter_map, List.filter_map, List.filter_map, List.filter_filter, List.filter_filter]
  congr 1
  apply List.filter_congr
  intro q _
  simp [Bool.and_comm]

theorem names_within (A : Store) (x y s : ℚ) : (within A x y s).names.Sublist A.names := by
  unfold within names
  have h1 := (List.filter_sublist (p := fun q : String × List Pt => decide (q.2 ≠ []))
    (l := A.map (fun q => (q.1, q.2.filter (fun p => decide (InBox x y s p)))))).map Prod.fst
  simpa [List.map_map, Function.comp_def] using h1

theorem within_ne (A : Store) (x y s : ℚ) : ∀ q ∈ within A x y s, q.2 ≠ [] := by
  intro q hq
  simpa using (List.mem_filter.1 hq).2

theorem allPts_within (A : Store) (x y s : ℚ) : (within A x y s).allPts = A.allPts.filter (fun p => decide (InBox x y s p)) := by
  induction A with
  | nil => rfl
  | cons q A ih =>
    have : within (q :: A) x y s = within [q] x y s ++ within A x y s := within_append [q] A x y s
    rw [this, allPts_append, ih, allPts_cons, List.filter_append]
    congr 1
    obtain ⟨c, pts⟩ := q
    by_cases h : pts.filter (fun p => decide (InBox x y s p)) = []
    · rw [within_single_nil _ _ _ _ _ h, h]; rfl
    · rw [within_single _ _ _ _ _ h]; simp [allPts]

theorem within_box (A : Store) (x y s : ℚ) : ∀ p ∈ (within A x y s).allPts, InBox x y s p := by
  intro p hp
  rw [allPts_within] at hp
  simpa using (List.mem_filter.1 hp).2

theorem ptsOf_within (A : Store) (c : String) (x y s : ℚ) :
    (within A x y s).ptsOf c = (A.ptsOf c).filter (fun p => decide (InBox x y s p)) := by
  induction A with
  | nil => rfl
  | cons q A ih =>
    have hw : within (q :: A) x y s = within [q] x y s ++ within A x y s := within_append [q] A x y s
    have happ : ∀ A B : Store, ptsOf (A ++ B) c = ptsOf A c ++ ptsOf B c := by
      intro A B; unfold ptsOf; rw [List.filter_append, allPts_append]
    rw [hw, happ, ih]
    have : ptsOf (q :: A) c = ptsOf [q] c ++ ptsOf A c := happ [q] A
    rw [this, List.filter_append]
    congr 1
    obtain ⟨c', pts⟩ := q
    by_cases h : pts.filter (fun p => decide (InBox x y s p)) = []
    · rw [within_single_nil _ _ _ _ _ h]
      by_cases hc : c' = c
      · simp [ptsOf, hc, allPts, h]
      · simp [ptsOf, hc, allPts]
    · rw [within_single _ _ _ _ _ h]
      by_cases hc : c' = c
      · simp [ptsOf, hc, allPts]
      · simp [ptsOf, hc, allPts]

/-- a store whose containers are not empty is empty iff it has no soundings -/
theorem nil_of_allPts {A : Store} (hne : ∀ q ∈ A, q.2 ≠ []) (h : A.allPts = []) : A = [] := by
  cases A with
  | nil => rfl
  | cons q A =>
    rw [allPts_cons, List.append_eq_nil_iff] at h
    exact absurd h.1 (hne q List.mem_cons_self)

theorem mem_allPts {A : Store} {p : Pt} : p ∈ A.allPts ↔ ∃ q ∈ A, p ∈ q.2 := by
  simp only [allPts, List.mem_flatten, List.mem_map]
  constructor
  · rintro ⟨l, ⟨q, hq, rfl⟩, hp⟩; exact ⟨q, hq, hp⟩
  · rintro ⟨q, hq, hp⟩; exact ⟨_, ⟨q, hq, rfl⟩, hp⟩

theorem remove_ne {A : Store} (c : String) (hne : ∀ q ∈ A, q.2 ≠ []) : ∀ q ∈ A.remove c, q.2 ≠ [] := by
  intro q hq; exact hne q (List.mem_filter.1 hq).1

theorem mem_allPts_remove {A : Store} {c : String} {p : Pt} (h : p ∈ (A.remove c).allPts) : p ∈ A.allPts := by
  rw [mem_allPts] at h ⊢
  obtain ⟨q, hq, hp⟩ := h
  exact ⟨q, (List.mem_filter.1 hq).1, hp⟩

theorem put_new (A : Store) (c : String) (pts : List Pt) (h : c ∉ A.names) : A.put c pts = A ++ [(c, pts)] := by
  unfold put; rw [remove_of_not_mem _ _ h]

end Store

/-- binning soundings that lie in the rectangle of tiles gives their tile numbers -/
theorem bin2d_rect {minX minY res : ℚ} {nx ny : Nat} (hr : 0 < res) (pts : List Pt)
    (hbox : ∀ p ∈ pts, InRect minX minY res nx ny p) :
    bin2d [pts.map Pt.x] [pts.map Pt.y] (edgesOf minX res nx) (edgesOf minY res ny) = .ok (pts.map (cellOf minX minY res nx)) := by
  have hwithin : ∀ q ∈ (pts.map Pt.x).zip (pts.map Pt.y), Within (edgesOf minX res nx) (edgesOf minY res ny) q.1 q.2 := by
    intro q hq
    have : ∃ p ∈ pts, q = (p.x, p.y) := by
      rw [List.zip_map, List.mem_map] at hq
      obtain ⟨⟨a, b⟩, hab, rfl⟩ := hq
      have hab' : a ∈ pts ∧ a = b := by
        obtain ⟨i, hi⟩ := List.mem_iff_getElem?.1 hab
        have h2 := List.getElem?_zip_eq_some.1 hi
        refine ⟨List.mem_of_getElem? h2.1, ?_⟩
        have := h2.1.symm.trans h2.2
        simpa using this
      obtain ⟨ha, rfl⟩ := hab'
      exact ⟨a, ha, rfl⟩
    obtain ⟨p, hp, rfl⟩ := this
    obtain ⟨b1, b2, b3, b4⟩ := hbox p hp
    refine ⟨minX, minX + (nx : ℚ) * res, minY, minY + (ny : ℚ) * res, ?_, ?_, ?_, ?_, b1, b2, b3, b4⟩
    · rw [List.head?_eq_getElem?, edgesOf_get _ _ (Nat.zero_le _)]; simp
    · rw [List.getLast?_eq_getElem?, edgesOf_length, Nat.add_sub_cancel, edgesOf_get _ _ (le_refl _)]
    · rw [List.head?_eq_getElem?, edgesOf_get _ _ (Nat.zero_le _)]; simp
    · rw [List.getLast?_eq_getElem?, edgesOf_length, Nat.add_sub_cancel, edgesOf_get _ _ (le_refl _)]
  obtain ⟨l, hl, hlen, hcell⟩ := C13_bin_partition (pts.map Pt.x) (pts.map Pt.y) _ _ (by simp) (edgesOf_sorted minX hr _)
    (edgesOf_sorted minY hr _) hwithin
  rw [hl]
  congr 1
  apply List.ext_getElem?
  intro k
  by_cases hk : k < pts.length
  · obtain ⟨r, c, ⟨x0, x1, y0, y1, e1, e2, e3, e4, i1, i2, i3, i4⟩, hlk, -⟩ := hcell k pts[k].x pts[k].y (by simp [hk]) (by simp [hk])
    have hc : c + 1 ≤ nx := by
      have := (List.getElem?_eq_some_iff.1 e2).1; rw [edgesOf_length] at this; omega
    have hr' : r + 1 ≤ ny := by
      have := (List.getElem?_eq_some_iff.1 e4).1; rw [edgesOf_length] at this; omega
    rw [edgesOf_get _ _ (by omega)] at e1
    rw [edgesOf_get _ _ hc] at e2
    rw [edgesOf_get _ _ (by omega)] at e3
    rw [edgesOf_get _ _ hr'] at e4
    cases e1; cases e2; cases e3; cases e4
    rw [hlk, edgesOf_length, Nat.add_sub_cancel, List.getElem?_map, List.getElem?_eq_getElem hk, Option.map_some]
    have hcx := ((floor_interval hr c).1 ⟨i1, i2⟩).2
    have hry := ((floor_interval hr r).1 ⟨i3, i4⟩).2
    unfold cellOf rowOf colOf
    rw [hcx, hry]
  · rw [List.getElem?_eq_none (by rw [hlen]; simpa using hk), List.getElem?_eq_none (by simpa using hk)]

theorem floor_lt_of_rect {lo res x : ℚ} {n : Nat} (hr : 0 < res) (h1 : lo ≤ x) (h2 : x < lo + (n : ℚ) * res) :
    ⌊(x - lo) / res⌋.toNat < n := by
  have h3 : (x - lo) / res < (n : ℚ) := by rw [div_lt_iff₀ hr]; linarith
  have h4 : ⌊(x - lo) / res⌋ < (n : Int) := by rw [Int.floor_lt]; exact_mod_cast h3
  have h5 : 0 ≤ ⌊(x - lo) / res⌋ := by rw [Int.floor_nonneg]; exact div_nonneg (by linarith) (le_of_lt hr)
  omega

theorem cellOf_rect_lt {minX minY res : ℚ} {nx ny : Nat} (hr : 0 < res) {p : Pt} (h : InRect minX minY res nx ny p) :
    cellOf minX minY res nx p < ny * nx :=
  Arr2.idx_lt (floor_lt_of_rect hr h.2.2.1 h.2.2.2) (floor_lt_of_rect hr h.1 h.2.1)

/-- x coordinate of the origin of the tile with flat index k -/
def slotX (minX size : ℚ) (nx k : Nat) : ℚ := minX + ((k % nx : Nat) : ℚ) * size
/-- y coordinate of the origin of the tile with flat index k -/
def slotY (minY size : ℚ) (nx k : Nat) : ℚ := minY + ((k / nx : Nat) : ℚ) * size

/-- a sounding is binned to tile k iff it lies in the square of that tile -/
theorem cellOf_rect_iff {minX minY res : ℚ} {nx ny : Nat} (hr : 0 < res) {p : Pt} (h : InRect minX minY res nx ny p) {k : Nat} (hk : k < ny * nx) :
    cellOf minX minY res nx p = k ↔ InBox (slotX minX res nx k) (slotY minY res nx k) res p := by
  obtain ⟨b1, b2, b3, b4⟩ := h
  have hcol : colOf minX res p < nx := floor_lt_of_rect hr b1 b2
  have hk2 : k % nx < nx := Arr2.mod_lt_cols hk
  have fx := floor_interval (lo := minX) (x := p.x) hr (k % nx)
  have fy := floor_interval (lo := minY) (x := p.y) hr (k / nx)
  have e1 : minX + ((k % nx + 1 : Nat) : ℚ) * res = slotX minX res nx k + res := by unfold slotX; push_cast; ring
  have e2 : minY + ((k / nx + 1 : Nat) : ℚ) * res = slotY minY res nx k + res := by unfold slotY; push_cast; ring
  rw [e1] at fx; rw [e2] at fy
  unfold InBox
  constructor
  · intro e
    have e' : rowOf minY res p * nx + colOf minX res p = k / nx * nx + k % nx := by
      rw [Nat.div_add_mod']; exact e
    obtain ⟨er, ec⟩ := Arr2.idx_inj hcol hk2 e'
    obtain ⟨x1, x2⟩ := fx.2 ⟨b1, ec⟩
    obtain ⟨y1, y2⟩ := fy.2 ⟨b3, er⟩
    exact ⟨x1, x2, y1, y2⟩
  · rintro ⟨x1, x2, y1, y2⟩
    have ec := (fx.1 ⟨x1, x2⟩).2
    have er := (fy.1 ⟨y1, y2⟩).2
    unfold cellOf rowOf colOf
    rw [ec, er, Nat.div_add_mod']

/-- the soundings selected by the mask of tile k are those in its square -/
theorem select_rect {minX minY res : ℚ} {nx ny : Nat} (hr : 0 < res) (pts : List Pt) (hbox : ∀ p ∈ pts, InRect minX minY res nx ny p) {k : Nat}
    (hk : k < ny * nx) :
    boolIndex pts ((pts.map (cellOf minX minY res nx)).map (fun b => decide (b = k))) =
      pts.filter (fun p => decide (InBox (slotX minX res nx k) (slotY minY res nx k) res p)) := by
  rw [List.map_map, boolIndex_filter]
  apply List.filter_congr
  intro p hp
  simp only [Function.comp_apply, decide_eq_decide]
  exact cellOf_rect_iff hr (hbox p hp) hk

end Bathy
