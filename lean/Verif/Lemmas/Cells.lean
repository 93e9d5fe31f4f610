import Mathlib.Tactic.FieldSimp
import Verif.Props.Binning
import Verif.Lemmas.GridFns
import Verif.Lemmas.TileGridFrame

/-!
# the cell of a sounding
-/

namespace Bathy

theorem isPowerOfTwo_pos {r : ℚ} (h : isPowerOfTwo r = true) : 0 < r := by
  unfold isPowerOfTwo at h
  by_cases h1 : r > 1
  · linarith
  · rw [if_neg h1] at h
    by_cases h2 : r = 1
    · rw [h2]; norm_num
    · rw [if_neg h2] at h
      by_cases h3 : r > 0
      · exact h3
      · rw [if_neg h3] at h; simp at h

/-- number of cells of a tile of the given width along one axis -/
def ncells (width res : ℚ) : Nat := ⌈width / res⌉.toNat

/-- the canonical cell edges -/
def edgesOf (lo res : ℚ) (n : Nat) : List ℚ := (List.range (n + 1)).map (fun i : Nat => lo + (i : ℚ) * res)

theorem ncells_pos {width res : ℚ} (hw : 0 < width) (hr : 0 < res) : 0 < ncells width res := by
  unfold ncells
  have : 0 < width / res := div_pos hw hr
  have := Int.ceil_pos.2 this
  omega

theorem ncells_le {width res : ℚ} (hw : 0 < width) (hr : 0 < res) : width ≤ (ncells width res : ℚ) * res := by
  have h1 : width / res ≤ ((⌈width / res⌉ : Int) : ℚ) := Int.le_ceil _
  have h2 : ((⌈width / res⌉.toNat : Nat) : ℚ) = ((⌈width / res⌉ : Int) : ℚ) := by
    have : 0 < ⌈width / res⌉ := Int.ceil_pos.2 (div_pos hw hr)
    have h3 : ((⌈width / res⌉.toNat : Nat) : Int) = ⌈width / res⌉ := Int.toNat_of_nonneg (le_of_lt this)
    have h4 := congrArg (Int.cast (R := ℚ)) h3
    rwa [Int.cast_natCast] at h4
  unfold ncells
  rw [h2]
  exact (div_le_iff₀ hr).1 h1

theorem arange_edges {lo width res : ℚ} (hw : 0 < width) (hr : 0 < res) :
    appendEdge (arange lo (lo + width) res) res = some (edgesOf lo res (ncells width res)) ∧
    (arange lo (lo + width) res).length = ncells width res := by
  have hn := ncells_pos hw hr
  have hl : (arange lo (lo + width) res).length = ncells width res := by
    rw [arange_length]; unfold ncells; rw [add_sub_cancel_left]
  refine ⟨?_, hl⟩
  have hne : arange lo (lo + width) res ≠ [] := by
    intro h; rw [h] at hl; simp at hl; omega
  rw [appendEdge_eq _ _ hne]
  unfold edgesOf
  rw [List.range_succ, List.map_append, List.map_singleton]
  have hlast : (arange lo (lo + width) res).getLast hne + res = lo + (ncells width res : ℚ) * res := by
    rw [List.getLast_eq_getElem, arange_getElem, hl]
    have : ((ncells width res - 1 : Nat) : ℚ) = (ncells width res : ℚ) - 1 := by
      rw [Nat.cast_sub (by omega)]; simp
    rw [this]; ring
  rw [hlast]
  congr 2
  unfold arange ncells
  rw [add_sub_cancel_left]

theorem edgesOf_length (lo res : ℚ) (n : Nat) : (edgesOf lo res n).length = n + 1 := by simp [edgesOf]

theorem edgesOf_get (lo res : ℚ) {n i : Nat} (h : i ≤ n) : (edgesOf lo res n)[i]? = some (lo + (i : ℚ) * res) := by
  unfold edgesOf
  rw [List.getElem?_map, List.getElem?_range (by omega)]; rfl

theorem edgesOf_sorted (lo : ℚ) {res : ℚ} (hr : 0 < res) (n : Nat) : (edgesOf lo res n).Pairwise (· < ·) := by
  unfold edgesOf
  rw [List.pairwise_map]
  refine List.pairwise_lt_range.imp ?_
  intro a b hab
  have : (a : ℚ) < (b : ℚ) := by exact_mod_cast hab
  nlinarith

/-- row and column of a sounding in a grid with the given lower left corner and resolution -/
def rowOf (minY res : ℚ) (p : Pt) : Nat := ⌊(p.y - minY) / res⌋.toNat
/-- see `rowOf` -/
def colOf (minX res : ℚ) (p : Pt) : Nat := ⌊(p.x - minX) / res⌋.toNat
/-- flattened cell number of a sounding -/
def cellOf (minX minY res : ℚ) (n : Nat) (p : Pt) : Nat := rowOf minY res p * n + colOf minX res p

theorem floor_interval {lo res x : ℚ} (hr : 0 < res) (i : Nat) :
    (lo + (i : ℚ) * res ≤ x ∧ x < lo + ((i + 1 : Nat) : ℚ) * res) ↔ (lo ≤ x ∧ ⌊(x - lo) / res⌋.toNat = i) := by
  have key : (lo + (i : ℚ) * res ≤ x ∧ x < lo + ((i + 1 : Nat) : ℚ) * res) ↔ ⌊(x - lo) / res⌋ = (i : Int) := by
    rw [Int.floor_eq_iff, le_div_iff₀ hr, div_lt_iff₀ hr]
    push_cast
    constructor
    · rintro ⟨a, b⟩; constructor <;> linarith
    · rintro ⟨a, b⟩; constructor <;> linarith
  rw [key]
  constructor
  · intro h
    refine ⟨?_, by rw [h]; simp⟩
    have : 0 ≤ ⌊(x - lo) / res⌋ := by rw [h]; omega
    rw [Int.floor_nonneg] at this
    have := (le_div_iff₀ hr).1 this
    linarith
  · rintro ⟨h1, h2⟩
    have : 0 ≤ ⌊(x - lo) / res⌋ := by
      rw [Int.floor_nonneg]; exact div_nonneg (by linarith) (le_of_lt hr)
    omega

theorem row_lt {lo width res y : ℚ} (hw : 0 < width) (hr : 0 < res) (h2 : y < lo + width) :
    ⌊(y - lo) / res⌋.toNat < ncells width res := by
  have h := ncells_le hw hr
  have h3 : (y - lo) / res < (ncells width res : ℚ) := by
    rw [div_lt_iff₀ hr]; linarith
  have h4 : ⌊(y - lo) / res⌋ < ((ncells width res : Nat) : Int) := by
    rw [Int.floor_lt]; exact_mod_cast h3
  have := ncells_pos hw hr
  omega

/-- binning soundings that lie in the tile gives their cell numbers -/
theorem bin2d_cells {minX minY width res : ℚ} (hw : 0 < width) (hr : 0 < res) (pts : List Pt)
    (hbox : ∀ p ∈ pts, InBox minX minY width p) :
    bin2d [pts.map Pt.x] [pts.map Pt.y] (edgesOf minX res (ncells width res)) (edgesOf minY res (ncells width res)) =
      .ok (pts.map (cellOf minX minY res (ncells width res))) := by
  have hn := ncells_pos hw hr
  have hle := ncells_le hw hr
  have hwithin : ∀ q ∈ (pts.map Pt.x).zip (pts.map Pt.y),
      Within (edgesOf minX res (ncells width res)) (edgesOf minY res (ncells width res)) q.1 q.2 := by
    intro q hq
    have : ∃ p ∈ pts, q = (p.x, p.y) := by
      rw [List.zip_map, List.mem_map] at hq
      obtain ⟨⟨a, b⟩, hab, rfl⟩ := hq
      have hab' : a ∈ pts ∧ a = b := by
        obtain ⟨i, hi⟩ := List.mem_iff_getElem?.1 hab
        have h2 := List.getElem?_zip_eq_some.1 hi
        refine ⟨List.mem_of_getElem? h2.1, ?_⟩
        have := h2.1.symm.trans h2.2
        simpa using this
      obtain ⟨ha, rfl⟩ := hab'
      exact ⟨a, ha, rfl⟩
    obtain ⟨p, hp, rfl⟩ := this
    obtain ⟨b1, b2, b3, b4⟩ := hbox p hp
    refine ⟨minX, minX + (ncells width res : ℚ) * res, minY, minY + (ncells width res : ℚ) * res, ?_, ?_, ?_, ?_, b1, ?_, b3, ?_⟩
    · rw [List.head?_eq_getElem?, edgesOf_get _ _ (Nat.zero_le _)]; simp
    · rw [List.getLast?_eq_getElem?, edgesOf_length, Nat.add_sub_cancel, edgesOf_get _ _ (le_refl _)]
    · rw [List.head?_eq_getElem?, edgesOf_get _ _ (Nat.zero_le _)]; simp
    · rw [List.getLast?_eq_getElem?, edgesOf_length, Nat.add_sub_cancel, edgesOf_get _ _ (le_refl _)]
    · simp only; linarith
    · simp only; linarith
  obtain ⟨l, hl, hlen, hcell⟩ := C13_bin_partition (pts.map Pt.x) (pts.map Pt.y) _ _ (by simp) (edgesOf_sorted minX hr _)
    (edgesOf_sorted minY hr _) hwithin
  rw [hl]
  congr 1
  apply List.ext_getElem?
  intro k
  by_cases hk : k < pts.length
  · obtain ⟨r, c, ⟨x0, x1, y0, y1, e1, e2, e3, e4, i1, i2, i3, i4⟩, hlk, -⟩ := hcell k pts[k].x pts[k].y (by simp [hk]) (by simp [hk])
    have hc : c + 1 ≤ ncells width res := by
      have := (List.getElem?_eq_some_iff.1 e2).1; rw [edgesOf_length] at this; omega
    have hr' : r + 1 ≤ ncells width res := by
      have := (List.getElem?_eq_some_iff.1 e4).1; rw [edgesOf_length] at this; omega
    rw [edgesOf_get _ _ (by omega)] at e1
    rw [edgesOf_get _ _ hc] at e2
    rw [edgesOf_get _ _ (by omega)] at e3
    rw [edgesOf_get _ _ hr'] at e4
    cases e1; cases e2; cases e3; cases e4
    rw [hlk, edgesOf_length, Nat.add_sub_cancel, List.getElem?_map, List.getElem?_eq_getElem hk, Option.map_some]
    have hcx := ((floor_interval hr c).1 ⟨i1, i2⟩).2
    have hry := ((floor_interval hr r).1 ⟨i3, i4⟩).2
    unfold cellOf rowOf colOf
    rw [hcx, hry]
  · rw [List.getElem?_eq_none (by rw [hlen]; simpa using hk), List.getElem?_eq_none (by simpa using hk)]

theorem cellOf_lt {minX minY width res : ℚ} (hw : 0 < width) (hr : 0 < res) {p : Pt} (h : InBox minX minY width p) :
    cellOf minX minY res (ncells width res) p < ncells width res * ncells width res :=
  Arr2.idx_lt (row_lt hw hr h.2.2.2) (row_lt hw hr h.2.1)

theorem cellOf_eq_iff {minX minY width res : ℚ} (hw : 0 < width) (hr : 0 < res) {p : Pt} (h : InBox minX minY width p)
    {r c : Nat} (hc : c < ncells width res) :
    cellOf minX minY res (ncells width res) p = r * ncells width res + c ↔ InCell minX minY res r c p := by
  obtain ⟨b1, b2, b3, b4⟩ := h
  have hcol : colOf minX res p < ncells width res := row_lt hw hr b2
  unfold InCell
  rw [← and_assoc, floor_interval hr c, floor_interval hr r]
  unfold cellOf
  constructor
  · intro e
    obtain ⟨e1, e2⟩ := Arr2.idx_inj hcol hc e
    exact ⟨⟨b1, e2⟩, b3, e1⟩
  · rintro ⟨⟨-, e2⟩, -, e1⟩
    unfold rowOf colOf
    rw [e1, e2]

/-- the values of the soundings in a cell -/
theorem cellVals_cellOf {α : Type} {minX minY width res : ℚ} (hw : 0 < width) (hr : 0 < res) (pts : List Pt) (f : Pt → α)
    (hbox : ∀ p ∈ pts, InBox minX minY width p) {r c : Nat} (hc : c < ncells width res) :
    cellVals (pts.map (fun p => (cellOf minX minY res (ncells width res) p : Int))) (pts.map f)
      ((r * ncells width res + c : Nat) : Int) = (pts.filter (fun p => decide (InCell minX minY res r c p))).map f := by
  unfold cellVals
  induction pts with
  | nil => rfl
  | cons p pts ih =>
    rw [List.map_cons, List.map_cons, List.zip_cons_cons, valsAt_cons, ih (fun q hq => hbox q (List.mem_cons_of_mem _ hq)),
      List.filter_cons]
    have := cellOf_eq_iff hw hr (hbox p List.mem_cons_self) (r := r) hc
    by_cases h : InCell minX minY res r c p
    · have e : ((cellOf minX minY res (ncells width res) p : Nat) : Int) = ((r * ncells width res + c : Nat) : Int) :=
        congrArg _ (this.2 h)
      simp only [e, if_true, h, decide_true, List.map_cons]
    · have e : ¬ ((cellOf minX minY res (ncells width res) p : Nat) : Int) = ((r * ncells width res + c : Nat) : Int) :=
        fun e => h (this.1 (Int.ofNat.inj e))
      simp only [e, if_false, h, decide_false, Bool.false_eq_true]

end Bathy
