import Verif.Lemmas.Block
import Verif.Lemmas.GridTiles
import Verif.Lemmas.GridFns

/-!
# Growing a grid
-/

namespace Bathy
namespace Grid
variable {τ : Type} [TileLike τ] {size sub : ℚ} {bs : Bool} {fl : Fields}

theorem arange_origins {lo width res : ℚ} : arange lo (lo + width) res = originsOf lo res (ncells width res) := by
  unfold arange originsOf ncells
  rw [add_sub_cancel_left]

theorem ncells_mul {size : ℚ} (hs : 0 < size) (n : Nat) : ncells ((n : ℚ) * size) size = n := by
  unfold ncells
  rw [mul_div_assoc, div_self hs.ne', mul_one, Int.ceil_natCast, Int.toNat_natCast]

theorem originsOf_length (lo size : ℚ) (n : Nat) : (originsOf lo size n).length = n := by simp [originsOf]

theorem originsOf_head (lo size : ℚ) {n : Nat} (hn : 0 < n) : (originsOf lo size n).head? = some lo := by
  cases n with
  | zero => omega
  | succ n => simp [originsOf, List.range_succ_eq_map]

theorem originsOf_findIdx {lo size : ℚ} (hs : 0 < size) {n b : Nat} (hb : b < n) :
    (originsOf lo size n).findIdx (fun y => decide (y = lo + (b : ℚ) * size)) = b := by
  rw [List.findIdx_eq (by rw [originsOf_length]; exact hb)]
  constructor
  · simp [originsOf]
  · intro j hj
    simp only [originsOf, List.getElem_map, List.getElem_range, decide_eq_false_iff_not]
    intro h
    have h1 : (j : ℚ) * size = (b : ℚ) * size := by linarith
    have h2 : (j : ℚ) = (b : ℚ) := mul_right_cancel₀ hs.ne' h1
    have : j = b := by exact_mod_cast h2
    omega

/-- the extents after `_adjust_extents` with the origin at zero: the smallest rectangle of whole tiles with the points strictly inside -/
theorem adjust_spec {lo hi size : ℚ} (hs : 0 < size) (h : lo ≤ hi) :
    ∃ (i : ℤ) (n : ℕ), 0 < n ∧ adjust lo hi 0 size = ((i : ℚ) * size, (i : ℚ) * size + (n : ℚ) * size) ∧
      (i : ℚ) * size ≤ lo ∧ lo < (i : ℚ) * size + size ∧ hi < (i : ℚ) * size + (n : ℚ) * size ∧ (i : ℚ) * size + (n : ℚ) * size ≤ hi + size := by
  have f1 : ((⌊lo / size⌋ : ℤ) : ℚ) * size ≤ lo := by
    have := Int.floor_le (lo / size); rwa [le_div_iff₀ hs] at this
  have f2 : lo < ((⌊lo / size⌋ : ℤ) : ℚ) * size + size := by
    have := Int.lt_floor_add_one (lo / size)
    rw [div_lt_iff₀ hs] at this; linarith
  have c1 : hi ≤ ((⌈hi / size⌉ : ℤ) : ℚ) * size := by
    have := Int.le_ceil (hi / size); rwa [div_le_iff₀ hs] at this
  have c2 : ((⌈hi / size⌉ : ℤ) : ℚ) * size < hi + size := by
    have := Int.ceil_lt_add_one (hi / size)
    have h3 : ((⌈hi / size⌉ : ℤ) : ℚ) - 1 < hi / size := by linarith
    rw [lt_div_iff₀ hs] at h3; linarith
  obtain ⟨j, hj1, hj2, hj3⟩ : ∃ j : ℤ, (adjust lo hi 0 size).2 = (j : ℚ) * size ∧ hi < (j : ℚ) * size ∧ (j : ℚ) * size ≤ hi + size := by
    unfold adjust
    simp only [sub_zero]
    by_cases he : ((⌈hi / size⌉ : ℤ) : ℚ) * size = hi
    · refine ⟨⌈hi / size⌉ + 1, ?_, ?_, ?_⟩
      · rw [if_pos he]; push_cast; ring
      · push_cast; rw [add_mul, he]; linarith
      · push_cast; rw [add_mul, he]; linarith
    · exact ⟨⌈hi / size⌉, by rw [if_neg he], lt_of_le_of_ne c1 (Ne.symm he), c2.le⟩
  have hij : ⌊lo / size⌋ < j := by
    have : ((⌊lo / size⌋ : ℤ) : ℚ) * size < (j : ℚ) * size := by linarith
    have := lt_of_mul_lt_mul_right this hs.le
    exact_mod_cast this
  have hn : ((j - ⌊lo / size⌋).toNat : ℚ) = (j : ℚ) - ((⌊lo / size⌋ : ℤ) : ℚ) := by
    have : (((j - ⌊lo / size⌋).toNat : ℤ) : ℚ) = ((j - ⌊lo / size⌋ : ℤ) : ℚ) := by rw [Int.toNat_of_nonneg (by omega)]
    push_cast at this
    exact this
  have hsum : ((⌊lo / size⌋ : ℤ) : ℚ) * size + ((j - ⌊lo / size⌋).toNat : ℚ) * size = (j : ℚ) * size := by rw [hn]; ring
  refine ⟨⌊lo / size⌋, (j - ⌊lo / size⌋).toNat, by omega, ?_, f1, f2, by rw [hsum]; exact hj2, by rw [hsum]; exact hj3⟩
  rw [hsum, ← hj1]
  simp [adjust]

omit [TileLike τ] in
/-- `_build_grid` on an empty grid, or on one that can not grow -/
theorem buildGrid_fresh {g : Grid τ} {e : Extents} {x0 W y0 H : ℚ} (hs : 0 < size) (hsz : g.tileSize = size)
    (hadj : g.adjustExtents e = ⟨x0, x0 + W, y0, y0 + H⟩) (hW : 0 < W) (hH : 0 < H) (hc : g.isEmpty = true ∨ g.canGrow = false) :
    ∃ m, buildGrid g e = .ok { g with extents := some ⟨x0, x0 + W, y0, y0 + H⟩, txs := originsOf x0 size (ncells W size), tys := originsOf y0 size (ncells H size), edgesX := edgesOf x0 size (ncells W size), edgesY := edgesOf y0 size (ncells H size), width := some (x0 + W - x0), height := some (y0 + H - y0), maximumTiles := m } := by
  subst hsz
  refine ⟨some ((originsOf x0 g.tileSize (ncells W g.tileSize)).length * (originsOf y0 g.tileSize (ncells H g.tileSize)).length), ?_⟩
  unfold buildGrid
  rw [hadj]
  have hcond : (!isEmpty { g with extents := some ⟨x0, x0 + W, y0, y0 + H⟩ } && g.canGrow) = false := by
    rcases hc with h | h
    · have : isEmpty { g with extents := some ⟨x0, x0 + W, y0, y0 + H⟩ } = g.isEmpty := rfl
      rw [this, h]; rfl
    · rw [h, Bool.and_false]
  have hx := (arange_edges (lo := x0) hW hs).1
  have hy := (arange_edges (lo := y0) hH hs).1
  rw [arange_origins] at hx hy
  simp only [hcond, Bool.false_eq_true, if_false]
  simp only [arange_origins, hx, hy]

/-- the mask of the old tiles in the new grid -/
theorem existingMask_spec {x0 y0 size : ℚ} (hs : 0 < size) {N R a b w h : Nat} (hw : 0 < w) (hh : 0 < h) (hb : b + w ≤ N) (ha : a + h ≤ R)
    {ox oy : ℚ} (hox : ox = x0 + (b : ℚ) * size) (hoy : oy = y0 + (a : ℚ) * size) :
    existingMask (originsOf ox size w) (originsOf oy size h) (originsOf x0 size N) (originsOf y0 size R) =
      some (Arr2.ofFn R N (fun r c => decide (a ≤ r ∧ r < a + h) && decide (b ≤ c ∧ c < b + w))) := by
  unfold existingMask
  rw [originsOf_head _ _ hw, originsOf_head _ _ hh]
  simp only [hox, hoy]
  rw [originsOf_findIdx hs (by omega : b < N), originsOf_findIdx hs (by omega : a < R)]
  simp only [originsOf_length]
  rw [if_pos ⟨by omega, by omega⟩]

omit [TileLike τ] in
theorem buildGrid_grow {g : Grid τ} {e : Extents} {x0 y0 : ℚ} {N R a b w h : Nat} (hs : 0 < size) (hsz : g.tileSize = size)
    (hadj : g.adjustExtents e = ⟨x0, x0 + (N : ℚ) * size, y0, y0 + (R : ℚ) * size⟩) (hne : g.isEmpty = false) (hgr : g.canGrow = true)
    (hw : 0 < w) (hh : 0 < h) (hb : b + w ≤ N) (ha : a + h ≤ R) {ox oy : ℚ} (hox : ox = x0 + (b : ℚ) * size) (hoy : oy = y0 + (a : ℚ) * size)
    (htx : g.txs = originsOf ox size w) (hty : g.tys = originsOf oy size h) :
    ∃ m, buildGrid g e = .ok { g with mask := some (Arr2.ofFn R N (fun r c => decide (a ≤ r ∧ r < a + h) && decide (b ≤ c ∧ c < b + w))), extents := some ⟨x0, x0 + (N : ℚ) * size, y0, y0 + (R : ℚ) * size⟩, txs := originsOf x0 size N, tys := originsOf y0 size R, edgesX := edgesOf x0 size N, edgesY := edgesOf y0 size R, width := some (x0 + (N : ℚ) * size - x0), height := some (y0 + (R : ℚ) * size - y0), maximumTiles := m } := by
  subst hsz
  refine ⟨some ((originsOf x0 g.tileSize N).length * (originsOf y0 g.tileSize R).length), ?_⟩
  unfold buildGrid
  rw [hadj]
  have hcond : (!isEmpty { g with extents := some ⟨x0, x0 + (N : ℚ) * g.tileSize, y0, y0 + (R : ℚ) * g.tileSize⟩ } && g.canGrow) = true := by
    have : isEmpty { g with extents := some ⟨x0, x0 + (N : ℚ) * g.tileSize, y0, y0 + (R : ℚ) * g.tileSize⟩ } = g.isEmpty := rfl
    rw [this, hne, hgr]; rfl
  have hN : (0 : ℚ) < (N : ℚ) * g.tileSize := mul_pos (by exact_mod_cast (by omega : 0 < N)) hs
  have hR : (0 : ℚ) < (R : ℚ) * g.tileSize := mul_pos (by exact_mod_cast (by omega : 0 < R)) hs
  have hx := (arange_edges (lo := x0) hN hs).1
  have hy := (arange_edges (lo := y0) hR hs).1
  rw [arange_origins, ncells_mul hs] at hx hy
  simp only [hcond, if_true]
  simp only [arange_origins, ncells_mul hs, hx, hy, htx, hty, existingMask_spec hs hw hh hb ha hox hoy]

/-- the tile array after `_update_tiles` holds the same soundings -/
theorem placeTiles_rep (C : ChildSpec τ size sub bs fl) (hs : 0 < size) {x0 y0 ox oy : ℚ} {N R a b w h : Nat} (hb : b + w ≤ N) (ha : a + h ≤ R)
    (hox : ox = x0 + (b : ℚ) * size) (hoy : oy = y0 + (a : ℚ) * size) {T : Arr2 (Option τ)} {A : Store} (hrep : TilesRep C ox oy w h T A)
    (hin : ∀ p ∈ A.allPts, InRect ox oy size w h p) :
    ∃ l, assignMask (List.replicate (R * N) none) (Arr2.ofFn R N (fun r c => decide (a ≤ r ∧ r < a + h) && decide (b ≤ c ∧ c < b + w))).flat T.flat = some l ∧
      TilesRep C x0 y0 N R ⟨R, N, l⟩ A ∧
      (∀ k : Nat, k < h * w → l[blockIdx N a b w k]? = T.flat[k]?) ∧
      (∀ (k : Nat) t, l[k]? = some (some t) → ∃ k0, k0 < h * w ∧ k = blockIdx N a b w k0) := by
  obtain ⟨-, -, hlen, hslot⟩ := hrep
  obtain ⟨l, hl, hll, hout, hin'⟩ := assignMask_block (none : Option τ) ha hb T.flat hlen
  refine ⟨l, hl, ⟨rfl, rfl, hll, ?_⟩, ?_, ?_⟩
  · intro k o ho
    have hk : k < R * N := by rw [← hll]; exact (List.getElem?_eq_some_iff.1 ho).1
    by_cases hblk : (a ≤ k / N ∧ k / N < a + h) ∧ b ≤ k % N ∧ k % N < b + w
    · have ho' := ho
      rw [hin' k hk hblk.1 hblk.2] at ho'
      have hk2 := (Arr2.idx_lt (r := k / N - a) (c := k % N - b) (m := h) (n := w) (by omega) (by omega))
      have := hslot _ _ ho'
      have ex : slotX ox size w ((k / N - a) * w + (k % N - b)) = slotX x0 size N k := by
        unfold slotX
        rw [Arr2.idx_mod (by omega), hox]
        have : ((k % N - b : Nat) : ℚ) = ((k % N : Nat) : ℚ) - (b : ℚ) := Nat.cast_sub hblk.2.1
        rw [this]; ring
      have ey : slotY oy size w ((k / N - a) * w + (k % N - b)) = slotY y0 size N k := by
        unfold slotY
        rw [Arr2.idx_div (by omega), hoy]
        have : ((k / N - a : Nat) : ℚ) = ((k / N : Nat) : ℚ) - (a : ℚ) := Nat.cast_sub hblk.1.1
        rw [this]; ring
      rw [ex, ey] at this
      exact this
    · rw [hout k hk hblk] at ho
      cases ho
      left
      refine ⟨rfl, ?_⟩
      apply Store.nil_of_allPts (Store.within_ne _ _ _ _)
      rw [List.eq_nil_iff_forall_not_mem]
      intro p hp
      have hbox := Store.within_box _ _ _ _ p hp
      rw [Store.allPts_within, List.mem_filter] at hp
      obtain ⟨r1, r2, r3, r4⟩ := hin p hp.1
      obtain ⟨q1, q2, q3, q4⟩ := hbox
      unfold slotX at q1 q2
      unfold slotY at q3 q4
      rw [hox] at r1 r2
      rw [hoy] at r3 r4
      have key : ∀ (u v n : Nat) (z t : ℚ), z + (v : ℚ) * size ≤ t → t < z + (v : ℚ) * size + size → z + (u : ℚ) * size ≤ t →
          t < z + (u : ℚ) * size + (n : ℚ) * size → u ≤ v ∧ v < u + n := by
        intro u v n z t h1 h2 h3 h4
        have e1 : (u : ℚ) * size < ((v : ℚ) + 1) * size := by linarith
        have e2 : (v : ℚ) * size < ((u : ℚ) + (n : ℚ)) * size := by linarith
        have e3 := lt_of_mul_lt_mul_right e1 hs.le
        have e4 := lt_of_mul_lt_mul_right e2 hs.le
        have e5 : u < v + 1 := by exact_mod_cast e3
        have e6 : v < u + n := by exact_mod_cast e4
        omega
      exact hblk ⟨key a (k / N) h y0 p.y q3 q4 r3 r4, key b (k % N) w x0 p.x q1 q2 r1 r2⟩
  · intro k hk
    have h1 := Arr2.div_lt_rows hk
    have h2 := Arr2.mod_lt_cols hk
    have e1 : blockIdx N a b w k / N = a + k / w := Arr2.idx_div (by omega)
    have e2 : blockIdx N a b w k % N = b + k % w := Arr2.idx_mod (by omega)
    rw [hin' _ (blockIdx_lt ha hb hk) (by rw [e1]; exact ⟨Nat.le_add_right _ _, Nat.add_lt_add_left h1 _⟩)
      (by rw [e2]; exact ⟨Nat.le_add_right _ _, Nat.add_lt_add_left h2 _⟩), e1, e2, Nat.add_sub_cancel_left, Nat.add_sub_cancel_left, Nat.div_add_mod']
  · intro k t ht
    have hk : k < R * N := by rw [← hll]; exact (List.getElem?_eq_some_iff.1 ht).1
    by_cases hblk : (a ≤ k / N ∧ k / N < a + h) ∧ b ≤ k % N ∧ k % N < b + w
    · have hk2 := (Arr2.idx_lt (r := k / N - a) (c := k % N - b) (m := h) (n := w) (by omega) (by omega))
      refine ⟨(k / N - a) * w + (k % N - b), hk2, ?_⟩
      unfold blockIdx
      rw [Arr2.idx_div (by omega), Arr2.idx_mod (by omega), Nat.add_sub_cancel' hblk.1.1, Nat.add_sub_cancel' hblk.2.1, Nat.div_add_mod']
    · rw [hout k hk hblk] at ht
      cases ht

theorem listMin_spec {l : List ℚ} (h : l ≠ []) : ∃ v, listMin l = some v ∧ v ∈ l ∧ ∀ x ∈ l, v ≤ x := by
  unfold listMin
  cases l with
  | nil => exact absurd rfl h
  | cons a l => exact ⟨_, rfl, reduce1_min _ _ rfl⟩

theorem listMax_spec {l : List ℚ} (h : l ≠ []) : ∃ v, listMax l = some v ∧ v ∈ l ∧ ∀ x ∈ l, x ≤ v := by
  unfold listMax
  cases l with
  | nil => exact absurd rfl h
  | cons a l =>
    refine ⟨_, rfl, ?_⟩
    clear h
    induction l generalizing a with
    | nil => simp
    | cons b l ih =>
      simp only [List.foldl_cons]
      obtain ⟨h1, h2⟩ := ih (max a b)
      constructor
      · rcases List.mem_cons.1 h1 with h | h
        · rw [h]; rcases max_choice a b with e | e <;> rw [e] <;> simp
        · exact List.mem_cons_of_mem _ (List.mem_cons_of_mem _ h)
      · intro x hx
        have hm := h2 (max a b) List.mem_cons_self
        rcases List.mem_cons.1 hx with rfl | hx
        · exact le_trans (le_max_left _ _) hm
        · rcases List.mem_cons.1 hx with rfl | hx
          · exact le_trans (le_max_right _ _) hm
          · exact h2 x (List.mem_cons_of_mem _ hx)

end Grid
end Bathy
