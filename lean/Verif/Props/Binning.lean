import Verif.Lemmas.Binning

/-!
# C13, C14: binning (bathygrid/utilities.py:136-187)

Specification vocabulary used here: a point lies in bin (row r, column c) of the edges iff
`xe[c] ≤ x < xe[c+1]` and `ye[r] ≤ y < ye[r+1]`; the flattened number of that bin is `r * (number of columns) + c`.
-/

namespace Bathy

/-- the point lies in the half open rectangle in row `r`, column `c` of the edges -/
def InBin (xe ye : List ℚ) (x y : ℚ) (r c : Nat) : Prop :=
  ∃ x0 x1 y0 y1, xe[c]? = some x0 ∧ xe[c + 1]? = some x1 ∧ ye[r]? = some y0 ∧ ye[r + 1]? = some y1 ∧
    x0 ≤ x ∧ x < x1 ∧ y0 ≤ y ∧ y < y1

/-- the point lies between the first (inclusive) and the last (exclusive) edge in both directions -/
def Within (xe ye : List ℚ) (x y : ℚ) : Prop :=
  ∃ x0 x1 y0 y1, xe.head? = some x0 ∧ xe.getLast? = some x1 ∧ ye.head? = some y0 ∧ ye.getLast? = some y1 ∧
    x0 ≤ x ∧ x < x1 ∧ y0 ≤ y ∧ y < y1

/-- every point within the edges has exactly one bin -/
theorem exists_unique_bin (xe ye : List ℚ) (hx : xe.Pairwise (· < ·)) (hy : ye.Pairwise (· < ·)) (x y : ℚ)
    (h : Within xe ye x y) :
    ∃ r c, InBin xe ye x y r c ∧ ∀ r' c', InBin xe ye x y r' c' → r' = r ∧ c' = c := by
  obtain ⟨x0, x1, y0, y1, hx0, hx1, hy0, hy1, a, b, c, d⟩ := h
  have hxl : 0 < xe.length := by cases xe <;> simp_all
  have hyl : 0 < ye.length := by cases ye <;> simp_all
  have e1 : xe[0] = x0 := by cases xe <;> simp_all
  have e2 : xe[xe.length - 1] = x1 := by
    rw [List.getLast?_eq_getElem?, List.getElem?_eq_getElem (by omega)] at hx1; simpa using hx1
  have e3 : ye[0] = y0 := by cases ye <;> simp_all
  have e4 : ye[ye.length - 1] = y1 := by
    rw [List.getLast?_eq_getElem?, List.getElem?_eq_getElem (by omega)] at hy1; simpa using hy1
  obtain ⟨j, hj, hj1, hj2⟩ := exists_interval xe x hxl (by rw [e1]; exact a) (by rw [e2]; exact b)
  obtain ⟨i, hi, hi1, hi2⟩ := exists_interval ye y hyl (by rw [e3]; exact c) (by rw [e4]; exact d)
  refine ⟨i, j, ⟨xe[j], xe[j+1], ye[i], ye[i+1], List.getElem?_eq_getElem _, List.getElem?_eq_getElem _,
    List.getElem?_eq_getElem _, List.getElem?_eq_getElem _, hj1, hj2, hi1, hi2⟩, ?_⟩
  rintro r' c' ⟨u0, u1, v0, v1, hu0, hu1, hv0, hv1, p, q, s, t⟩
  obtain ⟨l1, g1⟩ := List.getElem?_eq_some_iff.1 hu0
  obtain ⟨l2, g2⟩ := List.getElem?_eq_some_iff.1 hu1
  obtain ⟨l3, g3⟩ := List.getElem?_eq_some_iff.1 hv0
  obtain ⟨l4, g4⟩ := List.getElem?_eq_some_iff.1 hv1
  have s1 := searchsortedRight_of_mem xe hx x j hj hj1 hj2
  have s2 := searchsortedRight_of_mem xe hx x c' l2 (by rw [g1]; exact p) (by rw [g2]; exact q)
  have s3 := searchsortedRight_of_mem ye hy y i hi hi1 hi2
  have s4 := searchsortedRight_of_mem ye hy y r' l4 (by rw [g3]; exact s) (by rw [g4]; exact t)
  omega

/-- **C13** (points within the edges): the result has one entry per point, and the entry of a point is the flattened number of
the one bin that contains it. Any edges, any number of points. -/
theorem C13_bin_partition (xs ys xe ye : List ℚ) (hlen : xs.length = ys.length)
    (hx : xe.Pairwise (· < ·)) (hy : ye.Pairwise (· < ·))
    (hin : ∀ p ∈ xs.zip ys, Within xe ye p.1 p.2) :
    ∃ l, bin2d [xs] [ys] xe ye = .ok l ∧ l.length = xs.length ∧
      ∀ (k : Nat) (x y : ℚ), xs[k]? = some x → ys[k]? = some y →
        ∃ r c : Nat, InBin xe ye x y r c ∧ l[k]? = some (r * (xe.length - 1) + c) ∧
          ∀ r' c', InBin xe ye x y r' c' → r' = r ∧ c' = c := by
  by_cases h2 : xe.length = 2 ∧ ye.length = 2
  · refine ⟨List.replicate xs.length 0, ?_, by simp, ?_⟩
    · unfold bin2d; rw [if_pos h2]; simp
    · intro k x y hkx hky
      have hk : k < xs.length := (List.getElem?_eq_some_iff.1 hkx).1
      have hmem : (x, y) ∈ xs.zip ys := by
        apply List.mem_of_getElem? (i := k)
        exact List.getElem?_zip_eq_some.2 ⟨hkx, hky⟩
      obtain ⟨r, c, hb, hu⟩ := exists_unique_bin xe ye hx hy x y (hin _ hmem)
      refine ⟨r, c, hb, ?_, hu⟩
      obtain ⟨u0, u1, v0, v1, hu0, hu1, hv0, hv1, -⟩ := hb
      have := (List.getElem?_eq_some_iff.1 hu1).1
      have := (List.getElem?_eq_some_iff.1 hv1).1
      have : r = 0 := by omega
      have : c = 0 := by omega
      subst r; subst c
      simp [hk]
  · rw [bin2d_single xs ys xe ye hlen h2]
    have hsome : ∃ l, (xs.zip ys).mapM (fun p => baseIndex (xe.length - 1) (ye.length - 1)
          ((searchsortedRight ye p.2 : Int) - 1) ((searchsortedRight xe p.1 : Int) - 1)) = some l := by
      rw [← Option.isSome_iff_exists, ← Option.ne_none_iff_isSome, Ne, mapM_eq_none]
      rintro ⟨p, hp, hn⟩
      obtain ⟨r, c, ⟨u0, u1, v0, v1, hu0, hu1, hv0, hv1, a1, a2, a3, a4⟩, -⟩ :=
        exists_unique_bin xe ye hx hy p.1 p.2 (hin p hp)
      obtain ⟨l1, g1⟩ := List.getElem?_eq_some_iff.1 hu0
      obtain ⟨l2, g2⟩ := List.getElem?_eq_some_iff.1 hu1
      obtain ⟨l3, g3⟩ := List.getElem?_eq_some_iff.1 hv0
      obtain ⟨l4, g4⟩ := List.getElem?_eq_some_iff.1 hv1
      rw [baseIndex_searchsorted xe ye hx hy p.1 p.2 r c l2 l4 ⟨by rw [g1]; exact a1, by rw [g2]; exact a2⟩
        ⟨by rw [g3]; exact a3, by rw [g4]; exact a4⟩] at hn
      simp at hn
    obtain ⟨l, hl⟩ := hsome
    refine ⟨l, by rw [hl], ?_, ?_⟩
    · rw [mapM_length hl]; simp [hlen]
    · intro k x y hkx hky
      have hmem : (x, y) ∈ xs.zip ys := by
        apply List.mem_of_getElem? (i := k)
        exact List.getElem?_zip_eq_some.2 ⟨hkx, hky⟩
      obtain ⟨r, c, hb, hu⟩ := exists_unique_bin xe ye hx hy x y (hin _ hmem)
      refine ⟨r, c, hb, ?_, hu⟩
      obtain ⟨u0, u1, v0, v1, hu0, hu1, hv0, hv1, a1, a2, a3, a4⟩ := hb
      obtain ⟨l1, g1⟩ := List.getElem?_eq_some_iff.1 hu0
      obtain ⟨l2, g2⟩ := List.getElem?_eq_some_iff.1 hu1
      obtain ⟨l3, g3⟩ := List.getElem?_eq_some_iff.1 hv0
      obtain ⟨l4, g4⟩ := List.getElem?_eq_some_iff.1 hv1
      have hmap := congrArg (fun m => m[k]?) ((mapM_eq_some _ _ _).1 hl)
      have hz : (xs.zip ys)[k]? = some (x, y) := List.getElem?_zip_eq_some.2 ⟨hkx, hky⟩
      simp only [List.getElem?_map, hz, Option.map_some] at hmap
      rw [baseIndex_searchsorted xe ye hx hy x y r c l2 l4 ⟨by rw [g1]; exact a1, by rw [g2]; exact a2⟩
        ⟨by rw [g3]; exact a3, by rw [g4]; exact a4⟩] at hmap
      cases hlk : l[k]? with
      | none => rw [hlk] at hmap; simp at hmap
      | some v => rw [hlk] at hmap; simpa using hmap.symm

/-- **C13** (partial, points beyond the last edge): unless the edges describe a single bin, a point at or beyond the last x or y
edge makes the call raise IndexError.  Missing from the full property: the single bin case, see `C13_single_bin_violated`. -/
theorem C13_beyond_raises_partial (xs ys xe ye : List ℚ) (hlen : xs.length = ys.length)
    (h2 : ¬ (xe.length = 2 ∧ ye.length = 2)) (hxe : xe ≠ [])  (hye : ye ≠ [])
    (hout : ∃ p ∈ xs.zip ys, (∀ e ∈ xe, e ≤ p.1) ∨ (∀ e ∈ ye, e ≤ p.2)) :
    bin2d [xs] [ys] xe ye = .error .indexError := by
  rw [bin2d_single xs ys xe ye hlen h2]
  have : (xs.zip ys).mapM (fun p => baseIndex (xe.length - 1) (ye.length - 1)
          ((searchsortedRight ye p.2 : Int) - 1) ((searchsortedRight xe p.1 : Int) - 1)) = none := by
    rw [mapM_eq_none]
    obtain ⟨p, hp, ho⟩ := hout
    refine ⟨p, hp, ?_⟩
    have hx0 : 0 < xe.length := List.length_pos_iff.2 hxe
    have hy0 : 0 < ye.length := List.length_pos_iff.2 hye
    rcases ho with ho | ho
    · rw [searchsortedRight_ge xe p.1 ho]
      unfold baseIndex
      have : wrapIdx ((xe.length : Int) - 1) (xe.length - 1) = none := by
        unfold wrapIdx; rw [if_neg (by omega), if_neg (by omega)]
      rw [this]; split <;> simp_all
    · rw [searchsortedRight_ge ye p.2 ho]
      unfold baseIndex
      have : wrapIdx ((ye.length : Int) - 1) (ye.length - 1) = none := by
        unfold wrapIdx; rw [if_neg (by omega), if_neg (by omega)]
      rw [this]
  rw [this]

/-- **C13 is violated for a single bin**: with one bin in each direction every point, wherever it lies, is reported in bin 0
and nothing is raised. -/
theorem C13_single_bin_violated (xs ys : List ℚ) (x0 x1 y0 y1 : ℚ) :
    bin2d [xs] [ys] [x0, x1] [y0, y1] = .ok (List.replicate xs.length 0) := by
  simp [bin2d]

/-- A point left of the first x edge is silently wrapped into the last column (numpy negative indexing), no exception. -/
theorem C13_below_first_edge_wraps (x y : ℚ) (xe ye : List ℚ) (hxl : 2 < xe.length) (hy : ye.Pairwise (· < ·))
    (r : Nat) (hr : r + 1 < ye.length) (hyr : ye[r] ≤ y ∧ y < ye[r + 1]) (hlow : ∀ e ∈ xe, x < e) :
    bin2d [[x]] [[y]] xe ye = .ok [r * (xe.length - 1) + (xe.length - 2)] := by
  rw [bin2d_single [x] [y] xe ye rfl (by omega)]
  simp only [List.zip_cons_cons, List.zip_nil_right, List.mapM_cons, List.mapM_nil]
  rw [searchsortedRight_lt xe x hlow, searchsortedRight_of_mem ye hy y r hr hyr.1 hyr.2]
  have h1 : ((r + 1 : Nat) : Int) - 1 = (r : Int) := by omega
  rw [h1]
  have h3 : baseIndex (xe.length - 1) (ye.length - 1) (r : Int) (((0 : Nat) : Int) - 1)
      = some (r * (xe.length - 1) + (xe.length - 2)) := by
    unfold baseIndex
    rw [wrapIdx_nat r _ (by omega)]
    have : wrapIdx (((0 : Nat) : Int) - 1) (xe.length - 1) = some (xe.length - 2) := by
      unfold wrapIdx; rw [if_neg (by omega), if_pos (by omega)]; congr 1; omega
    rw [this]
  rw [h3]; rfl

/-- **C14**: for any way of cutting the two coordinate arrays into partitions (corresponding partitions of equal length, as in
dask arrays of equal chunks), the result is that of the undivided arrays - including the exception. -/
theorem C14_chunk_independent (xp yp : List (List ℚ)) (xe ye : List ℚ)
    (h : xp.map List.length = yp.map List.length) :
    bin2d xp yp xe ye = bin2d [xp.flatten] [yp.flatten] xe ye := by
  unfold bin2d
  by_cases h2 : xe.length = 2 ∧ ye.length = 2
  · rw [if_pos h2, if_pos h2]; simp
  · rw [if_neg h2, if_neg h2]
    have key : ∀ (xp yp : List (List ℚ)), xp.map List.length = yp.map List.length →
        ((xp.zip yp).map (fun p => p.1.map (fun v => (searchsortedRight xe v : Int) - 1))).flatten
          = xp.flatten.map (fun v => (searchsortedRight xe v : Int) - 1) ∧
        ((xp.zip yp).map (fun p => p.2.map (fun v => (searchsortedRight ye v : Int) - 1))).flatten
          = yp.flatten.map (fun v => (searchsortedRight ye v : Int) - 1) := by
      intro xp
      induction xp with
      | nil => intro yp h; cases yp <;> simp_all
      | cons a xp ih =>
        intro yp h
        cases yp with
        | nil => simp at h
        | cons b yp =>
          simp only [List.map_cons, List.cons.injEq] at h
          obtain ⟨i1, i2⟩ := ih yp h.2
          simp [i1, i2]
    obtain ⟨k1, k2⟩ := key xp yp h
    simp only [k1, k2, List.zip_cons_cons, List.zip_nil_right, List.map_cons, List.map_nil, List.flatten_cons,
      List.flatten_nil, List.append_nil]

/-! ### non-vacuity -/

/-- three points, two columns and two rows; one point sits exactly on an inner edge -/
example : bin2d [[0, 5, 10]] [[3, 10, 19]] [0, 10, 20] [0, 10, 20] = .ok [0, 2, 3] := by decide +kernel
example : ∀ p ∈ [(0 : ℚ), 5, 10].zip [(3 : ℚ), 10, 19], Within [0, 10, 20] [0, 10, 20] p.1 p.2 := by
  intro p hp
  refine ⟨0, 20, 0, 20, rfl, rfl, rfl, rfl, ?_⟩
  simp only [List.zip_cons_cons, List.mem_cons, List.zip_nil_right, List.not_mem_nil, or_false] at hp
  rcases hp with rfl | rfl | rfl <;> norm_num
/-- two partitions of different length -/
example : bin2d [[0], [5, 10]] [[3], [10, 19]] [0, 10, 20] [0, 10, 20] = .ok [0, 2, 3] := by decide +kernel
/-- beyond the last edge -/
example : bin2d [[20]] [[3]] [0, 10, 20] [0, 10, 20] = .error .indexError := by decide +kernel
/-- below the first edge: wrapped to the last column -/
example : bin2d [[-1]] [[3]] [0, 10, 20] [0, 10, 20] = .ok [1] := by decide +kernel

end Bathy
