import Verif.Model.Utilities

namespace Bathy

theorem wrapIdx_nat (i n : Nat) (h : i < n) : wrapIdx (i : Int) n = some i := by
  unfold wrapIdx
  rw [if_pos ⟨by omega, by omega⟩]; simp

theorem baseIndex_nat {nx ny r c : Nat} (hr : r < ny) (hc : c < nx) :
    baseIndex nx ny (r : Int) (c : Int) = some (r * nx + c) := by
  unfold baseIndex
  rw [wrapIdx_nat r ny hr, wrapIdx_nat c nx hc]

/-- a point in rectangle (row r, column c) of strictly increasing edges is binned to `r * ncols + c` -/
theorem baseIndex_searchsorted (xe ye : List ℚ) (hx : xe.Pairwise (· < ·)) (hy : ye.Pairwise (· < ·))
    (x y : ℚ) (r c : Nat) (hc : c + 1 < xe.length) (hr : r + 1 < ye.length)
    (hxc : xe[c] ≤ x ∧ x < xe[c + 1]) (hyr : ye[r] ≤ y ∧ y < ye[r + 1]) :
    baseIndex (xe.length - 1) (ye.length - 1) ((searchsortedRight ye y : Int) - 1) ((searchsortedRight xe x : Int) - 1)
      = some (r * (xe.length - 1) + c) := by
  rw [searchsortedRight_of_mem xe hx x c hc hxc.1 hxc.2, searchsortedRight_of_mem ye hy y r hr hyr.1 hyr.2]
  have h1 : ((r + 1 : Nat) : Int) - 1 = (r : Int) := by omega
  have h2 : ((c + 1 : Nat) : Int) - 1 = (c : Int) := by omega
  rw [h1, h2]
  exact baseIndex_nat (by omega) (by omega)

theorem bin2d_single (xs ys xe ye : List ℚ) (hlen : xs.length = ys.length) (h : ¬ (xe.length = 2 ∧ ye.length = 2)) :
    bin2d [xs] [ys] xe ye =
      match (xs.zip ys).mapM (fun p => baseIndex (xe.length - 1) (ye.length - 1)
          ((searchsortedRight ye p.2 : Int) - 1) ((searchsortedRight xe p.1 : Int) - 1)) with
      | some l => .ok l
      | none => .error .indexError := by
  unfold bin2d
  rw [if_neg h]
  simp only [List.zip_cons_cons, List.zip_nil_right, List.map_cons, List.map_nil, List.flatten_cons, List.flatten_nil,
    List.append_nil, List.length_map]
  rw [if_pos hlen]
  have : (ys.map (fun v => (searchsortedRight ye v : Int) - 1)).zip (xs.map (fun v => (searchsortedRight xe v : Int) - 1))
      = (xs.zip ys).map (fun p => ((searchsortedRight ye p.2 : Int) - 1, (searchsortedRight xe p.1 : Int) - 1)) := by
    clear h
    induction xs generalizing ys with
    | nil => cases ys <;> simp
    | cons a xs ih =>
      cases ys with
      | nil => simp at hlen
      | cons b ys => simp at hlen; simp [ih ys hlen]
  rw [this]
  have hm : ∀ l : List (ℚ × ℚ), (l.map (fun p => ((searchsortedRight ye p.2 : Int) - 1, (searchsortedRight xe p.1 : Int) - 1))).mapM
      (fun p => baseIndex (xe.length - 1) (ye.length - 1) p.1 p.2) =
      l.mapM (fun p => baseIndex (xe.length - 1) (ye.length - 1)
          ((searchsortedRight ye p.2 : Int) - 1) ((searchsortedRight xe p.1 : Int) - 1)) := by
    intro l
    induction l with
    | nil => rfl
    | cons a l ih => simp only [List.map_cons, List.mapM_cons, ih]
  rw [hm]
  generalize List.mapM (m := Option) _ (xs.zip ys) = o
  cases o <;> rfl

end Bathy
