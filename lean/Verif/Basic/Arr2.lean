import Mathlib.Data.List.Basic
import Mathlib.Tactic.Ring
import Mathlib.Tactic.Linarith

/-!
# two dimensional arrays, stored flat in row major order (numpy C order)
-/

namespace Bathy

/-- a numpy array of shape `(rows, cols)` -/
structure Arr2 (α : Type) where
  rows : Nat
  cols : Nat
  flat : List α
  deriving DecidableEq, Repr

namespace Arr2
variable {α β : Type}

/-- the flat list has the length given by the shape -/
def WF (a : Arr2 α) : Prop := a.flat.length = a.rows * a.cols

/-- `np.full((rows, cols), v)` -/
def fill (rows cols : Nat) (v : α) : Arr2 α := ⟨rows, cols, List.replicate (rows * cols) v⟩

/-- array with entry `f r c` at row `r`, column `c` -/
def ofFn (rows cols : Nat) (f : Nat → Nat → α) : Arr2 α :=
  ⟨rows, cols, (List.range (rows * cols)).map (fun k => f (k / cols) (k % cols))⟩

/-- `a[r, c]` for non negative indices, `none` when out of bounds -/
def get? (a : Arr2 α) (r c : Nat) : Option α :=
  if r < a.rows ∧ c < a.cols then a.flat[r * a.cols + c]? else none

/-- elementwise map, keeps the shape -/
def map (a : Arr2 α) (f : α → β) : Arr2 β := ⟨a.rows, a.cols, a.flat.map f⟩

/-- `a.flat[k] = v` -/
def setFlat (a : Arr2 α) (k : Nat) (v : α) : Arr2 α := ⟨a.rows, a.cols, a.flat.set k v⟩

/-- rows, columns, number of values -/
def dims (a : Arr2 α) : Nat × Nat × Nat := (a.rows, a.cols, a.flat.length)

theorem eq_blank {a : Arr2 α} (h : a.dims = (0, 0, 0)) : a = ⟨0, 0, []⟩ := by
  obtain ⟨r, c, l⟩ := a
  simp only [dims, Prod.mk.injEq, List.length_eq_zero_iff] at h
  obtain ⟨rfl, rfl, rfl⟩ := h
  rfl

theorem idx_lt {r c m n : Nat} (hr : r < m) (hc : c < n) : r * n + c < m * n := by
  calc r * n + c < r * n + n := by omega
    _ = (r + 1) * n := by ring
    _ ≤ m * n := Nat.mul_le_mul_right n hr

theorem idx_div {r c n : Nat} (hc : c < n) : (r * n + c) / n = r := by
  have hn : 0 < n := by omega
  rw [Nat.mul_comm r n, Nat.mul_add_div hn, Nat.div_eq_of_lt hc]; rfl

theorem idx_mod {r c n : Nat} (hc : c < n) : (r * n + c) % n = c := by
  rw [Nat.mul_comm r n, Nat.mul_add_mod, Nat.mod_eq_of_lt hc]

theorem idx_inj {r c r' c' n : Nat} (hc : c < n) (hc' : c' < n) (h : r * n + c = r' * n + c') : r = r' ∧ c = c' := by
  refine ⟨?_, ?_⟩
  · rw [← idx_div (r := r) hc, h, idx_div hc']
  · rw [← idx_mod (r := r) hc, h, idx_mod hc']

theorem div_lt_rows {k m n : Nat} (h : k < m * n) : k / n < m := by
  rcases Nat.eq_zero_or_pos n with h0 | h0
  · subst h0; simp at h
  · exact (Nat.div_lt_iff_lt_mul h0).2 h

theorem mod_lt_cols {k m n : Nat} (h : k < m * n) : k % n < n := by
  rcases Nat.eq_zero_or_pos n with h0 | h0
  · subst h0; simp at h
  · exact Nat.mod_lt _ h0

@[simp] theorem ofFn_rows (m n : Nat) (f : Nat → Nat → α) : (ofFn m n f).rows = m := rfl
@[simp] theorem ofFn_cols (m n : Nat) (f : Nat → Nat → α) : (ofFn m n f).cols = n := rfl
@[simp] theorem fill_rows (m n : Nat) (v : α) : (fill m n v).rows = m := rfl
@[simp] theorem fill_cols (m n : Nat) (v : α) : (fill m n v).cols = n := rfl

theorem ofFn_wf (m n : Nat) (f : Nat → Nat → α) : (ofFn m n f).WF := by simp [WF, ofFn]
theorem fill_wf (m n : Nat) (v : α) : (fill m n v).WF := by simp [WF, fill]

theorem get?_ofFn {m n : Nat} (f : Nat → Nat → α) {r c : Nat} (hr : r < m) (hc : c < n) :
    (ofFn m n f).get? r c = some (f r c) := by
  have h := idx_lt hr hc
  simp only [get?, ofFn, hr, hc, and_self, if_true, List.getElem?_map, List.getElem?_range h, Option.map_some,
    idx_div hc, idx_mod hc]

theorem get?_fill {m n : Nat} (v : α) {r c : Nat} (hr : r < m) (hc : c < n) : (fill m n v).get? r c = some v := by
  have h := idx_lt hr hc
  simp [get?, fill, hr, hc, h]

theorem get?_none_of_not_lt (a : Arr2 α) {r c : Nat} (h : ¬ (r < a.rows ∧ c < a.cols)) : a.get? r c = none := by
  simp only [get?, h, if_false]

theorem get?_eq_flat (a : Arr2 α) {r c : Nat} (hr : r < a.rows) (hc : c < a.cols) :
    a.get? r c = a.flat[r * a.cols + c]? := by simp [get?, hr, hc]

theorem get?_isSome (a : Arr2 α) (hw : a.WF) {r c : Nat} (hr : r < a.rows) (hc : c < a.cols) :
    ∃ v, a.get? r c = some v := by
  rw [get?_eq_flat a hr hc]
  have : r * a.cols + c < a.flat.length := by rw [hw]; exact idx_lt hr hc
  exact ⟨_, List.getElem?_eq_getElem this⟩

/-- flat index in terms of row and column -/
theorem flat_getElem?_eq (a : Arr2 α) (hw : a.WF) {k : Nat} (hk : k < a.flat.length) :
    a.flat[k]? = a.get? (k / a.cols) (k % a.cols) := by
  rw [hw] at hk
  rw [get?_eq_flat a (div_lt_rows hk) (mod_lt_cols hk), Nat.div_add_mod' k a.cols]

/-- two well formed arrays with the same shape and entries are equal -/
theorem ext_get {a b : Arr2 α} (ha : a.WF) (hb : b.WF) (hr : a.rows = b.rows) (hc : a.cols = b.cols)
    (h : ∀ r c, r < a.rows → c < a.cols → a.get? r c = b.get? r c) : a = b := by
  have hlen : a.flat.length = b.flat.length := by rw [ha, hb, hr, hc]
  have hf : a.flat = b.flat := by
    apply List.ext_getElem? 
    intro k
    by_cases hk : k < a.flat.length
    · rw [flat_getElem?_eq a ha hk, flat_getElem?_eq b hb (hlen ▸ hk), ← hc]
      rw [ha] at hk
      exact h _ _ (div_lt_rows hk) (mod_lt_cols hk)
    · rw [List.getElem?_eq_none (by omega), List.getElem?_eq_none (by omega)]
  cases a; cases b; simp_all

theorem map_wf {a : Arr2 α} (h : a.WF) (f : α → β) : (a.map f).WF := by simpa [WF, map] using h

theorem get?_map (a : Arr2 α) (f : α → β) (r c : Nat) : (a.map f).get? r c = (a.get? r c).map f := by
  by_cases h : r < a.rows ∧ c < a.cols <;> simp [get?, map, h]

theorem setFlat_wf {a : Arr2 α} (h : a.WF) (k : Nat) (v : α) : (a.setFlat k v).WF := by
  simpa [WF, setFlat] using h

theorem get?_setFlat (a : Arr2 α) (hw : a.WF) (k : Nat) (v : α) {r c : Nat} (hr : r < a.rows) (hc : c < a.cols) :
    (a.setFlat k v).get? r c = if k = r * a.cols + c then some v else a.get? r c := by
  rw [get?_eq_flat (a.setFlat k v) hr hc, get?_eq_flat a hr hc]
  have hlt : r * a.cols + c < a.flat.length := by rw [hw]; exact idx_lt hr hc
  simp only [setFlat, List.getElem?_set]
  by_cases h : k = r * a.cols + c
  · simp [h, hlt]
  · simp [h]

end Arr2
end Bathy
