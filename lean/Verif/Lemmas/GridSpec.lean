import Mathlib.Algebra.BigOperators.Group.List.Basic
import Mathlib.Data.List.Nodup
import Verif.Lemmas.Group

/-!
# what the gridding functions compute, cell by cell
-/

namespace Bathy

/-- the values of the soundings whose cell index is `k` -/
def cellVals {α : Type} (cells : List Int) (vals : List α) (k : Int) : List α := valsAt (cells.zip vals) k

/-- the pairs (cell, value) in the order of `idx` -/
def pairsAt {α : Type} (cells : List Int) (vals : List α) (idx : List Nat) : List (Int × α) :=
  idx.filterMap (fun i => (cells.zip vals)[i]?)

/-- the distinct cells in increasing order -/
def cellKeys (env : Env) (cells : List Int) : List Int :=
  (runsFrom 0 ((env.argsort.run cells).filterMap (fun i => cells[i]?))).map (fun t => t.1)

theorem offs_keys {α : Type} (s : Nat) (gs : List (Int × List α)) : (offs s gs).map (fun t => t.1) = gs.map Prod.fst := by
  induction gs generalizing s with
  | nil => rfl
  | cons q gs ih => obtain ⟨k, vs⟩ := q; simp [offs, ih]

theorem offs_counts {α : Type} (s : Nat) (gs : List (Int × List α)) :
    (offs s gs).map (fun t => t.2.2) = gs.map (fun q => q.2.length) := by
  induction gs generalizing s with
  | nil => rfl
  | cons q gs ih => obtain ⟨k, vs⟩ := q; simp [offs, ih]

section
variable {α : Type} (env : Env) (cells : List Int) (vals : List α) (hlen : cells.length = vals.length)
include hlen

theorem pairsAt_fst : (pairsAt cells vals (env.argsort.run cells)).map Prod.fst
    = (env.argsort.run cells).filterMap (fun i => cells[i]?) :=
  filterMap_zip_fst cells vals hlen _ (idx_lt_of_perm (env.argsort.perm cells))

theorem pairsAt_snd : (pairsAt cells vals (env.argsort.run cells)).map Prod.snd
    = (env.argsort.run cells).filterMap (fun i => vals[i]?) :=
  filterMap_zip_snd cells vals hlen _ (idx_lt_of_perm (env.argsort.perm cells))

theorem pairsAt_perm : (pairsAt cells vals (env.argsort.run cells)).Perm (cells.zip vals) := by
  apply perm_of_idx
  have : (cells.zip vals).length = cells.length := by simp [hlen]
  rw [this]; exact env.argsort.perm cells

theorem pairsAt_sorted : ((pairsAt cells vals (env.argsort.run cells)).map Prod.fst).Pairwise (· ≤ ·) := by
  rw [pairsAt_fst env cells vals hlen]; exact env.argsort.sorted cells

theorem groups_facts :
    let gs := groupRuns (pairsAt cells vals (env.argsort.run cells))
    cellKeys env cells = gs.map Prod.fst ∧
    (∀ q ∈ gs, q.2 ≠ [] ∧ q.2.Perm (cellVals cells vals q.1)) := by
  intro gs
  refine ⟨?_, ?_⟩
  · unfold cellKeys
    rw [← pairsAt_fst env cells vals hlen, runsFrom_eq, offs_keys]
  · intro q hq
    refine ⟨groupRuns_ne_nil _ q hq, ?_⟩
    rw [(groupRuns_sorted _ (pairsAt_sorted env cells vals hlen)).2 q hq]
    exact valsAt_perm (pairsAt_perm env cells vals hlen) q.1

/-- `reduceat` of the sorted values over the runs of cells -/
theorem reduce_spec (op : α → α → α) :
    ∃ red : List α,
      (takeIdx vals (env.argsort.run cells)).bind (fun s => reduceat op s
        ((runsFrom 0 ((env.argsort.run cells).filterMap (fun i => cells[i]?))).map (fun t => t.2.1))) = some red ∧
      red.length = (cellKeys env cells).length ∧
      ∀ (i : Nat) k v, (cellKeys env cells)[i]? = some k → red[i]? = some v →
        ∃ l, l ≠ [] ∧ l.Perm (cellVals cells vals k) ∧ reduce1 op l = some v := by
  have hidx : ∀ i ∈ env.argsort.run cells, i < vals.length := hlen ▸ idx_lt_of_perm (env.argsort.perm cells)
  rw [takeIdx_eq_filterMap vals _ hidx, Option.bind_some, ← pairsAt_snd env cells vals hlen, ← pairsAt_fst env cells vals hlen,
    runsFrom_eq, ← groupRuns_flatten]
  obtain ⟨hk, hg⟩ := groups_facts env cells vals hlen
  have hr := reduceat_offs op (groupRuns (pairsAt cells vals (env.argsort.run cells))) []
    (fun q hq => (hg q hq).1)
  rw [List.nil_append, List.length_nil] at hr
  rw [hr, hk]
  clear hr hk
  generalize groupRuns (pairsAt cells vals (env.argsort.run cells)) = gs at hg ⊢
  have : ∃ red, gs.mapM (fun q => reduce1 op q.2) = some red := by
    rw [← Option.isSome_iff_exists, ← Option.ne_none_iff_isSome, Ne, mapM_eq_none]
    rintro ⟨q, hq, hn⟩
    have := (hg q hq).1
    cases hq2 : q.2 with
    | nil => exact this hq2
    | cons a l => rw [hq2] at hn; simp [reduce1] at hn
  obtain ⟨red, hred⟩ := this
  refine ⟨red, hred, by rw [mapM_length hred]; simp, ?_⟩
  intro i k v hki hvi
  rw [List.getElem?_map, Option.map_eq_some_iff] at hki
  obtain ⟨q, hqi, rfl⟩ := hki
  have hm := congrArg (fun l => l[i]?) ((mapM_eq_some _ _ _).1 hred)
  simp only [List.getElem?_map, hqi, hvi, Option.map_some, Option.some.injEq] at hm
  have hq := List.mem_of_getElem? hqi
  exact ⟨q.2, (hg q hq).1, (hg q hq).2, hm⟩

omit hlen in
/-- counts of the runs -/
theorem counts_spec :
    (runsFrom 0 ((env.argsort.run cells).filterMap (fun i => cells[i]?))).map (fun t => t.2.2) =
      (cellKeys env cells).map (fun k => cells.count k) := by
  have hl : cells.length = cells.length := rfl
  obtain ⟨hk, hg⟩ := groups_facts env cells cells hl
  rw [hk]
  rw [← pairsAt_fst env cells cells hl, runsFrom_eq, offs_counts, List.map_map]
  apply List.map_congr_left
  intro q hq
  simp only [Function.comp_apply]
  rw [(hg q hq).2.length_eq]
  unfold cellVals valsAt
  rw [List.length_map]
  clear hq hg hk
  generalize q.1 = k
  induction cells with
  | nil => rfl
  | cons c cells ih =>
    rw [List.zip_cons_cons, List.filter_cons, List.count_cons]
    by_cases h : c = k
    · simp [h, ih rfl]
    · simp [h, ih rfl]

end

theorem cellKeys_mem (env : Env) (cells : List Int) (k : Int) : k ∈ cellKeys env cells ↔ k ∈ cells := by
  obtain ⟨hk, -⟩ := groups_facts env cells cells rfl
  rw [hk, groupRuns_keys, pairsAt_fst env cells cells rfl]
  exact (perm_of_idx (env.argsort.perm cells)).mem_iff

theorem cellKeys_sorted (env : Env) (cells : List Int) : (cellKeys env cells).Pairwise (· < ·) := by
  obtain ⟨hk, -⟩ := groups_facts env cells cells rfl
  rw [hk]
  exact (groupRuns_sorted _ (pairsAt_sorted env cells cells rfl)).1

theorem cellKeys_nodup (env : Env) (cells : List Int) : (cellKeys env cells).Nodup := by
  obtain ⟨hk, -⟩ := groups_facts env cells cells rfl
  rw [hk]
  exact (groupRuns_sorted _ (pairsAt_sorted env cells cells rfl)).1.imp (fun h => ne_of_lt h)

theorem mapM_unravel (ks : List Int) (rows cols : Nat) (h : ∀ k ∈ ks, 0 ≤ k ∧ k < (rows * cols : Nat)) :
    ks.mapM (fun i => unravel i rows cols) = some (ks.map (fun k => (k.toNat / cols, k.toNat % cols))) := by
  rw [mapM_eq_some, List.map_map]
  apply List.map_congr_left
  intro k hk
  simp only [unravel, if_pos (h k hk), Function.comp_apply]

/-- scattering one value per cell -/
theorem scatter_keys {α : Type} (g : Arr2 α) (hw : g.WF) (ks : List Int) (vs : List α)
    (h : ∀ k ∈ ks, 0 ≤ k ∧ k < (g.rows * g.cols : Nat)) (hnd : ks.Nodup) (hl : vs.length = ks.length)
    {r c : Nat} (hr : r < g.rows) (hc : c < g.cols) :
    ((((r * g.cols + c : Nat) : Int) ∉ ks →
      (scatter g (ks.map (fun k => (k.toNat / g.cols, k.toNat % g.cols))) vs).get? r c = g.get? r c)) ∧
    (∀ (i : Nat) v, ks[i]? = some ((r * g.cols + c : Nat) : Int) → vs[i]? = some v →
      (scatter g (ks.map (fun k => (k.toNat / g.cols, k.toNat % g.cols))) vs).get? r c = some v) := by
  have h1 : (((ks.map Int.toNat).zip vs).map Prod.fst) = ks.map Int.toNat := List.map_fst_zip (by simp [hl])
  have h2 : (((ks.map Int.toNat).zip vs).map Prod.snd) = vs := List.map_snd_zip (by simp [hl])
  have hsc := scatter_get g hw ((ks.map Int.toNat).zip vs)
    (by
      intro q hq
      have : q.1 ∈ ks.map Int.toNat := by rw [← h1]; exact List.mem_map_of_mem hq
      obtain ⟨k, hk, hk'⟩ := List.mem_map.1 this
      have := h k hk
      omega)
    (by
      rw [h1]
      apply List.Nodup.map_on _ hnd
      intro a ha b hb hab
      have := h a ha
      have := h b hb
      omega) hr hc
  rw [h2] at hsc
  have h3 : ((ks.map Int.toNat).zip vs).map (fun q => (q.1 / g.cols, q.1 % g.cols)) =
      ks.map (fun k => (k.toNat / g.cols, k.toNat % g.cols)) := by
    have := congrArg (List.map (fun n : Nat => (n / g.cols, n % g.cols))) h1
    rw [List.map_map, List.map_map] at this
    exact this
  rw [h3] at hsc
  rw [hsc]
  refine ⟨?_, ?_⟩
  · intro hn
    have : ((ks.map Int.toNat).zip vs).find? (fun q => decide (q.1 = r * g.cols + c)) = none := by
      rw [List.find?_eq_none]
      intro q hq
      simp only [decide_eq_true_eq]
      intro e
      have hm : q.1 ∈ ks.map Int.toNat := by rw [← h1]; exact List.mem_map_of_mem hq
      obtain ⟨k, hk, hk'⟩ := List.mem_map.1 hm
      have := h k hk
      apply hn
      rw [show ((r * g.cols + c : Nat) : Int) = k by omega]
      exact hk
    rw [this]
  · intro i v hi hv
    have hz : ((ks.map Int.toNat).zip vs)[i]? = some (r * g.cols + c, v) := by
      rw [List.getElem?_zip_eq_some]
      refine ⟨?_, hv⟩
      rw [List.getElem?_map, hi]; rfl
    cases hf : ((ks.map Int.toNat).zip vs).find? (fun q => decide (q.1 = r * g.cols + c)) with
    | none =>
      rw [List.find?_eq_none] at hf
      have := hf _ (List.mem_of_getElem? hz)
      simp at this
    | some q =>
      have hq1 : q.1 = r * g.cols + c := by simpa using List.find?_some hf
      have hq2 := List.mem_of_find?_eq_some hf
      obtain ⟨j, hj⟩ := List.mem_iff_getElem?.1 hq2
      have hj' := List.getElem?_zip_eq_some.1 hj
      have hi1 := List.getElem?_zip_eq_some.1 hz
      have hnd' : (ks.map Int.toNat).Nodup := by
        apply List.Nodup.map_on _ hnd
        intro a ha b hb hab
        have := h a ha
        have := h b hb
        omega
      have hij : i = j := by
        have e1 := hi1.1
        have e2 := hj'.1
        rw [hq1] at e2
        obtain ⟨l1, g1⟩ := List.getElem?_eq_some_iff.1 e1
        obtain ⟨l2, g2⟩ := List.getElem?_eq_some_iff.1 e2
        exact (List.Nodup.getElem_inj_iff hnd').1 (g1.trans g2.symm)
      subst hij
      have := hj'.2
      rw [hv] at this
      simpa using this.symm

end Bathy
