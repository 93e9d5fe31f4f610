import Verif.Lemmas.ChunkIndex
import Verif.Lemmas.LayerAnswers

/-!
# The arrays of a chunk
-/

namespace Bathy

theorem paste_get {a b a' : LayerArr} {r0 c0 n : Nat} (h : paste a r0 c0 n b = .ok a') : a'.rows = a.rows ∧ a'.cols = a.cols ∧ a'.WF ∧
    b.rows = min n (a.rows - r0) ∧ b.cols = min n (a.cols - c0) ∧
    ∀ i j, i < a.rows → j < a.cols → a'.get? i j = some (if r0 ≤ i ∧ i < r0 + n ∧ c0 ≤ j ∧ j < c0 + n then (b.get? (i - r0) (j - c0)).join else (a.get? i j).join) := by
  unfold paste at h
  split at h
  · rename_i hc
    have := Except.ok.inj h
    subst this
    exact ⟨rfl, rfl, Arr2.ofFn_wf _ _ _, hc.1, hc.2, fun i j hi hj => Arr2.get?_ofFn _ hi hj⟩
  · cases h

theorem block_iff {n r i : Nat} (hn : 0 < n) : (r * n ≤ i ∧ i < r * n + n) ↔ i / n = r := by
  constructor
  · rintro ⟨h1, h2⟩
    exact Nat.div_eq_of_lt_le h1 (by rw [Nat.succ_mul]; exact h2)
  · rintro rfl
    have := Nat.div_add_mod' i n
    have := Nat.mod_lt i hn
    omega

theorem block_mod {n r i : Nat} (h : i / n = r) : i - r * n = i % n := by
  subst h
  have := Nat.div_add_mod' i n
  omega

/-- the tiles put into an array: each slot holds what its tile has -/
theorem pasteTiles_spec {n R C : Nat} (hn : 0 < n) {l : Layer} {tiles : List ((Nat × Nat) × Dict Layer LayerArr)} {a a' : LayerArr} (hr : a.rows = R * n) (hc : a.cols = C * n) (hw : a.WF)
    (hin : ∀ q ∈ tiles, q.1.1 < R ∧ q.1.2 < C) (hnd : (tiles.map Prod.fst).Nodup)
    (h : pasteTiles n l a (tiles.map (fun q => (q.1.1 * n, q.1.2 * n, q.2))) = .ok a') :
    a'.rows = R * n ∧ a'.cols = C * n ∧ a'.WF ∧ (∀ q ∈ tiles, ∀ b, q.2.get? l = some b → b.rows = n ∧ b.cols = n) ∧ ∀ i j, i < R * n → j < C * n →
      (∀ q ∈ tiles, q.1 = (i / n, j / n) → ∀ b, q.2.get? l = some b → a'.get? i j = some ((b.get? (i % n) (j % n)).join)) ∧
      ((∀ q ∈ tiles, q.1 = (i / n, j / n) → q.2.get? l = none) → a'.get? i j = a.get? i j) := by
  induction tiles generalizing a with
  | nil =>
    have := Except.ok.inj h
    subst this
    exact ⟨hr, hc, hw, by simp, fun i j _ _ => ⟨by simp, fun _ => rfl⟩⟩
  | cons q tiles ih =>
    have hin' : ∀ q ∈ tiles, q.1.1 < R ∧ q.1.2 < C := fun q hq => hin q (List.mem_cons_of_mem _ hq)
    rw [List.map_cons, List.nodup_cons] at hnd
    obtain ⟨hq, hnd⟩ := hnd
    rw [List.map_cons] at h
    unfold pasteTiles at h
    split at h
    · rename_i hnone
      obtain ⟨i1, i2, i3, i4, i5⟩ := ih hr hc hw hin' hnd h
      refine ⟨i1, i2, i3, ?_, ?_⟩
      · intro q' hq' b hb
        rcases List.mem_cons.1 hq' with rfl | hq'
        · rw [hnone] at hb; cases hb
        · exact i4 q' hq' b hb
      · intro i j hi hj
        obtain ⟨k1, k2⟩ := i5 i j hi hj
        refine ⟨?_, fun hh => k2 (fun q' hq' => hh q' (List.mem_cons_of_mem _ hq'))⟩
        intro q' hq' e b hb
        rcases List.mem_cons.1 hq' with rfl | hq'
        · rw [hnone] at hb; cases hb
        · exact k1 q' hq' e b hb
    · rename_i b hb
      split at h
      · cases h
      · rename_i a1 ha1
        obtain ⟨p1, p2, p3, p4, p5, p6⟩ := paste_get ha1
        obtain ⟨hq1, hq2⟩ := hin q List.mem_cons_self
        obtain ⟨i1, i2, i3, i4, i5⟩ := ih (p1.trans hr) (p2.trans hc) p3 hin' hnd h
        rw [hr, Grid.min_block hq1] at p4
        rw [hc, Grid.min_block hq2] at p5
        refine ⟨i1, i2, i3, ?_, ?_⟩
        · intro q' hq' b' hb'
          rcases List.mem_cons.1 hq' with rfl | hq'
          · rw [hb] at hb'; cases hb'; exact ⟨p4, p5⟩
          · exact i4 q' hq' b' hb'
        · intro i j hi hj
          obtain ⟨k1, k2⟩ := i5 i j hi hj
          have hget := p6 i j (by rw [hr]; exact hi) (by rw [hc]; exact hj)
          constructor
          · intro q' hq' e b' hb'
            rcases List.mem_cons.1 hq' with rfl | hq'
            · rw [hb] at hb'; cases hb'
              have e1 : q'.1.1 = i / n := congrArg Prod.fst e
              have e2 : q'.1.2 = j / n := congrArg Prod.snd e
              rw [k2, hget, if_pos]
              · rw [block_mod e1.symm, block_mod e2.symm]
              · have h1 := (block_iff hn).2 e1.symm
                have h2 := (block_iff hn).2 e2.symm
                exact ⟨h1.1, h1.2, h2.1, h2.2⟩
              · intro q'' hq'' e''
                exact absurd (List.mem_map.2 ⟨q'', hq'', e''.trans e.symm⟩) hq
            · exact k1 q' hq' e b' hb'
          · intro hh
            have hne : ¬ (q.1.1 * n ≤ i ∧ i < q.1.1 * n + n ∧ q.1.2 * n ≤ j ∧ j < q.1.2 * n + n) := by
              rintro ⟨h1, h2, h3, h4⟩
              have e1 := (block_iff hn).1 ⟨h1, h2⟩
              have e2 := (block_iff hn).1 ⟨h3, h4⟩
              have := hh q List.mem_cons_self (Prod.ext e1.symm e2.symm)
              rw [hb] at this; cases this
            rw [k2 (fun q' hq' => hh q' (List.mem_cons_of_mem _ hq')), hget, if_neg hne]
            obtain ⟨v, hv⟩ := Arr2.get?_isSome a hw (by rw [hr]; exact hi) (by rw [hc]; exact hj)
            rw [hv]; rfl

/-- the nodata value in force at the layer after `ls` -/
def stickyNodata (nodata : Option ℚ) (ls : List Layer) : Option ℚ := ls.foldl (fun nd l => Tile.nodataFor l nd) nodata

/-- the layers of a finalized chunk -/
theorem finalizeFrom_spec {rows cols n : Nat} {tiles : List (Nat × Nat × Dict Layer LayerArr)} {forGdal : Bool} {nodata : Option ℚ} {out D : Dict Layer LayerArr} {layers : List Layer}
    (hnd : (out.keys ++ layers).Nodup) (h : finalizeFrom rows cols n tiles forGdal nodata out layers = .ok D) :
    D.keys = out.keys ++ layers ∧ (∀ l ∈ out.keys, D.get? l = out.get? l) ∧ ∀ (k : Nat) l, layers[k]? = some l → ∃ a, pasteTiles n l (Arr2.fill rows cols (stickyNodata nodata (layers.take (k + 1)))) tiles = .ok a ∧
      D.get? l = some (if forGdal then fliplrT a else a) := by
  induction layers generalizing nodata out with
  | nil =>
    have := Except.ok.inj h
    subst this
    exact ⟨by simp, fun _ _ => rfl, by simp⟩
  | cons l ls ih =>
    unfold finalizeFrom at h
    simp only at h
    split at h
    · cases h
    · rename_i a ha
      have hl : l ∉ out.keys := by
        intro hl
        rw [List.nodup_append] at hnd
        exact hnd.2.2 l hl l List.mem_cons_self rfl
      have hset : ∀ v, (out.set l v).keys = out.keys ++ [l] := by
        intro v; rw [Dict.set_of_not_mem out _ v hl]; simp [Dict.keys]
      obtain ⟨i1, i2, i3⟩ := ih (by rw [hset]; simpa [List.append_assoc] using hnd) h
      rw [hset] at i1 i2
      refine ⟨by rw [i1]; simp, ?_, ?_⟩
      · intro l' hl'
        rw [i2 l' (List.mem_append_left _ hl'), Dict.get?_set_ne]
        rintro rfl; exact hl hl'
      · intro k l' hk
        cases k with
        | zero =>
          simp only [List.getElem?_cons_zero, Option.some.injEq] at hk
          subst hk
          refine ⟨a, ha, ?_⟩
          rw [i2 l (by simp), Dict.get?_set_self]
        | succ k =>
          rw [List.getElem?_cons_succ] at hk
          obtain ⟨a', ha', e⟩ := i3 k l' hk
          exact ⟨a', by simpa [stickyNodata] using ha', e⟩

/-- the arrays handed to GDAL, in terms of the array with row 0 at the bottom -/
theorem raster_get (a : LayerArr) : (transpose (fliplrT a)).rows = a.rows ∧ (transpose (fliplrT a)).cols = a.cols ∧
    ∀ i j, i < a.rows → j < a.cols → (transpose (fliplrT a)).get? i j = some ((a.get? (a.rows - 1 - i) j).join) := by
  refine ⟨rfl, rfl, ?_⟩
  intro i j hi hj
  unfold transpose fliplrT
  rw [Arr2.get?_ofFn _ (by exact hi) (by exact hj), Arr2.get?_ofFn _ hj hi]
  rfl

theorem minOf_concat {l : List Nat} (x : Nat) (h : l ≠ []) : minOf (l ++ [x]) = min (minOf l) x := by
  apply le_antisymm
  · exact le_min (minOf_le (List.mem_append_left _ (minOf_mem h))) (minOf_le (by simp))
  · rcases List.mem_append.1 (minOf_mem (l := l ++ [x]) (by simp)) with h1 | h1
    · exact (min_le_left _ _).trans (minOf_le h1)
    · rw [List.mem_singleton.1 h1]; exact min_le_right _ _

theorem maxOf_concat {l : List Nat} (x : Nat) : maxOf (l ++ [x]) = max (maxOf l) x := by
  unfold maxOf
  induction l with
  | nil => simp
  | cons y l ih => simp only [List.cons_append, List.foldr_cons, ih]; omega

theorem minOf_mul {n : Nat} (l : List Nat) : minOf (l.map (· * n)) = minOf l * n := by
  by_cases h : l = []
  · subst h; simp [minOf]
  · apply le_antisymm
    · exact minOf_le (List.mem_map.2 ⟨_, minOf_mem h, rfl⟩)
    · obtain ⟨x, hx, e⟩ := List.mem_map.1 (minOf_mem (l := l.map (· * n)) (by simpa using h))
      rw [← e]
      exact Nat.mul_le_mul_right n (minOf_le hx)

theorem maxOf_mul {n : Nat} (l : List Nat) : maxOf (l.map (· * n)) = maxOf l * n := by
  by_cases h : l = []
  · subst h; simp [maxOf]
  · apply le_antisymm
    · obtain ⟨x, hx, e⟩ := List.mem_map.1 (maxOf_mem (l := l.map (· * n)) (by simpa using h))
      rw [← e]
      exact Nat.mul_le_mul_right n (le_maxOf hx)
    · exact le_maxOf (List.mem_map.2 ⟨_, maxOf_mem h, rfl⟩)

theorem maxOf_sub {m : Nat} {l : List Nat} : maxOf (l.map (· - m)) = maxOf l - m := by
  by_cases h : l = []
  · subst h; simp [maxOf]
  · apply le_antisymm
    · obtain ⟨x, hx, e⟩ := List.mem_map.1 (maxOf_mem (l := l.map (· - m)) (by simpa using h))
      rw [← e]
      exact Nat.sub_le_sub_right (le_maxOf hx) m
    · exact le_maxOf (List.mem_map.2 ⟨_, maxOf_mem h, rfl⟩)

namespace Grid
variable {τ : Type} [LayerLike τ]

/-- what a tile gives by name -/
theorem tileLayers_named {env : Env} {res : ℚ} {nodata : Option ℚ} {zUp : Bool} {layers : List Layer} {t : τ}
    (hq : ∀ l ∈ layers, ∀ t' o, LayerLike.getLayer env t l res nodata zUp = (t', .ok o) → t' = t) {d d' : Dict Layer LayerArr} {t' : τ}
    (h : tileLayersFrom env res nodata zUp t d layers = (t', .ok d')) :
    t' = t ∧ (∀ l, l ∉ layers → d'.get? l = d.get? l) ∧ ∀ l ∈ layers, ∃ o, LayerLike.getLayer env t l res nodata zUp = (t, .ok o) ∧ (∀ a, o = some a → d'.get? l = some a) ∧ (o = none → d'.get? l = d.get? l) := by
  induction layers generalizing d with
  | nil =>
    simp only [tileLayersFrom, Prod.mk.injEq, Except.ok.injEq] at h
    obtain ⟨rfl, rfl⟩ := h
    exact ⟨rfl, fun _ _ => rfl, by simp⟩
  | cons l ls ih =>
    have hq' : ∀ l ∈ ls, ∀ t' o, LayerLike.getLayer env t l res nodata zUp = (t', .ok o) → t' = t := fun l hl => hq l (List.mem_cons_of_mem _ hl)
    unfold tileLayersFrom at h
    split at h
    · cases h
    · rename_i t1 ht1
      obtain rfl := hq l List.mem_cons_self _ _ ht1
      obtain ⟨i1, i2, i3⟩ := ih hq' h
      refine ⟨i1, fun l' hl' => i2 l' (fun hc => hl' (List.mem_cons_of_mem _ hc)), ?_⟩
      intro l' hl'
      by_cases hm : l' ∈ ls
      · exact i3 l' hm
      · rcases List.mem_cons.1 hl' with rfl | hc
        · exact ⟨none, ht1, by simp, fun _ => i2 _ hm⟩
        · exact absurd hc hm
    · rename_i t1 a ht1
      obtain rfl := hq l List.mem_cons_self _ _ ht1
      obtain ⟨i1, i2, i3⟩ := ih hq' h
      refine ⟨i1, ?_, ?_⟩
      · intro l' hl'
        rw [i2 l' (fun hc => hl' (List.mem_cons_of_mem _ hc)), Dict.get?_set_ne]
        rintro rfl; exact hl' List.mem_cons_self
      · intro l' hl'
        by_cases hll : l' = l
        · subst hll
          refine ⟨some a, ht1, ?_, by simp⟩
          rintro _ ⟨⟩
          by_cases hm : l' ∈ ls
          · obtain ⟨o, ho, h1, h2⟩ := i3 l' hm
            rw [ht1] at ho
            obtain rfl : o = some a := by simpa using ho.symm
            exact h1 a rfl
          · rw [i2 _ hm, Dict.get?_set_self]
        · rcases List.mem_cons.1 hl' with e | hm
          · exact absurd e hll
          · obtain ⟨o, ho, h1, h2⟩ := i3 l' hm
            refine ⟨o, ho, h1, ?_⟩
            intro hn
            rw [h2 hn, Dict.get?_set_ne]
            exact hll

end Grid
end Bathy
