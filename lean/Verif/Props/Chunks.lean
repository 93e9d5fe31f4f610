import Verif.Lemmas.ChunkRun
import Verif.Props.LayersGridded

/-!
# C41, C42, C43, C65, C66: chunks of tiles and exported rasters
-/

namespace Bathy
variable {τ : Type}

/-- **C41.** `_tile_chunk_indices` returns as soon as there is a tile, whatever the arrangement of the tiles and the maximum dimension, and its chunks
hold every tile exactly once; no chunk is empty.  Without a tile it is a ValueError. -/
theorem C41_partition (g : Grid τ) (d : ℚ) :
    (∀ L, g.tileChunkIndices d = .ok L → g.Partition L ∧ ∀ l ∈ L, l ≠ []) ∧
    ((∃ r c, g.Filled r c) → ∃ L, g.tileChunkIndices d = .ok L) ∧ ((∀ r c, ¬ g.Filled r c) → g.tileChunkIndices d = .error .valueError) := by
  refine ⟨?_, fun ⟨r, c, h⟩ => Grid.tileChunkIndices_ok d h, ?_⟩
  · intro L h
    obtain ⟨rows, cols, -, -, hs⟩ := Grid.tileChunkIndices_spec h
    refine ⟨⟨hs.nodup, fun r c => ⟨?_, ?_⟩⟩, fun l hl => (hs.rect l hl).1⟩
    · intro hm
      obtain ⟨l, hl, hm⟩ := List.mem_flatten.1 hm
      obtain ⟨-, r0, r1, c0, c1, -, -, hiff⟩ := hs.rect l hl
      exact ((hiff r c).1 hm).2.2.2.2
    · intro hf
      obtain ⟨l, hl, hm⟩ := hs.cover r c hf
      exact List.mem_flatten.2 ⟨l, hl, hm⟩
  · intro hno
    unfold Grid.tileChunkIndices
    simp only
    split
    · rfl
    · rename_i T hT
      rw [if_pos]
      have hfold : (Arr2.ofFn T.rows T.cols (fun r c => ((T.get? r c).join).map (fun _ => (r, c)))) = Grid.tindex T := rfl
      rw [hfold]
      have : notNone (Grid.tindex T) = [] := by
        refine List.eq_nil_iff_forall_not_mem.2 ?_
        rintro ⟨r, c⟩ hm
        exact hno r c ((Grid.filled_iff hT).2 (Grid.mem_loc.1 hm))
      rw [this]; rfl

/-- an arrangement with gaps -/
example : (∃ r c, demoSR.Filled r c) ∧ demoSR.tileChunkIndices 32 = .ok [[(0, 2), (1, 3)], [(2, 4)], [(4, 0)]] :=
  ⟨⟨0, 2, (by obtain ⟨t, ht, -⟩ := Grid.exists_tileAt_any (g := demoSR) (r := 0) (c := 2) (fun _ => true) (by decide +kernel); exact ⟨t, ht⟩)⟩, by decide +kernel⟩

theorem chunk_rows_fit {g : Grid τ} (hs : 0 < g.tileSize) {d : ℚ} {m : Nat} (hm : m = chunkLength d g.tileSize) {r0 r1 p q : Nat} (h : r1 - r0 ≤ m) (hp : r0 ≤ p ∧ p < r1)
    (hq : r0 ≤ q ∧ q < r1) : ((p : ℚ) - q + 1) * g.tileSize ≤ max d g.tileSize := by
  have h1 := chunkLength_le (d := d) hs
  rw [← hm] at h1
  have h2 : ((p : ℚ) - q + 1) ≤ m := by
    have : p + 1 ≤ m + q := by omega
    have : (p : ℚ) + 1 ≤ m + q := by exact_mod_cast this
    linarith
  nlinarith

/-- **C42.** For tiles that extend over `R` rows and `C` columns, all chunks fit into max(d, tile size) if and only if d < (R + 1) · tile size or the
grid is not wider than that: `_split_to_approx_shape` compares the shapes as tuples, so a grid with few rows is never split. -/
theorem C42_chunk_size_partial {g : Grid τ} (hs : 0 < g.tileSize) {d : ℚ} {L : List (List (Nat × Nat))} (h : g.tileChunkIndices d = .ok L) {R C : Nat} (hR : g.RowSpan R) (hC : g.ColSpan C) :
    (∀ l ∈ L, ∀ p ∈ l, ∀ q ∈ l, ((p.1 : ℚ) - q.1 + 1) * g.tileSize ≤ max d g.tileSize) ∧
    ((∀ l ∈ L, g.ChunkFits d l) ↔ d < ((R : ℚ) + 1) * g.tileSize ∨ (C : ℚ) * g.tileSize ≤ max d g.tileSize) := by
  obtain ⟨rows, cols, hR', hC', hsp⟩ := Grid.tileChunkIndices_spec h
  have eR : rows = R := by
    obtain ⟨a, ⟨c1, h1⟩, ⟨c2, h2⟩, h3, h4⟩ := hR
    obtain ⟨b, ⟨c3, k1⟩, ⟨c4, k2⟩, k3, k4⟩ := hR'
    have := h4 _ _ k1; have := h4 _ _ k2; have := k4 _ _ h1; have := k4 _ _ h2
    omega
  have eC : cols = C := by
    obtain ⟨a, ⟨c1, h1⟩, ⟨c2, h2⟩, h3, h4⟩ := hC
    obtain ⟨b, ⟨c3, k1⟩, ⟨c4, k2⟩, k3, k4⟩ := hC'
    have := h4 _ _ k1; have := h4 _ _ k2; have := k4 _ _ h1; have := k4 _ _ h2
    omega
  subst eR; subst eC
  have hrows : ∀ l ∈ L, ∀ p ∈ l, ∀ q ∈ l, ((p.1 : ℚ) - q.1 + 1) * g.tileSize ≤ max d g.tileSize := by
    intro l hl p hp q hq
    obtain ⟨-, r0, r1, c0, c1, h1, -, hiff⟩ := hsp.rect l hl
    have hp := (hiff p.1 p.2).1 hp
    have hq := (hiff q.1 q.2).1 hq
    exact chunk_rows_fit hs rfl h1 ⟨hp.1, hp.2.1⟩ ⟨hq.1, hq.2.1⟩
  refine ⟨hrows, ?_, ?_⟩
  · intro hfit
    by_contra hcon
    push Not at hcon
    obtain ⟨h1, h2⟩ := hcon
    have hlt : rows < chunkLength d g.tileSize := by
      have := chunkLength_lt (d := d) hs
      have h3 : ((rows : ℚ) + 1) < (chunkLength d g.tileSize : ℚ) + 1 := lt_of_mul_lt_mul_right (h1.trans_lt this) hs.le
      have : (rows : ℚ) < chunkLength d g.tileSize := by linarith
      exact_mod_cast this
    have hone := hsp.one hlt
    obtain ⟨a, ⟨r1, k1⟩, ⟨r2, k2⟩, k3, k4⟩ := hC
    obtain ⟨l1, hl1, m1⟩ := hsp.cover _ _ k1
    obtain ⟨l2, hl2, m2⟩ := hsp.cover _ _ k2
    have e : l1 = l2 := by
      match L, hone, hl1, hl2 with
      | [l], _, hl1, hl2 => rw [List.mem_singleton.1 hl1, List.mem_singleton.1 hl2]
    subst e
    have := (hfit l1 hl1 _ m2 _ m1).2
    simp only at this
    rw [Nat.cast_sub (by omega)] at this
    push_cast at this
    have e : ((a : ℚ) + cols - 1 - a + 1) = cols := by ring
    rw [e] at this
    exact absurd this (not_le.2 h2)
  · intro hor l hl p hp q hq
    refine ⟨hrows l hl p hp q hq, ?_⟩
    obtain ⟨-, r0, r1, c0, c1, -, h2, hiff⟩ := hsp.rect l hl
    have hp := (hiff p.1 p.2).1 hp
    have hq := (hiff q.1 q.2).1 hq
    rcases hor with hor | hor
    · refine chunk_rows_fit hs rfl (h2 (Or.inl ?_)) ⟨hp.2.2.1, hp.2.2.2.1⟩ ⟨hq.2.2.1, hq.2.2.2.1⟩
      obtain ⟨-, -, -, hpos, -⟩ := hR
      unfold chunkLength
      have : ⌊d / g.tileSize⌋ < (rows : ℤ) + 1 := by
        rw [Int.floor_lt, div_lt_iff₀ hs]
        push_cast
        exact hor
      omega
    · obtain ⟨a, -, -, -, k4⟩ := hC
      have := k4 _ _ hp.2.2.2.2
      have := k4 _ _ hq.2.2.2.2
      have h2 : ((p.2 : ℚ) - q.2 + 1) ≤ cols := by
        have : p.2 + 1 ≤ cols + q.2 := by omega
        have : (p.2 : ℚ) + 1 ≤ cols + q.2 := by exact_mod_cast this
        linarith
      nlinarith

/-- one row of tiles that is four tiles long -/
def longGrid : Grid Tile := ((newSR 16 false).addPoints ⟨demoFields, [⟨3, 5, 10, 1, 1⟩, ⟨20, 5, 11, 1, 2⟩, ⟨40, 5, 12, 1, 2⟩, ⟨60, 6, 13, 1, 2⟩]⟩ "a" {}).st

theorem longGrid_history : SRHistory demoEnv 16 false demoFields .plain false longGrid [("a", [⟨3, 5, 10, 1, 1⟩, ⟨20, 5, 11, 1, 2⟩, ⟨40, 5, 12, 1, 2⟩, ⟨60, 6, 13, 1, 2⟩])] :=
  (GridHistory.new .plain).add _ "a" {} (by decide +kernel)

/-- **C42 is violated**: with a maximum dimension of two tiles, the four tiles are one chunk. -/
theorem C42_violated : SRHistory demoEnv 16 false demoFields .plain false longGrid [("a", [⟨3, 5, 10, 1, 1⟩, ⟨20, 5, 11, 1, 2⟩, ⟨40, 5, 12, 1, 2⟩, ⟨60, 6, 13, 1, 2⟩])] ∧
    longGrid.tileChunkIndices 32 = .ok [[(0, 0), (0, 1), (0, 2), (0, 3)]] ∧ ¬ longGrid.ChunkFits 32 [(0, 0), (0, 1), (0, 2), (0, 3)] := by
  refine ⟨longGrid_history, by decide +kernel, ?_⟩
  intro h
  have h1 := (h (0, 3) (by simp) (0, 0) (by simp)).2
  have h2 : longGrid.tileSize = 16 := by decide +kernel
  rw [h2] at h1
  norm_num at h1

/-- the hypotheses of C42 are met, with both outcomes -/
example : 0 < longGrid.tileSize ∧ longGrid.tileChunkIndices 16 = .ok [[(0, 0)], [(0, 1)], [(0, 2)], [(0, 3)]] ∧ longGrid.RowSpan 1 ∧ longGrid.ColSpan 4 ∧
    (16 : ℚ) < (((1 : Nat) : ℚ) + 1) * 16 := by
  have hall : ∀ r c, longGrid.Filled r c ↔ (r = 0 ∧ c < 4) := by
    intro r c
    have hp := (C41_partition longGrid 32).1 _ (show longGrid.tileChunkIndices 32 = .ok [[(0, 0), (0, 1), (0, 2), (0, 3)]] by decide +kernel)
    rw [← hp.1.2 r c]
    simp only [List.flatten_cons, List.flatten_nil, List.append_nil, List.mem_cons, Prod.mk.injEq, List.not_mem_nil, or_false]
    omega
  refine ⟨by decide +kernel, by decide +kernel, ⟨0, ⟨0, (hall _ _).2 (by omega)⟩, ⟨0, (hall _ _).2 (by omega)⟩, by omega, ?_⟩,
    ⟨0, ⟨0, (hall _ _).2 (by omega)⟩, ⟨0, (hall _ _).2 (by omega)⟩, by omega, ?_⟩, by norm_num⟩
  · intro r c h; have := (hall r c).1 h; omega
  · intro r c h; have := (hall r c).1 h; omega

end Bathy
