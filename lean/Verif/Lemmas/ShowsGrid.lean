import Verif.Lemmas.LayerStored
import Verif.Lemmas.Surface

/-!
# Surfaces from what the tiles answer

`Lemmas/Surface.lean` starts from what is stored in the tiles; here the tiles may compute the layer when they are asked for it.
-/

namespace Bathy

/-- asked for the layer, a tile whose leaves have the property `Q` answers with an array that is related to its soundings, cell by cell -/
structure Shows {τ : Type} [TileLike τ] [LayerLike τ] [HasLeaves τ] {size sub : ℚ} {bs : Bool} {fl : Fields} (env : Env) (C : ChildSpec τ size sub bs fl) (n : Nat) (r : ℚ) (Q : Tile → Prop)
    (l : Layer) (nodata : Option ℚ) (R : List Pt → Option ℚ → Prop) (shown : Option ℚ → Option ℚ) : Prop where
  ok : ∀ {x y : ℚ} {t : τ} {A : Store} (zUp : Bool), C.Rep x y t A → (∀ u, HasLeaves.leaf t u → Q u) → ∃ a, (LayerLike.getLayer env t l r nodata zUp).2 = .ok (some a) ∧
    a.rows = n ∧ a.cols = n ∧ ∀ i j, i < n → j < n → ∃ v, R (inCell x y r i j A.allPts) v ∧ a.get? i j = some (shown v)
  probe : ∀ {x y : ℚ} {t : τ} {A : Store}, C.Rep x y t A → (∀ u, HasLeaves.leaf t u → Q u) → LayerLike.probe t = .ok true

theorem inCell_within {A : Store} {x y r : ℚ} {n : Nat} (hr : 0 < r) {i j : Nat} (hi : i < n) (hj : j < n) :
    inCell x y r i j (A.within x y ((n : ℚ) * r)).allPts = inCell x y r i j A.allPts := by
  rw [Store.allPts_within]
  unfold inCell
  rw [List.filter_filter]
  apply List.filter_congr
  intro p _
  by_cases hp : InCell x y r i j p
  · simp [hp, inCell_inBox hr hi hj hp]
  · simp [hp]

theorem inCell_block {x y r : ℚ} {n : Nat} (i j : Nat) (P : List Pt) :
    inCell (x + ((j / n : Nat) : ℚ) * ((n : ℚ) * r)) (y + ((i / n : Nat) : ℚ) * ((n : ℚ) * r)) r (i % n) (j % n) P = inCell x y r i j P := by
  unfold inCell
  apply List.filter_congr
  intro p _
  rw [decide_eq_decide]
  have key : ∀ (z : ℚ) (k : Nat), z + ((k / n : Nat) : ℚ) * ((n : ℚ) * r) + ((k % n : Nat) : ℚ) * r = z + (k : ℚ) * r := by
    intro z k
    have h : ((n * (k / n) + k % n : Nat) : ℚ) = (k : ℚ) := by rw [Nat.div_add_mod]
    push_cast at h
    rw [← h]; ring
  exact inCell_shift (key x j) (key y i) p

namespace Grid
variable {τ : Type} [TileLike τ] [LayerLike τ] [HasLeaves τ] {size sub : ℚ} {bs : Bool} {fl : Fields}

theorem grid_shows {env : Env} {C : ChildSpec τ size sub bs fl} {n : Nat} {r : ℚ} {Q : Tile → Prop} {l : Layer} {nodata : Option ℚ} {R : List Pt → Option ℚ → Prop} {shown : Option ℚ → Option ℚ}
    (S : Shows env C n r Q l nodata R shown) {x0 y0 : ℚ} {nx ny : Nat} {T : Arr2 (Option τ)} {g : Grid τ} {A : Store} (hf : Ready C x0 y0 nx ny T g A)
    (hh : g.height = some ((ny : ℚ) * size)) (hw : g.width = some ((nx : ℚ) * size)) (hs : 0 < size) (hA : A ≠ []) (hne : ∀ q ∈ A, q.2 ≠ [])
    (hQ : ∀ u, g.Leaf u → Q u) (hr : 0 < r) (hn : size = (n : ℚ) * r) (hfill : ∃ v, R [] v ∧ shown v = Tile.nodataFor l nodata) (zUp : Bool) :
    ∃ arr, (getLayersByName env g [l] (some r) nodata zUp).2 = .ok (some [arr]) ∧ arr.rows = ny * n ∧ arr.cols = nx * n ∧
      ∀ i j, i < ny * n → j < nx * n → ∃ v, R (inCell x0 y0 r i j A.allPts) v ∧ arr.get? i j = some (shown v) := by
  have hTw : T.WF := by show T.flat.length = _; rw [hf.rep.2.2.1, hf.rep.1, hf.rep.2.1]
  have hlaid : Laid g T := ⟨hf.tiles, hTw, by rw [hf.txs, originsOf_length, hf.rep.2.1], by rw [hh, hf.tileSize, hf.rep.1], by rw [hw, hf.tileSize, hf.rep.2.1]⟩
  have hno : g.noGrid = .ok false := probe_first hf.tiles hTw (fun i j t ht => S.probe (frame_tileAt hf ht).2.2.1 (fun u hu => hQ u ⟨i, j, t, ht, hu⟩))
  have hn0 : cellsAlong g.tileSize r = .ok n := by rw [hf.tileSize, hn]; exact cellsAlong_mul hr n
  -- what a tile gives
  have hfound : ∀ i j t, g.TileAt i j t → ∃ a, foundIn env r [l] nodata (g.flips zUp) t = .ok [(l, a)] ∧ a.rows = n ∧ a.cols = n ∧
      ∀ p q, p < n → q < n → ∃ v, R (inCell (x0 + (j : ℚ) * size) (y0 + (i : ℚ) * size) r p q A.allPts) v ∧ a.get? p q = some (shown v) := by
    intro i j t ht
    obtain ⟨a, h1, h2, h3, h4⟩ := S.ok (g.flips zUp) (frame_tileAt hf ht).2.2.1 (fun u hu => hQ u ⟨i, j, t, ht, hu⟩)
    refine ⟨a, ?_, h2, h3, ?_⟩
    · unfold foundIn tileLayersFrom
      rcases hc : LayerLike.getLayer env t l r nodata (g.flips zUp) with ⟨t', o⟩
      rw [hc] at h1
      simp only at h1
      subst h1
      rfl
    · intro p q hp hq
      obtain ⟨v, hv, ha⟩ := h4 p q hp hq
      refine ⟨v, ?_, ha⟩
      rw [hn, inCell_within hr hp hq] at hv
      rw [hn]
      exact hv
  obtain ⟨o, ho⟩ := getLayers_ok (layers := [l]) (nodata := nodata) (zUp := zUp) (env := env) hlaid hr hno hn0 (by
    intro i j t ht
    obtain ⟨a, h1, h2, h3, -⟩ := hfound i j t ht
    exact ⟨_, h1, by simp, by simpa using ⟨h2, h3⟩⟩)
  rcases hc : getLayersByName env g [l] (some r) nodata zUp with ⟨g', o'⟩
  rw [hc] at ho
  simp only at ho
  subst ho
  -- there is a tile
  have htile : ∃ i j t, g.TileAt i j t := by
    have hem := frame_isEmpty C hs hf hne
    rw [decide_eq_false hA] at hem
    unfold isEmpty at hem
    rw [hf.tiles] at hem
    simp only [Bool.not_eq_false', List.any_eq_true] at hem
    obtain ⟨o, ho, hs'⟩ := hem
    obtain ⟨t, rfl⟩ := Option.isSome_iff_exists.1 hs'
    obtain ⟨k, hk⟩ := List.mem_iff_getElem?.1 ho
    rw [Arr2.flat_getElem?_eq T hTw (List.getElem?_eq_some_iff.1 hk).1] at hk
    exact ⟨_, _, t, T, hf.tiles, hk⟩
  obtain ⟨i0, j0, t0, ht0⟩ := htile
  obtain ⟨-, ⟨hnot, -⟩ | ⟨n', hn', -, hnone, hall, -⟩⟩ := getLayers_spec hlaid hr hc
  · exact absurd ht0 (hnot i0 j0 t0)
  rw [hn0] at hn'
  cases hn'
  cases o with
  | none =>
    have := hnone.1 rfl i0 j0 t0 ht0
    obtain ⟨a, h1, -⟩ := hfound i0 j0 t0 ht0
    rw [this] at h1
    cases h1
  | some D =>
    obtain ⟨hlen, hD⟩ := hall D rfl
    obtain ⟨arr, h1, h2, h3, -, h5⟩ := hD 0 l rfl
    rw [hf.rep.1, hf.rep.2.1] at h5
    rw [hf.rep.1] at h2
    rw [hf.rep.2.1] at h3
    have hDa : D = [arr] := by
      cases D with
      | nil => cases h1
      | cons b D =>
        have hb : b = arr := by simpa using h1
        have : D = [] := by simpa using hlen
        rw [hb, this]
    refine ⟨arr, by rw [hDa], h2, h3, ?_⟩
    intro i j hi hj
    have hnpos : 0 < n := Nat.pos_of_ne_zero (fun h0 => by rw [h0, Nat.mul_zero] at hi; exact absurd hi (Nat.not_lt_zero _))
    have e := h5 i j hi hj
    rw [e]
    unfold slotVal
    have hi' : i / n < ny := Nat.div_lt_of_lt_mul (by rw [Nat.mul_comm]; exact hi)
    have hj' : j / n < nx := Nat.div_lt_of_lt_mul (by rw [Nat.mul_comm]; exact hj)
    cases ht : T.get? (i / n) (j / n) with
    | none =>
      have : i / n < T.rows ∧ j / n < T.cols := ⟨by rw [hf.rep.1]; exact hi', by rw [hf.rep.2.1]; exact hj'⟩
      obtain ⟨v, hv⟩ := Arr2.get?_isSome T hTw this.1 this.2
      rw [ht] at hv; cases hv
    | some o =>
      cases o with
      | some t =>
        obtain ⟨a, k1, k2, k3, k4⟩ := hfound (i / n) (j / n) t ⟨T, hf.tiles, ht⟩
        obtain ⟨v, hv, ha⟩ := k4 (i % n) (j % n) (Nat.mod_lt _ hnpos) (Nat.mod_lt _ hnpos)
        refine ⟨v, ?_, ?_⟩
        · rw [hn, inCell_block] at hv; exact hv
        · simp only [k1, entryVal, List.getElem?_cons_zero, ha]; rfl
      | none =>
        obtain ⟨v, hv, hs⟩ := hfill
        refine ⟨v, ?_, by rw [hs]⟩
        have hemp : A.within (x0 + ((j / n : Nat) : ℚ) * size) (y0 + ((i / n : Nat) : ℚ) * size) size = [] := by
          have hget := ht
          unfold Arr2.get? at hget
          rw [if_pos ⟨by rw [hf.rep.1]; exact hi', by rw [hf.rep.2.1]; exact hj'⟩] at hget
          have hslot := hf.rep.2.2.2 _ _ hget
          rw [hf.rep.2.1] at hslot
          have e1 : (i / n * nx + j / n) % nx = j / n := by rw [Nat.mul_comm, Nat.mul_add_mod, Nat.mod_eq_of_lt hj']
          have e2 : (i / n * nx + j / n) / nx = i / n := by
            rw [Nat.mul_comm, Nat.mul_add_div (by omega), Nat.div_eq_of_lt hj', Nat.add_zero]
          unfold slotX slotY at hslot
          rw [e1, e2] at hslot
          rcases hslot with ⟨-, h⟩ | ⟨t, h, -⟩
          · exact h
          · cases h
        have : inCell x0 y0 r i j A.allPts = [] := by
          rw [← inCell_block (n := n), ← inCell_within hr (Nat.mod_lt _ hnpos) (Nat.mod_lt _ hnpos), ← hn, hemp]
          rfl
        rw [this]
        exact hv

/-- grids of the histories -/
theorem grow_shows {env : Env} {C : ChildSpec τ size sub bs fl} {n : Nat} {r : ℚ} {Q : Tile → Prop} {l : Layer} {nodata : Option ℚ} {R : List Pt → Option ℚ → Prop} {shown : Option ℚ → Option ℚ}
    (S : Shows env C n r Q l nodata R shown) {g : Grid τ} {A : Store} (hg : GrowInv C g A) (hs : 0 < size) (hA : A ≠ [])
    (hQ : ∀ u, g.Leaf u → Q u) (hr : 0 < r) (hn : size = (n : ℚ) * r) (hfill : ∃ v, R [] v ∧ shown v = Tile.nodataFor l nodata) (zUp : Bool) :
    ∃ e arr, g.extents = some e ∧ (getLayersByName env g [l] (some r) nodata zUp).2 = .ok (some [arr]) ∧ SurfaceOf R shown A.allPts r e arr := by
  rcases hg.body with ⟨h1, -⟩ | ⟨-, i, j, nx, ny, T, hf, he⟩
  · exact absurd h1 hA
  · obtain ⟨hw, hh⟩ := hf.dims _ he
    have hw : g.width = some ((nx : ℚ) * size) := by rw [hw]; congr 1; ring
    have hh : g.height = some ((ny : ℚ) * size) := by rw [hh]; congr 1; ring
    obtain ⟨arr, h1, h2, h3, h4⟩ := grid_shows S hf.toReady hh hw hs hA hg.ne hQ hr hn hfill zUp
    refine ⟨_, arr, he, h1, ⟨?_, ?_, ?_, ?_⟩⟩
    · rw [h2, hn]; push_cast; ring
    · rw [h3, hn]; push_cast; ring
    · intro p q hp hq
      exact h4 p q (by rw [← h2]; exact hp) (by rw [← h3]; exact hq)
    · intro p hp
      obtain ⟨a1, a2, a3, a4⟩ := hf.inr p hp
      have one : ∀ (lo v : ℚ) (m : Nat), lo ≤ v → v < lo + (m : ℚ) * size → ∃ k : Nat, k < m * n ∧ lo + (k : ℚ) * r ≤ v ∧ v < lo + ((k + 1 : Nat) : ℚ) * r := by
        intro lo v m h1 h2
        have h0 : 0 ≤ (v - lo) / r := div_nonneg (by linarith) hr.le
        have hf := Nat.floor_le h0
        have hf' := Nat.lt_floor_add_one ((v - lo) / r)
        rw [le_div_iff₀ hr] at hf
        rw [div_lt_iff₀ hr] at hf'
        refine ⟨⌊(v - lo) / r⌋₊, ?_, by linarith, by push_cast; linarith⟩
        rw [Nat.floor_lt h0, div_lt_iff₀ hr]
        rw [hn] at h2
        push_cast
        linarith
      obtain ⟨q, hq, q1, q2⟩ := one _ _ _ a1 a2
      obtain ⟨k, hk, k1, k2⟩ := one _ _ _ a3 a4
      exact ⟨k, q, by rw [h2]; exact hk, by rw [h3]; exact hq, q1, q2, k1, k2⟩

/-- subgrids as tiles -/
theorem shows_sub {env : Env} {C : ChildSpec τ sub 0 false fl} {n : Nat} {r : ℚ} {Q : Tile → Prop} {l : Layer} {nodata : Option ℚ} {R : List Pt → Option ℚ → Prop} {shown : Option ℚ → Option ℚ}
    (S : Shows env C n r Q l nodata R shown) (hcells : ∀ {x y : ℚ} {t : τ} {A : Store}, C.Rep x y t A → (∀ u, HasLeaves.leaf t u → Q u) → LayerLike.hasCells t = .ok true)
    (hs : 0 < size) (hpow : isPowerOfTwo sub = true) {q : Nat} (hq : size = (q : ℚ) * sub) (hr : 0 < r) (hn : sub = (n : ℚ) * r)
    (hfill : ∃ v, R [] v ∧ shown v = Tile.nodataFor l nodata) : Shows env (subSpec (size := size) (bs := bs) C hs hpow) (q * n) r Q l nodata R shown where
  ok := by
    intro x y g A zUp hrep hQ
    have hrep' : SubInv C size x y g A := hrep
    obtain ⟨T, hfr⟩ := hrep'.frame
    have hsubpos := isPowerOfTwo_pos hpow
    have hnc : ncells size sub = q := by rw [hq]; exact ncells_mul hsubpos q
    rw [hnc] at hfr
    obtain ⟨hw, hh⟩ := hfr.dims _ hrep'.extents
    have hw : g.width = some ((q : ℚ) * sub) := by rw [hw, ← hq]; congr 1; ring
    have hh : g.height = some ((q : ℚ) * sub) := by rw [hh, ← hq]; congr 1; ring
    obtain ⟨arr, h1, h2, h3, h4⟩ := grid_shows S hfr.toReady hh hw hsubpos hrep'.nonempty hrep'.ne hQ hr hn hfill zUp
    refine ⟨arr, ?_, h2, h3, h4⟩
    show (getLayer env g l r nodata zUp).2 = _
    unfold getLayer
    rcases hc : getLayersByName env g [l] (some r) nodata zUp with ⟨g1, o1⟩
    rw [hc] at h1
    simp only at h1
    subst h1
    rfl
  probe := by
    intro x y g A hrep hg
    have hrep' : SubInv C size x y g A := hrep
    obtain ⟨T, hfr⟩ := hrep'.frame
    have hTw : T.WF := by show T.flat.length = _; rw [hfr.rep.2.2.1, hfr.rep.1, hfr.rep.2.1]
    have hem := frame_isEmpty C (isPowerOfTwo_pos hpow) hfr.toReady hrep'.ne
    rw [decide_eq_false hrep'.nonempty] at hem
    unfold isEmpty at hem
    rw [hfr.tiles] at hem
    simp only [Bool.not_eq_false', List.any_eq_true] at hem
    obtain ⟨o, ho, hs'⟩ := hem
    obtain ⟨t0, rfl⟩ := Option.isSome_iff_exists.1 hs'
    show probe g = .ok true
    unfold probe present
    rw [hfr.tiles]
    cases hl : (T.flat.filterMap id).getLast? with
    | none =>
      rw [List.getLast?_eq_none_iff] at hl
      have : t0 ∈ T.flat.filterMap id := by simpa using ho
      rw [hl] at this; cases this
    | some t =>
      have : some t ∈ T.flat := by simpa using List.mem_of_getLast? hl
      obtain ⟨k, hk⟩ := List.mem_iff_getElem?.1 this
      rw [Arr2.flat_getElem?_eq T hTw (List.getElem?_eq_some_iff.1 hk).1] at hk
      have ht : g.TileAt (k / T.cols) (k % T.cols) t := ⟨T, hfr.tiles, hk⟩
      exact hcells (frame_tileAt hfr.toReady ht).2.2.1 (fun u hu => hg u ⟨_, _, t, ht, hu⟩)

end Grid
end Bathy
