import Verif.Lemmas.ShowsGrid

/-!
# Surfaces of a part of the soundings

As `Lemmas/ShowsGrid.lean`, for layers of a part of the soundings, which a tile without such soundings may leave out.
-/

namespace Bathy

/-- a part of the soundings that can be taken tile by tile -/
structure Part (sel : Store → List Pt) : Prop where
  within : ∀ A x y s, sel (A.within x y s) = (sel A).filter (fun p => decide (InBox x y s p))
  sub : ∀ A, ∀ p ∈ sel A, p ∈ A.allPts

/-- asked for the layer, a tile whose leaves have the property `Q` answers with an array that is related to a part of its soundings, cell by cell, or with nothing if it has none of them -/
structure ShowsOf {τ : Type} [TileLike τ] [LayerLike τ] [HasLeaves τ] {size sub : ℚ} {bs : Bool} {fl : Fields} (env : Env) (C : ChildSpec τ size sub bs fl) (n : Nat) (r : ℚ) (Q : Tile → Prop)
    (l : Layer) (nodata : Option ℚ) (sel : Store → List Pt) (R : List Pt → Option ℚ → Prop) (shown : Option ℚ → Option ℚ) : Prop where
  ok : ∀ {x y : ℚ} {t : τ} {A : Store} (zUp : Bool), C.Rep x y t A → (∀ u, HasLeaves.leaf t u → Q u) → ∃ o, (LayerLike.getLayer env t l r nodata zUp).2 = .ok o ∧
    (o = none ↔ sel A = [] ∧ nodata = none) ∧
    ∀ a, o = some a → a.rows = n ∧ a.cols = n ∧ ∀ i j, i < n → j < n → ∃ v, R (inCell x y r i j (sel A)) v ∧ a.get? i j = some (shown v)
  probe : ∀ {x y : ℚ} {t : τ} {A : Store}, C.Rep x y t A → (∀ u, HasLeaves.leaf t u → Q u) → LayerLike.probe t = .ok true

theorem Part.inCell {sel : Store → List Pt} (P : Part sel) {A : Store} {x y r : ℚ} {n : Nat} (hr : 0 < r) {i j : Nat} (hi : i < n) (hj : j < n) :
    inCell x y r i j (sel (A.within x y ((n : ℚ) * r))) = Bathy.inCell x y r i j (sel A) := by
  rw [P.within]
  unfold Bathy.inCell
  rw [List.filter_filter]
  apply List.filter_congr
  intro p _
  by_cases hp : InCell x y r i j p
  · simp [hp, inCell_inBox hr hi hj hp]
  · simp [hp]

namespace Grid
variable {τ : Type} [TileLike τ] [LayerLike τ] [HasLeaves τ] {size sub : ℚ} {bs : Bool} {fl : Fields}

theorem grid_showsOf {env : Env} {C : ChildSpec τ size sub bs fl} {n : Nat} {r : ℚ} {Q : Tile → Prop} {l : Layer} {nodata : Option ℚ} {sel : Store → List Pt} {R : List Pt → Option ℚ → Prop} {shown : Option ℚ → Option ℚ}
    (P : Part sel) (S : ShowsOf env C n r Q l nodata sel R shown) {x0 y0 : ℚ} {nx ny : Nat} {T : Arr2 (Option τ)} {g : Grid τ} {A : Store} (hf : Ready C x0 y0 nx ny T g A)
    (hin : ∀ p ∈ A.allPts, x0 ≤ p.x ∧ p.x < x0 + (nx : ℚ) * size ∧ y0 ≤ p.y ∧ p.y < y0 + (ny : ℚ) * size)
    (hh : g.height = some ((ny : ℚ) * size)) (hw : g.width = some ((nx : ℚ) * size)) (hs : 0 < size) (hA : A ≠ []) (hne : ∀ q ∈ A, q.2 ≠ [])
    (hQ : ∀ u, g.Leaf u → Q u) (hr : 0 < r) (hn : size = (n : ℚ) * r) (hfill : ∃ v, R [] v ∧ shown v = Tile.nodataFor l nodata) (zUp : Bool) :
    ∃ o : Option LayerArr, (getLayersByName env g [l] (some r) nodata zUp).2 = .ok (o.map (fun a => [a])) ∧ (o = none ↔ sel A = [] ∧ nodata = none) ∧
      ∀ arr, o = some arr → arr.rows = ny * n ∧ arr.cols = nx * n ∧
      ∀ i j, i < ny * n → j < nx * n → ∃ v, R (inCell x0 y0 r i j (sel A)) v ∧ arr.get? i j = some (shown v) := by
  have hTw : T.WF := by show T.flat.length = _; rw [hf.rep.2.2.1, hf.rep.1, hf.rep.2.1]
  have hlaid : Laid g T := ⟨hf.tiles, hTw, by rw [hf.txs, originsOf_length, hf.rep.2.1], by rw [hh, hf.tileSize, hf.rep.1], by rw [hw, hf.tileSize, hf.rep.2.1]⟩
  have hno : g.noGrid = .ok false := probe_first hf.tiles hTw (fun i j t ht => S.probe (frame_tileAt hf ht).2.2.1 (fun u hu => hQ u ⟨i, j, t, ht, hu⟩))
  have hn0 : cellsAlong g.tileSize r = .ok n := by rw [hf.tileSize, hn]; exact cellsAlong_mul hr n
  -- what a tile gives
  have hfound : ∀ i j t, g.TileAt i j t → ∃ o : Option LayerArr, foundIn env r [l] nodata (g.flips zUp) t = .ok (o.toList.map (fun a => (l, a))) ∧
      (o = none ↔ sel (A.within (x0 + (j : ℚ) * size) (y0 + (i : ℚ) * size) size) = [] ∧ nodata = none) ∧
      ∀ a, o = some a → a.rows = n ∧ a.cols = n ∧
      ∀ p q, p < n → q < n → ∃ v, R (inCell (x0 + (j : ℚ) * size) (y0 + (i : ℚ) * size) r p q (sel A)) v ∧ a.get? p q = some (shown v) := by
    intro i j t ht
    obtain ⟨o, h1, h2, h3⟩ := S.ok (g.flips zUp) (frame_tileAt hf ht).2.2.1 (fun u hu => hQ u ⟨i, j, t, ht, hu⟩)
    refine ⟨o, ?_, h2, fun a ho => ?_⟩
    · unfold foundIn tileLayersFrom
      rcases hc : LayerLike.getLayer env t l r nodata (g.flips zUp) with ⟨t', o'⟩
      rw [hc] at h1
      simp only at h1
      subst h1
      cases o <;> rfl
    · obtain ⟨h4, h5, h6⟩ := h3 a ho
      refine ⟨h4, h5, fun p q hp hq => ?_⟩
      obtain ⟨v, hv, ha⟩ := h6 p q hp hq
      refine ⟨v, ?_, ha⟩
      rw [hn, P.inCell hr hp hq] at hv
      rw [hn]
      exact hv
  obtain ⟨o, ho⟩ := getLayers_ok (layers := [l]) (nodata := nodata) (zUp := zUp) (env := env) hlaid hr hno hn0 (by
    intro i j t ht
    obtain ⟨o, h1, -, h2⟩ := hfound i j t ht
    refine ⟨_, h1, by cases o <;> simp, ?_⟩
    intro p hp
    cases o with
    | none => simp at hp
    | some a =>
      simp at hp
      subst hp
      exact ⟨(h2 a rfl).1, (h2 a rfl).2.1⟩)
  rcases hc : getLayersByName env g [l] (some r) nodata zUp with ⟨g', o'⟩
  rw [hc] at ho
  simp only at ho
  subst ho
  -- the tile of a sounding
  have hpos : 0 < n := Nat.pos_of_ne_zero (fun h0 => by rw [h0] at hn; simp at hn; linarith)
  have hempty : ∀ i j, i < ny → j < nx → T.get? i j = some none → A.within (x0 + (j : ℚ) * size) (y0 + (i : ℚ) * size) size = [] := by
    intro i j hi hj hget
    unfold Arr2.get? at hget
    rw [if_pos ⟨by rw [hf.rep.1]; exact hi, by rw [hf.rep.2.1]; exact hj⟩] at hget
    have hslot := hf.rep.2.2.2 _ _ hget
    rw [hf.rep.2.1] at hslot
    have e1 : (i * nx + j) % nx = j := by rw [Nat.mul_comm, Nat.mul_add_mod, Nat.mod_eq_of_lt hj]
    have e2 : (i * nx + j) / nx = i := by
      rw [Nat.mul_comm, Nat.mul_add_div (by omega), Nat.div_eq_of_lt hj, Nat.add_zero]
    unfold slotX slotY at hslot
    rw [e1, e2] at hslot
    rcases hslot with ⟨-, h⟩ | ⟨t, h, -⟩
    · exact h
    · cases h
  have hslotOf : ∀ p ∈ A.allPts, ∃ i j t, g.TileAt i j t ∧ InBox (x0 + (j : ℚ) * size) (y0 + (i : ℚ) * size) size p := by
    intro p hp
    obtain ⟨a1, a2, a3, a4⟩ := hin p hp
    have one : ∀ (lo v : ℚ) (m : Nat), lo ≤ v → v < lo + (m : ℚ) * size → ∃ k : Nat, k < m ∧ lo + (k : ℚ) * size ≤ v ∧ v < lo + (k : ℚ) * size + size := by
      intro lo v m h1 h2
      have h0 : 0 ≤ (v - lo) / size := div_nonneg (by linarith) hs.le
      have hf := Nat.floor_le h0
      have hf' := Nat.lt_floor_add_one ((v - lo) / size)
      rw [le_div_iff₀ hs] at hf
      rw [div_lt_iff₀ hs] at hf'
      refine ⟨⌊(v - lo) / size⌋₊, ?_, by linarith, by linarith⟩
      rw [Nat.floor_lt h0, div_lt_iff₀ hs]
      linarith
    obtain ⟨j, hj, j1, j2⟩ := one _ _ _ a1 a2
    obtain ⟨i, hi, i1, i2⟩ := one _ _ _ a3 a4
    have hbox : InBox (x0 + (j : ℚ) * size) (y0 + (i : ℚ) * size) size p := ⟨j1, j2, i1, i2⟩
    obtain ⟨o, ho⟩ := Arr2.get?_isSome T hTw (show i < T.rows by rw [hf.rep.1]; exact hi) (show j < T.cols by rw [hf.rep.2.1]; exact hj)
    cases o with
    | some t => exact ⟨i, j, t, ⟨T, hf.tiles, ho⟩, hbox⟩
    | none =>
      have := hempty i j hi hj ho
      have h2 := Store.allPts_within A (x0 + (j : ℚ) * size) (y0 + (i : ℚ) * size) size
      rw [this] at h2
      have : p ∈ A.allPts.filter (fun p => decide (InBox (x0 + (j : ℚ) * size) (y0 + (i : ℚ) * size) size p)) := List.mem_filter.2 ⟨hp, by simpa using hbox⟩
      rw [← h2] at this
      cases this
  obtain ⟨i0, j0, t0, ht0⟩ : ∃ i j t, g.TileAt i j t := by
    obtain ⟨q, hq⟩ := List.exists_mem_of_ne_nil _ hA
    obtain ⟨p, hp⟩ := List.exists_mem_of_ne_nil _ (hne q hq)
    obtain ⟨i, j, t, ht, -⟩ := hslotOf p (List.mem_flatMap.2 ⟨q, hq, hp⟩)
    exact ⟨i, j, t, ht⟩
  obtain ⟨-, ⟨hnot, -⟩ | ⟨n', hn', -, hnone, hall, -⟩⟩ := getLayers_spec hlaid hr hc
  · exact absurd ht0 (hnot i0 j0 t0)
  rw [hn0] at hn'
  cases hn'
  have hsel : sel A = [] → nodata = none → o = none := by
    intro h0 hnd
    rw [hnone]
    intro i j t ht
    obtain ⟨o', k1, k2, -⟩ := hfound i j t ht
    have : sel (A.within (x0 + (j : ℚ) * size) (y0 + (i : ℚ) * size) size) = [] := by rw [P.within, h0]; rfl
    rw [k1, k2.2 ⟨this, hnd⟩]
    rfl
  cases o with
  | none =>
    have hto : ∀ i j t, g.TileAt i j t → sel (A.within (x0 + (j : ℚ) * size) (y0 + (i : ℚ) * size) size) = [] ∧ nodata = none := by
      intro i j t ht
      obtain ⟨o', k1, k2, -⟩ := hfound i j t ht
      have k3 := hnone.1 rfl i j t ht
      apply k2.1
      cases o' with
      | none => rfl
      | some a => rw [k1] at k3; simp at k3
    refine ⟨none, rfl, ⟨fun _ => ⟨?_, (hto _ _ _ ht0).2⟩, fun _ => rfl⟩, fun _ h => by cases h⟩
    by_contra hne'
    obtain ⟨p, hp⟩ := List.exists_mem_of_ne_nil _ hne'
    obtain ⟨i, j, t, ht, hb⟩ := hslotOf p (P.sub A p hp)
    have := (hto i j t ht).1
    rw [P.within] at this
    have hp' : p ∈ (sel A).filter (fun p => decide (InBox (x0 + (j : ℚ) * size) (y0 + (i : ℚ) * size) size p)) := List.mem_filter.2 ⟨hp, by simpa using hb⟩
    rw [this] at hp'
    cases hp'
  | some D =>
    obtain ⟨hlen, hD⟩ := hall D rfl
    obtain ⟨arr, h1, h2, h3, -, h5⟩ := hD 0 l rfl
    rw [hf.rep.1, hf.rep.2.1] at h5
    rw [hf.rep.1] at h2
    rw [hf.rep.2.1] at h3
    have hDa : D = [arr] := by
      cases D with
      | nil => cases h1
      | cons b D =>
        have hb : b = arr := by simpa using h1
        have : D = [] := by simpa using hlen
        rw [hb, this]
    refine ⟨some arr, by rw [hDa]; rfl, ⟨fun h => (by cases h), fun h => (by cases hsel h.1 h.2)⟩, ?_⟩
    rintro a h
    cases h
    refine ⟨h2, h3, ?_⟩
    intro i j hi hj
    have e := h5 i j hi hj
    rw [e]
    unfold slotVal
    have hi' : i / n < ny := Nat.div_lt_of_lt_mul (by rw [Nat.mul_comm]; exact hi)
    have hj' : j / n < nx := Nat.div_lt_of_lt_mul (by rw [Nat.mul_comm]; exact hj)
    have hfil : ∀ h0 : sel (A.within (x0 + ((j / n : Nat) : ℚ) * size) (y0 + ((i / n : Nat) : ℚ) * size) size) = [], inCell x0 y0 r i j (sel A) = [] := by
      intro h0
      rw [← inCell_block (n := n), ← P.inCell hr (Nat.mod_lt _ hpos) (Nat.mod_lt _ hpos), ← hn, h0]
      rfl
    obtain ⟨o, ht⟩ := Arr2.get?_isSome T hTw (show i / n < T.rows by rw [hf.rep.1]; exact hi') (show j / n < T.cols by rw [hf.rep.2.1]; exact hj')
    rw [ht]
    cases o with
    | some t =>
      obtain ⟨o', k1, k2, k4⟩ := hfound (i / n) (j / n) t ⟨T, hf.tiles, ht⟩
      cases o' with
      | some a =>
        obtain ⟨-, -, k4⟩ := k4 a rfl
        obtain ⟨v, hv, ha⟩ := k4 (i % n) (j % n) (Nat.mod_lt _ hpos) (Nat.mod_lt _ hpos)
        refine ⟨v, ?_, ?_⟩
        · rw [hn, inCell_block] at hv; exact hv
        · simp only [k1, entryVal, Option.toList_some, List.map_cons, List.map_nil, List.getElem?_cons_zero, ha]; rfl
      | none =>
        obtain ⟨v, hv, hs⟩ := hfill
        refine ⟨v, ?_, ?_⟩
        · rw [hfil (k2.1 rfl).1]; exact hv
        · rw [hs]
          simp only [k1, Option.toList_none, List.map_nil, entryVal]
          rfl
    | none =>
      obtain ⟨v, hv, hs⟩ := hfill
      refine ⟨v, ?_, by rw [hs]⟩
      rw [hfil (by
        rw [hempty _ _ hi' hj' ht]
        have := P.sub []
        cases hsn : sel [] with
        | nil => rfl
        | cons p ps => rw [hsn] at this; cases this p List.mem_cons_self)]
      exact hv

/-- grids of the histories -/
theorem grow_showsOf {env : Env} {C : ChildSpec τ size sub bs fl} {n : Nat} {r : ℚ} {Q : Tile → Prop} {l : Layer} {nodata : Option ℚ} {sel : Store → List Pt} {R : List Pt → Option ℚ → Prop} {shown : Option ℚ → Option ℚ}
    (P : Part sel) (S : ShowsOf env C n r Q l nodata sel R shown) {g : Grid τ} {A : Store} (hg : GrowInv C g A) (hs : 0 < size) (hA : A ≠ [])
    (hQ : ∀ u, g.Leaf u → Q u) (hr : 0 < r) (hn : size = (n : ℚ) * r) (hfill : ∃ v, R [] v ∧ shown v = Tile.nodataFor l nodata) (zUp : Bool) :
    ∃ (e : Extents) (o : Option LayerArr), g.extents = some e ∧ (getLayersByName env g [l] (some r) nodata zUp).2 = .ok (o.map (fun a => [a])) ∧
      (o = none ↔ sel A = [] ∧ nodata = none) ∧ ∀ arr, o = some arr → SurfaceOf R shown (sel A) r e arr := by
  rcases hg.body with ⟨h1, -⟩ | ⟨-, i, j, nx, ny, T, hf, he⟩
  · exact absurd h1 hA
  · obtain ⟨hw, hh⟩ := hf.dims _ he
    have hw : g.width = some ((nx : ℚ) * size) := by rw [hw]; congr 1; ring
    have hh : g.height = some ((ny : ℚ) * size) := by rw [hh]; congr 1; ring
    obtain ⟨o, h1, h2, h3⟩ := grid_showsOf P S hf.toReady hf.inr hh hw hs hA hg.ne hQ hr hn hfill zUp
    refine ⟨_, o, he, h1, h2, fun arr ho => ?_⟩
    obtain ⟨h2, h3, h4⟩ := h3 arr ho
    refine ⟨?_, ?_, ?_, ?_⟩
    · rw [h2, hn]; push_cast; ring
    · rw [h3, hn]; push_cast; ring
    · intro p q hp hq
      exact h4 p q (by rw [← h2]; exact hp) (by rw [← h3]; exact hq)
    · intro p hp
      obtain ⟨a1, a2, a3, a4⟩ := hf.inr p (P.sub A p hp)
      have one : ∀ (lo v : ℚ) (m : Nat), lo ≤ v → v < lo + (m : ℚ) * size → ∃ k : Nat, k < m * n ∧ lo + (k : ℚ) * r ≤ v ∧ v < lo + ((k + 1 : Nat) : ℚ) * r := by
        intro lo v m h1 h2
        have h0 : 0 ≤ (v - lo) / r := div_nonneg (by linarith) hr.le
        have hf := Nat.floor_le h0
        have hf' := Nat.lt_floor_add_one ((v - lo) / r)
        rw [le_div_iff₀ hr] at hf
        rw [div_lt_iff₀ hr] at hf'
        refine ⟨⌊(v - lo) / r⌋₊, ?_, by linarith, by push_cast; linarith⟩
        rw [Nat.floor_lt h0, div_lt_iff₀ hr]
        rw [hn] at h2
        push_cast
        linarith
      obtain ⟨q, hq, q1, q2⟩ := one _ _ _ a1 a2
      obtain ⟨k, hk, k1, k2⟩ := one _ _ _ a3 a4
      exact ⟨k, q, by rw [h2]; exact hk, by rw [h3]; exact hq, q1, q2, k1, k2⟩

/-- subgrids as tiles -/
theorem showsOf_sub {env : Env} {C : ChildSpec τ sub 0 false fl} {n : Nat} {r : ℚ} {Q : Tile → Prop} {l : Layer} {nodata : Option ℚ} {sel : Store → List Pt} {R : List Pt → Option ℚ → Prop} {shown : Option ℚ → Option ℚ}
    (P : Part sel) (S : ShowsOf env C n r Q l nodata sel R shown) (hcells : ∀ {x y : ℚ} {t : τ} {A : Store}, C.Rep x y t A → (∀ u, HasLeaves.leaf t u → Q u) → LayerLike.hasCells t = .ok true)
    (hs : 0 < size) (hpow : isPowerOfTwo sub = true) {q : Nat} (hq : size = (q : ℚ) * sub) (hr : 0 < r) (hn : sub = (n : ℚ) * r)
    (hfill : ∃ v, R [] v ∧ shown v = Tile.nodataFor l nodata) : ShowsOf env (subSpec (size := size) (bs := bs) C hs hpow) (q * n) r Q l nodata sel R shown where
  ok := by
    intro x y g A zUp hrep hQ
    have hrep' : SubInv C size x y g A := hrep
    obtain ⟨T, hfr⟩ := hrep'.frame
    have hsubpos := isPowerOfTwo_pos hpow
    have hnc : ncells size sub = q := by rw [hq]; exact ncells_mul hsubpos q
    rw [hnc] at hfr
    obtain ⟨hw, hh⟩ := hfr.dims _ hrep'.extents
    have hw : g.width = some ((q : ℚ) * sub) := by rw [hw, ← hq]; congr 1; ring
    have hh : g.height = some ((q : ℚ) * sub) := by rw [hh, ← hq]; congr 1; ring
    obtain ⟨o, h1, h2⟩ := grid_showsOf P S hfr.toReady hfr.inr hh hw hsubpos hrep'.nonempty hrep'.ne hQ hr hn hfill zUp
    refine ⟨o, ?_, h2⟩
    show (getLayer env g l r nodata zUp).2 = _
    unfold getLayer
    rcases hc : getLayersByName env g [l] (some r) nodata zUp with ⟨g1, o1⟩
    rw [hc] at h1
    simp only at h1
    subst h1
    cases o <;> rfl
  probe := by
    intro x y g A hrep hg
    have hrep' : SubInv C size x y g A := hrep
    obtain ⟨T, hfr⟩ := hrep'.frame
    have hTw : T.WF := by show T.flat.length = _; rw [hfr.rep.2.2.1, hfr.rep.1, hfr.rep.2.1]
    have hem := frame_isEmpty C (isPowerOfTwo_pos hpow) hfr.toReady hrep'.ne
    rw [decide_eq_false hrep'.nonempty] at hem
    unfold isEmpty at hem
    rw [hfr.tiles] at hem
    simp only [Bool.not_eq_false', List.any_eq_true] at hem
    obtain ⟨o, ho, hs'⟩ := hem
    obtain ⟨t0, rfl⟩ := Option.isSome_iff_exists.1 hs'
    show probe g = .ok true
    unfold probe present
    rw [hfr.tiles]
    cases hl : (T.flat.filterMap id).getLast? with
    | none =>
      rw [List.getLast?_eq_none_iff] at hl
      have : t0 ∈ T.flat.filterMap id := by simpa using ho
      rw [hl] at this; cases this
    | some t =>
      have : some t ∈ T.flat := by simpa using List.mem_of_getLast? hl
      obtain ⟨k, hk⟩ := List.mem_iff_getElem?.1 this
      rw [Arr2.flat_getElem?_eq T hTw (List.getElem?_eq_some_iff.1 hk).1] at hk
      have ht : g.TileAt (k / T.cols) (k % T.cols) t := ⟨T, hfr.tiles, hk⟩
      exact hcells (frame_tileAt hfr.toReady ht).2.2.1 (fun u hu => hg u ⟨_, _, t, ht, hu⟩)

end Grid
end Bathy
