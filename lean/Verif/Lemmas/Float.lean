import Verif.Model.Float
import Verif.Spec.Float
import Verif.Lemmas.GridGrow
import Verif.Lemmas.Recorded
import Verif.Lemmas.GridExtents

/-!
# Geometry without rounding errors
-/

namespace Bathy

variable {p : Nat} {lo hi j i : ℤ} {rnd : ℚ → ℚ} {B x : ℚ}

theorem two_pow_pos (k : ℤ) : (0 : ℚ) < 2 ^ k := zpow_pos (by norm_num) k

theorem near_fl (h1 : lo ≤ j) (h2 : j ≤ hi) (h : Near (2 ^ j) B x) (hB : B ≤ 2 ^ p * 2 ^ j) : Fl p lo hi x := by
  obtain ⟨⟨a, ha⟩, hb⟩ := h
  refine ⟨a, j, ?_, h1, h2, ha⟩
  have := le_trans hb hB
  rw [ha, abs_mul, abs_of_pos (two_pow_pos j)] at this
  have := le_of_mul_le_mul_right this (two_pow_pos j)
  exact_mod_cast this

theorem near_rnd (hr : Rounds p lo hi rnd) (h1 : lo ≤ j) (h2 : j ≤ hi) (h : Near (2 ^ j) B x) (hB : B ≤ 2 ^ p * 2 ^ j) : rnd x = x := hr x (near_fl h1 h2 h hB)

theorem Near.mono {r B B' x : ℚ} (h : Near r B x) (hB : B ≤ B') : Near r B' x := ⟨h.1, le_trans h.2 hB⟩

theorem Near.add {r B B' x y : ℚ} (h : Near r B x) (h' : Near r B' y) : Near r (B + B') (x + y) := by
  obtain ⟨⟨a, ha⟩, hb⟩ := h
  obtain ⟨⟨c, hc⟩, hd⟩ := h'
  exact ⟨⟨a + c, by rw [ha, hc]; push_cast; ring⟩, le_trans (abs_add_le x y) (add_le_add hb hd)⟩

theorem Near.sub {r B B' x y : ℚ} (h : Near r B x) (h' : Near r B' y) : Near r (B + B') (x - y) := by
  obtain ⟨⟨a, ha⟩, hb⟩ := h
  obtain ⟨⟨c, hc⟩, hd⟩ := h'
  exact ⟨⟨a - c, by rw [ha, hc]; push_cast; ring⟩, le_trans (abs_sub x y) (add_le_add hb hd)⟩

/-- a power of two is a multiple of a smaller one -/
theorem pow_mult (h : j ≤ i) : ∃ c : ℤ, (2 : ℚ) ^ i = c * 2 ^ j := by
  refine ⟨2 ^ (i - j).toNat, ?_⟩
  push_cast
  rw [← zpow_natCast, Int.toNat_of_nonneg (by omega), ← zpow_add₀ (by norm_num)]
  congr 1
  omega

theorem near_step (h : j ≤ i) (n : ℤ) (hb : |(n : ℚ) * 2 ^ i| ≤ B) : Near (2 ^ j) B ((n : ℚ) * 2 ^ i) := by
  obtain ⟨c, hc⟩ := pow_mult h
  exact ⟨⟨n * c, by rw [hc]; push_cast; ring⟩, hb⟩

theorem near_pow (h : j ≤ i) : Near (2 ^ j) (2 ^ i) (2 ^ i : ℚ) := by
  have := near_step (B := 2 ^ i) h 1 (by rw [Int.cast_one, one_mul, abs_of_pos (two_pow_pos i)])
  rwa [Int.cast_one, one_mul] at this

/-! ### `np.arange` -/

theorem arange_mem {start stop step z : ℚ} (hs : 0 < step) (h : z ∈ arange start stop step) : start ≤ z ∧ z < stop ∧ ∃ n : ℤ, z = start + n * step := by
  unfold arange at h
  obtain ⟨n, hn, rfl⟩ := List.mem_map.1 h
  rw [List.mem_range] at hn
  have h1 : (n : ℤ) < ⌈(stop - start) / step⌉ := by omega
  have h2 : ((n : ℤ) : ℚ) < (stop - start) / step := Int.lt_ceil.1 h1
  have h3 : (n : ℚ) * step < stop - start := by
    have := (lt_div_iff₀ hs).1 h2
    simpa using this
  refine ⟨?_, by linarith, n, by push_cast; rfl⟩
  have : (0 : ℚ) ≤ (n : ℚ) * step := mul_nonneg (Nat.cast_nonneg n) hs.le
  linarith

theorem near_arange (hj : j ≤ i) {start stop z : ℚ} (hs : Near (2 ^ j) B start) (ht : Near (2 ^ j) B stop) (h : z ∈ arange start stop (2 ^ i)) : Near (2 ^ j) B z := by
  obtain ⟨h1, h2, n, hn⟩ := arange_mem (two_pow_pos i) h
  obtain ⟨c, hc⟩ := pow_mult hj
  obtain ⟨a, ha⟩ := hs.1
  refine ⟨⟨a + n * c, by rw [hn, ha, hc]; push_cast; ring⟩, ?_⟩
  rw [abs_le]
  have h3 := (abs_le.1 hs.2).1
  have h4 := (abs_le.1 ht.2).2
  constructor <;> linarith

theorem arangeF_eq (hr : Rounds p lo hi rnd) (hf : Fits p lo hi j i) {start stop : ℚ} (hs : Near (2 ^ j) B start) (ht : Near (2 ^ j) B stop) (hB : B + B + 2 ^ i ≤ 2 ^ p * 2 ^ j) :
    arangeF rnd start stop (2 ^ i) = arange start stop (2 ^ i) := by
  have hB0 : 0 ≤ B := le_trans (abs_nonneg _) hs.2
  have hi0 := two_pow_pos i
  have e1 : rnd (stop - start) = stop - start := near_rnd hr hf.lo_j hf.j_hi (ht.sub hs) (by linarith)
  have e2 : rnd ((stop - start) / 2 ^ i) = (stop - start) / 2 ^ i := by
    apply hr
    obtain ⟨⟨a, ha⟩, hb⟩ := ht.sub hs
    refine ⟨a, j - i, ?_, hf.lo_ji, (by have := hf.j_i; have := hf.zero_hi; omega), ?_⟩
    · have := le_trans hb (show B + B ≤ 2 ^ p * 2 ^ j by linarith)
      rw [ha, abs_mul, abs_of_pos (two_pow_pos j)] at this
      have := le_of_mul_le_mul_right this (two_pow_pos j)
      exact_mod_cast this
    · rw [ha, zpow_sub₀ (by norm_num), mul_div_assoc]
  unfold arangeF arange
  simp only
  rw [e1, e2]
  apply List.map_congr_left
  intro n hn
  have hm : start + (n : ℚ) * 2 ^ i ∈ arange start stop (2 ^ i) := List.mem_map.2 ⟨n, hn, rfl⟩
  have hz := near_arange hf.j_i hs ht hm
  by_cases h0 : n = 0
  · rw [if_pos h0, h0]
    simp
  rw [if_neg h0]
  have e3 : rnd (start + 2 ^ i) = start + 2 ^ i := near_rnd hr hf.lo_j hf.j_hi (hs.add (near_pow hf.j_i)) (by linarith)
  have e4 : rnd (start + 2 ^ i - start) = 2 ^ i := by
    rw [show start + 2 ^ i - start = (2 : ℚ) ^ i by ring]
    exact near_rnd hr hf.lo_j hf.j_hi (near_pow hf.j_i) (by linarith)
  by_cases h1 : n = 1
  · rw [if_pos h1, h1, e3, Nat.cast_one, one_mul]
  rw [if_neg h1, e3, e4]
  have e5 : rnd ((n : ℚ) * 2 ^ i) = (n : ℚ) * 2 ^ i := by
    refine near_rnd (B := B + B) hr hf.lo_j hf.j_hi ?_ (by linarith)
    have := hz.sub hs
    rwa [show start + (n : ℚ) * 2 ^ i - start = (n : ℚ) * 2 ^ i by ring] at this
  rw [e5]
  exact near_rnd hr hf.lo_j hf.j_hi hz (by linarith)

theorem appendEdgeF_eq (hr : Rounds p lo hi rnd) (hf : Fits p lo hi j i) {a : List ℚ} (ha : ∀ z ∈ a, Near (2 ^ j) B z) (hB : B + 2 ^ i ≤ 2 ^ p * 2 ^ j) :
    appendEdgeF rnd a (2 ^ i) = appendEdge a (2 ^ i) := by
  unfold appendEdgeF appendEdge
  cases h : a.getLast? with
  | none => rfl
  | some z =>
    simp only [Option.map_some]
    rw [near_rnd hr hf.lo_j hf.j_hi ((ha z (List.mem_of_getLast? h)).add (near_pow hf.j_i)) hB]

/-! ### the extents -/

theorem floor_near (hj : j ≤ i) (hb : |x| ≤ B) : Near (2 ^ j) (B + 2 ^ i) ((⌊x / 2 ^ i⌋ : ℚ) * 2 ^ i) := by
  have hi0 := two_pow_pos i
  have h1 : (⌊x / 2 ^ i⌋ : ℚ) * 2 ^ i ≤ x := (le_div_iff₀ hi0).1 (Int.floor_le _)
  have h2 : x < ((⌊x / 2 ^ i⌋ : ℚ) + 1) * 2 ^ i := (div_lt_iff₀ hi0).1 (Int.lt_floor_add_one _)
  have h3 := abs_le.1 hb
  refine near_step hj _ (abs_le.2 ⟨?_, ?_⟩)
  · linarith [h3.1]
  · linarith [h3.2]

theorem ceil_near (hj : j ≤ i) (hb : |x| ≤ B) : Near (2 ^ j) (B + 2 ^ i) ((⌈x / 2 ^ i⌉ : ℚ) * 2 ^ i) := by
  have hi0 := two_pow_pos i
  have h1 : x ≤ (⌈x / 2 ^ i⌉ : ℚ) * 2 ^ i := (div_le_iff₀ hi0).1 (Int.le_ceil _)
  have h2 : ((⌈x / 2 ^ i⌉ : ℚ) - 1) * 2 ^ i < x := (lt_div_iff₀ hi0).1 (by have := Int.ceil_lt_add_one (x / 2 ^ i); linarith)
  have h3 := abs_le.1 hb
  refine near_step hj _ (abs_le.2 ⟨?_, ?_⟩)
  · linarith [h3.1]
  · linarith [h3.2]

namespace Grid

theorem adjust_near (hj : j ≤ i) {l h : ℚ} (hl : |l| ≤ B) (hh : |h| ≤ B) :
    Near (2 ^ j) (B + 2 ^ i + 2 ^ i) (adjust l h 0 (2 ^ i)).1 ∧ Near (2 ^ j) (B + 2 ^ i + 2 ^ i) (adjust l h 0 (2 ^ i)).2 := by
  have hi0 := two_pow_pos i
  unfold adjust
  simp only [sub_zero]
  refine ⟨(floor_near hj hl).mono (by linarith), ?_⟩
  split
  · exact (ceil_near hj hh).add (near_pow hj)
  · exact (ceil_near hj hh).mono (by linarith)

theorem adjustF_eq (hr : Rounds p lo hi rnd) (hf : Fits p lo hi j i) {l h : ℚ} (hl : Coord p lo hi i B l) (hh : Coord p lo hi i B h) (hB : B + 2 ^ i + 2 ^ i ≤ 2 ^ p * 2 ^ j) :
    adjustF rnd l h 0 (2 ^ i) = adjust l h 0 (2 ^ i) := by
  have hi0 := two_pow_pos i
  unfold adjustF adjust
  simp only [sub_zero]
  rw [hr l hl.1, hr _ hl.2.1, hr h hh.1, hr _ hh.2.1, near_rnd hr hf.lo_j hf.j_hi (floor_near hf.j_i hl.2.2) (by linarith),
    near_rnd hr hf.lo_j hf.j_hi (ceil_near hf.j_i hh.2.2) (by linarith), near_rnd hr hf.lo_j hf.j_hi ((ceil_near hf.j_i hh.2.2).add (near_pow hf.j_i)) hB]

/-! ### building the grid -/

variable {τ : Type}

/-- the corners are multiples of the unit -/
def ExtNear (r B : ℚ) (e : Extents) : Prop := Near r B e.minX ∧ Near r B e.maxX ∧ Near r B e.minY ∧ Near r B e.maxY

theorem buildGridF_eq (hr : Rounds p lo hi rnd) (hf : Fits p lo hi j i) {g : Grid τ} (hsize : g.tileSize = 2 ^ i) {e : Extents} (hadj : g.adjustExtentsF rnd e = g.adjustExtents e)
    (hn : ExtNear (2 ^ j) B (g.adjustExtents e)) (hB : B + B + 2 ^ i ≤ 2 ^ p * 2 ^ j) : g.buildGridF rnd e = g.buildGrid e := by
  have hB0 : 0 ≤ B := le_trans (abs_nonneg _) hn.1.2
  have hi0 := two_pow_pos i
  unfold buildGridF buildGrid
  simp only
  rw [hadj, hsize]
  generalize g.adjustExtents e = e' at *
  obtain ⟨n1, n2, n3, n4⟩ := hn
  rw [arangeF_eq hr hf n1 n2 hB, arangeF_eq hr hf n3 n4 hB, near_rnd hr hf.lo_j hf.j_hi (n2.sub n1) (by linarith), near_rnd hr hf.lo_j hf.j_hi (n4.sub n3) (by linarith)]
  have a1 := appendEdgeF_eq hr hf (a := arange e'.minX e'.maxX (2 ^ i)) (fun z hz => near_arange hf.j_i n1 n2 hz) (by linarith)
  have a2 := appendEdgeF_eq hr hf (a := arange e'.minY e'.maxY (2 ^ i)) (fun z hz => near_arange hf.j_i n3 n4 hz) (by linarith)
  simp only [a1, a2]
  rfl

/-- the origins of the tiles -/
def Origins (P : ℚ → Prop) (g : Grid τ) : Prop := (∀ x ∈ g.txs, P x) ∧ ∀ y ∈ g.tys, P y

theorem buildGrid_origins (hf : j ≤ i) {g : Grid τ} (hsize : g.tileSize = 2 ^ i) {e : Extents} (hn : ExtNear (2 ^ j) B (g.adjustExtents e)) (hok : (g.buildGrid e).err = none) :
    Origins (Near (2 ^ j) B) (g.buildGrid e).st ∧ (g.buildGrid e).st.tiles = g.tiles ∧ (g.buildGrid e).st.tileSize = g.tileSize ∧ (g.buildGrid e).st.subtileSize = g.subtileSize ∧
      (g.buildGrid e).st.canGrow = g.canGrow ∧ (g.buildGrid e).st.extents = some (g.adjustExtents e) := by
  unfold buildGrid at hok ⊢
  simp only at hok ⊢
  generalize g.adjustExtents e = e' at *
  obtain ⟨n1, n2, n3, n4⟩ := hn
  rw [hsize] at hok ⊢
  have ho : (∀ x ∈ arange e'.minX e'.maxX (2 ^ i), Near (2 ^ j) B x) ∧ ∀ y ∈ arange e'.minY e'.maxY (2 ^ i), Near (2 ^ j) B y :=
    ⟨fun x hx => near_arange hf n1 n2 hx, fun y hy => near_arange hf n3 n4 hy⟩
  split at hok
  · rename_i hc
    rw [if_pos hc]
    cases hm : existingMask g.txs g.tys (arange e'.minX e'.maxX (2 ^ i)) (arange e'.minY e'.maxY (2 ^ i)) with
    | none =>
      rw [hm] at hok
      cases hok
    | some m =>
      rw [hm] at hok
      simp only at hok ⊢
      cases hx : appendEdge (arange e'.minX e'.maxX (2 ^ i)) (2 ^ i) with
      | none =>
        rw [hx] at hok
        cases hok
      | some ex =>
        cases hy : appendEdge (arange e'.minY e'.maxY (2 ^ i)) (2 ^ i) with
        | none =>
          rw [hx, hy] at hok
          cases hok
        | some ey => exact ⟨ho, rfl, rfl, rfl, rfl, rfl⟩
  · rename_i hc
    rw [if_neg hc]
    cases hx : appendEdge (arange e'.minX e'.maxX (2 ^ i)) (2 ^ i) with
    | none =>
      rw [hx] at hok
      cases hok
    | some ex =>
      cases hy : appendEdge (arange e'.minY e'.maxY (2 ^ i)) (2 ^ i) with
      | none =>
        rw [hx, hy] at hok
        cases hok
      | some ey => exact ⟨ho, rfl, rfl, rfl, rfl, rfl⟩

end Grid

/-- the tiles of a grid do the same with and without rounding, if their origins are in `Or`; `Ok` holds for such tiles -/
structure FloatChild (τ : Type) [TileLike τ] [TileLikeF τ] (rnd : ℚ → ℚ) (size sub : ℚ) (Or : ℚ → Prop) (Ok : τ → Prop) : Prop where
  build : ∀ bs x y, Or x → Or y → TileLikeF.build rnd size sub bs x y = (TileLike.build size sub bs x y : Except Err τ)
  buildOk : ∀ bs x y t, Or x → Or y → (TileLike.build size sub bs x y : Except Err τ) = .ok t → Ok t
  add : ∀ t d c, Ok t → TileLikeF.addPoints rnd t d c = TileLike.addPoints t d c
  addOk : ∀ t d c, Ok t → (TileLike.addPoints t d c).err = none → Ok (TileLike.addPoints t d c).st

namespace Grid
variable {τ : Type} [TileLike τ] [TileLikeF τ] {size sub : ℚ} {Or : ℚ → Prop} {Ok : τ → Prop}

/-- the origins and tiles of a grid are of this kind -/
structure Calm (size sub : ℚ) (Or : ℚ → Prop) (Ok : τ → Prop) (g : Grid τ) : Prop where
  size : g.tileSize = size
  sub : g.subtileSize = sub
  origins : Origins Or g
  tiles : ∀ T, g.tiles = some T → ∀ t, some t ∈ T.flat → Ok t

omit [TileLike τ] [TileLikeF τ] in
theorem Calm.tile {g : Grid τ} (h : Calm size sub Or Ok g) {k : Nat} {t : τ} (ht : g.tile? k = some (some t)) : Ok t := by
  unfold tile? at ht
  cases hT : g.tiles with
  | none =>
    rw [hT] at ht
    cases ht
  | some T =>
    rw [hT] at ht
    exact h.tiles T hT t (List.mem_of_getElem? ht)

omit [TileLike τ] [TileLikeF τ] in
theorem Calm.origin {g : Grid τ} (h : Calm size sub Or Ok g) {k : Nat} {x y : ℚ} (ho : g.tileOrigin k = some (x, y)) : Or x ∧ Or y := by
  unfold tileOrigin at ho
  cases hx : g.txs[k % g.txs.length]? with
  | none =>
    rw [hx] at ho
    cases ho
  | some x' =>
    cases hy : g.tys[k / g.txs.length]? with
    | none =>
      rw [hx, hy] at ho
      cases ho
    | some y' =>
      rw [hx, hy] at ho
      simp only [Option.some.injEq, Prod.mk.injEq] at ho
      exact ⟨ho.1 ▸ h.origins.1 x' (List.mem_of_getElem? hx), ho.2 ▸ h.origins.2 y' (List.mem_of_getElem? hy)⟩

omit [TileLike τ] [TileLikeF τ] in
theorem Calm.set {g : Grid τ} (h : Calm size sub Or Ok g) (k : Nat) {o : Option τ} (ho : ∀ t, o = some t → Ok t) : Calm size sub Or Ok (g.setTile k o) := by
  unfold setTile
  cases hT : g.tiles with
  | none => exact h
  | some T =>
    refine ⟨h.size, h.sub, h.origins, fun T' hT' t ht => ?_⟩
    simp only [Option.some.injEq] at hT'
    rw [← hT'] at ht
    unfold Arr2.setFlat at ht
    rcases List.mem_or_eq_of_mem_set ht with h1 | h1
    · exact h.tiles T hT t h1
    · exact ho t h1.symm

theorem addToTileF_eq (hc : FloatChild τ rnd size sub Or Ok) {g : Grid τ} (h : Calm size sub Or Ok g) (fields : Fields) (pts : List Pt) (bins : List Nat) (c : String) (k : Nat) :
    addToTileF rnd fields pts bins c g k = addToTile fields pts bins c g k := by
  unfold addToTileF addToTile
  simp only
  cases ht : g.tile? k with
  | none => rfl
  | some o =>
    cases o with
    | some t =>
      simp only
      rw [hc.add t _ c (h.tile ht)]
      rfl
    | none =>
      simp only
      cases ho : g.tileOrigin k with
      | none => rfl
      | some q =>
        obtain ⟨x, y⟩ := q
        obtain ⟨h1, h2⟩ := h.origin ho
        simp only
        rw [h.size, h.sub, hc.build _ x y h1 h2]
        cases hb : (TileLike.build size sub g.isBackscatter x y : Except Err τ) with
        | error e => rfl
        | ok t =>
          simp only
          rw [hc.add t _ c (hc.buildOk _ x y t h1 h2 hb)]
          rfl

theorem addToTile_calm (hc : FloatChild τ rnd size sub Or Ok) {g : Grid τ} (h : Calm size sub Or Ok g) (fields : Fields) (pts : List Pt) (bins : List Nat) (c : String) (k : Nat)
    (hok : (addToTile fields pts bins c g k).err = none) : Calm size sub Or Ok (addToTile fields pts bins c g k).st := by
  have fin : ∀ t, Ok t → ∀ d, Calm size sub Or Ok (match (TileLike.addPoints t d c).err with
      | some e => Res.fail (g.setTile k (some (TileLike.addPoints t d c).st)) e
      | none => Res.ok (g.setTile k (if TileLike.isEmpty (TileLike.addPoints t d c).st then none else some (TileLike.addPoints t d c).st))).st ∨
      (match (TileLike.addPoints t d c).err with
      | some e => Res.fail (g.setTile k (some (TileLike.addPoints t d c).st)) e
      | none => Res.ok (g.setTile k (if TileLike.isEmpty (TileLike.addPoints t d c).st then none else some (TileLike.addPoints t d c).st))).err ≠ none := by
    intro t ht d
    cases he : (TileLike.addPoints t d c).err with
    | some e => exact .inr (fun h => by cases h)
    | none =>
      refine .inl (h.set k (fun u hu => ?_))
      split at hu
      · cases hu
      · exact Option.some.inj hu ▸ hc.addOk t d c ht he
  unfold addToTile at hok ⊢
  simp only at hok ⊢
  cases ht : g.tile? k with
  | none =>
    rw [ht] at hok
    cases hok
  | some o =>
    rw [ht] at hok
    cases o with
    | some t => exact (fin t (h.tile ht) _).resolve_right (fun hn => hn hok)
    | none =>
      simp only at hok ⊢
      cases ho : g.tileOrigin k with
      | none =>
        rw [ho] at hok
        cases hok
      | some q =>
        obtain ⟨x, y⟩ := q
        rw [ho] at hok
        obtain ⟨h1, h2⟩ := h.origin ho
        simp only at hok ⊢
        rw [h.size, h.sub] at hok ⊢
        cases hb : (TileLike.build size sub g.isBackscatter x y : Except Err τ) with
        | error e =>
          rw [hb] at hok
          cases hok
        | ok t =>
          rw [hb] at hok
          exact (fin t (hc.buildOk _ x y t h1 h2 hb) _).resolve_right (fun hn => hn hok)

theorem andThen_of_err {σ : Type} {r : Res σ} {e : Err} (h : r.err = some e) (f : σ → Res σ) : r.andThen f = r := by
  obtain ⟨st, er⟩ := r
  cases h
  rfl

theorem forEach_inv {σ α : Type} (I : σ → Prop) {f g : σ → α → Res σ} (he : ∀ s x, I s → f s x = g s x) (hi : ∀ s x, I s → (g s x).err = none → I (g s x).st) (xs : List α) {s : σ}
    (hs : I s) : Res.forEach xs s f = Res.forEach xs s g ∧ ((Res.forEach xs s g).err = none → I (Res.forEach xs s g).st) := by
  induction xs generalizing s with
  | nil => exact ⟨rfl, fun _ => hs⟩
  | cons x xs ih =>
    rw [Res.forEach_cons, Res.forEach_cons, he s x hs]
    cases h : (g s x).err with
    | some e =>
      rw [andThen_of_err h, andThen_of_err h]
      exact ⟨rfl, fun hn => by rw [h] at hn; cases hn⟩
    | none =>
      rw [Res.andThen_of_err_none h, Res.andThen_of_err_none h]
      exact ih (hi s x hs h)

theorem addToTilesF_eq (hc : FloatChild τ rnd size sub Or Ok) {g : Grid τ} (h : Calm size sub Or Ok g) (d : PtArr) (c : String) :
    addToTilesF rnd g d c = addToTiles g d c ∧ ((addToTiles g d c).err = none → Calm size sub Or Ok (addToTiles g d c).st) := by
  unfold addToTilesF addToTiles
  cases hb : bin2d [d.pts.map Pt.x] [d.pts.map Pt.y] g.edgesX g.edgesY with
  | error e => exact ⟨rfl, fun hn => by cases hn⟩
  | ok bins =>
    simp only
    obtain ⟨e1, e2⟩ := forEach_inv (Calm size sub Or Ok) (fun s x hs => addToTileF_eq hc hs d.fields d.pts bins c x) (fun s x hs => addToTile_calm hc hs d.fields d.pts bins c x) (npUnique bins) h
    rw [e1]
    refine ⟨rfl, fun hn => ?_⟩
    obtain ⟨n1, n2⟩ := Res.andThen_err_none hn
    rw [Res.andThen_of_err_none n1]
    have := e2 n1
    exact ⟨this.size, this.sub, this.origins, this.tiles⟩

omit [TileLikeF τ] in
theorem addToTiles_canGrow (g : Grid τ) (d : PtArr) (c : String) : (addToTiles g d c).st.canGrow = g.canGrow := by
  have h1 : ∀ (g : Grid τ) k o, (g.setTile k o).canGrow = g.canGrow := by
    intro g k o
    unfold setTile
    split <;> rfl
  have h2 : ∀ (fields : Fields) (pts : List Pt) (bins : List Nat) (g : Grid τ) (k : Nat), (addToTile fields pts bins c g k).st.canGrow = g.canGrow := by
    intro fields pts bins g k
    unfold addToTile
    simp only
    split
    · rfl
    · split
      · exact h1 _ _ _
      · exact h1 _ _ _
  have h3 : ∀ (fields : Fields) (pts : List Pt) (bins l : List Nat) (g : Grid τ), (Res.forEach l g (addToTile fields pts bins c)).st.canGrow = g.canGrow := by
    intro fields pts bins l
    induction l with
    | nil => exact fun g => rfl
    | cons k l ih =>
      intro g
      rw [Res.forEach_cons]
      unfold Res.andThen
      split
      · exact (ih _).trans (h2 fields pts bins g k)
      · exact h2 fields pts bins g k
  unfold addToTiles
  split
  · rfl
  · rename_i bins _
    have := h3 d.fields d.pts bins (npUnique bins) g
    generalize Res.forEach (npUnique bins) g (addToTile d.fields d.pts bins c) = R at this ⊢
    unfold Res.andThen
    split <;> exact this

omit [TileLike τ] [TileLikeF τ] in
theorem placeTiles_calm {g : Grid τ} (h : Calm size sub Or Ok g) (hok : (placeTiles g).err = none) : Calm size sub Or Ok (placeTiles g).st ∧ (placeTiles g).st.canGrow = g.canGrow ∧
    (placeTiles g).st.extents = g.extents := by
  unfold placeTiles at hok ⊢
  simp only at hok ⊢
  split at hok
  · rename_i he
    rw [if_pos he]
    refine ⟨⟨h.size, h.sub, h.origins, fun T hT t ht => ?_⟩, rfl, rfl⟩
    cases hT
    have := List.eq_of_mem_replicate ht
    cases this
  · rename_i he
    rw [if_neg he]
    split at hok
    · rename_i hg
      rw [if_pos hg]
      cases hT : g.tiles with
      | none =>
        rw [hT] at hok
        cases hok
      | some T =>
        cases hm : g.mask with
        | none =>
          rw [hT, hm] at hok
          cases hok
        | some m =>
          rw [hT, hm] at hok
          simp only at hok ⊢
          cases hl : assignMask (Arr2.fill g.tys.length g.txs.length (none : Option τ)).flat m.flat T.flat with
          | none =>
            rw [hl] at hok
            cases hok
          | some l =>
            refine ⟨⟨h.size, h.sub, h.origins, fun T' hT' t ht => ?_⟩, rfl, rfl⟩
            cases hT'
            rcases assignMask_mem hl _ ht with h1 | h1
            · have := List.eq_of_mem_replicate h1
              cases this
            · exact h.tiles T hT t h1
    · rename_i hg
      rw [if_neg hg]
      exact ⟨h, rfl, rfl⟩

/-- a grid whose extents are given, such as a subgrid -/
structure FixedOk (r B size sub : ℚ) (Or : ℚ → Prop) (Ok : τ → Prop) (g : Grid τ) : Prop where
  canGrow : g.canGrow = false
  calm : Calm size sub Or Ok g
  extents : ∃ e, g.extents = some e ∧ ExtNear r B e

/-- the tail of `add_points`, once the grid is built -/
theorem addRest (hc : FloatChild τ rnd size sub Or Ok) {g : Grid τ} (h : Calm size sub Or Ok g) (d : PtArr) (c : String) :
    ((placeTiles g).andThen (fun g => (addToTilesF rnd g d c).andThen (fun g => .ok { g with meanDepth := meanDepthOf d.pts }))) =
      ((placeTiles g).andThen (fun g => (addToTiles g d c).andThen (fun g => .ok { g with meanDepth := meanDepthOf d.pts }))) := by
  cases hp : (placeTiles g).err with
  | some e =>
    rw [andThen_of_err hp, andThen_of_err hp]
  | none =>
    rw [Res.andThen_of_err_none hp, Res.andThen_of_err_none hp, (addToTilesF_eq hc (placeTiles_calm h hp).1 d c).1]

omit [TileLike τ] [TileLikeF τ] in
theorem updateBaseF_fixed (hr : Rounds p lo hi rnd) (hf : Fits p lo hi j i) {g : Grid τ} (h : FixedOk (2 ^ j) B (2 ^ i) sub Or Ok g) (hO : ∀ x, Near (2 ^ j) B x → Or x)
    (hB : B + B + 2 ^ i ≤ 2 ^ p * 2 ^ j) (pts : List Pt) :
    updateBaseF rnd g pts = updateBase g pts ∧ ((updateBase g pts).err = none → FixedOk (2 ^ j) B (2 ^ i) sub Or Ok (updateBase g pts).st) := by
  obtain ⟨e, he, hn⟩ := h.extents
  unfold updateBaseF updateBase
  simp only [h.canGrow, Bool.false_eq_true, if_false, he]
  have a1 : g.adjustExtents e = e := by
    unfold adjustExtents
    rw [h.canGrow]
    rfl
  have a2 : g.adjustExtentsF rnd e = e := by
    unfold adjustExtentsF
    rw [h.canGrow]
    rfl
  cases hemp : g.isEmpty with
  | false => exact ⟨rfl, fun _ => h⟩
  | true =>
    simp only [if_true]
    rw [buildGridF_eq hr hf h.calm.size (a2.trans a1.symm) (by rw [a1]; exact hn) hB]
    refine ⟨rfl, fun hok => ?_⟩
    obtain ⟨b1, b2, b3, b4, b5, b6⟩ := buildGrid_origins hf.j_i h.calm.size (e := e) (B := B) (by rw [a1]; exact hn) hok
    refine ⟨by rw [b5]; exact h.canGrow, ⟨by rw [b3]; exact h.calm.size, by rw [b4]; exact h.calm.sub, ⟨fun x hx => hO x (b1.1 x hx), fun y hy => hO y (b1.2 y hy)⟩, ?_⟩, e, ?_, hn⟩
    · rw [b2]
      exact h.calm.tiles
    · rw [b6, a1]

theorem addPointsF_fixed (hr : Rounds p lo hi rnd) (hf : Fits p lo hi j i) (hc : FloatChild τ rnd (2 ^ i) sub Or Ok) {g : Grid τ} (h : FixedOk (2 ^ j) B (2 ^ i) sub Or Ok g)
    (hO : ∀ x, Near (2 ^ j) B x → Or x) (hB : B + B + 2 ^ i ≤ 2 ^ p * 2 ^ j) (d : PtArr) (c : String) (a : AddArgs) :
    addPointsF rnd g d c a = addPoints g d c a ∧ ((addPoints g d c a).err = none → FixedOk (2 ^ j) B (2 ^ i) sub Or Ok (addPoints g d c a).st) := by
  unfold addPointsF addPoints
  split
  · exact ⟨rfl, fun hn => by cases hn⟩
  simp only
  cases hu : (g.info.update c a).err with
  | some e => exact ⟨rfl, fun hn => by cases hn⟩
  | none =>
    simp only
    have h' : FixedOk (2 ^ j) B (2 ^ i) sub Or Ok { g with info := (g.info.update c a).st } := ⟨h.canGrow, ⟨h.calm.size, h.calm.sub, h.calm.origins, h.calm.tiles⟩, h.extents⟩
    obtain ⟨e1, e2⟩ := updateBaseF_fixed hr hf h' hO hB d.pts
    rw [e1]
    generalize updateBase { g with info := (g.info.update c a).st } d.pts = r at e2
    cases hr' : r.err with
    | some e =>
      rw [andThen_of_err hr', andThen_of_err hr']
      exact ⟨rfl, fun hn => by rw [hr'] at hn; cases hn⟩
    | none =>
      have hk := e2 hr'
      rw [Res.andThen_of_err_none hr', Res.andThen_of_err_none hr', addRest hc hk.calm d c]
      refine ⟨rfl, fun hn => ?_⟩
      obtain ⟨n1, n2⟩ := Res.andThen_err_none hn
      obtain ⟨p1, p2, p3⟩ := placeTiles_calm hk.calm n1
      rw [Res.andThen_of_err_none n1] at hn ⊢
      obtain ⟨m1, m2⟩ := Res.andThen_err_none hn
      rw [Res.andThen_of_err_none m1]
      have q := (addToTilesF_eq hc p1 d c).2 m1
      obtain ⟨e, he, hn'⟩ := hk.extents
      exact ⟨(addToTiles_canGrow _ d c).trans (p2.trans hk.canGrow), ⟨q.size, q.sub, q.origins, q.tiles⟩, e, (addToTiles_extents d c _).trans (p3.trans he), hn'⟩

/-! ### a grid that grows -/

theorem mem_listMin {xs : List ℚ} {z : ℚ} (h : listMin xs = some z) : z ∈ xs := by
  obtain ⟨m, h1, h2, -⟩ := listMin_spec (l := xs) (by rintro rfl; cases h)
  rw [h1] at h
  cases h
  exact h2

theorem mem_listMax {xs : List ℚ} {z : ℚ} (h : listMax xs = some z) : z ∈ xs := by
  obtain ⟨m, h1, h2, -⟩ := listMax_spec (l := xs) (by rintro rfl; cases h)
  rw [h1] at h
  cases h
  exact h2

omit [TileLike τ] [TileLikeF τ] in
theorem updateBaseF_grow (hr : Rounds p lo hi rnd) (hf : Fits p lo hi j i) {g : Grid τ} (hg : g.canGrow = true) (hx : g.originX = 0) (hy : g.originY = 0) (hsize : g.tileSize = 2 ^ i)
    {pts : List Pt} (hpts : ∀ q ∈ pts, Coord p lo hi i B q.x ∧ Coord p lo hi i B q.y)
    (hext : g.isEmpty = false → ∀ e, g.extents = some e → Coord p lo hi i B e.minX ∧ Coord p lo hi i B e.maxX ∧ Coord p lo hi i B e.minY ∧ Coord p lo hi i B e.maxY)
    (hB : 2 * B + 5 * 2 ^ i ≤ 2 ^ p * 2 ^ j) :
    updateBaseF rnd g pts = updateBase g pts ∧ ((updateBase g pts).err = none → Origins (Near (2 ^ j) (B + 2 ^ i + 2 ^ i)) (updateBase g pts).st ∧
      (updateBase g pts).st.tiles = g.tiles ∧ (updateBase g pts).st.tileSize = g.tileSize ∧ (updateBase g pts).st.subtileSize = g.subtileSize ∧
      ∃ e, (updateBase g pts).st.extents = some e ∧ ExtNear (2 ^ j) (B + 2 ^ i + 2 ^ i) e) := by
  have hi0 := two_pow_pos i
  have key : ∀ e : Extents, Coord p lo hi i B e.minX → Coord p lo hi i B e.maxX → Coord p lo hi i B e.minY → Coord p lo hi i B e.maxY →
      g.buildGridF rnd e = g.buildGrid e ∧ ((g.buildGrid e).err = none → Origins (Near (2 ^ j) (B + 2 ^ i + 2 ^ i)) (g.buildGrid e).st ∧
        (g.buildGrid e).st.tiles = g.tiles ∧ (g.buildGrid e).st.tileSize = g.tileSize ∧ (g.buildGrid e).st.subtileSize = g.subtileSize ∧
        ∃ e', (g.buildGrid e).st.extents = some e' ∧ ExtNear (2 ^ j) (B + 2 ^ i + 2 ^ i) e') := by
    intro e h1 h2 h3 h4
    have hB0 : 0 ≤ B := le_trans (abs_nonneg _) h1.2.2
    have n1 := adjust_near (j := j) hf.j_i h1.2.2 h2.2.2
    have n2 := adjust_near (j := j) hf.j_i h3.2.2 h4.2.2
    have a1 : g.adjustExtentsF rnd e = g.adjustExtents e := by
      unfold adjustExtentsF adjustExtents
      rw [hg, hx, hy, hsize]
      simp only [if_true]
      rw [adjustF_eq hr hf h1 h2 (by linarith), adjustF_eq hr hf h3 h4 (by linarith)]
    have a2 : ExtNear (2 ^ j) (B + 2 ^ i + 2 ^ i) (g.adjustExtents e) := by
      unfold adjustExtents
      rw [hg, hx, hy, hsize]
      exact ⟨n1.1, n1.2, n2.1, n2.2⟩
    refine ⟨buildGridF_eq hr hf hsize a1 a2 (by linarith), fun hok => ?_⟩
    obtain ⟨b1, b2, b3, b4, -, b6⟩ := buildGrid_origins hf.j_i hsize a2 hok
    exact ⟨b1, b2, b3, b4, _, b6, a2⟩
  have px : ∀ z ∈ pts.map Pt.x, Coord p lo hi i B z := by
    intro z hz
    obtain ⟨q, hq, rfl⟩ := List.mem_map.1 hz
    exact (hpts q hq).1
  have py : ∀ z ∈ pts.map Pt.y, Coord p lo hi i B z := by
    intro z hz
    obtain ⟨q, hq, rfl⟩ := List.mem_map.1 hz
    exact (hpts q hq).2
  unfold updateBaseF updateBase
  cases hx0 : listMin (pts.map Pt.x) with
  | none =>
    simp only [hg, if_true]
    cases hemp : g.isEmpty <;> cases he : g.extents <;> exact ⟨rfl, fun hn => by cases hn⟩
  | some x0 =>
  cases hx1 : listMax (pts.map Pt.x) with
  | none =>
    simp only [hg, if_true]
    cases hemp : g.isEmpty <;> cases he : g.extents <;> exact ⟨rfl, fun hn => by cases hn⟩
  | some x1 =>
  cases hy0 : listMin (pts.map Pt.y) with
  | none =>
    simp only [hg, if_true]
    cases hemp : g.isEmpty <;> cases he : g.extents <;> exact ⟨rfl, fun hn => by cases hn⟩
  | some y0 =>
  cases hy1 : listMax (pts.map Pt.y) with
  | none =>
    simp only [hg, if_true]
    cases hemp : g.isEmpty <;> cases he : g.extents <;> exact ⟨rfl, fun hn => by cases hn⟩
  | some y1 =>
    have c1 := px _ (mem_listMin hx0)
    have c2 := px _ (mem_listMax hx1)
    have c3 := py _ (mem_listMin hy0)
    have c4 := py _ (mem_listMax hy1)
    simp only [hg, if_true]
    cases hemp : g.isEmpty with
    | true => exact key ⟨x0, x1, y0, y1⟩ c1 c2 c3 c4
    | false =>
      cases he : g.extents with
      | none => exact ⟨rfl, fun hn => by cases hn⟩
      | some e =>
        obtain ⟨d1, d2, d3, d4⟩ := hext hemp e he
        have hmin : ∀ a b, Coord p lo hi i B a → Coord p lo hi i B b → Coord p lo hi i B (min a b) := by
          intro a b ha hb
          rcases min_choice a b with h | h <;> rw [h] <;> assumption
        have hmax : ∀ a b, Coord p lo hi i B a → Coord p lo hi i B b → Coord p lo hi i B (max a b) := by
          intro a b ha hb
          rcases max_choice a b with h | h <;> rw [h] <;> assumption
        exact key ⟨min x0 e.minX, max x1 e.maxX, min y0 e.minY, max y1 e.maxY⟩ (hmin _ _ c1 d1) (hmax _ _ c2 d2) (hmin _ _ c3 d3) (hmax _ _ c4 d4)

theorem addPointsF_grow (hr : Rounds p lo hi rnd) (hf : Fits p lo hi j i) {g : Grid τ} (hg : g.canGrow = true) (hx : g.originX = 0) (hy : g.originY = 0) (hsize : g.tileSize = 2 ^ i)
    (hsub : g.subtileSize = sub) (hc : FloatChild τ rnd (2 ^ i) sub (Near (2 ^ j) (B + 2 ^ i + 2 ^ i)) Ok) (ht : ∀ T, g.tiles = some T → ∀ t, some t ∈ T.flat → Ok t) {d : PtArr}
    (hpts : ∀ q ∈ d.pts, Coord p lo hi i B q.x ∧ Coord p lo hi i B q.y)
    (hext : g.isEmpty = false → ∀ e, g.extents = some e → Coord p lo hi i B e.minX ∧ Coord p lo hi i B e.maxX ∧ Coord p lo hi i B e.minY ∧ Coord p lo hi i B e.maxY)
    (hB : 2 * B + 5 * 2 ^ i ≤ 2 ^ p * 2 ^ j) (c : String) (a : AddArgs) :
    addPointsF rnd g d c a = addPoints g d c a ∧ ((addPoints g d c a).err = none → ∃ e, (addPoints g d c a).st.extents = some e ∧ ExtNear (2 ^ j) (B + 2 ^ i + 2 ^ i) e) := by
  unfold addPointsF addPoints
  split
  · exact ⟨rfl, fun hn => by cases hn⟩
  simp only
  cases hu : (g.info.update c a).err with
  | some e => exact ⟨rfl, fun hn => by cases hn⟩
  | none =>
    simp only
    obtain ⟨e1, e2⟩ := updateBaseF_grow (g := { g with info := (g.info.update c a).st }) hr hf hg hx hy hsize hpts hext hB
    rw [e1]
    generalize updateBase { g with info := (g.info.update c a).st } d.pts = r at e2
    cases hr' : r.err with
    | some e =>
      rw [andThen_of_err hr', andThen_of_err hr']
      exact ⟨rfl, fun hn => by rw [hr'] at hn; cases hn⟩
    | none =>
      obtain ⟨k1, k2, k3, k4, e, k5, k6⟩ := e2 hr'
      rw [Res.andThen_of_err_none hr', Res.andThen_of_err_none hr']
      refine ⟨addRest hc ⟨k3.trans hsize, k4.trans hsub, k1, ?_⟩ d c, fun hn => ?_⟩
      · rw [k2]
        exact ht
      · obtain ⟨n1, n2⟩ := Res.andThen_err_none hn
        rw [Res.andThen_of_err_none n1] at hn ⊢
        obtain ⟨m1, m2⟩ := Res.andThen_err_none hn
        rw [Res.andThen_of_err_none m1]
        exact ⟨e, (addToTiles_extents d c _).trans ((placeTiles_extents _).trans k5), k6⟩

end Grid

/-! ### tiles and subgrids -/

theorem floatTile (hr : Rounds p lo hi rnd) (hf : Fits p lo hi j i) (sub : ℚ) (hB : B + 2 ^ i ≤ 2 ^ p * 2 ^ j) : FloatChild Tile rnd (2 ^ i) sub (Near (2 ^ j) B) (fun _ => True) where
  build bs x y hx hy := by
    show Except.ok (Tile.newF rnd x y (2 ^ i) bs) = Except.ok (Tile.new x y (2 ^ i) bs)
    unfold Tile.newF
    rw [near_rnd hr hf.lo_j hf.j_hi (hx.add (near_pow hf.j_i)) hB, near_rnd hr hf.lo_j hf.j_hi (hy.add (near_pow hf.j_i)) hB]
    rfl
  buildOk _ _ _ _ _ _ _ := trivial
  add _ _ _ _ := rfl
  addOk _ _ _ _ _ := trivial

theorem floatSub (hr : Rounds p lo hi rnd) {k : ℤ} (hf : Fits p lo hi j i) (hk : Fits p lo hi j k) (hB : 2 * (B + 2 ^ i) + 2 ^ k ≤ 2 ^ p * 2 ^ j) :
    FloatChild (Grid Tile) rnd (2 ^ i) (2 ^ k) (Near (2 ^ j) B) (Grid.FixedOk (2 ^ j) (B + 2 ^ i) (2 ^ k) 0 (Near (2 ^ j) (B + 2 ^ i)) (fun _ => True)) := by
  have hi0 := two_pow_pos i
  have add : ∀ g d c, Grid.FixedOk (2 ^ j) (B + 2 ^ i) (2 ^ k) 0 (Near (2 ^ j) (B + 2 ^ i)) (fun _ : Tile => True) g → _ := fun g d c hg =>
    Grid.addPointsF_fixed (a := {}) hr hk (floatTile hr hk 0 (B := B + 2 ^ i) (by
      obtain ⟨e, -, he⟩ := hg.extents
      have := le_trans (abs_nonneg _) he.1.2
      linarith)) hg (fun x hx => hx) (by linarith) d c
  refine ⟨fun bs x y hx hy => ?_, fun bs x y t hx hy ht => ?_, fun g d c hg => (add g d c hg).1, fun g d c hg => (add g d c hg).2⟩
  · show Grid.newSubF rnd x y (2 ^ i) (2 ^ k) = Grid.newSub x y (2 ^ i) (2 ^ k)
    have hB0 := le_trans (abs_nonneg _) hx.2
    have hk0 := two_pow_pos k
    unfold Grid.newSubF Grid.newSub
    rw [near_rnd hr hf.lo_j hf.j_hi (hx.add (near_pow hf.j_i)) (by linarith), near_rnd hr hf.lo_j hf.j_hi (hy.add (near_pow hf.j_i)) (by linarith)]
  · replace ht : Grid.newSub x y (2 ^ i) (2 ^ k) = .ok t := ht
    unfold Grid.newSub at ht
    split at ht
    · cases ht
      exact ⟨rfl, ⟨rfl, rfl, ⟨fun z hz => absurd hz List.not_mem_nil, fun z hz => absurd hz List.not_mem_nil⟩, fun T hT => nomatch hT⟩, _, rfl,
        hx.mono (by linarith), hx.add (near_pow hf.j_i), hy.mono (by linarith), hy.add (near_pow hf.j_i)⟩
    · cases ht

/-! ### the cells of a tile -/

namespace Tile

/-- the corners of a tile are multiples of the unit -/
def CornersNear (r B : ℚ) (t : Tile) : Prop := Near r B t.minX ∧ Near r B t.maxX ∧ Near r B t.minY ∧ Near r B t.maxY

theorem newGridF_eq (hr : Rounds p lo hi rnd) (hf : Fits p lo hi j i) {t : Tile} (ht : t.CornersNear (2 ^ j) B) (hB : B + B + 2 ^ i ≤ 2 ^ p * 2 ^ j) (alg : Alg) :
    t.newGridF rnd (2 ^ i) alg = t.newGrid (2 ^ i) alg := by
  obtain ⟨n1, n2, n3, n4⟩ := ht
  have hB0 : 0 ≤ B := le_trans (abs_nonneg _) n1.2
  unfold newGridF newGrid
  rw [arangeF_eq hr hf n1 n2 hB, arangeF_eq hr hf n3 n4 hB]
  have a1 := appendEdgeF_eq hr hf (a := arange t.minX t.maxX (2 ^ i)) (fun z hz => near_arange hf.j_i n1 n2 hz) (by linarith)
  have a2 := appendEdgeF_eq hr hf (a := arange t.minY t.maxY (2 ^ i)) (fun z hz => near_arange hf.j_i n3 n4 hz) (by linarith)
  simp only [a1, a2]
  rfl

theorem cellCountsF_eq (hr : Rounds p lo hi rnd) (hf : Fits p lo hi j i) {t : Tile} (ht : t.CornersNear (2 ^ j) B) (hB : B + B + 2 ^ i ≤ 2 ^ p * 2 ^ j) (d : PtArr) :
    t.cellCountsF rnd d (2 ^ i) = t.cellCounts d (2 ^ i) := by
  obtain ⟨n1, n2, n3, n4⟩ := ht
  have hB0 : 0 ≤ B := le_trans (abs_nonneg _) n1.2
  unfold cellCountsF cellCounts
  rw [arangeF_eq hr hf n1 n2 hB, arangeF_eq hr hf n3 n4 hB]
  have a1 := appendEdgeF_eq hr hf (a := arange t.minX t.maxX (2 ^ i)) (fun z hz => near_arange hf.j_i n1 n2 hz) (by linarith)
  have a2 := appendEdgeF_eq hr hf (a := arange t.minY t.maxY (2 ^ i)) (fun z hz => near_arange hf.j_i n3 n4 hz) (by linarith)
  simp only [a1, a2]
  rfl

end Tile

namespace Grid

/-! ### the coordinates of the surface -/

theorem getTileData_extents {τ : Type} [LayerLike τ] (env : Env) (g : Grid τ) (row col : Nat) (res : ℚ) (layers : List Layer) (nodata : Option ℚ) (zUp : Bool) :
    (g.getTileData env row col res layers nodata zUp).1.extents = g.extents := by
  unfold getTileData
  simp only
  repeat' split
  all_goals first | rfl | exact setTile_extents _ _ _

theorem getLayersTrimmed_extents {τ : Type} [LayerLike τ] (env : Env) (g : Grid τ) (layers : List Layer) (res : Option ℚ) (nodata : Option ℚ) (zUp : Bool) :
    (g.getLayersTrimmed env layers res nodata zUp).1.extents = g.extents := by
  have h1 : ∀ (r : ℚ) (s : MosaicState τ) (k : Nat), (mosaicStep env r layers nodata zUp s k).st.grid.extents = s.grid.extents := by
    intro r s k
    unfold mosaicStep
    split
    · have := getTileData_extents env s.grid (k / s.grid.txs.length) (k % s.grid.txs.length) r layers nodata zUp
      split
      · rename_i he
        rw [he] at this
        exact this
      · rename_i he
        rw [he] at this
        split <;> exact this
    · rfl
  have h2 : ∀ (r : ℚ) (l : List Nat) (s : MosaicState τ), (Res.forEach l s (mosaicStep env r layers nodata zUp)).st.grid.extents = s.grid.extents := by
    intro r l
    induction l with
    | nil => exact fun s => rfl
    | cons k l ih =>
      intro s
      rw [Res.forEach_cons]
      unfold Res.andThen
      split
      · exact (ih _).trans (h1 r s k)
      · exact h1 r s k
  have h3 : (g.getLayersByName env layers res nodata zUp).1.extents = g.extents := by
    unfold getLayersByName
    split
    · rfl
    · rfl
    · split
      · rfl
      · split
        · rfl
        · rename_i r _ _ data _
          have := h2 r (List.range g.slots) ⟨g, data, true⟩
          simp only
          split <;> exact this
  unfold getLayersTrimmed
  split
  · rename_i he
    rw [he] at h3
    exact h3
  · rename_i he
    rw [he] at h3
    exact h3

theorem returnSurfF_eq {τ : Type} [LayerLike τ] (hr : Rounds p lo hi rnd) (hf : Fits p lo hi (i - 1) i) {g : Grid τ} (hg : ∀ e, g.extents = some e → ExtNear (2 ^ i) B e)
    (hB : 2 * B + 2 ^ i ≤ 2 ^ p * 2 ^ (i - 1)) (env : Env) (layers : List Layer) (boundaries : Bool) (nodata : Option ℚ) :
    g.returnSurfF rnd env layers (some (2 ^ i)) boundaries nodata = g.returnSurf env layers (some (2 ^ i)) boundaries nodata := by
  have hi0 := two_pow_pos i
  have hhalf : (2 : ℚ) ^ i / 2 = 2 ^ (i - 1) := by rw [zpow_sub_one₀ (by norm_num)]; rfl
  have q : g.queryRes (some (2 ^ i)) = .ok (2 ^ i) := by
    unfold queryRes
    simp only
    rw [if_neg (ne_of_gt hi0)]
  unfold returnSurfF returnSurf
  rw [q]
  have he := getLayersTrimmed_extents env g layers (some (2 ^ i)) nodata false
  cases hn : g.noGrid with
  | error e => rfl
  | ok b =>
    cases b with
    | true => rfl
    | false =>
      simp only
      generalize g.getLayersTrimmed env layers (some (2 ^ i)) nodata false = R at he
      obtain ⟨u, r⟩ := R
      cases r with
      | error e => rfl
      | ok s =>
        simp only at he ⊢
        cases hx : u.extents with
        | none => rfl
        | some e =>
          rw [hx] at he
          have hne := hg e he.symm
          have toHalf : ∀ z, Near (2 ^ i) B z → Near (2 ^ (i - 1)) B z := by
            rintro z ⟨⟨a, ha⟩, hb⟩
            exact ⟨⟨a * 2, by rw [ha, ← hhalf]; push_cast; ring⟩, hb⟩
          obtain ⟨m1, m2, m3, m4⟩ := hne
          have n1 := toHalf _ m1
          have n2 := toHalf _ m2
          have n3 := toHalf _ m3
          have n4 := toHalf _ m4
          have hB0 : 0 ≤ B := le_trans (abs_nonneg _) n1.2
          have hc : ∀ z, Near (2 ^ (i - 1)) B z → rnd (z + rnd (2 ^ i / 2)) = z + 2 ^ i / 2 := by
            intro z hz
            have hh0 := two_pow_pos (i - 1)
            have h5 : (2 : ℚ) ^ (i - 1) ≤ 2 ^ i := by rw [← hhalf]; linarith
            rw [hhalf, near_rnd hr hf.lo_j hf.j_hi (near_pow (le_refl (i - 1))) (by linarith), near_rnd hr hf.lo_j hf.j_hi (hz.add (near_pow (le_refl (i - 1)))) (by linarith)]
          simp only
          rw [arangeF_eq hr hf n1 n2 (by linarith), arangeF_eq hr hf n3 n4 (by linarith)]
          rw [List.map_congr_left (fun z hz => hc z (near_arange hf.j_i n1 n2 hz)), List.map_congr_left (fun z hz => hc z (near_arange hf.j_i n3 n4 hz))]

end Grid
end Bathy
