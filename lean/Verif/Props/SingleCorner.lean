import Verif.Model.SingleCorner
import Verif.Lemmas.FloatNearest
import Verif.Lemmas.Shaped
import Verif.Props.Float
import Verif.Props.Boundaries

/-!
# C109: corners in single precision

The corners of tiles and grids are multiples of the tile size, so that `np.float32` does not change them as long as they are below 2^24 times the tile size.
-/

namespace Bathy
open Grid

variable {p q : Nat} {lo hi lo' hi' i k : ℤ} {rnd sto : ℚ → ℚ} {B size sub res : ℚ} {env : Env} {bs : Bool} {fl : Fields} {F : Family} {s : Bool} {A : Store}

theorem rint_int (m : ℤ) : Arith.rint (m : ℚ) = m := by
  unfold Arith.rint
  simp only [Int.floor_intCast, sub_self]
  rw [if_pos (by norm_num)]

/-- rounding to the nearest number with `p` binary digits leaves the numbers with `p` binary digits alone -/
theorem nearestEven_rounds (hp : 0 < p) : Rounds p lo hi (nearestEven p) := by
  rintro x ⟨m, e, hm, -, -, rfl⟩
  have he0 := two_pow_pos e
  by_cases hm0 : m = 0
  · subst hm0
    unfold nearestEven
    simp [Arith.rint]
  suffices h : ∃ n : ℤ, (m : ℚ) * 2 ^ e / 2 ^ (Int.log 2 |(m : ℚ) * 2 ^ e| - (p : ℤ) + 1) = n by
    obtain ⟨n, hn⟩ := h
    unfold nearestEven
    simp only
    rw [hn, rint_int, ← hn, div_mul_cancel₀ _ (two_pow_pos _).ne']
  have hx : |(m : ℚ) * 2 ^ e| = |(m : ℚ)| * 2 ^ e := by rw [abs_mul, abs_of_pos he0]
  have hx0 : 0 < |(m : ℚ) * 2 ^ e| := by rw [hx]; exact mul_pos (abs_pos.2 (by exact_mod_cast hm0)) he0
  rcases lt_or_eq_of_le hm with h | h
  · have h1 : |(m : ℚ) * 2 ^ e| < 2 ^ ((p : ℤ) + e) := by
      rw [hx, zpow_add₀ (by norm_num), zpow_natCast]
      exact mul_lt_mul_of_pos_right (by exact_mod_cast h) he0
    have h2 : Int.log 2 |(m : ℚ) * 2 ^ e| < (p : ℤ) + e := (Int.lt_zpow_iff_log_lt (by norm_num) hx0).1 (by exact_mod_cast h1)
    obtain ⟨c, hc⟩ := pow_mult (show Int.log 2 |(m : ℚ) * 2 ^ e| - (p : ℤ) + 1 ≤ e by omega)
    refine ⟨m * c, ?_⟩
    have hd := two_pow_pos (Int.log 2 |(m : ℚ) * 2 ^ e| - (p : ℤ) + 1)
    rw [div_eq_iff hd.ne']
    push_cast
    rw [mul_assoc, ← hc]
  · have h1 : |(m : ℚ) * 2 ^ e| = (2 : ℕ) ^ ((p : ℤ) + e) := by
      rw [hx, zpow_add₀ (by norm_num), zpow_natCast]
      congr 1
      exact_mod_cast h
    have h2 : Int.log 2 |(m : ℚ) * 2 ^ e| = (p : ℤ) + e := by rw [h1]; exact Int.log_zpow (by norm_num) _
    rw [h2]
    have h3 : m = 2 ^ p ∨ m = - 2 ^ p := by
      rcases abs_choice m with h' | h' <;> rw [h'] at h
      · exact .inl h
      · exact .inr (by omega)
    have h4 : (2 : ℚ) ^ p * 2 ^ e / 2 ^ ((p : ℤ) + e - p + 1) = 2 ^ (p - 1) := by
      rw [show (p : ℤ) + e - p + 1 = e + 1 by ring, zpow_add₀ (by norm_num), zpow_one, div_eq_iff (mul_pos he0 (by norm_num)).ne']
      obtain ⟨n, rfl⟩ : ∃ n, p = n + 1 := ⟨p - 1, by omega⟩
      rw [Nat.add_sub_cancel, pow_succ]
      ring
    rcases h3 with rfl | rfl
    · exact ⟨2 ^ (p - 1), by push_cast; exact h4⟩
    · refine ⟨-2 ^ (p - 1), ?_⟩
      push_cast
      rw [neg_mul, neg_div, h4]

/-- **C109** (geotransform, single resolution): the corner of every tile, and of the grid, is not changed by `np.float32`: the geotransforms are the exact ones -/
theorem C109_geo_sr (hr : Rounds q lo hi sto) (hlo : lo ≤ i) (hhi : i ≤ hi) (hsz : size = 2 ^ i) {g : Grid Tile} (h : SRHistory env size bs fl F s g A) (hA : A ≠ []) (hg : g.Bounded B)
    (hB : B ≤ 2 ^ q * 2 ^ i) (res : ℚ) : g.geo32 sto res = g.geo res ∧ ∀ r c t, g.TileAt r c t → t.geo32 sto res = t.geo res := by
  subst hsz
  have hi0 := two_pow_pos i
  have inv := (sr_inv hi0 h).1
  constructor
  · rcases inv.body with ⟨h', -⟩ | ⟨-, a, b, nx, ny, T, hf, he⟩
    · exact absurd h' hA
    · obtain ⟨n1, -, -, n4⟩ := grow_extNear inv hg (by rw [hf.tiles]; simp) he
      unfold geo32 geo
      rw [he]
      simp only [Option.map_some]
      rw [near_rnd hr hlo hhi n1 hB, near_rnd hr hlo hhi n4 hB]
  · intro r c t ht
    obtain ⟨x, y, D, hrep, n1, -, -, n4⟩ := tile_corner hi0 inv hg ht
    obtain ⟨c1, -, -, c4⟩ := tile_corners hi0 hrep.1
    unfold Tile.geo32 Tile.geo
    rw [c1, c4, near_rnd hr hlo hhi n1 hB, near_rnd hr hlo hhi n4 hB]

/-- **C109** (geotransform, variable resolution): the same for the grid, its subgrids, and the tiles of the subgrids; the bound is for the size of the latter -/
theorem C109_geo_vr (hr : Rounds q lo hi sto) (hlo : lo ≤ k) (hki : k ≤ i) (hhi : k ≤ hi) (hsz : size = 2 ^ i) (hsub : sub = 2 ^ k) (hpow : isPowerOfTwo sub = true) {g : Grid (Grid Tile)}
    (h : VRHistory env size sub bs fl F s g A) (hA : A ≠ []) (hg : g.Bounded B) (hB : B + 2 * 2 ^ i ≤ 2 ^ q * 2 ^ k) (res : ℚ) :
    g.geo32 sto res = g.geo res ∧ ∀ r c u, g.TileAt r c u → u.geo32 sto res = u.geo res ∧ ∀ r' c' t, u.TileAt r' c' t → t.geo32 sto res = t.geo res := by
  subst hsz
  have hi0 := two_pow_pos i
  have inv := (vr_inv hi0 hpow h).1
  have hB' : B ≤ 2 ^ q * 2 ^ k := by linarith
  constructor
  · rcases inv.body with ⟨h', -⟩ | ⟨-, a, b, nx, ny, T, hf, he⟩
    · exact absurd h' hA
    · obtain ⟨n1, -, -, n4⟩ := grow_extNear inv hg (by rw [hf.tiles]; simp) he
      unfold geo32 geo
      rw [he]
      simp only [Option.map_some]
      rw [near_rnd hr hlo hhi (n1.finer hki) hB', near_rnd hr hlo hhi (n4.finer hki) hB']
  · intro r c u hu
    obtain ⟨x, y, D, hrep, n1, n2, n3, n4⟩ := tile_corner hi0 inv hg hu
    have hrep : SubInv _ _ x y u D := hrep
    constructor
    · unfold geo32 geo
      rw [hrep.extents]
      simp only [Option.map_some]
      rw [near_rnd hr hlo hhi (n1.finer hki) hB', near_rnd hr hlo hhi (n4.finer hki) hB']
    · intro r' c' t ht
      subst hsub
      have hk0 := two_pow_pos k
      obtain ⟨T, hf⟩ := hrep.frame
      obtain ⟨i1, i2, h1, -⟩ := frame_tileAt hf.toReady ht
      obtain ⟨c1, -, -, c4⟩ := tile_corners hk0 h1.1
      have hkk : (2 : ℚ) ^ k ≤ 2 ^ i := zpow_le_zpow_right₀ (by norm_num) hki
      have step : ∀ z, Near (2 ^ i) B z → ∀ n, n < ncells (2 ^ i : ℚ) (2 ^ k) →
          Near (2 ^ k) (B + 2 * 2 ^ i) (z + (n : ℚ) * 2 ^ k) ∧ Near (2 ^ k) (B + 2 * 2 ^ i) (z + (n : ℚ) * 2 ^ k + 2 ^ k) := by
        intro z hz n hn
        have h1 := lt_ncells hk0 hn
        have h2 : (0 : ℚ) ≤ (n : ℚ) * 2 ^ k := mul_nonneg (Nat.cast_nonneg _) hk0.le
        have h3 := abs_le.1 hz.2
        obtain ⟨a, ha⟩ := (hz.finer hki).1
        exact ⟨⟨⟨a + n, by rw [ha]; push_cast; ring⟩, abs_le.2 ⟨by linarith [h3.1], by linarith [h3.2]⟩⟩,
          ⟨⟨a + n + 1, by rw [ha]; push_cast; ring⟩, abs_le.2 ⟨by linarith [h3.1], by linarith [h3.2]⟩⟩⟩
      unfold Tile.geo32 Tile.geo
      rw [c1, c4, near_rnd hr hlo hhi (step x n1 c' i2).1 hB, near_rnd hr hlo hhi (step y n3 r' i1).2 hB]

theorem flatMap_congr' {α β : Type} {l : List α} {f g : α → List β} (h : ∀ x ∈ l, f x = g x) : l.flatMap f = l.flatMap g := by
  induction l with
  | nil => rfl
  | cons a l ih => rw [List.flatMap_cons, List.flatMap_cons, h a (by simp), ih (fun x hx => h x (by simp [hx]))]

theorem edges_near (hi0 : 0 < size) (a : ℤ) (n : Nat) (h1 : |(a : ℚ) * size| ≤ B) (h2 : |(a : ℚ) * size + (n : ℚ) * size| ≤ B) : ∀ z ∈ edgesOf ((a : ℚ) * size) size n, Near size B z := by
  intro z hz
  obtain ⟨m, hm, rfl⟩ := List.mem_map.1 hz
  have hm : m ≤ n := by have := List.mem_range.1 hm; omega
  have h3 : (m : ℚ) * size ≤ (n : ℚ) * size := mul_le_mul_of_nonneg_right (by exact_mod_cast hm) hi0.le
  have h4 : (0 : ℚ) ≤ (m : ℚ) * size := mul_nonneg (Nat.cast_nonneg _) hi0.le
  rw [abs_le] at h1 h2
  exact ⟨⟨a + m, by push_cast; ring⟩, abs_le.2 ⟨by linarith, by linarith⟩⟩

/-- the drawing of a grid in single precision -/
theorem boundaries32_grow {τ : Type} [TileLike τ] {C : ChildSpec τ (2 ^ i) sub bs fl} (hr : Rounds p lo hi rnd) (hlo : lo ≤ i) (hhi : i ≤ hi) (hr' : Rounds q lo' hi' sto) (hlo' : lo' ≤ i)
    (hhi' : i ≤ hi') {g : Grid τ} (inv : GrowInv C g A) (hA : A ≠ []) (hg : g.Bounded B) (hB : B + 2 ^ i ≤ 2 ^ p * 2 ^ i) (hB' : B + 2 ^ i ≤ 2 ^ q * 2 ^ i) :
    g.tileBoundaries32 rnd sto = g.tileBoundaries := by
  have hi0 := two_pow_pos i
  rcases inv.body with ⟨h', -⟩ | ⟨-, a, b, nx, ny, T, hf, he⟩
  · exact absurd h' hA
  · obtain ⟨b1, b2, b3, b4⟩ := hg _ he
    have ex := edges_near hi0 a nx b1 b2
    have ey := edges_near hi0 b ny b3 b4
    have st : ∀ z, Near (2 ^ i) B z → sto z = z := fun z hz => near_rnd hr' hlo' hhi' hz (by linarith)
    have stp : ∀ z, Near (2 ^ i) B z → rnd (z + 2 ^ i) = z + 2 ^ i ∧ sto (z + 2 ^ i) = z + 2 ^ i := fun z hz =>
      ⟨near_rnd hr hlo hhi (hz.add (near_pow (le_refl i))) hB, near_rnd hr' hlo' hhi' (hz.add (near_pow (le_refl i))) hB'⟩
    have hlast : Near (2 ^ i) B ((edgesOf ((a : ℚ) * 2 ^ i) (2 ^ i) nx).getLastD 0) := by
      refine ex _ ?_
      rw [List.getLastD_eq_getLast?]
      have hne : edgesOf ((a : ℚ) * 2 ^ i) (2 ^ i) nx ≠ [] := by unfold edgesOf; simp
      rw [List.getLast?_eq_getLast_of_ne_nil hne]
      exact List.getLast_mem hne
    have hrow : ∀ y ∈ edgesOf ((b : ℚ) * 2 ^ i) (2 ^ i) ny, boundaryRow32 rnd sto (2 ^ i) (edgesOf ((a : ℚ) * 2 ^ i) (2 ^ i) nx) y = boundaryRow (2 ^ i) (edgesOf ((a : ℚ) * 2 ^ i) (2 ^ i) nx) y := by
      intro y hy
      have ny' := ey y hy
      unfold boundaryRow32 boundaryRow
      rw [st _ hlast, st _ ny', (stp _ ny').2]
      congr 1
      refine flatMap_congr' (fun x hx => ?_)
      unfold boxAround32 boxAround
      rw [st _ ny', (stp _ ny').1, (stp _ ny').2, st _ (ex x hx), (stp _ (ex x hx)).1, (stp _ (ex x hx)).2]
    unfold tileBoundaries32 tileBoundaries
    rw [he]
    simp only
    rw [hf.edgesX, hf.edgesY, hf.tileSize, flatMap_congr' hrow, st _ hlast]
    have : Near (2 ^ i) B ((b : ℚ) * 2 ^ i + (ny : ℚ) * 2 ^ i) := ⟨⟨b + ny, by push_cast; ring⟩, b4⟩
    rw [st _ this]

/-- **C109** (outlines, single resolution): `get_tile_boundaries` returns the exact coordinates, although its arrays have single precision -/
theorem C109_boundaries_sr (hr : Rounds p lo hi rnd) (hlo : lo ≤ i) (hhi : i ≤ hi) (hr' : Rounds q lo' hi' sto) (hlo' : lo' ≤ i) (hhi' : i ≤ hi') (hsz : size = 2 ^ i) {g : Grid Tile}
    (h : SRHistory env size bs fl F s g A) (hA : A ≠ []) (hg : g.Bounded B) (hB : B + 2 ^ i ≤ 2 ^ p * 2 ^ i) (hB' : B + 2 ^ i ≤ 2 ^ q * 2 ^ i) :
    g.tileBoundaries32 rnd sto = g.tileBoundaries := by
  subst hsz
  exact boundaries32_grow hr hlo hhi hr' hlo' hhi' (sr_inv (two_pow_pos i) h).1 hA hg hB hB'

/-- **C109** (outlines, variable resolution) -/
theorem C109_boundaries_vr (hr : Rounds p lo hi rnd) (hlo : lo ≤ i) (hhi : i ≤ hi) (hr' : Rounds q lo' hi' sto) (hlo' : lo' ≤ i) (hhi' : i ≤ hi') (hsz : size = 2 ^ i)
    (hpow : isPowerOfTwo sub = true) {g : Grid (Grid Tile)}
    (h : VRHistory env size sub bs fl F s g A) (hA : A ≠ []) (hg : g.Bounded B) (hB : B + 2 ^ i ≤ 2 ^ p * 2 ^ i) (hB' : B + 2 ^ i ≤ 2 ^ q * 2 ^ i) :
    g.tileBoundaries32 rnd sto = g.tileBoundaries := by
  subst hsz
  exact boundaries32_grow hr hlo hhi hr' hlo' hhi' (vr_inv (two_pow_pos i) hpow h).1 hA hg hB hB'

/-! ### small tiles -/

/-- one sounding far north -/
def northPts : List Pt := [{ x := 5000001 / 10, y := 45000006 / 10, z := 5 }]

/-- tiles of 25 cm, gridded -/
def northSR : Grid Tile := (((newSR (1 / 4) false).addPoints ⟨⟨false, false⟩, northPts⟩ "a" {}).st.gridWith demoEnv { alg := .mean, res := some (1 / 4) } none).st

/-- **C109** does not hold for small tiles: with tiles of 25 cm a raster at 4500000.75 m north is placed 25 cm, a whole tile, too far north. -/
theorem C109_small_tiles : ∃ (g : Grid Tile) (A : Store) (t : Tile), SRHistory demoEnv (1 / 4) false ⟨false, false⟩ .plain false g A ∧ g.TileAt 0 0 t ∧
    t.geo (1 / 4) = some ⟨500000, 1 / 4, 450000075 / 100⟩ ∧ t.geo32 (nearestEven 24) (1 / 4) = some ⟨500000, 1 / 4, 4500001⟩ ∧
    g.geo (1 / 4) = some ⟨500000, 1 / 4, 450000075 / 100⟩ ∧ g.geo32 (nearestEven 24) (1 / 4) = some ⟨500000, 1 / 4, 4500001⟩ := by
  have ht : ∃ t, northSR.TileAt 0 0 t ∧ t.geo (1 / 4) = some ⟨500000, 1 / 4, 450000075 / 100⟩ ∧ t.geo32 (nearestEven 24) (1 / 4) = some ⟨500000, 1 / 4, 4500001⟩ := by
    have key : ((northSR.tiles.bind (fun T => (T.get? 0 0).join)).map (fun t => decide (t.geo (1 / 4) = some ⟨500000, 1 / 4, 450000075 / 100⟩ ∧
      t.geo32 (nearestEven 24) (1 / 4) = some ⟨500000, 1 / 4, 4500001⟩))) = some true := by decide +kernel
    cases hT : northSR.tiles with
    | none => rw [hT] at key; cases key
    | some T =>
      rw [hT] at key
      simp only [Option.bind_some] at key
      cases h1 : T.get? 0 0 with
      | none => rw [h1] at key; cases key
      | some o =>
        cases o with
        | none => rw [h1] at key; cases key
        | some t =>
          rw [h1] at key
          simp only [Option.join_some, Option.map_some, Option.some.injEq, decide_eq_true_eq] at key
          exact ⟨t, ⟨T, hT, h1⟩, key⟩
  obtain ⟨t, h1, h2, h3⟩ := ht
  refine ⟨northSR, _, t, (((GridHistory.new .plain).add northPts "a" {} (by decide +kernel)).grid { alg := .mean, res := some (1 / 4) } rfl none), h1, h2, h3, by decide +kernel, by decide +kernel⟩

/-! ### examples -/

/-- the demo grids, binary32 -/
example (res : ℚ) : (demoSR.geo32 (nearestEven 24) res = demoSR.geo res ∧ ∀ r c t, demoSR.TileAt r c t → t.geo32 (nearestEven 24) res = t.geo res) ∧
    demoSR.tileBoundaries32 (nearestEven 53) (nearestEven 24) = demoSR.tileBoundaries :=
  ⟨C109_geo_sr (q := 24) (i := 4) (lo := -149) (hi := 104) (B := 128) (nearestEven_rounds (by norm_num)) (by norm_num) (by norm_num) (by norm_num) demoSR_history (by decide +kernel) demoSR_bounded
      (by norm_num) res,
    C109_boundaries_sr (p := 53) (q := 24) (i := 4) (lo := -1074) (hi := 971) (lo' := -149) (hi' := 104) (B := 128) (nearestEven_rounds (by norm_num)) (by norm_num) (by norm_num)
      (nearestEven_rounds (by norm_num)) (by norm_num) (by norm_num) (by norm_num) demoSR_history (by decide +kernel) demoSR_bounded (by norm_num) (by norm_num)⟩

example (res : ℚ) : demoVR.geo32 (nearestEven 24) res = demoVR.geo res ∧ ∀ r c u, demoVR.TileAt r c u → u.geo32 (nearestEven 24) res = u.geo res ∧
    ∀ r' c' t, u.TileAt r' c' t → t.geo32 (nearestEven 24) res = t.geo res :=
  C109_geo_vr (q := 24) (i := 5) (k := 4) (lo := -149) (hi := 104) (B := 256) (nearestEven_rounds (by norm_num)) (by norm_num) (by norm_num) (by norm_num) (by norm_num) (by norm_num)
    (by decide +kernel) demoVR_history (by decide +kernel) demoVR_bounded (by norm_num) res

end Bathy
