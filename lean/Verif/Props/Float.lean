import Verif.Lemmas.FloatReach
import Verif.Spec.DemoGrid

/-!
# C106: in floating point arithmetic the tiles and cells are where they are in exact arithmetic

Every other theorem treats the coordinates as rational numbers.  Here every sum, difference, product and quotient of coordinates is rounded, by any function that leaves the
numbers of the format alone (`Rounds`).  For sizes and resolutions that are powers of two no operation on coordinates ever rounds, whatever the positions of the soundings:
the state is the same as in exact arithmetic.
-/

namespace Bathy
open Grid

variable {p : Nat} {lo hi i k r : ℤ} {rnd : ℚ → ℚ} {B M size sub : ℚ} {env : Env} {bs : Bool} {fl : Fields} {F : Family} {s : Bool}

theorem addF_sr (hr : Rounds p lo hi rnd) (hf : Fits p lo hi i i) (hsz : size = 2 ^ i) {g : Grid Tile} {A : Store} (h : SRHistory env size bs fl F s g A) (hg : g.Bounded B)
    {pts : List Pt} (hpts : ∀ q ∈ pts, Coord p lo hi i B q.x ∧ Coord p lo hi i B q.y) (hB0 : 0 ≤ B) (hB : 2 * B + 5 * 2 ^ i ≤ 2 ^ p * 2 ^ i) (c : String) (a : AddArgs) :
    g.addPointsF rnd ⟨fl, pts⟩ c a = g.addPoints ⟨fl, pts⟩ c a ∧
      ((g.addPoints ⟨fl, pts⟩ c a).err = none → ∃ e, (g.addPoints ⟨fl, pts⟩ c a).st.extents = some e ∧ ExtNear (2 ^ i) (B + 2 ^ i + 2 ^ i) e) := by
  subst hsz
  have hi0 := two_pow_pos i
  have inv := (sr_inv hi0 h).1
  refine addPointsF_grow hr hf inv.canGrow inv.ox inv.oy inv.tileSize inv.subtileSize (floatTile hr hf 0 (by linarith)) (fun _ _ _ _ => trivial) hpts (fun hemp e he => ?_) hB c a
  obtain ⟨n1, n2, n3, n4⟩ := grow_extNear inv hg (tiles_of_not_empty hemp) he
  have hl0 : lo ≤ 0 := by have := hf.lo_ji; omega
  have co := fun x (hx : Near (2 ^ i) B x) => near_coord (p := p) hf.lo_j hf.j_hi hf.zero_hi hl0 hx (by linarith)
  exact ⟨co _ n1, co _ n2, co _ n3, co _ n4⟩

theorem addF_vr (hr : Rounds p lo hi rnd) (hf : Fits p lo hi k i) (hsz : size = 2 ^ i) (hsub : sub = 2 ^ k) (hpow : isPowerOfTwo sub = true) {g : Grid (Grid Tile)} {A : Store}
    (h : VRHistory env size sub bs fl F s g A) (hg : g.Bounded B) {pts : List Pt} (hpts : ∀ q ∈ pts, Coord p lo hi i B q.x ∧ Coord p lo hi i B q.y) (hB0 : 0 ≤ B)
    (hB : 2 * B + 7 * 2 ^ i ≤ 2 ^ p * 2 ^ k) (c : String) (a : AddArgs) :
    g.addPointsF rnd ⟨fl, pts⟩ c a = g.addPoints ⟨fl, pts⟩ c a ∧
      ((g.addPoints ⟨fl, pts⟩ c a).err = none → ∃ e, (g.addPoints ⟨fl, pts⟩ c a).st.extents = some e ∧ ExtNear (2 ^ k) (B + 2 ^ i + 2 ^ i) e) := by
  subst hsz hsub
  have hi0 := two_pow_pos i
  have hk0 := two_pow_pos k
  have hki : (2 : ℚ) ^ k ≤ 2 ^ i := zpow_le_zpow_right₀ (by norm_num) hf.j_i
  have hl0 : lo ≤ 0 := by have := hf.lo_ji; have := hf.j_i; omega
  have hkk : Fits p lo hi k k := ⟨hf.lo_j, hf.j_hi, hf.zero_hi, le_refl k, by simpa using hl0⟩
  have inv := (vr_inv hi0 hpow h).1
  refine addPointsF_grow hr hf inv.canGrow inv.ox inv.oy inv.tileSize inv.subtileSize (floatSub hr hf hkk (by linarith)) (fun T hT t ht => ?_) hpts (fun hemp e he => ?_) (by linarith) c a
  · obtain ⟨r, c, hrc⟩ := mem_flat_tileAt inv hT ht
    obtain ⟨x, y, D, hrep, n1, -, n3, -⟩ := tile_corner hi0 inv hg hrc
    exact sub_fixed hf.j_i hrep ((n1.finer hf.j_i).mono (by linarith)) ((n3.finer hf.j_i).mono (by linarith))
  · obtain ⟨n1, n2, n3, n4⟩ := grow_extNear inv hg (tiles_of_not_empty hemp) he
    have co : ∀ x, Near (2 ^ i) B x → Coord p lo hi i B x := by
      intro x hx
      refine ⟨near_fl hf.lo_j hf.j_hi (hx.finer hf.j_i) (by linarith), ?_, hx.2⟩
      obtain ⟨⟨a, ha⟩, hb⟩ := hx
      refine ⟨a, 0, ?_, hl0, hf.zero_hi, ?_⟩
      · have h1 : |x| ≤ 2 ^ p * 2 ^ i := le_trans hb (by have := mul_le_mul_of_nonneg_left hki (show (0 : ℚ) ≤ 2 ^ p by positivity); linarith)
        rw [ha, abs_mul, abs_of_pos hi0] at h1
        have := le_of_mul_le_mul_right h1 hi0
        exact_mod_cast this
      · rw [ha, mul_div_assoc, div_self (ne_of_gt hi0), zpow_zero]
    exact ⟨co _ n1, co _ n2, co _ n3, co _ n4⟩

/-- **C106**, single resolution: `add_points` leaves the same grid, or raises the same exception, with and without rounding.  `B` bounds the coordinates of the grid and of
the new soundings; for binary64 (`p = 53`) and tiles of 1024 m it may be 2^60 m. -/
theorem C106_add_sr (hr : Rounds p lo hi rnd) (hf : Fits p lo hi i i) (hsz : size = 2 ^ i) {g : Grid Tile} {A : Store} (h : SRHistory env size bs fl F s g A) (hg : g.Bounded B)
    {pts : List Pt} (hpts : ∀ q ∈ pts, Coord p lo hi i B q.x ∧ Coord p lo hi i B q.y) (hB0 : 0 ≤ B) (hB : 2 * B + 5 * 2 ^ i ≤ 2 ^ p * 2 ^ i) (c : String) (a : AddArgs) :
    g.addPointsF rnd ⟨fl, pts⟩ c a = g.addPoints ⟨fl, pts⟩ c a := (addF_sr hr hf hsz h hg hpts hB0 hB c a).1

/-- **C106**, variable resolution: the same, with the subgrids and their tiles -/
theorem C106_add_vr (hr : Rounds p lo hi rnd) (hf : Fits p lo hi k i) (hsz : size = 2 ^ i) (hsub : sub = 2 ^ k) (hpow : isPowerOfTwo sub = true) {g : Grid (Grid Tile)} {A : Store}
    (h : VRHistory env size sub bs fl F s g A) (hg : g.Bounded B) {pts : List Pt} (hpts : ∀ q ∈ pts, Coord p lo hi i B q.x ∧ Coord p lo hi i B q.y) (hB0 : 0 ≤ B)
    (hB : 2 * B + 7 * 2 ^ i ≤ 2 ^ p * 2 ^ k) (c : String) (a : AddArgs) :
    g.addPointsF rnd ⟨fl, pts⟩ c a = g.addPoints ⟨fl, pts⟩ c a := (addF_vr hr hf hsz hsub hpow h hg hpts hB0 hB c a).1

theorem bounded_of_near {τ : Type} {g : Grid τ} {q : ℚ} {e : Extents} (h : g.extents = some e) (hn : ExtNear q B e) : g.Bounded B := by
  intro e' he'
  rw [h] at he'
  cases he'
  exact ⟨hn.1.2, hn.2.1.2, hn.2.2.1.2, hn.2.2.2.2⟩

theorem Coord.mono {x : ℚ} (h : Coord p lo hi i B x) (hB : B ≤ M) : Coord p lo hi i M x := ⟨h.1, h.2.1, le_trans h.2.2 hB⟩

/-- **C106**, whole sessions: any number of `add_points` calls on a new grid, with soundings between -M and M.  The corners of the grid move out by up to two tiles per call. -/
theorem C106_sessions_sr (hr : Rounds p lo hi rnd) (hf : Fits p lo hi i i) (hsz : size = 2 ^ i) {l : List (List Pt × String × AddArgs)}
    (hl : ∀ q ∈ l, ∀ z ∈ q.1, Coord p lo hi i M z.x ∧ Coord p lo hi i M z.y) (hM0 : 0 ≤ M) (hM : 2 * (M + 2 * (l.length : ℚ) * 2 ^ i) + 5 * 2 ^ i ≤ 2 ^ p * 2 ^ i) :
    Res.forEach l (newSR size bs) (fun g q => g.addPointsF rnd ⟨fl, q.1⟩ q.2.1 q.2.2) = Res.forEach l (newSR size bs) (fun g q => g.addPoints ⟨fl, q.1⟩ q.2.1 q.2.2) := by
  have hi0 := two_pow_pos i
  refine forEach_count (fun m g => (∃ s A, SRHistory demoEnv size bs fl .plain s g A) ∧ g.Bounded (M + 2 * (m : ℚ) * 2 ^ i)) l.length (fun m g q hq hm hp => ?_) 0 _ (by omega)
    ⟨⟨_, _, GridHistory.new .plain⟩, fun e he => nomatch he⟩
  obtain ⟨⟨s, A, h⟩, hb⟩ := hp
  have hm' : (m : ℚ) * 2 ^ i ≤ (l.length : ℚ) * 2 ^ i := mul_le_mul_of_nonneg_right (by exact_mod_cast hm.le) hi0.le
  have hm0 : 0 ≤ (m : ℚ) * 2 ^ i := mul_nonneg (Nat.cast_nonneg _) hi0.le
  obtain ⟨h1, h2⟩ := addF_sr hr hf hsz h hb (pts := q.1) (fun z hz => ⟨(hl q hq z hz).1.mono (by linarith), (hl q hq z hz).2.mono (by linarith)⟩) (by linarith) (by linarith) q.2.1 q.2.2
  refine ⟨h1, fun hok => ⟨⟨_, _, h.add q.1 q.2.1 q.2.2 hok⟩, ?_⟩⟩
  obtain ⟨e, he, hn⟩ := h2 hok
  have := bounded_of_near he hn
  rwa [show M + 2 * (m : ℚ) * 2 ^ i + 2 ^ i + 2 ^ i = M + 2 * ((m + 1 : ℕ) : ℚ) * 2 ^ i by push_cast; ring] at this

/-- **C106**, whole sessions with a variable resolution grid -/
theorem C106_sessions_vr (hr : Rounds p lo hi rnd) (hf : Fits p lo hi k i) (hsz : size = 2 ^ i) (hsub : sub = 2 ^ k) (hpow : isPowerOfTwo sub = true) {l : List (List Pt × String × AddArgs)}
    (hl : ∀ q ∈ l, ∀ z ∈ q.1, Coord p lo hi i M z.x ∧ Coord p lo hi i M z.y) (hM0 : 0 ≤ M) (hM : 2 * (M + 2 * (l.length : ℚ) * 2 ^ i) + 7 * 2 ^ i ≤ 2 ^ p * 2 ^ k) :
    Res.forEach l (newVR size sub bs) (fun g q => g.addPointsF rnd ⟨fl, q.1⟩ q.2.1 q.2.2) = Res.forEach l (newVR size sub bs) (fun g q => g.addPoints ⟨fl, q.1⟩ q.2.1 q.2.2) := by
  have hi0 := two_pow_pos i
  refine forEach_count (fun m g => (∃ s A, VRHistory demoEnv size sub bs fl .plain s g A) ∧ g.Bounded (M + 2 * (m : ℚ) * 2 ^ i)) l.length (fun m g q hq hm hp => ?_) 0 _ (by omega)
    ⟨⟨_, _, GridHistory.new .plain⟩, fun e he => nomatch he⟩
  obtain ⟨⟨s, A, h⟩, hb⟩ := hp
  have hm' : (m : ℚ) * 2 ^ i ≤ (l.length : ℚ) * 2 ^ i := mul_le_mul_of_nonneg_right (by exact_mod_cast hm.le) hi0.le
  have hm0 : 0 ≤ (m : ℚ) * 2 ^ i := mul_nonneg (Nat.cast_nonneg _) hi0.le
  obtain ⟨h1, h2⟩ := addF_vr hr hf hsz hsub hpow h hb (pts := q.1) (fun z hz => ⟨(hl q hq z hz).1.mono (by linarith), (hl q hq z hz).2.mono (by linarith)⟩) (by linarith) (by linarith)
    q.2.1 q.2.2
  refine ⟨h1, fun hok => ⟨⟨_, _, h.add q.1 q.2.1 q.2.2 hok⟩, ?_⟩⟩
  obtain ⟨e, he, hn⟩ := h2 hok
  have := bounded_of_near he hn
  rwa [show M + 2 * (m : ℚ) * 2 ^ i + 2 ^ i + 2 ^ i = M + 2 * ((m + 1 : ℕ) : ℚ) * 2 ^ i by push_cast; ring] at this

theorem tile_corners {x y : ℚ} {t : Tile} {A : Store} (hs : 0 < size) (h : TileHistory env x y size bs fl F t A) : t.minX = x ∧ t.maxX = x + size ∧ t.minY = y ∧ t.maxY = y + size := by
  obtain ⟨h1, -⟩ := history_frame hs h
  unfold Tile.sameFrame at h1
  exact ⟨h1.1, h1.2.1, h1.2.2.1, h1.2.2.2.1⟩

/-- **C106**, cells, single resolution: the arrays and edges of the cells of every tile, and the counts of soundings per cell, for a resolution `2^r` not above the tile size -/
theorem C106_cells_sr (hr : Rounds p lo hi rnd) (hf : Fits p lo hi r r) (hsz : size = 2 ^ i) (hri : r ≤ i) {g : Grid Tile} {A : Store} (h : SRHistory env size bs fl F s g A) (hg : g.Bounded B)
    (hB : 2 * B + 2 ^ r ≤ 2 ^ p * 2 ^ r) {t : Tile} (ht : g.Leaf t) (alg : Alg) (d : PtArr) :
    t.newGridF rnd (2 ^ r) alg = t.newGrid (2 ^ r) alg ∧ t.cellCountsF rnd d (2 ^ r) = t.cellCounts d (2 ^ r) := by
  subst hsz
  have hi0 := two_pow_pos i
  have inv := (sr_inv hi0 h).1
  obtain ⟨row, col, u, hu, hut⟩ := ht
  cases hut
  obtain ⟨x, y, D, hrep, n1, n2, n3, n4⟩ := tile_corner hi0 inv hg hu
  obtain ⟨c1, c2, c3, c4⟩ := tile_corners hi0 hrep.1
  have hc : Tile.CornersNear (2 ^ r) B t := by
    refine ⟨?_, ?_, ?_, ?_⟩
    · rw [c1]; exact n1.finer hri
    · rw [c2]; exact n2.finer hri
    · rw [c3]; exact n3.finer hri
    · rw [c4]; exact n4.finer hri
  exact ⟨Tile.newGridF_eq hr hf hc (by linarith) alg, Tile.cellCountsF_eq hr hf hc (by linarith) d⟩

/-- **C106**, cells, variable resolution -/
theorem C106_cells_vr (hr : Rounds p lo hi rnd) (hf : Fits p lo hi r r) (hsz : size = 2 ^ i) (hsub : sub = 2 ^ k) (hpow : isPowerOfTwo sub = true) (hki : k ≤ i) (hrk : r ≤ k)
    {g : Grid (Grid Tile)} {A : Store} (h : VRHistory env size sub bs fl F s g A) (hg : g.Bounded B) (hB : 2 * B + 5 * 2 ^ i ≤ 2 ^ p * 2 ^ r) {t : Tile} (ht : g.Leaf t) (alg : Alg) (d : PtArr) :
    t.newGridF rnd (2 ^ r) alg = t.newGrid (2 ^ r) alg ∧ t.cellCountsF rnd d (2 ^ r) = t.cellCounts d (2 ^ r) := by
  subst hsz hsub
  have hi0 := two_pow_pos i
  have hk0 := two_pow_pos k
  have hki' : (2 : ℚ) ^ k ≤ 2 ^ i := zpow_le_zpow_right₀ (by norm_num) hki
  have hrk' : (2 : ℚ) ^ r ≤ 2 ^ k := zpow_le_zpow_right₀ (by norm_num) hrk
  have inv := (vr_inv hi0 hpow h).1
  obtain ⟨row, col, u, hu, row', col', t', ht', hut⟩ := ht
  cases hut
  obtain ⟨x, y, D, hrep, n1, -, n3, -⟩ := tile_corner hi0 inv hg hu
  obtain ⟨T, hf'⟩ := Grid.SubInv.frame hrep
  obtain ⟨l1, l2, hrep', -⟩ := frame_tileAt hf'.toReady ht'
  obtain ⟨c1, c2, c3, c4⟩ := tile_corners hk0 hrep'.1
  have ho : ∀ (z : ℚ) (n : Nat), Near (2 ^ i) B z → n < ncells (2 ^ i) (2 ^ k) → Near (2 ^ k) (B + 2 ^ i) (z + (n : ℚ) * 2 ^ k) := by
    intro z n hz hn
    have h1 := lt_ncells hk0 hn
    have h2 : (0 : ℚ) ≤ (n : ℚ) * 2 ^ k := mul_nonneg (Nat.cast_nonneg _) hk0.le
    have h3 := abs_le.1 hz.2
    obtain ⟨a, ha⟩ := (hz.finer hki).1
    exact ⟨⟨a + n, by rw [ha]; push_cast; ring⟩, abs_le.2 ⟨by linarith [h3.1], by linarith [h3.2]⟩⟩
  have m1 := ho x col' n1 l2
  have m2 := ho y row' n3 l1
  have hc : Tile.CornersNear (2 ^ r) (B + 2 ^ i + 2 ^ k) t := by
    refine ⟨?_, ?_, ?_, ?_⟩
    · rw [c1]; exact (m1.finer hrk).mono (by linarith)
    · rw [c2]; exact (m1.add (near_pow (le_refl k))).finer hrk
    · rw [c3]; exact (m2.finer hrk).mono (by linarith)
    · rw [c4]; exact (m2.add (near_pow (le_refl k))).finer hrk
  exact ⟨Tile.newGridF_eq hr hf hc (by linarith) alg, Tile.cellCountsF_eq hr hf hc (by linarith) d⟩

/-- **C106**, coordinates of the surface: `return_surf_xyz` of a grid that holds soundings returns the same coordinates, of the cell corners and of their centres -/
theorem C106_surface_sr (hr : Rounds p lo hi rnd) (hf : Fits p lo hi (r - 1) r) (hsz : size = 2 ^ i) (hri : r ≤ i) {g : Grid Tile} {A : Store} (h : SRHistory env size bs fl F s g A)
    (hA : A ≠ []) (hg : g.Bounded B) (hB : 2 * B + 2 ^ r ≤ 2 ^ p * 2 ^ (r - 1)) (layers : List Layer) (boundaries : Bool) (nodata : Option ℚ) :
    g.returnSurfF rnd env layers (some (2 ^ r)) boundaries nodata = g.returnSurf env layers (some (2 ^ r)) boundaries nodata := by
  subst hsz
  have inv := (sr_inv (two_pow_pos i) h).1
  refine returnSurfF_eq hr hf (fun e he => ?_) hB env layers boundaries nodata
  have hT : g.tiles ≠ none := by
    rcases inv.body with ⟨h1, -⟩ | ⟨-, a, b, nx, ny, T, hfr, -⟩
    · exact absurd h1 hA
    · rw [hfr.tiles]
      exact Option.some_ne_none T
  obtain ⟨n1, n2, n3, n4⟩ := grow_extNear inv hg hT he
  exact ⟨n1.finer hri, n2.finer hri, n3.finer hri, n4.finer hri⟩

theorem C106_surface_vr (hr : Rounds p lo hi rnd) (hf : Fits p lo hi (r - 1) r) (hsz : size = 2 ^ i) (hpow : isPowerOfTwo sub = true) (hri : r ≤ i) {g : Grid (Grid Tile)} {A : Store}
    (h : VRHistory env size sub bs fl F s g A) (hA : A ≠ []) (hg : g.Bounded B) (hB : 2 * B + 2 ^ r ≤ 2 ^ p * 2 ^ (r - 1)) (layers : List Layer) (boundaries : Bool) (nodata : Option ℚ) :
    g.returnSurfF rnd env layers (some (2 ^ r)) boundaries nodata = g.returnSurf env layers (some (2 ^ r)) boundaries nodata := by
  subst hsz
  have inv := (vr_inv (two_pow_pos i) hpow h).1
  refine returnSurfF_eq hr hf (fun e he => ?_) hB env layers boundaries nodata
  have hT : g.tiles ≠ none := by
    rcases inv.body with ⟨h1, -⟩ | ⟨-, a, b, nx, ny, T, hfr, -⟩
    · exact absurd h1 hA
    · rw [hfr.tiles]
      exact Option.some_ne_none T
  obtain ⟨n1, n2, n3, n4⟩ := grow_extNear inv hg hT he
  exact ⟨n1.finer hri, n2.finer hri, n3.finer hri, n4.finer hri⟩

/-! ### other resolutions -/

theorem not_fl {m e : ℤ} (hodd : m % 2 = 1) (hm : 2 ^ p < m) : ¬ Fl p lo hi ((m : ℚ) * 2 ^ e) := by
  rintro ⟨m', e', h1, -, -, h4⟩
  have hmpos : (0 : ℤ) < m := lt_trans (by positivity) hm
  rcases le_total e' e with hle | hle
  · obtain ⟨n, hn⟩ := Int.eq_ofNat_of_zero_le (sub_nonneg.2 hle)
    have h5 : (m' : ℚ) = m * 2 ^ n := by
      have h6 : (2 : ℚ) ^ e = 2 ^ n * 2 ^ e' := by
        rw [show e = (n : ℤ) + e' by omega, zpow_add₀ (by norm_num), zpow_natCast]
      rw [h6, ← mul_assoc] at h4
      exact (mul_right_cancel₀ (ne_of_gt (two_pow_pos e')) h4).symm
    have h6 : m' = m * 2 ^ n := by exact_mod_cast h5
    have h7 : (1 : ℤ) ≤ 2 ^ n := one_le_pow₀ (by norm_num)
    have h8 : m ≤ m' := by rw [h6]; nlinarith
    have := le_abs_self m'
    omega
  · rcases hle.lt_or_eq with hlt | heq
    · obtain ⟨n, hn⟩ := Int.eq_ofNat_of_zero_le (sub_nonneg.2 (show e + 1 ≤ e' from hlt))
      have h5 : (m : ℚ) = m' * 2 ^ n * 2 := by
        have h6 : (2 : ℚ) ^ e' = 2 ^ n * 2 * 2 ^ e := by
          rw [show e' = (n : ℤ) + 1 + e by omega, zpow_add₀ (by norm_num), zpow_add₀ (by norm_num), zpow_natCast, zpow_one]
        rw [h6, ← mul_assoc, ← mul_assoc] at h4
        exact mul_right_cancel₀ (ne_of_gt (two_pow_pos e)) h4
      have h6 : m = m' * 2 ^ n * 2 := by exact_mod_cast h5
      omega
    · subst heq
      have h5 : m = m' := by exact_mod_cast mul_right_cancel₀ (ne_of_gt (two_pow_pos e)) h4
      have := le_abs_self m'
      omega

/-- a resolution that passes for a power of two: 2 m and 2^-51 m -/
def almostTwo : ℚ := (2 ^ 52 + 1) / 2 ^ 51

theorem mem_edgesF (hrange : ∀ x, Fl p lo hi (rnd x)) {start stop step : ℚ} (hs : Fl p lo hi start) {ex : List ℚ} (h : appendEdgeF rnd (arangeF rnd start stop step) step = some ex) :
    ∀ z ∈ ex, Fl p lo hi z := by
  have h1 : ∀ z ∈ arangeF rnd start stop step, Fl p lo hi z := by
    intro z hz
    obtain ⟨n, -, rfl⟩ := List.mem_map.1 hz
    split
    · exact hs
    · split <;> exact hrange _
  unfold appendEdgeF at h
  cases hl : (arangeF rnd start stop step).getLast? with
  | none =>
    rw [hl] at h
    cases h
  | some w =>
    rw [hl] at h
    cases h
    intro z hz
    rcases List.mem_append.1 hz with h2 | h2
    · exact h1 z h2
    · rw [List.mem_singleton.1 h2]
      exact hrange _

theorem almostTwo_mem : (3 * (2 ^ 52 + 1) : ℤ) * (2 : ℚ) ^ (-51 : ℤ) ∈ arange 0 16 almostTwo := by
  refine List.mem_map.2 ⟨3, List.mem_range.2 (by decide +kernel), ?_⟩
  unfold almostTwo
  push_cast
  rw [zpow_neg, show ((2 : ℚ) ^ (51 : ℤ)) = 2 ^ 51 from zpow_natCast 2 51]
  ring

/-- **C106**, the claim is not true for every accepted resolution: `is_power_of_two` accepts 2 + 2^-51, a number of binary64, and with any rounding to binary64 the edges of the cells
are not where they are in exact arithmetic. -/
theorem C106_other_resolutions (hrange : ∀ x, Fl 53 lo hi (rnd x)) (hlo : lo ≤ -51) (hhi : 0 ≤ hi) {t : Tile} (h1 : t.minX = 0) (h2 : t.maxX = 16) {alg : Alg}
    (hok : (t.newGridF rnd almostTwo alg).err = none) (hok' : (t.newGrid almostTwo alg).err = none) :
    isPowerOfTwo almostTwo = true ∧ Fl 53 lo hi almostTwo ∧
      (t.newGridF rnd almostTwo alg).st.edgesX.get? almostTwo ≠ (t.newGrid almostTwo alg).st.edgesX.get? almostTwo := by
  have hp : isPowerOfTwo almostTwo = true := by decide +kernel
  refine ⟨hp, ⟨2 ^ 52 + 1, -51, (by decide), hlo, (by omega), ?_⟩, ?_⟩
  · unfold almostTwo
    push_cast
    rw [zpow_neg, show ((2 : ℚ) ^ (51 : ℤ)) = 2 ^ 51 from zpow_natCast 2 51]
    ring
  have hF : ∃ ex, (t.newGridF rnd almostTwo alg).st.edgesX.get? almostTwo = some ex ∧ ∀ z ∈ ex, Fl 53 lo hi z := by
    unfold Tile.newGridF at hok ⊢
    rw [if_pos hp] at hok ⊢
    simp only at hok ⊢
    cases hx : appendEdgeF rnd (arangeF rnd t.minX t.maxX almostTwo) almostTwo with
    | none =>
      rw [hx] at hok
      cases hok
    | some ex =>
      cases hy : appendEdgeF rnd (arangeF rnd t.minY t.maxY almostTwo) almostTwo with
      | none =>
        rw [hx, hy] at hok
        cases hok
      | some ey =>
        refine ⟨ex, Dict.get?_set_self _ _ _, mem_edgesF hrange ?_ hx⟩
        rw [h1]
        exact ⟨0, 0, by decide, by omega, hhi, by simp⟩
  have hE : ∃ ex, (t.newGrid almostTwo alg).st.edgesX.get? almostTwo = some ex ∧ ∀ z ∈ arange 0 16 almostTwo, z ∈ ex := by
    unfold Tile.newGrid at hok' ⊢
    rw [if_pos hp] at hok' ⊢
    simp only at hok' ⊢
    cases hx : appendEdge (arange t.minX t.maxX almostTwo) almostTwo with
    | none =>
      rw [hx] at hok'
      cases hok'
    | some ex =>
      cases hy : appendEdge (arange t.minY t.maxY almostTwo) almostTwo with
      | none =>
        rw [hx, hy] at hok'
        cases hok'
      | some ey =>
        refine ⟨ex, Dict.get?_set_self _ _ _, fun z hz => ?_⟩
        unfold appendEdge at hx
        rw [h1, h2] at hx
        cases hl : (arange 0 16 almostTwo).getLast? with
        | none =>
          rw [hl] at hx
          cases hx
        | some w =>
          rw [hl] at hx
          cases hx
          exact List.mem_append_left _ hz
  obtain ⟨ex, e1, e2⟩ := hF
  obtain ⟨ex', e3, e4⟩ := hE
  intro he
  rw [e1, e3] at he
  cases he
  exact not_fl (by decide) (by decide) (e2 _ (e4 _ almostTwo_mem))

/-! ### examples -/

/-- integers are coordinates -/
theorem coord_int (hlo : lo ≤ 0) (hhi : 0 ≤ hi) (hi1 : lo ≤ -i) (hi2 : -i ≤ hi) {a : ℤ} (ha : |a| ≤ 2 ^ p) (hb : |(a : ℚ)| ≤ B) : Coord p lo hi i B (a : ℚ) :=
  ⟨⟨a, 0, ha, hlo, hhi, by simp⟩, ⟨a, -i, ha, hi1, hi2, by rw [zpow_neg, div_eq_mul_inv]⟩, hb⟩

open Classical in
/-- one of the functions the theorems are about: a number that cannot be stored is rounded down to a multiple of 2^-40 that can -/
noncomputable def crude (p : Nat) (lo hi : ℤ) (x : ℚ) : ℚ := if Fl p lo hi x then x else ((max (-2 ^ p) (min (2 ^ p) ⌊x * 2 ^ 40⌋) : ℤ) : ℚ) * 2 ^ (-40 : ℤ)

theorem crude_rounds : Rounds p lo hi (crude p lo hi) := fun _ h => if_pos h

theorem crude_range (hlo : lo ≤ -40) (hhi : -40 ≤ hi) (x : ℚ) : Fl p lo hi (crude p lo hi x) := by
  unfold crude
  split
  · assumption
  · refine ⟨_, -40, abs_le.2 ⟨le_max_left _ _, max_le ?_ (min_le_left _ _)⟩, hlo, hhi, rfl⟩
    have : (0 : ℤ) < 2 ^ p := by positivity
    omega

theorem crude_pos {x : ℚ} (hx : 1 ≤ x) : 0 < crude p lo hi x := by
  unfold crude
  split
  · linarith
  · have h1 : 1 ≤ ⌊x * 2 ^ 40⌋ := Int.le_floor.2 (by push_cast; linarith)
    have h2 : (0 : ℤ) < max (-2 ^ p) (min (2 ^ p) ⌊x * 2 ^ 40⌋) := lt_max_of_lt_right (lt_min (by positivity) (by omega))
    exact mul_pos (by exact_mod_cast h2) (two_pow_pos _)

theorem appendEdgeF_some {start stop step : ℚ} (h : 0 < rnd (rnd (stop - start) / step)) : ∃ l, appendEdgeF rnd (arangeF rnd start stop step) step = some l := by
  unfold appendEdgeF
  cases hl : (arangeF rnd start stop step).getLast? with
  | some z => exact ⟨_, rfl⟩
  | none =>
    have h1 := List.getLast?_eq_none_iff.1 hl
    have h2 : (arangeF rnd start stop step).length = ⌈rnd (rnd (stop - start) / step)⌉.toNat := by
      unfold arangeF
      rw [List.length_map, List.length_range]
    rw [h1, List.length_nil] at h2
    have := Int.ceil_pos.2 h
    omega

theorem demoC_coord (i : ℤ) (h0 : 0 ≤ i) (h1 : i ≤ 971) : ∀ q ∈ demoC, Coord 53 (-1074) 971 i 100 q.x ∧ Coord 53 (-1074) 971 i 100 q.y := by
  have co : ∀ a : ℤ, |a| ≤ 2 ^ 53 → |(a : ℚ)| ≤ 100 → Coord 53 (-1074) 971 i 100 (a : ℚ) := fun a ha hb => coord_int (by decide) (by decide) (by omega) (by omega) ha hb
  have h18 := co 18 (by decide) (by norm_num [abs_of_pos])
  have h20 := co 20 (by decide) (by norm_num [abs_of_pos])
  have h35 := co 35 (by decide) (by norm_num [abs_of_pos])
  have h44 := co 44 (by decide) (by norm_num [abs_of_pos])
  intro q hq
  simp only [demoC, List.mem_cons, List.not_mem_nil, or_false] at hq
  rcases hq with rfl | rfl
  · exact ⟨by exact_mod_cast h18, by exact_mod_cast h20⟩
  · exact ⟨by exact_mod_cast h35, by exact_mod_cast h44⟩

theorem demoSR_bounded : demoSR.Bounded 128 := by
  intro e he
  have : demoSR.extents.all (fun e => decide (|e.minX| ≤ 128 ∧ |e.maxX| ≤ 128 ∧ |e.minY| ≤ 128 ∧ |e.maxY| ≤ 128)) = true := by decide +kernel
  rw [he] at this
  exact of_decide_eq_true this

theorem demoVR_bounded : demoVR.Bounded 256 := by
  intro e he
  have : demoVR.extents.all (fun e => decide (|e.minX| ≤ 256 ∧ |e.maxX| ≤ 256 ∧ |e.minY| ≤ 256 ∧ |e.maxY| ≤ 256)) = true := by decide +kernel
  rw [he] at this
  exact of_decide_eq_true this

/-- binary64, tiles of 16 m -/
example (c : String) (a : AddArgs) : demoSR.addPointsF (crude 53 (-1074) 971) ⟨demoFields, demoC⟩ c a = demoSR.addPoints ⟨demoFields, demoC⟩ c a :=
  C106_add_sr (i := 4) (B := 128) crude_rounds ⟨by decide, by decide, by decide, by decide, by decide⟩ (by norm_num) demoSR_history demoSR_bounded
    (fun q hq => ⟨(demoC_coord 4 (by decide) (by decide) q hq).1.mono (by norm_num), (demoC_coord 4 (by decide) (by decide) q hq).2.mono (by norm_num)⟩) (by norm_num) (by norm_num) c a

/-- binary64, tiles of 32 m and 16 m -/
example (c : String) (a : AddArgs) : demoVR.addPointsF (crude 53 (-1074) 971) ⟨demoFields, demoC⟩ c a = demoVR.addPoints ⟨demoFields, demoC⟩ c a :=
  C106_add_vr (i := 5) (k := 4) (B := 256) crude_rounds ⟨by decide, by decide, by decide, by decide, by decide⟩ (by norm_num) (by norm_num) (by decide +kernel) demoVR_history demoVR_bounded
    (fun q hq => ⟨(demoC_coord 5 (by decide) (by decide) q hq).1.mono (by norm_num), (demoC_coord 5 (by decide) (by decide) q hq).2.mono (by norm_num)⟩) (by norm_num) (by norm_num) c a

/-- two calls on a new grid -/
example : Res.forEach [(demoC, "a", {}), (demoC, "b", {})] (newSR 1024 false) (fun g q => g.addPointsF (crude 53 (-1074) 971) ⟨demoFields, q.1⟩ q.2.1 q.2.2) =
    Res.forEach [(demoC, "a", {}), (demoC, "b", {})] (newSR 1024 false) (fun g q => g.addPoints ⟨demoFields, q.1⟩ q.2.1 q.2.2) :=
  C106_sessions_sr (i := 10) (M := 100) crude_rounds ⟨by decide, by decide, by decide, by decide, by decide⟩ (by norm_num)
    (by
      intro q hq
      simp only [List.mem_cons, List.not_mem_nil, or_false] at hq
      rcases hq with rfl | rfl <;> exact demoC_coord 10 (by decide) (by decide)) (by norm_num) (by norm_num)

example : Res.forEach [(demoC, "a", {}), (demoC, "b", {})] (newVR 1024 128 false) (fun g q => g.addPointsF (crude 53 (-1074) 971) ⟨demoFields, q.1⟩ q.2.1 q.2.2) =
    Res.forEach [(demoC, "a", {}), (demoC, "b", {})] (newVR 1024 128 false) (fun g q => g.addPoints ⟨demoFields, q.1⟩ q.2.1 q.2.2) :=
  C106_sessions_vr (i := 10) (k := 7) (M := 100) crude_rounds ⟨by decide, by decide, by decide, by decide, by decide⟩ (by norm_num) (by norm_num) (by decide +kernel)
    (by
      intro q hq
      simp only [List.mem_cons, List.not_mem_nil, or_false] at hq
      rcases hq with rfl | rfl <;> exact demoC_coord 10 (by decide) (by decide)) (by norm_num) (by norm_num)

/-- cells of half a metre -/
example {t : Tile} (ht : demoSR.Leaf t) (d : PtArr) : t.newGridF (crude 53 (-1074) 971) (2 ^ (-1 : ℤ)) .mean = t.newGrid (2 ^ (-1 : ℤ)) .mean ∧
    t.cellCountsF (crude 53 (-1074) 971) d (2 ^ (-1 : ℤ)) = t.cellCounts d (2 ^ (-1 : ℤ)) :=
  C106_cells_sr (i := 4) (B := 128) crude_rounds ⟨by decide, by decide, by decide, by decide, by decide⟩ (by norm_num) (by decide) demoSR_history demoSR_bounded (by norm_num) ht .mean d

example {t : Tile} (ht : demoVR.Leaf t) (d : PtArr) : t.newGridF (crude 53 (-1074) 971) (2 ^ (-1 : ℤ)) .mean = t.newGrid (2 ^ (-1 : ℤ)) .mean ∧
    t.cellCountsF (crude 53 (-1074) 971) d (2 ^ (-1 : ℤ)) = t.cellCounts d (2 ^ (-1 : ℤ)) :=
  C106_cells_vr (i := 5) (k := 4) (B := 256) crude_rounds ⟨by decide, by decide, by decide, by decide, by decide⟩ (by norm_num) (by norm_num) (by decide +kernel) (by decide) (by decide)
    demoVR_history demoVR_bounded (by norm_num) ht .mean d

example (layers : List Layer) (b : Bool) (nodata : Option ℚ) :
    demoSR.returnSurfF (crude 53 (-1074) 971) demoEnv layers (some (2 ^ (1 : ℤ))) b nodata = demoSR.returnSurf demoEnv layers (some (2 ^ (1 : ℤ))) b nodata :=
  C106_surface_sr (i := 4) (B := 128) crude_rounds ⟨by decide, by decide, by decide, by decide, by decide⟩ (by norm_num) (by decide) demoSR_history (by decide) demoSR_bounded (by norm_num)
    layers b nodata

example (layers : List Layer) (b : Bool) (nodata : Option ℚ) :
    demoVR.returnSurfF (crude 53 (-1074) 971) demoEnv layers (some (2 ^ (1 : ℤ))) b nodata = demoVR.returnSurf demoEnv layers (some (2 ^ (1 : ℤ))) b nodata :=
  C106_surface_vr (i := 5) (B := 256) crude_rounds ⟨by decide, by decide, by decide, by decide, by decide⟩ (by norm_num) (by decide +kernel) (by decide) demoVR_history (by decide)
    demoVR_bounded (by norm_num) layers b nodata

/-- a tile with a sounding -/
example : let t := ((Tile.new 0 0 16 false).addPoints ⟨demoFields, [⟨3, 5, 10, 1, 1⟩]⟩ "a").st
    (t.newGridF (crude 53 (-1074) 971) almostTwo .mean).st.edgesX.get? almostTwo ≠ (t.newGrid almostTwo .mean).st.edgesX.get? almostTwo := by
  intro t
  refine (C106_other_resolutions (lo := -1074) (hi := 971) (crude_range (by decide) (by decide)) (by decide) (by decide) rfl ?_ ?_ ?_).2.2
  · show (0 : ℚ) + 16 = 16
    norm_num
  · have h16 : crude 53 (-1074) 971 ((0 : ℚ) + 16 - 0) = 16 := by
      rw [crude_rounds _ ⟨16, 0, by decide, by decide, by decide, by norm_num⟩]
      norm_num
    have hpos : 0 < crude 53 (-1074) 971 (crude 53 (-1074) 971 ((0 : ℚ) + 16 - 0) / almostTwo) := by
      rw [h16]
      exact crude_pos (by decide +kernel)
    obtain ⟨l, hl⟩ := appendEdgeF_some hpos
    have hp : isPowerOfTwo almostTwo = true := by decide +kernel
    unfold Tile.newGridF
    rw [if_pos hp]
    simp only
    rw [show t.minX = 0 from rfl, show t.maxX = 0 + 16 from rfl, show t.minY = 0 from rfl, show t.maxY = 0 + 16 from rfl, hl]
    rfl
  · decide +kernel

end Bathy
