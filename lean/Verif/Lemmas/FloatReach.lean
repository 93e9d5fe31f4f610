import Verif.Lemmas.Float
import Verif.Lemmas.GridReach
import Verif.Lemmas.GridPts
import Verif.Lemmas.GridLeaf
import Verif.Lemmas.LayerAnswers
import Verif.Props.AutoResolution

/-!
# Reachable grids have their corners at multiples of a power of two
-/

namespace Bathy

variable {p : Nat} {lo hi j i k : ℤ} {rnd : ℚ → ℚ} {B x : ℚ}

/-- a multiple of the size of the tiles is a coordinate -/
theorem near_coord (hlo : lo ≤ i) (hhi : i ≤ hi) (h0 : 0 ≤ hi) (hl0 : lo ≤ 0) (h : Near (2 ^ i) B x) (hB : B ≤ 2 ^ p * 2 ^ i) : Coord p lo hi i B x := by
  have hi0 := two_pow_pos i
  refine ⟨near_fl hlo hhi h hB, ?_, h.2⟩
  obtain ⟨⟨a, ha⟩, hb⟩ := h
  refine ⟨a, 0, ?_, hl0, h0, ?_⟩
  · have := le_trans hb hB
    rw [ha, abs_mul, abs_of_pos hi0] at this
    have := le_of_mul_le_mul_right this hi0
    exact_mod_cast this
  · rw [ha, mul_div_assoc, div_self (ne_of_gt hi0), zpow_zero]

theorem fits_self (hlo : lo ≤ i) (hhi : i ≤ hi) (h0 : 0 ≤ hi) (hl0 : lo ≤ 0) : Fits p lo hi i i := ⟨hlo, hhi, h0, le_refl i, by simpa using hl0⟩

namespace Grid
variable {τ : Type} [TileLike τ] {size sub : ℚ} {bs : Bool} {fl : Fields}

/-- the corners of a grid that holds soundings -/
theorem grow_extNear {C : ChildSpec τ size sub bs fl} {g : Grid τ} {A : Store} (h : GrowInv C g A) (hb : Bounded B g) (hne : g.tiles ≠ none) {e : Extents} (he : g.extents = some e) :
    ExtNear size B e := by
  rcases h.body with ⟨-, h2, -⟩ | ⟨-, a, b, nx, ny, T, -, hext⟩
  · exact absurd h2 hne
  · rw [hext] at he
    cases he
    obtain ⟨b1, b2, b3, b4⟩ := hb _ hext
    exact ⟨⟨⟨a, rfl⟩, b1⟩, ⟨⟨a + nx, by push_cast; ring⟩, b2⟩, ⟨⟨b, rfl⟩, b3⟩, ⟨⟨b + ny, by push_cast; ring⟩, b4⟩⟩

omit [TileLike τ] in
theorem tiles_of_not_empty {g : Grid τ} (h : g.isEmpty = false) : g.tiles ≠ none := by
  intro hn
  unfold isEmpty at h
  rw [hn] at h
  cases h

/-- where the tiles of a reachable grid lie -/
theorem tile_corner {C : ChildSpec τ size sub bs fl} (hs : 0 < size) {g : Grid τ} {A : Store} (h : GrowInv C g A) (hb : Bounded B g) {r c : Nat} {t : τ} (ht : g.TileAt r c t) :
    ∃ x y D, C.Rep x y t D ∧ Near size B x ∧ Near size B (x + size) ∧ Near size B y ∧ Near size B (y + size) := by
  obtain ⟨a, b, e, he, h1, h2, h3, -, h4, h5⟩ := tileAt_rep h ht
  obtain ⟨b1, b2, b3, b4⟩ := hb e he
  rw [abs_le] at b1 b2 b3 b4
  have hc : (0 : ℚ) ≤ (c : ℚ) * size := mul_nonneg (Nat.cast_nonneg _) hs.le
  have hr : (0 : ℚ) ≤ (r : ℚ) * size := mul_nonneg (Nat.cast_nonneg _) hs.le
  refine ⟨_, _, _, h3, ⟨⟨a, rfl⟩, abs_le.2 ⟨by linarith, by linarith⟩⟩, ⟨⟨a + 1, by push_cast; ring⟩, abs_le.2 ⟨by linarith, by linarith⟩⟩,
    ⟨⟨b, rfl⟩, abs_le.2 ⟨by linarith, by linarith⟩⟩, ⟨⟨b + 1, by push_cast; ring⟩, abs_le.2 ⟨by linarith, by linarith⟩⟩⟩

theorem mem_flat_tileAt {C : ChildSpec τ size sub bs fl} {g : Grid τ} {A : Store} (h : GrowInv C g A) {T : Arr2 (Option τ)} (hT : g.tiles = some T) {t : τ} (ht : some t ∈ T.flat) :
    ∃ r c, g.TileAt r c t := by
  refine (mem_present (fun T' hT' => ?_)).1 ?_
  · rcases h.body with ⟨-, h2, -⟩ | ⟨-, i, j, nx, ny, T0, hf, -⟩
    · rw [h2] at hT'
      cases hT'
    · rw [hf.tiles] at hT'
      cases hT'
      show T'.flat.length = T'.rows * T'.cols
      rw [hf.rep.2.2.1, hf.rep.1, hf.rep.2.1]
  unfold present
  rw [hT]
  exact List.mem_filterMap.2 ⟨some t, ht, rfl⟩

/-- a subgrid of a reachable grid -/
theorem sub_fixed {C : ChildSpec Tile (2 ^ k) 0 false fl} (hk : k ≤ i) {x y : ℚ} {u : Grid Tile} {A : Store} (h : SubInv C (2 ^ i) x y u A) (hx : Near (2 ^ k) B x) (hy : Near (2 ^ k) B y) :
    FixedOk (2 ^ k) (B + 2 ^ i) (2 ^ k) 0 (Near (2 ^ k) (B + 2 ^ i)) (fun _ => True) u := by
  have hi0 := two_pow_pos i
  have hk0 := two_pow_pos k
  obtain ⟨T, hf⟩ := h.frame
  have ho : ∀ x, Near (2 ^ k) B x → ∀ z ∈ originsOf x (2 ^ k) (ncells (2 ^ i) (2 ^ k)), Near (2 ^ k) (B + 2 ^ i) z := by
    intro x hx z hz
    obtain ⟨n, hn, rfl⟩ := List.mem_map.1 hz
    have h1 := lt_ncells hk0 (List.mem_range.1 hn)
    have h2 : (0 : ℚ) ≤ (n : ℚ) * 2 ^ k := mul_nonneg (Nat.cast_nonneg _) hk0.le
    have h3 := abs_le.1 hx.2
    obtain ⟨a, ha⟩ := hx.1
    exact ⟨⟨a + n, by rw [ha]; push_cast; ring⟩, abs_le.2 ⟨by linarith [h3.1], by linarith [h3.2]⟩⟩
  refine ⟨h.canGrow, ⟨hf.tileSize, hf.subtileSize, ⟨?_, ?_⟩, fun _ _ _ _ => trivial⟩, _, h.extents, hx.mono (by linarith), hx.add (near_pow hk), hy.mono (by linarith), hy.add (near_pow hk)⟩
  · rw [hf.txs]
    exact ho x hx
  · rw [hf.tys]
    exact ho y hy

end Grid

theorem Near.finer (h : Near (2 ^ i) B x) (hk : k ≤ i) : Near (2 ^ k) B x := by
  obtain ⟨c, hc⟩ := pow_mult hk
  obtain ⟨⟨a, ha⟩, hb⟩ := h
  exact ⟨⟨a * c, by rw [ha, hc]; push_cast; ring⟩, hb⟩

/-- counting the rounds of a loop -/
theorem forEach_count {σ α : Type} {f g : σ → α → Res σ} {l : List α} (P : Nat → σ → Prop) (n : Nat)
    (h : ∀ m s, ∀ x ∈ l, m < n → P m s → f s x = g s x ∧ ((g s x).err = none → P (m + 1) (g s x).st)) (m : Nat) (s : σ) (hm : m + l.length ≤ n) (hp : P m s) :
    Res.forEach l s f = Res.forEach l s g := by
  induction l generalizing m s with
  | nil => rfl
  | cons x l ih =>
    rw [List.length_cons] at hm
    obtain ⟨h1, h2⟩ := h m s x List.mem_cons_self (by omega) hp
    rw [Res.forEach_cons, Res.forEach_cons, h1]
    cases he : (g s x).err with
    | some e => rw [Grid.andThen_of_err he, Grid.andThen_of_err he]
    | none =>
      rw [Res.andThen_of_err_none he, Res.andThen_of_err_none he]
      exact ih (fun m s y hy => h m s y (List.mem_cons_of_mem _ hy)) (m + 1) _ (by omega) (h2 he)

end Bathy
