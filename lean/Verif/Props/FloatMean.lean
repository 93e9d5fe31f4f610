import Verif.Lemmas.FloatCells
import Verif.Lemmas.FloatNearest
import Verif.Props.TileGridding
import Verif.Spec.DemoEnv

/-!
# C107: gridding in floating point arithmetic

C17, C18, C20 and C27 are about exact arithmetic.  Here every `+ * /` of `np_grid_mean` and of the rounding to 3 decimals is followed by a rounding, and the layers
have another format (float32) than the soundings.
-/

namespace Bathy

variable {A A' : Arith} {env env' : Env} {x y size res η η' Ω Ω' Z : ℚ} {cf sf : Fmt} {bs : Bool} {fl : Fields} {F F' : Family} {t t' : Tile} {S S' : Store} {clear clear' : Bool}

/-- the depths, and the uncertainties if there are any, are at most `Z` -/
def BoundedBy (fl : Fields) (Z : ℚ) (pts : List Pt) : Prop :=
  ∀ p ∈ pts, |p.z| ≤ Z ∧ (fl.hasTvu = true → |p.tvu| ≤ Z) ∧ (fl.hasThu = true → |p.thu| ≤ Z)

/-- **C107** (mean): whatever happened to the tile before, the call succeeds; each cell of the depths and of the uncertainties is NaN iff it is empty, and otherwise has 3
decimals and is at most `meanError` away from the exact mean of the soundings of the cell; the density is exact. -/
theorem C107_mean (hw : 0 < size) (h : FloatHistory A env x y size bs fl F t S) (hA : Machine cf sf A) (hroom : Room cf sf S.allPts.length Z)
    (hZ : BoundedBy fl Z S.allPts) (hres : isPowerOfTwo res = true) (hF : F = .plain ∨ clear = true) (params : Option GridParams) (border : Option PtArr) :
    let out := A.gridAt env t .mean res clear params border
    out.err = none ∧
      (∃ a, out.st.layerAt res (mainLayer bs) = some a ∧ EachCell a ⌈size / res⌉.toNat x y res S.allPts (NearMeanCell A.sto cf sf Pt.z)) ∧
      (∃ a, out.st.layerAt res .density = some a ∧ EachCell a ⌈size / res⌉.toNat x y res S.allPts CountCell) ∧
      (fl.hasTvu = true → ∃ a, out.st.layerAt res .vertical = some a ∧ EachCell a ⌈size / res⌉.toNat x y res S.allPts (NearMeanCell A.sto cf sf Pt.tvu)) ∧
      (fl.hasThu = true → ∃ a, out.st.layerAt res .horizontal = some a ∧ EachCell a ⌈size / res⌉.toNat x y res S.allPts (NearMeanCell A.sto cf sf Pt.thu)) := by
  intro out
  have key := float_grid hw h (alg := .mean) (F' := .plain) rfl (hF.imp Eq.symm id) hres params border
  simp only at key
  obtain ⟨L, hL, ⟨a1, l1, e1⟩, ⟨a2, l2, e2⟩, hv, hh⟩ := Arith.canon_mean A hA env (dk := mainLayer bs) (mainLayer_cases bs) hw (isPowerOfTwo_pos hres)
    (⟨fl, S.allPts⟩ : PtArr) (float_box hw h) params border hroom (fun p hp => (hZ p hp).1) (fun hf p hp => (hZ p hp).2.1 hf)
    (fun hf p hp => (hZ p hp).2.2 hf)
  rw [mainLayer_new, hL] at key
  obtain ⟨k1, k2, -⟩ := key
  refine ⟨k1, ⟨a1, (layerAt_of_core k2 (mainLayer_core bs)).trans l1, e1⟩, ⟨a2, (layerAt_of_core k2 rfl).trans l2, e2⟩, ?_, ?_⟩
  · intro hf
    obtain ⟨a, la, ea⟩ := hv hf
    exact ⟨a, (layerAt_of_core k2 rfl).trans la, ea⟩
  · intro hf
    obtain ⟨a, la, ea⟩ := hh hf
    exact ⟨a, (layerAt_of_core k2 rfl).trans la, ea⟩

/-- **C107** (shoalest): each cell of the depths is the least depth of its soundings, rounded to 3 decimals in floating point arithmetic; it is NaN iff it is empty; the density is exact.
No assumption about the rounding. -/
theorem C107_shoalest (hw : 0 < size) (h : FloatHistory A env x y size bs fl F t S) (hres : isPowerOfTwo res = true) (hF : F = .plain ∨ clear = true)
    (params : Option GridParams) (border : Option PtArr) :
    let out := A.gridAt env t .shoalest res clear params border
    out.err = none ∧
      (∃ a, out.st.layerAt res (mainLayer bs) = some a ∧ EachCell a ⌈size / res⌉.toNat x y res S.allPts (ShoalCell A.round3)) ∧
      (∃ a, out.st.layerAt res .density = some a ∧ EachCell a ⌈size / res⌉.toNat x y res S.allPts CountCell) := by
  intro out
  have key := float_grid hw h (alg := .shoalest) (F' := .plain) rfl (hF.imp Eq.symm id) hres params border
  simp only at key
  obtain ⟨L, hL, ⟨a1, l1, e1⟩, ⟨a2, l2, e2⟩⟩ := Arith.canon_shoalest A env (dk := mainLayer bs) (mainLayer_cases bs) hw (isPowerOfTwo_pos hres)
    (⟨fl, S.allPts⟩ : PtArr) (float_box hw h) params border
  rw [mainLayer_new, hL] at key
  obtain ⟨k1, k2, -⟩ := key
  exact ⟨k1, ⟨a1, (layerAt_of_core k2 (mainLayer_core bs)).trans l1, e1⟩, ⟨a2, (layerAt_of_core k2 rfl).trans l2, e2⟩⟩

/-- **C107** (shoalest, error): each cell with soundings is at most half a millimetre and the error of three roundings away from its least depth. -/
theorem C107_shoalest_near (hw : 0 < size) (h : FloatHistory A env x y size bs fl F t S) (hA : Machine cf sf A) (hroom : Room cf sf S.allPts.length Z)
    (hZ : BoundedBy fl Z S.allPts) (hres : isPowerOfTwo res = true) (hF : F = .plain ∨ clear = true) (params : Option GridParams) (border : Option PtArr) :
    ∃ a, (A.gridAt env t .shoalest res clear params border).st.layerAt res (mainLayer bs) = some a ∧
      EachCell a ⌈size / res⌉.toNat x y res S.allPts (NearShoalCell A.sto sf) := by
  obtain ⟨-, ⟨a, la, e0, e1, e2, e3⟩, -⟩ := C107_shoalest hw h hres hF params border
  refine ⟨a, la, e0, e1, e2, ?_⟩
  intro r c hr hc
  obtain ⟨v, hv, v1, v2⟩ := e3 r c hr hc
  refine ⟨v, hv, v1, ?_⟩
  intro hne
  obtain ⟨m, hm, rfl⟩ := v2 hne
  refine ⟨m, _, hm, rfl, ⟨_, rfl⟩, ?_⟩
  obtain ⟨p, hp, hpm⟩ := List.mem_map.1 hm.1
  have hp' := (List.mem_filter.1 hp).1
  exact A.shoal_near hA (by rw [← hpm]; exact (hZ p hp').1) hroom

theorem inCell_perm {pts pts' : List Pt} (h : pts.Perm pts') (r c : Nat) : (inCell x y res r c pts).Perm (inCell x y res r c pts') := h.filter _

/-- **C107** (order of the soundings, shoalest): the depths and the density do not depend on the order in which the soundings were added, also in floating point arithmetic. -/
theorem C107_order_shoalest (hw : 0 < size) (h : FloatHistory A env x y size bs fl F t S) (h' : FloatHistory A env' x y size bs fl F' t' S')
    (hp : S.allPts.Perm S'.allPts) (hres : isPowerOfTwo res = true) (hF : F = .plain ∨ clear = true) (hF' : F' = .plain ∨ clear' = true)
    (params params' : Option GridParams) (border border' : Option PtArr) :
    let v := (A.gridAt env t .shoalest res clear params border).st
    let v' := (A.gridAt env' t' .shoalest res clear' params' border').st
    v.layerAt res (mainLayer bs) = v'.layerAt res (mainLayer bs) ∧ v.layerAt res .density = v'.layerAt res .density := by
  intro v v'
  obtain ⟨-, ⟨a, la, ea⟩, ⟨b, lb, eb⟩⟩ := C107_shoalest hw h hres hF params border
  obtain ⟨-, ⟨a', la', ea'⟩, ⟨b', lb', eb'⟩⟩ := C107_shoalest hw h' hres hF' params' border'
  constructor
  · rw [la, la', eachCell_det ?_ hp ea ea']
    intro ps ps' v w hp h1 h2
    by_cases he : ps = []
    · subst he
      rw [h1.1 rfl, h2.1 hp.nil_eq.symm]
    · have he' : ps' ≠ [] := fun h => he (by rw [h] at hp; exact hp.eq_nil)
      obtain ⟨m, hm, rfl⟩ := h1.2 he
      obtain ⟨m', hm', rfl⟩ := h2.2 he'
      have : m = m' := le_antisymm (hm.2 _ ((hp.map Pt.z).mem_iff.2 hm'.1)) (hm'.2 _ ((hp.map Pt.z).mem_iff.1 hm.1))
      rw [this]
  · rw [lb, lb', eachCell_det countCell_det hp eb eb']

/-- two values of a cell: both NaN and the cell is empty, or at most `d` apart -/
def CloseCell (d : ℚ) (ps : List Pt) : Option ℚ → Option ℚ → Prop
  | none, none => ps = []
  | some v, some w => |v - w| ≤ d
  | _, _ => False

/-- **C107** (order of the soundings, mean): two tiles with the same soundings, added in whatever order, to machines that add up in different orders: the depths of each cell are at
most twice `meanError` apart.  They need not be equal, see `C107_order_matters`. -/
theorem C107_order_mean_partial (hw : 0 < size) (h : FloatHistory A env x y size bs fl F t S) (h' : FloatHistory A' env' x y size bs fl F' t' S')
    (hp : S.allPts.Perm S'.allPts) (hA : Machine cf sf A) (hA' : Machine cf sf A') (hroom : Room cf sf S.allPts.length Z)
    (hZ : BoundedBy fl Z S.allPts) (hres : isPowerOfTwo res = true) (hF : F = .plain ∨ clear = true) (hF' : F' = .plain ∨ clear' = true)
    (params params' : Option GridParams) (border border' : Option PtArr) :
    ∃ a a', (A.gridAt env t .mean res clear params border).st.layerAt res (mainLayer bs) = some a ∧
      (A'.gridAt env' t' .mean res clear' params' border').st.layerAt res (mainLayer bs) = some a' ∧
      ∀ r c, r < ⌈size / res⌉.toNat → c < ⌈size / res⌉.toNat → ∃ v v', a.get? r c = some v ∧ a'.get? r c = some v' ∧
        let ps := inCell x y res r c S.allPts
        CloseCell (2 * meanError cf sf ps.length (meanOf (ps.map (fun p => |p.z|)))) ps v v' := by
  obtain ⟨-, ⟨a, la, -, -, -, ea⟩, -⟩ := C107_mean hw h hA hroom hZ hres hF params border
  obtain ⟨-, ⟨a', la', -, -, -, ea'⟩, -⟩ := C107_mean hw h' hA' (by rwa [← hp.length_eq]) (fun p hp' => hZ p (hp.mem_iff.2 hp')) hres hF' params' border'
  refine ⟨a, a', la, la', ?_⟩
  intro r c hr hc
  obtain ⟨v, hv, v1, v2⟩ := ea r c hr hc
  obtain ⟨v', hv', w1, w2⟩ := ea' r c hr hc
  refine ⟨v, v', hv, hv', ?_⟩
  have hq := inCell_perm (x := x) (y := y) (res := res) hp r c
  intro ps
  by_cases he : inCell x y res r c S.allPts = []
  · rw [v1 he, w1 (by rw [he] at hq; exact hq.nil_eq.symm)]
    exact he
  · have he' : inCell x y res r c S'.allPts ≠ [] := fun h => he (by rw [h] at hq; exact hq.eq_nil)
    obtain ⟨w, rfl, -, b1⟩ := v2 he
    obtain ⟨w', rfl, -, b2⟩ := w2 he'
    have e1 : meanOf ((inCell x y res r c S'.allPts).map Pt.z) = meanOf ((inCell x y res r c S.allPts).map Pt.z) := by
      unfold meanOf; rw [(hq.map Pt.z).sum_eq, (hq.map Pt.z).length_eq]
    have e2 : meanOf ((inCell x y res r c S'.allPts).map (fun p => |p.z|)) = meanOf ((inCell x y res r c S.allPts).map (fun p => |p.z|)) := by
      unfold meanOf; rw [(hq.map _).sum_eq, (hq.map _).length_eq]
    rw [e1, e2, ← hq.length_eq] at b2
    show |w - w'| ≤ _
    rw [abs_le] at b1 b2 ⊢
    constructor <;> linarith

theorem pow_bound {v : ℚ} (hv : 0 ≤ v) (k : Nat) : (1 + v) ^ k * (1 - k * v) ≤ 1 := by
  induction k with
  | zero => simp
  | succ k ih =>
    have h0 : 0 ≤ (1 + v) ^ k := by positivity
    have h1 : (1 + v) * (1 - ((k + 1 : Nat) : ℚ) * v) ≤ 1 - k * v := by
      push_cast
      have : 0 ≤ (k : ℚ) * (v * v) := by positivity
      have : 0 ≤ v * v := by positivity
      have e : (1 + v) * (1 - ((k : ℚ) + 1) * v) = 1 - k * v - (k * (v * v) + v * v) := by ring
      rw [e]; linarith
    have h2 := mul_le_mul_of_nonneg_left h1 h0
    rw [pow_succ, mul_assoc]
    linarith

theorem pow_small {k : Nat} (hk : k ≤ 2 ^ 24 + 2) : ((1 : ℚ) + 1 / 2 ^ 53) ^ k ≤ 1 + 1 / 2 ^ 28 := by
  have h1 := pow_bound (v := 1 / 2 ^ 53) (by positivity) k
  have hk' : (k : ℚ) ≤ 2 ^ 24 + 2 := by exact_mod_cast hk
  have h2 : (1 : ℚ) - (2 ^ 24 + 2) / 2 ^ 53 ≤ 1 - k * (1 / 2 ^ 53) := by
    have := mul_le_mul_of_nonneg_right hk' (show (0 : ℚ) ≤ 1 / 2 ^ 53 by positivity)
    linarith
  have h0 : (0 : ℚ) ≤ (1 + 1 / 2 ^ 53) ^ k := by positivity
  have h3 := mul_le_mul_of_nonneg_left h2 h0
  have h4 : (1 : ℚ) ≤ (1 + 1 / 2 ^ 28) * (1 - (2 ^ 24 + 2) / 2 ^ 53) := by norm_num
  have h5 : (0 : ℚ) < 1 - (2 ^ 24 + 2) / 2 ^ 53 := by norm_num
  refine le_of_mul_le_mul_right ?_ h5
  linarith

theorem room_numpy {n : Nat} (hη0 : 0 ≤ η) (hη : η ≤ 1 / 10 ^ 9) (hη' : η' ≤ 1 / 10 ^ 9) (hΩ : 10 ^ 15 ≤ Ω) (hΩ' : 10 ^ 15 ≤ Ω') (hn : n ≤ 2 ^ 24)
    (hZ0 : 0 ≤ Z) (hZ : Z ≤ 12000) : Room (fmt64 η Ω) (fmt32 η' Ω') n Z := by
  have h1 : ((1 : ℚ) + 1 / 2 ^ 53) ^ n ≤ 2 := le_trans (pow_small (by omega)) (by norm_num)
  have h2 : (n : ℚ) ≤ 2 ^ 24 := by exact_mod_cast hn
  have h3 : (n : ℚ) * (Z + 2 * η) ≤ 2 ^ 24 * 12001 :=
    mul_le_mul h2 (by linarith) (by linarith) (by norm_num)
  have h4 := mul_le_mul h1 h3 (mul_nonneg (by positivity) (by linarith)) (by norm_num)
  have h5 : (2 : ℚ) * (2 ^ 24 * 12001) ≤ 10 ^ 15 := by norm_num
  have h6 : ((1 : ℚ) + 1 / 2 ^ 53) ^ n * (Z + 2 * η) ≤ 2 * 12001 := mul_le_mul h1 (by linarith) (by linarith) (by norm_num)
  have h7 : (1 + 1 / 2 ^ 24 : ℚ) ^ 2 * (((1 : ℚ) + 1 / 2 ^ 53) ^ n * (Z + 2 * η) + η') ≤ (1 + 1 / 2 ^ 24) ^ 2 * (2 * 12001 + 1) := mul_le_mul_of_nonneg_left (by linarith) (by positivity)
  have h8 : (1000 : ℚ) * ((1 + 1 / 2 ^ 24) ^ 2 * (2 * 12001 + 1)) + 1 + 1 ≤ 10 ^ 15 := by norm_num
  refine ⟨?_, ?_⟩
  · show ((1 : ℚ) + 1 / 2 ^ 53) ^ n * (n * (Z + 2 * η)) ≤ Ω
    linarith
  · show (1000 : ℚ) * ((1 + 1 / 2 ^ 24) ^ 2 * ((1 + 1 / 2 ^ 53) ^ n * (Z + 2 * η) + η')) + η' + 1 ≤ Ω'
    linarith

/-- `roundError` of single precision -/
theorem roundError_single {Ω' : ℚ} (hη' : η' ≤ 1 / 10 ^ 9) {B : ℚ} (hB : 0 ≤ B) : roundError (fmt32 η' Ω') B ≤ 50001 / 10 ^ 8 + 1 / 10 ^ 8 + B * (18 / 10 ^ 8) := by
  show (1 + 1 / 2 ^ 24 : ℚ) ^ 3 * (B + η') - B + ((1 + 1 / 2 ^ 24) * ((η' + 1 / 2) / 1000) + η') ≤ _
  have h1 : (1 + 1 / 2 ^ 24 : ℚ) ^ 3 * η' ≤ (1 + 1 / 2 ^ 24) ^ 3 * (1 / 10 ^ 9) := mul_le_mul_of_nonneg_left hη' (by norm_num)
  have h2 : ((1 + 1 / 2 ^ 24 : ℚ) ^ 3 - 1) * B ≤ 18 / 10 ^ 8 * B := mul_le_mul_of_nonneg_right (by norm_num) hB
  have h3 : (1 + 1 / 2 ^ 24 : ℚ) * ((η' + 1 / 2) / 1000) ≤ (1 + 1 / 2 ^ 24) * ((1 / 10 ^ 9 + 1 / 2) / 1000) := mul_le_mul_of_nonneg_left (by linarith) (by norm_num)
  have h4 : (1 + 1 / 2 ^ 24 : ℚ) ^ 3 * (1 / 10 ^ 9) + (1 + 1 / 2 ^ 24) * ((1 / 10 ^ 9 + 1 / 2) / 1000) + 1 / 10 ^ 9 ≤ 50001 / 10 ^ 8 + 1 / 10 ^ 8 := by norm_num
  have e : (1 + 1 / 2 ^ 24 : ℚ) ^ 3 * (B + η') - B = ((1 + 1 / 2 ^ 24 : ℚ) ^ 3 - 1) * B + (1 + 1 / 2 ^ 24 : ℚ) ^ 3 * η' := by ring
  rw [e]
  linarith

/-- half a millimetre and a hundredth of it, and 0.2 mm for every kilometre -/
def singleError (Z : ℚ) : ℚ := 51 / 10 ^ 5 + Z * (2 / 10 ^ 7)

theorem roundError_numpy {Ω' : ℚ} (hη' : η' ≤ 1 / 10 ^ 9) {B : ℚ} (hB : 0 ≤ B) (hBZ : B ≤ Z) : roundError (fmt32 η' Ω') B ≤ singleError Z := by
  have := roundError_single (Ω' := Ω') hη' hB
  have h1 : (50001 / 10 ^ 8 + 1 / 10 ^ 8 : ℚ) ≤ 51 / 10 ^ 5 := by norm_num
  unfold singleError
  linarith

theorem meanError_numpy {Ω Ω' : ℚ} (hη0 : 0 ≤ η) (hη : η ≤ 1 / 10 ^ 9) (hη' : η' ≤ 1 / 10 ^ 9) {k : Nat} (hk : k ≤ 2 ^ 24) {M : ℚ} (hM0 : 0 ≤ M) (hM1 : M ≤ Z) :
    meanError (fmt64 η Ω) (fmt32 η' Ω') k M ≤ singleError Z := by
  show ((1 : ℚ) + 1 / 2 ^ 53) ^ k * (M + 2 * η) - M + roundError (fmt32 η' Ω') (((1 : ℚ) + 1 / 2 ^ 53) ^ k * (M + 2 * η)) ≤ _
  have hq := pow_small (k := k) (by omega)
  have hq0 : (0 : ℚ) ≤ ((1 : ℚ) + 1 / 2 ^ 53) ^ k := by positivity
  generalize ((1 : ℚ) + 1 / 2 ^ 53) ^ k = Q at hq hq0
  have h1 : Q * (M + 2 * η) ≤ (1 + 1 / 2 ^ 28) * (M + 2 * η) := mul_le_mul_of_nonneg_right hq (by linarith)
  have h2 := roundError_single (Ω' := Ω') hη' (mul_nonneg hq0 (show 0 ≤ M + 2 * η by linarith))
  have e : (1 + 1 / 2 ^ 28 : ℚ) * (M + 2 * η) = M + 2 * η + 1 / 2 ^ 28 * M + 1 / 2 ^ 28 * (2 * η) := by ring
  rw [e] at h1
  have h3 : (1 / 2 ^ 28 : ℚ) * M ≤ 1 / 2 ^ 28 * Z := mul_le_mul_of_nonneg_left hM1 (by norm_num)
  have h4 : (1 / 2 ^ 28 : ℚ) * (2 * η) ≤ 2 * η := by linarith
  have h5 : (1 / 2 ^ 28 : ℚ) * Z * (1 + 18 / 10 ^ 8) + Z * (18 / 10 ^ 8) ≤ Z * (2 / 10 ^ 7) := by linarith
  unfold singleError
  generalize Q * (M + 2 * η) = X at *
  linarith

theorem near_numpy {sto : ℚ → ℚ} {Ω Ω' : ℚ} (hη0 : 0 ≤ η) (hη : η ≤ 1 / 10 ^ 9) (hη' : η' ≤ 1 / 10 ^ 9) {f : Pt → ℚ} {ps : List Pt} {v : Option ℚ} (hlen : ps.length ≤ 2 ^ 24)
    (hmem : ∀ p ∈ ps, |f p| ≤ Z) (h : NearMeanCell sto (fmt64 η Ω) (fmt32 η' Ω') f ps v) :
    (ps = [] → v = none) ∧ (ps ≠ [] → ∃ w, v = some w ∧ |w - meanOf (ps.map f)| ≤ singleError Z) := by
  refine ⟨h.1, ?_⟩
  intro hne
  obtain ⟨w, hw', -, hb⟩ := h.2 hne
  refine ⟨w, hw', le_trans hb ?_⟩
  have hM := Arith.abs_sum_le (l := ps.map f) (Z := Z) (by
    intro z hz
    obtain ⟨p, hp, rfl⟩ := List.mem_map.1 hz
    exact hmem p hp)
  have hps : (0 : ℚ) < ps.length := by exact_mod_cast List.length_pos_iff.2 hne
  rw [List.map_map, List.length_map] at hM
  refine meanError_numpy hη0 hη hη' hlen ?_ ?_
  · unfold meanOf; rw [List.length_map]
    exact div_nonneg hM.1 hps.le
  · unfold meanOf; rw [List.length_map, div_le_iff₀ hps]
    have := hM.2
    rw [mul_comm] at this
    exact this

/-- **C107** (sums in double, layers in single precision): the depths of a tile with at most 2^24 soundings of at most `Z ≤ 12000` m are at most 0.51 mm, and 0.2 mm for every 1000 m of `Z`,
away from the mean of the soundings of the cell. -/
theorem C107_numpy (hw : 0 < size) (h : FloatHistory A env x y size bs fl F t S) (hA : Machine (fmt64 η Ω) (fmt32 η' Ω') A) (hη : η ≤ 1 / 10 ^ 9) (hη' : η' ≤ 1 / 10 ^ 9)
    (hΩ : 10 ^ 15 ≤ Ω) (hΩ' : 10 ^ 15 ≤ Ω') (hn : S.allPts.length ≤ 2 ^ 24) (hZ0 : 0 ≤ Z) (hZ1 : Z ≤ 12000) (hZ : BoundedBy fl Z S.allPts) (hres : isPowerOfTwo res = true)
    (hF : F = .plain ∨ clear = true) (params : Option GridParams) (border : Option PtArr) :
    ∃ a, (A.gridAt env t .mean res clear params border).st.layerAt res (mainLayer bs) = some a ∧
      EachCell a ⌈size / res⌉.toNat x y res S.allPts
        (fun ps v => (ps = [] → v = none) ∧ (ps ≠ [] → ∃ w, v = some w ∧ |w - meanOf (ps.map Pt.z)| ≤ 51 / 10 ^ 5 + Z * (2 / 10 ^ 7))) := by
  obtain ⟨-, ⟨a, la, e0, e1, e2, e3⟩, -⟩ :=
    C107_mean hw h hA (room_numpy hA.calcs.η_nonneg hη hη' hΩ hΩ' hn hZ0 hZ1) hZ hres hF params border
  refine ⟨a, la, e0, e1, e2, ?_⟩
  intro r c hr hc
  obtain ⟨v, hv, hnear⟩ := e3 r c hr hc
  exact ⟨v, hv, near_numpy hA.calcs.η_nonneg hη hη' (le_trans (List.length_filter_le _ _) hn) (fun p hp => (hZ p (List.mem_filter.1 hp).1).1) hnear⟩

/-! ### the order matters, and so does the format of the layers -/

/-- soundings in one place, the depths stored with 53 binary digits -/
def stored (l : List ℚ) : List Pt := l.map (fun z => { x := 1 / 2, y := 1 / 2, z := nearestEven 53 z })

/-- 3.38, 10.75, 1.48, 37.656000747680665 -/
def orderA : List Pt := stored [338 / 100, 1075 / 100, 148 / 100, 37656000747680665 / 10 ^ 15]

/-- the same depths, 3.38 added last -/
def orderB : List Pt := stored [1075 / 100, 148 / 100, 37656000747680665 / 10 ^ 15, 338 / 100]

/-- a tile with these soundings -/
def tileOf (pts : List Pt) : Tile := ((Tile.new 0 0 1 false).addPoints ⟨⟨false, false⟩, pts⟩ "a").st

theorem tileOf_history {pts : List Pt} (h : ∀ p ∈ pts, InBox 0 0 1 p) : FloatHistory numpyArith demoEnv 0 0 1 false ⟨false, false⟩ .plain (tileOf pts) [("a", pts)] :=
  .first .plain pts "a" h

/-- **C107** (the order matters): the depth that 'mean' gives depends on the order of the soundings, by a millimetre: 13.316 or 13.317 for the same four soundings. -/
theorem C107_order_matters : ∃ (t t' : Tile) (S S' : Store),
    FloatHistory numpyArith demoEnv 0 0 1 false ⟨false, false⟩ .plain t S ∧ FloatHistory numpyArith demoEnv 0 0 1 false ⟨false, false⟩ .plain t' S' ∧
    S.allPts.Perm S'.allPts ∧
    ((numpyArith.gridAt demoEnv t .mean 1 false none none).st.layerAt 1 .depth).map Arr2.flat = some [some (nearestEven 24 (13316 / 1000))] ∧
    ((numpyArith.gridAt demoEnv t' .mean 1 false none none).st.layerAt 1 .depth).map Arr2.flat = some [some (nearestEven 24 (13317 / 1000))] ∧
    nearestEven 24 (13316 / 1000) ≠ nearestEven 24 (13317 / 1000) := by
  refine ⟨tileOf orderA, tileOf orderB, _, _, tileOf_history (by decide +kernel), tileOf_history (by decide +kernel), by decide +kernel, by decide +kernel, by decide +kernel,
    by decide +kernel⟩

/-- **C107** (single precision): the 3 decimals that the layers are rounded to are not there: a cell with one sounding of 8360.271 m is stored as a number that is more than 1.4 mm off, with 'mean'
as with 'shoalest'. -/
theorem C107_single_precision : ∃ (t : Tile) (S : Store) (w : ℚ),
    FloatHistory numpyArith demoEnv 0 0 1 false ⟨false, false⟩ .plain t S ∧ S.allPts.map Pt.z = [nearestEven 53 (8360271 / 1000)] ∧
    ((numpyArith.gridAt demoEnv t .mean 1 false none none).st.layerAt 1 .depth).map Arr2.flat = some [some w] ∧
    ((numpyArith.gridAt demoEnv t .shoalest 1 false none none).st.layerAt 1 .depth).map Arr2.flat = some [some w] ∧
    14 / 10000 < |w - 8360271 / 1000| := by
  refine ⟨tileOf (stored [8360271 / 1000]), _, numpyArith.round3 (nearestEven 53 (8360271 / 1000)), tileOf_history (by decide +kernel), by decide +kernel, by decide +kernel, by decide +kernel,
    by decide +kernel⟩

/-- the hypotheses can be met -/
example : FloatHistory numpyArith demoEnv 0 0 1 false ⟨false, false⟩ .plain (tileOf orderA) [("a", orderA)] ∧
    Machine (fmt64 0 (10 ^ 15)) (fmt32 0 (10 ^ 15)) numpyArith ∧ Room (fmt64 0 (10 ^ 15)) (fmt32 0 (10 ^ 15)) (Store.allPts [("a", orderA)]).length 38 ∧
    BoundedBy ⟨false, false⟩ 38 (Store.allPts [("a", orderA)]) := by
  refine ⟨tileOf_history (by decide +kernel), numpyArith_machine _ _, room_numpy (le_refl _) (by norm_num) (by norm_num) (by norm_num) (by norm_num) (by decide +kernel) (by norm_num)
    (by norm_num), ?_⟩
  unfold BoundedBy; decide +kernel

end Bathy
