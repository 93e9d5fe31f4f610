import Verif.Lemmas.FloatTile

/-!
# The layers of a tile gridded in floating point arithmetic, cell by cell
-/

namespace Bathy
namespace Arith
open Tile

variable {minX minY width res : ℚ}

theorem room_mono {cf sf : Fmt} {Z : ℚ} (hu : 0 ≤ cf.u) (hη : 0 ≤ cf.η) (hZ : 0 ≤ Z) {k n : Nat} (hkn : k ≤ n) (h : Room cf sf n Z) : Room cf sf k Z := by
  obtain ⟨r1, r2⟩ := h
  have h1 : (1 + cf.u) ^ k ≤ (1 + cf.u) ^ n := pow_u_mono hu hkn
  have h2 : (k : ℚ) * (Z + 2 * cf.η) ≤ n * (Z + 2 * cf.η) := mul_le_mul_of_nonneg_right (by exact_mod_cast hkn) (by linarith)
  have h3 : 0 ≤ (k : ℚ) * (Z + 2 * cf.η) := mul_nonneg (by positivity) (by linarith)
  have h4 := mul_le_mul h1 h2 h3 (by have := one_le_pow_u hu n; linarith)
  have h5 : (1 + cf.u) ^ k * (Z + 2 * cf.η) ≤ (1 + cf.u) ^ n * (Z + 2 * cf.η) := mul_le_mul_of_nonneg_right h1 (by linarith)
  have h6 := mul_le_mul_of_nonneg_left (add_le_add_left h5 sf.η) (sq_nonneg (1 + sf.u))
  exact ⟨by linarith, by linarith⟩

theorem sumMean_near (A : Arith) {cf sf : Fmt} (hA : Machine cf sf A) {vals : List ℚ} {Z : ℚ} {n : Nat} (hn : vals.length ≤ n)
    (hroom : Room cf sf n Z) (hZ : ∀ z ∈ vals, |z| ≤ Z) {v : ℚ} (h : A.SumMean vals v) :
    |A.round3 v - meanOf vals| ≤ meanError cf sf vals.length (meanOf (vals.map (|·|))) := by
  obtain ⟨l, s, hl, hp, hs, rfl⟩ := h
  have hZ0 : 0 ≤ Z := by
    obtain ⟨z, hz⟩ := List.exists_mem_of_ne_nil l hl
    exact le_trans (abs_nonneg z) (hZ z (hp.mem_iff.1 hz))
  obtain ⟨s', hs', -, he⟩ := mean_err hA hl (fun z hz => hZ z (hp.mem_iff.1 hz))
    (room_mono hA.calcs.u_nonneg hA.calcs.η_nonneg hZ0 (by rw [hp.length_eq]; exact hn) hroom)
  rw [hs] at hs'
  cases hs'
  have e1 : meanOf l = meanOf vals := by unfold meanOf; rw [hp.sum_eq, hp.length_eq]
  have e2 : meanOf (l.map (|·|)) = meanOf (vals.map (|·|)) := by
    unfold meanOf; rw [(hp.map _).sum_eq, (hp.map _).length_eq]
  rw [e1, e2, hp.length_eq] at he
  rwa [hp.length_eq]

theorem mean_cells (A : Arith) {cf sf : Fmt} (hA : Machine cf sf A) (hw : 0 < width) (hr : 0 < res) {pts : List Pt}
    (hbox : ∀ p ∈ pts, InBox minX minY width p) (f : Pt → ℚ) {Z : ℚ} (hroom : Room cf sf pts.length Z) (hZ : ∀ p ∈ pts, |f p| ≤ Z)
    {out : LayerArr} (h : A.MeanLayer (pts.map (fun p => (cellOf minX minY res (ncells width res) p : Int))) (pts.map f)
      (Arr2.fill (ncells width res) (ncells width res) none) out (ncells width res) (ncells width res)) :
    EachCell (A.roundLayer out) (ncells width res) minX minY res pts (NearMeanCell A.sto cf sf f) := by
  obtain ⟨hs, hv⟩ := h
  refine ⟨hasShape_len' (A.roundLayer_shape hs), hs.2.1, hs.2.2, ?_⟩
  intro r c hr' hc
  have := hv r c hr' hc
  rw [cellVals_inCell hw hr pts f hbox hc] at this
  unfold roundLayer
  rw [Arr2.get?_map]
  by_cases he : inCell minX minY res r c pts = []
  · rw [this.1 (by rw [he]; rfl), Arr2.get?_fill _ hr' hc]
    exact ⟨none, rfl, fun _ => rfl, fun h => absurd he h⟩
  · obtain ⟨v, h1, h2⟩ := this.2 (by simpa using he)
    rw [h1]
    refine ⟨_, rfl, fun h => absurd h he, fun _ => ⟨_, rfl, ⟨_, rfl⟩, ?_⟩⟩
    have := A.sumMean_near hA (n := pts.length) (by rw [List.length_map]; exact List.length_filter_le _ _) hroom (by
      intro z hz
      obtain ⟨p, hp, rfl⟩ := List.mem_map.1 hz
      exact hZ p (List.mem_filter.1 hp).1) h2
    rwa [List.length_map, List.map_map] at this

theorem min_cells (A : Arith) (hw : 0 < width) (hr : 0 < res) {pts : List Pt} (hbox : ∀ p ∈ pts, InBox minX minY width p)
    {out : LayerArr} (h : MinLayer (pts.map (fun p => (cellOf minX minY res (ncells width res) p : Int))) (pts.map Pt.z)
      (Arr2.fill (ncells width res) (ncells width res) none) out (ncells width res) (ncells width res)) :
    EachCell (A.roundLayer out) (ncells width res) minX minY res pts (ShoalCell A.round3) := by
  obtain ⟨hs, hv⟩ := h
  refine ⟨hasShape_len' (A.roundLayer_shape hs), hs.2.1, hs.2.2, ?_⟩
  intro r c hr' hc
  have := hv r c hr' hc
  rw [cellVals_inCell hw hr pts Pt.z hbox hc] at this
  unfold roundLayer
  rw [Arr2.get?_map]
  by_cases he : inCell minX minY res r c pts = []
  · rw [this.1 (by rw [he]; rfl), Arr2.get?_fill _ hr' hc]
    exact ⟨none, rfl, fun _ => rfl, fun h => absurd he h⟩
  · obtain ⟨m, h1, h2⟩ := this.2 (by simpa using he)
    rw [h1]
    exact ⟨_, rfl, fun h => absurd h he, fun _ => ⟨m, h2, rfl⟩⟩

theorem optMean_some {A : Arith} {cells : List Int} {vals : List ℚ} {b : LayerArr} {out : Option LayerArr} {n : Nat}
    (h : A.OptMean cells vals (some b) out n n) : ∃ a, out = some a ∧ A.MeanLayer cells vals b a n n := by
  cases out with
  | none => exact absurd h (by simp [OptMean])
  | some a => exact ⟨a, rfl, h⟩

theorem shoal_near (A : Arith) {cf sf : Fmt} (hA : Machine cf sf A) {m Z : ℚ} {n : Nat} (hm : |m| ≤ Z)
    (hroom : Room cf sf n Z) : |A.round3 m - m| ≤ roundError sf |m| := by
  have hη := hA.calcs.η_nonneg
  have h1 := one_le_pow_u hA.calcs.u_nonneg n
  have hm0 := abs_nonneg m
  have h2 : Z + 2 * cf.η ≤ (1 + cf.u) ^ n * (Z + 2 * cf.η) := le_mul_of_one_le_left (by linarith) h1
  have h3 : (1 + sf.u) ^ 2 * (|m| + sf.η) ≤ (1 + sf.u) ^ 2 * ((1 + cf.u) ^ n * (Z + 2 * cf.η) + sf.η) := mul_le_mul_of_nonneg_left (by linarith) (sq_nonneg _)
  exact round3_err hA.stores (le_refl |m|) (by linarith [hroom.2])

/-- layers of a successful plain gridding, in terms of the arrays the gridding function returned -/
theorem plain_get (A : Arith) {f : List ℚ → List Int → GridArrays → List ℚ → List ℚ → Except Err GridArrays} {dk : Layer}
    (hdk : dk = .depth ∨ dk = .intensity) (d : PtArr) (cidx : List Int) (n : Nat) {out : GridArrays}
    (hf : f (d.pts.map Pt.z) cidx ⟨Arr2.fill n n none, Arr2.fill n n (some 0),
      if d.fields.hasTvu then some (Arr2.fill n n none) else none, if d.fields.hasThu then some (Arr2.fill n n none) else none⟩
      (if d.fields.hasTvu then d.pts.map Pt.tvu else []) (if d.fields.hasThu then d.pts.map Pt.thu else []) = .ok out) :
    ∃ L, A.plainLayers f dk d cidx (initLayers dk d.fields .plain n) = .ok L ∧
      L.get? dk = some (A.roundLayer out.depth) ∧ L.get? .density = some out.density ∧
      (∀ a, out.tvu = some a → L.get? .vertical = some (if d.fields.hasTvu = true ∧ d.pts ≠ [] then A.roundLayer a else a)) ∧
      (∀ a, out.thu = some a → L.get? .horizontal = some (if d.fields.hasThu = true ∧ d.pts ≠ [] then A.roundLayer a else a)) := by
  obtain ⟨g1, g2, g3, g4⟩ := init_get hdk d.fields n
  unfold plainLayers
  rw [g1, g2, g3, g4]
  simp only
  have hno : ((d.fields.hasTvu && (if d.fields.hasTvu = true then (if d.fields.hasTvu = true then some (Arr2.fill n n (none : Option ℚ)) else none) else none).isNone) ||
      (d.fields.hasThu && (if d.fields.hasThu = true then (if d.fields.hasThu = true then some (Arr2.fill n n (none : Option ℚ)) else none) else none).isNone)) = false := by
    cases d.fields.hasTvu <;> cases d.fields.hasThu <;> simp
  have e1 : (if d.fields.hasTvu = true then (if d.fields.hasTvu = true then some (Arr2.fill n n (none : Option ℚ)) else none) else none) =
      if d.fields.hasTvu = true then some (Arr2.fill n n none) else none := by cases d.fields.hasTvu <;> simp
  have e2 : (if d.fields.hasThu = true then (if d.fields.hasThu = true then some (Arr2.fill n n (none : Option ℚ)) else none) else none) =
      if d.fields.hasThu = true then some (Arr2.fill n n none) else none := by cases d.fields.hasThu <;> simp
  rw [hno, e1, e2, hf]
  have l1 : ((if d.fields.hasTvu = true then d.pts.map Pt.tvu else []).length > 0) ↔ (d.fields.hasTvu = true ∧ d.pts ≠ []) := by
    cases d.fields.hasTvu <;> simp [List.length_pos_iff]
  have l2 : ((if d.fields.hasThu = true then d.pts.map Pt.thu else []).length > 0) ↔ (d.fields.hasThu = true ∧ d.pts ≠ []) := by
    cases d.fields.hasThu <;> simp [List.length_pos_iff]
  simp only [l1, l2, Bool.false_eq_true, if_false]
  have hdn : dk ≠ .density ∧ dk ≠ .vertical ∧ dk ≠ .horizontal := by rcases hdk with rfl | rfl <;> simp
  generalize initLayers dk d.fields .plain n = I
  refine ⟨_, rfl, ?_, ?_, ?_, ?_⟩
  · cases out.tvu <;> cases out.thu <;> simp [Dict.get?_set_self, Dict.get?_set_ne, hdn]
  · cases out.tvu <;> cases out.thu <;> simp [Dict.get?_set_self, Dict.get?_set_ne]
  · intro a ha
    rw [ha]
    cases out.thu <;> simp [Dict.get?_set_self, Dict.get?_set_ne]
  · intro a ha
    rw [ha]
    cases out.tvu <;> simp [Dict.get?_set_self]

/-- a layer of a tile without soundings is not changed by rounding -/
theorem eachCell_noround (A : Arith) {a : LayerArr} {n : Nat} {R : List Pt → Option ℚ → Prop} {pts : List Pt} (h0 : pts = [])
    (hR : ∀ v, R [] v → v = none) (h : EachCell (A.roundLayer a) n minX minY res pts R) : EachCell a n minX minY res pts R := by
  obtain ⟨h0', h1, h2, h3⟩ := h
  refine ⟨by simpa [roundLayer, Arr2.map] using h0', h1, h2, ?_⟩
  intro r c hr hc
  obtain ⟨v, hv, hRv⟩ := h3 r c hr hc
  have hn : v = none := by
    apply hR
    have : inCell minX minY res r c pts = [] := by rw [h0]; rfl
    rwa [this] at hRv
  subst hn
  refine ⟨none, ?_, hRv⟩
  unfold roundLayer at hv
  rw [Arr2.get?_map] at hv
  cases hg : a.get? r c with
  | none => rw [hg] at hv; cases hv
  | some w => rw [hg] at hv; cases w with
    | none => rfl
    | some q => cases hv

/-- **mean gridding** of soundings that lie in the tile -/
theorem canon_mean (A : Arith) {cf sf : Fmt} (hA : Machine cf sf A) (env : Env) {dk : Layer} (hdk : dk = .depth ∨ dk = .intensity) (hw : 0 < width) (hr : 0 < res) (d : PtArr)
    (hbox : ∀ p ∈ d.pts, InBox minX minY width p) (params : Option GridParams) (border : Option PtArr) {Z : ℚ} (hroom : Room cf sf d.pts.length Z)
    (hz : ∀ p ∈ d.pts, |p.z| ≤ Z) (htv : d.fields.hasTvu = true → ∀ p ∈ d.pts, |p.tvu| ≤ Z) (hth : d.fields.hasThu = true → ∀ p ∈ d.pts, |p.thu| ≤ Z) :
    ∃ L, A.canonLayers env minX minY width dk d .plain .mean res params border = .ok L ∧
      (∃ a, L.get? dk = some a ∧ EachCell a (ncells width res) minX minY res d.pts (NearMeanCell A.sto cf sf Pt.z)) ∧
      (∃ a, L.get? .density = some a ∧ EachCell a (ncells width res) minX minY res d.pts CountCell) ∧
      (d.fields.hasTvu = true → ∃ a, L.get? .vertical = some a ∧ EachCell a (ncells width res) minX minY res d.pts (NearMeanCell A.sto cf sf Pt.tvu)) ∧
      (d.fields.hasThu = true → ∃ a, L.get? .horizontal = some a ∧ EachCell a (ncells width res) minX minY res d.pts (NearMeanCell A.sto cf sf Pt.thu)) := by
  have hrange := cells_range (res := res) hw hr hbox
  obtain ⟨out, ho, o1, o2, o3, o4⟩ := A.npGridMean_spec env (d.pts.map Pt.z)
    (d.pts.map (fun p => (cellOf minX minY res (ncells width res) p : Int)))
    ⟨Arr2.fill (ncells width res) (ncells width res) none, Arr2.fill (ncells width res) (ncells width res) (some 0),
      if d.fields.hasTvu then some (Arr2.fill (ncells width res) (ncells width res) none) else none,
      if d.fields.hasThu then some (Arr2.fill (ncells width res) (ncells width res) none) else none⟩
    (if d.fields.hasTvu then d.pts.map Pt.tvu else []) (if d.fields.hasThu then d.pts.map Pt.thu else [])
    (ncells width res) (ncells width res) (by simp) (fill_shape _ _) (fill_shape _ _)
    (by intro a ha; simp only at ha; split at ha
        · rename_i h; rw [if_pos h]; simp
        · cases ha)
    (by intro a ha; simp only at ha; split at ha
        · rename_i h; rw [if_pos h]; simp
        · cases ha)
    (by intro a ha; simp only at ha; split at ha
        · cases ha; exact fill_shape _ _
        · cases ha)
    (by intro a ha; simp only at ha; split at ha
        · cases ha; exact fill_shape _ _
        · cases ha) hrange
  obtain ⟨L, hL, L1, L2, L3, L4⟩ := A.plain_get hdk d _ (ncells width res) ho
  refine ⟨L, hL, ⟨_, L1, A.mean_cells hA hw hr hbox _ hroom hz o1⟩, ⟨_, L2, density_cells hw hr hbox o2⟩, ?_, ?_⟩
  · intro ht
    simp only [ht, if_true] at o3
    obtain ⟨a, ha, hm⟩ := optMean_some o3
    refine ⟨_, L3 a ha, ?_⟩
    have := A.mean_cells hA hw hr hbox Pt.tvu hroom (htv ht) hm
    split
    · exact this
    · rename_i hn
      refine A.eachCell_noround (by simpa [ht] using hn) (fun v hv => hv.1 rfl) this
  · intro ht
    simp only [ht, if_true] at o4
    obtain ⟨a, ha, hm⟩ := optMean_some o4
    refine ⟨_, L4 a ha, ?_⟩
    have := A.mean_cells hA hw hr hbox Pt.thu hroom (hth ht) hm
    split
    · exact this
    · rename_i hn
      refine A.eachCell_noround (by simpa [ht] using hn) (fun v hv => hv.1 rfl) this

/-- mean gridding of soundings that lie in the tile does not fail -/
theorem canon_mean_ok (A : Arith) (env : Env) {dk : Layer} (hdk : dk = .depth ∨ dk = .intensity) (hw : 0 < width) (hr : 0 < res) (d : PtArr)
    (hbox : ∀ p ∈ d.pts, InBox minX minY width p) (params : Option GridParams) (border : Option PtArr) :
    ∃ L, A.canonLayers env minX minY width dk d .plain .mean res params border = .ok L := by
  have hrange := cells_range (res := res) hw hr hbox
  obtain ⟨out, ho, -⟩ := A.npGridMean_spec env (d.pts.map Pt.z)
    (d.pts.map (fun p => (cellOf minX minY res (ncells width res) p : Int)))
    ⟨Arr2.fill (ncells width res) (ncells width res) none, Arr2.fill (ncells width res) (ncells width res) (some 0),
      if d.fields.hasTvu then some (Arr2.fill (ncells width res) (ncells width res) none) else none,
      if d.fields.hasThu then some (Arr2.fill (ncells width res) (ncells width res) none) else none⟩
    (if d.fields.hasTvu then d.pts.map Pt.tvu else []) (if d.fields.hasThu then d.pts.map Pt.thu else [])
    (ncells width res) (ncells width res) (by simp) (fill_shape _ _) (fill_shape _ _)
    (by intro a ha; simp only at ha; split at ha
        · rename_i h; rw [if_pos h]; simp
        · cases ha)
    (by intro a ha; simp only at ha; split at ha
        · rename_i h; rw [if_pos h]; simp
        · cases ha)
    (by intro a ha; simp only at ha; split at ha
        · cases ha; exact fill_shape _ _
        · cases ha)
    (by intro a ha; simp only at ha; split at ha
        · cases ha; exact fill_shape _ _
        · cases ha) hrange
  obtain ⟨L, hL, -⟩ := A.plain_get hdk d _ (ncells width res) ho
  exact ⟨L, hL⟩

/-- **shoalest gridding** of soundings that lie in the tile -/
theorem canon_shoalest (A : Arith) (env : Env) {dk : Layer} (hdk : dk = .depth ∨ dk = .intensity) (hw : 0 < width) (hr : 0 < res) (d : PtArr)
    (hbox : ∀ p ∈ d.pts, InBox minX minY width p) (params : Option GridParams) (border : Option PtArr) :
    ∃ L, A.canonLayers env minX minY width dk d .plain .shoalest res params border = .ok L ∧
      (∃ a, L.get? dk = some a ∧ EachCell a (ncells width res) minX minY res d.pts (ShoalCell A.round3)) ∧
      (∃ a, L.get? .density = some a ∧ EachCell a (ncells width res) minX minY res d.pts CountCell) := by
  have hrange := cells_range (res := res) hw hr hbox
  obtain ⟨out, ho, o1, o2, -, -⟩ := npGridShoalest_spec env (d.pts.map Pt.z)
    (d.pts.map (fun p => (cellOf minX minY res (ncells width res) p : Int)))
    ⟨Arr2.fill (ncells width res) (ncells width res) none, Arr2.fill (ncells width res) (ncells width res) (some 0),
      if d.fields.hasTvu then some (Arr2.fill (ncells width res) (ncells width res) none) else none,
      if d.fields.hasThu then some (Arr2.fill (ncells width res) (ncells width res) none) else none⟩
    (if d.fields.hasTvu then d.pts.map Pt.tvu else []) (if d.fields.hasThu then d.pts.map Pt.thu else [])
    (ncells width res) (ncells width res) (by simp) (fill_shape _ _) (fill_shape _ _)
    (by intro a ha; simp only at ha; split at ha
        · rename_i h; rw [if_pos h]; simp
        · cases ha)
    (by intro a ha; simp only at ha; split at ha
        · rename_i h; rw [if_pos h]; simp
        · cases ha)
    (by intro a ha; simp only at ha; split at ha
        · cases ha; exact fill_shape _ _
        · cases ha)
    (by intro a ha; simp only at ha; split at ha
        · cases ha; exact fill_shape _ _
        · cases ha) hrange
  obtain ⟨L, hL, L1, L2, -, -⟩ := A.plain_get hdk d _ (ncells width res) ho
  refine ⟨L, hL, ⟨_, L1, A.min_cells hw hr hbox o1⟩, ⟨_, L2, density_cells hw hr hbox o2⟩⟩

end Arith
end Bathy
