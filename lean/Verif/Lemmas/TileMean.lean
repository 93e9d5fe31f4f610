import Verif.Lemmas.TileCanon

/-!
# the layers of a gridded tile, cell by cell
-/

namespace Bathy
namespace Tile

theorem cellVals_inCell {α : Type} {minX minY width res : ℚ} (hw : 0 < width) (hr : 0 < res) (pts : List Pt) (f : Pt → α)
    (hbox : ∀ p ∈ pts, InBox minX minY width p) {r c : Nat} (hc : c < ncells width res) :
    cellVals (pts.map (fun p => (cellOf minX minY res (ncells width res) p : Int))) (pts.map f)
      ((r * ncells width res + c : Nat) : Int) = (inCell minX minY res r c pts).map f := cellVals_cellOf hw hr pts f hbox hc

variable {minX minY width res : ℚ}

/-- the cell numbers are in range -/
theorem cells_range (hw : 0 < width) (hr : 0 < res) {pts : List Pt} (hbox : ∀ p ∈ pts, InBox minX minY width p) :
    ∀ k ∈ pts.map (fun p => (cellOf minX minY res (ncells width res) p : Int)),
      0 ≤ k ∧ k < (ncells width res * ncells width res : Nat) := by
  intro k hk
  obtain ⟨p, hp, rfl⟩ := List.mem_map.1 hk
  have := cellOf_lt hw hr (hbox p hp)
  constructor
  · omega
  · exact_mod_cast this

theorem hasShape_len' {a : LayerArr} {n : Nat} (h : HasShape a n n) : a.flat.length = n * n := by
  have := h.1; unfold Arr2.WF at this; rw [this, h.2.1, h.2.2]

theorem hasShape_len {a : LayerArr} {n : Nat} (h : HasShape a n n) : (roundLayer a).flat.length = n * n := by
  simpa [roundLayer, Arr2.map] using hasShape_len' h

theorem mean_cells (hw : 0 < width) (hr : 0 < res) {pts : List Pt} (hbox : ∀ p ∈ pts, InBox minX minY width p) (f : Pt → ℚ)
    {out : LayerArr} (h : MeanLayer (pts.map (fun p => (cellOf minX minY res (ncells width res) p : Int))) (pts.map f)
      (Arr2.fill (ncells width res) (ncells width res) none) out (ncells width res) (ncells width res)) :
    EachCell (roundLayer out) (ncells width res) minX minY res pts (MeanCell round3 f) := by
  obtain ⟨hs, hv⟩ := h
  refine ⟨hasShape_len hs, hs.2.1, hs.2.2, ?_⟩
  intro r c hr' hc
  have := hv r c hr' hc
  rw [cellVals_inCell hw hr pts f hbox hc] at this
  unfold roundLayer
  rw [Arr2.get?_map, this]
  by_cases he : inCell minX minY res r c pts = []
  · rw [he, List.map_nil, if_pos rfl, Arr2.get?_fill _ hr' hc]
    exact ⟨none, rfl, fun _ => rfl, fun h => absurd rfl h⟩
  · rw [if_neg (by simpa using he)]
    exact ⟨_, rfl, fun h => absurd h he, fun _ => rfl⟩

theorem min_cells (hw : 0 < width) (hr : 0 < res) {pts : List Pt} (hbox : ∀ p ∈ pts, InBox minX minY width p)
    {out : LayerArr} (h : MinLayer (pts.map (fun p => (cellOf minX minY res (ncells width res) p : Int))) (pts.map Pt.z)
      (Arr2.fill (ncells width res) (ncells width res) none) out (ncells width res) (ncells width res)) :
    EachCell (roundLayer out) (ncells width res) minX minY res pts (ShoalCell round3) := by
  obtain ⟨hs, hv⟩ := h
  refine ⟨hasShape_len hs, hs.2.1, hs.2.2, ?_⟩
  intro r c hr' hc
  have := hv r c hr' hc
  rw [cellVals_inCell hw hr pts Pt.z hbox hc] at this
  unfold roundLayer
  rw [Arr2.get?_map]
  by_cases he : inCell minX minY res r c pts = []
  · rw [this.1 (by rw [he]; rfl), Arr2.get?_fill _ hr' hc]
    exact ⟨none, rfl, fun _ => rfl, fun h => absurd he h⟩
  · obtain ⟨m, h1, h2⟩ := this.2 (by simpa using he)
    rw [h1]
    exact ⟨_, rfl, fun h => absurd h he, fun _ => ⟨m, h2, rfl⟩⟩

theorem density_cells (hw : 0 < width) (hr : 0 < res) {pts : List Pt} (hbox : ∀ p ∈ pts, InBox minX minY width p)
    {out : LayerArr} (h : DensityLayer (pts.map (fun p => (cellOf minX minY res (ncells width res) p : Int)))
      (Arr2.fill (ncells width res) (ncells width res) (some 0)) out (ncells width res) (ncells width res)) :
    EachCell out (ncells width res) minX minY res pts CountCell := by
  obtain ⟨hs, hv⟩ := h
  refine ⟨hasShape_len' hs, hs.2.1, hs.2.2, ?_⟩
  intro r c hr' hc
  have h1 := hv r c hr' hc
  have e := cellVals_inCell (α := ℚ) hw hr pts Pt.z hbox (r := r) hc
  have hl := cellVals_length (pts.map (fun p => (cellOf minX minY res (ncells width res) p : Int))) (pts.map Pt.z) (by simp)
    ((r * ncells width res + c : Nat) : Int)
  rw [e, List.length_map] at hl
  rw [← hl, Arr2.get?_fill _ hr' hc] at h1
  refine ⟨_, h1.trans ?_, rfl⟩
  split
  · rfl
  · rename_i hn
    have : (inCell minX minY res r c pts).length = 0 := by rw [hl]; exact List.count_eq_zero.2 hn
    rw [this]; simp

/-- the uncertainty layers written by shoalest: the entry of the uncertainty array at the *rank* of the cell's least depth -/
def RankCell (pts : List Pt) (f : Pt → ℚ) (ps : List Pt) (v : Option ℚ) : Prop :=
  (ps = [] → v = none) ∧ (ps ≠ [] → ∃ m q, IsMin m (ps.map Pt.z) ∧ pts[pts.countP (fun p => decide (p.z < m))]? = some q ∧
    v = some (round3 (f q)))

theorem rank_cells (hw : 0 < width) (hr : 0 < res) {pts : List Pt} (hbox : ∀ p ∈ pts, InBox minX minY width p) (f : Pt → ℚ)
    {out : LayerArr} (h : RankLayer (pts.map (fun p => (cellOf minX minY res (ncells width res) p : Int))) (pts.map Pt.z) (pts.map f)
      (Arr2.fill (ncells width res) (ncells width res) none) out (ncells width res) (ncells width res)) :
    EachCell (roundLayer out) (ncells width res) minX minY res pts (RankCell pts f) := by
  obtain ⟨hs, hv⟩ := h
  refine ⟨hasShape_len hs, hs.2.1, hs.2.2, ?_⟩
  intro r c hr' hc
  have := hv r c hr' hc
  rw [cellVals_inCell hw hr pts Pt.z hbox hc] at this
  unfold roundLayer
  rw [Arr2.get?_map]
  by_cases he : inCell minX minY res r c pts = []
  · rw [this.1 (by rw [he]; rfl), Arr2.get?_fill _ hr' hc]
    exact ⟨none, rfl, fun _ => rfl, fun h => absurd he h⟩
  · obtain ⟨m, v, h1, h2, h3⟩ := this.2 (by simpa using he)
    rw [h3]
    refine ⟨_, rfl, fun h => absurd h he, fun _ => ?_⟩
    rw [List.countP_map, List.getElem?_map, Option.map_eq_some_iff] at h2
    obtain ⟨q, hq, rfl⟩ := h2
    exact ⟨m, q, h1, hq, rfl⟩

theorem roundLayer_fill_of_nil {out : LayerArr} {n : Nat} (h : out = Arr2.fill n n none) : roundLayer out = out := by
  subst h; unfold roundLayer Arr2.map Arr2.fill; simp

/-- the layer names of a plain grid -/
theorem init_get {dk : Layer} (hdk : dk = .depth ∨ dk = .intensity) (fl : Fields) (n : Nat) :
    (initLayers dk fl .plain n).get? dk = some (Arr2.fill n n none) ∧
    (initLayers dk fl .plain n).get? .density = some (Arr2.fill n n (some 0)) ∧
    (initLayers dk fl .plain n).get? .vertical = (if fl.hasTvu then some (Arr2.fill n n none) else none) ∧
    (initLayers dk fl .plain n).get? .horizontal = (if fl.hasThu then some (Arr2.fill n n none) else none) := by
  obtain ⟨a, b⟩ := fl
  rcases hdk with rfl | rfl <;> cases a <;> cases b <;> simp [initLayers, Dict.get?]

/-- layers of a successful plain gridding, in terms of the arrays the gridding function returned -/
theorem plain_get {f : List ℚ → List Int → GridArrays → List ℚ → List ℚ → Except Err GridArrays} {dk : Layer}
    (hdk : dk = .depth ∨ dk = .intensity) (d : PtArr) (cidx : List Int) (n : Nat) {out : GridArrays}
    (hf : f (d.pts.map Pt.z) cidx ⟨Arr2.fill n n none, Arr2.fill n n (some 0),
      if d.fields.hasTvu then some (Arr2.fill n n none) else none, if d.fields.hasThu then some (Arr2.fill n n none) else none⟩
      (if d.fields.hasTvu then d.pts.map Pt.tvu else []) (if d.fields.hasThu then d.pts.map Pt.thu else []) = .ok out) :
    ∃ L, plainLayers f dk d cidx (initLayers dk d.fields .plain n) = .ok L ∧
      L.get? dk = some (roundLayer out.depth) ∧ L.get? .density = some out.density ∧
      (∀ a, out.tvu = some a → L.get? .vertical = some (if d.fields.hasTvu = true ∧ d.pts ≠ [] then roundLayer a else a)) ∧
      (∀ a, out.thu = some a → L.get? .horizontal = some (if d.fields.hasThu = true ∧ d.pts ≠ [] then roundLayer a else a)) := by
  obtain ⟨g1, g2, g3, g4⟩ := init_get hdk d.fields n
  unfold plainLayers
  rw [g1, g2, g3, g4]
  simp only
  have hno : ((d.fields.hasTvu && (if d.fields.hasTvu = true then (if d.fields.hasTvu = true then some (Arr2.fill n n (none : Option ℚ)) else none) else none).isNone) ||
      (d.fields.hasThu && (if d.fields.hasThu = true then (if d.fields.hasThu = true then some (Arr2.fill n n (none : Option ℚ)) else none) else none).isNone)) = false := by
    cases d.fields.hasTvu <;> cases d.fields.hasThu <;> simp
  have e1 : (if d.fields.hasTvu = true then (if d.fields.hasTvu = true then some (Arr2.fill n n (none : Option ℚ)) else none) else none) =
      if d.fields.hasTvu = true then some (Arr2.fill n n none) else none := by cases d.fields.hasTvu <;> simp
  have e2 : (if d.fields.hasThu = true then (if d.fields.hasThu = true then some (Arr2.fill n n (none : Option ℚ)) else none) else none) =
      if d.fields.hasThu = true then some (Arr2.fill n n none) else none := by cases d.fields.hasThu <;> simp
  rw [hno, e1, e2, hf]
  have l1 : ((if d.fields.hasTvu = true then d.pts.map Pt.tvu else []).length > 0) ↔ (d.fields.hasTvu = true ∧ d.pts ≠ []) := by
    cases d.fields.hasTvu <;> simp [List.length_pos_iff]
  have l2 : ((if d.fields.hasThu = true then d.pts.map Pt.thu else []).length > 0) ↔ (d.fields.hasThu = true ∧ d.pts ≠ []) := by
    cases d.fields.hasThu <;> simp [List.length_pos_iff]
  simp only [l1, l2, Bool.false_eq_true, if_false]
  have hdn : dk ≠ .density ∧ dk ≠ .vertical ∧ dk ≠ .horizontal := by rcases hdk with rfl | rfl <;> simp
  generalize initLayers dk d.fields .plain n = I
  refine ⟨_, rfl, ?_, ?_, ?_, ?_⟩
  · cases out.tvu <;> cases out.thu <;> simp [Dict.get?_set_self, Dict.get?_set_ne, hdn]
  · cases out.tvu <;> cases out.thu <;> simp [Dict.get?_set_self, Dict.get?_set_ne]
  · intro a ha
    rw [ha]
    cases out.thu <;> simp [Dict.get?_set_self, Dict.get?_set_ne]
  · intro a ha
    rw [ha]
    cases out.tvu <;> simp [Dict.get?_set_self]

theorem optMean_some {cells : List Int} {vals : List ℚ} {b : LayerArr} {out : Option LayerArr} {n : Nat}
    (h : OptMean cells vals (some b) out n n) : ∃ a, out = some a ∧ MeanLayer cells vals b a n n := by
  cases out with
  | none => exact absurd h (by simp [OptMean])
  | some a => exact ⟨a, rfl, h⟩

theorem optRank_some {cells : List Int} {depth vals : List ℚ} {b : LayerArr} {out : Option LayerArr} {n : Nat}
    (h : OptRank cells depth vals (some b) out n n) : ∃ a, out = some a ∧ RankLayer cells depth vals b a n n := by
  cases out with
  | none => exact absurd h (by simp [OptRank])
  | some a => exact ⟨a, rfl, h⟩

/-- a layer of a tile without soundings is not changed by rounding -/
theorem eachCell_noround {a : LayerArr} {n : Nat} {R : List Pt → Option ℚ → Prop} {pts : List Pt} (h0 : pts = [])
    (hR : ∀ v, R [] v → v = none) (h : EachCell (roundLayer a) n minX minY res pts R) : EachCell a n minX minY res pts R := by
  obtain ⟨h0', h1, h2, h3⟩ := h
  refine ⟨by simpa [roundLayer, Arr2.map] using h0', h1, h2, ?_⟩
  intro r c hr hc
  obtain ⟨v, hv, hRv⟩ := h3 r c hr hc
  have hn : v = none := by
    apply hR
    have : inCell minX minY res r c pts = [] := by rw [h0]; rfl
    rwa [this] at hRv
  subst hn
  refine ⟨none, ?_, hRv⟩
  unfold roundLayer at hv
  rw [Arr2.get?_map] at hv
  cases hg : a.get? r c with
  | none => rw [hg] at hv; cases hv
  | some w => rw [hg] at hv; cases w with
    | none => rfl
    | some q => cases hv

/-- **mean gridding** of soundings that lie in the tile -/
theorem canon_mean (env : Env) {dk : Layer} (hdk : dk = .depth ∨ dk = .intensity) (hw : 0 < width) (hr : 0 < res) (d : PtArr)
    (hbox : ∀ p ∈ d.pts, InBox minX minY width p) (params : Option GridParams) (border : Option PtArr) :
    ∃ L, canonLayers env minX minY width dk d .plain .mean res params border = .ok L ∧
      (∃ a, L.get? dk = some a ∧ EachCell a (ncells width res) minX minY res d.pts (MeanCell round3 Pt.z)) ∧
      (∃ a, L.get? .density = some a ∧ EachCell a (ncells width res) minX minY res d.pts CountCell) ∧
      (d.fields.hasTvu = true → ∃ a, L.get? .vertical = some a ∧ EachCell a (ncells width res) minX minY res d.pts (MeanCell round3 Pt.tvu)) ∧
      (d.fields.hasThu = true → ∃ a, L.get? .horizontal = some a ∧ EachCell a (ncells width res) minX minY res d.pts (MeanCell round3 Pt.thu)) := by
  have hrange := cells_range (res := res) hw hr hbox
  obtain ⟨out, ho, o1, o2, o3, o4⟩ := npGridMean_spec env (d.pts.map Pt.z)
    (d.pts.map (fun p => (cellOf minX minY res (ncells width res) p : Int)))
    ⟨Arr2.fill (ncells width res) (ncells width res) none, Arr2.fill (ncells width res) (ncells width res) (some 0),
      if d.fields.hasTvu then some (Arr2.fill (ncells width res) (ncells width res) none) else none,
      if d.fields.hasThu then some (Arr2.fill (ncells width res) (ncells width res) none) else none⟩
    (if d.fields.hasTvu then d.pts.map Pt.tvu else []) (if d.fields.hasThu then d.pts.map Pt.thu else [])
    (ncells width res) (ncells width res) (by simp) (fill_shape _ _) (fill_shape _ _)
    (by intro a ha; simp only at ha; split at ha
        · rename_i h; rw [if_pos h]; simp
        · cases ha)
    (by intro a ha; simp only at ha; split at ha
        · rename_i h; rw [if_pos h]; simp
        · cases ha)
    (by intro a ha; simp only at ha; split at ha
        · cases ha; exact fill_shape _ _
        · cases ha)
    (by intro a ha; simp only at ha; split at ha
        · cases ha; exact fill_shape _ _
        · cases ha) hrange
  obtain ⟨L, hL, L1, L2, L3, L4⟩ := plain_get hdk d _ (ncells width res) ho
  refine ⟨L, hL, ⟨_, L1, mean_cells hw hr hbox _ o1⟩, ⟨_, L2, density_cells hw hr hbox o2⟩, ?_, ?_⟩
  · intro ht
    simp only [ht, if_true] at o3
    obtain ⟨a, ha, hm⟩ := optMean_some o3
    refine ⟨_, L3 a ha, ?_⟩
    have := mean_cells hw hr hbox Pt.tvu hm
    split
    · exact this
    · rename_i hn
      refine eachCell_noround (by simpa [ht] using hn) (fun v hv => hv.1 rfl) this
  · intro ht
    simp only [ht, if_true] at o4
    obtain ⟨a, ha, hm⟩ := optMean_some o4
    refine ⟨_, L4 a ha, ?_⟩
    have := mean_cells hw hr hbox Pt.thu hm
    split
    · exact this
    · rename_i hn
      refine eachCell_noround (by simpa [ht] using hn) (fun v hv => hv.1 rfl) this

/-- **shoalest gridding** of soundings that lie in the tile -/
theorem canon_shoalest (env : Env) {dk : Layer} (hdk : dk = .depth ∨ dk = .intensity) (hw : 0 < width) (hr : 0 < res) (d : PtArr)
    (hbox : ∀ p ∈ d.pts, InBox minX minY width p) (params : Option GridParams) (border : Option PtArr) :
    ∃ L, canonLayers env minX minY width dk d .plain .shoalest res params border = .ok L ∧
      (∃ a, L.get? dk = some a ∧ EachCell a (ncells width res) minX minY res d.pts (ShoalCell round3)) ∧
      (∃ a, L.get? .density = some a ∧ EachCell a (ncells width res) minX minY res d.pts CountCell) ∧
      (d.fields.hasTvu = true → ∃ a, L.get? .vertical = some a ∧
        EachCell a (ncells width res) minX minY res d.pts (RankCell d.pts Pt.tvu)) ∧
      (d.fields.hasThu = true → ∃ a, L.get? .horizontal = some a ∧
        EachCell a (ncells width res) minX minY res d.pts (RankCell d.pts Pt.thu)) := by
  have hrange := cells_range (res := res) hw hr hbox
  obtain ⟨out, ho, o1, o2, o3, o4⟩ := npGridShoalest_spec env (d.pts.map Pt.z)
    (d.pts.map (fun p => (cellOf minX minY res (ncells width res) p : Int)))
    ⟨Arr2.fill (ncells width res) (ncells width res) none, Arr2.fill (ncells width res) (ncells width res) (some 0),
      if d.fields.hasTvu then some (Arr2.fill (ncells width res) (ncells width res) none) else none,
      if d.fields.hasThu then some (Arr2.fill (ncells width res) (ncells width res) none) else none⟩
    (if d.fields.hasTvu then d.pts.map Pt.tvu else []) (if d.fields.hasThu then d.pts.map Pt.thu else [])
    (ncells width res) (ncells width res) (by simp) (fill_shape _ _) (fill_shape _ _)
    (by intro a ha; simp only at ha; split at ha
        · rename_i h; rw [if_pos h]; simp
        · cases ha)
    (by intro a ha; simp only at ha; split at ha
        · rename_i h; rw [if_pos h]; simp
        · cases ha)
    (by intro a ha; simp only at ha; split at ha
        · cases ha; exact fill_shape _ _
        · cases ha)
    (by intro a ha; simp only at ha; split at ha
        · cases ha; exact fill_shape _ _
        · cases ha) hrange
  obtain ⟨L, hL, L1, L2, L3, L4⟩ := plain_get hdk d _ (ncells width res) ho
  refine ⟨L, hL, ⟨_, L1, min_cells hw hr hbox o1⟩, ⟨_, L2, density_cells hw hr hbox o2⟩, ?_, ?_⟩
  · intro ht
    simp only [ht, if_true] at o3
    obtain ⟨a, ha, hm⟩ := optRank_some o3
    refine ⟨_, L3 a ha, ?_⟩
    have := rank_cells hw hr hbox Pt.tvu hm
    split
    · exact this
    · rename_i hn
      refine eachCell_noround (by simpa [ht] using hn) (fun v hv => hv.1 rfl) this
  · intro ht
    simp only [ht, if_true] at o4
    obtain ⟨a, ha, hm⟩ := optRank_some o4
    refine ⟨_, L4 a ha, ?_⟩
    have := rank_cells hw hr hbox Pt.thu hm
    split
    · exact this
    · rename_i hn
      refine eachCell_noround (by simpa [ht] using hn) (fun v hv => hv.1 rfl) this

end Tile
end Bathy
