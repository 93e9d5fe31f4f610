import Verif.Lemmas.FloatMean
import Verif.Lemmas.TileMean

/-!
# `np_grid_mean` in floating point arithmetic: the value of every cell
-/

namespace Bathy
namespace SumTree

theorem eval_some (rnd : ℚ → ℚ) (l : List ℚ) (T : SumTree) (hi : ∀ i ∈ T.leaves, i < l.length) : ∃ v, T.eval rnd l = some v := by
  induction T with
  | leaf i =>
    have hi' : i < l.length := hi i (by simp [leaves])
    exact ⟨l[i], by simp [eval, hi']⟩
  | node a b iha ihb =>
    obtain ⟨x, hx⟩ := iha (fun i h => hi i (List.mem_append_left _ h))
    obtain ⟨y, hy⟩ := ihb (fun i h => hi i (List.mem_append_right _ h))
    exact ⟨_, by rw [eval, hx, hy]⟩

end SumTree

namespace Arith

theorem add_some (A : Arith) {l : List ℚ} (hl : l ≠ []) : ∃ v, A.add l = some v := by
  unfold add
  rw [if_neg hl]
  have hp := A.plan_all l.length (List.length_pos_iff.2 hl)
  exact SumTree.eval_some _ _ _ (fun i hi => by simpa using hp.mem_iff.1 hi)

theorem addAt_offs (A : Arith) (gs : List (Int × List ℚ)) (pre : List ℚ) (h : ∀ q ∈ gs, q.2 ≠ []) :
    A.addAt (pre ++ (gs.map Prod.snd).flatten) ((offs pre.length gs).map (fun t => t.2.1)) = gs.mapM (fun q => A.add q.2) := by
  induction gs generalizing pre with
  | nil => rfl
  | cons q gs ih =>
    obtain ⟨k, vs⟩ := q
    have hv : vs ≠ [] := h (k, vs) List.mem_cons_self
    have hl : 0 < vs.length := List.length_pos_iff.2 hv
    have ih' := ih (pre ++ vs) (fun q hq => h q (List.mem_cons_of_mem _ hq))
    rw [List.mapM_cons]
    cases gs with
    | nil =>
      simp only [offs, List.map_cons, List.map_nil, addAt, List.flatten_cons, List.flatten_nil, List.append_nil,
        List.drop_left, List.mapM_nil]
      cases A.add vs <;> rfl
    | cons q' gs' =>
      obtain ⟨k', vs'⟩ := q'
      simp only [offs, List.map_cons, List.flatten_cons] at ih' ⊢
      rw [addAt, if_pos (by omega)]
      rw [List.length_append] at ih'
      rw [show pre ++ (vs ++ (vs' ++ (List.map Prod.snd gs').flatten)) = (pre ++ vs) ++ (vs' ++ (List.map Prod.snd gs').flatten) by
        simp]
      rw [ih']
      have hd : (((pre ++ vs) ++ (vs' ++ (List.map Prod.snd gs').flatten)).drop pre.length).take (pre.length + vs.length - pre.length)
          = vs := by
        rw [List.append_assoc, List.drop_left, Nat.add_sub_cancel_left, List.take_left]
      rw [hd]
      cases A.add vs with
      | none => rfl
      | some w =>
        simp only [Option.pure_def, Option.bind_eq_bind, Option.bind_some]
        cases List.mapM (m := Option) (fun q => A.add q.2) ((k', vs') :: gs') <;> rfl

/-- `v` is the sum of the values in some order, divided by their number -/
def SumMean (A : Arith) (vals : List ℚ) (v : ℚ) : Prop := ∃ l s, l ≠ [] ∧ l.Perm vals ∧ A.add l = some s ∧ v = A.rnd (s / (l.length : ℚ))

theorem groupMeans_spec (A : Arith) (env : Env) (cells : List Int) (vals : List ℚ) (hlen : cells.length = vals.length) :
    ∃ ms, A.groupMeans vals (env.argsort.run cells)
        ((runsFrom 0 ((env.argsort.run cells).filterMap (fun i => cells[i]?))).map (fun t => t.2.1))
        ((cellKeys env cells).map (fun k => cells.count k)) = some ms ∧
      ms.length = (cellKeys env cells).length ∧
      ∀ (i : Nat) k v, (cellKeys env cells)[i]? = some k → ms[i]? = some v → A.SumMean (cellVals cells vals k) v := by
  have hidx : ∀ i ∈ env.argsort.run cells, i < vals.length := hlen ▸ idx_lt_of_perm (env.argsort.perm cells)
  unfold groupMeans
  rw [takeIdx_eq_filterMap vals _ hidx]
  simp only
  have hks := groups_facts env cells vals hlen
  obtain ⟨hk, hg⟩ := hks
  have hcount : (cellKeys env cells).map (fun k => cells.count k) =
      (groupRuns (pairsAt cells vals (env.argsort.run cells))).map (fun q => q.2.length) := by
    rw [hk, List.map_map]
    apply List.map_congr_left
    intro q hq
    simp only [Function.comp_apply]
    rw [(hg q hq).2.length_eq, cellVals_length cells vals hlen]
  rw [hcount]
  rw [← pairsAt_snd env cells vals hlen, ← pairsAt_fst env cells vals hlen, runsFrom_eq, ← groupRuns_flatten]
  have hr := addAt_offs A (groupRuns (pairsAt cells vals (env.argsort.run cells))) [] (fun q hq => (hg q hq).1)
  rw [List.nil_append, List.length_nil] at hr
  rw [hr, hk]
  clear hr hk hcount
  generalize groupRuns (pairsAt cells vals (env.argsort.run cells)) = gs at hg ⊢
  have : ∃ red, gs.mapM (fun q => A.add q.2) = some red := by
    rw [← Option.isSome_iff_exists, ← Option.ne_none_iff_isSome, Ne, mapM_eq_none]
    rintro ⟨q, hq, hn⟩
    obtain ⟨v, hv⟩ := A.add_some (hg q hq).1
    rw [hv] at hn
    cases hn
  obtain ⟨red, hred⟩ := this
  rw [hred, Option.map_some]
  have hlr : red.length = gs.length := mapM_length hred
  refine ⟨_, rfl, by simp [hlr], ?_⟩
  intro i k v hki hvi
  rw [List.getElem?_map, Option.map_eq_some_iff] at hki
  obtain ⟨q, hqi, rfl⟩ := hki
  have hi : i < red.length := by rw [hlr]; exact (List.getElem?_eq_some_iff.1 hqi).1
  have hri : red[i]? = some red[i] := List.getElem?_eq_getElem hi
  rw [List.getElem?_zipWith, List.getElem?_map, hqi, hri] at hvi
  simp only [Option.map_some, Option.some.injEq] at hvi
  have hm := congrArg (fun l => l[i]?) ((mapM_eq_some _ _ _).1 hred)
  simp only [List.getElem?_map, hqi, hri, Option.map_some, Option.some.injEq] at hm
  have hq := List.mem_of_getElem? hqi
  exact ⟨q.2, red[i], (hg q hq).1, (hg q hq).2, hm, hvi.symm⟩

/-- `out` is `base` with a mean of the values of each non empty cell written in -/
def MeanLayer (A : Arith) (cells : List Int) (vals : List ℚ) (base out : LayerArr) (rows cols : Nat) : Prop :=
  HasShape out rows cols ∧ ∀ r c, r < rows → c < cols →
    (cellVals cells vals ((r * cols + c : Nat) : Int) = [] → out.get? r c = base.get? r c) ∧
    (cellVals cells vals ((r * cols + c : Nat) : Int) ≠ [] →
      ∃ v, out.get? r c = some (some v) ∧ A.SumMean (cellVals cells vals ((r * cols + c : Nat) : Int)) v)

theorem mean_layer (A : Arith) (env : Env) (cells : List Int) (vals ms : List ℚ) (hlen : cells.length = vals.length) (a : LayerArr)
    (rows cols : Nat) (ha : HasShape a rows cols) (hrange : ∀ k ∈ cells, 0 ≤ k ∧ k < (rows * cols : Nat))
    (hl : ms.length = (cellKeys env cells).length)
    (hP : ∀ (i : Nat) k v, (cellKeys env cells)[i]? = some k → ms[i]? = some v → A.SumMean (cellVals cells vals k) v) :
    A.MeanLayer cells vals a (scatter a (rcOf cols (cellKeys env cells)) (ms.map some)) rows cols := by
  have h := layer_scatter env cells a rows cols ha hrange ms (fun k v => A.SumMean (cellVals cells vals k) v) hl hP
  refine ⟨h.1, ?_⟩
  intro r c hr hc
  obtain ⟨g1, g2⟩ := h.2 r c hr hc
  rw [Ne, cellVals_eq_nil cells vals hlen, not_not]
  exact ⟨g1, g2⟩

/-- what happens to an optional uncertainty layer -/
def OptMean (A : Arith) (cells : List Int) (vals : List ℚ) (base out : Option LayerArr) (rows cols : Nat) : Prop :=
  match base, out with
  | none, none => True
  | some b, some o => A.MeanLayer cells vals b o rows cols
  | _, _ => False

theorem mean_opt (A : Arith) (env : Env) (cells : List Int) (vals : List ℚ) (base : Option LayerArr) (rows cols : Nat)
    (hlen : ∀ a, base = some a → cells.length = vals.length) (hsh : ∀ a, base = some a → HasShape a rows cols)
    (hrange : ∀ k ∈ cells, 0 ≤ k ∧ k < (rows * cols : Nat)) :
    ∃ o, (if enabled vals base then (A.groupMeans vals (env.argsort.run cells)
        ((runsFrom 0 ((env.argsort.run cells).filterMap (fun i => cells[i]?))).map (fun t => t.2.1))
        ((cellKeys env cells).map (fun k => cells.count k))).map
          (fun m => base.map (fun a => scatter a (rcOf cols (cellKeys env cells)) (m.map some)))
      else some base) = some o ∧ A.OptMean cells vals base o rows cols := by
  cases base with
  | none => exact ⟨none, by simp [enabled], trivial⟩
  | some a =>
    have hlen := hlen a rfl
    have hsh := hsh a rfl
    by_cases he : enabled vals (some a) = true
    · rw [if_pos he]
      obtain ⟨ms, h1, h2, h3⟩ := A.groupMeans_spec env cells vals hlen
      rw [h1]
      exact ⟨_, rfl, A.mean_layer env cells vals ms hlen a rows cols hsh hrange h2 h3⟩
    · rw [if_neg he]
      refine ⟨some a, rfl, hsh, ?_⟩
      intro r c hr hc
      have : cells = [] := by
        simp only [enabled, Bool.and_eq_true, decide_eq_true_eq, not_and, not_lt, Nat.le_zero] at he
        rcases Nat.eq_zero_or_pos vals.length with h0 | h0
        · rw [h0] at hlen; exact List.length_eq_zero_iff.1 hlen
        · have := he h0
          obtain ⟨hw, e1, e2⟩ := hsh
          rw [hw, e1, e2] at this
          have := Arr2.idx_lt hr hc
          omega
      subst this
      exact ⟨fun _ => rfl, fun h => absurd rfl h⟩

/-- `np_grid_mean` never raises on soundings that lie in cells of the grid -/
theorem npGridMean_spec (A : Arith) (env : Env) (depth : List ℚ) (cells : List Int) (g : GridArrays) (tvu thu : List ℚ) (rows cols : Nat)
    (hlen : cells.length = depth.length) (hd : HasShape g.depth rows cols) (hn : HasShape g.density rows cols)
    (htl : ∀ a, g.tvu = some a → cells.length = tvu.length) (hhl : ∀ a, g.thu = some a → cells.length = thu.length)
    (hts : ∀ a, g.tvu = some a → HasShape a rows cols) (hhs : ∀ a, g.thu = some a → HasShape a rows cols)
    (hrange : ∀ k ∈ cells, 0 ≤ k ∧ k < (rows * cols : Nat)) :
    ∃ out, A.npGridMean env depth cells g tvu thu = .ok out ∧ A.MeanLayer cells depth g.depth out.depth rows cols ∧
      DensityLayer cells g.density out.density rows cols ∧ A.OptMean cells tvu g.tvu out.tvu rows cols ∧
      A.OptMean cells thu g.thu out.thu rows cols := by
  obtain ⟨ms, h1, h2, h3⟩ := A.groupMeans_spec env cells depth hlen
  obtain ⟨ot, t1, t2⟩ := A.mean_opt env cells tvu g.tvu rows cols htl hts hrange
  obtain ⟨oh, u1, u2⟩ := A.mean_opt env cells thu g.thu rows cols hhl hhs hrange
  unfold npGridMean
  simp only
  rw [takeIdx_eq_filterMap cells _ (idx_lt_of_perm (env.argsort.perm cells))]
  simp only
  have hrc : ((runsFrom 0 ((env.argsort.run cells).filterMap (fun i => cells[i]?))).map (fun t => t.1)).mapM
      (fun i => unravel i g.depth.rows g.depth.cols) = some (rcOf cols (cellKeys env cells)) := by
    rw [hd.2.1, hd.2.2]
    exact mapM_unravel (cellKeys env cells) rows cols (fun k hk => hrange k ((cellKeys_mem env cells k).1 hk))
  rw [hrc]
  simp only
  rw [counts_spec env cells, h1, t1, u1]
  refine ⟨_, rfl, A.mean_layer env cells depth ms hlen g.depth rows cols hd hrange h2 h3, ?_, t2, u2⟩
  exact density_scatter env cells g.density rows cols hn hrange

/-! ### the tile -/

theorem npGridMean_keepsShape (A : Arith) (env : Env) : KeepsShape (A.npGridMean env) := by
  intro depth cells g tvu thu out rows cols h
  unfold npGridMean at h
  simp only at h
  split at h
  · cases h
  · split at h
    · cases h
    · split at h
      · cases h
      · split at h
        · rename_i h1 h2
          cases h
          exact ⟨fun h => scatter_hasShape h _ _, fun h => scatter_hasShape h _ _, optShape_aux h1, optShape_aux h2⟩
        · cases h

theorem roundLayer_shape (A : Arith) {a : LayerArr} {rows cols : Nat} (h : HasShape a rows cols) : HasShape (A.roundLayer a) rows cols :=
  map_hasShape h _

open Tile (LayersOk core_match_set layersOk_get layersOk_set setOpt_ok)

theorem plainLayers_core (A : Arith) {f : List ℚ → List Int → GridArrays → List ℚ → List ℚ → Except Err GridArrays} {dk : Layer}
    (hdk : dk.isCore = true) (d : PtArr) (cidx : List Int) (ls : Dict Layer LayerArr) :
    (A.plainLayers f dk d cidx ls).map core = A.plainLayers f dk d cidx (core ls) := by
  unfold plainLayers
  rw [core_get? ls hdk, core_get? ls (l := .density) rfl, core_get? ls (l := .vertical) rfl, core_get? ls (l := .horizontal) rfl]
  simp only
  generalize ((d.fields.hasTvu && (if d.fields.hasTvu = true then Dict.get? ls Layer.vertical else none).isNone) ||
    (d.fields.hasThu && (if d.fields.hasThu = true then Dict.get? ls Layer.horizontal else none).isNone)) = b
  cases b with
  | true => rfl
  | false =>
    simp only [Bool.false_eq_true, if_false]
    cases ls.get? dk with
    | none => rfl
    | some dg =>
      cases ls.get? Layer.density with
      | none => rfl
      | some ng =>
        simp only
        cases f (d.pts.map Pt.z) cidx _ _ _ with
        | error e => rfl
        | ok out =>
          simp only [Except.map, Except.ok.injEq]
          have e1 : core ((ls.set dk (A.roundLayer out.depth)).set Layer.density out.density) =
              ((core ls).set dk (A.roundLayer out.depth)).set Layer.density out.density := by
            rw [core_set _ (l := .density) rfl, core_set ls hdk]
          apply core_match_set _ _ _ (l := .horizontal) rfl
          apply core_match_set _ _ _ (l := .vertical) rfl
          exact e1

theorem plainLayers_ok (A : Arith) {f : List ℚ → List Int → GridArrays → List ℚ → List ℚ → Except Err GridArrays} (hf : KeepsShape f)
    {dk : Layer} (hdk : dk.isCore = true) {fl : Fields} {F : Family} {n : Nat} {d : PtArr} {cidx : List Int} {ls ls' : Dict Layer LayerArr}
    (h : LayersOk dk fl F n ls) (hp : A.plainLayers f dk d cidx ls = .ok ls') : LayersOk dk fl F n ls' := by
  unfold plainLayers at hp
  simp only at hp
  generalize hvg : (if d.fields.hasTvu = true then Dict.get? ls Layer.vertical else none) = vg at hp
  generalize hhg : (if d.fields.hasThu = true then Dict.get? ls Layer.horizontal else none) = hg at hp
  generalize (if d.fields.hasTvu = true then d.pts.map Pt.tvu else []) = vert at hp
  generalize (if d.fields.hasThu = true then d.pts.map Pt.thu else []) = horiz at hp
  have hv : ∀ a, vg = some a → ls.get? .vertical = some a := by
    intro a ha; rw [ha] at hvg
    split at hvg
    · exact hvg
    · cases hvg
  have hh : ∀ a, hg = some a → ls.get? .horizontal = some a := by
    intro a ha; rw [ha] at hhg
    split at hhg
    · exact hhg
    · cases hhg
  clear hvg hhg
  split at hp
  · cases hp
  · split at hp
    · rename_i dg ng h1 h2
      split at hp
      · cases hp
      · rename_i out hout
        obtain ⟨s1, s2, s3, s4⟩ := hf _ _ _ _ _ _ n n hout
        cases hp
        have k1 : LayersOk dk fl F n ((ls.set dk (A.roundLayer out.depth)).set .density out.density) := by
          apply layersOk_set _ rfl
          · rw [Dict.keys_set_of_mem _ _ _ (Dict.mem_fst_of_get? h1)]; exact Dict.mem_fst_of_get? h2
          · exact s2 (layersOk_get h rfl h2)
          · exact layersOk_set h hdk (Dict.mem_fst_of_get? h1) (A.roundLayer_shape (s1 (layersOk_get h hdk h1)))
        have m1 : ∀ l, l ∈ ls.map Prod.fst → l ∈ ((ls.set dk (A.roundLayer out.depth)).set .density out.density).map Prod.fst := by
          intro l hl
          rw [Dict.keys_set_of_mem _ _ _ (by
            rw [Dict.keys_set_of_mem _ _ _ (Dict.mem_fst_of_get? h1)]; exact Dict.mem_fst_of_get? h2),
            Dict.keys_set_of_mem _ _ _ (Dict.mem_fst_of_get? h1)]
          exact hl
        generalize (ls.set dk (A.roundLayer out.depth)).set .density out.density = ls1 at k1 m1
        have hsv : ∀ o, out.tvu = some o → Layer.vertical ∈ ls1.map Prod.fst ∧ HasShape o n n := by
          intro o hot
          cases hvgc : vg with
          | none => rw [hot, hvgc] at s3; exact absurd s3 (by simp [OptShape])
          | some a =>
            rw [hot, hvgc] at s3
            exact ⟨m1 _ (Dict.mem_fst_of_get? (hv a hvgc)), s3 (layersOk_get h rfl (hv a hvgc))⟩
        have hsh : ∀ o, out.thu = some o → Layer.horizontal ∈ ls1.map Prod.fst ∧ HasShape o n n := by
          intro o hot
          cases hvgc : hg with
          | none => rw [hot, hvgc] at s4; exact absurd s4 (by simp [OptShape])
          | some a =>
            rw [hot, hvgc] at s4
            exact ⟨m1 _ (Dict.mem_fst_of_get? (hh a hvgc)), s4 (layersOk_get h rfl (hh a hvgc))⟩
        have k2 := setOpt_ok (o := out.tvu) (f := fun a => if vert.length > 0 then A.roundLayer a else a) k1 (l := .vertical) rfl
          (fun a ha => (hsv a ha).1) (fun a ha => by
            split
            · exact A.roundLayer_shape (hsv a ha).2
            · exact (hsv a ha).2)
        have k3 := setOpt_ok (o := out.thu) (f := fun a => if horiz.length > 0 then A.roundLayer a else a) k2.2 (l := .horizontal) rfl
          (fun a ha => by rw [k2.1]; exact (hsh a ha).1) (fun a ha => by
            split
            · exact A.roundLayer_shape (hsh a ha).2
            · exact (hsh a ha).2)
        exact k3.2
    · cases hp

end Arith
end Bathy
