import Verif.Props.LayerTrim
import Verif.Lemmas.Surf
import Verif.Spec.Csv

/-!
# Lemmas about csv tables
-/

namespace Bathy

theorem flatMap_get {α β : Type} {n : Nat} (hn : 0 < n) (f : α → List β) (hf : ∀ a, (f a).length = n) (l : List α) (k : Nat) :
    (l.flatMap f)[k]? = (l[k / n]?).bind (fun a => (f a)[k % n]?) := by
  induction l generalizing k with
  | nil => simp
  | cons a l ih =>
    rw [List.flatMap_cons]
    by_cases hk : k < n
    · rw [List.getElem?_append_left (by rw [hf]; exact hk), Nat.div_eq_of_lt hk, Nat.mod_eq_of_lt hk]; rfl
    · have hk := Nat.le_of_not_lt hk
      rw [List.getElem?_append_right (by rw [hf]; exact hk), hf, ih]
      obtain ⟨m, rfl⟩ := Nat.exists_eq_add_of_le hk
      rw [Nat.add_sub_cancel_left, Nat.add_div_left _ hn, Nat.add_mod_left]
      rfl

theorem flatMap_len {α β : Type} {n : Nat} (f : α → List β) (hf : ∀ a, (f a).length = n) (l : List α) : (l.flatMap f).length = l.length * n := by
  induction l with
  | nil => simp
  | cons a l ih => rw [List.flatMap_cons, List.length_append, hf, ih, List.length_cons]; ring

theorem meshX_get {xs ys : List ℚ} {k : Nat} (hk : k < ys.length * xs.length) : (meshX xs ys)[k]? = xs[k % xs.length]? := by
  have hn : 0 < xs.length := by by_contra h; rw [Nat.eq_zero_of_not_pos h] at hk; omega
  unfold meshX
  rw [flatMap_get hn (fun _ => xs) (fun _ => rfl), List.getElem?_eq_getElem ((Nat.div_lt_iff_lt_mul hn).2 hk)]
  rfl

theorem meshY_get {xs ys : List ℚ} {k : Nat} (hk : k < ys.length * xs.length) : (meshY xs ys)[k]? = ys[k / xs.length]? := by
  have hn : 0 < xs.length := by by_contra h; rw [Nat.eq_zero_of_not_pos h] at hk; omega
  unfold meshY
  rw [flatMap_get hn (fun y => xs.map (fun _ => y)) (fun y => by simp), List.getElem?_eq_getElem ((Nat.div_lt_iff_lt_mul hn).2 hk)]
  rw [Option.bind_some, List.getElem?_map, List.getElem?_eq_getElem (Nat.mod_lt k hn)]
  rfl

theorem meshX_length (xs ys : List ℚ) : (meshX xs ys).length = ys.length * xs.length := flatMap_len _ (fun _ => rfl) _

/-- the centres that are left after trimming -/
theorem slice_centres {lo hi r : ℚ} (hr : 0 < r) {n : Nat} (hn : (n : ℚ) * r = hi - lo) {c0 c1 : Nat} (hc : c1 ≤ n) (hc0 : c0 < c1) :
    Tile.slice ((arange lo hi r).map (· + r / 2)) c0 c1 = (List.range (c1 - c0)).map (fun k : Nat => lo + ((c0 + k : Nat) : ℚ) * r + r / 2) := by
  have h := slice_arange hr hn c0 (c1 - 1)
  rw [Nat.sub_add_cancel (by omega), Nat.min_eq_left hc] at h
  have : Tile.slice ((arange lo hi r).map (· + r / 2)) c0 c1 = (Tile.slice (arange lo hi r) c0 c1).map (· + r / 2) := by
    unfold Tile.slice; rw [List.map_drop, List.map_take]
  rw [this, h, List.map_map]; rfl

theorem trim_wf {D : Option (List LayerArr)} {s : Trimmed} (h : trim D = .ok s) : ∀ b ∈ s.data, b.WF := by
  unfold trim at h
  split at h
  · cases h
  · cases h
  · simp only at h
    split at h
    · cases h
      intro b hb
      obtain ⟨a, -, rfl⟩ := List.mem_map.1 hb
      exact Arr2.ofFn_wf _ _ _
    · cases h

theorem option_mapM_get {α β : Type} {f : α → Option β} {l : List α} {out : List β} (h : l.mapM f = some out) :
    out.length = l.length ∧ ∀ (k : Nat) a, l[k]? = some a → ∃ b, out[k]? = some b ∧ f a = some b := by
  induction l generalizing out with
  | nil => simp only [List.mapM_nil] at h; cases h; exact ⟨rfl, by simp⟩
  | cons x xs ih =>
    simp only [List.mapM_cons] at h
    cases hx : f x with
    | none => rw [hx] at h; cases h
    | some b =>
      rw [hx] at h
      cases hs : xs.mapM f with
      | none => rw [hs] at h; cases h
      | some bs =>
        rw [hs] at h
        cases h
        obtain ⟨h1, h2⟩ := ih hs
        refine ⟨by simp [h1], ?_⟩
        intro k a hk
        cases k with
        | zero => cases hk; exact ⟨b, rfl, hx⟩
        | succ k => exact h2 k a hk

section
variable {τ : Type} [LayerLike τ] [HasLeaves τ] {env : Env}

/-- the surface of several layers, at the centres -/
theorem returnSurf_list {g g' : Grid τ} {layers : List Layer} {r : ℚ} (hr : 0 < r) {s : Surf}
    (hm : ∀ g' o, g.getLayersByName env layers (some r) none false = (g', .ok o) → MosaicSpec g layers r none false g' o)
    (hq : g.returnSurf env layers (some r) false none = (g', .ok s)) :
    g' = g ∧ ∃ e D, g.extents = some e ∧ MosaicSpec g layers r none false g (some D) ∧ trim (some D) = .ok s.trimmed ∧
      s.xs = Tile.slice ((arange e.minX e.maxX r).map (· + r / 2)) s.trimmed.cmin s.trimmed.cmax ∧
      s.ys = Tile.slice ((arange e.minY e.maxY r).map (· + r / 2)) s.trimmed.rmin s.trimmed.rmax := by
  unfold Grid.returnSurf at hq
  have hqr : g.queryRes (some r) = .ok r := by unfold Grid.queryRes; simp [hr.ne']
  rw [hqr] at hq
  split at hq
  · cases hq
  · cases hq
  · simp only at hq
    unfold Grid.getLayersTrimmed at hq
    cases hl : g.getLayersByName env layers (some r) none false with
    | mk g1 o =>
      rw [hl] at hq
      cases o with
      | error e => cases hq
      | ok D =>
        simp only at hq
        have hsp := hm _ _ hl
        have hsame := hsp.same
        subst hsame
        cases D with
        | none => cases hq
        | some D =>
          cases ht : trim (some D) with
          | error e => rw [ht] at hq; cases hq
          | ok t =>
            rw [ht] at hq
            simp only at hq
            split at hq
            · cases hq
            · rename_i e he
              simp only [Bool.false_eq_true, if_false] at hq
              cases hq
              exact ⟨rfl, e, D, he, hsp, ht, rfl, rfl⟩

omit [LayerLike τ] in
/-- the smallest box of the array is the smallest box of the stored cells -/
theorem cellBox_of {g : Grid τ} {l : Layer} (hl : fillValue l none = none) {r : ℚ} {flip : Bool} {e : Extents} {a : LayerArr} (hsh : ShowsCells g l r none flip e.minX e.minY a)
    {r0 r1 c0 c1 : Nat} (hb : Box a r0 r1 c0 c1) : CellBox g l r e r0 r1 c0 c1 := by
  have key : ∀ i j, HasValue a i j → ∃ z, StoredCell g l r (e.minX + (j : ℚ) * r) (e.minY + (i : ℚ) * r) z := by
    intro i j hv
    obtain ⟨hi, hj⟩ := hasValue_bounds hv
    by_contra hn
    push Not at hn
    obtain ⟨v, hv⟩ := hv
    rw [hsh.empty i j hi hj hn, hl] at hv
    cases hv
  refine ⟨?_, ?_, ?_, ?_, ?_⟩
  · intro x y z hz
    obtain ⟨i, j, hi, hj, rfl, rfl⟩ := hsh.all x y z hz
    obtain ⟨h1, h2, h3, h4⟩ := hb.all i j ⟨_, hsh.value i j z hi hj hz⟩
    exact ⟨i, j, h1, h2, h3, h4, rfl, rfl⟩
  · obtain ⟨j, h⟩ := hb.top; exact ⟨j, key _ _ h⟩
  · obtain ⟨i, j, h0, h⟩ := hb.bottom
    obtain ⟨z, hz⟩ := key _ _ h
    exact ⟨i, j, z, h0, hz⟩
  · obtain ⟨i, h⟩ := hb.left; exact ⟨i, key _ _ h⟩
  · obtain ⟨i, j, h0, h⟩ := hb.right
    obtain ⟨z, hz⟩ := key _ _ h
    exact ⟨i, j, z, h0, hz⟩

omit [LayerLike τ] in
/-- the sign of an exported column -/
theorem csvColumn_get {g : Grid τ} {l : Layer} {r : ℚ} {up zUp : Bool} {md x y : ℚ} {a : LayerArr} {k : Nat} {v : Option ℚ} (hv : a.flat[k]? = some v) (hs : ShownAt g l r up x y v)
    {flip : Bool} (hflip : flip = xor up (zUp && decide (0 < md))) : ∃ v', (csvColumn zUp md l a).2[k]? = some v' ∧ ShownAt g l r flip x y v' := by
  unfold csvColumn
  by_cases h1 : l = .depth ∧ zUp = true
  · obtain ⟨rfl, rfl⟩ := h1
    rw [if_pos ⟨rfl, rfl⟩]
    by_cases hmd : 0 < md
    · rw [if_pos hmd]
      refine ⟨v.map (fun v => -v), by rw [List.getElem?_map, hv]; rfl, fun z hz => ?_, fun hz => ?_⟩
      · rw [hs.1 z hz, hflip]
        cases up <;> simp [shownValue, hmd]
      · rw [hs.2 hz]; rfl
    · rw [if_neg hmd]
      refine ⟨v, hv, ?_⟩
      rw [hflip, decide_eq_false hmd, Bool.and_false, Bool.xor_false]; exact hs
  · rw [if_neg h1]
    refine ⟨v, hv, fun z hz => ?_, hs.2⟩
    rw [hs.1 z hz]
    unfold shownValue
    by_cases hd : l = .depth
    · have : zUp = false := by cases zUp; rfl; exact absurd ⟨hd, rfl⟩ h1
      rw [hflip, this]; simp
    · simp [hd]

variable [NamesLike τ]

theorem csv_spec {g g' : Grid τ} {l0 : Layer} {ls : List Layer} {r : ℚ} (hr : 0 < r) {zUp : Bool} {f : CsvFile}
    (hn : g.returnLayerNames = .ok (l0 :: ls)) (hl0 : fillValue l0 none = none)
    (hm : ∀ g' o, g.getLayersByName env (l0 :: ls) (some r) none false = (g', .ok o) → MosaicSpec g (l0 :: ls) r none false g' o)
    {flip : Bool} (hflip : flip = true ↔ ¬ (StoredUp g ↔ (zUp = true ∧ 0 < g.meanDepth)))
    (hq : g.csvFile env r zUp = (g', .ok f)) : g' = g ∧ CsvSpec g (l0 :: ls) r zUp flip f := by
  classical
  unfold Grid.csvFile at hq
  rw [hn] at hq
  simp only at hq
  cases hsf : g.returnSurf env (l0 :: ls) (some r) false none with
  | mk g1 o =>
    rw [hsf] at hq
    cases o with
    | error e => cases hq
    | ok s =>
      obtain ⟨hgg, e, D, he, hsp, ht, hxs, hys⟩ := returnSurf_list hr hm hsf
      obtain rfl : g = g1 := hgg.symm
      simp only at hq
      split at hq
      · cases hq
      rename_i hlen
      split at hq
      · cases hq
      rename_i rows hrows
      cases hq
      refine ⟨rfl, ?_⟩
      obtain ⟨hDl, e', he', hk⟩ := hsp.shows D rfl
      rw [he] at he'; cases he'
      have hup : (decide (StoredUp g) = true ↔ (false = true ↔ ¬ StoredUp g)) := by simp
      have hfl : flip = xor (decide (StoredUp g)) (zUp && decide (0 < g.meanDepth)) := by
        rw [Bool.eq_iff_iff, hflip]
        by_cases h1 : StoredUp g <;> cases zUp <;> by_cases h2 : 0 < g.meanDepth <;> simp [h1, h2]
      -- the arrays
      match D, hDl, ht, hk with
      | d :: ds, hDl, ht, hk =>
      obtain ⟨d', hd', hrd, hcd, hshd⟩ := hk 0 l0 rfl
      cases hd'
      have hshape : ∀ (k : Nat) l, (l0 :: ls)[k]? = some l → ∃ a, (d :: ds)[k]? = some a ∧ a.rows = d.rows ∧ a.cols = d.cols ∧ ShowsCells g l r none (decide (StoredUp g)) e.minX e.minY a := by
        intro k l hl
        obtain ⟨a, ha, h1, h2, h3⟩ := hk k l hl
        refine ⟨a, ha, ?_, ?_, h3 _ hup⟩
        · have := mul_right_cancel₀ hr.ne' (h1.trans hrd.symm); exact_mod_cast this
        · have := mul_right_cancel₀ hr.ne' (h2.trans hcd.symm); exact_mod_cast this
      obtain ⟨hbox, hdl, hpart⟩ := trim_of (d := d) (ds := ds) (by
        intro a ha i j hi hj
        obtain ⟨k, hka⟩ := List.mem_iff_getElem?.1 ha
        have hkl : k < (l0 :: ls).length := by rw [← hDl]; exact (List.getElem?_eq_some_iff.1 hka).1
        obtain ⟨a', ha', h1, h2, h3⟩ := hshape k _ (List.getElem?_eq_getElem hkl)
        rw [hka] at ha'; cases ha'
        exact shows_total h3 (by rw [h1]; exact hi) (by rw [h2]; exact hj)) ht
      have hwf := trim_wf ht
      generalize hT : s.trimmed = T at *
      have hcr : T.cmin < T.cmax := by obtain ⟨i, hi⟩ := hbox.left; exact (hbox.all _ _ hi).2.2.2
      have hrr : T.rmin < T.rmax := by obtain ⟨i, hi⟩ := hbox.top; exact (hbox.all _ _ hi).2.1
      rw [slice_centres hr hcd hbox.inside.2 hcr] at hxs
      rw [slice_centres hr hrd hbox.inside.1 hrr] at hys
      have hxl : s.xs.length = T.cmax - T.cmin := by rw [hxs]; simp
      have hyl : s.ys.length = T.rmax - T.rmin := by rw [hys]; simp
      generalize hnx : T.cmax - T.cmin = nx at *
      generalize hny : T.rmax - T.rmin = ny at *
      have hnx0 : 0 < nx := by omega
      -- one row
      have hrow : ∀ k w, k < ny * nx → csvRow (meshX s.xs s.ys) (meshY s.xs s.ys) ((List.zipWith (csvColumn zUp g.meanDepth) (l0 :: ls) T.data).map Prod.snd) k = .ok w →
          w.x = e.minX + ((T.cmin + k % nx : Nat) : ℚ) * r + r / 2 ∧ w.y = e.minY + ((T.rmin + k / nx : Nat) : ℚ) * r + r / 2 ∧ w.values.length = (l0 :: ls).length ∧
          ∀ (m : Nat) l, (l0 :: ls)[m]? = some l → ∃ v, w.values[m]? = some v ∧ ShownAt g l r flip (e.minX + ((T.cmin + k % nx : Nat) : ℚ) * r) (e.minY + ((T.rmin + k / nx : Nat) : ℚ) * r) v := by
        intro k w hk0 hw
        have hkm : k % nx < nx := Nat.mod_lt _ hnx0
        have hkd : k / nx < ny := (Nat.div_lt_iff_lt_mul hnx0).2 hk0
        unfold csvRow at hw
        rw [meshX_get (by rw [hxl, hyl]; exact hk0), meshY_get (by rw [hxl, hyl]; exact hk0), hxl, hxs, hys, List.getElem?_map, List.getElem?_map, List.getElem?_range hkm,
          List.getElem?_range hkd] at hw
        simp only [Option.map_some] at hw
        split at hw
        · rename_i x y vs hx hy hvs
          cases hw
          cases hx; cases hy
          obtain ⟨hvl, hvg⟩ := option_mapM_get hvs
          refine ⟨rfl, rfl, ?_, ?_⟩
          · simp only [hvl, List.length_map, List.length_zipWith]
            rw [Nat.min_eq_left]; omega
          · intro m l hl
            obtain ⟨a, ha, h1, h2, h3⟩ := hshape m l hl
            obtain ⟨b, hb, hp1, hp2, hp3⟩ := hpart m a ha
            have hbw := hwf b (List.mem_of_getElem? hb)
            have hbf : b.flat[k]? = a.get? (T.rmin + k / nx) (T.cmin + k % nx) := by
              have hkb : k < b.flat.length := by rw [hbw, hp1, hp2, hnx, hny]; exact hk0
              rw [Arr2.flat_getElem?_eq b hbw hkb, hp3 _ _ (by rw [hp1, hp2, hnx, hny]; exact hkd) (by rw [hp2, hnx]; exact hkm), hp2, hnx]
            have hsh : ∃ v, a.get? (T.rmin + k / nx) (T.cmin + k % nx) = some v ∧
                ShownAt g l r (decide (StoredUp g)) (e.minX + ((T.cmin + k % nx : Nat) : ℚ) * r) (e.minY + ((T.rmin + k / nx : Nat) : ℚ) * r) v := by
              have hia : T.rmin + k / nx < a.rows := by rw [h1]; have := hbox.inside.1; omega
              have hja : T.cmin + k % nx < a.cols := by rw [h2]; have := hbox.inside.2; omega
              obtain ⟨v, hv⟩ := shows_total h3 hia hja
              refine ⟨v, hv, fun z hz => ?_, fun hz => ?_⟩
              · rw [h3.value _ _ z hia hja hz] at hv; exact (Option.some.inj hv).symm
              · rw [h3.empty _ _ hia hja hz] at hv; exact (Option.some.inj hv).symm
            obtain ⟨v, hv, hsv⟩ := hsh
            obtain ⟨v', hv', hs'⟩ := csvColumn_get (zUp := zUp) (md := g.meanDepth) (hbf.trans hv) hsv hfl
            obtain ⟨v'', hv'', hc⟩ := hvg m ((csvColumn zUp g.meanDepth l b).2) (by rw [List.getElem?_map, List.getElem?_zipWith, hl, hb]; rfl)
            rw [hv'] at hc; cases hc
            exact ⟨v', hv'', hs'⟩
        · cases hw
      have hperm := env.argsortQ.perm (meshX s.xs s.ys)
      have hsort := env.argsortQ.sorted (meshX s.xs s.ys)
      rw [meshX_length, hxl, hyl] at hperm
      generalize env.argsortQ.run (meshX s.xs s.ys) = idx at *
      obtain ⟨hrl, hrg⟩ := mapM_ok_get hrows
      have hidx := idx_lt_of_perm hperm
      -- the coordinates of the rows
      have hcoord : rows.map (fun w => (w.x, w.y)) =
          idx.map (fun k => (e.minX + ((T.cmin + k % nx : Nat) : ℚ) * r + r / 2, e.minY + ((T.rmin + k / nx : Nat) : ℚ) * r + r / 2)) := by
        apply List.ext_getElem?
        intro m
        rw [List.getElem?_map, List.getElem?_map]
        cases hm' : idx[m]? with
        | none => rw [List.getElem?_eq_none (by rw [hrl]; exact List.getElem?_eq_none_iff.1 hm')]; rfl
        | some k =>
          obtain ⟨w, hw, hw'⟩ := hrg m k hm'
          obtain ⟨h1, h2, -⟩ := hrow k w (hidx k (List.mem_of_getElem? hm')) hw'
          rw [hw]
          simp only [Option.map_some, h1, h2]
      refine ⟨?_, ?_, ?_, e, T.rmin, T.rmax, T.cmin, T.cmax, he, ?_, ?_, ?_⟩
      · show CsvCol.x :: CsvCol.y :: _ = _
        congr 2
        apply List.ext_getElem?
        intro m
        rw [List.getElem?_map, List.getElem?_map, List.getElem?_zipWith]
        cases hl : (l0 :: ls)[m]? with
        | none => rfl
        | some l =>
          have : m < T.data.length := by have := (List.getElem?_eq_some_iff.1 hl).1; omega
          rw [List.getElem?_eq_getElem this]
          simp only [Option.map_some, csvColumn]
          split <;> rfl
      · have : rows.map CsvRow.x = idx.filterMap (fun i => (meshX s.xs s.ys)[i]?) := by
          have hx : rows.map CsvRow.x = (rows.map (fun w => (w.x, w.y))).map Prod.fst := by rw [List.map_map]; rfl
          rw [hx, hcoord, List.map_map, ← List.filterMap_eq_map]
          apply List.filterMap_congr
          intro k hk
          have hk := hidx k hk
          rw [meshX_get (by rw [hxl, hyl]; exact hk), hxl, hxs, List.getElem?_map, List.getElem?_range (Nat.mod_lt _ hnx0)]
          rfl
        rw [← this, List.pairwise_map] at hsort
        exact hsort
      · rw [hcoord]
        refine (List.Perm.nodup_iff (hperm.map _)).2 ?_
        refine List.Nodup.map_on ?_ List.nodup_range
        intro a ha b hb hab
        obtain ⟨h1, h2⟩ := Prod.ext_iff.1 hab
        have h1 : ((T.cmin + a % nx : Nat) : ℚ) = ((T.cmin + b % nx : Nat) : ℚ) := by
          apply mul_right_cancel₀ hr.ne'; simp only at h1; linarith
        have h2 : ((T.rmin + a / nx : Nat) : ℚ) = ((T.rmin + b / nx : Nat) : ℚ) := by
          apply mul_right_cancel₀ hr.ne'; simp only at h2; linarith
        have h1 : T.cmin + a % nx = T.cmin + b % nx := by exact_mod_cast h1
        have h2 : T.rmin + a / nx = T.rmin + b / nx := by exact_mod_cast h2
        rw [← Nat.div_add_mod a nx, ← Nat.div_add_mod b nx, Nat.add_left_cancel h1, Nat.add_left_cancel h2]
      · intro l hl
        cases hl
        exact cellBox_of hl0 (hshd _ hup) hbox
      · intro i j hi0 hi1 hj0 hj1
        have hkm : (j - T.cmin) < nx := by omega
        have hdiv : ((i - T.rmin) * nx + (j - T.cmin)) / nx = i - T.rmin := by
          rw [Nat.mul_comm, Nat.mul_add_div hnx0, Nat.div_eq_of_lt hkm, Nat.add_zero]
        have hmod : ((i - T.rmin) * nx + (j - T.cmin)) % nx = j - T.cmin := by
          rw [Nat.mul_comm, Nat.mul_add_mod, Nat.mod_eq_of_lt hkm]
        have hmem : (i - T.rmin) * nx + (j - T.cmin) ∈ idx := by
          rw [hperm.mem_iff, List.mem_range]
          have h2 : (i - T.rmin + 1) * nx ≤ ny * nx := Nat.mul_le_mul_right _ (by omega)
          have h3 : (i - T.rmin + 1) * nx = (i - T.rmin) * nx + nx := by ring
          omega
        obtain ⟨m, hm'⟩ := List.mem_iff_getElem?.1 hmem
        obtain ⟨w, hw, hw'⟩ := hrg m _ hm'
        obtain ⟨h1, h2, -⟩ := hrow _ w (hidx _ hmem) hw'
        rw [hmod, Nat.add_sub_cancel' hj0] at h1
        rw [hdiv, Nat.add_sub_cancel' hi0] at h2
        exact ⟨w, List.mem_of_getElem? hw, h1, h2⟩
      · intro w hw
        obtain ⟨m, hm'⟩ := List.mem_iff_getElem?.1 hw
        have hml : m < idx.length := by rw [← hrl]; exact (List.getElem?_eq_some_iff.1 hm').1
        obtain ⟨w', hw', hr'⟩ := hrg m _ (List.getElem?_eq_getElem hml)
        rw [hm'] at hw'; cases hw'
        have hk := hidx _ (List.getElem_mem hml)
        obtain ⟨h1, h2, h3, h4⟩ := hrow _ w hk hr'
        have := (Nat.div_lt_iff_lt_mul hnx0).2 hk
        have := Nat.mod_lt (idx[m]) hnx0
        exact ⟨_, _, ⟨Nat.le_add_right _ _, by omega, Nat.le_add_right _ _, by omega⟩, h1, h2, h3, h4⟩

theorem mapM_ok_all {α β : Type} {f : α → Except Err β} {l : List α} (h : ∀ a ∈ l, ∃ b, f a = .ok b) : ∃ out, l.mapM f = .ok out := by
  induction l with
  | nil => exact ⟨[], rfl⟩
  | cons a l ih =>
    obtain ⟨b, hb⟩ := h a List.mem_cons_self
    obtain ⟨bs, hbs⟩ := ih (fun x hx => h x (List.mem_cons_of_mem _ hx))
    exact ⟨b :: bs, by rw [List.mapM_cons, hb, hbs]; rfl⟩

theorem mem_zipWith_of {α β γ : Type} {f : α → β → γ} {l : List α} {m : List β} {p : γ} (h : p ∈ List.zipWith f l m) : ∃ a b, b ∈ m ∧ f a b = p := by
  induction l generalizing m with
  | nil => simp at h
  | cons a l ih =>
    cases m with
    | nil => simp at h
    | cons b m =>
      rw [List.zipWith_cons_cons] at h
      rcases List.mem_cons.1 h with rfl | h
      · exact ⟨a, b, List.mem_cons_self, rfl⟩
      · obtain ⟨a, b, hb, he⟩ := ih h
        exact ⟨a, b, List.mem_cons_of_mem _ hb, he⟩

theorem trim_lengths {d : LayerArr} {ds : List LayerArr} {s : Trimmed} (h : trim (some (d :: ds)) = .ok s) :
    s.data.length = ds.length + 1 ∧ ∀ b ∈ s.data, b.flat.length = (s.rmax - s.rmin) * (s.cmax - s.cmin) := by
  have hw := trim_wf h
  unfold trim at h
  simp only at h
  split at h
  · cases h
    refine ⟨by simp, fun b hb => ?_⟩
    have := hw b hb
    obtain ⟨a, -, rfl⟩ := List.mem_map.1 hb
    exact this
  · cases h

/-- the export does not fail when the first layer has a number -/
theorem csv_ok {g : Grid τ} {l0 : Layer} {ls : List Layer} {r : ℚ} (hr : 0 < r) {zUp : Bool}
    (hn : g.returnLayerNames = .ok (l0 :: ls)) {o : Option (List LayerArr)} (ho : (g.getLayersByName env (l0 :: ls) (some r) none false).2 = .ok o)
    (hm : ∀ g' o, g.getLayersByName env (l0 :: ls) (some r) none false = (g', .ok o) → MosaicSpec g (l0 :: ls) r none false g' o)
    (hst : ∃ x y z, StoredCell g l0 r x y z) : ∃ f, g.csvFile env r zUp = (g, .ok f) := by
  classical
  cases hl : g.getLayersByName env (l0 :: ls) (some r) none false with
  | mk g1 o1 =>
    rw [hl] at ho
    cases ho
    have hsp := hm _ _ hl
    obtain rfl : g = g1 := hsp.same.symm
    have hng : g.noGrid = .ok false := by
      unfold Grid.getLayersByName at hl
      split at hl
      · cases hl
      · cases hl
      · rename_i h; exact h
    cases o with
    | none =>
      obtain ⟨x, y, z, hz⟩ := hst
      exact absurd hz (hsp.none_iff.1 rfl l0 List.mem_cons_self x y z)
    | some D =>
      obtain ⟨hDl, e, he, hk⟩ := hsp.shows D rfl
      match D, hDl, hk, hl with
      | d :: ds, hDl, hk, hl =>
      obtain ⟨d', hd', hrd, hcd, hshd⟩ := hk 0 l0 rfl
      cases hd'
      have hup : (decide (StoredUp g) = true ↔ (false = true ↔ ¬ StoredUp g)) := by simp
      have hsh := hshd _ hup
      obtain ⟨x, y, z, hz⟩ := hst
      obtain ⟨i, j, hi, hj, rfl, rfl⟩ := hsh.all x y z hz
      obtain ⟨T, hT⟩ := (C36_trim_ok d ds).2 ⟨i, j, _, hsh.value i j z hi hj hz⟩
      obtain ⟨hTl, hTf⟩ := trim_lengths hT
      have hin : T.rmax ≤ d.rows ∧ T.cmax ≤ d.cols ∧ T.rmin < T.rmax ∧ T.cmin < T.cmax := by
        unfold trim at hT
        simp only at hT
        split at hT
        · rename_i r0 r1 c0 c1 e1 e2 e3 e4
          cases hT
          obtain ⟨k1, k2, k3, k4⟩ := filter_ends e1 e2
          obtain ⟨l1, l2, l3, l4⟩ := filter_ends e3 e4
          have := k4 r1 k3 k2
          have := l4 c1 l3 l2
          dsimp only; omega
        · cases hT
      have hqr : g.queryRes (some r) = .ok r := by unfold Grid.queryRes; simp [hr.ne']
      have hsurf : g.returnSurf env (l0 :: ls) (some r) false none = (g, .ok ⟨Tile.slice ((arange e.minX e.maxX r).map (· + r / 2)) T.cmin T.cmax,
          Tile.slice ((arange e.minY e.maxY r).map (· + r / 2)) T.rmin T.rmax, T⟩) := by
        unfold Grid.returnSurf Grid.getLayersTrimmed
        rw [hng]
        simp only [hqr, hl, hT, he, Bool.false_eq_true, if_false]
      unfold Grid.csvFile
      rw [hn]
      simp only [hsurf]
      rw [if_neg (by rw [hTl]; simp only [List.length_cons] at *; omega)]
      rw [slice_centres hr hcd hin.2.1 hin.2.2.2, slice_centres hr hrd hin.1 hin.2.2.1]
      generalize hxs : (List.range (T.cmax - T.cmin)).map (fun k : Nat => e.minX + ((T.cmin + k : Nat) : ℚ) * r + r / 2) = xs
      generalize hys : (List.range (T.rmax - T.rmin)).map (fun k : Nat => e.minY + ((T.rmin + k : Nat) : ℚ) * r + r / 2) = ys
      have hxl : xs.length = T.cmax - T.cmin := by rw [← hxs]; simp
      have hyl : ys.length = T.rmax - T.rmin := by rw [← hys]; simp
      have hall : ∀ k ∈ env.argsortQ.run (meshX xs ys), ∃ w, csvRow (meshX xs ys) (meshY xs ys) ((List.zipWith (csvColumn zUp g.meanDepth) (l0 :: ls) T.data).map Prod.snd) k = .ok w := by
        intro k hk
        have hk := idx_lt_of_perm (env.argsortQ.perm (meshX xs ys)) k hk
        rw [meshX_length] at hk
        have hn : 0 < xs.length := by omega
        unfold csvRow
        rw [meshX_get hk, meshY_get hk, List.getElem?_eq_getElem (Nat.mod_lt k hn), List.getElem?_eq_getElem ((Nat.div_lt_iff_lt_mul hn).2 hk)]
        have hcols : ∃ vs, ((List.zipWith (csvColumn zUp g.meanDepth) (l0 :: ls) T.data).map Prod.snd).mapM (fun c => c[k]?) = some vs := by
          rw [← Option.isSome_iff_exists, Option.isSome_iff_ne_none]
          intro hnone
          obtain ⟨c, hc, hck⟩ := (mapM_eq_none _ _).1 hnone
          obtain ⟨p, hp, rfl⟩ := List.mem_map.1 hc
          obtain ⟨l, b, hb, rfl⟩ := mem_zipWith_of hp
          have hlen : (csvColumn zUp g.meanDepth l b).2.length = b.flat.length := by
            unfold csvColumn; split
            · split <;> simp
            · rfl
          rw [List.getElem?_eq_none_iff, hlen, hTf b hb, ← hxl, ← hyl] at hck
          omega
        obtain ⟨vs, hvs⟩ := hcols
        rw [hvs]
        exact ⟨_, rfl⟩
      obtain ⟨rows, hrows⟩ := mapM_ok_all hall
      rw [hrows]
      exact ⟨_, rfl⟩

omit [HasLeaves τ] in
/-- the loop over the resolutions -/
theorem csvLoop_ok {g : Grid τ} {zUp : Bool} {P : ℚ → CsvFile → Prop} {rs : List ℚ} (h : ∀ r ∈ rs, ∃ f, g.csvFile env r zUp = (g, .ok f) ∧ P r f) (fs : List (ℚ × CsvFile)) :
    ∃ out, g.csvLoop env zUp rs fs = (g, fs ++ out, none) ∧ out.map Prod.fst = rs ∧ ∀ p ∈ out, P p.1 p.2 := by
  induction rs generalizing fs with
  | nil => exact ⟨[], by simp [Grid.csvLoop], rfl, by simp⟩
  | cons r rs ih =>
    obtain ⟨f, hf, hP⟩ := h r List.mem_cons_self
    obtain ⟨out, ho, h1, h2⟩ := ih (fun r hr => h r (List.mem_cons_of_mem _ hr)) (fs ++ [(r, f)])
    refine ⟨(r, f) :: out, ?_, by rw [List.map_cons, h1], ?_⟩
    · unfold Grid.csvLoop
      rw [hf]
      simp only
      rw [ho, List.append_assoc]; rfl
    · rintro p hp
      rcases List.mem_cons.1 hp with rfl | hp
      · exact hP
      · exact h2 p hp

omit [LayerLike τ] [HasLeaves τ] in
theorem namesLoop_same {l : List τ} {ns : List Layer} (hne : l ≠ []) (h : ∀ t ∈ l, NamesLike.layerNames t = .ok (some ns)) : namesLoop l = .ok ns := by
  cases l with
  | nil => exact absurd rfl hne
  | cons t l => unfold namesLoop; rw [h t List.mem_cons_self]

end

end Bathy
