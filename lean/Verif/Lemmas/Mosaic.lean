import Verif.Model.Layers
import Verif.Lemmas.GridPts

/-!
# `get_layers_by_name` of a grid: the array slot by slot
-/

namespace Bathy

theorem cellsAlong_ok {x res : ℚ} {n : Nat} (hres : res ≠ 0) (h : cellsAlong x res = .ok n) : x = (n : ℚ) * res := by
  unfold cellsAlong at h
  split at h
  · rename_i hd
    split at h
    · cases h
    · rename_i hneg
      cases h
      have h1 : ((x / res).num : ℚ) = x / res := by
        conv_rhs => rw [← Rat.num_div_den (x / res)]
        rw [hd]; simp
      have h2 : 0 ≤ (x / res).num := Rat.num_nonneg.2 (not_lt.1 hneg)
      have h3 : (((x / res).num.toNat : ℕ) : ℚ) = ((x / res).num : ℚ) := by
        have : (((x / res).num.toNat : ℤ)) = (x / res).num := Int.toNat_of_nonneg h2
        exact_mod_cast this
      rw [h3, h1]; field_simp
  · cases h

theorem cellsAlong_mul {res : ℚ} (hres : 0 < res) (n : Nat) : cellsAlong ((n : ℚ) * res) res = .ok n := by
  have h : (n : ℚ) * res / res = (n : ℚ) := by field_simp
  unfold cellsAlong
  rw [h]
  have h0 : ¬ ((n : ℚ) < 0) := not_lt.2 (Nat.cast_nonneg n)
  simp [h0]

theorem pasteAll_length {r0 c0 n : Nat} {ds ds' : List LayerArr} {ps : List (Layer × LayerArr)} (h : pasteAll r0 c0 n ds ps = .ok ds') :
    ds'.length = ds.length ∧ ps.length ≤ ds.length := by
  induction ds generalizing ps ds' with
  | nil => cases ps with
    | nil => cases h; simp
    | cons p ps => cases h
  | cons d ds ih => cases ps with
    | nil => cases h; simp
    | cons p ps =>
      unfold pasteAll at h
      split at h
      · cases h
      · split at h
        · cases h
        · rename_i h2
          cases h
          have := ih h2
          simp only [List.length_cons]; omega

theorem pasteAll_get {r0 c0 n : Nat} {ds ds' : List LayerArr} {ps : List (Layer × LayerArr)} (h : pasteAll r0 c0 n ds ps = .ok ds') (i : Nat) :
    (∀ p, ps[i]? = some p → ∃ d d', ds[i]? = some d ∧ ds'[i]? = some d' ∧ paste d r0 c0 n p.2 = .ok d') ∧ (ps[i]? = none → ds'[i]? = ds[i]?) := by
  induction ds generalizing ps ds' i with
  | nil => cases ps with
    | nil => cases h; simp
    | cons p ps => cases h
  | cons d ds ih => cases ps with
    | nil => cases h; simp
    | cons p ps =>
      unfold pasteAll at h
      split at h
      · cases h
      · rename_i d' hd
        split at h
        · cases h
        · rename_i ds1 h2
          cases h
          cases i with
          | zero => simpa using hd
          | succ i => simpa using ih h2 i

theorem pasteAll_ok {r0 c0 n : Nat} {ds : List LayerArr} {ps : List (Layer × LayerArr)} (hl : ps.length ≤ ds.length)
    (h : ∀ d ∈ ds, ∀ p ∈ ps, ∃ d', paste d r0 c0 n p.2 = .ok d') : ∃ ds', pasteAll r0 c0 n ds ps = .ok ds' := by
  induction ds generalizing ps with
  | nil => cases ps with
    | nil => exact ⟨[], rfl⟩
    | cons p ps => simp at hl
  | cons d ds ih => cases ps with
    | nil => exact ⟨_, rfl⟩
    | cons p ps =>
      obtain ⟨d', hd⟩ := h d List.mem_cons_self p List.mem_cons_self
      obtain ⟨ds', hds⟩ := ih (by simpa using hl) (fun d hd p hp => h d (List.mem_cons_of_mem _ hd) p (List.mem_cons_of_mem _ hp))
      exact ⟨d' :: ds', by unfold pasteAll; rw [hd, hds]⟩

namespace Grid
variable {τ : Type} [LayerLike τ]

/-- what the tile gives for the layers -/
def foundIn (env : Env) (res : ℚ) (layers : List Layer) (nodata : Option ℚ) (zUp : Bool) (t : τ) : Except Err (Dict Layer LayerArr) :=
  (tileLayersFrom env res nodata zUp t [] layers).2

/-- the tile after it was asked for the layers -/
def askedFor (env : Env) (res : ℚ) (layers : List Layer) (nodata : Option ℚ) (zUp : Bool) (t : τ) : τ :=
  (tileLayersFrom env res nodata zUp t [] layers).1

/-- value of the `i`-th entry of a dict of arrays -/
def entryVal (d : Except Err (Dict Layer LayerArr)) (i : Nat) (nd : Option ℚ) (r c : Nat) : Option ℚ :=
  match d with
  | .error _ => nd
  | .ok d => match d[i]? with | some p => (p.2.get? r c).join | none => nd

/-- value of a cell of the mosaic in terms of what the tiles give -/
def slotVal (found : τ → Except Err (Dict Layer LayerArr)) (T : Arr2 (Option τ)) (n i : Nat) (nd : Option ℚ) (r c : Nat) : Option ℚ :=
  match T.get? (r / n) (c / n) with
  | some (some t) => entryVal (found t) i nd (r % n) (c % n)
  | _ => nd

/-- what a tile gives fits -/
def Fits (found : τ → Except Err (Dict Layer LayerArr)) (n L : Nat) (t : τ) : Prop :=
  ∃ d, found t = .ok d ∧ d.length ≤ L ∧ ∀ p ∈ d, p.2.rows = n ∧ p.2.cols = n

/-- the arrays under construction after the tiles before `m` -/
def Upto (found : τ → Except Err (Dict Layer LayerArr)) (T : Arr2 (Option τ)) (n m : Nat) (nds : List (Option ℚ)) (data : List LayerArr) : Prop :=
  data.length = nds.length ∧ ∀ (i : Nat) nd, nds[i]? = some nd → ∃ D, data[i]? = some D ∧ D.rows = T.rows * n ∧ D.cols = T.cols * n ∧ D.WF ∧
    ∀ r c, r < T.rows * n → c < T.cols * n → D.get? r c = some (if (r / n) * T.cols + c / n < m then slotVal found T n i nd r c else nd)

omit [LayerLike τ] in
theorem paste_fits {found : τ → Except Err (Dict Layer LayerArr)} {T : Arr2 (Option τ)} {n m : Nat} {nds : List (Option ℚ)} {data : List LayerArr} (hw : T.WF)
    (hu : Upto found T n m nds data) {t : τ} (ht : T.flat[m]? = some (some t)) {d : Dict Layer LayerArr} (hd : found t = .ok d) {data' : List LayerArr}
    (hp : pasteAll (m / T.cols * n) (m % T.cols * n) n data d = .ok data') : Upto found T n (m + 1) nds data' := by
  obtain ⟨hl, hu⟩ := hu
  have hm : m < T.flat.length := (List.getElem?_eq_some_iff.1 ht).1
  have hm' : m < T.rows * T.cols := by rw [← hw]; exact hm
  have hq := Arr2.div_lt_rows hm'
  have hr := Arr2.mod_lt_cols hm'
  refine ⟨(pasteAll_length hp).1.trans hl, ?_⟩
  intro i nd hnd
  obtain ⟨D, h1, h2, h3, h4, h5⟩ := hu i nd hnd
  obtain ⟨g1, g2⟩ := pasteAll_get hp i
  -- the tile of a cell is tile `m` exactly if the cell is in its block
  have hblock : ∀ r c, r < T.rows * n → c < T.cols * n → ((r / n) * T.cols + c / n = m ↔ r / n = m / T.cols ∧ c / n = m % T.cols) := by
    intro r c hrr hcc
    have hc' : c / n < T.cols := Arr2.div_lt_rows hcc
    constructor
    · intro e
      rw [← e, Arr2.idx_div hc', Arr2.idx_mod hc']
      exact ⟨rfl, rfl⟩
    · rintro ⟨e1, e2⟩
      rw [e1, e2, Nat.div_add_mod']
  have hslot : ∀ r c, r < T.rows * n → c < T.cols * n → (r / n) * T.cols + c / n = m → slotVal found T n i nd r c = entryVal (.ok d) i nd (r % n) (c % n) := by
    intro r c hrr hcc e
    unfold slotVal
    have : T.get? (r / n) (c / n) = some (some t) := by
      rw [Arr2.get?_eq_flat T (Arr2.div_lt_rows hrr) (Arr2.div_lt_rows hcc), e]; exact ht
    rw [this]
    simp only [hd]
  rcases Option.eq_none_or_eq_some d[i]? with hdi | ⟨p, hdi⟩
  · refine ⟨D, by rw [g2 hdi]; exact h1, h2, h3, h4, ?_⟩
    intro r c hrr hcc
    rw [h5 r c hrr hcc]
    by_cases e : (r / n) * T.cols + c / n = m
    · rw [hslot r c hrr hcc e, if_neg (by omega), if_pos (by omega)]
      simp only [entryVal, hdi]
    · by_cases e' : (r / n) * T.cols + c / n < m
      · rw [if_pos e', if_pos (by omega)]
      · rw [if_neg e', if_neg (by omega)]
  · obtain ⟨D0, D', k1, k2, k3⟩ := g1 p hdi
    rw [h1] at k1; cases k1
    unfold paste at k3
    split at k3
    · rename_i hsh
      cases k3
      refine ⟨_, k2, h2, h3, Arr2.ofFn_wf _ _ _, ?_⟩
      intro r c hrr hcc
      rw [Arr2.get?_ofFn _ (by rw [h2]; exact hrr) (by rw [h3]; exact hcc), h5 r c hrr hcc]
      have hn : 0 < n := by
        rcases Nat.eq_zero_or_pos n with h0 | h0
        · subst h0; simp at hrr
        · exact h0
      have hin : (m / T.cols * n ≤ r ∧ r < m / T.cols * n + n ∧ m % T.cols * n ≤ c ∧ c < m % T.cols * n + n) ↔ (r / n) * T.cols + c / n = m := by
        rw [hblock r c hrr hcc]
        constructor
        · rintro ⟨a1, a2, a3, a4⟩
          exact ⟨Nat.div_eq_of_lt_le (by linarith) (by rw [Nat.succ_mul]; exact a2), Nat.div_eq_of_lt_le (by linarith) (by rw [Nat.succ_mul]; exact a4)⟩
        · rintro ⟨e1, e2⟩
          have b1 := Nat.div_add_mod' r n
          have b2 := Nat.div_add_mod' c n
          have b3 := Nat.mod_lt r hn
          have b4 := Nat.mod_lt c hn
          rw [e1] at b1
          rw [e2] at b2
          omega
      by_cases e : (r / n) * T.cols + c / n = m
      · rw [if_pos (hin.2 e), if_pos (by omega), hslot r c hrr hcc e]
        obtain ⟨e1, e2⟩ := (hblock r c hrr hcc).1 e
        have b1 := Nat.div_add_mod' r n
        have b2 := Nat.div_add_mod' c n
        rw [e1] at b1
        rw [e2] at b2
        have c1 : r - m / T.cols * n = r % n := by omega
        have c2 : c - m % T.cols * n = c % n := by omega
        simp only [entryVal, hdi, c1, c2]
      · rw [if_neg (fun h => e (hin.1 h))]
        by_cases e' : (r / n) * T.cols + c / n < m
        · rw [if_pos e', if_pos (by omega)]; rfl
        · rw [if_neg e', if_neg (by omega)]; rfl
    · cases k3

omit [LayerLike τ] in
theorem upto_skip {found : τ → Except Err (Dict Layer LayerArr)} {T : Arr2 (Option τ)} {n m : Nat} {nds : List (Option ℚ)} {data : List LayerArr}
    (hu : Upto found T n m nds data) (ht : ∀ t, T.flat[m]? ≠ some (some t)) : Upto found T n (m + 1) nds data := by
  refine ⟨hu.1, ?_⟩
  intro i nd hnd
  obtain ⟨D, h1, h2, h3, h4, h5⟩ := hu.2 i nd hnd
  refine ⟨D, h1, h2, h3, h4, ?_⟩
  intro r c hrr hcc
  rw [h5 r c hrr hcc]
  by_cases e : (r / n) * T.cols + c / n = m
  · have : slotVal found T n i nd r c = nd := by
      unfold slotVal
      rw [Arr2.get?_eq_flat T (Arr2.div_lt_rows hrr) (Arr2.div_lt_rows hcc), e]
      split
      · rename_i t h; exact absurd h (ht t)
      · rfl
    rw [if_neg (by omega), if_pos (by omega), this]
  · by_cases e' : (r / n) * T.cols + c / n < m
    · rw [if_pos e', if_pos (by omega)]
    · rw [if_neg e', if_neg (by omega)]

omit [LayerLike τ] in
theorem min_block {R n q : Nat} (h : q < R) : min n (R * n - q * n) = n := by
  have : q * n + n ≤ R * n := by rw [← Nat.succ_mul]; exact Nat.mul_le_mul_right n h
  omega

/-- does the query negate depths? -/
def flips (g : Grid τ) (zUp : Bool) : Bool := if g.positiveUp then !zUp else zUp

/-- the state after the tiles before `m` -/
structure LoopInv (env : Env) (g : Grid τ) (T : Arr2 (Option τ)) (n : Nat) (res : ℚ) (layers : List Layer) (nodata : Option ℚ) (zUp : Bool) (nds : List (Option ℚ))
    (m : Nat) (s : MosaicState τ) : Prop where
  grid : ∃ Fl, s.grid = { g with tiles := some ⟨T.rows, T.cols, Fl⟩ } ∧ Fl.length = T.flat.length ∧ (∀ k : Nat, m ≤ k → Fl[k]? = T.flat[k]?) ∧
    ∀ k : Nat, k < m → Fl[k]? = (T.flat[k]?).map (Option.map (askedFor env res layers nodata (g.flips zUp)))
  data : Upto (foundIn env res layers nodata (g.flips zUp)) T n m nds s.data
  empty : s.empty = true ↔ ∀ k : Nat, k < m → ∀ t, T.flat[k]? = some (some t) → foundIn env res layers nodata (g.flips zUp) t = .ok []

theorem getTileData_eq {env : Env} {g : Grid τ} {T : Arr2 (Option τ)} {n : Nat} {res : ℚ} {layers : List Layer} {nodata : Option ℚ} {zUp : Bool}
    (hn : cellsAlong g.tileSize res = .ok n) {Fl : List (Option τ)} {row col : Nat} {t : τ} (ht : (⟨T.rows, T.cols, Fl⟩ : Arr2 (Option τ)).get? row col = some (some t)) :
    getTileData env { g with tiles := some ⟨T.rows, T.cols, Fl⟩ } row col res layers nodata zUp =
      ({ g with tiles := some ⟨T.rows, T.cols, Fl.set (row * T.cols + col) (some (askedFor env res layers nodata (g.flips zUp) t))⟩ },
        match foundIn env res layers nodata (g.flips zUp) t with
        | .error e => .error e
        | .ok d => .ok ⟨d, LayerLike.geo t res, row * n, col * n, n⟩) := by
  unfold getTileData
  have hp : positiveUp { g with tiles := some ⟨T.rows, T.cols, Fl⟩ } = g.positiveUp := rfl
  simp only [hp, ht, hn]
  unfold foundIn askedFor flips
  cases (tileLayersFrom env res nodata (if g.positiveUp = true then !zUp else zUp) t [] layers).2 <;> rfl

theorem mosaic_step {env : Env} {g : Grid τ} {T : Arr2 (Option τ)} {n : Nat} {res : ℚ} {layers : List Layer} {nodata : Option ℚ} {zUp : Bool} {nds : List (Option ℚ)}
    (hw : T.WF) (hc : g.txs.length = T.cols) (hn : cellsAlong g.tileSize res = .ok n) {m : Nat} (hm : m < T.flat.length) {s : MosaicState τ}
    (h : LoopInv env g T n res layers nodata zUp nds m s) :
    ((mosaicStep env res layers nodata zUp s m).err = none → (∀ t, T.flat[m]? = some (some t) → Fits (foundIn env res layers nodata (g.flips zUp)) n nds.length t) ∧
      LoopInv env g T n res layers nodata zUp nds (m + 1) (mosaicStep env res layers nodata zUp s m).st) ∧
    ((∀ t, T.flat[m]? = some (some t) → Fits (foundIn env res layers nodata (g.flips zUp)) n nds.length t) → (mosaicStep env res layers nodata zUp s m).err = none) := by
  obtain ⟨⟨Fl, hg, hl, hge, hlt⟩, hd, he⟩ := h
  have hm' : m < T.rows * T.cols := by rw [← hw]; exact hm
  have hq := Arr2.div_lt_rows hm'
  have hr := Arr2.mod_lt_cols hm'
  have htile : s.grid.tile? m = T.flat[m]? := by
    unfold tile?; rw [hg]; exact hge m le_rfl
  have hx : s.grid.txs = g.txs := by rw [hg]
  by_cases hsome : ∃ t, T.flat[m]? = some (some t)
  · obtain ⟨t, ht⟩ := hsome
    have hgt : (⟨T.rows, T.cols, Fl⟩ : Arr2 (Option τ)).get? (m / T.cols) (m % T.cols) = some (some t) := by
      rw [Arr2.get?_eq_flat (⟨T.rows, T.cols, Fl⟩ : Arr2 (Option τ)) hq hr]
      simp only [Nat.div_add_mod']
      rw [hge m le_rfl]; exact ht
    have hdata := getTileData_eq (env := env) (layers := layers) (nodata := nodata) (zUp := zUp) hn hgt
    rw [← hg] at hdata
    have hstep : mosaicStep env res layers nodata zUp s m =
        match foundIn env res layers nodata (g.flips zUp) t with
        | .error e => .fail { s with grid := { g with tiles := some ⟨T.rows, T.cols, Fl.set m (some (askedFor env res layers nodata (g.flips zUp) t))⟩ } } e
        | .ok d => match pasteAll (m / T.cols * n) (m % T.cols * n) n s.data d with
          | .error e => .fail { s with grid := { g with tiles := some ⟨T.rows, T.cols, Fl.set m (some (askedFor env res layers nodata (g.flips zUp) t))⟩ } } e
          | .ok data => .ok ⟨{ g with tiles := some ⟨T.rows, T.cols, Fl.set m (some (askedFor env res layers nodata (g.flips zUp) t))⟩ }, data, s.empty && d.isEmpty⟩ := by
      unfold mosaicStep
      rw [htile, ht]
      simp only [hx, hc, hdata, Nat.div_add_mod']
      cases foundIn env res layers nodata (g.flips zUp) t with
      | error e => rfl
      | ok d => rfl
    rw [hstep]
    have hdl := hd.1
    have hgrid : ∃ Fl', ({ g with tiles := some ⟨T.rows, T.cols, Fl.set m (some (askedFor env res layers nodata (g.flips zUp) t))⟩ } : Grid τ) = { g with tiles := some ⟨T.rows, T.cols, Fl'⟩ } ∧
        Fl'.length = T.flat.length ∧ (∀ k : Nat, m + 1 ≤ k → Fl'[k]? = T.flat[k]?) ∧
        ∀ k : Nat, k < m + 1 → Fl'[k]? = (T.flat[k]?).map (Option.map (askedFor env res layers nodata (g.flips zUp))) := by
      refine ⟨_, rfl, by rw [List.length_set]; exact hl, ?_, ?_⟩
      · intro k hk
        rw [List.getElem?_set_ne (by omega)]
        exact hge k (by omega)
      · intro k hk
        by_cases e : k = m
        · subst e
          rw [List.getElem?_set_self (by omega), ht]; rfl
        · rw [List.getElem?_set_ne (by omega)]
          exact hlt k (by omega)
    constructor
    · intro herr
      cases hf : foundIn env res layers nodata (g.flips zUp) t with
      | error e => rw [hf] at herr; cases herr
      | ok d =>
        rw [hf] at herr
        simp only at herr
        cases hpa : pasteAll (m / T.cols * n) (m % T.cols * n) n s.data d with
        | error e => rw [hpa] at herr; cases herr
        | ok data' =>
          simp only [hpa, Res.ok_st]
          obtain ⟨hpl1, hpl2⟩ := pasteAll_length hpa
          constructor
          · intro t' ht'
            rw [ht] at ht'; cases ht'
            refine ⟨d, hf, by omega, ?_⟩
            intro p hp
            obtain ⟨i, hi⟩ := List.getElem?_of_mem hp
            obtain ⟨D0, D', k1, k2, k3⟩ := (pasteAll_get hpa i).1 p hi
            have hin : i < nds.length := by
              have := (List.getElem?_eq_some_iff.1 hi).1; omega
            obtain ⟨D1, j1, j2, j3, -⟩ := hd.2 i _ (List.getElem?_eq_getElem hin)
            rw [k1] at j1; cases j1
            unfold paste at k3
            split at k3
            · rename_i hsh
              rw [j2, j3, min_block hq, min_block hr] at hsh
              exact hsh
            · cases k3
          · refine ⟨hgrid, paste_fits hw hd ht hf hpa, ?_⟩
            simp only [Bool.and_eq_true, he, List.isEmpty_iff]
            constructor
            · rintro ⟨h1, h2⟩ k hk t' ht'
              by_cases e : k = m
              · subst e; rw [ht] at ht'; cases ht'; rw [hf, h2]
              · exact h1 k (by omega) t' ht'
            · intro h1
              refine ⟨fun k hk => h1 k (by omega), ?_⟩
              have := h1 m (by omega) t ht
              rw [hf] at this; cases this; rfl
    · intro hfit
      obtain ⟨d, hf, hdl', hsh⟩ := hfit t ht
      rw [hf]
      have : ∃ data', pasteAll (m / T.cols * n) (m % T.cols * n) n s.data d = .ok data' := by
        apply pasteAll_ok (by omega)
        intro D hD p hp
        obtain ⟨i, hi⟩ := List.getElem?_of_mem hD
        have hin : i < nds.length := by
          have := (List.getElem?_eq_some_iff.1 hi).1; omega
        obtain ⟨D1, j1, j2, j3, -⟩ := hd.2 i _ (List.getElem?_eq_getElem hin)
        rw [hi] at j1; cases j1
        unfold paste
        rw [if_pos]
        · exact ⟨_, rfl⟩
        · rw [j2, j3, min_block hq, min_block hr]; exact hsh p hp
      obtain ⟨data', hdata'⟩ := this
      simp only [hdata']; rfl
  · have hns : ∀ t, T.flat[m]? ≠ some (some t) := fun t ht => hsome ⟨t, ht⟩
    have hnone : T.flat[m]? = some none := by
      rw [List.getElem?_eq_getElem hm]
      cases hx : T.flat[m] with
      | none => rfl
      | some t => exact absurd (by rw [List.getElem?_eq_getElem hm, hx]) (hns t)
    have hstep : mosaicStep env res layers nodata zUp s m = .ok s := by
      unfold mosaicStep
      rw [htile, hnone]
    rw [hstep]
    refine ⟨fun _ => ⟨fun t ht => absurd ht (hns t), ⟨⟨Fl, hg, hl, fun k hk => hge k (by omega), ?_⟩, upto_skip hd hns, ?_⟩⟩, fun _ => rfl⟩
    · intro k hk
      by_cases e : k = m
      · subst e; rw [hge k le_rfl, hnone]; rfl
      · exact hlt k (by omega)
    · rw [Res.ok_st, he]
      constructor
      · intro h1 k hk t ht
        by_cases e : k = m
        · subst e; exact absurd ht (hns t)
        · exact h1 k (by omega) t ht
      · intro h1 k hk; exact h1 k (by omega)

theorem mosaic_loop {env : Env} {g : Grid τ} {T : Arr2 (Option τ)} {n : Nat} {res : ℚ} {layers : List Layer} {nodata : Option ℚ} {zUp : Bool} {nds : List (Option ℚ)}
    (hw : T.WF) (hc : g.txs.length = T.cols) (hn : cellsAlong g.tileSize res = .ok n) {s : MosaicState τ} (h : LoopInv env g T n res layers nodata zUp nds 0 s) (m : Nat)
    (hm : m ≤ T.flat.length) :
    ((Res.forEach (List.range m) s (mosaicStep env res layers nodata zUp)).err = none →
      (∀ k : Nat, k < m → ∀ t, T.flat[k]? = some (some t) → Fits (foundIn env res layers nodata (g.flips zUp)) n nds.length t) ∧
      LoopInv env g T n res layers nodata zUp nds m (Res.forEach (List.range m) s (mosaicStep env res layers nodata zUp)).st) ∧
    ((∀ k : Nat, k < m → ∀ t, T.flat[k]? = some (some t) → Fits (foundIn env res layers nodata (g.flips zUp)) n nds.length t) →
      (Res.forEach (List.range m) s (mosaicStep env res layers nodata zUp)).err = none) := by
  induction m with
  | zero => exact ⟨fun _ => ⟨fun k hk => absurd hk (Nat.not_lt_zero _), h⟩, fun _ => rfl⟩
  | succ m ih =>
    obtain ⟨i1, i2⟩ := ih (by omega)
    rw [List.range_succ, Res.forEach_append]
    constructor
    · intro herr
      obtain ⟨e1, e2⟩ := Res.andThen_err_none herr
      rw [Res.andThen_of_err_none e1]
      obtain ⟨j1, j2⟩ := i1 e1
      simp only [Res.forEach_cons, Res.forEach_nil] at e2 ⊢
      obtain ⟨e3, -⟩ := Res.andThen_err_none e2
      obtain ⟨k1, k2⟩ := (mosaic_step hw hc hn (by omega) j2).1 e3
      rw [Res.andThen_of_err_none e3]
      refine ⟨?_, k2⟩
      intro k hk t ht
      by_cases e : k = m
      · subst e; exact k1 t ht
      · exact j1 k (by omega) t ht
    · intro hall
      have e1 := i2 (fun k hk => hall k (by omega))
      rw [Res.andThen_of_err_none e1]
      obtain ⟨j1, j2⟩ := i1 e1
      simp only [Res.forEach_cons, Res.forEach_nil]
      rw [Res.andThen_of_err_none ((mosaic_step hw hc hn (by omega) j2).2 (hall m (by omega)))]
      rfl

/-- a tile size that is not a multiple of the resolution: only grids without tiles get through the loop -/
theorem mosaic_loop_err {env : Env} {g : Grid τ} {T : Arr2 (Option τ)} {res : ℚ} {layers : List Layer} {nodata : Option ℚ} {zUp : Bool} {e : Err}
    (hT : g.tiles = some T) (hw : T.WF) (hc : g.txs.length = T.cols) (hn : cellsAlong g.tileSize res = .error e) {s : MosaicState τ} (hs : s.grid = g) (m : Nat) (hm : m ≤ T.flat.length)
    (h : (Res.forEach (List.range m) s (mosaicStep env res layers nodata zUp)).err = none) :
    (Res.forEach (List.range m) s (mosaicStep env res layers nodata zUp)).st = s ∧ ∀ k : Nat, k < m → ∀ t, T.flat[k]? ≠ some (some t) := by
  induction m with
  | zero => exact ⟨rfl, fun k hk => absurd hk (Nat.not_lt_zero _)⟩
  | succ m ih =>
    rw [List.range_succ, Res.forEach_append] at h ⊢
    obtain ⟨e1, e2⟩ := Res.andThen_err_none h
    rw [Res.andThen_of_err_none e1]
    obtain ⟨i1, i2⟩ := ih (by omega) e1
    rw [i1] at e2 ⊢
    simp only [Res.forEach_cons, Res.forEach_nil] at e2 ⊢
    obtain ⟨e3, -⟩ := Res.andThen_err_none e2
    rw [Res.andThen_of_err_none e3]
    have hm' : m < T.rows * T.cols := by rw [← hw]; omega
    have htile : s.grid.tile? m = T.flat[m]? := by unfold tile?; rw [hs, hT]; rfl
    have hno : ∀ t, T.flat[m]? ≠ some (some t) := by
      intro t ht
      unfold mosaicStep at e3
      rw [htile, ht] at e3
      simp only at e3
      have hget : T.get? (m / T.cols) (m % T.cols) = some (some t) := by
        rw [Arr2.get?_eq_flat T (Arr2.div_lt_rows hm') (Arr2.mod_lt_cols hm'), Nat.div_add_mod']; exact ht
      unfold getTileData at e3
      rw [hs, hT, hc] at e3
      simp only [hget, hn] at e3
      cases e3
    constructor
    · unfold mosaicStep
      rw [htile]
      split
      · rename_i t ht; exact absurd ht (hno t)
      · rfl
    · intro k hk t ht
      by_cases ek : k = m
      · subst ek; exact hno t ht
      · exact i2 k (by omega) t ht

/-- the geometry that `get_layers_by_name` relies on -/
structure Laid (g : Grid τ) (T : Arr2 (Option τ)) : Prop where
  tiles : g.tiles = some T
  wf : T.WF
  txs : g.txs.length = T.cols
  height : g.height = some ((T.rows : ℚ) * g.tileSize)
  width : g.width = some ((T.cols : ℚ) * g.tileSize)

omit [LayerLike τ] in
theorem fill_upto {found : τ → Except Err (Dict Layer LayerArr)} {T : Arr2 (Option τ)} {n : Nat} (nds : List (Option ℚ)) :
    Upto found T n 0 nds (nds.map (fun nd => Arr2.fill (T.rows * n) (T.cols * n) nd)) := by
  refine ⟨by simp, ?_⟩
  intro i nd hnd
  refine ⟨Arr2.fill (T.rows * n) (T.cols * n) nd, by rw [List.getElem?_map, hnd]; rfl, rfl, rfl, Arr2.fill_wf _ _ _, ?_⟩
  intro r c hr hc
  rw [Arr2.get?_fill _ hr hc, if_neg (Nat.not_lt_zero _)]

/-- the array of a layer of the result, in terms of what the tiles give -/
def Assembled (env : Env) (g : Grid τ) (T : Arr2 (Option τ)) (n : Nat) (res : ℚ) (layers : List Layer) (nodata : Option ℚ) (zUp : Bool) (i : Nat) (l : Layer) (D : LayerArr) : Prop :=
  D.rows = T.rows * n ∧ D.cols = T.cols * n ∧ D.WF ∧ ∀ r c, r < T.rows * n → c < T.cols * n →
    D.get? r c = some (slotVal (foundIn env res layers nodata (g.flips zUp)) T n i (Tile.nodataFor l nodata) r c)

omit [LayerLike τ] in
theorem buildAll {g : Grid τ} {T : Arr2 (Option τ)} (hg : Laid g T) {n : Nat} {res : ℚ} (hres : 0 < res) (hn : cellsAlong g.tileSize res = .ok n) (layers : List Layer) (nodata : Option ℚ) :
    layers.mapM (g.buildLayerGrid res nodata) = .ok ((layers.map (fun l => Tile.nodataFor l nodata)).map (fun nd => Arr2.fill (T.rows * n) (T.cols * n) nd)) := by
  have hsz := cellsAlong_ok (ne_of_gt hres) hn
  have h1 : cellsAlong ((T.rows : ℚ) * g.tileSize) res = .ok (T.rows * n) := by
    rw [hsz, ← mul_assoc, ← Nat.cast_mul]; exact cellsAlong_mul hres _
  have h2 : cellsAlong ((T.cols : ℚ) * g.tileSize) res = .ok (T.cols * n) := by
    rw [hsz, ← mul_assoc, ← Nat.cast_mul]; exact cellsAlong_mul hres _
  induction layers with
  | nil => rfl
  | cons l ls ih =>
    have hb : g.buildLayerGrid res nodata l = .ok (Arr2.fill (T.rows * n) (T.cols * n) (Tile.nodataFor l nodata)) := by
      unfold buildLayerGrid
      rw [hg.height, hg.width]
      simp only [h1, h2]
    rw [List.mapM_cons, ih, hb]; rfl

theorem loopInv_start {env : Env} {g : Grid τ} {T : Arr2 (Option τ)} (hg : Laid g T) {n : Nat} {res : ℚ} (layers : List Layer) (nodata : Option ℚ) (zUp : Bool) :
    LoopInv env g T n res layers nodata zUp (layers.map (fun l => Tile.nodataFor l nodata)) 0
      ⟨g, (layers.map (fun l => Tile.nodataFor l nodata)).map (fun nd => Arr2.fill (T.rows * n) (T.cols * n) nd), true⟩ := by
  refine ⟨⟨T.flat, ?_, rfl, fun _ _ => rfl, fun k hk => absurd hk (Nat.not_lt_zero _)⟩, fill_upto _, ?_⟩
  · have := hg.tiles
    show g = { g with tiles := some T }
    rw [← this]
  · simp

/-- `get_layers_by_name`, tile by tile -/
theorem getLayers_spec {env : Env} {g g' : Grid τ} {T : Arr2 (Option τ)} (hg : Laid g T) {res : ℚ} (hres : 0 < res) {layers : List Layer} {nodata : Option ℚ} {zUp : Bool}
    {o : Option (List LayerArr)} (h : getLayersByName env g layers (some res) nodata zUp = (g', .ok o)) :
    g.noGrid = .ok false ∧ ((∀ r c t, ¬ g.TileAt r c t) ∧ o = none ∧ g' = g ∨ ∃ n, cellsAlong g.tileSize res = .ok n ∧
      (∀ r c t, g.TileAt r c t → Fits (foundIn env res layers nodata (g.flips zUp)) n layers.length t) ∧
      (o = none ↔ ∀ r c t, g.TileAt r c t → foundIn env res layers nodata (g.flips zUp) t = .ok []) ∧
      (∀ D, o = some D → D.length = layers.length ∧ ∀ (i : Nat) l, layers[i]? = some l → ∃ a, D[i]? = some a ∧ Assembled env g T n res layers nodata zUp i l a) ∧
      g' = { g with tiles := some ⟨T.rows, T.cols, T.flat.map (Option.map (askedFor env res layers nodata (g.flips zUp)))⟩ }) := by
  have htile : ∀ r c t, g.TileAt r c t → ∃ k : Nat, k < T.flat.length ∧ T.flat[k]? = some (some t) := by
    rintro r c t ⟨T', hT', hrc⟩
    rw [hg.tiles] at hT'; cases hT'
    unfold Arr2.get? at hrc
    split at hrc
    · exact ⟨_, (List.getElem?_eq_some_iff.1 hrc).1, hrc⟩
    · cases hrc
  have htile' : ∀ (k : Nat) t, T.flat[k]? = some (some t) → ∃ r c, g.TileAt r c t := by
    intro k t hk
    refine ⟨k / T.cols, k % T.cols, T, hg.tiles, ?_⟩
    rw [← Arr2.flat_getElem?_eq T hg.wf (List.getElem?_eq_some_iff.1 hk).1]; exact hk
  unfold getLayersByName at h
  split at h
  · cases h
  · cases h
  · rename_i hno
    refine ⟨hno, ?_⟩
    have hq : g.queryRes (some res) = .ok res := by unfold queryRes; simp only [if_neg (ne_of_gt hres)]
    rw [hq] at h
    simp only at h
    split at h
    · cases h
    · rename_i data hdata
      rw [slots_eq hg.tiles] at h
      split at h
      · cases h
      · rename_i hok
        cases hn : cellsAlong g.tileSize res with
        | error e =>
          left
          obtain ⟨k1, k2⟩ := mosaic_loop_err (s := ⟨g, data, true⟩) hg.tiles hg.wf hg.txs hn rfl T.flat.length le_rfl hok
          refine ⟨?_, ?_⟩
          · intro r c t ht
            obtain ⟨k, hk, hkt⟩ := htile r c t ht
            exact k2 k hk t hkt
          · rw [k1] at h
            simp only [if_true] at h
            injection h with h1 h2
            injection h2 with h3
            exact ⟨h3.symm, h1.symm⟩
        | ok n =>
          right
          rw [buildAll hg hres hn] at hdata
          cases hdata
          obtain ⟨k1, k2⟩ := (mosaic_loop hg.wf hg.txs hn (loopInv_start (env := env) (n := n) (res := res) hg layers nodata zUp) T.flat.length le_rfl).1 hok
          rw [List.length_map] at k1
          refine ⟨n, rfl, ?_, ?_, ?_, ?_⟩
          · intro r c t ht
            obtain ⟨k, hk, hkt⟩ := htile r c t ht
            exact k1 k hk t hkt
          · have hem := k2.empty
            injection h with h1 h2
            injection h2 with h3
            rw [← h3]
            constructor
            · intro hnone r c t ht
              have : (Res.forEach (List.range T.flat.length) (⟨g, (layers.map (fun l => Tile.nodataFor l nodata)).map (fun nd => Arr2.fill (T.rows * n) (T.cols * n) nd), true⟩ : MosaicState τ)
                  (mosaicStep env res layers nodata zUp)).st.empty = true := by
                by_contra hne
                rw [if_neg hne] at hnone
                cases hnone
              obtain ⟨k, hk, hkt⟩ := htile r c t ht
              exact hem.1 this k hk t hkt
            · intro hall
              rw [if_pos]
              apply hem.2
              intro k hk t ht
              obtain ⟨r, c, hrc⟩ := htile' k t ht
              exact hall r c t hrc
          · intro D hD
            injection h with h1 h2
            injection h2 with h3
            rw [← h3] at hD
            split at hD
            · cases hD
            · cases hD
              refine ⟨by simpa using k2.data.1, ?_⟩
              intro i l hl
              obtain ⟨a, a1, a2, a3, a4, a5⟩ := k2.data.2 i (Tile.nodataFor l nodata) (by rw [List.getElem?_map, hl]; rfl)
              refine ⟨a, a1, a2, a3, a4, ?_⟩
              intro r c hr hc
              rw [a5 r c hr hc, if_pos]
              rw [hg.wf]
              exact Arr2.idx_lt (Arr2.div_lt_rows hr) (Arr2.div_lt_rows hc)
          · injection h with h1 h2
            obtain ⟨Fl, e1, e2, -, e4⟩ := k2.grid
            rw [← h1, e1]
            have : Fl = T.flat.map (Option.map (askedFor env res layers nodata (g.flips zUp))) := by
              apply List.ext_getElem?
              intro k
              by_cases hk : k < T.flat.length
              · rw [e4 k hk, List.getElem?_map]
              · rw [List.getElem?_eq_none (by omega), List.getElem?_eq_none (by simp; omega)]
            rw [this]

/-- `get_layers_by_name` returns normally if every tile gives arrays of the right shape -/
theorem getLayers_ok {env : Env} {g : Grid τ} {T : Arr2 (Option τ)} (hg : Laid g T) {res : ℚ} (hres : 0 < res) {layers : List Layer} {nodata : Option ℚ} {zUp : Bool} {n : Nat}
    (hno : g.noGrid = .ok false) (hn : cellsAlong g.tileSize res = .ok n)
    (hf : ∀ r c t, g.TileAt r c t → Fits (foundIn env res layers nodata (g.flips zUp)) n layers.length t) :
    ∃ o, (getLayersByName env g layers (some res) nodata zUp).2 = .ok o := by
  have hq : g.queryRes (some res) = .ok res := by unfold queryRes; simp only [if_neg (ne_of_gt hres)]
  have herr : (Res.forEach (List.range T.flat.length) (⟨g, (layers.map (fun l => Tile.nodataFor l nodata)).map (fun nd => Arr2.fill (T.rows * n) (T.cols * n) nd), true⟩ : MosaicState τ)
      (mosaicStep env res layers nodata zUp)).err = none := by
    refine (mosaic_loop hg.wf hg.txs hn (loopInv_start (env := env) (n := n) (res := res) hg layers nodata zUp) T.flat.length le_rfl).2 ?_
    intro k hk t ht
    rw [List.length_map]
    refine hf (k / T.cols) (k % T.cols) t ⟨T, hg.tiles, ?_⟩
    rw [← Arr2.flat_getElem?_eq T hg.wf hk]; exact ht
  unfold getLayersByName
  rw [hno, hq]
  simp only
  rw [buildAll hg hres hn]
  simp only [slots_eq hg.tiles, herr]
  exact ⟨_, rfl⟩

end Grid
end Bathy
