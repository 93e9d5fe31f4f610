import Verif.Lemmas.GridReach
import Verif.Lemmas.GridPts
import Verif.Spec.Leaves

/-!
# What a `grid` call that returns did to each tile
-/

namespace Bathy
namespace Grid
variable {τ : Type} [GridLike τ]

omit [GridLike τ] in
theorem tileAt_unique {g : Grid τ} {r c : Nat} {t t' : τ} (h : g.TileAt r c t) (h' : g.TileAt r c t') : t = t' := by
  obtain ⟨T, h1, h2⟩ := h
  obtain ⟨T', h3, h4⟩ := h'
  rw [h1] at h3; cases h3
  rw [h2] at h4; cases h4; rfl

/-- the call of `tile.grid` made by `grid(a)` -/
structure CallOf (a c : GridCall) : Prop where
  alg : c.alg = a.alg
  regrid : c.regrid = a.regrid
  params : c.params = a.params
  clearFull : a.regrid = .full → c.clear = a.clear
  clear : a.clear = true → c.clear = true
  res : ∀ r, a.res = some r → c.res = some r
  border : a.alg ≠ .cube → c.border = none

/-- what a run did to a tile: skipped it, or gridded it -/
inductive Did (env : Env) (a : GridCall) (t : τ) : τ → List ℚ → Prop
  | skipped (hu : a.regrid = .update) (hc : a.clear = false) (hp : GridLike.pointCountChanged t = false) : Did env a t t (GridLike.resolutions t)
  | gridded (c : GridCall) (hc : CallOf a c) (hl : a.regrid = .update → GridLike.isLeaf (τ := τ) = true → c.clear = true) (he : (GridLike.grid env t c).1.err = none) : Did env a t (GridLike.grid env t c).1.st (GridLike.grid env t c).2

theorem borderFor_plain (g : Grid τ) (k : Nat) (t : τ) {alg : Alg} (h : alg ≠ .cube) (limit : Option ℚ) (gb : Option PtArr) :
    g.borderFor k t alg limit gb = .ok none := by
  unfold borderFor
  cases alg
  · rfl
  · rfl
  · exact absurd rfl h
  · rfl

theorem callOf_child (g : Grid τ) {a : GridCall} {p : Plan} {clear : Bool} {b : Option PtArr} {ro : Option ℚ} (hp : ∀ r, ro = some r → (g.childCall a p clear b).res = some r)
    (hgp : g.gridParams = a.params) (hc : a.regrid = .full → clear = a.clear) (hc' : a.clear = true → clear = true) (hb : a.alg ≠ .cube → b = none) :
    CallOf { a with res := ro } (g.childCall a p clear b) where
  alg := rfl
  regrid := rfl
  params := hgp
  clearFull := hc
  clear := hc'
  res := hp
  border := hb

theorem childCall_res (g : Grid τ) {a : GridCall} {p : Plan} (hp : a.res ≠ none → p = ⟨a.res, none⟩) (clear : Bool) (b : Option PtArr) (r : ℚ) (hr : a.res = some r) :
    (g.childCall a p clear b).res = some r := by
  have := hp (by rw [hr]; simp)
  subst this
  simp [childCall, hr]

theorem clearAt_full {a : GridCall} (h : a.regrid = .full) (l : List (Option τ)) : clearAt a l = a.clear := by
  unfold clearAt; rw [h]
  have : (RegridOption.full == RegridOption.update) = false := rfl
  rw [this]; simp

theorem clearAt_clear {a : GridCall} (h : a.clear = true) (l : List (Option τ)) : clearAt a l = true := by
  unfold clearAt; rw [h]; rfl

theorem clearNext_clear {a : GridCall} {c : Bool} (h : c = true) (t : τ) : clearNext a c t = true := by
  unfold clearNext; split
  · rfl
  · exact h

theorem clearNext_full {a : GridCall} (h : a.regrid = .full) (c : Bool) (t : τ) : clearNext a c t = c := by
  unfold clearNext; rw [h]
  have : (RegridOption.full == RegridOption.update) = false := rfl
  rw [this]; simp

/-- what the outcome of a slot is -/
theorem outAt_as {env : Env} {g : Grid τ} {a : GridCall} {p : Plan} {limit : Option ℚ} {T : Arr2 (Option τ)} {k : Nat} {t : τ} {ro : Option ℚ}
    (hp : ∀ clear b r, ro = some r → (g.childCall a p clear b).res = some r) (hgp : g.gridParams = a.params) (he : (outAt env g a p limit T k (some t)).1.err = none) :
    ∃ t', (outAt env g a p limit T k (some t)).1.st = some t' ∧ Did env { a with res := ro } t t' (outAt env g a p limit T k (some t)).2 := by
  unfold outAt outcome at he ⊢
  simp only at he ⊢
  by_cases hs : skips a (clearAt a (T.flat.take k)) t = true
  · rw [if_pos hs]
    refine ⟨t, rfl, ?_⟩
    unfold skips at hs
    simp only [Bool.and_eq_true, Bool.not_eq_true', beq_iff_eq] at hs
    refine Did.skipped hs.1.1 ?_ hs.2
    cases hc : a.clear with
    | false => rfl
    | true => rw [clearAt_clear hc] at hs; exact absurd hs.1.2 (by simp)
  · rw [if_neg hs] at he ⊢
    rcases hb : g.borderFor k t a.alg limit a.border with e | b
    · rw [hb] at he; simp at he
    · rw [hb] at he
      simp only at he ⊢
      refine ⟨_, rfl, Did.gridded _ (callOf_child g (hp _ _) hgp ?_ ?_ ?_) ?_ he⟩
      · intro hf
        rw [clearNext_full hf, clearAt_full hf]
      · intro hc
        exact clearNext_clear (clearAt_clear hc _) t
      · intro ha
        rw [borderFor_plain g k t ha] at hb
        cases hb; rfl
      · intro hu hl
        show clearNext a _ t = true
        unfold clearNext; rw [hu, hl]; rfl

theorem outAt_did {env : Env} {g : Grid τ} {a : GridCall} {p : Plan} {limit : Option ℚ} {T : Arr2 (Option τ)} {k : Nat} {t : τ}
    (hp : a.res ≠ none → p = ⟨a.res, none⟩) (hgp : g.gridParams = a.params) (he : (outAt env g a p limit T k (some t)).1.err = none) :
    ∃ t', (outAt env g a p limit T k (some t)).1.st = some t' ∧ Did env a t t' (outAt env g a p limit T k (some t)).2 :=
  outAt_as (ro := a.res) (childCall_res g hp) hgp he

theorem get?_mk {α : Type} (a : Arr2 α) (l : List α) (r c : Nat) : (⟨a.rows, a.cols, l⟩ : Arr2 α).get? r c = if r < a.rows ∧ c < a.cols then l[r * a.cols + c]? else none := rfl

/-- a `grid` call that returns, place by place, if it treats each tile as `D` says -/
theorem gridWith_as [LawfulGrid τ] {env : Env} {g : Grid τ} {a : GridCall} {D : τ → τ → List ℚ → Prop} {dask : Option Nat} (h : (gridWith env g a dask).err = none)
    (hd : ∀ gr limit T k t, (gridPlan env g a).1 = .ok (g.withAttrs (some a.alg) gr a.params []) →
      (outAt env (g.withAttrs (some a.alg) gr a.params []) a (gridPlan env g a).2 limit T k (some t)).1.err = none →
      ∃ t', (outAt env (g.withAttrs (some a.alg) gr a.params []) a (gridPlan env g a).2 limit T k (some t)).1.st = some t' ∧
        D t t' (outAt env (g.withAttrs (some a.alg) gr a.params []) a (gridPlan env g a).2 limit T k (some t)).2) :
    g.isEmpty = false ∧ (g.gridAlgorithm = none ∨ g.gridAlgorithm = some a.alg ∨ a.clear = true) ∧
    (∃ gr T' R, (gridWith env g a dask).st = (g.withAttrs (some a.alg) gr a.params []).withTiles T' R ∧ R.Pairwise (· < ·)) ∧
    (∀ r c t, g.TileAt r c t → ∃ t' rs, (gridWith env g a dask).st.TileAt r c t' ∧ D t t' rs ∧ ∀ x ∈ rs, x ∈ (gridWith env g a dask).st.resolutions) ∧
    (∀ r c t', (gridWith env g a dask).st.TileAt r c t' → ∃ t rs, g.TileAt r c t ∧ D t t' rs ∧ ∀ x ∈ rs, x ∈ (gridWith env g a dask).st.resolutions) ∧
    ((∃ T, g.tiles = some T ∧ T.WF) → ∀ x ∈ (gridWith env g a dask).st.resolutions, ∃ r c t t' rs, g.TileAt r c t ∧ (gridWith env g a dask).st.TileAt r c t' ∧ D t t' rs ∧ x ∈ rs) ∧
    (∃ used : Nat → Nat → List ℚ, (∀ r c t, g.TileAt r c t → ∃ t', (gridWith env g a dask).st.TileAt r c t' ∧ D t t' (used r c)) ∧
      ((∃ T, g.tiles = some T ∧ T.WF) → ∀ x, x ∈ (gridWith env g a dask).st.resolutions ↔ ∃ r c t, g.TileAt r c t ∧ x ∈ used r c)) := by
  rcases gridWith_spec env g a dask with ⟨al, gr, gp, e, h', -⟩ | ⟨gr, T, hpl, hne, hT, halg, ⟨hall, h'⟩ | ⟨-, e, b, R, -, h'⟩⟩
  · rw [h'] at h; cases h
  · have hout := fun (k : Nat) (t : τ) (ho : T.flat[k]? = some (some t)) => hd gr (limitOf a (gridPlan env g a).2 dask) T k t hpl (hall k (some t) ho)
    generalize (gridPlan env g a).2 = p at hall h' hout
    generalize hlim : limitOf a p dask = limit at hall h' hout
    generalize hg1 : g.withAttrs (some a.alg) gr a.params [] = g1 at hall h' hout
    rw [h']
    have hmem : ∀ x, x ∈ npUnique (prefixRes (outAt env g1 a p limit T) T T.flat.length) ↔
        ∃ k, k < T.flat.length ∧ x ∈ (outAt env g1 a p limit T k (T.flat[k]?).join).2 := by
      intro x; rw [mem_npUnique, mem_prefixRes]
    have hres : (Res.ok (g1.withTiles (prefixTiles (outAt env g1 a p limit T) T T.flat.length) (npUnique (prefixRes (outAt env g1 a p limit T) T T.flat.length)))).st.resolutions =
      npUnique (prefixRes (outAt env g1 a p limit T) T T.flat.length) := rfl
    have htil : (Res.ok (g1.withTiles (prefixTiles (outAt env g1 a p limit T) T T.flat.length) (npUnique (prefixRes (outAt env g1 a p limit T) T T.flat.length)))).st.tiles =
      some (prefixTiles (outAt env g1 a p limit T) T T.flat.length) := rfl
    have hget : ∀ r c t, T.get? r c = some (some t) → r < T.rows ∧ c < T.cols ∧ T.flat[r * T.cols + c]? = some (some t) ∧ r * T.cols + c < T.flat.length := by
      intro r c t ht
      unfold Arr2.get? at ht
      split at ht
      · rename_i hrc
        exact ⟨hrc.1, hrc.2, ht, (List.getElem?_eq_some_iff.1 ht).1⟩
      · cases ht
    have fwd : ∀ r c t, g.TileAt r c t → ∃ t' rs, (g1.withTiles (prefixTiles (outAt env g1 a p limit T) T T.flat.length)
        (npUnique (prefixRes (outAt env g1 a p limit T) T T.flat.length))).TileAt r c t' ∧ D t t' rs ∧
        (outAt env g1 a p limit T (r * T.cols + c) (some t)).2 = rs ∧ ∀ x ∈ rs, x ∈ npUnique (prefixRes (outAt env g1 a p limit T) T T.flat.length) := by
      rintro r c t ⟨T0, hT0, ht⟩
      rw [hT] at hT0; cases hT0
      obtain ⟨hr, hc, hfl, hlt⟩ := hget r c t ht
      obtain ⟨t', h1, h2⟩ := hout _ t hfl
      refine ⟨t', _, ⟨_, rfl, ?_⟩, h2, rfl, ?_⟩
      · unfold Arr2.get?
        rw [if_pos ⟨hr, hc⟩]
        have := prefixTiles_get (outAt env g1 a p limit T) T T.flat.length (r * T.cols + c)
        rw [hfl, Option.map_some, if_pos hlt, h1] at this
        exact this
      · intro x hx
        rw [hmem]
        exact ⟨_, hlt, by rw [hfl]; exact hx⟩
    have back : (∃ T, g.tiles = some T ∧ T.WF) → ∀ x ∈ npUnique (prefixRes (outAt env g1 a p limit T) T T.flat.length), ∃ r c t, g.TileAt r c t ∧
        T.flat[r * T.cols + c]? = some (some t) ∧ x ∈ (outAt env g1 a p limit T (r * T.cols + c) (some t)).2 := by
      rintro ⟨T0, hT0, hwf⟩ x hx
      rw [hT] at hT0; cases hT0
      obtain ⟨k, hk, hx⟩ := (hmem x).1 hx
      have h1 := List.getElem?_eq_getElem hk
      rw [h1] at hx
      cases ho : T.flat[k] with
      | none => rw [ho] at hx; simp [outAt, outcome] at hx
      | some t =>
        rw [ho] at hx h1
        have hwf : T.flat.length = T.rows * T.cols := hwf
        have hk' : k < T.rows * T.cols := by rw [← hwf]; exact hk
        have hr := Arr2.div_lt_rows hk'
        have hc := Arr2.mod_lt_cols hk'
        have hkk : k / T.cols * T.cols + k % T.cols = k := Nat.div_add_mod' k T.cols
        refine ⟨k / T.cols, k % T.cols, t, ⟨T, hT, by unfold Arr2.get?; rw [if_pos ⟨hr, hc⟩, hkk]; exact h1⟩, by rw [hkk]; exact h1, ?_⟩
        rw [hkk]; exact hx
    refine ⟨hne, halg, ⟨gr, _, _, by rw [hg1]; rfl, npUnique_pairwise _⟩, ?_, ?_, ?_, ?_⟩
    · intro r c t ht
      obtain ⟨t', rs, h1, h2, -, h3⟩ := fwd r c t ht
      exact ⟨t', rs, h1, h2, h3⟩
    · rintro r c t' ht'
      obtain ⟨T0, hT0, hg⟩ := ht'
      have hT0 : some (prefixTiles (outAt env g1 a p limit T) T T.flat.length) = some T0 := hT0
      cases hT0
      have hg' := hg
      unfold Arr2.get? at hg
      split at hg
      · rename_i hrc
        have hrc : r < T.rows ∧ c < T.cols := hrc
        have h1 := prefixTiles_get (outAt env g1 a p limit T) T T.flat.length (r * T.cols + c)
        have hg : (prefixTiles (outAt env g1 a p limit T) T T.flat.length).flat[r * T.cols + c]? = some (some t') := hg
        rw [hg] at h1
        rcases Option.eq_none_or_eq_some (T.flat[r * T.cols + c]?) with h2 | ⟨o, h2⟩
        · rw [h2] at h1; cases h1
        · rw [h2, Option.map_some, if_pos (List.getElem?_eq_some_iff.1 h2).1] at h1
          cases o with
          | none => simp [outAt, outcome] at h1
          | some t =>
            have ht : g.TileAt r c t := ⟨T, hT, by unfold Arr2.get?; rw [if_pos hrc]; exact h2⟩
            obtain ⟨t2, rs, h3, h4, -, h5⟩ := fwd r c t ht
            obtain ⟨T2, hT2, h6⟩ := h3
            have hT2 : some (prefixTiles (outAt env g1 a p limit T) T T.flat.length) = some T2 := hT2
            cases hT2
            rw [hg'] at h6
            cases h6
            exact ⟨t, rs, ht, h4, h5⟩
      · cases hg
    · intro hW x hx
      obtain ⟨r, c, t, ht, -, hx⟩ := back hW x hx
      obtain ⟨t', rs, h3, h4, h5, -⟩ := fwd _ _ t ht
      rw [h5] at hx
      exact ⟨_, _, t, t', rs, ht, h3, h4, hx⟩
    · refine ⟨fun r c => (outAt env g1 a p limit T (r * T.cols + c) (T.flat[r * T.cols + c]?).join).2, ?_, ?_⟩
      · intro r c t ht
        obtain ⟨t', rs, h3, h4, h5, -⟩ := fwd _ _ t ht
        obtain ⟨T0, hT0, hg⟩ := ht
        rw [hT] at hT0; cases hT0
        refine ⟨t', h3, ?_⟩
        beta_reduce
        rw [(hget r c t hg).2.2.1, Option.join_some, h5]
        exact h4
      · intro hW x
        constructor
        · intro hx
          obtain ⟨r, c, t, ht, hf, hx⟩ := back hW x hx
          exact ⟨r, c, t, ht, by beta_reduce; rw [hf]; exact hx⟩
        · rintro ⟨r, c, t, ht, hx⟩
          obtain ⟨t', rs, h3, h4, h5, h6⟩ := fwd _ _ t ht
          obtain ⟨T0, hT0, hg⟩ := ht
          rw [hT] at hT0; cases hT0
          beta_reduce at hx
          rw [(hget r c t hg).2.2.1, Option.join_some, h5] at hx
          exact h6 x hx
  · rw [h'] at h; cases h

/-- a `grid` call that returns, place by place -/
theorem gridWith_at [LawfulGrid τ] {env : Env} {g : Grid τ} {a : GridCall} {dask : Option Nat} (h : (gridWith env g a dask).err = none) :
    g.isEmpty = false ∧ (g.gridAlgorithm = none ∨ g.gridAlgorithm = some a.alg ∨ a.clear = true) ∧
    (∃ gr T' R, (gridWith env g a dask).st = (g.withAttrs (some a.alg) gr a.params []).withTiles T' R ∧ R.Pairwise (· < ·)) ∧
    (∀ r c t, g.TileAt r c t → ∃ t' rs, (gridWith env g a dask).st.TileAt r c t' ∧ Did env a t t' rs ∧ ∀ x ∈ rs, x ∈ (gridWith env g a dask).st.resolutions) ∧
    (∀ r c t', (gridWith env g a dask).st.TileAt r c t' → ∃ t rs, g.TileAt r c t ∧ Did env a t t' rs ∧ ∀ x ∈ rs, x ∈ (gridWith env g a dask).st.resolutions) ∧
    ((∃ T, g.tiles = some T ∧ T.WF) → ∀ x ∈ (gridWith env g a dask).st.resolutions, ∃ r c t t' rs, g.TileAt r c t ∧ (gridWith env g a dask).st.TileAt r c t' ∧ Did env a t t' rs ∧ x ∈ rs) ∧
    (∃ used : Nat → Nat → List ℚ, (∀ r c t, g.TileAt r c t → ∃ t', (gridWith env g a dask).st.TileAt r c t' ∧ Did env a t t' (used r c)) ∧
      ((∃ T, g.tiles = some T ∧ T.WF) → ∀ x, x ∈ (gridWith env g a dask).st.resolutions ↔ ∃ r c t, g.TileAt r c t ∧ x ∈ used r c)) := by
  refine gridWith_as h ?_
  intro gr limit T k t hpl he
  refine outAt_did ?_ rfl he
  rcases gridPlan_spec env g a with ⟨_, _, _, _, _, h5, _⟩ | ⟨al, gr, gp, e, h5⟩
  · exact h5
  · have h6 := congrArg Res.err hpl; rw [h5] at h6; cases h6

end Grid
end Bathy
