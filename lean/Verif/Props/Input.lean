import Verif.Model.Input
import Verif.Lemmas.Log
import Verif.Spec.DemoGrid
import Verif.Props.GridPoints

/-!
# C83: the data given to add_points

Model: `Grid.addInput` (bathygrid/bgrid.py:665-706, 2115-2148).
-/

namespace Bathy
open Grid Input

/-- the names an input has -/
def Names : Input → List String
  | .records cols => cols.map Prod.fst
  | .dataset vars => vars.map Prod.fst
  | _ => []

/-- the input has the column `k` with the values `l` -/
def HasColumn : Input → String → List ℚ → Prop
  | .records cols, k, l => cols.get? k = some l
  | .dataset vars, k, l => vars.get? k = some (.vec l)
  | _, _, _ => False

variable {τ : Type} [TileLike τ] {noZ : Grid τ → PtArr → String → AddArgs → Res (Grid τ)}

theorem has_names {ν : Type} {d : Dict String ν} {k : String} : d.has k = true ↔ k ∈ d.map Prod.fst := Dict.has_iff d k

/-- **C83, partial**: data without 'x', 'y' or 'z' is refused and the grid is as before.  Missing: a Dataset that lacks 'y' and has 'x' and 'z', and an array that lacks 'z' and has 'x' and
'y', see `C83_without_y` and `C83_without_z`. -/
theorem C83_refused_partial (g : Grid τ) (d : Input) (c : String) (a : AddArgs) (h : "x" ∉ Names d ∨ "y" ∉ Names d ∨ "z" ∉ Names d)
    (hy : ∀ vars, d = .dataset vars → "x" ∈ Names d → "z" ∈ Names d → "y" ∈ Names d) (hz : ∀ cols, d = .records cols → "x" ∈ Names d → "y" ∈ Names d → "z" ∈ Names d) :
    (addInput noZ g d c a).err ≠ none ∧ (addInput noZ g d c a).st = g := by
  have key : ∃ e, d.validate = .error e := by
    cases d with
    | bare => exact ⟨_, rfl⟩
    | other => exact ⟨_, rfl⟩
    | records cols =>
      simp only [Names] at h hz
      by_cases hc : cols = []
      · exact ⟨.valueError, by simp [validate, hc]⟩
      · by_cases hxy : cols.has "x" = true ∧ cols.has "y" = true
        · have hx := has_names.1 hxy.1
          have hy := has_names.1 hxy.2
          have := hz cols rfl hx hy
          exact absurd h (by tauto)
        · refine ⟨.valueError, ?_⟩
          simp only [validate, hc, if_false]
          rw [if_pos]
          cases h1 : cols.has "x" <;> cases h2 : cols.has "y" <;> simp_all
    | dataset vars =>
      simp only [Names] at h hy
      by_cases hx : vars.has "x" = true
      · cases hvz : vars.get? "z" with
        | none => exact ⟨.keyError, by simp [validate, hx, hvz]⟩
        | some v =>
          have hz' : vars.has "z" = true := by rw [← Dict.get?_isSome, hvz]; rfl
          have := hy vars rfl (has_names.1 hx) (has_names.1 hz')
          have hx' := has_names.1 hx
          have hz'' := has_names.1 hz'
          exact absurd h (by tauto)
      · exact ⟨.valueError, by simp [validate, hx]⟩
  obtain ⟨e, he⟩ := key
  unfold addInput
  split
  · exact ⟨by simp [Res.fail], rfl⟩
  · rw [he]; exact ⟨by simp [Res.fail], rfl⟩

/-- the values of a variable with one dimension -/
def vecOf : Option Var → Option (List ℚ)
  | some (.vec l) => some l
  | _ => none

theorem convertFrom_ok {n : Nat} {vars : Dict String Var} (ks : List String) (h : ∀ k ∈ ks, ∀ v, vars.get? k = some v → ∃ l : List ℚ, l.length = n ∧ v = .vec l) :
    ∃ cols, convertFrom n vars ks = .ok cols ∧ ∀ k, cols.get? k = if k ∈ ks then vecOf (vars.get? k) else none := by
  induction ks with
  | nil => exact ⟨[], rfl, fun k => by simp [Dict.get?]⟩
  | cons k0 ks ih =>
    obtain ⟨cols, h1, h2⟩ := ih (fun k hk => h k (List.mem_cons_of_mem _ hk))
    cases hv : vars.get? k0 with
    | none =>
      refine ⟨cols, by simp only [convertFrom, hv, h1], fun k => ?_⟩
      rw [h2]
      by_cases hk : k = k0
      · subst hk
        simp [hv, vecOf]
      · simp [hk]
    | some v =>
      obtain ⟨l, hl, rfl⟩ := h k0 List.mem_cons_self v hv
      refine ⟨(k0, l) :: cols, by simp only [convertFrom, hv, spread, hl, if_true, h1], fun k => ?_⟩
      by_cases hk : k = k0
      · subst hk
        simp [hv, vecOf, Dict.get?]
      · have hk' : k0 ≠ k := fun h => hk h.symm
        simp [hk, Dict.get?, hk', h2]

theorem dict_has {ν : Type} (d : Dict String ν) (k : String) : d.has k = (d.get? k).isSome := (Dict.get?_isSome d k).symm

/-- a Dataset with one-dimensional variables of one length is converted -/
theorem validate_dataset {vars : Dict String Var} {lx lz : List ℚ} (hx : vars.get? "x" = some (.vec lx)) (hz : vars.get? "z" = some (.vec lz))
    (hv : ∀ k ∈ allowedVars, ∀ v, vars.get? k = some v → ∃ l : List ℚ, l.length = lx.length ∧ v = .vec l) :
    ∃ cols, Input.validate (.dataset vars) = .ok cols ∧ ∀ k, cols.get? k = if k ∈ allowedVars then vecOf (vars.get? k) else none := by
  obtain ⟨cols, h1, h2⟩ := convertFrom_ok allowedVars hv
  refine ⟨cols, ?_, h2⟩
  simp only [Input.validate, convertDataset, dict_has, hx, hz, h1, Option.isSome_some, Bool.not_true, Bool.false_eq_true, if_false]

theorem update_keys {m : Meta} {c : String} {a : AddArgs} (h : (m.update c a).err = none) : c ∈ (m.update c a).st.container.keys := by
  rcases Meta.update_cases m c a with h1 | ⟨m1, -, h1 | ⟨-, ⟨e, -, -, h1⟩ | ⟨t0, -, ⟨e, -, -, h1⟩ | ⟨t1, -, h1⟩⟩⟩⟩
  · exact absurd h h1.2.2
  · exact absurd h h1.2.2
  · exact absurd h h1
  · exact absurd h h1
  · rw [h1]
    exact (Dict.has_iff _ _).1 (by rw [dict_has]; show Option.isSome (Dict.get? (Dict.set _ _ _) _) = true; rw [Dict.get?_set_self]; rfl)

/-- **C83, what happens without 'y' in a Dataset** (every grid, all other data): the call raises, but the container is then listed, and nothing can be added under its name any more. -/
theorem C83_without_y (g : Grid τ) (vars : Dict String Var) (c : String) (a : AddArgs) (lx lz : List ℚ) (hx : HasColumn (.dataset vars) "x" lx) (hz : HasColumn (.dataset vars) "z" lz)
    (hv : ∀ k ∈ ["z", "tvu", "thu"], ∀ v, vars.get? k = some v → ∃ l : List ℚ, l.length = lx.length ∧ v = .vec l) (hy : "y" ∉ Names (.dataset vars))
    (hc : c ∉ g.info.container.keys) (hm : (g.info.update c a).err = none) :
    (addInput noZ g (.dataset vars) c a).err = some .valueError ∧ (addInput noZ g (.dataset vars) c a).st = { g with info := (g.info.update c a).st } ∧
    c ∈ (addInput noZ g (.dataset vars) c a).st.info.container.keys ∧
    ∀ d' a', (addInput noZ (addInput noZ g (.dataset vars) c a).st d' c a').err = some .valueError := by
  simp only [HasColumn] at hx hz
  have hy' : vars.get? "y" = none := (Dict.get?_eq_none vars "y").2 hy
  obtain ⟨cols, h1, h2⟩ := validate_dataset hx hz (by
    intro k hk v hkv
    simp only [allowedVars, List.mem_cons, List.not_mem_nil, or_false] at hk
    rcases hk with rfl | rfl | hk
    · rw [hx, Option.some.injEq] at hkv
      exact ⟨lx, rfl, hkv.symm⟩
    · rw [hy'] at hkv; exact absurd hkv (by simp)
    · exact hv k (by simpa using hk) v hkv)
  have hcy : cols.has "y" = false := by rw [dict_has, h2, hy']; rfl
  have hr : addInput noZ g (.dataset vars) c a = .fail { g with info := (g.info.update c a).st } .valueError := by
    unfold addInput
    rw [if_neg (by rw [Bool.not_eq_true]; exact (Dict.has_false_iff _ _).2 hc), h1]
    simp only [addColumns, hcy, Bool.not_false, if_true, hm]
  rw [hr]
  have hk := update_keys hm
  refine ⟨rfl, rfl, hk, fun d' a' => ?_⟩
  unfold addInput
  exact congrArg Res.err (if_pos ((Dict.has_iff _ _).2 hk))

/-- **C83**: data with 'x', 'y' and 'z' (and 'tvu', 'thu' or not) of one length is added as the list of its rows, whether it is a structured array or a Dataset; other variables do not
matter. -/
theorem C83_rows (g : Grid τ) (d : Input) (c : String) (a : AddArgs) (lx ly lz : List ℚ) (hx : HasColumn d "x" lx) (hy : HasColumn d "y" ly) (hz : HasColumn d "z" lz)
    (hly : ly.length = lx.length) (hlz : lz.length = lx.length) (hv : ∀ k ∈ ["tvu", "thu"], k ∈ Names d → ∃ l : List ℚ, l.length = lx.length ∧ HasColumn d k l) :
    ∃ pts : List Pt, addInput noZ g d c a = addPoints g ⟨⟨decide ("tvu" ∈ Names d), decide ("thu" ∈ Names d)⟩, pts⟩ c a ∧ pts.map Pt.x = lx ∧ pts.map Pt.y = ly ∧ pts.map Pt.z = lz ∧
      (∀ l, HasColumn d "tvu" l → pts.map Pt.tvu = l) ∧ (∀ l, HasColumn d "thu" l → pts.map Pt.thu = l) := by
  have key : ∃ cols, d.validate = .ok cols ∧ cols.get? "x" = some lx ∧ cols.get? "y" = some ly ∧ cols.get? "z" = some lz ∧
      ∀ k ∈ ["tvu", "thu"], (cols.has k = decide (k ∈ Names d)) ∧ ∀ l, HasColumn d k l → cols.get? k = some l ∧ l.length = lx.length := by
    cases d with
    | bare => exact absurd hx (by simp [HasColumn])
    | other => exact absurd hx (by simp [HasColumn])
    | records cols =>
      simp only [HasColumn] at hx hy hz hv
      refine ⟨cols, ?_, hx, hy, hz, fun k hk => ⟨?_, fun l hl => ⟨hl, ?_⟩⟩⟩
      · have : cols ≠ [] := by rintro rfl; simp [Dict.get?] at hx
        simp only [Input.validate, this, if_false, dict_has, hx, hy, Option.isSome_some, Bool.not_true, Bool.or_self, Bool.false_eq_true]
      · rw [Bool.eq_iff_iff, has_names, decide_eq_true_eq]; rfl
      · have hn : k ∈ Names (.records cols) := has_names.1 (by rw [dict_has]; simp only [HasColumn] at hl; rw [hl]; rfl)
        obtain ⟨l', h1, h2⟩ := hv k hk hn
        simp only [HasColumn] at hl
        rw [hl, Option.some.injEq] at h2
        rw [h2]; exact h1
    | dataset vars =>
      simp only [HasColumn] at hx hy hz hv
      obtain ⟨cols, h1, h2⟩ := validate_dataset hx hz (by
        intro k hk v hkv
        simp only [allowedVars, List.mem_cons, List.not_mem_nil, or_false] at hk
        have hn : k ∈ Names (.dataset vars) := has_names.1 (by rw [dict_has, hkv]; rfl)
        rcases hk with rfl | rfl | rfl | hk
        · rw [hx, Option.some.injEq] at hkv; exact ⟨lx, rfl, hkv.symm⟩
        · rw [hy, Option.some.injEq] at hkv; exact ⟨ly, hly, hkv.symm⟩
        · rw [hz, Option.some.injEq] at hkv; exact ⟨lz, hlz, hkv.symm⟩
        · obtain ⟨l, h1, h2⟩ := hv k (by simpa using hk) hn
          rw [h2, Option.some.injEq] at hkv
          exact ⟨l, h1, hkv.symm⟩)
      refine ⟨cols, h1, by rw [h2, hx]; rfl, by rw [h2, hy]; rfl, by rw [h2, hz]; rfl, fun k hk => ⟨?_, fun l hl => ?_⟩⟩
      · have hka : k ∈ allowedVars := by simp only [List.mem_cons, List.not_mem_nil, or_false] at hk; rcases hk with rfl | rfl <;> decide
        rw [dict_has, h2, if_pos hka]
        by_cases hn : k ∈ Names (.dataset vars)
        · obtain ⟨l, -, h3⟩ := hv k hk hn
          rw [h3, decide_eq_true hn]; rfl
        · rw [(Dict.get?_eq_none vars k).2 hn, decide_eq_false hn]; rfl
      · have hka : k ∈ allowedVars := by simp only [List.mem_cons, List.not_mem_nil, or_false] at hk; rcases hk with rfl | rfl <;> decide
        simp only [HasColumn] at hl
        have hn : k ∈ Names (.dataset vars) := has_names.1 (by rw [dict_has, hl]; rfl)
        obtain ⟨l', h3, h4⟩ := hv k hk hn
        rw [hl, Option.some.injEq, Var.vec.injEq] at h4
        exact ⟨by rw [h2, if_pos hka, hl]; rfl, by rw [h4]; exact h3⟩
  obtain ⟨cols, h1, h2, h3, h4, h5⟩ := key
  have hcol : ∀ k l, cols.get? k = some l → l.length = lx.length → (List.range lx.length).map (colAt cols k) = l := by
    intro k l hl hn
    apply List.ext_getElem
    · simp [hn]
    · intro i h6 h7
      simp [colAt, hl, h7]
  have hlen : ((cols.get? "x").getD []).length = lx.length := by rw [h2]; rfl
  refine ⟨rowsOf cols, ?_, ?_, ?_, ?_, ?_, ?_⟩
  · unfold addInput
    by_cases hc : g.info.container.has c = true
    · rw [if_pos hc]
      unfold addPoints
      rw [if_pos hc]
    · rw [if_neg hc, h1]
      simp only [addColumns, dict_has, h3, h4, Option.isSome_some, Bool.not_true, Bool.false_eq_true, if_false, if_true, fieldsOf]
      simp only [← dict_has, (h5 "tvu" (by simp)).1, (h5 "thu" (by simp)).1]
  · simp only [rowsOf, List.map_map, hlen]; exact hcol "x" lx h2 rfl
  · simp only [rowsOf, List.map_map, hlen]; exact hcol "y" ly h3 hly
  · simp only [rowsOf, List.map_map, hlen]; exact hcol "z" lz h4 hlz
  · intro l hl
    simp only [rowsOf, List.map_map, hlen]
    exact hcol "tvu" l ((h5 "tvu" (by simp)).2 l hl).1 ((h5 "tvu" (by simp)).2 l hl).2
  · intro l hl
    simp only [rowsOf, List.map_map, hlen]
    exact hcol "thu" l ((h5 "thu" (by simp)).2 l hl).1 ((h5 "thu" (by simp)).2 l hl).2

/-- **C83, what happens without 'z' in an array** (every reachable single resolution grid): the call raises, but the points are in the tiles and the container is listed, as after a call that
succeeded. -/
theorem C83_without_z {env : Env} {size : ℚ} {bs s : Bool} {fl : Fields} {F : Family} {g : Grid Tile} {A : Store} (hs : 0 < size) (h : SRHistory env size bs fl F s g A)
    (cols : Dict String (List ℚ)) (c : String) (a : AddArgs) (lx ly : List ℚ) (hx : HasColumn (.records cols) "x" lx) (hy : HasColumn (.records cols) "y" ly)
    (hz : "z" ∉ Names (.records cols)) (hl : ly.length = lx.length) (hne : lx ≠ []) (hfl : fieldsOf cols = fl) (hc : c ∉ A.names) (hm : (g.info.update c a).err = none) :
    ∃ pts : List Pt, pts.map Pt.x = lx ∧ pts.map Pt.y = ly ∧ (addPoints g ⟨fl, pts⟩ c a).err = none ∧ (addInput addWithoutZ g (.records cols) c a).err = some .valueError ∧
      (addInput addWithoutZ g (.records cols) c a).st = { (addPoints g ⟨fl, pts⟩ c a).st with meanDepth := g.meanDepth } := by
  simp only [HasColumn] at hx hy
  have hinv := (sr_inv hs h).1
  have hlen : ((cols.get? "x").getD []).length = lx.length := by rw [hx]; rfl
  have hcol : ∀ k l, cols.get? k = some l → l.length = lx.length → (List.range lx.length).map (colAt cols k) = l := by
    intro k l hl hn
    apply List.ext_getElem
    · simp [hn]
    · intro i h6 h7
      simp [colAt, hl, h7]
  have h1 : (rowsOf cols).map Pt.x = lx := by simp only [rowsOf, List.map_map, hlen]; exact hcol "x" lx hx rfl
  have h2 : (rowsOf cols).map Pt.y = ly := by simp only [rowsOf, List.map_map, hlen]; exact hcol "y" ly hy hl
  have hp : rowsOf cols ≠ [] := by
    intro h0
    rw [h0] at h1
    exact hne h1.symm
  obtain ⟨u, h3, -⟩ := addPoints_grow _ hs hinv (a := a) hc hp hm
  have hcz : cols.has "z" = false := (Dict.has_false_iff _ _).2 hz
  have hval : Input.validate (.records cols) = .ok cols := by
    have : cols ≠ [] := by rintro rfl; simp [Dict.get?] at hx
    simp only [Input.validate, this, if_false, dict_has, hx, hy, Option.isSome_some, Bool.not_true, Bool.or_self, Bool.false_eq_true]
  have hcy : cols.has "y" = true := by rw [dict_has, hy]; rfl
  have hr : addInput addWithoutZ g (.records cols) c a = .fail { u with meanDepth := g.meanDepth } .valueError := by
    unfold addInput
    rw [if_neg (by rw [Bool.not_eq_true]; exact (Dict.has_false_iff _ _).2 (by rw [hinv.cont]; exact hc)), hval]
    simp only [addColumns, hcy, hcz, Bool.not_true, Bool.false_eq_true, if_false, addWithoutZ, hfl, h3, Res.ok]
  refine ⟨rowsOf cols, h1, h2, by rw [h3]; rfl, by rw [hr]; rfl, by rw [hr, h3]; rfl⟩

theorem convertFrom_bad {n : Nat} {vars : Dict String Var} {k : String} {v : Var} (hk : vars.get? k = some v) (hv : v = .multi ∨ ∃ l : List ℚ, v = .vec l ∧ l.length ≠ n ∧ l.length ≠ 1)
    (ks : List String) (h : k ∈ ks) : ∃ e, convertFrom n vars ks = .error e := by
  have hs : spread n v = .error .valueError := by
    rcases hv with rfl | ⟨l, rfl, h1, h2⟩
    · rfl
    · unfold spread
      simp only [h1, if_false]
      match l, h2 with
      | [], _ => rfl
      | [_], h => exact absurd rfl h
      | _ :: _ :: _, _ => rfl
  induction ks with
  | nil => cases h
  | cons k0 ks ih =>
    unfold convertFrom
    by_cases hk0 : k0 = k
    · subst hk0
      rw [hk]
      simp only [hs]
      exact ⟨_, rfl⟩
    · obtain ⟨e, he⟩ := ih (by rcases List.mem_cons.1 h with rfl | h; exacts [absurd rfl hk0, h])
      rw [he]
      cases vars.get? k0 with
      | none => exact ⟨e, rfl⟩
      | some w =>
        simp only
        cases spread n w with
        | error e' => exact ⟨e', rfl⟩
        | ok l => exact ⟨e, rfl⟩

/-- **C83**: a Dataset with a variable that is not as long as 'x' (and not a single value), or has more dimensions, is refused and the grid is as before. -/
theorem C83_lengths (g : Grid τ) (vars : Dict String Var) (c : String) (a : AddArgs) (lx : List ℚ) (hx : HasColumn (.dataset vars) "x" lx) {k : String} (hk : k ∈ ["y", "z", "tvu", "thu"])
    {v : Var} (hkv : vars.get? k = some v) (hv : v = .multi ∨ ∃ l : List ℚ, v = .vec l ∧ l.length ≠ lx.length ∧ l.length ≠ 1) :
    (addInput noZ g (.dataset vars) c a).err ≠ none ∧ (addInput noZ g (.dataset vars) c a).st = g := by
  simp only [HasColumn] at hx
  have key : ∃ e, (Input.dataset vars).validate = .error e := by
    obtain ⟨e, he⟩ := convertFrom_bad (n := lx.length) hkv hv allowedVars (List.mem_cons_of_mem "x" hk)
    have hc : convertDataset vars = .error e := by unfold convertDataset; rw [hx]; exact he
    unfold validate
    simp only [dict_has, hx, Option.isSome_some, Bool.not_true, Bool.false_eq_true, if_false, hc]
    cases vars.get? "z" with
    | none => exact ⟨_, rfl⟩
    | some w => cases w <;> exact ⟨_, rfl⟩
  obtain ⟨e, he⟩ := key
  unfold addInput
  split
  · exact ⟨by simp [Res.fail], rfl⟩
  · rw [he]; exact ⟨by simp [Res.fail], rfl⟩

/-- a variable with a single value, repeated -/
def Repeats (n : Nat) (v w : Var) : Prop := w = v ∨ ∃ q, (v = .scalar q ∨ v = .vec [q]) ∧ w = .vec (List.replicate n q)

theorem spread_repeats {n : Nat} {v w : Var} (h : Repeats n v w) : spread n v = spread n w := by
  rcases h with rfl | ⟨q, rfl | rfl, rfl⟩
  · rfl
  · simp [spread]
  · simp only [spread, List.length_replicate, if_true]
    split
    · rename_i h1; rw [← h1]; rfl
    · rfl

theorem convertFrom_repeats {n : Nat} {vars vars' : Dict String Var} (hsome : ∀ k, (vars.get? k = none ↔ vars'.get? k = none))
    (h : ∀ k v w, vars.get? k = some v → vars'.get? k = some w → Repeats n v w) (ks : List String) : convertFrom n vars ks = convertFrom n vars' ks := by
  induction ks with
  | nil => rfl
  | cons k ks ih =>
    unfold convertFrom
    cases hv : vars.get? k with
    | none => rw [(hsome k).1 hv]; exact ih
    | some v =>
      cases hw : vars'.get? k with
      | none => rw [(hsome k).2 hw] at hv; cases hv
      | some w =>
        simp only
        rw [spread_repeats (h k v w hv hw), ih]

/-- **C83**: a Dataset whose 'x' has no dimension or more than one is refused and the grid is as before. -/
theorem C83_x_column (g : Grid τ) (vars : Dict String Var) (c : String) (a : AddArgs) {v : Var} (hx : vars.get? "x" = some v) (hv : ∀ l, v ≠ .vec l) :
    (addInput noZ g (.dataset vars) c a).err ≠ none ∧ (addInput noZ g (.dataset vars) c a).st = g := by
  have key : ∃ e, (Input.dataset vars).validate = .error e := by
    have hc : ∃ e, convertDataset vars = .error e := by
      unfold convertDataset
      rw [hx]
      cases v with
      | vec l => exact absurd rfl (hv l)
      | scalar q => exact ⟨_, rfl⟩
      | multi => exact ⟨_, rfl⟩
    obtain ⟨e, hc⟩ := hc
    unfold validate
    simp only [dict_has, hx, Option.isSome_some, Bool.not_true, Bool.false_eq_true, if_false, hc]
    cases vars.get? "z" with
    | none => exact ⟨_, rfl⟩
    | some w => cases w <;> exact ⟨_, rfl⟩
  obtain ⟨e, he⟩ := key
  unfold addInput
  split
  · exact ⟨by simp [Res.fail], rfl⟩
  · rw [he]; exact ⟨by simp [Res.fail], rfl⟩

/-- **C83**: in a Dataset a single value stands for a variable with that value in every row (more than one row). -/
theorem C83_repeated (g : Grid τ) (vars vars' : Dict String Var) (c : String) (a : AddArgs) (lx : List ℚ) (hx : HasColumn (.dataset vars) "x" lx) (hx' : HasColumn (.dataset vars') "x" lx)
    (hsome : ∀ k, (vars.get? k = none ↔ vars'.get? k = none)) (h : ∀ k v w, vars.get? k = some v → vars'.get? k = some w → Repeats lx.length v w) :
    addInput noZ g (.dataset vars) c a = addInput noZ g (.dataset vars') c a := by
  simp only [HasColumn] at hx hx'
  have hc : convertDataset vars = convertDataset vars' := by
    unfold convertDataset
    rw [hx, hx']
    exact convertFrom_repeats hsome h _
  have : (Input.dataset vars).validate = (Input.dataset vars').validate := by
    unfold validate
    simp only [dict_has, hx, hx', hc]
    cases hv : vars.get? "z" with
    | none => rw [(hsome "z").1 hv]
    | some v =>
      cases hw : vars'.get? "z" with
      | none => rw [(hsome "z").2 hw] at hv; cases hv
      | some w =>
        rcases h "z" v w hv hw with rfl | ⟨q, rfl | rfl, rfl⟩ <;> rfl
  unfold addInput
  rw [this]

/-- the hypotheses are met: a Dataset with too few uncertainties, and one with a single uncertainty -/
example : HasColumn (.dataset [("x", .vec [1, 2, 3]), ("y", .vec [3, 4, 5]), ("z", .vec [5, 6, 7]), ("tvu", .vec [1, 2])]) "x" [1, 2, 3] ∧
    Repeats 3 (.scalar 2) (.vec [2, 2, 2]) ∧
    (addInput addWithoutZ (newSR 16 false) (.dataset [("x", .vec [1, 2, 3]), ("y", .vec [3, 4, 5]), ("z", .vec [5, 6, 7]), ("tvu", .scalar 2)]) "d" {}).st.tiles =
      (addPoints (newSR 16 false) ⟨{ hasTvu := true, hasThu := false }, [⟨1, 3, 5, 2, 0⟩, ⟨2, 4, 6, 2, 0⟩, ⟨3, 5, 7, 2, 0⟩]⟩ "d" {}).st.tiles :=
  ⟨rfl, Or.inr ⟨2, Or.inl rfl, rfl⟩, by decide +kernel⟩

/-- a Dataset without 'y' -/
def noY : Dict String Var := [("x", .vec [1, 2]), ("z", .vec [5, 6])]

/-- **C83** does not hold: a Dataset without 'y' is refused, the grid then lists the container, without points, and the complete data is refused. -/
theorem C83_violated : ∃ g : Grid Tile, g = (addInput addWithoutZ demoSR (.dataset noY) "d" {}).st ∧ (addInput addWithoutZ demoSR (.dataset noY) "d" {}).err = some .valueError ∧
    g.info.container.keys = ["b", "c", "d"] ∧ g.tiles = demoSR.tiles ∧
    (addInput addWithoutZ g (.dataset (("y", .vec [1, 2]) :: noY)) "d" {}).err = some .valueError ∧
    (addInput addWithoutZ demoSR (.dataset (("y", .vec [1, 2]) :: ("tvu", .vec [0, 0]) :: ("thu", .vec [0, 0]) :: noY)) "d" {}).err = none :=
  ⟨_, rfl, by decide +kernel, by decide +kernel, by decide +kernel, by decide +kernel, by decide +kernel⟩

/-- the hypotheses of C83 are met: a Dataset with another variable is added as its rows -/
example : HasColumn (.dataset (("time", .multi) :: ("y", .vec [3, 4]) :: noY)) "x" [1, 2] ∧ HasColumn (.dataset (("time", .multi) :: ("y", .vec [3, 4]) :: noY)) "y" [3, 4] ∧
    (addInput addWithoutZ (newSR 16 false) (.dataset (("time", .multi) :: ("y", .vec [3, 4]) :: noY)) "d" {}).st.tiles = (addPoints (newSR 16 false) ⟨{}, [⟨1, 3, 5, 0, 0⟩, ⟨2, 4, 6, 0, 0⟩]⟩ "d" {}).st.tiles ∧
    (addInput addWithoutZ (newSR 16 false) (.dataset (("time", .multi) :: ("y", .vec [3, 4]) :: noY)) "d" {}).err = none :=
  ⟨rfl, rfl, by decide +kernel, by decide +kernel⟩

/-- the hypotheses of `C83_without_z` are met -/
example : SRHistory demoEnv 16 false demoFields .plain false demoSR demoStore ∧ "d" ∉ demoStore.names ∧ (demoSR.info.update "d" {}).err = none ∧
    fieldsOf [("x", [1]), ("y", [2]), ("tvu", [0]), ("thu", [0])] = demoFields :=
  ⟨demoSR_history, by decide +kernel, by decide +kernel, by decide +kernel⟩

end Bathy
