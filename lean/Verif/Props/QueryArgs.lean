import Verif.Model.QueryArgs
import Verif.Props.PointQuery

/-!
# C92: the locations of a query, one by one or together, as numbers, lists, tuples or arrays

Model: `Grid.layerValuesAt` (bathygrid/bgrid.py:1797-1898).
-/

namespace Bathy
open Grid

section
variable {τ : Type} [LayerLike τ] {env : Env}

/-- an array of locations gives each location what it gets alone -/
theorem valueLoop_of_values {l : Layer} {nodata : Option ℚ} {locs : List (ℚ × ℚ)} {rs : List ℚ} {g g' : Grid τ} {vals out : List (Option ℚ)} (hlen : vals.length = locs.length)
    (hq : valuesLoop env l nodata locs rs g vals = (g', .ok out)) :
    out.length = locs.length ∧ ∀ (k : Nat) p v, locs[k]? = some p → vals[k]? = some v → ∃ g'' w, valueLoop env l nodata p rs g v = (g'', .ok w) ∧ out[k]? = some w := by
  induction rs generalizing g vals with
  | nil =>
    unfold valuesLoop at hq
    simp only [Prod.mk.injEq, Except.ok.injEq] at hq
    obtain ⟨rfl, rfl⟩ := hq
    exact ⟨hlen, fun k p v _ hv => ⟨g, v, rfl, hv⟩⟩
  | cons r rs ih =>
    unfold valuesLoop at hq
    split at hq
    · rename_i hany
      split at hq
      · cases hq
      · rename_i g1 s hs
        split at hq
        · cases hq
        · rename_i vals' hv'
          have hlen' : vals'.length = locs.length := by
            rw [(mapM_ok_get hv').1, List.length_zip, hlen, Nat.min_self]
          obtain ⟨h1, h2⟩ := ih hlen' hq
          refine ⟨h1, fun k p v hp hv => ?_⟩
          have hz : (locs.zip vals)[k]? = some (p, v) := by
            rw [List.getElem?_zip_eq_some]; exact ⟨hp, hv⟩
          obtain ⟨w, hw, hu⟩ := (mapM_ok_get hv').2 k _ hz
          obtain ⟨g2, o, ho, hout⟩ := h2 k p w hp hw
          unfold surfUpdate at hu
          simp only at hu
          by_cases hun : isUnset nodata v = true
          · rw [if_pos hun] at hu
            split at hu
            · cases hu
            · rename_i hsa
              cases hu
              exact ⟨g2, o, by rw [valueLoop, if_pos hun, hs]; simp only [hsa]; exact ho, hout⟩
            · rename_i w' hsa
              cases hu
              exact ⟨g2, o, by rw [valueLoop, if_pos hun, hs]; simp only [hsa]; exact ho, hout⟩
          · rw [if_neg hun] at hu
            cases hu
            have hstay : ∀ (rs : List ℚ) (g : Grid τ), valueLoop env l nodata p rs g v = (g, .ok v) := by
              intro rs g
              cases rs with
              | nil => rfl
              | cons r rs => rw [valueLoop, if_neg hun]
            rw [hstay] at ho
            cases ho
            exact ⟨g, v, hstay _ _, hout⟩
    · rename_i hany
      simp only [Prod.mk.injEq, Except.ok.injEq] at hq
      obtain ⟨rfl, rfl⟩ := hq
      refine ⟨hlen, fun k p v hp hv => ⟨g, v, ?_, hv⟩⟩
      have hun : ¬ isUnset nodata v = true := fun h => hany (List.any_eq_true.2 ⟨v, List.mem_of_getElem? hv, h⟩)
      rw [valueLoop, if_neg hun]

/-- a single location is treated like an array with one element -/
theorem valuesLoop_one (l : Layer) (nodata : Option ℚ) (p : ℚ × ℚ) (rs : List ℚ) (g : Grid τ) (v : Option ℚ) :
    valuesLoop env l nodata [p] rs g [v] = ((valueLoop env l nodata p rs g v).1, (valueLoop env l nodata p rs g v).2.map (fun w => [w])) := by
  induction rs generalizing g v with
  | nil => rfl
  | cons r rs ih =>
    unfold valuesLoop valueLoop
    by_cases hun : isUnset nodata v = true
    · rw [if_pos (by simpa using hun), if_pos hun]
      rcases g.returnSurf env [l] (some r) true nodata with ⟨g1, e | s⟩
      · rfl
      · simp only
        cases hsa : surfAt s p with
        | error e => simp [surfUpdate, hun, hsa, bind, Except.bind, Except.map]
        | ok o =>
          cases o with
          | none => simp only [List.zip_cons_cons, List.zip_nil_right, List.mapM_cons, List.mapM_nil, surfUpdate, hun, hsa, if_true, bind, Except.bind, pure, Except.pure]; exact ih _ _
          | some w => simp only [List.zip_cons_cons, List.zip_nil_right, List.mapM_cons, List.mapM_nil, surfUpdate, hun, hsa, if_true, bind, Except.bind, pure, Except.pure]; exact ih _ _
    · rw [if_neg (by simpa using hun), if_neg hun]
      rfl

/-- the locations of an argument -/
def LocArg.values : LocArg → List ℚ
  | .number v => [v]
  | .array l => l
  | .list l => l
  | .tuple l => l

/-- not a single number -/
def LocArg.IsSeq (a : LocArg) : Prop := ∀ v, a ≠ .number v

theorem layerValuesAt_seq {g : Grid τ} {x y : LocArg} (hx : x.IsSeq) (hy : y.IsSeq) (hyt : ∀ l, y ≠ .tuple l) (hl : x.values.length = y.values.length) (l : Layer) (res nodata : Option ℚ) :
    layerValuesAt env g x y l res nodata = match g.layerValuesAtXY env (x.values.zip y.values) l res nodata with
      | (g, .error e) => (g, .error e)
      | (g, .ok vs) => (g, .ok (.many vs)) := by
  have h : validateLocs x y = .ok (.arrays x.values y.values) := by
    cases x with
    | number v => exact absurd rfl (hx v)
    | _ => cases y with
      | number v => exact absurd rfl (hy v)
      | tuple v => exact absurd rfl (hyt v)
      | _ =>
        simp only [LocArg.values] at hl
        simp [validateLocs, LocArg.fixX, LocArg.fixY, LocArg.values, hl]
  unfold layerValuesAt
  rw [h]
  rfl

/-- **C92, partial** (every grid): lists, tuples and arrays of as many x as y (y not a tuple) are answered by an array of as many values, and each location gets the value it gets alone, as
two numbers.  Missing: a tuple for y, see `C92_tuple` and `C92_violated`. -/
theorem C92_together_partial {g g' : Grid τ} {x y : LocArg} (hx : x.IsSeq) (hy : y.IsSeq) (hyt : ∀ l, y ≠ .tuple l) (hl : x.values.length = y.values.length) {l : Layer}
    {res nodata : Option ℚ} {ans : LocAnswer} (h : layerValuesAt env g x y l res nodata = (g', .ok ans)) :
    ∃ out, ans = .many out ∧ out.length = x.values.length ∧ ∀ (k : Nat) a b, x.values[k]? = some a → y.values[k]? = some b →
      ∃ v, out[k]? = some v ∧ (layerValuesAt env g (.number a) (.number b) l res nodata).2 = .ok (.single v) := by
  rw [layerValuesAt_seq hx hy hyt hl] at h
  split at h
  · cases h
  · rename_i g1 out ho
    simp only [Prod.mk.injEq, Except.ok.injEq] at h
    obtain ⟨-, rfl⟩ := h
    obtain ⟨h1, h2⟩ := valueLoop_of_values (by simp) ho
    refine ⟨out, rfl, by rw [h1, List.length_zip, hl, Nat.min_self], fun k a b ha hb => ?_⟩
    have hz : (x.values.zip y.values)[k]? = some (a, b) := by rw [List.getElem?_zip_eq_some]; exact ⟨ha, hb⟩
    obtain ⟨g2, w, hw, hout⟩ := h2 k (a, b) nodata hz (by rw [List.getElem?_map, hz]; rfl)
    refine ⟨w, hout, ?_⟩
    unfold layerValuesAt
    simp only [validateLocs, LocArg.fixX, LocArg.fixY, LocArg.toFloat, hw]

/-- **C92** (every grid): two numbers are answered like two arrays with one element, with the value instead of an array, the same error, and the same grid afterwards. -/
theorem C92_numbers (g : Grid τ) (a b : ℚ) (l : Layer) (res nodata : Option ℚ) :
    (layerValuesAt env g (.number a) (.number b) l res nodata).1 = (layerValuesAt env g (.array [a]) (.array [b]) l res nodata).1 ∧
    (∀ v, (layerValuesAt env g (.number a) (.number b) l res nodata).2 = .ok (.single v) ↔ (layerValuesAt env g (.array [a]) (.array [b]) l res nodata).2 = .ok (.many [v])) ∧
    ∀ e, (layerValuesAt env g (.number a) (.number b) l res nodata).2 = .error e ↔ (layerValuesAt env g (.array [a]) (.array [b]) l res nodata).2 = .error e := by
  have h1 : layerValuesAt env g (.number a) (.number b) l res nodata = match valueLoop env l nodata (a, b) (g.queryList res) g nodata with
      | (g, .error e) => (g, .error e)
      | (g, .ok v) => (g, .ok (.single v)) := rfl
  have h2 := layerValuesAt_seq (env := env) (g := g) (x := .array [a]) (y := .array [b]) (by intro v h; cases h) (by intro v h; cases h) (by intro v h; cases h) rfl l res nodata
  have h3 : g.layerValuesAtXY env [(a, b)] l res nodata = _ := valuesLoop_one (env := env) l nodata (a, b) (g.queryList res) g nodata
  have h2 : layerValuesAt env g (.array [a]) (.array [b]) l res nodata = match g.layerValuesAtXY env [(a, b)] l res nodata with
      | (g, .error e) => (g, .error e)
      | (g, .ok vs) => (g, .ok (.many vs)) := h2
  rw [h1, h2, h3]
  rcases valueLoop env l nodata (a, b) (g.queryList res) g nodata with ⟨g1, e | v⟩ <;> simp [Except.map]

/-- **C92** (every grid): arguments that do not fit, one of them a number and the other with more or less than one element, or two lists, tuples or arrays of different lengths (y not a
tuple), raise ValueError and nothing is changed. -/
theorem C92_refused (g : Grid τ) (x y : LocArg) (hyt : ∀ l, y ≠ .tuple l) (hl : x.values.length ≠ y.values.length) (l : Layer) (res nodata : Option ℚ) :
    layerValuesAt env g x y l res nodata = (g, .error .valueError) := by
  have h : validateLocs x y = .error .valueError := by
    have one : ∀ l : List ℚ, l.length ≠ 1 → LocArg.toFloat (.array l) = none := by
      intro l hl
      match l, hl with
      | [], _ => rfl
      | [_], h => exact absurd rfl h
      | _ :: _ :: _, _ => rfl
    cases x with
    | number v => cases y with
      | number w => exact absurd rfl hl
      | tuple v => exact absurd rfl (hyt v)
      | array ys => simp only [LocArg.values] at hl; simp [validateLocs, LocArg.fixX, LocArg.fixY, one ys (Ne.symm hl)]
      | list ys => simp only [LocArg.values] at hl; simp [validateLocs, LocArg.fixX, LocArg.fixY, one ys (Ne.symm hl)]
    | _ xs => cases y with
      | number w => simp only [LocArg.values] at hl; simp [validateLocs, LocArg.fixX, LocArg.fixY, one xs hl]
      | tuple v => exact absurd rfl (hyt v)
      | _ ys => simp only [LocArg.values] at hl; simp [validateLocs, LocArg.fixX, LocArg.fixY, hl]
  unfold layerValuesAt
  rw [h]

/-- **C92** (every grid): a number and a list or array (or a tuple for x) with one element are answered like two numbers. -/
theorem C92_number_and_one (g : Grid τ) {x y : LocArg} {a b : ℚ} (hx : x.values = [a]) (hy : y.values = [b]) (hyt : ∀ l, y ≠ .tuple l) (hn : (∃ v, x = .number v) ∨ ∃ v, y = .number v)
    (l : Layer) (res nodata : Option ℚ) : layerValuesAt env g x y l res nodata = layerValuesAt env g (.number a) (.number b) l res nodata := by
  have h : validateLocs x y = validateLocs (.number a) (.number b) := by
    cases x <;> cases y <;> simp only [LocArg.values, List.cons.injEq, and_true] at hx hy <;> subst hx <;> subst hy <;> first | rfl | exact absurd rfl (hyt _) | simp at hn
  unfold layerValuesAt
  rw [h]

/-- **C92, what happens with a tuple for y**: with a number for x it is refused; with a list, tuple or array for x there is never an answer as soon as there is a location and a resolution,
and otherwise (no location, or no resolution) the lengths are not compared. -/
theorem C92_tuple (g : Grid τ) (x : LocArg) (ys : List ℚ) (l : Layer) (res nodata : Option ℚ) :
    (∀ v, x = .number v → layerValuesAt env g x (.tuple ys) l res nodata = (g, .error .valueError)) ∧
    (x.IsSeq → x.values ≠ [] → g.queryList res ≠ [] → ∃ e, (layerValuesAt env g x (.tuple ys) l res nodata).2 = .error e) ∧
    (x.IsSeq → x.values = [] ∨ g.queryList res = [] → layerValuesAt env g x (.tuple ys) l res nodata = (g, .ok (.many (x.values.map (fun _ => nodata))))) := by
  have hv : x.IsSeq → validateLocs x (.tuple ys) = .ok (.tupleY x.values ys) := by
    intro hx
    cases x with
    | number v => exact absurd rfl (hx v)
    | _ => rfl
  refine ⟨?_, fun hx hne hq => ?_, fun hx h => ?_⟩
  · rintro v rfl
    rfl
  · unfold layerValuesAt
    rw [hv hx]
    simp only
    have hany : ((x.values.map (fun _ => nodata)).any (isUnset nodata)) = true := by
      match x.values, hne with
      | [], h => exact absurd rfl h
      | a :: as, _ => cases nodata <;> simp [isUnset]
    match g.queryList res, hq with
    | [], h => exact absurd rfl h
    | r :: rs, _ =>
      simp only [tupleLoop, hany, if_true]
      rcases g.returnSurf env [l] (some r) true nodata with ⟨g1, e | s⟩
      · exact ⟨e, rfl⟩
      · exact ⟨.typeError, rfl⟩
  · unfold layerValuesAt
    rw [hv hx]
    simp only
    rcases h with h | h
    · rw [h]
      cases g.queryList res <;> rfl
    · rw [h]; rfl

end

/-- **C92 is violated**: the same two locations as lists and as tuples, in a reachable grid. -/
theorem C92_violated : SRHistory demoEnv 16 false demoFields .plain false edgeGrid [("a", [⟨1, 1, 5, 1, 1⟩, ⟨15, 1, 7, 1, 1⟩])] ∧
    (layerValuesAt demoEnv edgeGrid (.list [1, 3]) (.list [1, 9]) .depth none none).2 = .ok (.many [some 5, none]) ∧
    (layerValuesAt demoEnv edgeGrid (.tuple [1, 3]) (.tuple [1, 9]) .depth none none).2 = .error .typeError := by
  refine ⟨((GridHistory.new .plain).add _ "a" _ (by decide +kernel)).grid { alg := .mean, res := some 8 } rfl none, by decide +kernel, by decide +kernel⟩

/-- the hypotheses are met: a tuple for x and a list for y, and numbers -/
example : (layerValuesAt demoEnv edgeGrid (.tuple [1, 3]) (.list [1, 9]) .depth none none).2 = .ok (.many [some 5, none]) ∧
    (layerValuesAt demoEnv edgeGrid (.number 1) (.number 1) .depth none none).2 = .ok (.single (some 5)) ∧
    (layerValuesAt demoEnv edgeGrid (.number 1) (.list [1]) .depth none none).2 = .ok (.single (some 5)) ∧
    edgeGrid.queryList none ≠ [] ∧ (layerValuesAt demoEnv edgeGrid (.number 1) (.list [1, 2]) .depth none none).2 = .error .valueError :=
  ⟨by decide +kernel, by decide +kernel, by decide +kernel, by decide +kernel, by decide +kernel⟩

end Bathy
