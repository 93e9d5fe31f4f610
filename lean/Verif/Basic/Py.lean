/-!
# Python primitives

Exceptions as values, the "state left behind" result type and insertion ordered dictionaries.
-/

namespace Bathy

/-- The python exceptions that the modelled code can raise (explicitly, or implicitly through numpy / dict access). -/
inductive Err
  | valueError | indexError | keyError | typeError | attributeError | notImplemented | assertion
  | environmentError | permissionError | ioError | fileExistsError | notADirectoryError | fileNotFoundError
  deriving DecidableEq, Repr

/-- Result of a mutating python method: the object as it is left behind and the exception raised, if any. -/
structure Res (σ : Type) where
  st : σ
  err : Option Err

namespace Res
variable {σ : Type}

/-- normal return -/
def ok (s : σ) : Res σ := ⟨s, none⟩
/-- exception, with the state that the caller is left with -/
def fail (s : σ) (e : Err) : Res σ := ⟨s, some e⟩

/-- statement sequencing: the next statement runs only if no exception was raised -/
def andThen (r : Res σ) (f : σ → Res σ) : Res σ :=
  match r.err with
  | none => f r.st
  | some e => ⟨r.st, some e⟩

/-- a `for` loop whose body may raise -/
def forEach {α : Type} (xs : List α) (s : σ) (body : σ → α → Res σ) : Res σ :=
  match xs with
  | [] => ok s
  | x :: rest => (body s x).andThen (fun s' => forEach rest s' body)

@[simp] theorem andThen_ok (s : σ) (f : σ → Res σ) : (ok s).andThen f = f s := rfl
@[simp] theorem andThen_fail (s : σ) (e : Err) (f : σ → Res σ) : (fail s e).andThen f = fail s e := rfl
@[simp] theorem ok_st (s : σ) : (ok s).st = s := rfl
@[simp] theorem ok_err (s : σ) : (ok s).err = none := rfl
@[simp] theorem fail_st (s : σ) (e : Err) : (fail s e).st = s := rfl
@[simp] theorem fail_err (s : σ) (e : Err) : (fail s e).err = some e := rfl
@[simp] theorem forEach_nil {α : Type} (s : σ) (b : σ → α → Res σ) : forEach [] s b = ok s := rfl
@[simp] theorem forEach_cons {α : Type} (x : α) (xs : List α) (s : σ) (b : σ → α → Res σ) :
    forEach (x :: xs) s b = (b s x).andThen (fun s' => forEach xs s' b) := rfl

theorem eq_ok_of_err {r : Res σ} (h : r.err = none) : r = ok r.st := by
  cases r; simp_all [ok]

theorem andThen_of_err_none {r : Res σ} (h : r.err = none) (f : σ → Res σ) : r.andThen f = f r.st := by
  unfold andThen; rw [h]

theorem andThen_err_none {r : Res σ} {f : σ → Res σ} (h : (r.andThen f).err = none) :
    r.err = none ∧ (f r.st).err = none := by
  unfold andThen at h
  cases hr : r.err with
  | none => rw [hr] at h; exact ⟨rfl, h⟩
  | some e => rw [hr] at h; simp at h

theorem forEach_append {α : Type} (xs ys : List α) (s : σ) (b : σ → α → Res σ) :
    forEach (xs ++ ys) s b = (forEach xs s b).andThen (fun s' => forEach ys s' b) := by
  induction xs generalizing s with
  | nil => rfl
  | cons x xs ih =>
    simp only [List.cons_append, forEach_cons]
    cases hb : (b s x).err with
    | none =>
      rw [andThen_of_err_none hb, andThen_of_err_none hb, ih]
    | some e => simp [andThen, hb]

end Res

/-- python `dict`: insertion ordered association list (keys are unique in every dict built by the operations below). -/
abbrev Dict (κ ν : Type) := List (κ × ν)

namespace Dict
variable {κ ν : Type} [DecidableEq κ]

/-- `k in d` -/
def has (d : Dict κ ν) (k : κ) : Bool := d.any (fun p => decide (p.1 = k))
/-- `d[k]`, `none` is KeyError -/
def get? (d : Dict κ ν) (k : κ) : Option ν :=
  match d with
  | [] => none
  | p :: rest => if p.1 = k then some p.2 else get? rest k
/-- `d[k] = v`: in place if the key exists, else appended -/
def set (d : Dict κ ν) (k : κ) (v : ν) : Dict κ ν :=
  match d with
  | [] => [(k, v)]
  | p :: rest => if p.1 = k then (k, v) :: rest else p :: set rest k v
/-- `d.pop(k)` for an existing key -/
def pop (d : Dict κ ν) (k : κ) : Dict κ ν := d.filter (fun p => !decide (p.1 = k))
/-- `list(d.keys())` -/
def keys (d : Dict κ ν) : List κ := d.map Prod.fst
/-- `for k in d: d[k] = f(d[k])` -/
def mapVals {μ : Type} (d : Dict κ ν) (f : κ → ν → μ) : Dict κ μ := d.map (fun p => (p.1, f p.1 p.2))

@[simp] theorem get?_nil (k : κ) : get? ([] : Dict κ ν) k = none := rfl
theorem get?_cons (p : κ × ν) (d : Dict κ ν) (k : κ) :
    get? (p :: d) k = if p.1 = k then some p.2 else get? d k := rfl
@[simp] theorem set_nil (k : κ) (v : ν) : set ([] : Dict κ ν) k v = [(k, v)] := rfl
theorem set_cons (p : κ × ν) (d : Dict κ ν) (k : κ) (v : ν) :
    set (p :: d) k v = if p.1 = k then (k, v) :: d else p :: set d k v := rfl

theorem has_iff (d : Dict κ ν) (k : κ) : d.has k = true ↔ k ∈ d.keys := by
  simp only [has, keys, List.any_eq_true, decide_eq_true_eq, List.mem_map]

theorem has_false_iff (d : Dict κ ν) (k : κ) : d.has k = false ↔ k ∉ d.keys := by
  rw [← has_iff]; simp

theorem get?_isSome (d : Dict κ ν) (k : κ) : (d.get? k).isSome = d.has k := by
  induction d with
  | nil => rfl
  | cons p d ih =>
    rw [get?_cons]
    by_cases h : p.1 = k
    · simp [has, h]
    · simp only [h, if_false, ih]; simp [has, h]

theorem get?_eq_none (d : Dict κ ν) (k : κ) : d.get? k = none ↔ k ∉ d.keys := by
  rw [← has_false_iff, ← get?_isSome]; cases d.get? k <;> simp

theorem get?_set_self (d : Dict κ ν) (k : κ) (v : ν) : (d.set k v).get? k = some v := by
  induction d with
  | nil => simp [set, get?]
  | cons p d ih =>
    rw [set_cons]; by_cases h : p.1 = k
    · simp [h, get?]
    · simp [h, get?_cons, ih]

theorem get?_set_ne (d : Dict κ ν) {k k' : κ} (v : ν) (hk : k' ≠ k) : (d.set k v).get? k' = d.get? k' := by
  induction d with
  | nil => simp [set, get?, Ne.symm hk]
  | cons p d ih =>
    rw [set_cons]; by_cases h : p.1 = k
    · simp [h, get?, Ne.symm hk]
    · rw [if_neg h, get?_cons, get?_cons, ih]

theorem set_of_not_mem (d : Dict κ ν) (k : κ) (v : ν) (h : k ∉ d.keys) : d.set k v = d ++ [(k, v)] := by
  induction d with
  | nil => rfl
  | cons p d ih =>
    simp only [keys, List.map_cons, List.mem_cons, not_or] at h
    rw [set_cons, if_neg (Ne.symm h.1), ih h.2]; rfl

theorem mem_keys_set (d : Dict κ ν) (k k' : κ) (v : ν) : k' ∈ (d.set k v).keys ↔ k' = k ∨ k' ∈ d.keys := by
  by_cases hk : k' = k
  · subst hk
    simp only [true_or, iff_true]
    rw [← has_iff, ← get?_isSome, get?_set_self]; rfl
  · rw [← has_iff, ← has_iff, ← get?_isSome, ← get?_isSome, get?_set_ne d v hk]; simp [hk]

theorem keys_set_nodup (d : Dict κ ν) (k : κ) (v : ν) (h : d.keys.Nodup) : (d.set k v).keys.Nodup := by
  induction d with
  | nil => simp [keys]
  | cons p d ih =>
    simp only [keys, List.map_cons, List.nodup_cons] at h
    rw [set_cons]; by_cases hp : p.1 = k
    · rw [if_pos hp]; simp only [keys, List.map_cons, List.nodup_cons]; rw [← hp]; exact h
    · rw [if_neg hp]; simp only [keys, List.map_cons, List.nodup_cons]
      refine ⟨?_, ih h.2⟩
      intro hc
      rcases (mem_keys_set d k p.1 v).1 hc with h' | h'
      · exact hp h'
      · exact h.1 h'

omit [DecidableEq κ] in
theorem keys_mapVals {μ : Type} (d : Dict κ ν) (f : κ → ν → μ) : (d.mapVals f).keys = d.keys := by
  simp [keys, mapVals, List.map_map, Function.comp_def]

theorem get?_mapVals {μ : Type} (d : Dict κ ν) (f : κ → ν → μ) (k : κ) :
    (d.mapVals f).get? k = (d.get? k).map (f k) := by
  induction d with
  | nil => rfl
  | cons p d ih =>
    simp only [mapVals, List.map_cons, get?_cons] at *
    by_cases h : p.1 = k
    · subst h; simp
    · simp [h, ih]

theorem mem_keys_pop (d : Dict κ ν) (k k' : κ) : k' ∈ (d.pop k).keys ↔ k' ≠ k ∧ k' ∈ d.keys := by
  simp only [keys, pop, List.mem_map, List.mem_filter, Bool.not_eq_true', decide_eq_false_iff_not]
  constructor
  · rintro ⟨p, ⟨hp, hne⟩, rfl⟩; exact ⟨hne, p, hp, rfl⟩
  · rintro ⟨hne, p, hp, rfl⟩; exact ⟨p, ⟨hp, hne⟩, rfl⟩

theorem keys_pop_nodup (d : Dict κ ν) (k : κ) (h : d.keys.Nodup) : (d.pop k).keys.Nodup := by
  unfold keys pop at *
  exact h.sublist (List.Sublist.map _ List.filter_sublist)

theorem pop_of_not_mem (d : Dict κ ν) (k : κ) (h : k ∉ d.keys) : d.pop k = d := by
  unfold pop; rw [List.filter_eq_self]
  intro p hp
  simp only [Bool.not_eq_true', decide_eq_false_iff_not]
  intro he; exact h (he ▸ List.mem_map_of_mem (f := Prod.fst) hp)

theorem get?_pop_ne (d : Dict κ ν) {k k' : κ} (h : k' ≠ k) : (d.pop k).get? k' = d.get? k' := by
  induction d with
  | nil => rfl
  | cons p d ih =>
    by_cases hp : p.1 = k
    · have h1 : ¬ p.1 = k' := fun h' => h (h'.symm.trans hp)
      have h2 : pop (p :: d) k = pop d k := by simp [pop, hp]
      rw [h2, get?_cons, if_neg h1, ih]
    · have h2 : pop (p :: d) k = p :: pop d k := by simp [pop, hp]
      rw [h2, get?_cons, get?_cons, ih]

theorem get?_of_mem (d : Dict κ ν) {k : κ} {v : ν} (hn : d.keys.Nodup) (h : (k, v) ∈ d) : d.get? k = some v := by
  induction d with
  | nil => simp at h
  | cons p d ih =>
    simp only [keys, List.map_cons, List.nodup_cons] at hn
    rw [get?_cons]
    rcases List.mem_cons.1 h with h | h
    · rw [← h]; simp
    · have : p.1 ≠ k := by
        intro he; exact hn.1 (he ▸ List.mem_map_of_mem (f := Prod.fst) h)
      simp [this, ih hn.2 h]

theorem mem_of_get? (d : Dict κ ν) {k : κ} {v : ν} (h : d.get? k = some v) : (k, v) ∈ d := by
  induction d with
  | nil => simp at h
  | cons p d ih =>
    rw [get?_cons] at h
    by_cases hp : p.1 = k
    · rw [if_pos hp] at h; cases h; rw [← hp]; exact List.mem_cons_self
    · rw [if_neg hp] at h; exact List.mem_cons_of_mem _ (ih h)

end Dict

end Bathy

namespace Bathy

/-! ### `mapM` in `Option` (a comprehension in which one element may raise) -/

theorem mapM_eq_some {α β : Type} (f : α → Option β) (l : List α) (r : List β) :
    l.mapM f = some r ↔ l.map f = r.map some := by
  induction l generalizing r with
  | nil => cases r <;> simp
  | cons a l ih =>
    rw [List.mapM_cons]
    cases hf : f a with
    | none => cases r <;> simp [hf]
    | some b =>
      cases r with
      | nil =>
        cases hl : l.mapM f <;> simp
      | cons c r =>
        cases hl : l.mapM f with
        | none =>
          simp only [List.map_cons, hf, List.cons.injEq, Option.some.injEq]
          have := ih r; rw [hl] at this
          simp only [reduceCtorEq, false_iff] at this
          simp [this]
        | some r' =>
          have := ih r; rw [hl] at this
          simp only [List.map_cons, hf, List.cons.injEq, Option.some.injEq] at this ⊢
          simp [this]

theorem mapM_eq_none {α β : Type} (f : α → Option β) (l : List α) :
    l.mapM f = none ↔ ∃ a ∈ l, f a = none := by
  induction l with
  | nil => simp
  | cons a l ih =>
    rw [List.mapM_cons]
    cases hf : f a with
    | none => simp [hf]
    | some b =>
      cases hl : l.mapM f with
      | none => simp [hf, ← ih, hl]
      | some r =>
        have : ¬ ∃ a ∈ l, f a = none := by rw [← ih, hl]; simp
        simpa [hf] using this

theorem mapM_some_of_forall {α β : Type} (f : α → Option β) (g : α → β) (l : List α) (h : ∀ a ∈ l, f a = some (g a)) :
    l.mapM f = some (l.map g) := by
  rw [mapM_eq_some, List.map_map]
  exact List.map_congr_left h

theorem mapM_length {α β : Type} {f : α → Option β} {l : List α} {r : List β} (h : l.mapM f = some r) :
    r.length = l.length := by
  have := congrArg List.length ((mapM_eq_some f l r).1 h)
  simpa using this.symm

end Bathy
