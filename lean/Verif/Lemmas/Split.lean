import Verif.Model.Containers
import Verif.Spec.Log
import Mathlib.Data.List.Basic

/-!
# Cutting names at '__', lists without repetitions
-/

namespace Bathy

theorem NoCut.tail {c : Char} {s : List Char} (h : NoCut (c :: s)) : NoCut s := fun a b e => h (c :: a) b (by rw [e]; simp)

theorem splitDU_noCut {s : List Char} (h : NoCut s) (acc : List Char) : splitDU s acc = [acc.reverse ++ s] := by
  induction s generalizing acc with
  | nil => simp [splitDU]
  | cons c cs ih =>
    rw [splitDU]
    · rw [ih h.tail]; simp
    · intro cs' h1 h2
      exact h [] cs' (by rw [h1, h2]; simp)

theorem splitDU_cut {p : List Char} (h : ∀ a b, p ++ ['_'] ≠ a ++ ['_', '_'] ++ b) (l acc : List Char) :
    splitDU (p ++ ['_', '_'] ++ l) acc = (acc.reverse ++ p) :: splitDU l [] := by
  induction p generalizing acc with
  | nil => simp [splitDU]
  | cons c p ih =>
    have h' : ∀ a b, p ++ ['_'] ≠ a ++ ['_', '_'] ++ b := fun a b e => h (c :: a) b (by simp [e])
    have e : c :: p ++ ['_', '_'] ++ l = c :: (p ++ ['_', '_'] ++ l) := by simp
    rw [e, splitDU]
    · rw [ih h']; simp
    · intro cs' h1 h2
      cases p with
      | nil => exact h [] [] (by rw [h1]; simp)
      | cons d p =>
        have : d = '_' := by simpa using congrArg List.head? h2
        exact h [] (p ++ ['_']) (by rw [h1, this]; simp)

theorem splitDU_ne (s acc : List Char) : splitDU s acc ≠ [] := by
  fun_induction splitDU s acc <;> simp_all

theorem cut_or (s : List Char) : NoCut s ∨ ∃ p l, CutAt s p l := by
  induction s with
  | nil => left; intro a b h; simp at h
  | cons c s ih =>
    rcases ih with ih | ⟨p, l, rfl, hp⟩
    · by_cases h : c = '_' ∧ ∃ s', s = '_' :: s'
      · obtain ⟨rfl, s', rfl⟩ := h
        right
        refine ⟨[], s', by simp, ?_⟩
        intro a b e
        have := congrArg List.length e
        simp at this
        omega
      · left
        intro a b e
        cases a with
        | nil =>
          simp at e
          exact h ⟨e.1, b, e.2⟩
        | cons d a =>
          simp at e
          exact ih a b (by rw [e.2]; simp)
    · by_cases h : c = '_' ∧ ∃ s', p ++ ['_', '_'] ++ l = '_' :: s'
      · obtain ⟨rfl, s', e⟩ := h
        right
        refine ⟨[], s', by rw [e]; simp, ?_⟩
        intro a b e
        have := congrArg List.length e
        simp at this
        omega
      · right
        refine ⟨c :: p, l, by simp, ?_⟩
        intro a b e
        cases a with
        | nil =>
          simp at e
          refine h ⟨e.1, ?_⟩
          cases p with
          | nil => exact ⟨_, rfl⟩
          | cons d p => simp at e; exact ⟨p ++ ['_', '_'] ++ l, by rw [e.2.1]; simp⟩
        | cons d a =>
          simp at e
          exact hp a b (by rw [e.2]; simp)

theorem noCut_iff_length (s : List Char) : NoCut s ↔ (splitDU s []).length = 1 := by
  constructor
  · intro h; rw [splitDU_noCut h]; rfl
  · intro h
    rcases cut_or s with hc | ⟨p, l, rfl, hp⟩
    · exact hc
    · rw [splitDU_cut hp] at h
      simp at h
      exact absurd h (splitDU_ne _ _)

/-- what one name contributes -/
theorem uniqueEntry_spec (ky : String) : (CutTwice ky ∧ uniqueEntry ky = ky) ∨ (¬ CutTwice ky ∧ DatasetOf ky (uniqueEntry ky)) := by
  rcases cut_or ky.toList with hn | ⟨p, l, hp⟩
  · right
    constructor
    · rintro ⟨p, l, hp, -⟩
      exact hn p l hp.1
    · right
      refine ⟨hn, ?_⟩
      unfold uniqueEntry
      rw [splitDU_noCut hn]
  · have hu : splitDU ky.toList [] = p :: splitDU l [] := by rw [hp.1, splitDU_cut hp.2]; simp
    by_cases hl : NoCut l
    · right
      constructor
      · rintro ⟨p', l', hp', hl'⟩
        have hu' : splitDU ky.toList [] = p' :: splitDU l' [] := by rw [hp'.1, splitDU_cut hp'.2]; simp
        rw [hu] at hu'
        have h := (List.cons.inj hu').2
        rw [noCut_iff_length] at hl hl'
        rw [h] at hl
        exact hl' hl
      · left
        refine ⟨p, l, hp, ?_⟩
        unfold uniqueEntry
        rw [hu, splitDU_noCut hl]
    · left
      refine ⟨⟨p, l, hp, hl⟩, ?_⟩
      unfold uniqueEntry
      rw [hu]
      rw [noCut_iff_length] at hl
      split
      · rename_i h
        rw [List.cons.injEq] at h
        rw [h.2] at hl
        exact absurd rfl hl
      · rfl

/-- there is one answer -/
theorem DatasetOf.unique {ky e e' : String} (h : DatasetOf ky e) (h' : DatasetOf ky e') : e = e' := by
  have hu : ∀ {p l}, CutAt ky.toList p l → splitDU ky.toList [] = p :: splitDU l [] := fun hp => by rw [hp.1, splitDU_cut hp.2]; simp
  rcases h with ⟨p, l, h1, rfl⟩ | ⟨h1, rfl⟩ <;> rcases h' with ⟨p', l', h1', rfl⟩ | ⟨h1', rfl⟩
  · have := (hu h1).symm.trans (hu h1')
    rw [List.cons.injEq] at this
    rw [this.1]
  · exact absurd h1.1 (h1' p l)
  · exact absurd h1'.1 (h1 p' l')
  · rfl

theorem firstSeen_snoc {α : Type} [DecidableEq α] {l out : List α} (x : α) (h : FirstSeen l out) : FirstSeen (l ++ [x]) (if out.contains x then out else out ++ [x]) := by
  obtain ⟨h1, h2, h3⟩ := h
  have hi : ∀ a, a ∈ out → (l ++ [x]).idxOf a = l.idxOf a := fun a ha => List.idxOf_append_of_mem ((h2 a).1 ha)
  have h3' : out.Pairwise (fun a b => (l ++ [x]).idxOf a < (l ++ [x]).idxOf b) := by
    refine List.Pairwise.imp_of_mem ?_ h3
    intro a b ha hb hab
    rw [hi a ha, hi b hb]; exact hab
  split
  · rename_i hx
    rw [List.contains_iff_mem] at hx
    refine ⟨h1, fun y => ?_, h3'⟩
    rw [List.mem_append, List.mem_singleton, h2]
    constructor
    · exact Or.inl
    · rintro (h | rfl)
      · exact h
      · exact (h2 _).1 hx
  · rename_i hx
    rw [List.contains_iff_mem] at hx
    refine ⟨?_, fun y => by rw [List.mem_append, List.mem_append, h2], ?_⟩
    · rw [List.nodup_append]
      refine ⟨h1, by simp, ?_⟩
      intro a ha b hb e
      rw [List.mem_singleton.1 hb] at e
      exact hx (e ▸ ha)
    · rw [List.pairwise_append]
      refine ⟨h3', by simp, ?_⟩
      intro a ha b hb
      rw [List.mem_singleton.1 hb, hi a ha]
      have hxl : x ∉ l := fun h => hx ((h2 x).2 h)
      rw [List.idxOf_append_of_notMem hxl]
      exact Nat.lt_add_right _ (List.idxOf_lt_length_iff.2 ((h2 a).1 ha))

theorem firstSeen_foldl {α β : Type} [DecidableEq α] (f : β → α) (l : List β) :
    FirstSeen (l.map f) (l.foldl (fun u x => if u.contains (f x) then u else u ++ [f x]) []) := by
  have : ∀ (l : List β) (l0 : List α) (u : List α), FirstSeen l0 u → FirstSeen (l0 ++ l.map f) (l.foldl (fun u x => if u.contains (f x) then u else u ++ [f x]) u) := by
    intro l
    induction l with
    | nil => intro l0 u h; simpa using h
    | cons x l ih =>
      intro l0 u h
      have := ih (l0 ++ [f x]) _ (firstSeen_snoc (f x) h)
      simpa using this
  simpa using this l [] [] ⟨by simp, by simp, by simp⟩

end Bathy
