import Verif.Model.BagXml

/-!
# Lemmas on paths in xml documents
-/

namespace Bathy
namespace Xml

@[simp] theorem tag_withChildren (x : Xml) (c : List Xml) : (x.withChildren c).tag = x.tag := by cases x; rfl
@[simp] theorem attrs_withChildren (x : Xml) (c : List Xml) : (x.withChildren c).attrs = x.attrs := by cases x; rfl
@[simp] theorem text_withChildren (x : Xml) (c : List Xml) : (x.withChildren c).text = x.text := by cases x; rfl
@[simp] theorem children_withChildren (x : Xml) (c : List Xml) : (x.withChildren c).children = c := by cases x; rfl
@[simp] theorem tag_withText (x : Xml) (s : String) : (x.withText s).tag = x.tag := by cases x; rfl
@[simp] theorem attrs_withText (x : Xml) (s : String) : (x.withText s).attrs = x.attrs := by cases x; rfl
@[simp] theorem text_withText (x : Xml) (s : String) : (x.withText s).text = some s := by cases x; rfl
@[simp] theorem children_withText (x : Xml) (s : String) : (x.withText s).children = x.children := by cases x; rfl
@[simp] theorem tag_newElem (t : String) : (newElem t).tag = t := rfl
@[simp] theorem children_newElem (t : String) : (newElem t).children = [] := rfl
@[simp] theorem tag_leaf (t s : String) : (leaf t s).tag = t := rfl
@[simp] theorem children_leaf (t s : String) : (leaf t s).children = [] := rfl

theorem firstMap_some {α : Type} {f : α → Option α} {l l' : List α} (h : firstMap f l = some l') :
    ∃ l1 a a' l2, l = l1 ++ a :: l2 ∧ l' = l1 ++ a' :: l2 ∧ f a = some a' ∧ ∀ b ∈ l1, f b = none := by
  induction l generalizing l' with
  | nil => simp [firstMap] at h
  | cons a l ih =>
    simp only [firstMap] at h
    cases hfa : f a with
    | some a' =>
      rw [hfa] at h
      simp only [Option.some.injEq] at h
      exact ⟨[], a, a', l, rfl, h.symm, hfa, by simp⟩
    | none =>
      rw [hfa] at h
      simp only [Option.map_eq_some_iff] at h
      obtain ⟨m, hm, rfl⟩ := h
      obtain ⟨l1, b, b', l2, rfl, rfl, h1, h2⟩ := ih hm
      refine ⟨a :: l1, b, b', l2, rfl, rfl, h1, ?_⟩
      intro c hc
      rcases List.mem_cons.1 hc with rfl | hc
      · exact hfa
      · exact h2 c hc

theorem firstMap_none {α : Type} {f : α → Option α} {l : List α} : firstMap f l = none ↔ ∀ a ∈ l, f a = none := by
  induction l with
  | nil => simp [firstMap]
  | cons a l ih =>
    simp only [firstMap, List.mem_cons, forall_eq_or_imp]
    cases hfa : f a with
    | some a' => simp
    | none => simp [ih]

theorem findAll_append (p q : List String) (x : Xml) : findAll (p ++ q) x = (findAll p x).flatMap (findAll q) := by
  induction p generalizing x with
  | nil => simp [findAll]
  | cons t ts ih =>
    simp only [List.cons_append, findAll]
    rw [List.flatMap_assoc]
    congr 1
    funext c
    exact ih c

theorem findAll_no_children {x : Xml} (h : x.children = []) {p : List String} (hp : p ≠ []) : findAll p x = [] := by
  cases p with
  | nil => exact absurd rfl hp
  | cons t ts => simp [findAll, h]

/-- what is found below depends on the children only -/
theorem findAll_children {x y : Xml} (h : x.children = y.children) {p : List String} (hp : p ≠ []) : findAll p x = findAll p y := by
  cases p with
  | nil => exact absurd rfl hp
  | cons t ts => simp [findAll, h]

/-- the children of an element seen from a path -/
theorem findAll_cons_split {x : Xml} {t : String} {ts : List String} {l1 l2 : List Xml} {a : Xml} (h : x.children = l1 ++ a :: l2) :
    findAll (t :: ts) x = (l1.filter (fun c => c.tag = t)).flatMap (findAll ts) ++ (if a.tag = t then findAll ts a else []) ++ (l2.filter (fun c => c.tag = t)).flatMap (findAll ts) := by
  simp only [findAll, h, List.filter_append, List.filter_cons, List.flatMap_append]
  by_cases hta : a.tag = t
  · simp [hta]
  · simp [hta]

theorem modifyFirst_none {p : List String} {f : Xml → Xml} {x : Xml} : modifyFirst p f x = none ↔ findAll p x = [] := by
  induction p generalizing x with
  | nil => simp [modifyFirst, findAll]
  | cons t ts ih =>
    simp only [modifyFirst, Option.map_eq_none_iff, firstMap_none, findAll, List.flatMap_eq_nil_iff, List.mem_filter, decide_eq_true_eq]
    constructor
    · intro h c hc
      have := h c hc.1
      rw [if_pos hc.2] at this
      exact ih.1 this
    · intro h c hc
      by_cases hct : c.tag = t
      · rw [if_pos hct]; exact ih.2 (h c ⟨hc, hct⟩)
      · rw [if_neg hct]

theorem modifyFirst_tag {p : List String} {f : Xml → Xml} (hf : ∀ y, (f y).tag = y.tag) {x x' : Xml} (h : modifyFirst p f x = some x') : x'.tag = x.tag := by
  cases p with
  | nil => simp only [modifyFirst, Option.some.injEq] at h; rw [← h, hf]
  | cons t ts =>
    simp only [modifyFirst, Option.map_eq_some_iff] at h
    obtain ⟨cs, -, rfl⟩ := h
    simp

/-- the first element found is changed, the others stay -/
theorem modifyFirst_self {p : List String} {f : Xml → Xml} (hf : ∀ y, (f y).tag = y.tag) {x x' : Xml} (h : modifyFirst p f x = some x') :
    ∃ a l, findAll p x = a :: l ∧ findAll p x' = f a :: l := by
  induction p generalizing x x' with
  | nil => simp only [modifyFirst, Option.some.injEq] at h; exact ⟨x, [], rfl, by rw [← h]; rfl⟩
  | cons t ts ih =>
    simp only [modifyFirst, Option.map_eq_some_iff] at h
    obtain ⟨cs, hcs, rfl⟩ := h
    obtain ⟨l1, c, c', l2, h1, h2, h3, h4⟩ := firstMap_some hcs
    by_cases hct : c.tag = t
    · rw [if_pos hct] at h3
      obtain ⟨a, l, ha, ha'⟩ := ih h3
      have hct' : c'.tag = t := (modifyFirst_tag hf h3).trans hct
      have h0 : (l1.filter (fun c => c.tag = t)).flatMap (findAll ts) = [] := by
        rw [List.flatMap_eq_nil_iff]
        intro b hb
        rw [List.mem_filter, decide_eq_true_eq] at hb
        have := h4 b hb.1
        rw [if_pos hb.2] at this
        exact modifyFirst_none.1 this
      refine ⟨a, l ++ (l2.filter (fun c => c.tag = t)).flatMap (findAll ts), ?_, ?_⟩
      · rw [findAll_cons_split h1, h0, if_pos hct, ha]; rfl
      · rw [findAll_cons_split (children_withChildren _ _ |>.trans h2), h0, if_pos hct', ha']; rfl
    · rw [if_neg hct] at h3; exact absurd h3 (by simp)

/-- other paths find the same as before -/
theorem modifyFirst_other {p : List String} {f : Xml → Xml} (hf : ∀ y, (f y).tag = y.tag) (hc : ∀ y, (f y).children = y.children) {x x' : Xml} (h : modifyFirst p f x = some x')
    {r : List String} (hr : ¬ r <+: p) : findAll r x' = findAll r x := by
  induction p generalizing x x' r with
  | nil =>
    simp only [modifyFirst, Option.some.injEq] at h
    rw [← h]
    exact findAll_children (hc x) (fun h0 => hr (by rw [h0]; exact List.nil_prefix))
  | cons t ts ih =>
    cases r with
    | nil => exact absurd (List.nil_prefix) hr
    | cons s rs =>
      simp only [modifyFirst, Option.map_eq_some_iff] at h
      obtain ⟨cs, hcs, rfl⟩ := h
      obtain ⟨l1, c, c', l2, h1, h2, h3, -⟩ := firstMap_some hcs
      rw [findAll_cons_split h1, findAll_cons_split (children_withChildren _ _ |>.trans h2)]
      by_cases hct : c.tag = t
      · rw [if_pos hct] at h3
        rw [modifyFirst_tag hf h3]
        by_cases hs : c.tag = s
        · rw [if_pos hs, if_pos hs, ih h3]
          intro hp
          exact hr (by rw [← hs, hct]; exact List.cons_prefix_cons.2 ⟨rfl, hp⟩)
        · rw [if_neg hs, if_neg hs]
      · rw [if_neg hct] at h3; exact absurd h3 (by simp)

theorem ensure_tag {p : List String} {f : Xml → Xml} (hf : ∀ y, (f y).tag = y.tag) (x : Xml) : (ensure p f x).tag = x.tag := by
  cases p with
  | nil => exact hf x
  | cons t ts =>
    simp only [ensure]
    split <;> simp

/-- the two ways a level of `ensure` goes -/
theorem ensure_cons (t : String) (ts : List String) (f : Xml → Xml) (x : Xml) :
    (∃ l1 c l2, x.children = l1 ++ c :: l2 ∧ c.tag = t ∧ (∀ b ∈ l1, b.tag ≠ t) ∧ ensure (t :: ts) f x = x.withChildren (l1 ++ ensure ts f c :: l2)) ∨
    ((∀ b ∈ x.children, b.tag ≠ t) ∧ ensure (t :: ts) f x = x.withChildren (x.children ++ [ensure ts f (newElem t)])) := by
  cases h : firstMap (fun c => if c.tag = t then some (ensure ts f c) else none) x.children with
  | some cs =>
    obtain ⟨l1, c, c', l2, h1, h2, h3, h4⟩ := firstMap_some h
    by_cases hct : c.tag = t
    · rw [if_pos hct, Option.some.injEq] at h3
      refine .inl ⟨l1, c, l2, h1, hct, fun b hb hbt => ?_, ?_⟩
      · have := h4 b hb
        rw [if_pos hbt] at this
        exact absurd this (by simp)
      · simp only [ensure, h]; rw [h2, h3]
    · rw [if_neg hct] at h3; exact absurd h3 (by simp)
  | none =>
    refine .inr ⟨fun b hb hbt => ?_, by simp only [ensure, h]⟩
    have := firstMap_none.1 h b hb
    rw [if_pos hbt] at this
    exact absurd this (by simp)

theorem filter_none {l : List Xml} {t : String} (h : ∀ b ∈ l, b.tag ≠ t) : l.filter (fun c => c.tag = t) = [] := by
  rw [List.filter_eq_nil_iff]
  intro b hb
  simpa using h b hb

/-- paths that do not lead along the hierarchy or to the new elements find the same as before -/
theorem ensure_other {p : List String} {new : List Xml} (hl : ∀ a ∈ new, a.children = []) {x : Xml} {r : List String} (hr : ¬ r <+: p) (hr' : ∀ a ∈ new, r ≠ p ++ [a.tag]) :
    findAll r (ensure p (fun y => y.withChildren (y.children ++ new)) x) = findAll r x := by
  induction p generalizing x r with
  | nil =>
    cases r with
    | nil => exact absurd (List.nil_prefix) hr
    | cons s rs =>
      simp only [ensure, findAll, children_withChildren, List.filter_append, List.flatMap_append]
      have : (new.filter (fun c => c.tag = s)).flatMap (findAll rs) = [] := by
        rw [List.flatMap_eq_nil_iff]
        intro b hb
        rw [List.mem_filter, decide_eq_true_eq] at hb
        refine findAll_no_children (hl b hb.1) (fun h0 => hr' b hb.1 ?_)
        rw [h0, hb.2]; rfl
      rw [this, List.append_nil]
  | cons t ts ih =>
    cases r with
    | nil => exact absurd (List.nil_prefix) hr
    | cons s rs =>
      have key : ∀ y : Xml, s = t → findAll rs (ensure ts (fun y => y.withChildren (y.children ++ new)) y) = findAll rs y := by
        intro y hst
        refine ih (fun hp => hr (by rw [hst]; exact List.cons_prefix_cons.2 ⟨rfl, hp⟩)) (fun a ha h0 => hr' a ha (by rw [h0, hst]; rfl))
      rcases ensure_cons t ts (fun y => y.withChildren (y.children ++ new)) x with ⟨l1, c, l2, h1, h2, h3, h4⟩ | ⟨h1, h2⟩
      · rw [h4, findAll_cons_split (children_withChildren _ _), findAll_cons_split h1, ensure_tag (by simp)]
        by_cases hs : c.tag = s
        · rw [if_pos hs, if_pos hs, key c (hs ▸ h2)]
        · rw [if_neg hs, if_neg hs]
      · rw [h2, findAll_cons_split (children_withChildren _ _), ensure_tag (by simp)]
        simp only [List.filter_nil, List.flatMap_nil, List.append_nil]
        by_cases hs : t = s
        · rw [if_pos (show (newElem t).tag = s from hs), key _ hs.symm, findAll_no_children rfl, List.append_nil]; · rfl
          intro h0
          exact hr (by rw [h0, hs]; exact List.cons_prefix_cons.2 ⟨rfl, List.nil_prefix⟩)
        · rw [if_neg (show ¬ (newElem t).tag = s from hs), List.append_nil]; rfl

/-- an element that was nowhere is now in one place -/
theorem ensure_new {p : List String} {new : List Xml} {x : Xml} {t : String} (h0 : findAll (p ++ [t]) x = []) :
    findAll (p ++ [t]) (ensure p (fun y => y.withChildren (y.children ++ new)) x) = new.filter (fun c => c.tag = t) := by
  induction p generalizing x with
  | nil =>
    simp only [List.nil_append, findAll, ensure, children_withChildren, List.filter_append, List.flatMap_append, List.flatMap_singleton'] at h0 ⊢
    rw [h0, List.nil_append]
  | cons s ss ih =>
    rw [List.cons_append] at h0 ⊢
    rcases ensure_cons s ss (fun y => y.withChildren (y.children ++ new)) x with ⟨l1, c, l2, h1, h2, h3, h4⟩ | ⟨h1, h2⟩
    · rw [findAll_cons_split h1, if_pos h2, List.append_eq_nil_iff, List.append_eq_nil_iff] at h0
      rw [h4, findAll_cons_split (children_withChildren _ _), ensure_tag (by simp), if_pos h2, ih h0.1.2, h0.1.1, h0.2]
      simp
    · rw [h2, findAll_cons_split (children_withChildren _ _), ensure_tag (by simp), filter_none h1, tag_newElem, if_pos rfl, ih (findAll_no_children rfl (by simp))]
      simp

/-- a hierarchy that was nowhere is now in one place -/
theorem ensure_hierarchy {p : List String} {t : String} {f : Xml → Xml} (hf : ∀ y, (f y).tag = y.tag) {x : Xml} (h0 : findAll (p ++ [t]) x = []) :
    findAll (p ++ [t]) (ensure (p ++ [t]) f x) = [f (newElem t)] := by
  induction p generalizing x with
  | nil =>
    rw [List.nil_append] at h0 ⊢
    rcases ensure_cons t [] f x with ⟨l1, c, l2, h1, h2, h3, h4⟩ | ⟨h1, h2⟩
    · rw [findAll_cons_split h1, if_pos h2] at h0
      simp [findAll] at h0
    · rw [h2, findAll_cons_split (children_withChildren _ _), ensure_tag hf, filter_none h1]
      simp [findAll, ensure]
  | cons s ss ih =>
    rw [List.cons_append] at h0 ⊢
    rcases ensure_cons s (ss ++ [t]) f x with ⟨l1, c, l2, h1, h2, h3, h4⟩ | ⟨h1, h2⟩
    · rw [findAll_cons_split h1, if_pos h2, List.append_eq_nil_iff, List.append_eq_nil_iff] at h0
      rw [h4, findAll_cons_split (children_withChildren _ _), ensure_tag hf, if_pos h2, ih h0.1.2, h0.1.1, h0.2]
      simp
    · rw [h2, findAll_cons_split (children_withChildren _ _), ensure_tag hf, filter_none h1, tag_newElem, if_pos rfl, ih (findAll_no_children rfl (by simp))]
      simp

end Xml
end Bathy
