import Verif.Lemmas.BagXml

/-!
# C82: the times in the metadata of a BAG

Model: `Xml.setTimes` (bathygrid/bgrid.py:1986-2064).
-/

namespace Bathy
open Xml

/-- what is to be found at a path that held `before`: the first element has the text, a new one is made if there was none -/
def TimeAt (t s : String) : List Xml → List Xml
  | [] => [.node t [] (some s) []]
  | .node t' a _ c :: l => .node t' a (some s) c :: l

theorem timeAt_cons (t s : String) (a : Xml) (l : List Xml) : TimeAt t s (a :: l) = a.withText s :: l := by cases a; rfl

theorem end_not_begin : ¬ endPath <+: beginPath := by decide +kernel
theorem begin_not_end : ¬ beginPath <+: endPath := by decide +kernel
theorem begin_not_hierarchy : ¬ beginPath <+: temporalHierarchy := by decide +kernel
theorem end_not_hierarchy : ¬ endPath <+: temporalHierarchy := by decide +kernel

theorem added_leaf {b e : Bool} {s t : String} : ∀ a ∈ added b e s t, a.children = [] := by
  cases b <;> cases e <;> simp [added]

theorem modifyFirst_getD {p : List String} {s : String} {x : Xml} (h : findAll p x ≠ []) :
    modifyFirst p (withText s) x = some ((modifyFirst p (withText s) x).getD x) := by
  cases hm : modifyFirst p (withText s) x with
  | none => exact absurd (modifyFirst_none.1 hm) h
  | some y => rfl

theorem getD_self {p : List String} {s : String} {x a : Xml} {l : List Xml} (h : findAll p x = a :: l) :
    findAll p ((modifyFirst p (withText s) x).getD x) = a.withText s :: l := by
  obtain ⟨a', l', h1, h2⟩ := modifyFirst_self (fun y => tag_withText y s) (modifyFirst_getD (s := s) (x := x) (p := p) (by rw [h]; simp))
  rw [h, List.cons.injEq] at h1
  rw [h2, h1.1, h1.2]

theorem getD_other {p r : List String} {s : String} {x : Xml} (hr : ¬ r <+: p) : findAll r ((modifyFirst p (withText s) x).getD x) = findAll r x := by
  cases hm : modifyFirst p (withText s) x with
  | none => rfl
  | some y => exact modifyFirst_other (fun y => tag_withText y s) (fun y => children_withText y s) hm hr

/-- the document after the loop over the hierarchy -/
theorem stage_ensure (b e : Bool) (start stop : String) (root : Xml) (hb : b = (findAll beginPath root).isEmpty) (he : e = (findAll endPath root).isEmpty) (r : Xml)
    (hr : r = ensure temporalHierarchy (fun p => p.withChildren (p.children ++ added b e start stop)) root) :
    findAll beginPath r = (if b then [leaf (gml ++ "beginPosition") start] else findAll beginPath root) ∧
    findAll endPath r = (if e then [leaf (gml ++ "endPosition") stop] else findAll endPath root) := by
  subst hr
  constructor
  · cases b with
    | true =>
      have h0 : findAll beginPath root = [] := List.isEmpty_iff.1 hb.symm
      refine (ensure_new (new := added true e start stop) h0).trans ?_
      cases e <;> simp [added, gml]
    | false =>
      refine ensure_other added_leaf begin_not_hierarchy ?_
      intro a ha
      cases e
      · simp [added] at ha
      · simp only [added, Bool.false_eq_true, if_false, if_true, List.nil_append, List.mem_singleton] at ha
        subst ha
        exact fun h => begin_not_end (by rw [h]; exact List.prefix_refl _)
  · cases e with
    | true =>
      have h0 : findAll endPath root = [] := List.isEmpty_iff.1 he.symm
      refine (ensure_new (new := added b true start stop) h0).trans ?_
      cases b <;> simp [added, gml]
    | false =>
      refine ensure_other added_leaf end_not_hierarchy ?_
      intro a ha
      cases b
      · simp [added] at ha
      · simp only [added, Bool.false_eq_true, if_false, if_true, List.append_nil, List.mem_singleton] at ha
        subst ha
        exact fun h => end_not_begin (by rw [h]; exact List.prefix_refl _)

/-- the document after the loop, with the test for it -/
theorem stage_if (b e : Bool) (start stop : String) (root : Xml) (hb : b = (findAll beginPath root).isEmpty) (he : e = (findAll endPath root).isEmpty) (r : Xml)
    (hr : r = if b || e then ensure temporalHierarchy (fun p => p.withChildren (p.children ++ added b e start stop)) root else root) :
    findAll beginPath r = (if b then [leaf (gml ++ "beginPosition") start] else findAll beginPath root) ∧
    findAll endPath r = (if e then [leaf (gml ++ "endPosition") stop] else findAll endPath root) := by
  by_cases h : (b || e) = true
  · rw [if_pos h] at hr
    exact stage_ensure b e start stop root hb he r hr
  · rw [if_neg h] at hr
    rw [Bool.or_eq_true, not_or] at h
    subst hr
    rw [if_neg h.1, if_neg h.2]
    exact ⟨rfl, rfl⟩

/-- **C82**: for every document, after `_set_temporal_extents` the first begin position and the first end position have the times given, made new if there was none; all further
begin and end positions are as before. -/
theorem C82_times (start stop : String) (root : Xml) :
    findAll beginPath (setTimes start stop root) = TimeAt (gml ++ "beginPosition") start (findAll beginPath root) ∧
    findAll endPath (setTimes start stop root) = TimeAt (gml ++ "endPosition") stop (findAll endPath root) := by
  unfold setTimes
  simp only []
  generalize hb : (findAll beginPath root).isEmpty = b
  generalize he : (findAll endPath root).isEmpty = e
  generalize hr : (if b || e then ensure temporalHierarchy (fun p => p.withChildren (p.children ++ added b e start stop)) root else root) = r
  obtain ⟨h1, h2⟩ := stage_if b e start stop root hb.symm he.symm r hr.symm
  have hbegin : findAll beginPath (if b then r else (modifyFirst beginPath (withText start) r).getD r) = TimeAt (gml ++ "beginPosition") start (findAll beginPath root) := by
    cases b with
    | true => rw [if_pos rfl, h1, List.isEmpty_iff.1 hb]; rfl
    | false =>
      cases hf : findAll beginPath root with
      | nil => rw [hf] at hb; exact absurd hb (by simp)
      | cons a l =>
        rw [if_neg (by simp), hf] at h1
        rw [if_neg (by simp), getD_self h1, timeAt_cons]
  have hend : findAll endPath (if b then r else (modifyFirst beginPath (withText start) r).getD r) = findAll endPath r := by
    cases b with
    | true => rfl
    | false => exact getD_other end_not_begin
  generalize (if b then r else (modifyFirst beginPath (withText start) r).getD r) = r' at hbegin hend ⊢
  rw [h2] at hend
  cases e with
  | true => exact ⟨by rw [if_pos rfl, hbegin], by rw [if_pos rfl, hend, List.isEmpty_iff.1 he]; rfl⟩
  | false =>
    refine ⟨by rw [if_neg (by simp), getD_other begin_not_end, hbegin], ?_⟩
    cases hf : findAll endPath root with
    | nil => rw [hf] at he; exact absurd he (by simp)
    | cons a l =>
      rw [if_neg (by simp), hf] at hend
      rw [if_neg (by simp), getD_self hend, timeAt_cons]

/-- **C82**: nothing else is changed: a path that does not lead to the begin or end positions finds the same elements as before, with everything in them. -/
theorem C82_frame (start stop : String) (root : Xml) (path : List String) (hb : ¬ path <+: beginPath) (he : ¬ path <+: endPath) :
    findAll path (setTimes start stop root) = findAll path root := by
  unfold setTimes
  simp only []
  generalize (findAll beginPath root).isEmpty = b
  generalize (findAll endPath root).isEmpty = e
  have hh : ¬ path <+: temporalHierarchy := fun h => hb (h.trans (List.prefix_append _ _))
  have h1 : findAll path (if b || e then ensure temporalHierarchy (fun p => p.withChildren (p.children ++ added b e start stop)) root else root) = findAll path root := by
    by_cases h : (b || e) = true
    · rw [if_pos h]
      refine ensure_other added_leaf hh ?_
      intro a ha h0
      simp only [added, List.mem_append] at ha
      rcases ha with ha | ha
      · cases b
        · simp at ha
        · simp only [if_true, List.mem_singleton] at ha
          subst ha
          exact hb (by rw [h0]; exact List.prefix_refl _)
      · cases e
        · simp at ha
        · simp only [if_true, List.mem_singleton] at ha
          subst ha
          exact he (by rw [h0]; exact List.prefix_refl _)
    · rw [if_neg h]
  generalize (if b || e then ensure temporalHierarchy (fun p => p.withChildren (p.children ++ added b e start stop)) root else root) = r at h1 ⊢
  have h2 : findAll path (if b then r else (modifyFirst beginPath (withText start) r).getD r) = findAll path root := by
    by_cases h : b = true
    · rw [if_pos h, h1]
    · rw [if_neg h, getD_other hb, h1]
  generalize (if b then r else (modifyFirst beginPath (withText start) r).getD r) = r' at h2 ⊢
  by_cases h : e = true
  · rw [if_pos h, h2]
  · rw [if_neg h, getD_other he, h2]

/-- **C82**: the last call decides: what is found at the begin positions, the end positions and at all places elsewhere is what the last call alone would have left there. -/
theorem C82_last_write (s1 e1 s2 e2 : String) (root : Xml) (path : List String) (h : path = beginPath ∨ path = endPath ∨ (¬ path <+: beginPath ∧ ¬ path <+: endPath)) :
    findAll path (setTimes s2 e2 (setTimes s1 e1 root)) = findAll path (setTimes s2 e2 root) := by
  rcases h with rfl | rfl | h
  · rw [(C82_times _ _ _).1, (C82_times _ _ _).1, (C82_times _ _ _).1]
    cases findAll beginPath root with
    | nil => rfl
    | cons a l => cases a; rfl
  · rw [(C82_times _ _ _).2, (C82_times _ _ _).2, (C82_times _ _ _).2]
    cases findAll endPath root with
    | nil => rfl
    | cons a l => cases a; rfl
  · rw [C82_frame _ _ _ _ h.1 h.2, C82_frame _ _ _ _ h.1 h.2, C82_frame _ _ _ _ h.1 h.2]

/-- **C82**: a document without a time period gets exactly one, with its attributes and the two times. -/
theorem C82_new_period (start stop : String) (root : Xml) (h : findAll temporalHierarchy root = []) :
    findAll temporalHierarchy (setTimes start stop root) =
      [.node (gml ++ "TimePeriod") [(gml ++ "id", "temporal-extent-1"), (xsi ++ "type", "gml:TimePeriodType")] none
        [.node (gml ++ "beginPosition") [] (some start) [], .node (gml ++ "endPosition") [] (some stop) []]] := by
  have hb : findAll beginPath root = [] := by unfold beginPath; rw [findAll_append, h]; rfl
  have he : findAll endPath root = [] := by unfold endPath; rw [findAll_append, h]; rfl
  unfold setTimes
  simp only [hb, he, List.isEmpty_nil, Bool.or_self, if_true]
  exact ensure_hierarchy (p := temporalHierarchy.dropLast) (t := gml ++ "TimePeriod") (f := fun p => p.withChildren (p.children ++ added true true start stop)) (by simp) h

/-- a document with two data identifications, the second with a begin position only -/
def twoIdentifications : Xml :=
  .node "root" [] none [.node (gmd ++ "identificationInfo") [] none [],
    .node (gmd ++ "identificationInfo") [] none [.node (bagschema ++ "BAG_DataIdentification") [] none [.node (gmd ++ "extent") [] none [.node (gmd ++ "EX_Extent") [] none
      [.node (gmd ++ "temporalElement") [] none [.node (gmd ++ "EX_TemporalExtent") [] none [.node (gmd ++ "extent") [] none
        [.node (gml ++ "TimePeriod") [] none [.node (gml ++ "beginPosition") [] (some "old") []]]]]]]]]]

/-- **C82, what is not guaranteed**: that the two times are in one time period.  When the document has a begin position that is not in the first branch and no end position, the
new end position is put into a new time period of its own. -/
theorem C82_violated : (findAll temporalHierarchy (setTimes "s" "e" twoIdentifications)).map (fun p => p.children.map (fun c => (c.tag, c.text))) =
    [[(gml ++ "endPosition", some "e")], [(gml ++ "beginPosition", some "s")]] := by decide +kernel

/-- the hypotheses of C82 are met: a document without time period, and the path of another element -/
example : ∃ root : Xml, findAll temporalHierarchy root = [] ∧ ¬ [gmd ++ "contact"] <+: beginPath ∧ ¬ [gmd ++ "contact"] <+: endPath ∧
    ((findAll [gmd ++ "contact"] (setTimes "s" "e" root)).map Xml.text = [some "me"]) ∧ (findAll beginPath (setTimes "s" "e" root)).map Xml.text = [some "s"] :=
  ⟨.node "root" [] none [.node (gmd ++ "identificationInfo") [] none [], .node (gmd ++ "contact") [] (some "me") []], rfl, by decide +kernel, by decide +kernel, by decide +kernel, by decide +kernel⟩

end Bathy
