import Verif.Lemmas.Split
import Mathlib.Data.List.Forall2

/-!
# C53: the list of datasets

Model: `uniqueContainerEntries` (bathygrid/grids.py:70-87), `returnUniqueContainers` (bathygrid/bgrid.py:1921-1936).
-/

namespace Bathy

/-- **C53, partial**: `unique_container_entries` lists the datasets of the containers, each once, in the order in which they are first met, for all lists of names
without a second '__'.  Missing: names with two '__', see `C53_every_list` and `C53_violated`. -/
theorem C53_unique_entries_partial (keys : List String) (h : ∀ ky ∈ keys, ¬ CutTwice ky) :
    ∃ entries, List.Forall₂ DatasetOf keys entries ∧ FirstSeen entries (uniqueContainerEntries keys) := by
  refine ⟨keys.map uniqueEntry, ?_, firstSeen_foldl uniqueEntry keys⟩
  rw [List.forall₂_map_right_iff, List.forall₂_same]
  intro ky hk
  rcases uniqueEntry_spec ky with ⟨h1, -⟩ | ⟨-, h1⟩
  · exact absurd h1 (h ky hk)
  · exact h1

/-- … and what it does for every list: a name with two '__' stands for itself. -/
theorem C53_every_list (keys : List String) :
    ∃ entries, List.Forall₂ (fun ky e => (CutTwice ky ∧ e = ky) ∨ (¬ CutTwice ky ∧ DatasetOf ky e)) keys entries ∧ FirstSeen entries (uniqueContainerEntries keys) := by
  refine ⟨keys.map uniqueEntry, ?_, firstSeen_foldl uniqueEntry keys⟩
  rw [List.forall₂_map_right_iff, List.forall₂_same]
  intro ky hk
  exact uniqueEntry_spec ky

/-- every container is represented, and nothing else is listed -/
theorem C53_represented (keys : List String) (h : ∀ ky ∈ keys, ¬ CutTwice ky) (e : String) : e ∈ uniqueContainerEntries keys ↔ ∃ ky ∈ keys, DatasetOf ky e := by
  refine ((firstSeen_foldl uniqueEntry keys).2.1 e).trans ?_
  rw [List.mem_map]
  constructor
  · rintro ⟨ky, hk, rfl⟩
    rcases uniqueEntry_spec ky with ⟨h1, -⟩ | ⟨-, h1⟩
    · exact absurd h1 (h ky hk)
    · exact ⟨ky, hk, h1⟩
  · rintro ⟨ky, hk, he⟩
    rcases uniqueEntry_spec ky with ⟨h1, -⟩ | ⟨-, h1⟩
    · exact absurd h1 (h ky hk)
    · exact ⟨ky, hk, h1.unique he⟩

/-- `return_unique_containers`: the names themselves -/
theorem C53_containers (keys : List String) : FirstSeen keys (returnUniqueContainers keys) := by
  have := firstSeen_foldl (fun s : String => s) keys
  rw [List.map_id'] at this
  exact this

/-- **C53** does not hold: two lines of one dataset, one with '__' in its name, are listed as two datasets. -/
theorem C53_violated : uniqueContainerEntries ["em2040__line__1", "em2040__line2"] = ["em2040__line__1", "em2040"] ∧
    DatasetOf "em2040__line__1" "em2040" ∧ DatasetOf "em2040__line2" "em2040" := by
  have hno : ∀ a b : List Char, "em2040".toList ++ ['_'] ≠ a ++ ['_', '_'] ++ b := by
    have : NoCut ("em2040".toList ++ ['_']) := (noCut_iff_length _).2 (by decide +kernel)
    exact this
  exact ⟨by decide +kernel, Or.inl ⟨"em2040".toList, "line__1".toList, ⟨by decide +kernel, hno⟩, by decide +kernel⟩,
    Or.inl ⟨"em2040".toList, "line2".toList, ⟨by decide +kernel, hno⟩, by decide +kernel⟩⟩

theorem not_cutTwice_of {ky : String} (h : (splitDU ky.toList []).length ≤ 2) : ¬ CutTwice ky := by
  rintro ⟨p, l, hp, hl⟩
  rw [noCut_iff_length] at hl
  rw [hp.1, splitDU_cut hp.2] at h
  have := List.length_pos_of_ne_nil (splitDU_ne l [])
  simp at h
  omega

/-- the hypotheses of C53 are met: three underscores, a name without '__', a name that ends in '__', and a repeated dataset -/
example : (∀ ky ∈ ["b___1", "a", "b__2", "c__"], ¬ CutTwice ky) ∧ uniqueContainerEntries ["b___1", "a", "b__2", "c__"] = ["b", "a", "c"] := by
  constructor
  · intro ky hk
    apply not_cutTwice_of
    revert ky
    decide +kernel
  · decide +kernel

end Bathy
