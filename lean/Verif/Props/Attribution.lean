import Verif.Model.Attribution
import Verif.Props.Metadata
import Verif.Props.Containers

/-!
# C80: the sources a grid reports

Model: `Grid.attribution` (bathygrid/bgrid.py:2384-2418).
-/

namespace Bathy
open Grid
variable {env : Env} {τ : Type} [GridLike τ] [LawfulGrid τ] [Queried τ] {g0 g : Grid τ} {log : List AddCall}

/-- container names are never listed twice -/
theorem containers_nodup (h0 : g0.info = {}) (h : Logged env g0 log g) : g.info.container.keys.Nodup := by
  induction h with
  | new => rw [h0]; exact List.nodup_nil
  | add h d c a ih =>
    rename_i g
    rcases addPoints_info g d c a with ⟨-, h2⟩ | ⟨h1, -⟩
    · rw [h2]; exact ih
    · rw [h1]
      have hep : ∀ m1, Meta.updateEpsg g.info a.crs = .ok m1 → m1.container = g.info.container := by
        intro m1 hm
        rcases Meta.updateEpsg_ok hm with ⟨-, rfl⟩ | ⟨n, -, -, rfl, -⟩ <;> rfl
      rcases Meta.update_cases g.info c a with ⟨-, h2, -⟩ | ⟨m1, hm, h2⟩
      · rw [h2]; exact ih
      · have hc := hep m1 hm
        rcases h2 with ⟨-, h2, -⟩ | ⟨-, ⟨_, -, h2, -⟩ | ⟨_, -, ⟨_, -, h2, -⟩ | ⟨_, -, h2⟩⟩⟩
        · rw [h2, hc]; exact ih
        · rw [h2, hc]; exact ih
        · rw [h2]; simp only [hc]; exact ih
        · rw [h2]; simp only [Res.ok_st, hc]
          exact Dict.keys_set_nodup _ _ _ ih
  | remove h c ih =>
    rename_i g
    rcases removePoints_info g c with h1 | h1 <;> rw [h1]
    · exact Dict.keys_pop_nodup _ _ ih
    · exact ih
  | grid h a dask ih => rw [gridWith_info]; exact ih
  | query h hq ih => rw [query_info hq]; exact ih

theorem sourceOf_some {stamps : Dict String String} {container : Dict String (List String)} (hk : stamps.keys = container.keys) (k : String) :
    (k ∈ container.keys → ∃ t f, stamps.get? k = some t ∧ container.get? k = some f ∧ sourceOf stamps container k = some (t, f)) ∧ (k ∉ container.keys → sourceOf stamps container k = none) := by
  constructor
  · intro h
    have h1 : (stamps.get? k).isSome = true := by rw [Dict.get?_isSome, Dict.has_iff, hk]; exact h
    have h2 : (container.get? k).isSome = true := by rw [Dict.get?_isSome, Dict.has_iff]; exact h
    obtain ⟨t, ht⟩ := Option.isSome_iff_exists.1 h1
    obtain ⟨f, hf⟩ := Option.isSome_iff_exists.1 h2
    exact ⟨t, f, ht, hf, by unfold sourceOf; rw [ht, hf]⟩
  · intro h
    unfold sourceOf
    rw [(Dict.get?_eq_none container k).2 h]
    cases stamps.get? k <;> rfl

theorem source_inj {a b : String} (h : "source_" ++ a = "source_" ++ b) : a = b := by
  have := congrArg String.toList h
  simp only [String.toList_append] at this
  exact String.toList_inj.1 (List.append_cancel_left this)

/-- the container whose data is shown for `c` -/
def shownFor (keys : List String) (c : String) : String := if c ++ "_0" ∈ keys then c ++ "_0" else c

theorem sourcesFrom_spec {stamps : Dict String String} {container : Dict String (List String)} (hk : stamps.keys = container.keys) (cs : List String) (hcs : ∀ c ∈ cs, c ∈ container.keys) (hn : cs.Nodup)
    (out : Dict String Source) (hout : ∀ c ∈ cs, "source_" ++ c ∉ out.keys) :
    ∃ o, sourcesFrom stamps container out cs = .ok o ∧ o.keys = out.keys ++ cs.map ("source_" ++ ·) ∧ (∀ k ∈ out.keys, o.get? k = out.get? k) ∧
      ∀ c ∈ cs, ∃ t f, stamps.get? (shownFor container.keys c) = some t ∧ container.get? (shownFor container.keys c) = some f ∧ o.get? ("source_" ++ c) = some (t, f) := by
  induction cs generalizing out with
  | nil => exact ⟨out, rfl, by simp, fun _ _ => rfl, by simp⟩
  | cons c cs ih =>
    obtain ⟨hc, hn'⟩ := List.nodup_cons.1 hn
    have hstep : ∃ t f, stamps.get? (shownFor container.keys c) = some t ∧ container.get? (shownFor container.keys c) = some f ∧
        addSource stamps container out c = .ok (out.set ("source_" ++ c) (t, f)) := by
      by_cases h : c ++ "_0" ∈ container.keys
      · obtain ⟨t, f, h1, h2, h3⟩ := (sourceOf_some hk (c ++ "_0")).1 h
        refine ⟨t, f, by rw [shownFor, if_pos h]; exact h1, by rw [shownFor, if_pos h]; exact h2, ?_⟩
        unfold addSource
        rw [h3]
      · obtain ⟨t, f, h1, h2, h3⟩ := (sourceOf_some hk c).1 (hcs c (by simp))
        refine ⟨t, f, by rw [shownFor, if_neg h]; exact h1, by rw [shownFor, if_neg h]; exact h2, ?_⟩
        unfold addSource
        rw [(sourceOf_some hk (c ++ "_0")).2 h, h3]
    obtain ⟨t, f, h1, h2, h3⟩ := hstep
    have hset := Dict.set_of_not_mem out ("source_" ++ c) (t, f) (hout c (by simp))
    have hkeys : (out.set ("source_" ++ c) (t, f)).keys = out.keys ++ ["source_" ++ c] := by rw [hset]; simp [Dict.keys]
    obtain ⟨o, ho, hok, hold, hnew⟩ := ih (fun c' h => hcs c' (by simp [h])) hn' (out.set ("source_" ++ c) (t, f)) (by
      intro c' hc' h
      rw [hkeys] at h
      rcases List.mem_append.1 h with h | h
      · exact hout c' (by simp [hc']) h
      · exact hc (source_inj (List.mem_singleton.1 h) ▸ hc'))
    refine ⟨o, by unfold sourcesFrom; rw [h3]; exact ho, by rw [hok, hkeys]; simp, ?_, ?_⟩
    · intro k hk'
      rw [hold k (by rw [hkeys]; simp [hk']), Dict.get?_set_ne]
      rintro rfl
      exact hout c (by simp) hk'
    · intro c' hc'
      rcases List.mem_cons.1 hc' with rfl | hc'
      · refine ⟨t, f, h1, h2, ?_⟩
        rw [hold _ (by rw [hkeys]; simp), Dict.get?_set_self]
      · exact hnew c' hc'

/-- **C80, partial**: after any calls `return_attribution` succeeds, with exactly one entry `source_c` for every container `c` of the grid, in the order of
the containers; the entry holds the time and the files of `c`, unless there is also a container `c_0`.  Missing: containers `c` beside `c_0`, see
`C80_violated` and `C80_shown`. -/
theorem C80_sources_partial (h0 : g0.info = {}) (h : Logged env g0 log g) (stamps : Dict String String) (hk : stamps.keys = g.info.container.keys) :
    ∃ o, g.attribution stamps = .ok o ∧ o.keys = g.info.container.keys.map ("source_" ++ ·) ∧
      ∀ c ∈ g.info.container.keys, c ++ "_0" ∉ g.info.container.keys → ∃ t f, stamps.get? c = some t ∧ g.info.container.get? c = some f ∧ o.get? ("source_" ++ c) = some (t, f) := by
  have hn := containers_nodup h0 h
  have hu : g.returnUniqueContainers = g.info.container.keys := by
    have : ∀ (l acc : List String), (acc ++ l).Nodup → l.foldl (fun u ky => if u.contains ky then u else u ++ [ky]) acc = acc ++ l := by
      intro l
      induction l with
      | nil => intro acc _; simp
      | cons k l ih =>
        intro acc hacc
        rw [List.foldl_cons]
        have hka : ¬ (acc.contains k = true) := by
          rw [List.contains_iff_mem]
          intro hk
          rw [List.nodup_append] at hacc
          exact hacc.2.2 k hk k (by simp) rfl
        rw [if_neg hka, ih (acc ++ [k]) (by simpa using hacc)]
        simp
    have := this g.info.container.keys [] (by simpa using hn)
    simpa [Grid.returnUniqueContainers, Bathy.returnUniqueContainers] using this
  obtain ⟨o, ho, hkeys, -, hall⟩ := sourcesFrom_spec hk g.info.container.keys (fun _ h => h) hn [] (by simp [Dict.keys])
  refine ⟨o, by unfold Grid.attribution; rw [hu]; exact ho, by simpa [Dict.keys] using hkeys, ?_⟩
  intro c hc hno
  have := hall c hc
  rw [shownFor, if_neg hno] at this
  exact this

/-- **C80, what happens otherwise**: a container `c` beside `c_0` is shown with the time and the files of `c_0`. -/
theorem C80_shown (h0 : g0.info = {}) (h : Logged env g0 log g) (stamps : Dict String String) (hk : stamps.keys = g.info.container.keys) {o : Dict String Source} (ho : g.attribution stamps = .ok o)
    {c : String} (hc : c ∈ g.info.container.keys) (hc0 : c ++ "_0" ∈ g.info.container.keys) :
    ∃ t f, stamps.get? (c ++ "_0") = some t ∧ g.info.container.get? (c ++ "_0") = some f ∧ o.get? ("source_" ++ c) = some (t, f) := by
  have hn := containers_nodup h0 h
  have hu : ∀ k, k ∈ g.returnUniqueContainers ↔ k ∈ g.info.container.keys := (C53_containers g.info.container.keys).2.1
  have hun : g.returnUniqueContainers.Nodup := (C53_containers g.info.container.keys).1
  obtain ⟨o', ho', -, -, hall⟩ := sourcesFrom_spec hk g.returnUniqueContainers (fun k hk => (hu k).1 hk) hun [] (by simp [Dict.keys])
  unfold Grid.attribution at ho
  rw [ho] at ho'
  cases ho'
  have := hall c ((hu c).2 hc)
  rw [shownFor, if_pos hc0] at this
  exact this

private def twoLines : Grid Tile :=
  (((newSR 16 false).addPoints ⟨{}, [⟨1, 1, 5, 1, 1⟩]⟩ "a" { files := ["first.all"] }).st.addPoints ⟨{}, [⟨2, 2, 6, 1, 1⟩]⟩ "a_0" { files := ["second.all"] }).st

/-- **C80** does not hold: with containers 'a' and 'a_0', both entries show the files of 'a_0'. -/
theorem C80_violated : ∃ log, Logged demoEnv (newSR 16 false) log twoLines ∧ (∀ x ∈ log, x.ok = true) ∧ twoLines.info.container = [("a", ["first.all"]), ("a_0", ["second.all"])] ∧
    twoLines.attribution [("a", "20220101_120000"), ("a_0", "20220102_120000")] = .ok [("source_a", "20220102_120000", ["second.all"]), ("source_a_0", "20220102_120000", ["second.all"])] := by
  refine ⟨_, (Logged.new.add _ "a" { files := ["first.all"] }).add _ "a_0" { files := ["second.all"] }, by decide +kernel, by decide +kernel, by decide +kernel⟩

/-- the hypotheses of C80 are met -/
example : ∃ log, Logged demoEnv (newSR 16 false) log demoSR ∧ (newSR 16 false).info = {} ∧ demoSR.info.container.keys = ["b", "c"] ∧
    demoSR.attribution [("b", "20220101_120000"), ("c", "20220102_120000")] = .ok [("source_b", "20220101_120000", ["Unknown"]), ("source_c", "20220102_120000", ["Unknown"])] := by
  refine ⟨_, ((((Logged.new.add _ "a" demoArgs).add _ "b" {}).grid _ _).remove "a").add _ "c" {}, rfl, by decide +kernel, by decide +kernel⟩

end Bathy
