import Verif.Lemmas.Log
import Verif.Props.GridPoints
import Verif.Props.TimeStrings
import Verif.Spec.DemoGrid
import Verif.Spec.Cells

/-!
# Metadata of a grid

C47: one coordinate system.  C48: one vertical reference.  C49: the time span.  C50: a rejected `add_points`.  C51: the mean depth.

Model: `Meta.update` (bathygrid/bgrid.py:345-401), `Grid.addPoints` (bathygrid/bgrid.py:665-706).

The theorems C47 and C49 are about every grid that starts without metadata (`newSR`, `newVR`) after any calls with any arguments, whether they return or raise; C48 holds whatever the grid starts with.
-/

namespace Bathy
open Grid
variable {env : Env} {τ : Type} [GridLike τ] [LawfulGrid τ] [Queried τ] {g0 g : Grid τ} {log : List AddCall}

/-! ## C47 -/

/-- **C47**: if a call of `add_points` with a coordinate system (a code other than 0) returned, that code is the one the grid reports, then and ever after. -/
theorem C47_one_coordinate_system (h0 : g0.info = {}) (h : Logged env g0 log g) {x : AddCall} (hx : x ∈ log) (hok : x.ok = true) {n : Int} (hn : n ≠ 0)
    (hc : x.a.crs = some (.code n)) : g.info.epsg = some n := by
  have key : (∀ x ∈ log, x.ok = true → ∀ n, n ≠ 0 → x.a.crs = some (.code n) → g.info.epsg = some n) ∧ g.info.epsg ≠ some 0 := by
    refine logged_inv (P := fun log m => (∀ x ∈ log, x.ok = true → ∀ n, n ≠ 0 → x.a.crs = some (.code n) → m.epsg = some n) ∧ m.epsg ≠ some 0) ?_ ?_ ?_ ?_ h
    · rw [h0]; exact ⟨by simp, by simp⟩
    · intro log m k h; exact h
    · intro log m x hf h
      refine ⟨fun y hy hyok => ?_, h.2⟩
      rcases List.mem_append.1 hy with hy | hy
      · exact h.1 y hy hyok
      · rw [List.mem_singleton.1 hy, hf] at hyok; cases hyok
    · intro log m x hxok h
      have hep : (m.update x.c x.a).st.epsg = m.epsg ∧ ((m.update x.c x.a).err ≠ none ∨ ∀ n, n ≠ 0 → x.a.crs = some (.code n) → m.epsg = some n) ∨
          ∃ n, n ≠ 0 ∧ x.a.crs = some (.code n) ∧ (m.update x.c x.a).st.epsg = some n ∧ (m.epsg = none ∨ m.epsg = some 0 ∨ m.epsg = some n) := by
        rcases Meta.update_cases m x.c x.a with ⟨-, h2, h3⟩ | ⟨m1, h1, h2⟩
        · left; rw [h2]; exact ⟨rfl, Or.inl h3⟩
        · have hst : (m.update x.c x.a).st.epsg = m1.epsg := by
            rcases h2 with ⟨-, h2, -⟩ | ⟨-, ⟨_, -, h2, -⟩ | ⟨_, -, ⟨_, -, h2, -⟩ | ⟨_, -, h2⟩⟩⟩ <;> simp only [h2, Res.ok_st]
          rw [hst]
          rcases Meta.updateEpsg_ok h1 with ⟨hc, rfl⟩ | ⟨n, hn, hc, rfl, he⟩
          · left
            refine ⟨rfl, Or.inr fun n hn hcn => ?_⟩
            rw [hcn] at hc
            rcases hc with hc | hc | hc
            · cases hc
            · cases hc; exact absurd rfl hn
            · cases hc
          · right; exact ⟨n, hn, hc, rfl, he⟩
      rcases hep with ⟨h1, h2⟩ | ⟨n, hn, hc, h1, h2⟩
      · rw [h1]
        refine ⟨fun y hy hyok n hn hyc => ?_, h.2⟩
        rcases List.mem_append.1 hy with hy | hy
        · exact h.1 y hy hyok n hn hyc
        · have := List.mem_singleton.1 hy
          subst this
          rcases h2 with h2 | h2
          · exact absurd (hxok hyok) h2
          · exact h2 n hn hyc
      · rw [h1]
        refine ⟨fun y hy hyok n' hn' hyc => ?_, by simpa using hn⟩
        rcases List.mem_append.1 hy with hy | hy
        · have hm := h.1 y hy hyok n' hn' hyc
          rw [hm] at h2
          rcases h2 with h2 | h2 | h2
          · cases h2
          · exact absurd (by simpa using h2) hn'
          · rw [h2]
        · have := List.mem_singleton.1 hy
          subst this
          rw [hc] at hyc; cases hyc; rfl
  exact key.1 x hx hok n hn hc

/-- … so all containers added with a coordinate system have the same one -/
theorem C47_all_the_same (h0 : g0.info = {}) (h : Logged env g0 log g) {x y : AddCall} (hx : x ∈ log) (hy : y ∈ log) (hxo : x.ok = true) (hyo : y.ok = true) {n k : Int} (hn : n ≠ 0) (hk : k ≠ 0)
    (hxc : x.a.crs = some (.code n)) (hyc : y.a.crs = some (.code k)) : n = k := by
  have h1 := C47_one_coordinate_system h0 h hx hxo hn hxc
  rw [C47_one_coordinate_system h0 h hy hyo hk hyc] at h1
  exact (Option.some.inj h1).symm

/-! ## C48 -/

/-- the two references may be mixed -/
def SameVref (v w : String) : Prop := w = v ∨ (IsMllw v ∧ IsMllw w)

/-- **C48, partial**: if a call of `add_points` with a vertical reference (not empty) returned, the grid reports that reference ever after, or both are MLLW
based.  Missing: containers added without a reference before the first one that has one, see `C48_violated`. -/
theorem C48_one_vertical_reference_partial (h : Logged env g0 log g) {x : AddCall} (hx : x ∈ log) (hok : x.ok = true) {v : String} (hv : v ≠ "")
    (hc : x.a.vref = some v) : ∃ w, g.info.vref = some w ∧ w ≠ "" ∧ SameVref v w := by
  have hmne : ∀ {s}, IsMllw s → s ≠ "" := by
    rintro s ⟨l, r, h⟩ rfl
    have := congrArg List.length h
    simp at this
  refine logged_inv (P := fun log m => ∀ x ∈ log, x.ok = true → ∀ v, v ≠ "" → x.a.vref = some v → ∃ w, m.vref = some w ∧ w ≠ "" ∧ SameVref v w) ?_ ?_ ?_ ?_ h x hx hok v hv hc
  · simp
  · intro log m k h; exact h
  · intro log m x hf h y hy hyok
    rcases List.mem_append.1 hy with hy | hy
    · exact h y hy hyok
    · rw [List.mem_singleton.1 hy, hf] at hyok; cases hyok
  · intro log m x hxok h
    have hm1 : ∀ {m1}, Meta.updateEpsg m x.a.crs = .ok m1 → m1.vref = m.vref := by
      intro m1 h1
      rcases Meta.updateEpsg_ok h1 with ⟨-, rfl⟩ | ⟨_, -, -, rfl, -⟩ <;> rfl
    have hold : (m.update x.c x.a).st.vref = m.vref ∧ (m.update x.c x.a).err ≠ none ∨ (m.update x.c x.a).st.vref = x.a.vref ∧ ∃ m1, m1.vref = m.vref ∧ Meta.checkVref m1 x.a.vref = none := by
      rcases Meta.update_cases m x.c x.a with ⟨-, h2, h3⟩ | ⟨m1, h1, h2⟩
      · left; rw [h2]; exact ⟨rfl, h3⟩
      · rcases h2 with ⟨-, h2, h3⟩ | ⟨hcv, ⟨_, -, h2, h3⟩ | ⟨_, -, ⟨_, -, h2, h3⟩ | ⟨_, -, h2⟩⟩⟩
        · left; rw [h2]; exact ⟨hm1 h1, h3⟩
        · left; rw [h2]; exact ⟨hm1 h1, h3⟩
        · left; rw [h2]; exact ⟨show m1.vref = m.vref from hm1 h1, h3⟩
        · right; rw [h2]; exact ⟨rfl, m1, hm1 h1, hcv⟩
    rcases hold with ⟨h1, h2⟩ | ⟨h1, m1, h2, h3⟩
    · rw [h1]
      intro y hy hyok
      rcases List.mem_append.1 hy with hy | hy
      · exact h y hy hyok
      · have := List.mem_singleton.1 hy
        subst this
        exact absurd (hxok hyok) h2
    · rw [h1]
      intro y hy hyok v hv hyv
      rcases List.mem_append.1 hy with hy | hy
      · obtain ⟨w, k1, k2, k3⟩ := h y hy hyok v hv hyv
        unfold Meta.checkVref at h3
        rw [h2, k1] at h3
        simp only at h3
        by_cases hw : x.a.vref = some w
        · exact ⟨w, hw, k2, k3⟩
        · rw [if_pos ⟨k2, hw⟩] at h3
          split at h3
          · rename_i hcw
            have hcw := (contains_iff w).1 hcw
            cases hxv : x.a.vref with
            | none => rw [hxv] at h3; cases h3
            | some u =>
              rw [hxv] at h3
              simp only at h3
              split at h3
              · rename_i hcu
                have hcu := (contains_iff u).1 hcu
                refine ⟨u, rfl, hmne hcu, Or.inr ⟨?_, hcu⟩⟩
                rcases k3 with k3 | k3
                · rw [← k3]; exact hcw
                · exact k3.1
              · cases h3
          · cases h3
      · have := List.mem_singleton.1 hy
        subst this
        exact ⟨v, hyv, hv, Or.inl rfl⟩

private def noRef : Grid Tile := (((newSR 16 false).addPoints ⟨{}, [⟨1, 1, 5, 1, 1⟩]⟩ "a" {}).st.addPoints ⟨{}, [⟨2, 2, 6, 1, 1⟩]⟩ "b" { vref := some "NAVD88" }).st

/-- **C48** does not hold: a container without vertical reference and then one with 'NAVD88' are both accepted, and the grid reports 'NAVD88' for both. -/
theorem C48_violated : ∃ log, Logged demoEnv (newSR 16 false) log noRef ∧ (∀ x ∈ log, x.ok = true) ∧ noRef.info.container.keys = ["a", "b"] ∧ noRef.info.vref = some "NAVD88" ∧
    ∃ x ∈ log, x.c = "a" ∧ x.a.vref = none := by
  refine ⟨_, (Logged.new.add _ "a" {}).add _ "b" { vref := some "NAVD88" }, by decide +kernel, by decide +kernel, by decide +kernel, ?_⟩
  exact ⟨_, List.mem_append_left _ (List.mem_append_right _ List.mem_cons_self), rfl, rfl⟩

/-! ## C49 -/

theorem utcToString_unique {t t' : Int} {s : String} (h : utcToString t = .ok s) (h' : stringToUtc s = .ok t') : t' = t := by
  by_cases h1 : -62135596800 ≤ t ∧ t < 253402300800
  · by_cases h2 : t < -30610224000
    · obtain ⟨s', k1, k2⟩ := C52_early_years_refused t h1.1 h2
      rw [h] at k1; cases k1
      rw [h'] at k2; cases k2
    · obtain ⟨s', k1, k2⟩ := C52_time_round_trip t (by omega) h1.2
      rw [h] at k1; cases k1
      rw [h'] at k2; cases k2; rfl
  · unfold utcToString at h
    simp only at h
    rw [if_neg (by omega)] at h
    cases h

theorem mergeTime_ok {better : Int → Int → Int} {old new : Option String} {q : Option ℚ} (h : Meta.mergeTime better old q = .ok new) :
    ((q = none ∨ q = some 0) ∧ new = old) ∨
    ∃ v s t, q = some v ∧ v ≠ 0 ∧ new = some s ∧ utcToString t = .ok s ∧ ((old = none ∧ t = pyInt v) ∨ ∃ s0 t0, old = some s0 ∧ stringToUtc s0 = .ok t0 ∧ t = better t0 (pyInt v)) := by
  unfold Meta.mergeTime at h
  cases q with
  | none => cases h; exact Or.inl ⟨Or.inl rfl, rfl⟩
  | some v =>
    simp only at h
    split at h
    · rename_i hv
      cases h; subst hv; exact Or.inl ⟨Or.inr rfl, rfl⟩
    · rename_i hv
      right
      cases old with
      | none =>
        simp only at h
        cases hu : utcToString (pyInt v) with
        | error e => rw [hu] at h; cases h
        | ok s => rw [hu] at h; cases h; exact ⟨v, s, _, rfl, hv, rfl, hu, Or.inl ⟨rfl, rfl⟩⟩
      | some s0 =>
        simp only at h
        cases hs : stringToUtc s0 with
        | error e => rw [hs] at h; cases h
        | ok t0 =>
          rw [hs] at h
          simp only at h
          cases hu : utcToString (better t0 (pyInt v)) with
          | error e => rw [hu] at h; cases h
          | ok s => rw [hu] at h; cases h; exact ⟨v, s, _, rfl, hv, rfl, hu, Or.inr ⟨s0, t0, rfl, hs, rfl⟩⟩

/-- `s` is the text of a time that was supplied, and `R`-best among those of the calls that returned; `none` if there is no such time -/
def BestTime (R : Int → Int → Prop) (time : AddArgs → Option ℚ) (log : List AddCall) : Option String → Prop
  | some s => ∃ t, utcToString t = .ok s ∧ (∃ x ∈ log, ∃ q, time x.a = some q ∧ pyInt q = t) ∧ ∀ x ∈ log, x.ok = true → ∀ q, time x.a = some q → q ≠ 0 → R t (pyInt q)
  | none => ∀ x ∈ log, x.ok = true → ∀ q, time x.a = some q → q = 0

theorem bestTime_fail {R : Int → Int → Prop} {time : AddArgs → Option ℚ} {log : List AddCall} {o : Option String} {x : AddCall} (hx : x.ok = true → ∀ q, time x.a = some q → q = 0) (h : BestTime R time log o) : BestTime R time (log ++ [x]) o := by
  cases o with
  | none =>
    intro y hy hyok q hq
    rcases List.mem_append.1 hy with hy | hy
    · exact h y hy hyok q hq
    · have := List.mem_singleton.1 hy
      subst this
      exact hx hyok q hq
  | some s =>
    obtain ⟨t, h1, ⟨y, hy, h2⟩, h3⟩ := h
    refine ⟨t, h1, ⟨y, List.mem_append_left _ hy, h2⟩, ?_⟩
    intro y hy hyok q hq hne
    rcases List.mem_append.1 hy with hy | hy
    · exact h3 y hy hyok q hq hne
    · have := List.mem_singleton.1 hy
      subst this
      exact absurd (hx hyok q hq) hne

theorem bestTime_merge {R : Int → Int → Prop} {better : Int → Int → Int} (hb : ∀ a b, better a b = a ∨ better a b = b) (hl : ∀ a b, R (better a b) a) (hr : ∀ a b, R (better a b) b) (refl : ∀ a, R a a)
    (trans : ∀ {a b c}, R a b → R b c → R a c) {time : AddArgs → Option ℚ} {log : List AddCall} {o o' : Option String} {x : AddCall} (hm : Meta.mergeTime better o (time x.a) = .ok o')
    (h : BestTime R time log o) : BestTime R time (log ++ [x]) o' := by
  rcases mergeTime_ok hm with ⟨hq, rfl⟩ | ⟨v, s, t, hq, hv, rfl, hs, ho⟩
  · refine bestTime_fail (fun _ q hqq => ?_) h
    rw [hqq] at hq
    rcases hq with hq | hq
    · cases hq
    · exact Option.some.inj hq
  · rcases ho with ⟨rfl, rfl⟩ | ⟨s0, t0, rfl, h0, rfl⟩
    · refine ⟨_, hs, ⟨x, List.mem_append_right _ List.mem_cons_self, v, hq, rfl⟩, ?_⟩
      intro y hy hyok q hyq hne
      rcases List.mem_append.1 hy with hy | hy
      · exact absurd (h y hy hyok q hyq) hne
      · have := List.mem_singleton.1 hy
        subst this
        rw [hq] at hyq; cases hyq; exact refl _
    · obtain ⟨t, h1, ⟨y, hy, q, h2, h2'⟩, h3⟩ := h
      have := utcToString_unique h1 h0
      subst this
      refine ⟨_, hs, ?_, ?_⟩
      · rcases hb t0 (pyInt v) with e | e
        · exact ⟨y, List.mem_append_left _ hy, q, h2, h2'.trans e.symm⟩
        · exact ⟨x, List.mem_append_right _ List.mem_cons_self, v, hq, e.symm⟩
      · intro y hy hyok q' hyq hne
        rcases List.mem_append.1 hy with hy | hy
        · exact trans (hl _ _) (h3 y hy hyok q' hyq hne)
        · have := List.mem_singleton.1 hy
          subst this
          rw [hq] at hyq; cases hyq; exact hr _ _

/-- **C49, partial**: `min_time` (`max_time`) of the grid is the text of one of the times supplied to `add_points`, in whole seconds, and not after (not before)
any of those of calls that returned; it is empty only if none was supplied by a call that returned.  Missing: the time 0, which is ignored (`C49_violated`), and the times of calls that raised. -/
theorem C49_time_span_partial (h0 : g0.info = {}) (h : Logged env g0 log g) :
    BestTime (· ≤ ·) AddArgs.minTime log g.info.minTime ∧ BestTime (· ≥ ·) AddArgs.maxTime log g.info.maxTime := by
  refine logged_inv (P := fun log m => BestTime (· ≤ ·) AddArgs.minTime log m.minTime ∧ BestTime (· ≥ ·) AddArgs.maxTime log m.maxTime) ?_ ?_ ?_ ?_ h
  · rw [h0]; exact ⟨by intro x hx; simp at hx, by intro x hx; simp at hx⟩
  · intro log m k h; exact h
  · intro log m x hf h
    exact ⟨bestTime_fail (fun h => by rw [hf] at h; cases h) h.1, bestTime_fail (fun h => by rw [hf] at h; cases h) h.2⟩
  · intro log m x hxok h
    have hkeep : (m.update x.c x.a).err ≠ none → x.ok = true → ∀ (time : AddArgs → Option ℚ) q, time x.a = some q → q = 0 := fun h1 h2 => absurd (hxok h2) h1
    have hmin : ∀ {m1}, Meta.updateEpsg m x.a.crs = .ok m1 → m1.minTime = m.minTime ∧ m1.maxTime = m.maxTime := by
      intro m1 h1
      rcases Meta.updateEpsg_ok h1 with ⟨-, rfl⟩ | ⟨_, -, -, rfl, -⟩ <;> exact ⟨rfl, rfl⟩
    have gmin : ∀ {m1 t0}, Meta.updateEpsg m x.a.crs = .ok m1 → Meta.mergeTime min m1.minTime x.a.minTime = .ok t0 → BestTime (· ≤ ·) AddArgs.minTime (log ++ [x]) t0 := by
      intro m1 t0 h1 h2
      rw [(hmin h1).1] at h2
      exact bestTime_merge (R := (· ≤ ·)) (better := min) (fun a b => min_choice a b) min_le_left min_le_right le_refl (fun h1 h2 => le_trans h1 h2) h2 h.1
    have gmax : ∀ {m1 t0}, Meta.updateEpsg m x.a.crs = .ok m1 → Meta.mergeTime max m1.maxTime x.a.maxTime = .ok t0 → BestTime (· ≥ ·) AddArgs.maxTime (log ++ [x]) t0 := by
      intro m1 t0 h1 h2
      rw [(hmin h1).2] at h2
      exact bestTime_merge (R := (· ≥ ·)) (better := max) (fun a b => max_choice a b) le_max_left le_max_right le_refl (fun h1 h2 => le_trans h2 h1) h2 h.2
    have stay : ∀ {m1}, Meta.updateEpsg m x.a.crs = .ok m1 → (m.update x.c x.a).err ≠ none → BestTime (· ≤ ·) AddArgs.minTime (log ++ [x]) m1.minTime ∧ BestTime (· ≥ ·) AddArgs.maxTime (log ++ [x]) m1.maxTime := by
      intro m1 h1 h2
      rw [(hmin h1).1, (hmin h1).2]
      exact ⟨bestTime_fail (fun h => hkeep h2 h _) h.1, bestTime_fail (fun h => hkeep h2 h _) h.2⟩
    rcases Meta.update_cases m x.c x.a with ⟨-, h2, h3⟩ | ⟨m1, h1, h2⟩
    · rw [h2]; exact ⟨bestTime_fail (fun h => hkeep h3 h _) h.1, bestTime_fail (fun h => hkeep h3 h _) h.2⟩
    · rcases h2 with ⟨-, h2, h3⟩ | ⟨hcv, ⟨_, -, h2, h3⟩ | ⟨t0, k0, ⟨_, -, h2, h3⟩ | ⟨t1, k1, h2⟩⟩⟩
      · rw [h2]; exact stay h1 h3
      · rw [h2]; exact stay h1 h3
      · rw [h2]; exact ⟨gmin h1 k0, (stay h1 h3).2⟩
      · rw [h2]; exact ⟨gmin h1 k0, gmax h1 k1⟩

private def timed : Grid Tile := (((newSR 16 false).addPoints ⟨{}, [⟨1, 1, 5, 1, 1⟩]⟩ "a" { minTime := some 100, maxTime := some 200 }).st.addPoints ⟨{}, [⟨2, 2, 6, 1, 1⟩]⟩ "b" { minTime := some 0, maxTime := some 50 }).st

/-- **C49** does not hold: the time 0 is taken for a missing time. -/
theorem C49_violated : ∃ log, Logged demoEnv (newSR 16 false) log timed ∧ (∀ x ∈ log, x.ok = true) ∧ (∃ x ∈ log, x.a.minTime = some 0) ∧ timed.info.minTime = some "1970-01-01T00:01:40" ∧ utcToString 100 = .ok "1970-01-01T00:01:40" := by
  refine ⟨_, (Logged.new.add _ "a" { minTime := some 100, maxTime := some 200 }).add _ "b" { minTime := some 0, maxTime := some 50 }, by decide +kernel, ?_, by decide +kernel, by decide +kernel⟩
  exact ⟨_, List.mem_append_right _ List.mem_cons_self, rfl⟩

/-! ## C50 -/

omit [LawfulGrid τ] [Queried τ] in
/-- **C50**: `add_points` with another coordinate system than that of the grid raises ValueError and changes nothing; for every state. -/
theorem C50_other_crs_refused (g : Grid τ) (d : PtArr) (c : String) (a : AddArgs) {e n : Int} (he : g.info.epsg = some e) (he0 : e ≠ 0) (hn : n ≠ 0) (hne : n ≠ e) (hc : a.crs = some (.code n)) :
    g.addPoints d c a = .fail g .valueError := by
  unfold Grid.addPoints
  split
  · rfl
  · have : g.info.update c a = .fail g.info .valueError := by
      unfold Meta.update Meta.updateEpsg
      rw [hc, he]
      have ht : Crs.truthy (some (.code n)) = true := by unfold Crs.truthy; simpa using hn
      rw [if_pos ht]
      simp only [Crs.toInt]
      rw [if_pos he0, if_pos hne.symm]
      rfl
    rw [this]
    rfl

omit [LawfulGrid τ] [Queried τ] in
/-- **C50, partial**: `add_points` with another vertical reference than that of the grid (not both MLLW based) raises and changes nothing, for every state, if it is
called without a coordinate system or with the one the grid has.  Missing: a coordinate system for a grid that has none, see `C50_violated`. -/
theorem C50_other_vref_refused_partial (g : Grid τ) (d : PtArr) (c : String) (a : AddArgs) {v : String} (hv : g.info.vref = some v) (hv0 : v ≠ "") (hne : ∀ w, a.vref = some w → ¬ SameVref v w)
    (hc : a.crs = none ∨ ∃ n, a.crs = some (.code n) ∧ g.info.epsg = some n) : (g.addPoints d c a).err ≠ none ∧ (g.addPoints d c a).st = g := by
  unfold Grid.addPoints
  split
  · exact ⟨by simp, rfl⟩
  · have hep : Meta.updateEpsg g.info a.crs = .ok g.info := by
      unfold Meta.updateEpsg
      rcases hc with hc | ⟨n, hc, he⟩
      · rw [hc]; rfl
      · rw [hc, he]
        have : ({ g.info with epsg := some n } : Meta) = g.info := by rw [← he]
        simp only [Crs.toInt, this]
        repeat' split
        · rename_i hx; exact absurd rfl hx
        · rfl
        · rfl
        · rfl
    have hch : Meta.checkVref g.info a.vref ≠ none := by
      unfold Meta.checkVref
      rw [hv]
      simp only
      rw [if_pos ⟨hv0, fun h => hne v h (Or.inl rfl)⟩]
      split
      · rename_i hcv
        cases hw : a.vref with
        | none => simp
        | some w =>
          simp only
          rw [if_neg]
          · simp
          · intro hcw
            exact hne w hw (Or.inr ⟨(contains_iff v).1 hcv, (contains_iff w).1 hcw⟩)
      · simp
    have : ∃ e, g.info.update c a = .fail g.info e := by
      obtain ⟨e, he⟩ := Option.ne_none_iff_exists'.1 hch
      refine ⟨e, ?_⟩
      unfold Meta.update
      rw [hep, Res.andThen_ok, he]
    obtain ⟨e, he⟩ := this
    rw [he]
    exact ⟨by simp, rfl⟩

private def navd : Grid Tile := ((newSR 16 false).addPoints ⟨{}, [⟨1, 1, 5, 1, 1⟩]⟩ "a" { vref := some "NAVD88" }).st

/-- **C50** does not hold: the coordinate system is stored before the vertical reference is checked.  A grid without coordinate system refuses a container because of
its vertical reference, and reports the coordinate system of that container afterwards; a container with another one is refused from then on. -/
theorem C50_violated : ∃ log, Logged demoEnv (newSR 16 false) log navd ∧ navd.info.epsg = none ∧
    (navd.addPoints ⟨{}, [⟨2, 2, 6, 1, 1⟩]⟩ "b" { vref := some "ellipse", crs := some (.code 26917) }).err = some .valueError ∧
    (navd.addPoints ⟨{}, [⟨2, 2, 6, 1, 1⟩]⟩ "b" { vref := some "ellipse", crs := some (.code 26917) }).st.info.epsg = some 26917 ∧
    (navd.addPoints ⟨{}, [⟨2, 2, 6, 1, 1⟩]⟩ "c" { vref := some "NAVD88", crs := some (.code 26918) }).err = none ∧
    ((navd.addPoints ⟨{}, [⟨2, 2, 6, 1, 1⟩]⟩ "b" { vref := some "ellipse", crs := some (.code 26917) }).st.addPoints ⟨{}, [⟨2, 2, 6, 1, 1⟩]⟩ "c" { vref := some "NAVD88", crs := some (.code 26918) }).err =
      some .valueError := by
  refine ⟨_, Logged.new.add _ "a" { vref := some "NAVD88" }, by decide +kernel, by decide +kernel, by decide +kernel, by decide +kernel, by decide +kernel⟩

/-- another way in which a rejected call changes the grid: an array without soundings raises, and its name is taken afterwards -/
theorem C50_empty_array : (navd.addPoints ⟨{}, []⟩ "b" { vref := some "NAVD88" }).err = some .valueError ∧ (navd.addPoints ⟨{}, []⟩ "b" { vref := some "NAVD88" }).st.info.container.keys = ["a", "b"] ∧
    ((navd.addPoints ⟨{}, []⟩ "b" { vref := some "NAVD88" }).st.addPoints ⟨{}, [⟨2, 2, 6, 1, 1⟩]⟩ "b" { vref := some "NAVD88" }).err = some .valueError := by decide +kernel

/-- the hypotheses of C47 to C50 are met: two containers with the same coordinate system and MLLW based references, one refused for its coordinate system, one for its reference -/
example : ∃ log g, Logged demoEnv (newSR 16 false) log g ∧ log.map AddCall.ok = [true, true, false, false] ∧ g.info.epsg = some 26917 ∧ g.info.vref = some "MLLW (2)" ∧
    g.info.minTime = some "2020-09-13T12:25:40" := by
  refine ⟨_, _, (((Logged.new.add ⟨{}, [⟨1, 1, 5, 1, 1⟩]⟩ "a" { vref := some "MLLW", crs := some (.code 26917), minTime := some (3199999881/2) }).add ⟨{}, [⟨1, 2, 5, 1, 1⟩]⟩ "b"
    { vref := some "MLLW (2)", crs := some (.code 26917), minTime := some 1600000000 }).add ⟨{}, [⟨1, 2, 5, 1, 1⟩]⟩ "c" { vref := some "MLLW", crs := some (.code 26918) }).add ⟨{}, [⟨1, 2, 5, 1, 1⟩]⟩ "d"
    { vref := some "ellipse", crs := some (.code 26917) }, by decide +kernel, by decide +kernel, by decide +kernel, by decide +kernel⟩

/-! ## C51 -/

theorem addPoints_meanDepth {σ : Type} [TileLike σ] {g : Grid σ} {d : PtArr} {c : String} {a : AddArgs} (h : (g.addPoints d c a).err = none) : (g.addPoints d c a).st.meanDepth = Grid.meanDepthOf d.pts := by
  unfold Grid.addPoints at h ⊢
  split
  · rename_i hc; rw [if_pos hc] at h; cases h
  · rename_i hc
    rw [if_neg hc] at h
    simp only at h ⊢
    split
    · rename_i e he; rw [he] at h; cases h
    · rename_i he
      rw [he] at h
      simp only at h
      generalize Grid.updateBase { g with info := (g.info.update c a).st } d.pts = R1 at h ⊢
      unfold Res.andThen at h ⊢
      split
      · rename_i h1
        rw [h1] at h
        simp only at h ⊢
        split
        · rename_i h2
          rw [h2] at h
          simp only at h ⊢
          split
          · rfl
          · rename_i h3; rw [h3] at h; cases h
        · rename_i h2; rw [h2] at h; cases h
      · rename_i h1; rw [h1] at h; cases h

theorem meanDepthOf_eq (pts : List Pt) : Grid.meanDepthOf pts = round3 (meanOf (pts.map Pt.z)) := by
  unfold Grid.meanDepthOf
  split
  · unfold meanOf; rw [List.length_map]
  · rename_i hz
    have : (pts.map Pt.z).sum = 0 := by
      apply List.sum_eq_zero
      intro z hz'
      obtain ⟨p, hp, rfl⟩ := List.mem_map.1 hz'
      by_contra hne
      apply hz
      rw [List.any_eq_true]
      exact ⟨p, hp, by simpa using hne⟩
    unfold meanOf
    rw [this]
    simp [round3]

theorem meanOf_perm {l l' : List ℚ} (h : l.Perm l') : meanOf l = meanOf l' := by
  unfold meanOf; rw [h.sum_eq, h.length_eq]

/-- **C51, partial** (single resolution): after the first container is added to an empty grid (new, or emptied by removals), `mean_depth` is the mean depth of all
soundings in the grid, rounded to three digits.  Missing: further containers, and removals, see `C51_violated`. -/
theorem C51_mean_depth_sr_partial {size : ℚ} {bs : Bool} {fl : Fields} {F : Family} {s : Bool} (hs : 0 < size) {g : Grid Tile} (h : SRHistory env size bs fl F s g []) {pts : List Pt} {c : String} {a : AddArgs}
    (hok : (g.addPoints ⟨fl, pts⟩ c a).err = none) : (g.addPoints ⟨fl, pts⟩ c a).st.meanDepth = round3 (meanOf ((Holds.all (g.addPoints ⟨fl, pts⟩ c a).st).map Pt.z)) := by
  have hp := (C01_conservation_sr hs (h.add pts c a hok)).2.1
  have : Store.allPts ([] ++ [(c, pts)]) = pts := by simp [Store.allPts]
  rw [this] at hp
  rw [addPoints_meanDepth hok, meanDepthOf_eq, meanOf_perm (hp.map Pt.z)]

/-- **C51, partial** (variable resolution) -/
theorem C51_mean_depth_vr_partial {size sub : ℚ} {bs : Bool} {fl : Fields} {F : Family} {s : Bool} (hs : 0 < size) (hsub : isPowerOfTwo sub = true) {g : Grid (Grid Tile)} (h : VRHistory env size sub bs fl F s g [])
    {pts : List Pt} {c : String} {a : AddArgs} (hok : (g.addPoints ⟨fl, pts⟩ c a).err = none) :
    (g.addPoints ⟨fl, pts⟩ c a).st.meanDepth = round3 (meanOf ((Holds.all (g.addPoints ⟨fl, pts⟩ c a).st).map Pt.z)) := by
  have hp := (C01_conservation_vr hs hsub (h.add pts c a hok)).2.1
  have : Store.allPts ([] ++ [(c, pts)]) = pts := by simp [Store.allPts]
  rw [this] at hp
  rw [addPoints_meanDepth hok, meanDepthOf_eq, meanOf_perm (hp.map Pt.z)]

private def two : Grid Tile := (((newSR 16 false).addPoints ⟨demoFields, [⟨1, 1, 5, 1, 1⟩]⟩ "a" {}).st.addPoints ⟨demoFields, [⟨2, 2, 45, 1, 1⟩]⟩ "b" {}).st

/-- **C51** does not hold: with a second container, `mean_depth` is the mean of that container only; after its removal it still is. -/
theorem C51_violated : ∃ A, SRHistory demoEnv 16 false demoFields .plain false two A ∧ two.meanDepth = 45 ∧ round3 (meanOf ((Holds.all two).map Pt.z)) = 25 ∧
    (two.removePoints "b").err = none ∧ (two.removePoints "b").st.meanDepth = 45 ∧ round3 (meanOf ((Holds.all (two.removePoints "b").st).map Pt.z)) = 5 := by
  refine ⟨_, ((GridHistory.new .plain).add _ "a" {} (by decide +kernel)).add _ "b" {} (by decide +kernel), by decide +kernel, by decide +kernel, by decide +kernel, by decide +kernel, by decide +kernel⟩

/-- the hypotheses of C51 are met by a grid that was emptied -/
example : ∃ g, SRHistory demoEnv 16 false demoFields .plain true g [] ∧ (g.addPoints ⟨demoFields, demoB⟩ "b" {}).err = none :=
  ⟨_, ((GridHistory.new .plain).add demoA "a" {} (by decide +kernel)).remove "a" (by decide +kernel), by decide +kernel⟩

end Bathy
