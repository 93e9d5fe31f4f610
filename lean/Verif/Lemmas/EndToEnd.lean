import Verif.Spec.EndToEnd
import Verif.Lemmas.GridAlg
import Verif.Lemmas.GridReach
import Verif.Props.TimeStrings

/-!
# Lemmas for whole sessions
-/

namespace Bathy

/-! ## metadata of one survey -/

def GoodTime (o : Option String) : Prop := o = none ∨ ∃ t : Int, -30610224000 ≤ t ∧ t < 253402300800 ∧ ∃ s, o = some s ∧ stringToUtc s = .ok t

structure GoodMeta (n : Int) (v : Option String) (m : Meta) : Prop where
  epsg : m.epsg = none ∨ m.epsg = some n
  vref : m.vref = none ∨ m.vref = v
  minTime : GoodTime m.minTime
  maxTime : GoodTime m.maxTime

theorem goodTime_string {t : Int} (h1 : -30610224000 ≤ t) (h2 : t < 253402300800) : ∃ o, (utcToString t).map some = Except.ok o ∧ GoodTime o := by
  obtain ⟨s, hs, hs'⟩ := C52_time_round_trip t h1 h2
  exact ⟨some s, by rw [hs]; rfl, Or.inr ⟨t, h1, h2, s, rfl, hs'⟩⟩

theorem goodTime_merge {better : Int → Int → Int} (hb : ∀ a b, better a b = a ∨ better a b = b) {old : Option String} {q : Option ℚ} (ho : GoodTime old) (hq : TimeOk q) :
    ∃ o, Meta.mergeTime better old q = .ok o ∧ GoodTime o := by
  unfold Meta.mergeTime
  cases q with
  | none => exact ⟨old, rfl, ho⟩
  | some q =>
    simp only
    split
    · exact ⟨old, rfl, ho⟩
    obtain ⟨k1, k2⟩ := hq q rfl
    rcases ho with rfl | ⟨t, h1, h2, s, rfl, hs⟩
    · exact goodTime_string k1 k2
    · simp only [hs]
      rcases hb t (pyInt q) with e | e <;> rw [e]
      · exact goodTime_string h1 h2
      · exact goodTime_string k1 k2

theorem goodMeta_update {n : Int} {m : Meta} {c : String} {a : AddArgs} (h : GoodMeta n a.vref m) (hc : a.crs = none ∨ a.crs = some (.code n)) (h1 : TimeOk a.minTime)
    (h2 : TimeOk a.maxTime) : (m.update c a).err = none ∧ GoodMeta n a.vref (m.update c a).st ∧ (m.update c a).st.vref = a.vref := by
  have he : ∃ m', Meta.updateEpsg m a.crs = .ok m' ∧ GoodMeta n a.vref m' := by
    unfold Meta.updateEpsg
    rcases hc with e | e
    · rw [e]; exact ⟨m, by simp [Crs.truthy], h⟩
    · rw [e]
      split
      · rcases h.epsg with k | k
        · exact ⟨{ m with epsg := some n }, by rw [k]; rfl, Or.inr rfl, h.vref, h.minTime, h.maxTime⟩
        · refine ⟨{ m with epsg := some n }, ?_, Or.inr rfl, h.vref, h.minTime, h.maxTime⟩
          rw [k]
          simp [Crs.toInt]
      · exact ⟨m, rfl, h⟩
  obtain ⟨m', e1, g⟩ := he
  have hv : Meta.checkVref m' a.vref = none := by
    unfold Meta.checkVref
    rcases g.vref with k | k
    · rw [k]
    · rw [k]
      cases a.vref <;> simp
  obtain ⟨t0, e2, g2⟩ := goodTime_merge (better := min) (fun a b => by rcases min_choice a b with h | h <;> simp [h]) g.minTime h1
  obtain ⟨t1, e3, g3⟩ := goodTime_merge (better := max) (fun a b => by rcases max_choice a b with h | h <;> simp [h]) g.maxTime h2
  have key : m.update c a = .ok { m' with minTime := t0, maxTime := t1, container := m'.container.set c (if a.files = [] then ["Unknown"] else a.files), vref := a.vref } := by
    unfold Meta.update
    rw [e1]
    unfold Res.andThen
    simp only [Res.ok_err, Res.ok_st, hv, e2, e3]
  rw [key]
  exact ⟨rfl, ⟨g.epsg, Or.inr rfl, g2, g3⟩, rfl⟩

/-! ## subgrids that were never gridded -/

/-- what `C` says, and never gridded -/
def freshSpec {τ : Type} [TileLike τ] {size sub : ℚ} {bs : Bool} {fl : Fields} (C : ChildSpec (Grid τ) size sub bs fl) : ChildSpec (Grid τ) size sub bs fl where
  Rep x y g A := C.Rep x y g A ∧ g.gridAlgorithm = none
  first := by
    intro x y c pts hp hb
    obtain ⟨t0, u, h1, h2, h3⟩ := C.first (c := c) hp hb
    refine ⟨t0, u, h1, h2, h3, ?_⟩
    have e : t0.gridAlgorithm = none := by
      have h1 : Grid.newSub x y size sub = .ok t0 := h1
      unfold Grid.newSub at h1
      split at h1
      · cases h1; rfl
      · cases h1
    have h2 : (t0.addPoints ⟨fl, pts⟩ c {}) = .ok u := h2
    have := Grid.addPoints_alg t0 ⟨fl, pts⟩ c {}
    rw [h2] at this
    rw [← e, ← this]
    rfl
  add := by
    intro x y t A c pts h hc hp hb
    obtain ⟨u, h1, h2⟩ := C.add h.1 hc hp hb
    refine ⟨u, h1, h2, ?_⟩
    have h1 : (t.addPoints ⟨fl, pts⟩ c {}) = .ok u := h1
    have := Grid.addPoints_alg t ⟨fl, pts⟩ c {}
    rw [h1] at this
    rw [← h.2, ← this]
    rfl
  remove := by
    intro x y t A c h
    obtain ⟨u, h1, h2, h3⟩ := C.remove (c := c) h.1
    refine ⟨u, h1, h2, h3.imp id fun k => ⟨k.1, k.2, ?_⟩⟩
    have h1 : t.removePoints c = .ok u := h1
    have := Grid.removePoints_alg t c
    rw [h1] at this
    rw [← h.2, ← this]
    rfl
  nonempty := fun h => C.nonempty h.1
  count := fun h => C.count h.1

/-! ## deliveries -/

theorem storeOf_names (cs : List Delivery) : (storeOf cs).names = cs.map Delivery.name := by
  unfold storeOf Store.names
  rw [List.map_map]
  rfl

theorem storeOf_allPts (cs : List Delivery) : (storeOf cs).allPts = cs.flatMap Delivery.pts := by
  unfold storeOf Store.allPts
  rw [List.map_map, List.flatMap_def]
  rfl

theorem deliver_ok {τ : Type} [GridLike τ] [Queried τ] {env : Env} {size sub : ℚ} {bs : Bool} {fl : Fields} (C : ChildSpec τ size sub bs fl) (hs : 0 < size) {g0 : Grid τ} {F : Family}
    {n : Int} {v : Option String} (cs : List Delivery) (h : Survey n v cs) {g : Grid τ} {A : Store} {s : Bool} (hi : Grid.GrowInv C g A) (hg : GridHistory env g0 fl F s g A)
    (hm : GoodMeta n v g.info) (hd : ∀ c ∈ cs, c.name ∉ A.names) :
    ∃ u s', deliver fl g cs = .ok u ∧ Grid.GrowInv C u (A ++ storeOf cs) ∧ GridHistory env g0 fl F s' u (A ++ storeOf cs) ∧ u.gridAlgorithm = g.gridAlgorithm ∧
      (cs ≠ [] → u.info.vref = v) := by
  induction cs generalizing g A s with
  | nil => exact ⟨g, s, rfl, by simpa [storeOf] using hi, by simpa [storeOf] using hg, rfl, fun k => absurd rfl k⟩
  | cons c cs ih =>
    have hv := h.vref c (by simp)
    obtain ⟨m1, m2, m3⟩ := goodMeta_update (c := c.name) (a := c.args) (by rw [hv]; exact hm) (h.crs c (by simp)) (h.minTime c (by simp)) (h.maxTime c (by simp))
    obtain ⟨u, h1, h2, -, -, h5, -⟩ := Grid.addPoints_grow C hs hi (hd c (by simp)) (h.pts c (by simp)) m1
    have hn := h.names
    rw [List.map_cons, List.nodup_cons] at hn
    have e1 : (g.addPoints ⟨fl, c.pts⟩ c.name c.args).err = none := by rw [h1]; rfl
    have e2 : (g.addPoints ⟨fl, c.pts⟩ c.name c.args).st = u := by rw [h1]; rfl
    have hh := hg.add c.pts c.name c.args e1
    rw [e2] at hh
    obtain ⟨w, s', k1, k2, k3, k4, k5⟩ := ih ⟨fun x hx => h.crs x (by simp [hx]), fun x hx => h.vref x (by simp [hx]), fun x hx => h.minTime x (by simp [hx]), fun x hx => h.maxTime x (by simp [hx]),
        hn.2, fun x hx => h.pts x (by simp [hx])⟩ h2 hh (by rw [h5, ← hv]; exact m2) (by
      intro x hx hx'
      rw [Store.names, List.map_append, List.mem_append] at hx'
      rcases hx' with hx' | hx'
      · exact hd x (by simp [hx]) hx'
      · rw [List.map_singleton, List.mem_singleton] at hx'
        have hx' : x.name = c.name := hx'
        exact hn.1 (hx' ▸ List.mem_map_of_mem hx))
    refine ⟨w, s', ?_, ?_, ?_, ?_, fun _ => ?_⟩
    · unfold deliver
      rw [Res.forEach_cons, h1]
      exact k1
    · simpa [storeOf] using k2
    · simpa [storeOf] using k3
    · rw [k4, ← e2, Grid.addPoints_alg]
    · by_cases hc : cs = []
      · subst hc
        cases k1
        rw [h5, m3, hv]
      · exact k5 hc

end Bathy
