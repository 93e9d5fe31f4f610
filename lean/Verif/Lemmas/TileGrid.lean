import Verif.Spec.Family
import Mathlib.Data.List.Forall2
import Verif.Lemmas.Cells

/-!
# gridding a tile: the layers are a function of the soundings
-/

namespace Bathy

/-- a gridded layer, as opposed to a cached query result -/
def Layer.isCore : Layer → Bool
  | .xSlope | .ySlope | .cont _ | .contDensity _ => false
  | _ => true

/-- the gridded layers among the arrays of one resolution -/
def core (ls : Dict Layer LayerArr) : Dict Layer LayerArr := ls.filter (fun p => p.1.isCore)

theorem core_get? (ls : Dict Layer LayerArr) {l : Layer} (h : l.isCore = true) : (core ls).get? l = ls.get? l := by
  induction ls with
  | nil => rfl
  | cons p ls ih =>
    by_cases hp : p.1 = l
    · have : core (p :: ls) = p :: core ls := by simp [core, hp, h]
      rw [this, Dict.get?_cons, Dict.get?_cons, if_pos hp, if_pos hp]
    · by_cases hc : p.1.isCore = true
      · have : core (p :: ls) = p :: core ls := by simp [core, hc]
        rw [this, Dict.get?_cons, Dict.get?_cons, if_neg hp, if_neg hp, ih]
      · have : core (p :: ls) = core ls := by simp [core, hc]
        rw [this, Dict.get?_cons, if_neg hp, ih]

theorem core_set (ls : Dict Layer LayerArr) {l : Layer} (h : l.isCore = true) (a : LayerArr) :
    core (ls.set l a) = (core ls).set l a := by
  induction ls with
  | nil => simp [core, h]
  | cons p ls ih =>
    rw [Dict.set_cons]
    by_cases hp : p.1 = l
    · rw [if_pos hp]
      have : core (p :: ls) = p :: core ls := by simp [core, hp, h]
      rw [this, Dict.set_cons, if_pos hp]
      simp [core, h]
    · rw [if_neg hp]
      by_cases hc : p.1.isCore = true
      · have e1 : core (p :: ls) = p :: core ls := by simp [core, hc]
        have e2 : core (p :: Dict.set ls l a) = p :: core (Dict.set ls l a) := by simp [core, hc]
        rw [e1, e2, ih, Dict.set_cons, if_neg hp]
      · have e1 : core (p :: ls) = core ls := by simp [core, hc]
        have e2 : core (p :: Dict.set ls l a) = core (Dict.set ls l a) := by simp [core, hc]
        rw [e1, e2, ih]

theorem core_set_temp (ls : Dict Layer LayerArr) {l : Layer} (h : l.isCore = false) (a : LayerArr) :
    core (ls.set l a) = core ls := by
  induction ls with
  | nil => simp [core, h]
  | cons p ls ih =>
    rw [Dict.set_cons]
    by_cases hp : p.1 = l
    · rw [if_pos hp]; simp [core, hp, h]
    · rw [if_neg hp]
      by_cases hc : p.1.isCore = true
      · have e1 : core (p :: ls) = p :: core ls := by simp [core, hc]
        have e2 : core (p :: Dict.set ls l a) = p :: core (Dict.set ls l a) := by simp [core, hc]
        rw [e1, e2, ih]
      · have e1 : core (p :: ls) = core ls := by simp [core, hc]
        have e2 : core (p :: Dict.set ls l a) = core (Dict.set ls l a) := by simp [core, hc]
        rw [e1, e2, ih]

theorem core_pop_temp (ls : Dict Layer LayerArr) {l : Layer} (h : l.isCore = false) : core (ls.pop l) = core ls := by
  unfold core Dict.pop
  rw [List.filter_filter]
  apply List.filter_congr
  intro p _
  by_cases hp : p.1 = l
  · rw [hp]; simp [h]
  · simp [hp]

theorem core_core (ls : Dict Layer LayerArr) : core (core ls) = core ls := by
  unfold core; rw [List.filter_filter]; simp

namespace Tile

/-- the layers made by `new_grid` (bathygrid/tile.py:333-351) -/
def initLayers (depthKey : Layer) (fl : Fields) (F : Family) (n : Nat) : Dict Layer LayerArr :=
  match F with
  | .plain => [(depthKey, Arr2.fill n n none), (.density, Arr2.fill n n (some 0))] ++
      (if fl.hasTvu then [(.vertical, Arr2.fill n n none)] else []) ++
      (if fl.hasThu then [(.horizontal, Arr2.fill n n none)] else [])
  | .cube => [(depthKey, Arr2.fill n n none), (.density, Arr2.fill n n (some 0)), (.hypCount, Arr2.fill n n (some 0)),
      (.totalUnc, Arr2.fill n n none), (.hypRatio, Arr2.fill n n none)]

/-- the gridded layers present are those of `new_grid`, with the right shape -/
def LayersOk (depthKey : Layer) (fl : Fields) (F : Family) (n : Nat) (ls : Dict Layer LayerArr) : Prop :=
  (core ls).map Prod.fst = (initLayers depthKey fl F n).map Prod.fst ∧ ∀ p ∈ core ls, HasShape p.2 n n

theorem depthKey_core (t : Tile) : t.depthKey.isCore = true := by
  unfold depthKey; split <;> rfl

theorem depthKey_cases (t : Tile) : t.depthKey = .depth ∨ t.depthKey = .intensity := by
  unfold depthKey; split <;> simp

theorem fill_shape {α : Type} (n : Nat) (v : α) : HasShape (Arr2.fill n n v) n n := ⟨Arr2.fill_wf n n v, rfl, rfl⟩

theorem initLayers_ok {dk : Layer} (hdk : dk = .depth ∨ dk = .intensity) (fl : Fields) (F : Family) (n : Nat) :
    core (initLayers dk fl F n) = initLayers dk fl F n ∧ LayersOk dk fl F n (initLayers dk fl F n) := by
  have h1 : core (initLayers dk fl F n) = initLayers dk fl F n := by
    obtain ⟨a, b⟩ := fl
    rcases hdk with rfl | rfl <;> cases F <;> cases a <;> cases b <;> rfl
  refine ⟨h1, ?_, ?_⟩
  · rw [h1]
  · rw [h1]
    intro p hp
    have : p.2 = Arr2.fill n n none ∨ p.2 = Arr2.fill n n (some 0) := by
      cases F with
      | plain =>
        simp only [initLayers, List.mem_append, List.mem_cons, List.not_mem_nil, or_false] at hp
        rcases hp with ((rfl | rfl) | hp) | hp
        · exact Or.inl rfl
        · exact Or.inr rfl
        · split at hp <;> simp at hp; rw [hp]; exact Or.inl rfl
        · split at hp <;> simp at hp; rw [hp]; exact Or.inl rfl
      | cube =>
        simp only [initLayers, List.mem_cons, List.not_mem_nil, or_false] at hp
        rcases hp with rfl | rfl | rfl | rfl | rfl <;> simp
    rcases this with h | h <;> rw [h] <;> exact fill_shape n _

/-- resetting only depends on the gridded layers -/
theorem resetLayers_core {dk : Layer} (hdk : dk.isCore = true) (ls : Dict Layer LayerArr) :
    (resetLayers dk ls).map core = resetLayers dk (core ls) := by
  unfold resetLayers
  rw [core_get? ls hdk, core_get? ls (l := .density) rfl]
  cases ls.get? dk with
  | none => rfl
  | some dg =>
    cases ls.get? Layer.density with
    | none => rfl
    | some ng =>
      simp only [Except.map]
      congr 1
      rw [← core_set ls hdk, ← core_set _ (l := .density) rfl]
      generalize (ls.set dk (Arr2.fill dg.rows dg.cols none)).set Layer.density (Arr2.fill ng.rows ng.cols (some 0)) = m
      have step : ∀ (ks : List Layer), (∀ k ∈ ks, k.isCore = true) → ∀ m : Dict Layer LayerArr,
          core (ks.foldl (fun ls l => match ls.get? l with
            | some a => ls.set l (Arr2.fill a.rows a.cols (if l = .hypCount then some 0 else none)) | none => ls) m) =
          ks.foldl (fun ls l => match ls.get? l with
            | some a => ls.set l (Arr2.fill a.rows a.cols (if l = .hypCount then some 0 else none)) | none => ls) (core m) := by
        intro ks
        induction ks with
        | nil => intro _ m; rfl
        | cons k ks ih =>
          intro hk m
          rw [List.foldl_cons, List.foldl_cons, ih (fun k' hk' => hk k' (List.mem_cons_of_mem _ hk'))]
          congr 1
          rw [core_get? m (hk k List.mem_cons_self)]
          cases m.get? k with
          | none => rfl
          | some a => exact core_set m (hk k List.mem_cons_self) _
      exact step _ (by simp [Layer.isCore]) m

theorem eq_map_of_keys {m : Dict Layer LayerArr} {K : List Layer} (hk : m.map Prod.fst = K) (hn : K.Nodup) {n : Nat}
    (hs : ∀ p ∈ m, HasShape p.2 n n) :
    ∃ g : Layer → LayerArr, (∀ l, HasShape (g l) n n) ∧ m = K.map (fun l => (l, g l)) := by
  subst hk
  refine ⟨fun l => match Dict.get? m l with | some a => a | none => Arr2.fill n n none, ?_, ?_⟩
  · intro l
    simp only
    cases h : Dict.get? m l with
    | none => exact fill_shape n _
    | some a => exact hs (l, a) (Dict.mem_of_get? m h)
  · rw [List.map_map]
    conv_lhs => rw [← List.map_id m]
    apply List.map_congr_left
    intro p hp
    simp only [id, Function.comp_apply]
    rw [Dict.get?_of_mem m hn hp]

theorem initKeys_nodup {dk : Layer} (hdk : dk = .depth ∨ dk = .intensity) (fl : Fields) (F : Family) (n : Nat) :
    ((initLayers dk fl F n).map Prod.fst).Nodup := by
  obtain ⟨a, b⟩ := fl
  rcases hdk with rfl | rfl <;> cases F <;> cases a <;> cases b <;> simp [initLayers]

theorem reset_init {dk : Layer} (hdk : dk = .depth ∨ dk = .intensity) {fl : Fields} {F : Family} {n : Nat}
    {ls : Dict Layer LayerArr} (h : LayersOk dk fl F n ls) :
    ∃ ls', resetLayers dk ls = .ok ls' ∧ core ls' = initLayers dk fl F n := by
  have hc : dk.isCore = true := by rcases hdk with rfl | rfl <;> rfl
  have hr : resetLayers dk (core ls) = .ok (initLayers dk fl F n) := by
    obtain ⟨g, hg, hm⟩ := eq_map_of_keys h.1 (initKeys_nodup hdk fl F n) h.2
    rw [hm]
    have g1 : ∀ l, (g l).rows = n := fun l => (hg l).2.1
    have g2 : ∀ l, (g l).cols = n := fun l => (hg l).2.2
    obtain ⟨a, b⟩ := fl
    rcases hdk with rfl | rfl <;> cases F <;> cases a <;> cases b <;>
      simp [initLayers, resetLayers, Dict.get?, Dict.set, g1, g2]
  have := resetLayers_core hc ls
  rw [hr] at this
  cases hres : resetLayers dk ls with
  | error e => rw [hres] at this; simp [Except.map] at this
  | ok ls' =>
    rw [hres] at this
    simp only [Except.map, Except.ok.injEq] at this
    exact ⟨ls', rfl, this⟩

end Tile
end Bathy
