import Verif.Spec.Sessions
import Verif.Lemmas.DiskLoad

/-!
# Sessions
-/

namespace Bathy

theorem setFolder_self {φ : Type} (f : String → Disk (Grid.Root φ)) (p : String) (d : Disk (Grid.Root φ)) : Session.setFolder f p d p = d := if_pos rfl

theorem setFolder_ne {φ : Type} (f : String → Disk (Grid.Root φ)) {p q : String} (h : q ≠ p) (d : Disk (Grid.Root φ)) : Session.setFolder f p d q = f q := if_neg h

theorem named_some {p : String} (hp : p ≠ "") : Session.named (some p) = some p := by
  unfold Session.named
  exact if_neg hp

/-- what a session is: a grid in memory, or a grid with its folder -/
def Session.Sound {τ φ : Type} [DiskLike τ φ] [Queried τ] [Overwrites τ φ] (env : Env) (b : Backend) (g0 : Grid τ) (fl : Fields) (F : Family) (s exact : Bool) (S : Session τ φ) (A : Store) : Prop :=
  GridHistory env g0 fl F s S.grid A ∧ ∀ p, S.out = some p → p ≠ "" ∧ DiskHistory env b g0 fl F s exact S.grid (S.disk p) A

section
variable {τ φ : Type} [DiskLike τ φ] [Queried τ] [Overwrites τ φ] {env : Env} {b : Backend} {g0 : Grid τ} {fl : Fields}

theorem sound_run {F F' : Family} {s s' exact exact' : Bool} {S : Session τ φ} {A A' : Store} (h : S.Sound env b g0 fl F s exact A) {mem : Grid τ → Res (Grid τ)}
    {withFolder : Grid τ × Disk (Grid.Root φ) → Res (Grid τ × Disk (Grid.Root φ))} (hD : ∀ {F : Family} {s exact : Bool} {g : Grid τ} {d : Disk (Grid.Root φ)} {A : Store},
      DiskHistory env b g0 fl F s exact g d A → GridHistory env g0 fl F s g A)
    (hm : GridHistory env g0 fl F s S.grid A → GridHistory env g0 fl F' s' (mem S.grid).st A')
    (hf : ∀ d, DiskHistory env b g0 fl F s exact S.grid d A → DiskHistory env b g0 fl F' s' exact' (withFolder (S.grid, d)).st.1 (withFolder (S.grid, d)).st.2 A') :
    (S.run mem withFolder).st.Sound env b g0 fl F' s' exact' A' := by
  unfold Session.run
  cases ho : S.out with
  | none =>
    refine ⟨hm h.1, ?_⟩
    intro p hp
    cases hp
  | some p =>
    have h1 := hf _ (h.2 p ho).2
    refine ⟨hD h1, ?_⟩
    intro q hq
    cases hq
    simp only [setFolder_self]
    exact ⟨(h.2 p ho).1, h1⟩

/-- every session is sound -/
theorem reached_sound (hD : ∀ {F : Family} {s exact : Bool} {g : Grid τ} {d : Disk (Grid.Root φ)} {A : Store},
      DiskHistory env b g0 fl F s exact g d A → GridHistory env g0 fl F s g A) {F : Family} {s exact : Bool} {S : Session τ φ} {A : Store}
    (h : Reached env b g0 fl F s exact S A) : S.Sound env b g0 fl F s exact A := by
  induction h with
  | new F disk => exact ⟨.new F, fun p hp => by cases hp⟩
  | create F p disk hp hd => exact ⟨.new F, fun q hq => by cases hq; exact ⟨hp, .new F _ hd⟩⟩
  | add h pts c a hok ih => exact sound_run ih hD (fun h => h.add pts c a hok) (fun d h => h.add pts c a hok)
  | remove h c hok ih => exact sound_run ih hD (fun h => h.remove c hok) (fun d h => h.remove c hok)
  | grid h a ha dask hok ih => exact sound_run ih hD (fun h => h.grid a ha dask) (fun d h => h.grid a ha dask hok)
  | switch h a ha hc dask hok ih => exact sound_run ih hD (fun h => h.switch a ha hc dask hok) (fun d h => h.switch a ha hc dask hok)
  | query h hq ih => exact ⟨ih.1.query hq, fun p hp => ⟨(ih.2 p hp).1, (ih.2 p hp).2.query hq⟩⟩
  | save h hA p hp hd ih =>
    unfold Session.save
    rw [named_some hp]
    refine ⟨ih.1, fun q hq => ?_⟩
    cases hq
    simp only [setFolder_self]
    exact ⟨hp, .save ih.1 hA _ hd⟩
  | resave h hA p hp ih =>
    obtain ⟨h1, h2⟩ := ih.2 p hp
    unfold Session.save
    rw [named_some h1]
    refine ⟨ih.1, fun q hq => ?_⟩
    cases hq
    simp only [setFolder_self]
    exact ⟨h1, .resave h2 hA⟩

omit [DiskLike τ φ] [Queried τ] [Overwrites τ φ] in
/-- a call on the grid leaves all folders alone but its output folder -/
theorem run_disk (S : Session τ φ) (mem : Grid τ → Res (Grid τ)) (withFolder : Grid τ × Disk (Grid.Root φ) → Res (Grid τ × Disk (Grid.Root φ))) :
    (S.run mem withFolder).st.out = S.out ∧ ∀ q, S.out ≠ some q → (S.run mem withFolder).st.disk q = S.disk q := by
  unfold Session.run
  cases ho : S.out with
  | none => exact ⟨rfl, fun q _ => rfl⟩
  | some p => exact ⟨rfl, fun q hq => setFolder_ne _ (fun e => hq (by rw [e])) _⟩

end
end Bathy
