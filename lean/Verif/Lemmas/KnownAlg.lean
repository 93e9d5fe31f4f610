import Verif.Lemmas.TileAlg
import Verif.Lemmas.HeldAnswers

/-! A tile with layers has one of the three algorithms. -/

namespace Bathy
namespace Tile

def Known (t : Tile) : Prop := t.cells = [] ∨ t.algorithm = some .mean ∨ t.algorithm = some .shoalest ∨ t.algorithm = some .cube

theorem known_congr {t u : Tile} (h : Known t) (ha : u.algorithm = t.algorithm) (hc : t.cells = [] → u.cells = []) : Known u := by
  unfold Known at *
  rw [ha]
  exact h.imp hc id

theorem clearTemps_known (rs : List ℚ) : ∀ t : Tile, (rs.foldl clearTemp t).algorithm = t.algorithm ∧ (t.cells = [] → (rs.foldl clearTemp t).cells = []) := by
  induction rs with
  | nil => exact fun t => ⟨rfl, id⟩
  | cons r rs ih =>
    intro t
    rw [List.foldl_cons]
    obtain ⟨h1, h2⟩ := ih (t.clearTemp r)
    have h3 : (t.clearTemp r).algorithm = t.algorithm := by unfold clearTemp; split <;> rfl
    have h4 : t.cells = [] → (t.clearTemp r).cells = [] := by
      intro h0
      have : t.cells.get? r = none := by rw [h0]; rfl
      unfold clearTemp
      rw [this]
      exact h0
    exact ⟨h1.trans h3, fun h0 => h2 (h4 h0)⟩

theorem remove_known (t : Tile) (c : String) : (t.removePoints c).st.algorithm = t.algorithm ∧ (t.cells = [] → (t.removePoints c).st.cells = []) := by
  unfold removePoints
  split
  · exact ⟨rfl, id⟩
  · split
    · exact ⟨rfl, id⟩
    · simp only
      split
      · exact clearTemps_known _ _
      · exact ⟨rfl, id⟩

theorem add_known (t : Tile) (d : PtArr) (c : String) : (t.addPoints d c).st.algorithm = t.algorithm ∧ (t.cells = [] → (t.addPoints d c).st.cells = []) := by
  unfold addPoints
  split
  · exact ⟨rfl, id⟩
  · have h1 : ∀ r : Res Tile, r = (if t.container.has c then removePoints t c else .ok t) → r.st.algorithm = t.algorithm ∧ (t.cells = [] → r.st.cells = []) := by
      intro r hr
      subst hr
      split
      · exact remove_known t c
      · exact ⟨rfl, id⟩
    generalize hr : (if t.container.has c then removePoints t c else Res.ok t) = r
    have h2 := h1 r hr.symm
    obtain ⟨v, e⟩ := r
    cases e with
    | some e => exact h2
    | none =>
      simp only [Res.andThen] at h2 ⊢
      split
      · exact h2
      · split
        · refine ⟨(clearTemps_known _ _).1.trans h2.1, fun h0 => (clearTemps_known _ _).2 ?_⟩
          exact h2.2 h0
        · exact h2

theorem gridAt_known {env : Env} {t : Tile} {alg : Alg} {r : ℚ} {clear : Bool} {params : Option GridParams} {border : Option PtArr} :
    (gridAt env t alg r clear params border).st = t ∨ (gridAt env t alg r clear params border).st.algorithm = some alg := by
  unfold gridAt
  split
  · right
    simp only
    generalize (if clear then t.clearGrid else t).clearTemp r = v
    have h3 : ∀ w : Res Tile, w = (if (!v.cells.has r || decide (v.algorithm ≠ some alg)) = true then
        newGrid { v with algorithm := some alg, gridParams := params } r alg else .ok v) → w.st.algorithm = some alg := by
      intro w hw
      subst hw
      split
      · exact newGrid_alg _ _ _
      · rename_i hc
        simp only [ne_eq, Bool.or_eq_true, Bool.not_eq_true', decide_eq_true_eq, not_or, not_not] at hc
        exact hc.2
    generalize hw : (if (!v.cells.has r || decide (v.algorithm ≠ some alg)) = true then
        newGrid { v with algorithm := some alg, gridParams := params } r alg else Res.ok v) = w
    have h4 := h3 w hw.symm
    obtain ⟨w, e⟩ := w
    cases e with
    | some e => exact h4
    | none =>
      simp only [Res.andThen] at h4 ⊢
      split
      · exact h4
      · rename_i z hz
        split
        · exact (prepare_alg hz).trans h4
        · rename_i z' hz'
          show z'.algorithm = some alg
          rw [runAlg_alg hz', prepare_alg hz, h4]
  · exact Or.inl rfl

theorem grid_known {env : Env} {t : Tile} (h : Known t) {alg : Alg} {F : Family} (ha : alg.family = some F) (res : Option ℚ) (clear : Bool) (mode : AutoMode) (params : Option GridParams)
    (border : Option PtArr) : Known (t.grid env alg res clear mode params border).1.st := by
  unfold grid
  split
  · exact h
  · rename_i r _
    rcases gridAt_known (env := env) (t := t) (alg := alg) (r := r) (clear := clear) (params := params) (border := border) with e | e
    · simp only; rw [e]; exact h
    · right
      simp only
      rw [e]
      cases alg with
      | mean => exact Or.inl rfl
      | shoalest => exact Or.inr (Or.inl rfl)
      | cube => exact Or.inr (Or.inr rfl)
      | other => cases ha

end Tile

theorem history_known {env : Env} {x y size : ℚ} {bs : Bool} {fl : Fields} {F : Family} {t : Tile} {A : Store} (h : TileHistory env x y size bs fl F t A) : t.Known := by
  induction h with
  | first F pts c hbox => exact Or.inl rfl
  | @add F t A h pts c hbox ih => exact Tile.known_congr ih (Tile.add_known _ _ _).1 (Tile.add_known _ _ _).2
  | @remove F t A h c ih => exact Tile.known_congr ih (Tile.remove_known _ _).1 (Tile.remove_known _ _).2
  | @query F t A h l r n z ih =>
    refine Tile.known_congr ih (Tile.getLayer_alg env t l r n z) (fun h0 => ?_)
    have := Tile.held_isEmpty (Tile.held_getLayer env t l r n z)
    rw [h0] at this
    exact List.isEmpty_iff.1 this
  | @reread F t u A h hu ih =>
    refine Tile.known_congr ih (congrArg TileMeta.algorithm hu.info) (fun h0 => ?_)
    cases hc : u.cells with
    | nil => rfl
    | cons p ps =>
      have := hu.layers p.1
      rw [h0] at this
      have h1 : u.cells.get? p.1 = some p.2 := by
        rw [hc]
        unfold Dict.get?
        simp
      rw [h1] at this
      cases this
  | @grid F t A h alg ha res clear mode params border ih => exact Tile.grid_known ih ha res clear mode params border
  | @switch F F' t A h alg ha res mode params border hok ih => exact Tile.grid_known ih ha res true mode params border
  | @clearGrid F t A h F' ih => exact Or.inl rfl

theorem tile_askable {env : Env} {x y size : ℚ} {bs : Bool} {fl : Fields} {F : Family} {t : Tile} {A B : Store} (hw : 0 < size) (h : TileHistory env x y size bs fl F t B)
    (hB : ∀ c ∈ B.names, c ∈ A.names) (c : String) : t.Askable (.cont c) ∧ (c ++ "_density" ∉ A.names → t.Askable (.contDensity c)) := by
  refine ⟨fun _ => history_known h, fun hc => ?_⟩
  show t.container.has (c ++ "_density") = false
  rw [Dict.has_false_iff, (history_frame hw h).2.1.container, slicesFrom_keys]
  exact fun hm => hc (hB _ hm)

namespace Grid
variable {τ : Type} [TileLike τ] {size sub : ℚ} {bs : Bool} {fl : Fields}

theorem rep_of_tile {C : ChildSpec τ size sub bs fl} {x0 y0 : ℚ} {nx ny : Nat} {T : Arr2 (Option τ)} {g : Grid τ} {A : Store} (hf : Frame C x0 y0 nx ny T g A) {k : Nat} {t : τ}
    (hk : g.tile? k = some (some t)) : ∃ x y, C.Rep x y t (A.within x y size) := by
  unfold tile? at hk
  rw [hf.tiles] at hk
  rcases hf.rep.2.2.2 k _ hk with ⟨h1, -⟩ | ⟨t', h1, -, h2⟩
  · cases h1
  · cases h1
    exact ⟨_, _, h2⟩

theorem grow_tile {C : ChildSpec τ size sub bs fl} {g : Grid τ} {A : Store} (h : GrowInv C g A) {k : Nat} {t : τ} (hk : g.tile? k = some (some t)) :
    ∃ x y, C.Rep x y t (A.within x y size) := by
  rcases h.body with ⟨-, h2, -⟩ | ⟨-, i, j, nx, ny, T, hf, -⟩
  · unfold tile? at hk
    rw [h2] at hk
    cases hk
  · exact rep_of_tile hf hk

end Grid

end Bathy
