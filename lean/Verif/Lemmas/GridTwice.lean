import Verif.Lemmas.GridLeaf
import Verif.Spec.Alike

/-!
# Calling `grid` twice
-/

namespace Bathy
namespace Grid
variable {τ : Type} [GridLike τ] {size sub : ℚ} {bs : Bool} {fl : Fields}

/-- what the proof needs to know about the tiles: gridding a tile twice with the same arguments -/
structure Idem [Bathy.Alike τ] (env : Env) (C : ChildSpec τ size sub bs fl) (R : Tile → Tile → Prop) (F F' : Family) : Prop where
  refl : ∀ t : τ, Bathy.Alike.alike R t t
  dens : ∀ {x y : ℚ} {t : τ} {A : Store} {c : GridCall}, C.Rep x y t A → c.alg.family = some F' → (F' = F ∨ c.clear = true) → (GridLike.grid env t c).1.err = none →
    GridLike.resolutionByDensity env (GridLike.grid env t c).1.st = GridLike.resolutionByDensity env t
  twice : ∀ {x y : ℚ} {t : τ} {A : Store} {c : GridCall}, C.Rep x y t A → c.alg.family = some F' → (F' = F ∨ c.clear = true) → (GridLike.grid env t c).1.err = none →
    (GridLike.grid env (GridLike.grid env t c).1.st c).1.err = none ∧ (GridLike.grid env (GridLike.grid env t c).1.st c).2 = (GridLike.grid env t c).2 ∧
      Bathy.Alike.alike R (GridLike.grid env t c).1.st (GridLike.grid env (GridLike.grid env t c).1.st c).1.st
  unchanged : ∀ {x y : ℚ} {t : τ} {A : Store} {c : GridCall}, C.Rep x y t A → c.alg.family = some F' → (F' = F ∨ c.clear = true) → (GridLike.grid env t c).1.err = none →
    GridLike.pointCountChanged (GridLike.grid env t c).1.st = false
  res : ∀ {x y : ℚ} {t : τ} {A : Store} {c : GridCall}, C.Rep x y t A → c.alg.family = some F' → (F' = F ∨ c.clear = true) → (GridLike.grid env t c).1.err = none →
    (GridLike.isLeaf (τ := τ) = true → c.clear = true) → (GridLike.grid env t c).2 = GridLike.resolutions (GridLike.grid env t c).1.st

omit [GridLike τ] in
theorem alike_refl [Bathy.Alike τ] {R : Tile → Tile → Prop} (h : ∀ t : τ, Bathy.Alike.alike R t t) (g : Grid τ) : Bathy.Alike.alike R g g :=
  ⟨fun _ _ t ht => ⟨t, ht, h t⟩, fun _ _ t ht => ⟨t, ht, h t⟩⟩

/-- what the planning of a run depends on -/
def planOf (a : GridCall) (emp : Bool) (name : String) (lk ds : Except Err ℚ) : Option Err × GridRes × Plan :=
  if emp then (some .valueError, (match a.res with | some r => .value r | none => .unset), ⟨none, none⟩)
  else
    match a.res with
    | some r => (none, .value r, ⟨some r, none⟩)
    | none =>
      if name = "VRGridTile_Root" then (none, .auto a.mode, ⟨none, some a.mode⟩)
      else
        match a.mode with
        | .depth => match lk with | .error e => (some e, .auto .depth, ⟨none, none⟩) | .ok r => (none, .auto .depth, ⟨some r, some .depth⟩)
        | .density => match ds with | .error e => (some e, .auto .density, ⟨none, none⟩) | .ok r => (none, .auto .density, ⟨some r, some .density⟩)
        | .other => (none, .auto .other, ⟨none, some .other⟩)

theorem planGo_eq (env : Env) (g : Grid τ) (a : GridCall) : gridPlan.go env a g =
    (match (planOf a g.isEmpty g.name g.resolutionLookup (g.resolutionByDensity env)).1 with
      | none => .ok (g.withAttrs (some a.alg) (planOf a g.isEmpty g.name g.resolutionLookup (g.resolutionByDensity env)).2.1 a.params [])
      | some e => .fail (g.withAttrs (some a.alg) (planOf a g.isEmpty g.name g.resolutionLookup (g.resolutionByDensity env)).2.1 a.params g.resolutions) e,
     (planOf a g.isEmpty g.name g.resolutionLookup (g.resolutionByDensity env)).2.2) := by
  unfold gridPlan.go
  have e3 : ∀ gr, resolutionByDensity env { g with gridAlgorithm := some a.alg, gridResolution := gr, gridParams := a.params } = g.resolutionByDensity env := fun _ => rfl
  have e5 : ∀ gr, resolutionLookup { g with gridAlgorithm := some a.alg, gridResolution := gr, gridParams := a.params } = g.resolutionLookup := fun _ => rfl
  have e6 : ∀ gr, isEmpty { g with gridAlgorithm := some a.alg, gridResolution := gr, gridParams := a.params } = g.isEmpty := fun _ => rfl
  simp only
  rw [e6]
  unfold planOf
  cases hemp : g.isEmpty with
  | true => rfl
  | false =>
    simp only [Bool.false_eq_true, if_false]
    cases hr : a.res with
    | some r => rfl
    | none =>
      simp only
      by_cases hn : g.name = "VRGridTile_Root"
      · rw [if_pos hn, if_pos hn]; rfl
      · rw [if_neg hn, if_neg hn]
        cases hm : a.mode with
        | depth =>
          simp only
          rw [e5]
          cases g.resolutionLookup <;> rfl
        | density =>
          simp only
          rw [e3]
          cases g.resolutionByDensity env <;> rfl
        | other => rfl

theorem gridPlan_twice {env : Env} {g : Grid τ} {a : GridCall} {gr : GridRes} (h : (gridPlan env g a).1 = .ok (g.withAttrs (some a.alg) gr a.params [])) (T : Arr2 (Option τ)) (R : List ℚ)
    (hne : g.isEmpty = false) (he : (g.withTiles T R).isEmpty = false) (hd : (g.withTiles T R).resolutionByDensity env = g.resolutionByDensity env) :
    gridPlan env ((g.withAttrs (some a.alg) gr a.params []).withTiles T R) a =
      (.ok (((g.withAttrs (some a.alg) gr a.params []).withTiles T R).withAttrs (some a.alg) gr a.params []), (gridPlan env g a).2) := by
  have hgo : gridPlan env g a = gridPlan.go env a g := by
    unfold gridPlan at h ⊢
    split
    · rename_i al hal
      rw [hal] at h
      simp only at h
      split
      · rename_i hc
        rw [if_pos hc] at h
        exact absurd (congrArg Res.err h) (by simp)
      · rfl
    · rfl
  have hgo2 : gridPlan env ((g.withAttrs (some a.alg) gr a.params []).withTiles T R) a = gridPlan.go env a ((g.withAttrs (some a.alg) gr a.params []).withTiles T R) := by
    unfold gridPlan
    have : ((g.withAttrs (some a.alg) gr a.params []).withTiles T R).gridAlgorithm = some a.alg := rfl
    rw [this]
    simp only
    rw [if_neg (by rintro ⟨h, -⟩; exact h rfl)]
  rw [hgo2]
  rw [hgo] at h ⊢
  rw [planGo_eq] at h ⊢
  rw [planGo_eq]
  have e1 : ((g.withAttrs (some a.alg) gr a.params []).withTiles T R).isEmpty = g.isEmpty := by rw [hne]; exact he
  have e2 : ((g.withAttrs (some a.alg) gr a.params []).withTiles T R).resolutionByDensity env = g.resolutionByDensity env := hd
  have e4 : ((g.withAttrs (some a.alg) gr a.params []).withTiles T R).resolutionLookup = g.resolutionLookup := rfl
  have e7 : ((g.withAttrs (some a.alg) gr a.params []).withTiles T R).name = g.name := rfl
  rw [e1, e2, e4, e7]
  generalize planOf a g.isEmpty g.name g.resolutionLookup (g.resolutionByDensity env) = P at *
  obtain ⟨_ | e, gr', p⟩ := P
  · have : gr' = gr := congrArg (fun x => x.st.gridResolution) h
    subst this
    rfl
  · exact absurd (congrArg Res.err h) (by simp)

/-- one slot of a run that succeeds -/
theorem outAt_ok [LawfulGrid τ] [Bathy.Alike τ] {env : Env} {C : ChildSpec τ size sub bs fl} {R : Tile → Tile → Prop} {F F' : Family} (I : Idem env C R F F') {g : Grid τ} {a : GridCall}
    (ha : a.alg.family = some F') (hF : F' = F ∨ a.clear = true) {p : Plan} {l : Option ℚ} {T : Arr2 (Option τ)} {k : Nat} {t : τ} {x y : ℚ} {B : Store} (hB : C.Rep x y t B)
    (he : (outAt env g a p l T k (some t)).1.err = none) :
    (a.regrid = .update ∧ a.clear = false ∧ GridLike.pointCountChanged t = false ∧ outAt env g a p l T k (some t) = (.ok (some t), GridLike.resolutions t)) ∨
    (∃ b cc, g.borderFor k t a.alg l a.border = .ok b ∧ (a.clear = true → cc = true) ∧ (a.regrid = .update → GridLike.isLeaf (τ := τ) = true → cc = true) ∧
      (a.regrid = .full → cc = a.clear) ∧ (GridLike.grid env t (g.childCall a p cc b)).1.err = none ∧ GridLike.pointCountChanged (GridLike.grid env t (g.childCall a p cc b)).1.st = false ∧
      outAt env g a p l T k (some t) = (.ok (some (GridLike.grid env t (g.childCall a p cc b)).1.st), (GridLike.grid env t (g.childCall a p cc b)).2)) := by
  unfold outAt outcome at he ⊢
  simp only at he ⊢
  by_cases hs : skips a (clearAt a (T.flat.take k)) t = true
  · left
    rw [if_pos hs]
    unfold skips at hs
    simp only [Bool.and_eq_true, Bool.not_eq_true', beq_iff_eq] at hs
    refine ⟨hs.1.1, ?_, hs.2, rfl⟩
    have := hs.1.2
    unfold clearAt at this
    rw [Bool.or_eq_false_iff] at this
    exact this.1
  · right
    rw [if_neg hs] at he ⊢
    rcases hb : g.borderFor k t a.alg l a.border with e | b
    · rw [hb] at he; cases he
    · rw [hb] at he
      simp only at he ⊢
      have hc1 : a.clear = true → clearNext a (clearAt a (T.flat.take k)) t = true := fun h => clearNext_clear (clearAt_clear h _) t
      refine ⟨b, clearNext a (clearAt a (T.flat.take k)) t, rfl, hc1, ?_, ?_, he, ?_, ?_⟩
      · intro hu hl
        unfold clearNext; rw [hu, hl]; rfl
      · intro hf
        rw [clearNext_full hf, clearAt_full hf]
      · exact I.unchanged hB ha (hF.imp id hc1) he
      · have he' : (GridLike.grid env t (g.childCall a p (clearNext a (clearAt a (T.flat.take k)) t) b)).1.err = none := he
        rw [he']; rfl

/-- calling `grid` a second time -/
theorem gridWith_twice [LawfulGrid τ] [Bathy.Alike τ] {env : Env} {C : ChildSpec τ size sub bs fl} {R : Tile → Tile → Prop} {F F' : Family} (I : Idem env C R F F') {g : Grid τ}
    (hrep : ∀ r c t, g.TileAt r c t → ∃ x y B, C.Rep x y t B) (hwf : ∀ T, g.tiles = some T → T.WF) {a : GridCall}
    (ha : a.alg.family = some F') (hF : F' = F ∨ a.clear = true) {dask : Option Nat} (hok : (gridWith env g a dask).err = none) :
    (gridWith env (gridWith env g a dask).st a dask).err = none ∧
    (gridWith env (gridWith env g a dask).st a dask).st.resolutions = (gridWith env g a dask).st.resolutions ∧
    Bathy.Alike.alike R (gridWith env g a dask).st (gridWith env (gridWith env g a dask).st a dask).st ∧
    (gridWith env g a dask).st.pointCountChanged = false ∧
    (gridWith env g a dask).st.resolutionByDensity env = g.resolutionByDensity env := by
  rcases gridWith_spec env g a dask with ⟨al, gr, gp, e, h, -⟩ | ⟨gr, T, hpl, hne, hT, halg, ⟨hall, h⟩ | ⟨-, e, b, R, -, h⟩⟩
  · rw [h] at hok; cases hok
  swap
  · rw [h] at hok; cases hok
  rw [h]
  simp only [Res.ok_st]
  have hw : T.flat.length = T.rows * T.cols := hwf T hT
  have hrepk : ∀ (k : Nat) t, T.flat[k]? = some (some t) → ∃ x y B, C.Rep x y t B := by
    intro k t hk
    have hk' : k < T.rows * T.cols := by rw [← hw]; exact (List.getElem?_eq_some_iff.1 hk).1
    exact hrep (k / T.cols) (k % T.cols) t ⟨T, hT, by
      unfold Arr2.get?; rw [if_pos ⟨Arr2.div_lt_rows hk', Arr2.mod_lt_cols hk'⟩, Nat.div_add_mod']; exact hk⟩
  generalize hp : (gridPlan env g a).2 = p at *
  generalize hlim : limitOf a p dask = l at *
  generalize hgA : g.withAttrs (some a.alg) gr a.params [] = gA at *
  have hTA : gA.tiles = some T := by rw [← hgA]; exact hT
  generalize hR1 : npUnique (prefixRes (outAt env gA a p l T) T T.flat.length) = R1 at *
  generalize hT1 : prefixTiles (outAt env gA a p l T) T T.flat.length = T1 at *
  have hT1len : T1.flat.length = T.flat.length := by rw [← hT1]; simp [prefixTiles]
  have hget : ∀ (k : Nat) o, T.flat[k]? = some o → T1.flat[k]? = some (outAt env gA a p l T k o).1.st := by
    intro k o ho
    rw [← hT1, prefixTiles_get, ho, Option.map_some, if_pos (List.getElem?_eq_some_iff.1 ho).1]
  have hgetc : ∀ (k : Nat) o1, T1.flat[k]? = some o1 → ∃ o, T.flat[k]? = some o ∧ o1 = (outAt env gA a p l T k o).1.st := by
    intro k o1 ho1
    have hk : k < T.flat.length := by rw [← hT1len]; exact (List.getElem?_eq_some_iff.1 ho1).1
    have ho := List.getElem?_eq_getElem hk
    have := hget k _ ho
    rw [ho1] at this
    exact ⟨_, ho, Option.some.inj this⟩
  have hnone : ∀ k, outAt env gA a p l T k none = (.ok none, []) := fun _ => rfl
  have hpcc : ∀ (k : Nat) t1, T1.flat[k]? = some (some t1) → GridLike.pointCountChanged t1 = false := by
    intro k t1 h1
    obtain ⟨o, ho, e⟩ := hgetc k _ h1
    cases o with
    | none => rw [hnone] at e; cases e
    | some t =>
      obtain ⟨x, y, B, hB⟩ := hrepk k t ho
      rcases outAt_ok I ha hF hB (hall k _ ho) with ⟨-, -, h2, h3⟩ | ⟨b, cc, -, -, -, -, -, h2, h3⟩
      · rw [h3] at e; cases e; exact h2
      · rw [h3] at e; cases e; exact h2
  have hisome : ∀ (k : Nat) o, T.flat[k]? = some o → ((outAt env gA a p l T k o).1.st).isSome = o.isSome := by
    intro k o ho
    cases o with
    | none => rfl
    | some t =>
      obtain ⟨x, y, B, hB⟩ := hrepk k t ho
      rcases outAt_ok I ha hF hB (hall k _ ho) with ⟨-, -, h2, h3⟩ | ⟨b, cc, -, -, -, -, -, h2, h3⟩
      · rw [h3]; rfl
      · rw [h3]; rfl
  have hempty : (gA.withTiles T1 R1).isEmpty = false := by
    unfold isEmpty at hne ⊢
    rw [hT] at hne
    simp only [withTiles, Bool.not_eq_false', List.any_eq_true] at hne ⊢
    obtain ⟨o, ho, hs⟩ := hne
    obtain ⟨k, hk⟩ := List.getElem?_of_mem ho
    exact ⟨_, List.mem_of_getElem? (hget k o hk), by rw [hisome k o hk]; exact hs⟩
  have hdens : (gA.withTiles T1 R1).resolutionByDensity env = gA.resolutionByDensity env := by
    have hpres : (gA.withTiles T1 R1).present.map (GridLike.resolutionByDensity env) = gA.present.map (GridLike.resolutionByDensity env) := by
      have hform : ∀ l : List (Option τ), (l.filterMap id).map (GridLike.resolutionByDensity env) = (l.map (Option.map (GridLike.resolutionByDensity env))).filterMap id := by
        intro l
        induction l with
        | nil => rfl
        | cons o l ih =>
          cases o with
          | none => simpa using ih
          | some t => simpa using ih
      unfold present
      rw [hTA]
      simp only [withTiles]
      rw [hform, hform]
      congr 1
      apply List.ext_getElem?
      intro k
      rw [List.getElem?_map, List.getElem?_map]
      rcases Option.eq_none_or_eq_some (T.flat[k]?) with ho | ⟨o, ho⟩
      · have : T1.flat[k]? = none := by rw [List.getElem?_eq_none_iff, hT1len, ← List.getElem?_eq_none_iff]; exact ho
        rw [ho, this]
      · rw [ho, hget k o ho]
        simp only [Option.map_some, Option.some.injEq]
        cases o with
        | none => rfl
        | some t =>
          obtain ⟨x, y, B, hB⟩ := hrepk k t ho
          rcases outAt_ok I ha hF hB (hall k _ ho) with ⟨-, -, h2, h3⟩ | ⟨b, cc, -, hc1, -, -, he, h2, h3⟩
          · rw [h3]; rfl
          · rw [h3]
            show some _ = some _
            rw [I.dens (c := gA.childCall a p cc b) hB ha (hF.imp id hc1) he]
    have hmap : ∀ l l' : List τ, l.map (GridLike.resolutionByDensity env) = l'.map (GridLike.resolutionByDensity env) →
        l.mapM (GridLike.resolutionByDensity env) = l'.mapM (GridLike.resolutionByDensity env) := fun _ _ h => mapM_eq_of_map_eq h
    unfold resolutionByDensity
    rw [hTA]
    simp only [withTiles]
    have := hmap _ _ hpres
    simp only [withTiles] at this
    rw [this]
  have hplan2 : gridPlan env (gA.withTiles T1 R1) a = (.ok ((gA.withTiles T1 R1).withAttrs (some a.alg) gr a.params []), p) := by
    have := gridPlan_twice (env := env) (g := g) (a := a) (gr := gr) (by rw [hpl, hgA]) T1 R1 hne (by rw [← hgA] at hempty; exact hempty) (by rw [← hgA] at hdens; exact hdens)
    rw [hgA, hp] at this
    exact this
  generalize hgB : (gA.withTiles T1 R1).withAttrs (some a.alg) gr a.params [] = gB at *
  have hTB : gB.tiles = some T1 := by rw [← hgB]; rfl
  have hside : ∀ k buf, gB.neighborPoints k buf = gA.neighborPoints k buf := by
    intro k buf
    have := neighborPoints_prefix env a p l hTA T.flat.length R1 k buf
    rw [hT1] at this
    rw [← this, ← hgB]
    rfl
  have hbord : ∀ k (t t1 : τ), GridLike.width t1 = GridLike.width t → gB.borderFor k t1 a.alg l a.border = gA.borderFor k t a.alg l a.border := by
    intro k t t1 hwd
    rw [borderFor_congr hside]
    unfold borderFor
    rw [hwd]
  have hchild : ∀ cc b, gB.childCall a p cc b = gA.childCall a p cc b := by
    intro cc b
    rw [← hgB, ← hgA]; rfl
  -- every slot of the second run
  have hslot : ∀ (k : Nat) o, T.flat[k]? = some o →
      (outAt env gB a p l T1 k (outAt env gA a p l T k o).1.st).1.err = none ∧
      (outAt env gB a p l T1 k (outAt env gA a p l T k o).1.st).2 = (outAt env gA a p l T k o).2 ∧
      ∀ t1, (outAt env gA a p l T k o).1.st = some t1 → ∃ t2, (outAt env gB a p l T1 k (outAt env gA a p l T k o).1.st).1.st = some t2 ∧ Bathy.Alike.alike R t1 t2 := by
    intro k o ho
    cases o with
    | none => rw [hnone]; exact ⟨rfl, rfl, fun t1 h => by cases h⟩
    | some t =>
      obtain ⟨x, y, B, hB⟩ := hrepk k t ho
      by_cases hup : a.regrid = .update ∧ a.clear = false
      · -- everything is skipped
        have hskip : ∀ t1, T1.flat[k]? = some (some t1) → outAt env gB a p l T1 k (some t1) = (.ok (some t1), GridLike.resolutions t1) := by
          intro t1 h1
          unfold outAt outcome
          simp only
          have hcl : clearAt a (T1.flat.take k) = false := by
            unfold clearAt
            rw [hup.2, Bool.false_or, Bool.and_eq_false_iff]
            right
            rw [List.any_eq_false]
            intro o' ho'
            cases o' with
            | none => simp
            | some t' =>
              obtain ⟨m, hm⟩ := List.getElem?_of_mem (List.mem_of_mem_take ho')
              simp [hpcc m t' hm]
          rw [hcl, if_pos (by unfold skips; simp [hup.1, hpcc k t1 h1])]
        have h1 := hget k _ ho
        rcases outAt_ok I ha hF hB (hall k _ ho) with ⟨-, -, h2, h3⟩ | ⟨b, cc, hb, hc1, hc2, hc3, he, h2, h3⟩
        · rw [h3] at h1 ⊢
          simp only [Res.ok_st] at h1 ⊢
          rw [hskip t h1]
          exact ⟨rfl, rfl, fun t1 h => by cases h; exact ⟨t, rfl, I.refl t⟩⟩
        · rw [h3] at h1 ⊢
          simp only [Res.ok_st] at h1 ⊢
          rw [hskip _ h1]
          refine ⟨rfl, ?_, fun t1 h => by cases h; exact ⟨_, rfl, I.refl _⟩⟩
          exact (I.res (c := gA.childCall a p cc b) hB ha (hF.imp id hc1) he (fun hl => hc2 hup.1 hl)).symm
      · rcases outAt_ok I ha hF hB (hall k _ ho) with ⟨h1, h2, -⟩ | ⟨b, cc, hb, hc1, hc2, hc3, he, h2, h3⟩
        · exact absurd ⟨h1, h2⟩ hup
        · have hcc : cc = a.clear := by
            cases hcl : a.clear with
            | true => exact hc1 hcl
            | false =>
              cases hrg : a.regrid with
              | full => rw [hc3 hrg, hcl]
              | update => exact absurd ⟨hrg, hcl⟩ hup
          subst hcc
          rw [h3]
          simp only [Res.ok_st]
          have hns : ∀ (X : List (Option τ)) (t1 : τ), skips a (clearAt a X) t1 = false := by
            intro X t1
            unfold skips
            cases hcl : a.clear with
            | true => rw [clearAt_clear hcl]; simp
            | false =>
              cases hrg : a.regrid with
              | full => rfl
              | update => exact absurd ⟨hrg, hcl⟩ hup
          have hcn : ∀ (X : List (Option τ)) (t1 : τ), clearNext a (clearAt a X) t1 = a.clear := by
            intro X t1
            cases hcl : a.clear with
            | true => exact clearNext_clear (clearAt_clear hcl _) t1
            | false =>
              cases hrg : a.regrid with
              | full => rw [clearNext_full hrg, clearAt_full hrg, hcl]
              | update => exact absurd ⟨hrg, hcl⟩ hup
          have htw := I.twice (c := gA.childCall a p a.clear b) hB ha hF he
          have hwd := LawfulGrid.width env t (gA.childCall a p a.clear b)
          generalize hc : gA.childCall a p a.clear b = c at *
          have hsec : outAt env gB a p l T1 k (some (GridLike.grid env t c).1.st) =
              (⟨some (GridLike.grid env (GridLike.grid env t c).1.st c).1.st, (GridLike.grid env (GridLike.grid env t c).1.st c).1.err⟩, (GridLike.grid env (GridLike.grid env t c).1.st c).2) := by
            unfold outAt outcome
            simp only
            rw [hns, if_neg (by simp), hbord k t _ hwd, hb]
            simp only
            rw [hcn, hchild, hc]
          rw [hsec]
          exact ⟨htw.1, htw.2.1, fun t1 h => by cases h; exact ⟨_, rfl, htw.2.2⟩⟩
  have hp2 : (gridPlan env (gA.withTiles T1 R1) a).2 = p := by rw [hplan2]
  have hpcc' : (gA.withTiles T1 R1).pointCountChanged = false := by
    unfold pointCountChanged
    simp only [withTiles]
    rw [List.any_eq_false]
    intro o ho
    cases o with
    | none => simp
    | some t =>
      obtain ⟨k, hk⟩ := List.getElem?_of_mem ho
      simp [hpcc k t hk]
  have hdens' : (gA.withTiles T1 R1).resolutionByDensity env = g.resolutionByDensity env := by
    rw [hdens, ← hgA]; rfl
  rcases gridWith_spec env (gA.withTiles T1 R1) a dask with ⟨al, gr2, gp, e, -, h2⟩ | ⟨gr2, T2, hpl2, -, hT2, -, h2⟩
  · rw [hplan2] at h2; cases h2
  have hT2 : T2 = T1 := by
    have : (gA.withTiles T1 R1).tiles = some T1 := rfl
    rw [this] at hT2; cases hT2; rfl
  subst hT2
  have hgr2 : (gA.withTiles T2 R1).withAttrs (some a.alg) gr2 a.params [] = gB := by
    rw [hplan2] at hpl2
    exact (congrArg Res.st hpl2).symm
  rw [hgr2, hp2, hlim] at h2
  rcases h2 with ⟨hall2, h2⟩ | ⟨⟨k, o, ho, hne2⟩, -⟩
  · rw [h2]
    refine ⟨rfl, ?_, ?_, hpcc', hdens'⟩
    · show npUnique (prefixRes (outAt env gB a p l T2) T2 T2.flat.length) = R1
      rw [← hR1]
      congr 1
      unfold prefixRes
      rw [hT1len]
      have : ∀ (js : List Nat) (Q : List ℚ), (∀ j ∈ js, j < T.flat.length) →
          js.foldl (fun Q j => addNew Q (outAt env gB a p l T2 j (T2.flat[j]?).join).2) Q = js.foldl (fun Q j => addNew Q (outAt env gA a p l T j (T.flat[j]?).join).2) Q := by
        intro js
        induction js with
        | nil => intro Q _; rfl
        | cons j js ih =>
          intro Q hl
          simp only [List.foldl_cons]
          have hj := List.getElem?_eq_getElem (hl j List.mem_cons_self)
          rw [hget j _ hj, hj, Option.join_some, Option.join_some, (hslot j _ hj).2.1]
          exact ih _ (fun i hi => hl i (List.mem_cons_of_mem _ hi))
      exact this _ _ (fun j hj => List.mem_range.1 hj)
    · have hrow : T2.rows = T.rows := by rw [← hT1]; rfl
      have hcol : T2.cols = T.cols := by rw [← hT1]; rfl
      have hcase : ∀ i j t1, T2.get? i j = some (some t1) → ∃ t2, (prefixTiles (outAt env gB a p l T2) T2 T2.flat.length).get? i j = some (some t2) ∧ Bathy.Alike.alike R t1 t2 := by
        intro i j t1 h1
        have hij : i < T2.rows ∧ j < T2.cols := by unfold Arr2.get? at h1; split at h1 <;> [assumption; cases h1]
        have hk : T2.flat[i * T2.cols + j]? = some (some t1) := by unfold Arr2.get? at h1; rw [if_pos hij] at h1; exact h1
        obtain ⟨o, ho, e⟩ := hgetc _ _ hk
        obtain ⟨t2, h3, h4⟩ := (hslot _ _ ho).2.2 t1 e.symm
        refine ⟨t2, ?_, h4⟩
        unfold Arr2.get?
        rw [if_pos (show i < (prefixTiles (outAt env gB a p l T2) T2 T2.flat.length).rows ∧ j < (prefixTiles (outAt env gB a p l T2) T2 T2.flat.length).cols from hij)]
        rw [show (prefixTiles (outAt env gB a p l T2) T2 T2.flat.length).cols = T2.cols from rfl, prefixTiles_get, hk, Option.map_some,
          if_pos (List.getElem?_eq_some_iff.1 hk).1]
        rw [e, h3]
      refine ⟨?_, ?_⟩
      · rintro i j t1 ⟨T', hT', h1⟩
        have hT' : some T2 = some T' := hT'
        cases hT'
        obtain ⟨t2, h2, h3⟩ := hcase i j t1 h1
        exact ⟨t2, ⟨_, rfl, h2⟩, h3⟩
      · rintro i j t2 ⟨T', hT', h1⟩
        have hT' : some (prefixTiles (outAt env gB a p l T2) T2 T2.flat.length) = some T' := hT'
        cases hT'
        have hij : i < T2.rows ∧ j < T2.cols := by unfold Arr2.get? at h1; split at h1 <;> [assumption; cases h1]
        have hk : (prefixTiles (outAt env gB a p l T2) T2 T2.flat.length).flat[i * T2.cols + j]? = some (some t2) := by
          unfold Arr2.get? at h1; split at h1 <;> [exact h1; cases h1]
        rw [prefixTiles_get] at hk
        obtain ⟨o1, ho1, e1⟩ := Option.map_eq_some_iff.1 hk
        rw [if_pos (List.getElem?_eq_some_iff.1 ho1).1] at e1
        cases o1 with
        | none => cases e1
        | some t1 =>
          have hg1 : T2.get? i j = some (some t1) := by unfold Arr2.get?; rw [if_pos hij]; exact ho1
          obtain ⟨t2', h2, h3⟩ := hcase i j t1 hg1
          rw [h1] at h2; cases h2
          exact ⟨t1, ⟨_, rfl, hg1⟩, h3⟩
  · exfalso
    apply hne2
    obtain ⟨o', ho', e⟩ := hgetc k o ho
    rw [e]
    exact (hslot k o' ho').1

/-- subgrids -/
theorem idem_sub [LawfulGrid τ] [Bathy.Alike τ] [Holds τ] {env : Env} {C : ChildSpec τ sub 0 false fl} {R : Tile → Tile → Prop} {F F' : Family} (I : Idem env C R F F') (hs : 0 < size)
    (hpow : isPowerOfTwo sub = true) : Idem (size := size) (bs := bs) env (subSpec C hs hpow) R F F' where
  refl := alike_refl I.refl
  dens := by
    intro x y u A c hrep ha hF he
    have hrep : SubInv C size x y u A := hrep
    exact (gridWith_twice (dask := none) I (sub_reps hrep).1 (sub_reps hrep).2 ha hF he).2.2.2.2
  twice := by
    intro x y u A c hrep ha hF he
    have hrep : SubInv C size x y u A := hrep
    have he : (gridWith env u c none).err = none := he
    obtain ⟨h1, h2, h3, -⟩ := gridWith_twice (dask := none) I (sub_reps hrep).1 (sub_reps hrep).2 ha hF he
    refine ⟨h1, ?_, h3⟩
    show (if (gridWith env (gridWith env u c none).st c none).err = none then (gridWith env (gridWith env u c none).st c none).st.resolutions else []) =
      (if (gridWith env u c none).err = none then (gridWith env u c none).st.resolutions else [])
    rw [if_pos h1, if_pos he, h2]
  unchanged := by
    intro x y u A c hrep ha hF he
    have hrep : SubInv C size x y u A := hrep
    exact (gridWith_twice (dask := none) I (sub_reps hrep).1 (sub_reps hrep).2 ha hF he).2.2.2.1
  res := by
    intro x y u A c hrep ha hF he _
    have he : (gridWith env u c none).err = none := he
    show (if (gridWith env u c none).err = none then (gridWith env u c none).st.resolutions else []) = (gridWith env u c none).st.resolutions
    rw [if_pos he]

end Grid
end Bathy
