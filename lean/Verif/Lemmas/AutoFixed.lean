import Verif.Model.FloatRun
import Verif.Props.AutoResolution

/-!
# A single resolution grid that chooses its own resolution

Once the resolution is chosen, the run is that of a call with this resolution: tile by tile, in the same order, with the same errors.
-/

namespace Bathy
namespace Grid
variable {τ : Type} [GridLike τ] {env : Env}

/-- the same grid, with another note of how the resolution was chosen -/
def withRes (g : Grid τ) (x : GridRes) : Grid τ := { g with gridResolution := x }

/-- tiles that are told a resolution do not look at the mode -/
def ModeFree (τ : Type) [GridLike τ] (env : Env) : Prop :=
  GridLike.isLeaf (τ := τ) = true ∧ ∀ (t : τ) (c : GridCall) (m : AutoMode), c.res ≠ none → GridLike.grid env t { c with mode := m } = GridLike.grid env t c

theorem modeFree_tile : ModeFree Tile env := by
  refine ⟨rfl, fun t c m h => ?_⟩
  obtain ⟨r, hr⟩ := Option.ne_none_iff_exists'.1 h
  show (let r := t.grid env c.alg c.res c.clear m c.params c.border; (r.1, r.2.toList)) = (let r := t.grid env c.alg c.res c.clear c.mode c.params c.border; (r.1, r.2.toList))
  rw [hr]
  rfl

theorem modeFree_ftile (M : Arith) : ModeFree (FTile M) env := by
  refine ⟨rfl, fun t c m h => ?_⟩
  obtain ⟨r, hr⟩ := Option.ne_none_iff_exists'.1 h
  show (let r := M.grid env t c.alg c.res c.clear m c.params c.border; (r.1, r.2.toList)) = (let r := M.grid env t c.alg c.res c.clear c.mode c.params c.border; (r.1, r.2.toList))
  rw [hr]
  rfl

omit [GridLike τ] in
theorem setTile_withRes (g : Grid τ) (x : GridRes) (k : Nat) (o : Option τ) : (g.withRes x).setTile k o = (g.setTile k o).withRes x := by
  have e : (g.withRes x).tiles = g.tiles := rfl
  unfold setTile
  rw [e]
  cases g.tiles <;> rfl

/-- the call of a tile -/
theorem childCall_fixed (h : ModeFree τ env) {g : Grid τ} (hn : g.name = "SRGrid_Root") (a : GridCall) (r : ℚ) (m : AutoMode) (x : GridRes) (clear : Bool) (b : Option PtArr) (t : τ) :
    GridLike.grid env t ((g.withRes x).childCall a ⟨some r, some m⟩ clear b) = GridLike.grid env t (g.childCall { a with res := some r } ⟨some r, none⟩ clear b) := by
  have e : (g.withRes x).childCall a ⟨some r, some m⟩ clear b = { g.childCall { a with res := some r } ⟨some r, none⟩ clear b with mode := m } := by
    have hn' : (g.withRes x).name = "SRGrid_Root" := hn
    unfold childCall
    simp only [h.1, hn, hn']
    rfl
  rw [e]
  exact h.2 t _ m (by simp [childCall])

/-- one round of the loop -/
theorem gridStep_fixed (h : ModeFree τ env) {g : Grid τ} (hn : g.name = "SRGrid_Root") (a : GridCall) (r : ℚ) (m : AutoMode) (x : GridRes) (clear : Bool) (k : Nat) :
    gridStep env a ⟨some r, some m⟩ (g.withRes x, clear) k =
      ⟨((gridStep env { a with res := some r } ⟨some r, none⟩ (g, clear) k).st.1.withRes x, (gridStep env { a with res := some r } ⟨some r, none⟩ (g, clear) k).st.2),
        (gridStep env { a with res := some r } ⟨some r, none⟩ (g, clear) k).err⟩ ∧
    (gridStep env { a with res := some r } ⟨some r, none⟩ (g, clear) k).st.1.name = "SRGrid_Root" := by
  unfold gridStep
  have e1 : (g.withRes x).tile? k = g.tile? k := rfl
  simp only [e1]
  rcases htk : g.tile? k with _ | (_ | t)
  · exact ⟨rfl, hn⟩
  · exact ⟨rfl, hn⟩
  · simp only
    have e2 : skips { a with res := some r } clear t = skips a clear t := rfl
    rw [e2]
    by_cases hs : skips a clear t = true
    · rw [if_pos hs, if_pos hs]; exact ⟨rfl, hn⟩
    · rw [if_neg hs, if_neg hs]
      have e3 : clearNext { a with res := some r } clear t = clearNext a clear t := rfl
      have e4 : (g.withRes x).borderFor k t a.alg none a.border = g.borderFor k t a.alg none a.border := rfl
      simp only [e3, e4]
      cases hb : g.borderFor k t a.alg none a.border with
      | error e => exact ⟨rfl, hn⟩
      | ok b =>
        simp only [childCall_fixed h hn]
        cases he : (GridLike.grid env t (g.childCall { a with res := some r } ⟨some r, none⟩ (clearNext a clear t) b)).1.err with
        | some e => simp only [setTile_withRes]; exact ⟨rfl, (setTile_name ..).trans hn⟩
        | none => simp only [setTile_withRes]; exact ⟨rfl, (setTile_name ..).trans hn⟩

theorem gridRegular_fixed (h : ModeFree τ env) {g : Grid τ} (hn : g.name = "SRGrid_Root") (a : GridCall) (r : ℚ) (m : AutoMode) (x : GridRes) :
    (g.withRes x).gridRegular env a ⟨some r, some m⟩ =
      ⟨(g.gridRegular env { a with res := some r } ⟨some r, none⟩).st.withRes x, (g.gridRegular env { a with res := some r } ⟨some r, none⟩).err⟩ := by
  have loop : ∀ (l : List Nat) (g : Grid τ) (c : Bool), g.name = "SRGrid_Root" →
      Res.forEach l (g.withRes x, c) (gridStep env a ⟨some r, some m⟩) =
        ⟨((Res.forEach l (g, c) (gridStep env { a with res := some r } ⟨some r, none⟩)).st.1.withRes x,
          (Res.forEach l (g, c) (gridStep env { a with res := some r } ⟨some r, none⟩)).st.2), (Res.forEach l (g, c) (gridStep env { a with res := some r } ⟨some r, none⟩)).err⟩ := by
    intro l
    induction l with
    | nil => intro g c _; rfl
    | cons k l ih =>
      intro g c hn
      obtain ⟨h1, h2⟩ := gridStep_fixed h hn a r m x c k
      rw [Res.forEach_cons, Res.forEach_cons, h1]
      generalize gridStep env { a with res := some r } ⟨some r, none⟩ (g, c) k = q at h2 ⊢
      obtain ⟨⟨g', c'⟩, e⟩ := q
      cases e with
      | some e => rfl
      | none => exact ih g' c' h2
  unfold gridRegular
  have e : (g.withRes x).slots = g.slots := rfl
  simp only [e]
  rw [loop _ g a.clear hn]
  simp only
  cases (Res.forEach (List.range g.slots) (g, a.clear) (gridStep env { a with res := some r } ⟨some r, none⟩)).err <;> rfl

/-- the two kinds of jobs -/
def JobLike (env : Env) (j j' : Job τ) : Prop := j.idx = j'.idx ∧ j.tile = j'.tile ∧ GridLike.grid env j.tile j.call = GridLike.grid env j'.tile j'.call

theorem runJobs_fixed {g : Grid τ} (hn : g.name = "SRGrid_Root") (x : GridRes) {js js' : List (Job τ)} (hj : List.Forall₂ (JobLike env) js js') :
    runJobs env (g.withRes x) js = ⟨(runJobs env g js').st.withRes x, (runJobs env g js').err⟩ ∧ (runJobs env g js').st.name = "SRGrid_Root" := by
  have hm : js.map (fun j => GridLike.grid env j.tile j.call) = js'.map (fun j => GridLike.grid env j.tile j.call) := by
    induction hj with
    | nil => rfl
    | cons h _ ih => rw [List.map_cons, List.map_cons, h.2.2, ih]
  have hi : js.map Job.idx = js'.map Job.idx := by
    induction hj with
    | nil => rfl
    | cons h _ ih => rw [List.map_cons, List.map_cons, h.1, ih (by simpa using (List.cons.inj hm).2)]
  have fold : ∀ (rs : List (Res τ × List ℚ)) (js js' : List (Job τ)) (g : Grid τ), js.map Job.idx = js'.map Job.idx → g.name = "SRGrid_Root" →
      (js.zip rs).foldl (fun g jr => g.setTile jr.1.idx (some jr.2.1.st)) (g.withRes x) = ((js'.zip rs).foldl (fun g jr => g.setTile jr.1.idx (some jr.2.1.st)) g).withRes x ∧
      ((js'.zip rs).foldl (fun g jr => g.setTile jr.1.idx (some jr.2.1.st)) g).name = "SRGrid_Root" := by
    intro rs
    induction rs with
    | nil => intro js js' g _ hn; simp [hn]
    | cons q rs ih =>
      intro js js' g hij hn
      cases js with
      | nil => cases js' with
        | nil => simp [hn]
        | cons j' js' => cases hij
      | cons j js => cases js' with
        | nil => cases hij
        | cons j' js' =>
          rw [List.map_cons, List.map_cons, List.cons.injEq] at hij
          rw [List.zip_cons_cons, List.zip_cons_cons, List.foldl_cons, List.foldl_cons]
          simp only [hij.1, setTile_withRes]
          exact ih js js' _ hij.2 ((setTile_name ..).trans hn)
  unfold runJobs
  rw [hm]
  simp only
  cases (js'.map (fun j => GridLike.grid env j.tile j.call)).findSome? (fun r => r.1.err) with
  | some e => exact ⟨rfl, hn⟩
  | none =>
    obtain ⟨h1, h2⟩ := fold (js'.map (fun j => GridLike.grid env j.tile j.call)) js js' g hi hn
    simp only
    rw [h1]
    exact ⟨rfl, h2⟩

/-- the two states of the loop of the parallel run -/
structure ParLike (env : Env) (x : GridRes) (s s' : ParState τ) : Prop where
  grid : s.grid = s'.grid.withRes x
  name : s'.grid.name = "SRGrid_Root"
  clear : s.clear = s'.clear
  jobs : List.Forall₂ (JobLike env) s.jobs s'.jobs

theorem parStep_fixed (h : ModeFree τ env) (n : Nat) {a : GridCall} (ha : a.alg ≠ .cube) (r : ℚ) (m : AutoMode) {x : GridRes} {s s' : ParState τ} (hs : ParLike env x s s') (k : Nat) :
    ParLike env x (parStep env n a ⟨some r, some m⟩ s k).st (parStep env n { a with res := some r } ⟨some r, none⟩ s' k).st ∧
    (parStep env n a ⟨some r, some m⟩ s k).err = (parStep env n { a with res := some r } ⟨some r, none⟩ s' k).err := by
  obtain ⟨g, c, js⟩ := s
  obtain ⟨g', c', js'⟩ := s'
  obtain ⟨h1, h2, h3, h4⟩ := hs
  simp only at h1 h2 h3 h4
  subst h1 h3
  have hl : parLimit a ⟨some r, some m⟩ = .ok none := by unfold parLimit; split <;> first | rfl | (rename_i h1 h2 h3; cases h2)
  have hl' : parLimit { a with res := some r } ⟨some r, none⟩ = .ok none := by
    unfold parLimit
    simp only
    split
    · rename_i h _ _; exact absurd h ha
    · rename_i h _ _; exact absurd h ha
    · rfl
  unfold parStep
  have e1 : (g'.withRes x).tile? k = g'.tile? k := rfl
  simp only [e1, hl, hl']
  rcases htk : g'.tile? k with _ | (_ | t)
  · exact ⟨⟨rfl, h2, rfl, h4⟩, rfl⟩
  · exact ⟨⟨rfl, h2, rfl, h4⟩, rfl⟩
  · simp only
    have e2 : skips { a with res := some r } c t = skips a c t := rfl
    rw [e2]
    by_cases hsk : skips a c t = true
    · rw [if_pos hsk, if_pos hsk]; exact ⟨⟨rfl, h2, rfl, h4⟩, rfl⟩
    · rw [if_neg hsk, if_neg hsk]
      have e3 : clearNext { a with res := some r } c t = clearNext a c t := rfl
      have e4 : (g'.withRes x).borderFor k t a.alg none a.border = g'.borderFor k t a.alg none a.border := rfl
      simp only [e3, e4]
      cases hb : g'.borderFor k t a.alg none a.border with
      | error e => exact ⟨⟨rfl, h2, rfl, h4⟩, rfl⟩
      | ok b =>
        have hj : List.Forall₂ (JobLike env) (js ++ [⟨k, t, (g'.withRes x).childCall a ⟨some r, some m⟩ (clearNext a c t) b⟩])
            (js' ++ [⟨k, t, g'.childCall { a with res := some r } ⟨some r, none⟩ (clearNext a c t) b⟩]) :=
          List.rel_append h4 (List.Forall₂.cons ⟨rfl, rfl, childCall_fixed h h2 a r m x _ b t⟩ List.Forall₂.nil)
        have hlen := hj.length_eq
        simp only
        rw [hlen]
        split
        · obtain ⟨k1, k2⟩ := runJobs_fixed h2 x hj
          rw [k1]
          exact ⟨⟨rfl, k2, rfl, List.Forall₂.nil⟩, rfl⟩
        · exact ⟨⟨rfl, h2, rfl, hj⟩, rfl⟩

theorem gridParallel_fixed (h : ModeFree τ env) (n : Nat) {g : Grid τ} (hn : g.name = "SRGrid_Root") {a : GridCall} (ha : a.alg ≠ .cube) (r : ℚ) (m : AutoMode) (x : GridRes) :
    (g.withRes x).gridParallel env n a ⟨some r, some m⟩ =
      ⟨(g.gridParallel env n { a with res := some r } ⟨some r, none⟩).st.withRes x, (g.gridParallel env n { a with res := some r } ⟨some r, none⟩).err⟩ := by
  have loop : ∀ (l : List Nat) (s s' : ParState τ), ParLike env x s s' →
      ParLike env x (Res.forEach l s (parStep env n a ⟨some r, some m⟩)).st (Res.forEach l s' (parStep env n { a with res := some r } ⟨some r, none⟩)).st ∧
      (Res.forEach l s (parStep env n a ⟨some r, some m⟩)).err = (Res.forEach l s' (parStep env n { a with res := some r } ⟨some r, none⟩)).err := by
    intro l
    induction l with
    | nil => intro s s' hs; exact ⟨hs, rfl⟩
    | cons k l ih =>
      intro s s' hs
      obtain ⟨h1, h2⟩ := parStep_fixed h n ha r m hs k
      rw [Res.forEach_cons, Res.forEach_cons]
      generalize parStep env n a ⟨some r, some m⟩ s k = q at h1 h2 ⊢
      generalize parStep env n { a with res := some r } ⟨some r, none⟩ s' k = q' at h1 h2 ⊢
      obtain ⟨st, e⟩ := q
      obtain ⟨st', e'⟩ := q'
      simp only at h1 h2
      subst h2
      cases e with
      | some e => exact ⟨h1, rfl⟩
      | none => exact ih st st' h1
  unfold gridParallel
  have e : (g.withRes x).slots = g.slots := rfl
  simp only [e]
  obtain ⟨h1, h2⟩ := loop (List.range g.slots) ⟨{ g.withRes x with resolutions := [] }, a.clear, []⟩ ⟨{ g with resolutions := [] }, a.clear, []⟩ ⟨rfl, hn, rfl, List.Forall₂.nil⟩
  generalize Res.forEach (List.range g.slots) (⟨{ g.withRes x with resolutions := [] }, a.clear, []⟩ : ParState τ) (parStep env n a ⟨some r, some m⟩) = q at h1 h2 ⊢
  generalize Res.forEach (List.range g.slots) (⟨{ g with resolutions := [] }, a.clear, []⟩ : ParState τ) (parStep env n { a with res := some r } ⟨some r, none⟩) = q' at h1 h2 ⊢
  obtain ⟨st, e⟩ := q
  obtain ⟨st', e'⟩ := q'
  simp only at h1 h2
  subst h2
  cases e with
  | some e => simp only [h1.grid]; rfl
  | none =>
    simp only
    obtain ⟨k1, k2, k3, k4⟩ := h1
    have hlast : lastJobs env st.grid st.jobs = ⟨(lastJobs env st'.grid st'.jobs).st.withRes x, (lastJobs env st'.grid st'.jobs).err⟩ := by
      unfold lastJobs
      have hem : st.jobs.isEmpty = st'.jobs.isEmpty := by
        generalize st.jobs = js at k4 ⊢
        generalize st'.jobs = js' at k4 ⊢
        cases k4 <;> rfl
      rw [hem, k1]
      split
      · rfl
      · exact (runJobs_fixed k2 x k4).1
    rw [hlast]
    generalize lastJobs env st'.grid st'.jobs = p
    obtain ⟨p, e⟩ := p
    cases e <;> rfl

end Grid
end Bathy
