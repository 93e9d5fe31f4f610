import Verif.Props.TileResolution
import Verif.Lemmas.GridName
import Verif.Lemmas.GridLeaf
import Verif.Spec.DemoGrid

/-!
# C67: the automatic resolution of a whole grid

Model: `Grid.gridPlan`, `Grid.childCall`, `Grid.resolutionLookup`, `Grid.resolutionByDensity` (bathygrid/bgrid.py:413-459, 1331-1339, 1493-1515).
-/

namespace Bathy
open Grid

variable {env : Env} {size sub : ℚ} {bs : Bool} {fl : Fields} {F : Family} {s : Bool} {A : Store}

namespace Grid
variable {τ : Type}

theorem query_name [Queried τ] {env : Env} {g u : Grid τ} (h : Queried.queried env g u) : u.name = g.name := by
  rcases h with ⟨k, t, v, -, -, rfl⟩ | ⟨-, -, rfl⟩
  · exact setTile_name _ _ _
  · rfl

theorem gridWith_name [GridLike τ] [LawfulGrid τ] (env : Env) (g : Grid τ) (a : GridCall) (dask : Option Nat) : (g.gridWith env a dask).st.name = g.name := by
  rcases gridWith_spec env g a dask with ⟨al, gr, gp, e, h, -⟩ | ⟨gr, T, -, -, -, -, ⟨-, h⟩ | ⟨-, e, b, R, -, h⟩⟩ <;> rw [h] <;> rfl

/-- no call changes the name -/
theorem history_name [GridLike τ] [LawfulGrid τ] [Queried τ] {env : Env} {g0 g : Grid τ} {fl : Fields} {F : Family} {s : Bool} {A : Store} (h : GridHistory env g0 fl F s g A) :
    g.name = g0.name := by
  induction h with
  | new => rfl
  | add h pts c a hok ih => rw [addPoints_name, ih]
  | reject h pts hp c a hno ih => rw [addPoints_name, ih]
  | remove h c hok ih => rw [removePoints_name, ih]
  | grid h a ha dask ih => rw [gridWith_name, ih]
  | switch h a ha hc dask hok ih => rw [gridWith_name, ih]
  | query h hq ih => rw [query_name hq, ih]

/-- a tile that was gridded by a call as `P` says -/
def Called [GridLike τ] (env : Env) (P : GridCall → Prop) (t t' : τ) (rs : List ℚ) : Prop :=
  ∃ c, P c ∧ (GridLike.grid env t c).1.err = none ∧ t' = (GridLike.grid env t c).1.st ∧ rs = (GridLike.grid env t c).2

/-- a call that visits all tiles, tile by tile -/
theorem outAt_called [GridLike τ] {env : Env} {g : Grid τ} {a : GridCall} {p : Plan} {limit : Option ℚ} {T : Arr2 (Option τ)} {k : Nat} {t : τ}
    (hv : a.regrid = .full ∨ a.clear = true) (he : (outAt env g a p limit T k (some t)).1.err = none) :
    ∃ t', (outAt env g a p limit T k (some t)).1.st = some t' ∧ Called env (fun c => ∃ b, c = g.childCall a p a.clear b) t t' (outAt env g a p limit T k (some t)).2 := by
  have hclear : clearAt a (T.flat.take k) = a.clear := by
    rcases hv with h | h
    · exact clearAt_full h _
    · rw [clearAt_clear h, h]
  have hnext : clearNext a a.clear t = a.clear := by
    rcases hv with h | h
    · exact clearNext_full h _ _
    · rw [clearNext_clear h, h]
  have hs : skips a a.clear t = false := by
    unfold skips
    rcases hv with h | h <;> rw [h]
    · rfl
    · simp
  unfold outAt outcome at he ⊢
  simp only [hclear, hs, hnext, Bool.false_eq_true, if_false] at he ⊢
  rcases hb : g.borderFor k t a.alg limit a.border with e | b
  · rw [hb] at he; simp at he
  · rw [hb] at he
    exact ⟨_, rfl, _, ⟨b, rfl⟩, he, rfl, rfl⟩

/-- the resolution is worked out before the loop, except for the root of a variable resolution grid -/
theorem plan_auto [GridLike τ] {env : Env} {g : Grid τ} {a : GridCall} (hr : a.res = none) (hn : g.name ≠ "VRGridTile_Root") (hok : (gridPlan env g a).1.err = none) :
    (a.mode = .depth → ∃ r, g.resolutionLookup = .ok r ∧ (gridPlan env g a).2 = ⟨some r, some .depth⟩) ∧
    (a.mode = .density → ∃ r, g.resolutionByDensity env = .ok r ∧ (gridPlan env g a).2 = ⟨some r, some .density⟩) := by
  have key : (gridPlan.go env a g).1.err = none →
    (a.mode = .depth → ∃ r, g.resolutionLookup = .ok r ∧ (gridPlan.go env a g).2 = ⟨some r, some .depth⟩) ∧
    (a.mode = .density → ∃ r, g.resolutionByDensity env = .ok r ∧ (gridPlan.go env a g).2 = ⟨some r, some .density⟩) := by
    intro h
    unfold gridPlan.go at h ⊢
    simp only [hr, hn, if_false] at h ⊢
    split at h
    · cases h
    · rename_i he
      rw [if_neg he]
      constructor
      · intro hm
        rw [hm] at h ⊢
        simp only at h ⊢
        have e : ∀ al gr gp, resolutionLookup { g with gridAlgorithm := al, gridResolution := gr, gridParams := gp } = g.resolutionLookup := fun _ _ _ => rfl
        rw [e] at h ⊢
        cases hl : g.resolutionLookup with
        | error e => rw [hl] at h; cases h
        | ok r =>
          refine ⟨r, rfl, ?_⟩
          rw [(e _ _ _).trans hl]
      · intro hm
        rw [hm] at h ⊢
        simp only at h ⊢
        have e : ∀ al gr gp, resolutionByDensity env { g with gridAlgorithm := al, gridResolution := gr, gridParams := gp } = g.resolutionByDensity env := fun _ _ _ => rfl
        rw [e] at h ⊢
        cases hl : g.resolutionByDensity env with
        | error e => rw [hl] at h; cases h
        | ok r =>
          refine ⟨r, rfl, ?_⟩
          rw [(e _ _ _).trans hl]
  unfold gridPlan at hok ⊢
  cases hal : g.gridAlgorithm with
  | none => rw [hal] at hok; exact key hok
  | some al =>
    rw [hal] at hok
    simp only at hok ⊢
    split at hok
    · cases hok
    · rename_i hne; rw [if_neg hne]; exact key hok

theorem plan_ok [GridLike τ] [LawfulGrid τ] {env : Env} {g : Grid τ} {a : GridCall} {dask : Option Nat} (h : (gridWith env g a dask).err = none) : (gridPlan env g a).1.err = none := by
  rcases gridWith_spec env g a dask with ⟨al, gr, gp, e, h', -⟩ | ⟨gr, T, hpl, -⟩
  · rw [h'] at h; cases h
  · rw [hpl]; rfl

theorem mem_present {g : Grid τ} {t : τ} (hT : ∀ T, g.tiles = some T → T.WF) : t ∈ g.present ↔ ∃ i j, g.TileAt i j t := by
  unfold present
  cases hg : g.tiles with
  | none => simp [TileAt, hg]
  | some T =>
    have hwf : T.flat.length = T.rows * T.cols := hT T hg
    simp only [List.mem_filterMap, id]
    constructor
    · rintro ⟨o, ho, rfl⟩
      obtain ⟨k, hk, he⟩ := List.getElem_of_mem ho
      have hk' : k < T.rows * T.cols := by rw [← hwf]; exact hk
      refine ⟨k / T.cols, k % T.cols, T, hg, ?_⟩
      unfold Arr2.get?
      rw [if_pos ⟨Arr2.div_lt_rows hk', Arr2.mod_lt_cols hk'⟩, Nat.div_add_mod', List.getElem?_eq_getElem hk, he]
    · rintro ⟨i, j, T', hT', h⟩
      rw [hg] at hT'; cases hT'
      unfold Arr2.get? at h
      split at h
      · exact ⟨_, List.mem_of_getElem? h, rfl⟩
      · cases h

theorem mapM_mem {α β : Type} {f : α → Except Err β} : ∀ {l : List α} {r : List β}, l.mapM f = .ok r → (∀ a ∈ l, ∃ b ∈ r, f a = .ok b) ∧ ∀ b ∈ r, ∃ a ∈ l, f a = .ok b := by
  intro l
  induction l with
  | nil => intro r h; cases h; simp
  | cons a l ih =>
    intro r h
    rw [List.mapM_cons] at h
    cases hf : f a with
    | error e => rw [hf] at h; cases h
    | ok b =>
      rw [hf] at h
      cases hl : l.mapM f with
      | error e => rw [hl] at h; cases h
      | ok r' =>
        rw [hl] at h; cases h
        obtain ⟨h1, h2⟩ := ih hl
        constructor
        · intro x hx
          rcases List.mem_cons.1 hx with rfl | hx
          · exact ⟨b, List.mem_cons_self, hf⟩
          · obtain ⟨y, hy, he⟩ := h1 x hx
            exact ⟨y, List.mem_cons_of_mem _ hy, he⟩
        · intro y hy
          rcases List.mem_cons.1 hy with rfl | hy
          · exact ⟨a, List.mem_cons_self, hf⟩
          · obtain ⟨x, hx, he⟩ := h2 y hy
            exact ⟨x, List.mem_cons_of_mem _ hx, he⟩

theorem byDensity_max [GridLike τ] {env : Env} {g : Grid τ} (hT : ∀ T, g.tiles = some T → T.WF) {r : ℚ} (h : g.resolutionByDensity env = .ok r) {i j : Nat} {t : τ} (ht : g.TileAt i j t) :
    (∃ i j t, g.TileAt i j t ∧ GridLike.resolutionByDensity env t = .ok r) ∧ ∀ i j t, g.TileAt i j t → ∃ r', GridLike.resolutionByDensity env t = .ok r' ∧ r' ≤ r := by
  unfold resolutionByDensity at h
  split at h
  · cases h
  · cases hm : g.present.mapM (GridLike.resolutionByDensity env) with
    | error e => rw [hm] at h; cases h
    | ok rs =>
      rw [hm] at h
      simp only [Except.ok.injEq] at h
      obtain ⟨h1, h2⟩ := mapM_mem hm
      have hne : rs ≠ [] := by
        obtain ⟨b, hb, -⟩ := h1 t ((mem_present hT).2 ⟨i, j, ht⟩)
        exact List.ne_nil_of_mem hb
      obtain ⟨v, hv, hmem, hle⟩ := listMax_spec hne
      rw [hv, Option.getD_some] at h
      subst h
      constructor
      · obtain ⟨u, hu, he⟩ := h2 v hmem
        obtain ⟨i, j, hu⟩ := (mem_present hT).1 hu
        exact ⟨i, j, u, hu, he⟩
      · intro i j u hu
        obtain ⟨b, hb, he⟩ := h1 u ((mem_present hT).2 ⟨i, j, hu⟩)
        exact ⟨b, he, hle b hb⟩

end Grid

/-- the grid call `a` turned the tile `t` into `t'`, at resolution `r` -/
def GriddedAt (env : Env) (a : GridCall) (t t' : Tile) (r : ℚ) : Prop :=
  ∃ border, t.grid env a.alg (some r) a.clear a.mode a.params border = (.ok t', some r)

/-- all tiles of a grid were gridded at `r`, the only resolution reported -/
def AllAt (env : Env) (a : GridCall) (g g' : Grid Tile) (r : ℚ) : Prop :=
  g'.resolutions = [r] ∧ ∀ i j t, g.TileAt i j t → ∃ t', g'.TileAt i j t' ∧ GriddedAt env a t t' r

theorem called_tile {P : GridCall → Prop} {t t' : Tile} {rs : List ℚ} (h : Called env P t t' rs) : ∃ c r, P c ∧ rs = [r] ∧ t.chooseResolution env c.res c.mode = .ok r ∧
    ∀ mode, t.grid env c.alg (some r) c.clear mode c.params c.border = (.ok t', some r) := by
  obtain ⟨c, hP, he, h1, h2⟩ := h
  have he : (t.grid env c.alg c.res c.clear c.mode c.params c.border).1.err = none := he
  have h1 : t' = (t.grid env c.alg c.res c.clear c.mode c.params c.border).1.st := h1
  have h2 : rs = (t.grid env c.alg c.res c.clear c.mode c.params c.border).2.toList := h2
  cases hc : t.chooseResolution env c.res c.mode with
  | error e => unfold Tile.grid at he; rw [hc] at he; cases he
  | ok r =>
    have hg : t.grid env c.alg c.res c.clear c.mode c.params c.border = (.ok t', some r) := by
      unfold Tile.grid at he h1 ⊢
      rw [hc] at he h1 ⊢
      simp only at he h1 ⊢
      rw [if_pos he]
      subst h1
      cases hx : t.gridAt env c.alg r c.clear c.params c.border with
      | mk st err => rw [hx] at he; simp only at he; subst he; rfl
    rw [hg] at h2
    exact ⟨c, r, hP, h2, hc, (grid_as_some hg).2.2.2⟩

theorem sorted_unique {l : List ℚ} {r : ℚ} (h : l.Pairwise (· < ·)) (hm : ∀ x, x ∈ l ↔ x = r) : l = [r] := by
  cases l with
  | nil => exact absurd ((hm r).2 rfl) (by simp)
  | cons a l =>
    have ha : a = r := (hm a).1 List.mem_cons_self
    subst ha
    cases l with
    | nil => rfl
    | cons b l =>
      have hb : b = a := (hm b).1 (by simp)
      rw [List.pairwise_cons] at h
      have := h.1 b (by simp)
      rw [hb] at this
      exact absurd this (lt_irrefl _)

/-- a single resolution grid with a plan -/
theorem sr_allAt (hs : 0 < size) {g : Grid Tile} (h : SRHistory env size bs fl F s g A) {a : GridCall} {dask : Option Nat} (hv : a.regrid = .full ∨ a.clear = true)
    (hok : (g.gridWith env a dask).err = none) {r : ℚ} {m : AutoMode} (hp : (gridPlan env g a).2 = ⟨some r, some m⟩) :
    AllAt env a g (g.gridWith env a dask).st r ∧ ∃ i j t, g.TileAt i j t := by
  have hname : g.name = "SRGrid_Root" := history_name h
  have hwf := (grow_reps (sr_inv hs h).1).2
  obtain ⟨h1, -, ⟨gr, T', R, hR, hR'⟩, -, -, -, used, h4, h5⟩ := gridWith_as (D := Called env (fun c => c.alg = a.alg ∧ c.res = some r ∧ c.clear = a.clear ∧ c.params = a.params)) hok (by
    intro gr limit T k t hpl he
    obtain ⟨t', k1, c, ⟨b, hc⟩, k3⟩ := outAt_called hv he
    refine ⟨t', k1, c, ?_, k3⟩
    rw [hc, hp]
    have hl : GridLike.isLeaf (τ := Tile) = true := rfl
    have hn : (g.withAttrs (some a.alg) gr a.params []).name = "SRGrid_Root" := hname
    refine ⟨rfl, ?_, rfl, rfl⟩
    unfold childCall
    simp only [hl, hn]
    rfl)
  have hcase : ∀ i j t, g.TileAt i j t → ∃ t', (g.gridWith env a dask).st.TileAt i j t' ∧ GriddedAt env a t t' r ∧ used i j = [r] := by
    intro i j t ht
    obtain ⟨t', k1, k2⟩ := h4 i j t ht
    obtain ⟨c, r', ⟨c1, c2, c3, c4⟩, k3, k4, k5⟩ := called_tile k2
    rw [c2] at k4
    unfold Tile.chooseResolution at k4
    cases k4
    refine ⟨t', k1, ⟨c.border, ?_⟩, k3⟩
    rw [← c1, ← c3, ← c4]
    exact k5 a.mode
  have hsome : ∃ T, g.tiles = some T := by
    rcases Option.eq_none_or_eq_some g.tiles with ht | ht
    · unfold isEmpty at h1; rw [ht] at h1; simp at h1
    · exact ht
  obtain ⟨T, hT⟩ := hsome
  have hex : ∃ i j t, g.TileAt i j t := by
    by_contra hno
    have : g.isEmpty = true := by
      unfold isEmpty
      rw [hT]
      simp only [Bool.not_eq_true', List.any_eq_false]
      intro o ho
      cases o with
      | none => simp
      | some t =>
        exfalso
        have : t ∈ g.present := by unfold present; rw [hT]; simp only [List.mem_filterMap, id]; exact ⟨_, ho, rfl⟩
        obtain ⟨i, j, ht⟩ := (mem_present hwf).1 this
        exact hno ⟨i, j, t, ht⟩
    rw [this] at h1; cases h1
  refine ⟨⟨?_, fun i j t ht => ?_⟩, hex⟩
  · refine sorted_unique (by rw [hR]; exact hR') ?_
    intro x
    rw [h5 ⟨T, hT, hwf T hT⟩]
    constructor
    · rintro ⟨i, j, t, ht, hx⟩
      obtain ⟨-, -, -, h6⟩ := hcase i j t ht
      rw [h6] at hx
      simpa using hx
    · rintro rfl
      obtain ⟨i, j, t, ht⟩ := hex
      obtain ⟨-, -, -, h6⟩ := hcase i j t ht
      exact ⟨i, j, t, ht, by rw [h6]; simp⟩
  · obtain ⟨t', k1, k2, -⟩ := hcase i j t ht
    exact ⟨t', k1, k2⟩

/-- **C67** (single resolution, by density): one resolution is used for all tiles and reported, the coarsest of those the tiles would choose for themselves. -/
theorem C67_density_coarsest (hs : 0 < size) {g : Grid Tile} (h : SRHistory env size bs fl F s g A) {a : GridCall} {dask : Option Nat} (hv : a.regrid = .full ∨ a.clear = true)
    (hr : a.res = none) (hm : a.mode = .density) (hok : (g.gridWith env a dask).err = none) :
    ∃ r, AllAt env a g (g.gridWith env a dask).st r ∧ (∃ i j t, g.TileAt i j t ∧ t.resolutionByDensity env none = .ok r) ∧
      ∀ i j t, g.TileAt i j t → ∃ r', t.resolutionByDensity env none = .ok r' ∧ r' ≤ r := by
  have hname : g.name = "SRGrid_Root" := history_name h
  obtain ⟨r, h1, h2⟩ := (plan_auto hr (by rw [hname]; decide) (plan_ok hok)).2 hm
  obtain ⟨h3, i, j, t, ht⟩ := sr_allAt hs h hv hok h2
  obtain ⟨h4, h5⟩ := byDensity_max (grow_reps (sr_inv hs h).1).2 h1 ht
  exact ⟨r, h3, h4, h5⟩

/-- the resolution `r` of the table belongs to the depth `d`: its depth bound is the first one above `d` -/
def TableEntry (d r : ℚ) : Prop := ∃ k, (k, r) ∈ Tile.lookupTable ∧ d < k ∧ ∀ k' r', (k', r') ∈ Tile.lookupTable → d < k' → r ≤ r'

theorem table_entry {d : ℚ} (h : d < 20480) : TableEntry d (Tile.lookupArgmax (some d)) := by
  obtain ⟨p, hp, hp2⟩ := lookup_found h
  rw [hp2]
  refine ⟨p.1, List.mem_of_find?_eq_some hp, by simpa using List.find?_some hp, ?_⟩
  intro k' r' hm hk'
  have gen : ∀ T : List (ℚ × ℚ), T.Pairwise (fun p q => p.2 ≤ q.2) → ∀ p, T.find? (fun p => decide (p.1 - d > 0)) = some p → (k', r') ∈ T → p.2 ≤ r' := by
    intro T hs p hp hm
    induction T with
    | nil => cases hp
    | cons a T ih =>
      rw [List.pairwise_cons] at hs
      rw [List.find?_cons] at hp
      by_cases h1 : a.1 - d > 0
      · simp only [h1, decide_true] at hp
        cases hp
        rcases List.mem_cons.1 hm with e | hm
        · rw [← e]
        · exact hs.1 _ hm
      · simp only [h1, decide_false] at hp
        rcases List.mem_cons.1 hm with e | hm
        · rw [← e] at h1; exact absurd (by simpa using hk') h1
        · exact ih hs.2 hp hm
  exact gen _ table_sorted p hp hm

/-- **C67** (single resolution, by depth): one resolution is used for all tiles and reported, the table entry of the mean depth the grid reports,
at most the tile size.  (For mean depths from 20480 m the table has no entry: `C30_violated`.)  A mean depth of zero is refused. -/
theorem C67_depth_lookup (hs : 0 < size) {g : Grid Tile} (h : SRHistory env size bs fl F s g A) {a : GridCall} {dask : Option Nat} (hv : a.regrid = .full ∨ a.clear = true)
    (hr : a.res = none) (hm : a.mode = .depth) (hok : (g.gridWith env a dask).err = none) :
    g.meanDepth ≠ 0 ∧ ∃ r ∈ tableResolutions, AllAt env a g (g.gridWith env a dask).st (min size r) ∧ (g.meanDepth < 20480 → TableEntry g.meanDepth r) := by
  have hname : g.name = "SRGrid_Root" := history_name h
  obtain ⟨r, h1, h2⟩ := (plan_auto hr (by rw [hname]; decide) (plan_ok hok)).1 hm
  obtain ⟨h3, -⟩ := sr_allAt hs h hv hok h2
  unfold resolutionLookup at h1
  split at h1
  · cases h1
  · rename_i hne
    simp only [Except.ok.injEq, (sr_inv hs h).1.tileSize] at h1
    subst h1
    exact ⟨hne, _, lookupArgmax_mem _, h3, table_entry⟩

/-- **C67** (variable resolution): every tile is gridded at the resolution it chooses for itself, and that resolution is reported. -/
theorem C67_own_resolution_vr (hs : 0 < size) (hsub : isPowerOfTwo sub = true) {g : Grid (Grid Tile)} (h : VRHistory env size sub bs fl F s g A) {a : GridCall} {dask : Option Nat}
    (hv : a.regrid = .full ∨ a.clear = true) (hr : a.res = none) (hok : (g.gridWith env a dask).err = none) {i j i' j' : Nat} {u : Grid Tile} {t : Tile} (hu : g.TileAt i j u)
    (ht : u.TileAt i' j' t) : ∃ u' t' r, (g.gridWith env a dask).st.TileAt i j u' ∧ u'.TileAt i' j' t' ∧ GriddedAt env a t t' r ∧
      r ∈ (g.gridWith env a dask).st.resolutions ∧ (a.mode = .density → t.resolutionByDensity env none = .ok r) ∧ (a.mode = .depth → t.resolutionLookup = .ok r) := by
  have hname : g.name = "VRGridTile_Root" := history_name h
  obtain ⟨hreps, hwf⟩ := grow_reps (vr_inv hs hsub h).1
  have hplan : ∀ {τ : Type} [GridLike τ] {g : Grid τ} {a : GridCall}, a.res = none → (gridPlan env g a).1.err = none → (gridPlan env g a).2.auto = some a.mode := by
    intro τ _ g a hr hok
    rcases gridPlan_spec env g a with ⟨_, _, _, _, _, _, h5, _⟩ | ⟨al, gr, gp, e, h5⟩
    · exact h5 hr
    · rw [h5] at hok; cases hok
  obtain ⟨-, -, -, -, -, -, used, h4, h5⟩ := gridWith_as (D := Called env (fun c => c.alg = a.alg ∧ c.res = none ∧ c.mode = a.mode ∧ c.regrid = a.regrid ∧ c.clear = a.clear ∧ c.params = a.params)) hok (by
    intro gr limit T k t hpl he
    obtain ⟨t', k1, c, ⟨b, hc⟩, k3⟩ := outAt_called hv he
    refine ⟨t', k1, c, ?_, k3⟩
    have h0 := hplan hr (plan_ok hok)
    rw [hc]
    have hl : GridLike.isLeaf (τ := Grid Tile) = false := rfl
    refine ⟨rfl, ?_, ?_, rfl, rfl, rfl⟩
    · unfold childCall
      simp only [hl, h0]
      rfl
    · unfold childCall
      simp only [h0]
      rfl)
  obtain ⟨u', k1, c, ⟨c1, c2, c3, c4, c5, c6⟩, ke, k2, k3⟩ := h4 i j u hu
  have hsubname : u.name = "" := by
    obtain ⟨x, y, B, hrep⟩ := hreps i j u hu
    exact SubInv.name hrep
  have ke : (u.gridWith env c none).err = none := ke
  have hcv : c.regrid = .full ∨ c.clear = true := by rw [c4, c5]; exact hv
  obtain ⟨-, -, -, -, -, -, used2, h6, h7⟩ := gridWith_as (D := Called env (fun d => d.alg = a.alg ∧ d.res = none ∧ d.mode = a.mode ∧ d.clear = a.clear ∧ d.params = a.params)) ke (by
    intro gr limit T k t hpl he
    obtain ⟨t', k1, d, ⟨b, hd⟩, k3⟩ := outAt_called hcv he
    refine ⟨t', k1, d, ?_, k3⟩
    have h0 := hplan c2 (plan_ok ke)
    rw [hd]
    have hn : (u.withAttrs (some c.alg) gr c.params []).name = "" := hsubname
    refine ⟨c1, ?_, ?_, c5, c6⟩
    · unfold childCall
      simp only [hn, h0]
      rfl
    · unfold childCall
      simp only [h0]
      exact c3)
  obtain ⟨t', k4, k5⟩ := h6 i' j' t ht
  obtain ⟨d, r, ⟨d1, d2, d3, d4, d5⟩, k6, k7, k8⟩ := called_tile k5
  have hTu : ∃ T, u.tiles = some T ∧ T.WF := by
    obtain ⟨x, y, B, hrep⟩ := hreps i j u hu
    have hrep : SubInv _ size _ _ u _ := hrep
    obtain ⟨T, hT, -⟩ := ht
    exact ⟨T, hT, (sub_reps hrep).2 T hT⟩
  have hTg : ∃ T, g.tiles = some T ∧ T.WF := by
    obtain ⟨T, hT, -⟩ := hu
    exact ⟨T, hT, hwf T hT⟩
  refine ⟨u', t', r, k1, ?_, ⟨d.border, ?_⟩, ?_, ?_, ?_⟩
  · rw [k2]; exact k4
  · rw [← d1, ← d4, ← d5]; exact k8 a.mode
  · rw [h5 hTg]
    refine ⟨i, j, u, hu, ?_⟩
    rw [k3]
    show r ∈ (if (u.grid env c).err = none then (u.grid env c).st.resolutions else [])
    rw [if_pos (show (u.grid env c).err = none from ke)]
    exact (h7 hTu r).2 ⟨i', j', t, ht, by rw [k6]; simp⟩
  · intro hm
    rw [d2, d3, hm] at k7
    exact k7
  · intro hm
    rw [d2, d3, hm] at k7
    exact k7

private def byDensity : GridCall := { alg := .mean, res := none, mode := .density }
private def byDepth : GridCall := { alg := .mean, res := none }

private def shallowDeep : List Pt := [⟨5, 5, 10, 1, 1⟩, ⟨80, 80, 50, 1, 1⟩]

/-- the hypotheses of C67 are met, with tiles that would choose different resolutions -/
example : ∃ g A, SRHistory demoEnv 64 false demoFields .plain false g A ∧ (g.gridWith demoEnv byDensity (some 2)).err = none ∧
    g.present.map (fun t => (t.resolutionByDensity demoEnv none).toOption) = [some (1/4), some 2] ∧ (g.gridWith demoEnv byDensity (some 2)).st.resolutions = [2] ∧
    (g.gridWith demoEnv byDepth none).err = none ∧ (g.gridWith demoEnv byDepth none).st.resolutions = [1] :=
  ⟨((newSR 64 false).addPoints ⟨demoFields, shallowDeep⟩ "a" {}).st, _, (GridHistory.new .plain).add shallowDeep "a" {} (by decide +kernel), by decide +kernel, by decide +kernel,
    by decide +kernel, by decide +kernel, by decide +kernel⟩

example : ∃ g A, VRHistory demoEnv 128 64 false demoFields .plain false g A ∧ (g.gridWith demoEnv byDensity (some 2)).err = none ∧
    (g.gridWith demoEnv byDensity (some 2)).st.resolutions = [1/4, 2] ∧ (g.gridWith demoEnv byDepth none).err = none ∧ (g.gridWith demoEnv byDepth none).st.resolutions = [1/2, 2] :=
  ⟨((newVR 128 64 false).addPoints ⟨demoFields, shallowDeep⟩ "a" {}).st, _, (GridHistory.new .plain).add shallowDeep "a" {} (by decide +kernel), by decide +kernel, by decide +kernel,
    by decide +kernel, by decide +kernel⟩

end Bathy
