import Verif.Lemmas.GridHistory
import Verif.Lemmas.TileHistory
import Verif.Lemmas.StoreTile
import Verif.Spec.Histories

/-!
# The recorded resolutions passed the power of two test
-/

namespace Bathy

theorem assignMask_mem {α : Type} {a : List α} {m : List Bool} {v r : List α} (h : assignMask a m v = some r) : ∀ x ∈ r, x ∈ a ∨ x ∈ v := by
  induction a generalizing m v r with
  | nil =>
    cases m with
    | nil =>
      cases v with
      | nil => cases h; simp
      | cons _ _ => cases h
    | cons _ _ => cases h
  | cons b a ih =>
    cases m with
    | nil => cases h
    | cons c m =>
      cases c with
      | true =>
        cases v with
        | nil => cases h
        | cons w v =>
          simp only [assignMask, Option.map_eq_some_iff] at h
          obtain ⟨r, h, rfl⟩ := h
          intro x hx
          rcases List.mem_cons.1 hx with rfl | hx
          · simp
          · rcases ih h x hx with hx | hx <;> simp [hx]
      | false =>
        simp only [assignMask, Option.map_eq_some_iff] at h
        obtain ⟨r, h, rfl⟩ := h
        intro x hx
        rcases List.mem_cons.1 hx with rfl | hx
        · simp
        · rcases ih h x hx with hx | hx <;> simp [hx]

theorem nodup_addNew {l rs : List ℚ} (h : l.Nodup) : (addNew l rs).Nodup := by
  unfold addNew
  induction rs generalizing l with
  | nil => exact h
  | cons r rs ih =>
    rw [List.foldl_cons]
    apply ih
    split
    · exact h
    · rename_i hr
      rw [List.nodup_append]
      refine ⟨h, by simp, ?_⟩
      intro a ha b hb
      simp only [List.mem_singleton] at hb
      subst hb
      exact fun e => hr (e ▸ ha)

theorem Res.forEach_keeps {σ α : Type} {P : σ → Prop} {f : σ → α → Res σ} (hf : ∀ s x, P s → P (f s x).st) (l : List α) {s : σ} (h : P s) :
    P (Res.forEach l s f).st := by
  induction l generalizing s with
  | nil => exact h
  | cons k l ih =>
    rw [Res.forEach_cons]
    unfold Res.andThen
    split
    · exact ih (hf s k h)
    · exact hf s k h

theorem Res.andThen_keeps {σ : Type} {P : σ → Prop} {r : Res σ} {f : σ → Res σ} (hr : P r.st) (hf : ∀ s, P s → P (f s).st) : P (r.andThen f).st := by
  unfold Res.andThen
  split
  · exact hf _ hr
  · exact hr

/-- objects that only record resolutions that passed the test -/
class Recorded (τ : Type) [GridLike τ] [Queried τ] where
  Ok : τ → Prop
  res : ∀ {t : τ}, Ok t → ∀ r ∈ GridLike.resolutions t, isPowerOfTwo r = true
  build : ∀ {s u b x y} {t : τ}, TileLike.build s u b x y = .ok t → Ok t
  add : ∀ {t : τ} (d c), Ok t → Ok (TileLike.addPoints t d c).st
  remove : ∀ {t : τ} (c), Ok t → Ok (TileLike.removePoints t c).st
  grid : ∀ {t : τ} (env a), Ok t → Ok (GridLike.grid env t a).1.st ∧ ∀ r ∈ (GridLike.grid env t a).2, isPowerOfTwo r = true
  query : ∀ {t u : τ} {env}, Queried.queried env t u → Ok t → Ok u

namespace Tile

/-- the layers of the tile are stored under resolutions that passed the test -/
def KeysOk (t : Tile) : Prop := ∀ r ∈ t.cells.keys, isPowerOfTwo r = true

theorem mem_keys_coreAt (t : Tile) (r : ℚ) : r ∈ t.cells.keys ↔ t.coreAt r ≠ none := by
  unfold coreAt
  rw [Ne, Option.map_eq_none_iff, Dict.get?_eq_none, not_not]

theorem keysOk_of_core {t u : Tile} (h : ∀ r, u.coreAt r = t.coreAt r) (ht : t.KeysOk) : u.KeysOk := by
  intro r hr
  rw [mem_keys_coreAt, h, ← mem_keys_coreAt] at hr
  exact ht r hr

theorem keysOk_of_cells {t u : Tile} (h : u.cells = t.cells) (ht : t.KeysOk) : u.KeysOk := by
  unfold KeysOk; rw [h]; exact ht

theorem keysOk_set {t u : Tile} {r : ℚ} {ls : Dict Layer LayerArr} (h : u.cells = t.cells.set r ls) (hr : isPowerOfTwo r = true) (ht : t.KeysOk) : u.KeysOk := by
  intro q hq
  rw [h] at hq
  unfold Dict.keys at hq
  obtain ⟨p, hp, rfl⟩ := List.mem_map.1 hq
  rcases Dict.mem_set hp with rfl | hp
  · exact hr
  · exact ht _ (List.mem_map_of_mem hp)

theorem foldl_keysOk {t : Tile} (rs : List ℚ) (ht : t.KeysOk) : (rs.foldl clearTemp t).KeysOk := keysOk_of_core (foldl_clearTemp_coreAt rs t) ht

theorem removePoints_keysOk {t : Tile} (c : String) (ht : t.KeysOk) : (t.removePoints c).st.KeysOk := by
  unfold removePoints
  split
  · exact ht
  · split
    · exact ht
    · simp only
      split
      · exact keysOk_of_cells rfl (foldl_keysOk _ (keysOk_of_cells rfl ht))
      · exact keysOk_of_cells rfl ht

theorem addPoints_keysOk {t : Tile} (d : PtArr) (c : String) (ht : t.KeysOk) : (t.addPoints d c).st.KeysOk := by
  unfold addPoints
  split
  · exact keysOk_of_cells rfl ht
  · simp only
    apply Res.andThen_keeps
    · split
      · exact removePoints_keysOk c ht
      · exact ht
    · intro s hs
      split
      · exact hs
      · split
        · exact keysOk_of_cells rfl (foldl_keysOk _ (keysOk_of_cells (t := s) rfl hs))
        · exact keysOk_of_cells rfl hs

theorem newGrid_keysOk {t : Tile} (r : ℚ) (alg : Alg) (ht : t.KeysOk) : (t.newGrid r alg).st.KeysOk := by
  unfold newGrid
  split
  · rename_i hr
    simp only
    split
    · exact keysOk_set (t := t) rfl hr ht
    · exact ht
  · exact ht

theorem prepare_keysOk {t u : Tile} {r : ℚ} (hr : isPowerOfTwo r = true) (h : t.prepare r = .ok u) (ht : t.KeysOk) : u.KeysOk := by
  unfold prepare at h
  split at h
  · split at h
    · split at h
      · cases h
      · split at h
        · cases h
        · cases h; exact keysOk_of_cells rfl ht
    · split at h
      · cases h
      · cases h
      · split at h
        · cases h
        · cases h; exact keysOk_set (t := t) rfl hr ht
  · cases h

theorem runPlain_keysOk {f} {t u : Tile} {r : ℚ} (hr : isPowerOfTwo r = true) (h : runPlain f t r = .ok u) (ht : t.KeysOk) : u.KeysOk := by
  unfold runPlain at h
  split at h
  · split at h
    · cases h
    · cases h; exact keysOk_set (t := t) rfl hr ht
  · cases h
  · cases h

theorem runAlg_keysOk {env : Env} {t u : Tile} {alg : Alg} {r : ℚ} {p b} (hr : isPowerOfTwo r = true) (h : runAlg env t alg r p b = .ok u) (ht : t.KeysOk) : u.KeysOk := by
  unfold runAlg at h
  split at h
  · exact runPlain_keysOk hr h ht
  · exact runPlain_keysOk hr h ht
  · unfold runCube at h
    split at h
    · cases h
    · split at h
      · cases h
      · split at h
        · split at h
          · split at h
            · cases h
            · cases h; exact keysOk_set (t := t) rfl hr ht
          · cases h
        · cases h
  · cases h; exact ht

theorem gridAt_keysOk (env : Env) {t : Tile} (alg : Alg) (r : ℚ) (clear : Bool) (p : Option GridParams) (b : Option PtArr) (ht : t.KeysOk) :
    (gridAt env t alg r clear p b).st.KeysOk ∧ ((gridAt env t alg r clear p b).err = none → isPowerOfTwo r = true) := by
  unfold gridAt
  split
  · rename_i hr
    refine ⟨?_, fun _ => hr⟩
    simp only
    have h1 : (if clear then t.clearGrid else t).KeysOk := by
      split
      · intro r hr; simp [clearGrid, Dict.keys] at hr
      · exact ht
    have h2 : ((if clear then t.clearGrid else t).clearTemp r).KeysOk := keysOk_of_core (fun r' => clearTemp_coreAt _ r r') h1
    generalize (if clear then t.clearGrid else t).clearTemp r = t2 at h2
    apply Res.andThen_keeps
    · split
      · exact newGrid_keysOk r alg (keysOk_of_cells (t := t2) rfl h2)
      · exact h2
    · intro t3 h3
      split
      · exact h3
      · rename_i t4 h4
        have h5 := prepare_keysOk hr h4 h3
        split
        · exact h5
        · rename_i t5 h6
          exact keysOk_of_cells (t := t5) rfl (runAlg_keysOk hr h6 h5)
  · exact ⟨ht, fun h => by cases h⟩

end Tile

open Tile in
instance : Recorded Tile where
  Ok := KeysOk
  res h := h
  build h := by cases h; intro r hr; simp [Tile.new, Dict.keys] at hr
  add d c h := addPoints_keysOk d c h
  remove c h := removePoints_keysOk c h
  grid {t} env a h := by
    show (t.grid env a.alg a.res a.clear a.mode a.params a.border).1.st.KeysOk ∧ ∀ r ∈ (t.grid env a.alg a.res a.clear a.mode a.params a.border).2.toList, isPowerOfTwo r = true
    unfold Tile.grid
    split
    · exact ⟨h, by simp⟩
    · rename_i r _
      have := gridAt_keysOk env a.alg r a.clear a.params a.border h
      refine ⟨this.1, ?_⟩
      simp only
      split
      · rename_i he
        intro q hq
        simp only [Option.toList_some, List.mem_singleton] at hq
        subst hq
        exact this.2 he
      · simp
  query {t u env} hq h := by
    rcases hq with ⟨l, r, n, z, rfl⟩ | hq
    · exact keysOk_of_core (getLayer_core env t l r n z).2.2 h
    · intro r hr
      obtain ⟨v, hv⟩ := (Dict.mem_keys_iff _ _).1 hr
      rw [hq.layers, Option.map_eq_some_iff] at hv
      obtain ⟨w, hw, -⟩ := hv
      exact h r ((Dict.mem_keys_iff _ _).2 ⟨w, hw⟩)

namespace Grid
variable {τ : Type} [GridLike τ] [Queried τ] [Recorded τ]

/-- the tiles are in order, and the list of the grid has no duplicates -/
structure ResOk (g : Grid τ) : Prop where
  tiles : ∀ T, g.tiles = some T → ∀ t, some t ∈ T.flat → Recorded.Ok t
  res : ∀ r ∈ g.resolutions, isPowerOfTwo r = true
  nodup : g.resolutions.Nodup

theorem ResOk.congr {g u : Grid τ} (h : ResOk g) (ht : u.tiles = g.tiles) (hr : u.resolutions = g.resolutions) : ResOk u :=
  ⟨by rw [ht]; exact h.tiles, by rw [hr]; exact h.res, by rw [hr]; exact h.nodup⟩

theorem ResOk.at {g : Grid τ} (h : ResOk g) {k : Nat} {t : τ} (ht : g.tile? k = some (some t)) : Recorded.Ok t := by
  unfold tile? at ht
  obtain ⟨T, hT, hk⟩ := Option.bind_eq_some_iff.1 ht
  exact h.tiles T hT t (List.mem_of_getElem? hk)

theorem ResOk.setTile {g : Grid τ} (h : ResOk g) (k : Nat) {o : Option τ} (ho : ∀ t, o = some t → Recorded.Ok t) : ResOk (g.setTile k o) := by
  unfold Grid.setTile
  split
  · rename_i T hT
    refine ⟨?_, h.res, h.nodup⟩
    intro T' hT' t ht
    cases hT'
    rcases List.mem_or_eq_of_mem_set ht with ht | ht
    · exact h.tiles T hT t ht
    · exact ho t ht.symm
  · exact h

theorem ResOk.addRes {g : Grid τ} (h : ResOk g) {rs : List ℚ} (hr : ∀ r ∈ rs, isPowerOfTwo r = true) : ResOk { g with resolutions := addNew g.resolutions rs } :=
  ⟨h.tiles, fun r h' => ((mem_addNew _ _ r).1 h').elim (h.res r) (hr r), nodup_addNew h.nodup⟩

theorem resOk_buildGrid {g : Grid τ} (h : ResOk g) (e : Extents) : ResOk (g.buildGrid e).st := by
  unfold buildGrid
  simp only
  repeat' split
  all_goals exact h.congr rfl rfl

theorem resOk_updateBase {g : Grid τ} (h : ResOk g) (pts : List Pt) : ResOk (g.updateBase pts).st := by
  unfold updateBase
  repeat' split
  all_goals first | exact h | exact resOk_buildGrid h _

omit [GridLike τ] [Queried τ] [Recorded τ] in
theorem not_mem_fill {n m : Nat} {t : τ} (h : some t ∈ (Arr2.fill n m none : Arr2 (Option τ)).flat) : False := by
  unfold Arr2.fill at h
  simp at h

theorem resOk_placeTiles {g : Grid τ} (h : ResOk g) : ResOk g.placeTiles.st := by
  unfold placeTiles
  simp only
  split
  · refine ⟨?_, h.res, h.nodup⟩
    intro T hT t ht
    cases hT
    exact (not_mem_fill ht).elim
  · split
    · split
      · rename_i T m hT hm
        split
        · rename_i l hl
          refine ⟨?_, h.res, h.nodup⟩
          intro T' hT' t ht
          cases hT'
          rcases assignMask_mem hl _ ht with ht | ht
          · exact (not_mem_fill ht).elim
          · exact h.tiles T hT t ht
        · exact h
      · exact h
    · exact h

theorem resOk_addToTile {g : Grid τ} (fields : Fields) (pts : List Pt) (bins : List Nat) (c : String) (k : Nat) (h : ResOk g) : ResOk (addToTile fields pts bins c g k).st := by
  unfold addToTile
  simp only
  split
  · exact h
  · rename_i t ht
    have h1 : Recorded.Ok t := by
      split at ht
      · cases ht
      · rename_i hk; cases ht; exact h.at hk
      · split at ht
        · exact Recorded.build ht
        · cases ht
    have h2 := Recorded.add (⟨fields, boolIndex pts (bins.map (fun b => decide (b = k)))⟩ : PtArr) c h1
    split
    · exact h.setTile k (fun t ht => by cases ht; exact h2)
    · exact h.setTile k (fun t ht => by
        split at ht
        · cases ht
        · cases ht; exact h2)

theorem resOk_addPoints {g : Grid τ} (d : PtArr) (c : String) (a : AddArgs) (h : ResOk g) : ResOk (g.addPoints d c a).st := by
  unfold addPoints
  split
  · exact h
  · simp only
    split
    · exact h.congr rfl rfl
    · apply Res.andThen_keeps (resOk_updateBase (h.congr (u := { g with info := (g.info.update c a).st }) rfl rfl) _)
      intro s hs
      apply Res.andThen_keeps (resOk_placeTiles hs)
      intro s hs
      apply Res.andThen_keeps
      · unfold addToTiles
        split
        · exact hs
        · apply Res.andThen_keeps
          · exact Res.forEach_keeps (fun s x h => resOk_addToTile _ _ _ _ _ h) _ hs
          · intro s hs
            exact hs.congr rfl rfl
      · intro s hs
        exact hs.congr rfl rfl

theorem resOk_removeTile {g : Grid τ} (k : Nat) (h : ResOk g) : ResOk (g.removeTile k).st := by
  unfold removeTile
  split
  · simp only
    apply Res.andThen_keeps
    · repeat' split
      all_goals exact h.congr rfl rfl
    · intro s hs
      split
      · rename_i n _
        exact ResOk.setTile (o := none) (hs.congr (u := { s with numberOfTiles := some (n - 1) }) rfl rfl) k (fun t ht => by cases ht)
      · exact hs
  · exact h

theorem resOk_removePoints {g : Grid τ} (c : String) (h : ResOk g) : ResOk (g.removePoints c).st := by
  unfold removePoints
  split
  · simp only
    apply Res.andThen_keeps
    · split
      · exact h.congr rfl rfl
      · apply Res.forEach_keeps _ _ (h.congr (u := { g with info := { g.info with container := g.info.container.pop c } }) rfl rfl)
        intro s k hs
        unfold removeFromTile
        split
        · rename_i t ht
          have h1 := Recorded.remove c (hs.at ht)
          have h2 : ResOk (s.setTile k (some (TileLike.removePoints t c).st)) := hs.setTile k (fun t ht => by cases ht; exact h1)
          simp only
          split
          · exact h2
          · split
            · exact resOk_removeTile k h2
            · exact h2
        · exact hs
    · intro s hs
      simp only [Res.ok_st]
      split
      · exact ⟨fun T hT => (by cases hT), hs.res, hs.nodup⟩
      · exact hs
  · exact h

theorem resOk_unique {g : Grid τ} (h : ResOk g) : ResOk { g with resolutions := npUnique g.resolutions } :=
  ⟨h.tiles, fun r hr => h.res r ((mem_npUnique r _).1 hr), npUnique_nodup _⟩

theorem resOk_gridPlan (env : Env) {g : Grid τ} (a : GridCall) (h : ResOk g) : ResOk (gridPlan env g a).1.st := by
  have hgo : ResOk (gridPlan.go env a g).1.st := by
    unfold gridPlan.go
    have h0 : ∀ (al gr gp), ResOk ({ g with gridAlgorithm := al, gridResolution := gr, gridParams := gp, resolutions := [] } : Grid τ) :=
      fun al gr gp => ⟨h.tiles, by simp, List.nodup_nil⟩
    simp only
    repeat' split
    all_goals first | exact h0 _ _ _ | exact h.congr rfl rfl
  unfold gridPlan
  split
  · split
    · exact h
    · exact hgo
  · exact hgo

theorem resOk_gridStep (env : Env) (a : GridCall) (p : Plan) (s : Grid τ × Bool) (k : Nat) (h : ResOk s.1) : ResOk (gridStep env a p s k).st.1 := by
  obtain ⟨g, clear⟩ := s
  unfold gridStep
  simp only
  split
  · rename_i t ht
    have ht := h.at ht
    split
    · exact h.addRes (Recorded.res ht)
    · split
      · exact h
      · rename_i b _
        obtain ⟨h1, h2⟩ := Recorded.grid env (g.childCall a p (clearNext a clear t) b) ht
        have h3 := h.setTile k (o := some (GridLike.grid env t (g.childCall a p (clearNext a clear t) b)).1.st) (fun t ht => by cases ht; exact h1)
        split
        · exact h3
        · exact h3.addRes h2
  · exact h

/-- the jobs are for tiles in order -/
def JobsOk (l : List (Job τ)) : Prop := ∀ j ∈ l, Recorded.Ok j.tile

theorem resOk_runJobs (env : Env) {g : Grid τ} {jobs : List (Job τ)} (hj : JobsOk jobs) (h : ResOk g) : ResOk (runJobs env g jobs).st := by
  unfold runJobs
  simp only
  split
  · exact h
  · have hfold : ∀ (l : List (Job τ × (Res τ × List ℚ))) (g : Grid τ), (∀ q ∈ l, Recorded.Ok q.2.1.st) → ResOk g →
        ResOk (l.foldl (fun g jr => g.setTile jr.1.idx (some jr.2.1.st)) g) := by
      intro l
      induction l with
      | nil => intro g _ h; exact h
      | cons q l ih =>
        intro g hq h
        rw [List.foldl_cons]
        exact ih _ (fun q hq' => hq q (List.mem_cons_of_mem _ hq')) (h.setTile _ (fun t ht => by cases ht; exact hq q List.mem_cons_self))
    refine ResOk.addRes (hfold _ g ?_ h) ?_
    · intro q hq
      obtain ⟨j, r⟩ := q
      have := (List.of_mem_zip hq).2
      obtain ⟨j', hj', rfl⟩ := List.mem_map.1 this
      exact (Recorded.grid env j'.call (hj j' hj')).1
    · intro r hr
      obtain ⟨l, hl, hr⟩ := List.mem_flatten.1 hr
      obtain ⟨q, hq, rfl⟩ := List.mem_map.1 hl
      obtain ⟨j, hj', rfl⟩ := List.mem_map.1 hq
      exact (Recorded.grid env j.call (hj j hj')).2 r hr

theorem resOk_parStep (env : Env) (n : Nat) (a : GridCall) (p : Plan) (s : ParState τ) (k : Nat) (h : ResOk s.grid ∧ JobsOk s.jobs) :
    ResOk (parStep env n a p s k).st.grid ∧ JobsOk (parStep env n a p s k).st.jobs := by
  unfold parStep
  split
  · rename_i t ht
    have ht := h.1.at ht
    split
    · exact ⟨h.1.addRes (Recorded.res ht), h.2⟩
    · simp only
      split
      · exact h
      · split
        · exact h
        · rename_i b _
          have hj : JobsOk (s.jobs ++ [⟨k, t, s.grid.childCall a p (clearNext a s.clear t) b⟩]) := by
            intro j hj
            rcases List.mem_append.1 hj with hj | hj
            · exact h.2 j hj
            · simp only [List.mem_singleton] at hj; subst hj; exact ht
          split
          · exact ⟨resOk_runJobs env hj h.1, fun j hj => by cases hj⟩
          · exact ⟨h.1, hj⟩
  · exact h

theorem resOk_gridWith (env : Env) {g : Grid τ} (a : GridCall) (dask : Option Nat) (h : ResOk g) : ResOk (g.gridWith env a dask).st := by
  unfold gridWith
  split
  · unfold grid
    apply Res.andThen_keeps (resOk_gridPlan env a h)
    intro s hs
    unfold gridRegular
    have := Res.forEach_keeps (P := fun s : Grid τ × Bool => ResOk s.1) (resOk_gridStep env a (gridPlan env g a).2) (List.range s.slots) (s := (s, a.clear)) hs
    simp only
    split
    · exact this
    · exact resOk_unique this
  · rename_i n
    unfold gridDask
    apply Res.andThen_keeps (resOk_gridPlan env a h)
    intro s hs
    unfold gridParallel
    have := Res.forEach_keeps (P := fun s : ParState τ => ResOk s.grid ∧ JobsOk s.jobs) (resOk_parStep env n a (gridPlan env g a).2) (List.range s.slots)
      (s := (⟨{ s with resolutions := [] }, a.clear, []⟩ : ParState τ)) ⟨⟨hs.tiles, by simp, List.nodup_nil⟩, fun j hj => by cases hj⟩
    simp only
    split
    · exact this.1
    · apply Res.andThen_keeps
      · unfold lastJobs
        split
        · exact this.1
        · exact resOk_runJobs env this.2 this.1
      · intro s hs
        exact resOk_unique hs

theorem resOk_query {env : Env} {g u : Grid τ} (hq : Queried.queried env g u) (h : ResOk g) : ResOk u := by
  rcases hq with ⟨k, t, v, hk, hv, rfl⟩ | ⟨-, -, rfl⟩
  · exact h.setTile k (fun t ht => by cases ht; exact Recorded.query hv (h.at hk))
  · exact h.congr rfl rfl

theorem resOk_blank (name : String) (canGrow : Bool) (x y size sub : ℚ) (bs : Bool) (e : Option Extents) : ResOk (blank name canGrow x y size sub bs e : Grid τ) :=
  ⟨fun T hT => (by cases hT), by simp [blank], List.nodup_nil⟩

instance : Recorded (Grid τ) where
  Ok := ResOk
  res h := h.res
  build {s u b x y t} h := by
    have h : newSub x y s u = .ok t := h
    unfold newSub at h
    split at h
    · cases h; exact resOk_blank _ _ _ _ _ _ _ _
    · cases h
  add d c h := resOk_addPoints d c {} h
  remove c h := resOk_removePoints c h
  grid {t} env a h := by
    have h1 : ResOk (t.grid env a).st := resOk_gridWith env a none h
    refine ⟨h1, ?_⟩
    show ∀ r ∈ (if (t.grid env a).err = none then (t.grid env a).st.resolutions else []), isPowerOfTwo r = true
    split
    · exact h1.res
    · simp
  query hq h := resOk_query hq h

theorem resOk_history {env : Env} {g0 : Grid τ} {fl : Fields} {F : Family} {s : Bool} {g : Grid τ} {A : Store} (h0 : ResOk g0) (h : GridHistory env g0 fl F s g A) :
    ResOk g := by
  induction h with
  | new => exact h0
  | add _ pts c a _ ih => exact resOk_addPoints _ c a ih
  | reject _ pts _ c a _ ih => exact resOk_addPoints _ c a ih
  | remove _ c _ ih => exact resOk_removePoints c ih
  | grid _ a _ dask ih => exact resOk_gridWith env a dask ih
  | switch _ a _ _ dask _ ih => exact resOk_gridWith env a dask ih
  | query _ hq ih => exact resOk_query hq ih

end Grid
end Bathy
