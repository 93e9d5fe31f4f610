import Verif.Lemmas.StoreTile

/-!
# every reachable tile can be written and read
-/

namespace Bathy
namespace Tile

/-- cell indices are there for each gridded resolution -/
def IdxInv (t : Tile) : Prop := t.cellIdx.keys.Nodup ∧ ∀ r, (t.coreAt r).isSome → r ∈ t.cellIdx.keys

theorem mem_cells (t : Tile) (r : ℚ) : r ∈ t.cells.keys ↔ (t.coreAt r).isSome := by
  rw [Dict.mem_keys_iff]
  unfold coreAt
  cases t.cells.get? r <;> simp

theorem removePoints_idx (t : Tile) (c : String) : (t.removePoints c).st.cellIdx.keys = t.cellIdx.keys ∧ ∀ r, (t.removePoints c).st.coreAt r = t.coreAt r := by
  have hidx : ∀ (rs : List ℚ) (u : Tile), (rs.foldl clearTemp u).cellIdx = u.cellIdx := by
    intro rs
    induction rs with
    | nil => intro u; rfl
    | cons r rs ih => intro u; rw [List.foldl_cons, ih, (clearTemp_same u r).2]
  unfold removePoints
  split
  · exact ⟨rfl, fun _ => rfl⟩
  · split
    · exact ⟨rfl, fun _ => rfl⟩
    · simp only
      split
      · simp only [Res.ok_st]
        constructor
        · rw [hidx, Dict.keys_mapVals]
        · intro r
          refine (coreAt_congr rfl r).trans ((foldl_clearTemp_coreAt _ _ r).trans rfl)
      · exact ⟨rfl, fun _ => rfl⟩

theorem addPoints_idx (t : Tile) (d : PtArr) (c : String) : (t.addPoints d c).st.cellIdx.keys = t.cellIdx.keys ∧ ∀ r, (t.addPoints d c).st.coreAt r = t.coreAt r := by
  have hidx : ∀ (rs : List ℚ) (u : Tile), (rs.foldl clearTemp u).cellIdx = u.cellIdx := by
    intro rs
    induction rs with
    | nil => intro u; rfl
    | cons r rs ih => intro u; rw [List.foldl_cons, ih, (clearTemp_same u r).2]
  unfold addPoints
  split
  · exact ⟨by simp [Dict.keys_mapVals], fun _ => rfl⟩
  · have h1 : ∀ r : Res Tile, r = (if t.container.has c then removePoints t c else .ok t) → r.st.cellIdx.keys = t.cellIdx.keys ∧ ∀ q, r.st.coreAt q = t.coreAt q := by
      intro r hr
      subst hr
      split
      · exact removePoints_idx t c
      · exact ⟨rfl, fun _ => rfl⟩
    generalize hr : (if t.container.has c then removePoints t c else Res.ok t) = r
    obtain ⟨h2, h3⟩ := h1 r hr.symm
    obtain ⟨u, e⟩ := r
    cases e with
    | some e => exact ⟨h2, h3⟩
    | none =>
      simp only [Res.andThen]
      simp only at h2 h3
      split
      · exact ⟨h2, h3⟩
      · split
        · simp only [Res.ok_st]
          constructor
          · rw [hidx, Dict.keys_mapVals, h2]
          · intro r
            exact ((coreAt_congr rfl r).trans ((foldl_clearTemp_coreAt _ _ r).trans rfl)).trans (h3 r)
        · exact ⟨h2, h3⟩

theorem idxInv_of {t u : Tile} (h : t.IdxInv) (h1 : u.cellIdx.keys = t.cellIdx.keys) (h2 : ∀ r, u.coreAt r = t.coreAt r) : u.IdxInv :=
  ⟨by rw [h1]; exact h.1, fun r hr => by rw [h1]; rw [h2] at hr; exact h.2 r hr⟩

theorem idxInv_clear {t : Tile} (h : t.IdxInv) : t.clearGrid.IdxInv := ⟨h.1, fun r hr => by simp [coreAt, clearGrid] at hr⟩

theorem idxInv_gridAt (env : Env) {t : Tile} {fl : Fields} {F : Family} {clear : Bool} (hi : t.IdxInv)
    (h : GInv (if clear then t.clearGrid else t) fl F) {res : ℚ} {alg : Alg} (ha : alg.family = some F) (params : Option GridParams) (border : Option PtArr) :
    (gridAt env t alg res clear params border).st.IdxInv := by
  cases hp : isPowerOfTwo res with
  | false => rw [gridAt_bad env t alg hp]; exact hi
  | true =>
    have hd : ∃ d, t.data = some d := by
      obtain ⟨d, hd, -⟩ := h.data
      refine ⟨d, ?_⟩
      cases clear <;> exact hd
    obtain ⟨d, hd⟩ := hd
    obtain ⟨-, -, h3, h4, -⟩ := gridAt_canon env h hp hd ha params border
    refine ⟨?_, fun r hr => ?_⟩
    · rw [h3]; exact Dict.keys_set_nodup _ _ _ hi.1
    · rw [h3, Dict.mem_keys_set]
      by_cases hrr : r = res
      · exact Or.inl hrr
      · right
        rw [h4 r hrr] at hr
        cases clear with
        | true => cases hr
        | false => exact hi.2 r hr

theorem idxInv_grid (env : Env) {t : Tile} {fl : Fields} {F : Family} {clear : Bool} (hi : t.IdxInv) (h : GInv (if clear then t.clearGrid else t) fl F)
    {res : Option ℚ} {mode : AutoMode} {alg : Alg} (ha : alg.family = some F) (params : Option GridParams) (border : Option PtArr) :
    (grid env t alg res clear mode params border).1.st.IdxInv := by
  rw [grid_eq]
  split
  · exact hi
  · exact idxInv_gridAt env hi h ha params border

end Tile

theorem history_idx {env : Env} {x y size : ℚ} {bs : Bool} {fl : Fields} {F : Family} {t : Tile} {A : Store} (hw : 0 < size)
    (h : TileHistory env x y size bs fl F t A) : t.IdxInv := by
  induction h with
  | first F pts c hbox => exact ⟨List.nodup_nil, fun r hr => by cases hr⟩
  | @add F t A h pts c hbox ih =>
    obtain ⟨h1, h2⟩ := Tile.addPoints_idx t ⟨fl, pts⟩ c
    exact Tile.idxInv_of ih h1 h2
  | @remove F t A h c ih =>
    obtain ⟨h1, h2⟩ := Tile.removePoints_idx t c
    exact Tile.idxInv_of ih h1 h2
  | @query F t A h l r n z ih =>
    exact Tile.idxInv_of ih (by rw [(Tile.getLayer_same env t l r n z).2]) (Tile.getLayer_core env t l r n z).2.2
  | @reread F t u A h hu ih =>
    refine ⟨hu.idxKeys, fun r hr => ?_⟩
    rw [Tile.reread_coreAt hu] at hr
    have hm := ih.2 r hr
    rw [Dict.mem_keys_iff] at hm ⊢
    rw [hu.idx r ((Tile.mem_cells t r).2 hr)]
    exact hm
  | @grid F t A h alg ha res clear mode params border ih =>
    exact Tile.idxInv_grid env ih (Tile.ginv_pre (history_frame hw h).2.2 clear) ha params border
  | @switch F F' t A h alg ha res mode params border hok ih =>
    exact Tile.idxInv_grid env (clear := true) ih (Tile.ginv_clearGrid (history_frame hw h).2.2) ha params border
  | @clearGrid F t A h F' ih => exact Tile.idxInv_clear ih

namespace Tile

theorem pick_core (ls : Dict Layer LayerArr) : pick (core ls) = pick ls := by
  unfold pick
  refine List.filterMap_congr (fun l hl => ?_)
  rw [core_get? _ (by rw [← isCore_saved]; simpa using hl)]

theorem pick_ok {dk : Layer} (hdk : dk = .depth ∨ dk = .intensity) {fl : Fields} {F : Family} {n : Nat} {ls : Dict Layer LayerArr} (h : LayersOk dk fl F n ls) :
    pick ls = core ls ∧ core ls ≠ [] := by
  obtain ⟨g, hg, hm⟩ := eq_map_of_keys h.1 (initKeys_nodup hdk fl F n) h.2
  rw [← pick_core, hm]
  obtain ⟨a, b⟩ := fl
  rcases hdk with rfl | rfl <;> cases F <;> cases a <;> cases b <;> simp [initLayers, pick, savedLayers, Dict.get?]

end Tile

theorem history_saveable {env : Env} {x y size : ℚ} {bs : Bool} {fl : Fields} {F : Family} {t : Tile} {A : Store} (hw : 0 < size)
    (h : TileHistory env x y size bs fl F t A) (hne : A.allPts ≠ []) : t.Saveable := by
  obtain ⟨hf, hr, hg⟩ := history_frame hw h
  have hi := history_idx hw h
  have hc := history_cells hw h
  have hcore : ∀ r ls, t.cells.get? r = some ls → t.coreAt r = some (core ls) := by
    intro r ls hls; unfold Tile.coreAt; rw [hls]; rfl
  have hok : ∀ r ls, t.cells.get? r = some ls → 0 < r ∧ Tile.LayersOk t.depthKey fl F (ncells t.width r) ls := by
    intro r ls hls
    obtain ⟨h1, -, -, h4, -⟩ := hg.cells r _ (hcore r ls hls)
    refine ⟨h1, ?_⟩
    unfold Tile.LayersOk at h4 ⊢
    rwa [Tile.core_core] at h4
  refine ⟨hc.1, hi.1, ?_, ?_, ⟨_, history_data hw h, hne⟩, ?_, ?_⟩
  · intro r hr
    obtain ⟨ls, hls⟩ := (Dict.mem_keys_iff _ _).1 hr
    obtain ⟨-, h2, h3, -⟩ := hg.cells r _ (hcore r ls hls)
    exact ⟨ls, _, _, hls, h2, h3⟩
  · intro r hr
    exact hi.2 r ((Tile.mem_cells t r).1 hr)
  · intro r ls hls
    exact Tile.pick_ok (Tile.depthKey_cases t) (hok r ls hls).2
  · intro r ls l a hls hl ha
    obtain ⟨h1, h2⟩ := hok r ls hls
    have hm : (l, a) ∈ core ls := by
      have := core_get? ls (l := l) (by rw [← Tile.isCore_saved]; simpa using hl)
      rw [ha] at this
      exact Dict.mem_of_get? _ this
    obtain ⟨hwf, hrow, hcol⟩ := h2.2 _ hm
    intro hsz
    have hn := ncells_pos hg.wpos h1
    have : a.flat.length = a.rows * a.cols := hwf
    rw [hrow, hcol] at this
    have hsz : a.flat.length = 0 := hsz
    rw [hsz] at this
    exact absurd this.symm (Nat.mul_pos hn hn).ne'

namespace Tile

/-- reading a folder into a new object -/
theorem load_reread {t : Tile} (hs : t.Saveable) {f : TileFolder} (h : Holds t f) : ∃ u, loadTile none .all (some f) = .ok (some u) ∧ t.Reread u := by
  refine ⟨_, loadTile_eq hs h .all none, ?_⟩
  have hf := found_iff hs h.grid
  simp only [Option.getD_none, reduceCtorEq, if_false]
  refine ⟨rfl, rfl, ?_, ?_, ?_, ?_, ?_, ?_, ?_⟩
  · exact Dict.keys_setAll_nodup _ _ List.nodup_nil
  · intro r
    simp only [Dict.get?_setAll, hf]
    have hcore : ∀ ls : Dict Layer LayerArr, ls.filter (fun p => decide (p.1 ∈ savedLayers)) = core ls :=
      fun ls => List.filter_congr (fun p _ => isCore_saved p.1)
    by_cases hr : r ∈ t.cells.keys
    · obtain ⟨ls, hls⟩ := (Dict.mem_keys_iff _ _).1 hr
      rw [if_pos hr, hls]
      simp only [coreOr, hls, Option.getD_some, Option.map_some, hcore]
    · rw [if_neg hr, (Dict.get?_eq_none _ _).2 hr]; rfl
  · intro r hr
    obtain ⟨ls, ex, ey, -, h2, h3⟩ := hs.res r hr
    simp only [Dict.get?_setAll, hf, if_pos hr, edgeXOr, h2, Option.getD_some]
  · intro r hr
    obtain ⟨ls, ex, ey, -, h2, h3⟩ := hs.res r hr
    simp only [Dict.get?_setAll, hf, if_pos hr, edgeYOr, h3, Option.getD_some]
  · intro r hr
    obtain ⟨l, hl⟩ := (Dict.mem_keys_iff _ _).1 (hs.idxAll r hr)
    simp only [Dict.get?_setAll, hf, if_pos hr, idxOr, hl, Option.getD_some]
  · exact Dict.keys_setAll_nodup _ _ List.nodup_nil
  · rintro ⟨r, l⟩ hq
    have := Dict.get?_of_mem _ (Dict.keys_setAll_nodup (foundResolutions f) t.idxOr (d := []) List.nodup_nil) hq
    rw [Dict.get?_setAll] at this
    by_cases hr : r ∈ t.cells.keys
    · rw [if_pos ((hf r).2 hr)] at this
      obtain ⟨l', hl⟩ := (Dict.mem_keys_iff _ _).1 (hs.idxAll r hr)
      simp only [idxOr, hl, Option.getD_some, Option.some.injEq] at this
      subst this; exact hl
    · rw [if_neg (fun e => hr ((hf r).1 e))] at this; cases this

/-- reading it into the object itself after gridding -/
theorem dropTemp_reread {t : Tile} (hs : t.Saveable) : t.Reread t.dropTemp := by
  refine ⟨rfl, rfl, ?_, ?_, fun _ _ => rfl, fun _ _ => rfl, fun _ _ => rfl, hs.idx, fun q hq => Dict.get?_of_mem _ hs.idx hq⟩
  · unfold dropTemp; rw [Dict.keys_mapVals]; exact hs.cells
  · intro r
    unfold dropTemp
    rw [Dict.get?_mapVals]
    congr 1
    funext ls
    exact (List.filter_congr (fun p _ => isCore_saved p.1)).symm

end Tile
end Bathy
