import Verif.Lemmas.TileMean
import Verif.Lemmas.TileHistory

/-!
# the layers stored by mean and shoalest have numbers in the same cells

Each time a tile is gridded the layers are made anew from its soundings, so the layers of one resolution always come from one list of soundings (not
necessarily the present ones).
-/

namespace Bathy
namespace Tile

/-- a number exactly when there are soundings -/
def FilledCell (ps : List Pt) (v : Option ℚ) : Prop := v = none ↔ ps = []

/-- the layers are made from the soundings `pts` -/
def MadeFrom (dk : Layer) (fl : Fields) (x y width r : ℚ) (pts : List Pt) (L : Dict Layer LayerArr) : Prop :=
  (∃ a, L.get? dk = some a ∧ EachCell a (ncells width r) x y r pts FilledCell) ∧
  (∃ a, L.get? .density = some a ∧ EachCell a (ncells width r) x y r pts CountCell) ∧
  (fl.hasTvu = true → ∃ a, L.get? .vertical = some a ∧ EachCell a (ncells width r) x y r pts FilledCell) ∧
  (fl.hasThu = true → ∃ a, L.get? .horizontal = some a ∧ EachCell a (ncells width r) x y r pts FilledCell)

theorem eachCell_weaken {a : LayerArr} {n : Nat} {x y res : ℚ} {pts : List Pt} {R R' : List Pt → Option ℚ → Prop} (hi : ∀ ps v, R ps v → R' ps v)
    (h : EachCell a n x y res pts R) : EachCell a n x y res pts R' := by
  obtain ⟨h0, h1, h2, h3⟩ := h
  exact ⟨h0, h1, h2, fun r c hr hc => (h3 r c hr hc).imp (fun v hv => ⟨hv.1, hi _ _ hv.2⟩)⟩

theorem filled_mean {f : Pt → ℚ} (ps : List Pt) (v : Option ℚ) (h : MeanCell round3 f ps v) : FilledCell ps v := by
  constructor
  · intro hv; by_contra hp; rw [h.2 hp] at hv; cases hv
  · exact h.1

theorem filled_shoal (ps : List Pt) (v : Option ℚ) (h : ShoalCell round3 ps v) : FilledCell ps v := by
  constructor
  · intro hv; by_contra hp; obtain ⟨m, -, hm⟩ := h.2 hp; rw [hm] at hv; cases hv
  · exact h.1

theorem filled_rank {pts : List Pt} {f : Pt → ℚ} (ps : List Pt) (v : Option ℚ) (h : RankCell pts f ps v) : FilledCell ps v := by
  constructor
  · intro hv; by_contra hp; obtain ⟨m, q, -, -, hm⟩ := h.2 hp; rw [hm] at hv; cases hv
  · exact h.1

/-- mean and shoalest never fail, and their layers are made from the soundings of the tile -/
theorem canon_made (env : Env) {dk : Layer} (hdk : dk = .depth ∨ dk = .intensity) {minX minY width res : ℚ} (hw : 0 < width) (hr : 0 < res) (d : PtArr)
    (hbox : ∀ p ∈ d.pts, InBox minX minY width p) {alg : Alg} (ha : alg.family = some .plain) (params : Option GridParams) (border : Option PtArr) :
    ∃ L, canonLayers env minX minY width dk d .plain alg res params border = .ok L ∧ MadeFrom dk d.fields minX minY width res d.pts L := by
  cases alg with
  | mean =>
    obtain ⟨L, hL, ⟨a, a1, a2⟩, hd, hv, hh⟩ := canon_mean env hdk hw hr d hbox params border
    exact ⟨L, hL, ⟨a, a1, eachCell_weaken filled_mean a2⟩, hd, fun h => (hv h).imp (fun a q => ⟨q.1, eachCell_weaken filled_mean q.2⟩),
      fun h => (hh h).imp (fun a q => ⟨q.1, eachCell_weaken filled_mean q.2⟩)⟩
  | shoalest =>
    obtain ⟨L, hL, ⟨a, a1, a2⟩, hd, hv, hh⟩ := canon_shoalest env hdk hw hr d hbox params border
    exact ⟨L, hL, ⟨a, a1, eachCell_weaken filled_shoal a2⟩, hd, fun h => (hv h).imp (fun a q => ⟨q.1, eachCell_weaken filled_rank q.2⟩),
      fun h => (hh h).imp (fun a q => ⟨q.1, eachCell_weaken filled_rank q.2⟩)⟩
  | cube => cases ha
  | other => cases ha

/-- one gridding call: every resolution that has layers afterwards had the same layers before, unless it was just gridded -/
theorem grid_made (env : Env) {t : Tile} {fl : Fields} {F : Family} (h : GInv t fl F) {alg : Alg} (ha : alg.family = some .plain)
    (res : Option ℚ) (clear : Bool) (mode : AutoMode) (params : Option GridParams) (border : Option PtArr)
    (hF : F = .plain ∨ (clear = true ∧ (grid env t alg res clear mode params border).1.err = none))
    (hold : F = .plain → ∀ r L, t.coreAt r = some L → ∃ pts, MadeFrom t.depthKey fl t.minX t.minY t.width r pts L) (r : ℚ) (L : Dict Layer LayerArr)
    (hL : (grid env t alg res clear mode params border).1.st.coreAt r = some L) : ∃ pts, MadeFrom t.depthKey fl t.minX t.minY t.width r pts L := by
  rw [grid_eq] at hL hF
  cases hch : chooseResolution env t res mode with
  | error e =>
    rw [hch] at hL hF
    rcases hF with hF | ⟨-, hF⟩
    · exact hold hF r L hL
    · cases hF
  | ok r0 =>
    rw [hch] at hL hF
    simp only at hL hF
    cases hp : isPowerOfTwo r0 with
    | false =>
      rw [gridAt_bad env t alg hp] at hL hF
      rcases hF with hF | ⟨-, hF⟩
      · exact hold hF r L hL
      · cases hF
    | true =>
      obtain ⟨d, hd, hdf⟩ := h.data
      have hpre : GInv (if clear then t.clearGrid else t) fl .plain := by
        rcases hF with rfl | ⟨rfl, -⟩
        · exact ginv_pre h clear
        · exact ginv_clearGrid h
      have key := gridAt_canon env hpre hp hd ha params border
      simp only at key
      obtain ⟨-, -, -, hoth, hres⟩ := key
      by_cases hr : r = r0
      · subst hr
        have hpts : t.pts = d.pts := by simp [Tile.pts, hd]
        obtain ⟨L', e1, e2⟩ := canon_made env (depthKey_cases t) h.wpos (isPowerOfTwo_pos hp) d (by rw [← hpts]; exact h.box) ha params border
        rw [e1] at hres
        simp only at hres
        rw [hres.2.1] at hL
        cases hL
        rw [hdf] at e2
        exact ⟨_, e2⟩
      · rw [hoth r hr] at hL
        rcases hF with hF | ⟨rfl, -⟩
        · cases clear with
          | true => cases hL
          | false => exact hold hF r L hL
        · cases hL

theorem remove_coreAt {t : Tile} {A : Store} {fl : Fields} {F : Family} (h : GInv t fl F) (hr : Rep t A fl) (c : String) (r : ℚ) :
    (removePoints t c).st.coreAt r = t.coreAt r := by
  obtain ⟨d, hd, hdf⟩ := h.data
  cases hc : t.container.get? c with
  | none => rw [removePoints_of_not_mem t c ((Dict.get?_eq_none _ _).1 hc)]; rfl
  | some se =>
    obtain ⟨u, hu, -, -, -, -, -, -, -, -, -, u9⟩ := removePoints_mem (s := se.1) (e := se.2) hc hd (idxLen_of_ginv_idx hr hd)
    rw [hu, Res.ok_st, coreAt_congr u9, foldl_clearTemp_coreAt]

theorem add_coreAt {t : Tile} {A : Store} {fl : Fields} {F : Family} (h : GInv t fl F) (hr : Rep t A fl) {d : PtArr} (hf : d.fields = fl) (c : String) (r : ℚ) :
    (addPoints t d c).st.coreAt r = t.coreAt r := by
  have hnew : ∀ v : Tile, GInv v fl F → c ∉ v.container.keys → (addPoints v d c).st.coreAt r = v.coreAt r := by
    intro v hv hc
    obtain ⟨old, hd, hdf⟩ := hv.data
    obtain ⟨u, hu, -, -, -, -, -, -, -, -, -, u9⟩ := addPoints_some hd hc (hdf.trans hf.symm)
    rw [hu, Res.ok_st, coreAt_congr u9, foldl_clearTemp_coreAt]
  by_cases hc : c ∈ t.container.keys
  · obtain ⟨v, hv, hvr, hfr, -, -, -⟩ := removePoints_spec hr c
    have hg := ginv_remove h hr c
    have hcr := remove_coreAt h hr c r
    rw [hv] at hg hcr
    simp only [Res.ok_st] at hg hcr
    have hvn : c ∉ v.container.keys := by
      rw [hvr.container, slicesFrom_keys, Store.mem_names_remove]; simp
    obtain ⟨old, hd, -⟩ := h.data
    obtain ⟨vd, hvd, -⟩ := hg.data
    have he : addPoints t d c = addPoints v d c := by
      have hhas : t.container.has c = true := (Dict.has_iff _ _).2 hc
      have hhas' : v.container.has c = false := (Dict.has_false_iff _ _).2 hvn
      unfold addPoints
      simp only [hd, hhas, hv, hvd, hhas', if_true, Bool.false_eq_true, if_false, Res.andThen_ok]
    rw [he, hnew v hg hvn, hcr]
  · exact hnew t h hc

end Tile

/-- in every tile of a history the layers of each resolution come from one list of soundings, if the last algorithms are mean and shoalest -/
theorem history_made {env : Env} {x y size : ℚ} {bs : Bool} {fl : Fields} {F : Family} {t : Tile} {A : Store} (hw : 0 < size)
    (h : TileHistory env x y size bs fl F t A) (hF : F = .plain) (r : ℚ) (L : Dict Layer LayerArr) (hL : t.coreAt r = some L) :
    ∃ pts, Tile.MadeFrom t.depthKey fl x y size r pts L := by
  have hall : F = .plain → ∀ r L, t.coreAt r = some L → ∃ pts, Tile.MadeFrom t.depthKey fl t.minX t.minY t.width r pts L := by
    clear hL hF
    have conv : ∀ {t u : Tile}, Tile.sameFrame t u → (∀ r, u.coreAt r = t.coreAt r) →
        (∀ r L, t.coreAt r = some L → ∃ pts, Tile.MadeFrom t.depthKey fl t.minX t.minY t.width r pts L) →
        ∀ r L, u.coreAt r = some L → ∃ pts, Tile.MadeFrom u.depthKey fl u.minX u.minY u.width r pts L := by
      intro t u hf hc ih r L hL
      rw [hc] at hL
      rw [Tile.depthKey_frame hf, hf.1, hf.2.2.1, hf.2.2.2.2.1]
      exact ih r L hL
    induction h with
    | first F pts c hbox => intro _ r L hL; simp [Tile.coreAt, Tile.addPoints, Tile.new] at hL
    | @add F t A h pts c hbox ih =>
      obtain ⟨hf, hr, hg⟩ := history_frame hw h
      obtain ⟨u, hu, -, hf', -⟩ := Tile.addPoints_spec hr ⟨fl, pts⟩ rfl c
      have hcr := Tile.add_coreAt (d := ⟨fl, pts⟩) hg hr rfl c
      rw [hu] at hcr ⊢
      exact fun hF => conv hf' hcr (ih hF)
    | @remove F t A h c ih =>
      obtain ⟨hf, hr, hg⟩ := history_frame hw h
      obtain ⟨u, hu, -, hf', -⟩ := Tile.removePoints_spec hr c
      have hcr := Tile.remove_coreAt hg hr c
      rw [hu] at hcr ⊢
      exact fun hF => conv hf' hcr (ih hF)
    | @query F t A h l r n z ih =>
      exact fun hF => conv (Tile.getLayer_same env t l r n z).1.2.2 (Tile.getLayer_core env t l r n z).2.2 (ih hF)
    | @reread F t u A h hu ih => exact fun hF => conv (Tile.reread_same hu).2.2 (Tile.reread_coreAt hu) (ih hF)
    | @grid F t A h alg ha res clear mode params border ih =>
      intro hF r L hL
      obtain ⟨hf, hr, hg⟩ := history_frame hw h
      have hs := (Tile.grid_same env t alg res clear mode params border hr.idx).1.2.2
      rw [Tile.depthKey_frame hs, hs.1, hs.2.2.1, hs.2.2.2.2.1]
      exact Tile.grid_made env hg (by rw [ha, hF]) res clear mode params border (Or.inl hF) ih r L hL
    | @switch F F' t A h alg ha res mode params border hok ih =>
      intro hF r L hL
      obtain ⟨hf, hr, hg⟩ := history_frame hw h
      have hs := (Tile.grid_same env t alg res true mode params border hr.idx).1.2.2
      rw [Tile.depthKey_frame hs, hs.1, hs.2.2.1, hs.2.2.2.2.1]
      exact Tile.grid_made env hg (by rw [ha, hF]) res true mode params border (Or.inr ⟨rfl, hok⟩) ih r L hL
    | @clearGrid F t A h F' ih => intro _ r L hL; cases hL
  obtain ⟨hf, -, -⟩ := history_frame hw h
  have := hall hF r L hL
  rw [hf.1, hf.2.2.1, hf.2.2.2.2.1] at this
  exact this

end Bathy
