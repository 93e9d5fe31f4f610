import Verif.Lemmas.LeftBehind
import Verif.Lemmas.TilePoints

/-!
# gridding and queries do not touch the soundings of a tile
-/

namespace Bathy

theorem Dict.mem_set {κ ν : Type} [DecidableEq κ] {d : Dict κ ν} {k : κ} {v : ν} {q : κ × ν} (h : q ∈ d.set k v) :
    q = (k, v) ∨ q ∈ d := by
  induction d with
  | nil => simpa using h
  | cons p d ih =>
    rw [Dict.set_cons] at h
    by_cases hp : p.1 = k
    · rw [if_pos hp] at h
      rcases List.mem_cons.1 h with h | h
      · exact Or.inl h
      · exact Or.inr (List.mem_cons_of_mem _ h)
    · rw [if_neg hp] at h
      rcases List.mem_cons.1 h with h | h
      · exact Or.inr (h ▸ List.mem_cons_self)
      · rcases ih h with h | h
        · exact Or.inl h
        · exact Or.inr (List.mem_cons_of_mem _ h)

theorem bin2d_length {xs ys xe ye : List ℚ} {l : List Nat} (hlen : xs.length = ys.length)
    (h : bin2d [xs] [ys] xe ye = .ok l) : l.length = xs.length := by
  by_cases h2 : xe.length = 2 ∧ ye.length = 2
  · unfold bin2d at h; rw [if_pos h2] at h
    cases h; simp
  · rw [bin2d_single xs ys xe ye hlen h2] at h
    split at h
    · rename_i l' hl
      cases h
      rw [mapM_length hl]; simp [hlen]
    · cases h

theorem assignMask_length {α : Type} {a : List α} {m : List Bool} {v r : List α} (h : assignMask a m v = some r) :
    r.length = a.length := by
  induction a generalizing m v r with
  | nil =>
    cases m <;> cases v <;> simp_all [assignMask]
  | cons x a ih =>
    cases m with
    | nil => simp [assignMask] at h
    | cons b m =>
      cases b with
      | true =>
        cases v with
        | nil => simp [assignMask] at h
        | cons w v =>
          simp only [assignMask, Option.map_eq_some_iff] at h
          obtain ⟨r', hr, rfl⟩ := h
          simp [ih hr]
      | false =>
        simp only [assignMask, Option.map_eq_some_iff] at h
        obtain ⟨r', hr, rfl⟩ := h
        simp [ih hr]

namespace Tile

/-- every cached cell index array has one entry per sounding -/
def IdxLen (t : Tile) : Prop := ∀ r l, (r, l) ∈ t.cellIdx → l.length = t.pts.length

/-- `u` has the soundings, containers and extents of `t` -/
def samePoints (t u : Tile) : Prop := u.data = t.data ∧ u.container = t.container ∧ sameFrame t u

theorem samePoints_refl (t : Tile) : samePoints t t := ⟨rfl, rfl, sameFrame_refl t⟩
theorem samePoints_trans {t u v : Tile} (h1 : samePoints t u) (h2 : samePoints u v) : samePoints t v :=
  ⟨h2.1.trans h1.1, h2.2.1.trans h1.2.1, sameFrame_trans h1.2.2 h2.2.2⟩

theorem samePoints_pts {t u : Tile} (h : samePoints t u) : u.pts = t.pts := by
  unfold Tile.pts; rw [h.1]

theorem idxLen_of_same {t u : Tile} (h : samePoints t u) (hi : u.cellIdx = t.cellIdx) (hl : IdxLen t) : IdxLen u := by
  intro r l hm; rw [hi] at hm; rw [samePoints_pts h]; exact hl r l hm

theorem idxLen_set {t u : Tile} (h : samePoints t u) {r : ℚ} {l : List Int} (hi : u.cellIdx = t.cellIdx.set r l)
    (hn : l.length = t.pts.length) (hl : IdxLen t) : IdxLen u := by
  intro r' l' hm
  rw [hi] at hm
  rw [samePoints_pts h]
  rcases Dict.mem_set hm with h | h
  · cases h; exact hn
  · exact hl _ _ h

theorem clearTemp_same (t : Tile) (r : ℚ) : samePoints t (t.clearTemp r) ∧ (t.clearTemp r).cellIdx = t.cellIdx := by
  obtain ⟨h1, h2, h3, h4, h5, h6, h7, h8, h9, h10, -⟩ := clearTemp_fields t r
  exact ⟨⟨h1, h2, h4, h5, h6, h7, h8, h9, h10⟩, h3⟩

theorem clearGrid_same (t : Tile) : samePoints t t.clearGrid ∧ t.clearGrid.cellIdx = t.cellIdx :=
  ⟨⟨rfl, rfl, sameFrame_refl t⟩, rfl⟩

theorem newGrid_same (t : Tile) (r : ℚ) (alg : Alg) :
    samePoints t (newGrid t r alg).st ∧ (newGrid t r alg).st.cellIdx = t.cellIdx := by
  unfold newGrid
  split
  · simp only
    split
    · exact ⟨⟨rfl, rfl, by simp [sameFrame]⟩, rfl⟩
    · exact ⟨samePoints_refl t, rfl⟩
  · exact ⟨samePoints_refl t, rfl⟩

theorem fillIdx_length {d : PtArr} {idx l : List Int} {ex ey : List ℚ} (h : fillIdx d idx ex ey = .ok l) :
    l.length = idx.length := by
  unfold fillIdx at h
  simp only at h
  split at h
  · split at h
    · split at h
      · cases h
      · split at h
        · rename_i hb
          cases h; exact assignMask_length hb
        · cases h
    · cases h
  · cases h; rfl

theorem prepare_same {t u : Tile} {r : ℚ} (h : prepare t r = .ok u) (hl : IdxLen t) : samePoints t u ∧ IdxLen u := by
  unfold prepare at h
  split at h
  · split at h
    · split at h
      · cases h
      · rename_i d hd
        split at h
        · cases h
        · rename_i b hb
          have hlen := bin2d_length (by simp) hb
          cases h
          refine ⟨⟨rfl, rfl, by simp [sameFrame]⟩, ?_⟩
          refine idxLen_set (t := t) ⟨rfl, rfl, by simp [sameFrame]⟩ rfl ?_ hl
          simp only [List.length_map] at hlen ⊢
          rw [hlen]; simp [Tile.pts, hd]
    · rename_i idx hidx
      split at h
      · cases h
      · cases h
      · rename_i idx' ls hfi hls
        split at h
        · cases h
        · cases h
          refine ⟨⟨rfl, rfl, by simp [sameFrame]⟩, ?_⟩
          refine idxLen_set (t := t) ⟨rfl, rfl, by simp [sameFrame]⟩ rfl ?_ hl
          rw [fillIdx_length hfi]
          exact hl _ _ (Dict.mem_of_get? _ hidx)
  · cases h

theorem runPlain_same {f : List ℚ → List Int → GridArrays → List ℚ → List ℚ → Except Err GridArrays} {t u : Tile} {r : ℚ}
    (h : runPlain f t r = .ok u) : samePoints t u ∧ u.cellIdx = t.cellIdx := by
  unfold runPlain at h
  split at h
  · split at h
    · cases h
    · cases h; exact ⟨⟨rfl, rfl, by simp [sameFrame]⟩, rfl⟩
  · cases h
  · cases h

theorem runPlainOnly_same {f : List ℚ → List Int → GridArrays → List ℚ → List ℚ → Except Err GridArrays} {t u : Tile} {r : ℚ}
    {c : String} (h : runPlainOnly f t r c = .ok u) : samePoints t u ∧ u.cellIdx = t.cellIdx := by
  unfold runPlainOnly at h
  split at h
  · split at h
    · simp only at h
      split at h
      · cases h
      · cases h; exact ⟨⟨rfl, rfl, by simp [sameFrame]⟩, rfl⟩
    · cases h
  · cases h
  · cases h

theorem runCube_same {env : Env} {t u : Tile} {r : ℚ} {p : Option GridParams} {b : Option PtArr}
    (h : runCube env t r p b = .ok u) : samePoints t u ∧ u.cellIdx = t.cellIdx := by
  unfold runCube at h
  split at h
  · cases h
  · split at h
    · cases h
    · split at h
      · split at h
        · split at h
          · cases h
          · cases h; exact ⟨⟨rfl, rfl, by simp [sameFrame]⟩, rfl⟩
        · cases h
      · cases h

theorem runAlg_same {env : Env} {t u : Tile} {alg : Alg} {r : ℚ} {p : Option GridParams} {b : Option PtArr}
    (h : runAlg env t alg r p b = .ok u) : samePoints t u ∧ u.cellIdx = t.cellIdx := by
  unfold runAlg at h
  cases alg with
  | mean => exact runPlain_same h
  | shoalest => exact runPlain_same h
  | cube => exact runCube_same h
  | other => cases h; exact ⟨samePoints_refl t, rfl⟩

theorem gridAt_same (env : Env) (t : Tile) (alg : Alg) (r : ℚ) (clear : Bool) (p : Option GridParams) (b : Option PtArr)
    (hl : IdxLen t) : samePoints t (gridAt env t alg r clear p b).st ∧ IdxLen (gridAt env t alg r clear p b).st := by
  unfold gridAt
  split
  · have h1 : samePoints t (if clear then t.clearGrid else t) ∧ (if clear then t.clearGrid else t).cellIdx = t.cellIdx := by
      cases clear
      · exact ⟨samePoints_refl t, rfl⟩
      · exact clearGrid_same t
    simp only
    generalize hu1 : (if clear then t.clearGrid else t) = u1 at h1
    have h2 := clearTemp_same u1 r
    generalize hu2 : u1.clearTemp r = u2 at h2
    have e2 : samePoints t u2 := samePoints_trans h1.1 h2.1
    have i2 : u2.cellIdx = t.cellIdx := h2.2.trans h1.2
    generalize hr3 : (if (!u2.cells.has r || decide (u2.algorithm ≠ some alg)) = true then
        newGrid { u2 with algorithm := some alg, gridParams := p } r alg else Res.ok u2) = r3
    have h3 : samePoints u2 r3.st ∧ r3.st.cellIdx = u2.cellIdx := by
      rw [← hr3]
      split
      · have := newGrid_same { u2 with algorithm := some alg, gridParams := p } r alg
        exact ⟨samePoints_trans ⟨rfl, rfl, by simp [sameFrame]⟩ this.1, this.2⟩
      · exact ⟨samePoints_refl _, rfl⟩
    have e3 : samePoints t r3.st := samePoints_trans e2 h3.1
    have l3 : IdxLen r3.st := idxLen_of_same e3 (h3.2.trans i2) hl
    unfold Res.andThen
    cases hr : r3.err with
    | some e => exact ⟨e3, l3⟩
    | none =>
      simp only
      split
      · exact ⟨e3, l3⟩
      · rename_i u4 hp
        have h4 := prepare_same hp l3
        have e4 := samePoints_trans e3 h4.1
        split
        · exact ⟨e4, h4.2⟩
        · rename_i u5 hra
          have h5 := runAlg_same hra
          have e5 := samePoints_trans e4 h5.1
          refine ⟨⟨e5.1, e5.2.1, e5.2.2⟩, ?_⟩
          have := idxLen_of_same h5.1 h5.2 h4.2
          exact this
  · exact ⟨samePoints_refl t, hl⟩

theorem grid_same (env : Env) (t : Tile) (alg : Alg) (r : Option ℚ) (clear : Bool) (m : AutoMode) (p : Option GridParams)
    (b : Option PtArr) (hl : IdxLen t) :
    samePoints t (grid env t alg r clear m p b).1.st ∧ IdxLen (grid env t alg r clear m p b).1.st := by
  unfold grid
  split
  · exact ⟨samePoints_refl t, hl⟩
  · exact gridAt_same _ _ _ _ _ _ _ hl

theorem runSlopes_same {env : Env} {t u : Tile} {r : ℚ} (h : runSlopes env t r = .ok u) :
    samePoints t u ∧ u.cellIdx = t.cellIdx := by
  unfold runSlopes at h
  split at h
  · cases h
  · split at h
    · cases h; exact ⟨samePoints_refl t, rfl⟩
    · split at h
      · split at h
        · cases h
        · cases h; exact ⟨⟨rfl, rfl, by simp [sameFrame]⟩, rfl⟩
      · cases h
      · cases h

theorem ensureLayer_same {env : Env} {t u : Tile} {l : Layer} {r : ℚ} {n : Option ℚ} (h : ensureLayer env t l r n = .ok u) :
    samePoints t u ∧ u.cellIdx = t.cellIdx := by
  unfold ensureLayer fillLayer at h
  split at h
  · exact runSlopes_same h
  · exact runSlopes_same h
  · split at h
    · split at h
      · exact runPlainOnly_same h
      · exact runPlainOnly_same h
      · cases h
      · cases h; exact ⟨samePoints_refl t, rfl⟩
    · split at h
      · cases h
      · split at h
        · cases h; exact ⟨⟨rfl, rfl, by simp [sameFrame]⟩, rfl⟩
        · cases h
  · split at h
    · cases h; exact ⟨samePoints_refl t, rfl⟩
    · split at h
      · cases h
      · split at h
        · cases h; exact ⟨⟨rfl, rfl, by simp [sameFrame]⟩, rfl⟩
        · cases h
  · cases h; exact ⟨samePoints_refl t, rfl⟩

theorem getLayer_same (env : Env) (t : Tile) (l : Layer) (r n : Option ℚ) (z : Bool) :
    samePoints t (getLayer env t l r n z).1 ∧ (getLayer env t l r n z).1.cellIdx = t.cellIdx := by
  unfold getLayer
  simp only
  split
  · exact ⟨samePoints_refl t, rfl⟩
  · split
    · exact ⟨samePoints_refl t, rfl⟩
    · exact ⟨samePoints_refl t, rfl⟩
    · split
      · rcases leftBehind_cases t l _ with e | ⟨c, ls, a, b, hls, e⟩
        · rw [e]; exact ⟨samePoints_refl t, rfl⟩
        · rw [e]; exact ⟨⟨rfl, rfl, by simp [sameFrame]⟩, rfl⟩
      · rename_i u hu
        split
        · exact ensureLayer_same hu
        · exact ensureLayer_same hu

theorem rep_of_same {t u : Tile} {A : Store} {fl : Fields} (h : Rep t A fl) (hs : samePoints t u) (hl : IdxLen u) :
    Rep u A fl := by
  refine ⟨h.names, hs.2.1.trans h.container, (samePoints_pts hs).trans h.pts, ?_, ?_, hl⟩
  · intro d hd; rw [hs.1] at hd; exact h.fields d hd
  · intro hd; rw [hs.1] at hd; exact h.empty hd

end Tile
end Bathy
