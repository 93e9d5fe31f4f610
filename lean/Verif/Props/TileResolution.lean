import Verif.Props.TileGridding

/-!
# C30, C31: automatic resolution of a tile

Model: `Tile.resolutionLookup` (bathygrid/tile.py:236-255), `Tile.resolutionByDensity` (bathygrid/tile.py:628-684).
The table is `depth_resolution_lookup` (bathygrid/grid_variables.py:6-7).
-/

namespace Bathy

/-- the resolutions of the table, written out -/
def tableResolutions : List ℚ := [1/4, 1/2, 1, 2, 4, 8, 16, 32, 64, 128, 256, 512, 1024]

theorem find_mono (T : List (ℚ × ℚ)) (hs : T.Pairwise (fun p q => p.2 ≤ q.2)) {d e : ℚ} (hde : d ≤ e) {p q : ℚ × ℚ}
    (hp : T.find? (fun p => decide (p.1 - d > 0)) = some p) (hq : T.find? (fun p => decide (p.1 - e > 0)) = some q) : p.2 ≤ q.2 := by
  induction T with
  | nil => cases hp
  | cons a T ih =>
    rw [List.pairwise_cons] at hs
    rw [List.find?_cons] at hp hq
    by_cases h1 : a.1 - e > 0
    · have h2 : a.1 - d > 0 := by linarith
      simp only [h1, h2, decide_true] at hp hq
      cases hp; cases hq; exact le_refl _
    · simp only [h1, decide_false] at hq
      by_cases h2 : a.1 - d > 0
      · simp only [h2, decide_true] at hp
        cases hp
        exact hs.1 q (List.mem_of_find?_eq_some hq)
      · simp only [h2, decide_false] at hp
        exact ih hs.2 hp hq

theorem table_sorted : Tile.lookupTable.Pairwise (fun p q => p.2 ≤ q.2) := by decide +kernel

theorem table_resolutions : Tile.lookupTable.map Prod.snd = tableResolutions := by decide +kernel

theorem lookupArgmax_mem (d : Option ℚ) : Tile.lookupArgmax d ∈ tableResolutions := by
  unfold Tile.lookupArgmax
  split
  · rename_i p hp
    rw [← table_resolutions]
    exact List.mem_map_of_mem (List.mem_of_find?_eq_some hp)
  · decide +kernel

theorem lookup_found {d : ℚ} (h : d < 20480) : ∃ p, Tile.lookupTable.find? (fun p => decide (p.1 - d > 0)) = some p ∧
    Tile.lookupArgmax (some d) = p.2 := by
  have hs : (Tile.lookupTable.find? (fun p => decide (p.1 - d > 0))).isSome = true := by
    rw [List.find?_isSome]
    exact ⟨(20480, 1024), by decide +kernel, by simpa using h⟩
  obtain ⟨p, hp⟩ := Option.isSome_iff_exists.1 hs
  refine ⟨p, hp, ?_⟩
  unfold Tile.lookupArgmax
  simp only [hp]

/-- **C30, partial** (tile): the automatic depth resolution is a table value clipped to the tile width; for mean depths below 20480 m it is the table
entry of the first depth bound above the mean depth, and a deeper mean never gets a finer resolution.
The restriction to depths below 20480 is needed: `C30_violated`. -/
theorem C30_depth_lookup_partial (t : Tile) (d : PtArr) (hd : t.data = some d) (hne : d.pts ≠ []) :
    ∃ r ∈ tableResolutions, t.resolutionLookup = .ok (min t.width r) ∧
    (meanOf (d.pts.map Pt.z) < 20480 →
      (∃ k, (k, r) ∈ Tile.lookupTable ∧ meanOf (d.pts.map Pt.z) < k ∧
        ∀ k' r', (k', r') ∈ Tile.lookupTable → meanOf (d.pts.map Pt.z) < k' → r ≤ r') ∧
      ∀ (t' : Tile) (d' : PtArr) (r' : ℚ), t'.data = some d' → d'.pts ≠ [] → t'.width = t.width →
        meanOf (d'.pts.map Pt.z) ≤ meanOf (d.pts.map Pt.z) → t'.resolutionLookup = .ok r' → r' ≤ min t.width r) := by
  have hmean : ∀ d : PtArr, d.pts ≠ [] → Tile.meanDepthOf (d.pts.map Pt.z) = some (meanOf (d.pts.map Pt.z)) := by
    intro d hne
    unfold Tile.meanDepthOf meanOf
    rw [if_neg]
    rw [List.length_map]
    exact fun h => hne (List.length_eq_zero_iff.1 h)
  refine ⟨Tile.lookupArgmax (some (meanOf (d.pts.map Pt.z))), lookupArgmax_mem _, ?_, ?_⟩
  · unfold Tile.resolutionLookup
    rw [hd]; simp only [hmean d hne]
  · intro hlt
    obtain ⟨p, hp, hp2⟩ := lookup_found hlt
    refine ⟨⟨p.1, ?_, ?_, ?_⟩, ?_⟩
    · rw [hp2]; exact List.mem_of_find?_eq_some hp
    · have := List.find?_some hp
      simpa using this
    · intro k' r' hm hk'
      rw [hp2]
      -- p is the first entry above the depth
      have gen : ∀ T : List (ℚ × ℚ), T.Pairwise (fun p q => p.2 ≤ q.2) → ∀ p, T.find? (fun p => decide (p.1 - meanOf (d.pts.map Pt.z) > 0)) = some p →
          (k', r') ∈ T → p.2 ≤ r' := by
        intro T hs p hp hm
        induction T with
        | nil => cases hp
        | cons a T ih =>
          rw [List.pairwise_cons] at hs
          rw [List.find?_cons] at hp
          by_cases h1 : a.1 - meanOf (d.pts.map Pt.z) > 0
          · simp only [h1, decide_true] at hp
            cases hp
            rcases List.mem_cons.1 hm with e | hm
            · rw [← e]
            · exact hs.1 _ hm
          · simp only [h1, decide_false] at hp
            rcases List.mem_cons.1 hm with e | hm
            · rw [← e] at h1; exact absurd (by simpa using hk') h1
            · exact ih hs.2 hp hm
      exact gen _ table_sorted p hp hm
    · intro t' d' r' hd' hne' hw' hle hr'
      unfold Tile.resolutionLookup at hr'
      rw [hd'] at hr'
      simp only [hmean d' hne'] at hr'
      cases hr'
      obtain ⟨q, hq, hq2⟩ := lookup_found (lt_of_le_of_lt hle hlt)
      rw [hp2, hq2, hw']
      exact min_le_min (le_refl _) (find_mono _ table_sorted hle hq hp)

/-- **C30 is violated**: a tile with a mean depth of 30000 m gets resolution 0.25, one with 15 m gets 0.5. -/
theorem C30_violated :
    let deep := ((Tile.new 0 0 4 false).addPoints ⟨{}, [⟨1, 1, 30000, 1, 1⟩]⟩ "a").st
    let shallow := ((Tile.new 0 0 4 false).addPoints ⟨{}, [⟨1, 1, 15, 1, 1⟩]⟩ "a").st
    deep.resolutionLookup = .ok (1/4) ∧ shallow.resolutionLookup = .ok (1/2) := by
  decide +kernel

theorem searchsortedLeft_le (a : List ℚ) (x : ℚ) : searchsortedLeft a x ≤ a.length := by
  unfold searchsortedLeft; exact List.countP_le_length

/-- the index the code reads is inside the table -/
theorem option_index {l : List ℚ} (hl : 0 < l.length) {i : Nat} (hi : i ≤ l.length) :
    ∃ r ∈ l, l[if i = l.length then i - 1 else i]? = some r := by
  have : (if i = l.length then i - 1 else i) < l.length := by split <;> omega
  exact ⟨l[if i = l.length then i - 1 else i], List.getElem_mem this, List.getElem?_eq_getElem this⟩

/-- **C31**: whatever the soundings, the starting resolution and the square root function, a resolution returned by
`resolution_by_density` is a table resolution or the tile size, and not coarser than the tile. -/
theorem C31_density_resolution_valid (env : Env) (t : Tile) (starting : Option ℚ) (r : ℚ) (h : t.resolutionByDensity env starting = .ok r) :
    (r ∈ tableResolutions ∨ r = t.maxX - t.minX) ∧ r ≤ t.maxX - t.minX := by
  have fin : ∀ i : Nat, i ≤ 13 →
      ((min (((Tile.lookupTable.map Prod.snd)[if i = (Tile.lookupTable.map Prod.snd).length then i - 1 else i]?).getD 0) (t.maxX - t.minX) ∈ tableResolutions ∨
        min (((Tile.lookupTable.map Prod.snd)[if i = (Tile.lookupTable.map Prod.snd).length then i - 1 else i]?).getD 0) (t.maxX - t.minX) = t.maxX - t.minX) ∧
       min (((Tile.lookupTable.map Prod.snd)[if i = (Tile.lookupTable.map Prod.snd).length then i - 1 else i]?).getD 0) (t.maxX - t.minX) ≤ t.maxX - t.minX) := by
    intro i hi
    rw [table_resolutions]
    obtain ⟨q, hq, hq'⟩ := option_index (l := tableResolutions) (by decide) (i := i) hi
    rw [hq', Option.getD_some]
    refine ⟨?_, min_le_right _ _⟩
    rcases min_choice q (t.maxX - t.minX) with e | e
    · left; rw [e]; exact hq
    · right; exact e
  have hlen : (Tile.lookupTable.map Prod.snd).length = 13 := by decide +kernel
  have hlen1 : (Tile.lookupTable.map Prod.fst).length = 13 := by decide +kernel
  have hlen0 : Tile.lookupTable.length = 13 := by decide +kernel
  unfold Tile.resolutionByDensity at h
  simp only at h
  split at h
  · cases h
  · cases h
  · split at h
    · cases h
    · split at h
      · cases h
        refine fin _ ?_
        split
        · rw [← hlen1]; exact searchsortedLeft_le _ _
        · rw [hlen0]
      · cases h
        refine fin _ ?_
        have := searchsortedLeft_le (Tile.lookupTable.map Prod.snd)
        rw [← hlen]; exact this _

/-- **C31** (no exceptions): on a reachable tile `resolution_by_density()` returns a resolution, and if the tile size is a power of
two gridding with it is not refused: `grid` with `auto_resolution_mode='density'` succeeds with a plain algorithm. -/
theorem C31_density_grid_succeeds {env : Env} {x y size : ℚ} {bs : Bool} {fl : Fields} {F : Family} {t : Tile} {A : Store} (hw : 0 < size)
    (h : TileHistory env x y size bs fl F t A) (hp2 : isPowerOfTwo size = true) (alg : Alg) (ha : alg = .mean ∨ alg = .shoalest)
    {clear : Bool} (hF : F = .plain ∨ clear = true) (params : Option GridParams) (border : Option PtArr) :
    ∃ r, t.resolutionByDensity env none = .ok r ∧ isPowerOfTwo r = true ∧
      (t.grid env alg none clear .density params border).1.err = none ∧
      (t.grid env alg none clear .density params border).2 = some r := by
  obtain ⟨hf, hr, hg⟩ := history_frame hw h
  have hdata := history_data hw h
  have hex : ∃ r, t.resolutionByDensity env none = .ok r := by
    have hcc : ∀ s, 0 < s → ∃ uc, Tile.cellCounts t ⟨fl, A.allPts⟩ s = .ok uc := by
      intro s hs
      unfold Tile.cellCounts
      have e1 := (arange_edges (lo := t.minX) hw hs).1
      have e2 := (arange_edges (lo := t.minY) hw hs).1
      have hb := bin2d_cells hw hs A.allPts (history_box hw h)
      rw [hf.2.1, hf.2.2.2.1, hf.1, hf.2.2.1] at *
      simp only [Tile.new] at *
      rw [e1, e2]
      simp only
      rw [hb]
      exact ⟨_, rfl⟩
    have hsz : t.maxX - t.minX = size := by rw [hf.2.1, hf.1]; simp [Tile.new]
    unfold Tile.resolutionByDensity
    simp only [hdata]
    obtain ⟨uc, huc⟩ := hcc (min (t.maxX - t.minX) 16) (by rw [hsz]; exact lt_min hw (by norm_num))
    rw [huc]
    simp only
    split
    · exact ⟨_, rfl⟩
    · exact ⟨_, rfl⟩
  obtain ⟨r, hr1⟩ := hex
  obtain ⟨hv, hle⟩ := C31_density_resolution_valid env t none r hr1
  have hpr : isPowerOfTwo r = true := by
    rcases hv with hv | hv
    · have : ∀ q ∈ tableResolutions, isPowerOfTwo q = true := by decide +kernel
      exact this r hv
    · rw [hv, hf.2.1, hf.1]; simpa [Tile.new] using hp2
  have hgrid : (t.grid env alg none clear .density params border) = (t.grid env alg (some r) clear .density params border) := by
    unfold Tile.grid Tile.chooseResolution
    simp only [hr1]
  refine ⟨r, hr1, hpr, ?_⟩
  rw [hgrid]
  rcases ha with rfl | rfl
  · have := C17_mean_is_cell_mean hw h hpr hF .density params border
    exact ⟨this.1, this.2.1⟩
  · have := C18_shoalest_is_cell_minimum hw h hpr hF .density params border
    exact ⟨this.1, this.2.1⟩

/-- C30: two tiles of the same size with mean depths 15 and 25; C31: a reachable tile of size 4 -/
example : ∃ t A, TileHistory demoEnv 0 0 4 false {} .plain t A ∧ t.data = some ⟨{}, A.allPts⟩ ∧ A.allPts.length = 2 ∧
    isPowerOfTwo 4 = true ∧ t.resolutionLookup = .ok 1 ∧ t.resolutionByDensity demoEnv none = .ok 4 := by
  refine ⟨_, _, TileHistory.first .plain [⟨1, 1, 20, 0, 0⟩, ⟨1, 2, 30, 0, 0⟩] "a" (by decide +kernel), ?_⟩
  decide +kernel

end Bathy
