import Verif.Lemmas.OldDensity
import Verif.Props.TileResolution

/-!
# C79: the older density search

Model: `Tile.resolutionByDensityOld` (bathygrid/tile.py:580-626), `Tile.assessResolution` (bathygrid/tile.py:543-578).
-/

namespace Bathy

variable {env : Env} {x y size : ℚ} {bs : Bool} {fl : Fields} {F : Family} {t : Tile} {A : Store}

/-- some cell with soundings has fewer than 5 -/
def TooFine (x y : ℚ) (pts : List Pt) (res : ℚ) : Prop := ∃ r c, 0 < (inCell x y res r c pts).length ∧ (inCell x y res r c pts).length < 5

/-- all cells with soundings have more than 20 -/
def TooCoarse (x y : ℚ) (pts : List Pt) (res : ℚ) : Prop := ∀ r c, 0 < (inCell x y res r c pts).length → 20 < (inCell x y res r c pts).length

/-- the counts of a reachable tile -/
theorem cellCounts_history (hw : 0 < size) (h : TileHistory env x y size bs fl F t A) {s : ℚ} (hs : 0 < s) :
    Tile.cellCounts t ⟨fl, A.allPts⟩ s = .ok (Tile.uniqueCounts (A.allPts.map (cellOf x y s (ncells size s)))) := by
  obtain ⟨hf, hr, hg⟩ := history_frame hw h
  unfold Tile.cellCounts
  have e1 := (arange_edges (lo := x) hw hs).1
  have e2 := (arange_edges (lo := y) hw hs).1
  have hb := bin2d_cells hw hs A.allPts (history_box hw h)
  rw [hf.2.1, hf.2.2.2.1, hf.1, hf.2.2.1]
  simp only [Tile.new]
  rw [e1, e2]
  simp only
  rw [hb]
  rfl

/-- what `_assess_resolution` answers on a reachable tile -/
theorem assess_history (hw : 0 < size) (h : TileHistory env x y size bs fl F t A) {s : ℚ} (hs : 0 < s) :
    ∃ a, t.assessResolution s = .ok a ∧ (a = .low ↔ TooFine x y A.allPts s) ∧ (a = .high ↔ ¬ TooFine x y A.allPts s ∧ TooCoarse x y A.allPts s) := by
  have hbox := history_box hw h
  have hm := mem_counts hw hs hbox
  refine ⟨Tile.assessCounts ((Tile.uniqueCounts (A.allPts.map (cellOf x y s (ncells size s)))).map Prod.snd), by unfold Tile.assessResolution; rw [history_data hw h]; simp only [cellCounts_history hw h hs]; rfl, ?_⟩
  generalize ((Tile.uniqueCounts (A.allPts.map (cellOf x y s (ncells size s)))).map Prod.snd) = l at hm
  have h1 : l.any (fun c => decide (c < 5)) = true ↔ TooFine x y A.allPts s := by
    simp only [List.any_eq_true, decide_eq_true_eq]
    constructor
    · rintro ⟨k, hk, hk5⟩
      obtain ⟨hk0, r, c, rfl⟩ := (hm k).1 hk
      exact ⟨r, c, hk0, hk5⟩
    · rintro ⟨r, c, h0, h5⟩
      exact ⟨_, (hm _).2 ⟨h0, r, c, rfl⟩, h5⟩
  have h2 : l.all (fun c => decide (c > 5 * 4)) = true ↔ TooCoarse x y A.allPts s := by
    simp only [List.all_eq_true, decide_eq_true_eq]
    constructor
    · intro h r c h0
      exact h _ ((hm _).2 ⟨h0, r, c, rfl⟩)
    · intro h k hk
      obtain ⟨hk0, r, c, rfl⟩ := (hm k).1 hk
      exact h r c hk0
  unfold Tile.assessCounts
  split_ifs with c1 c2
  · exact ⟨by simp [← h1, c1], by simp [← h1, c1]⟩
  · exact ⟨by simp [← h1, c1], by simp [← h1, ← h2, c1, c2]⟩
  · exact ⟨by simp [← h1, c1], by simp [← h1, ← h2, c1, c2]⟩

/-- **C79**: on every reachable tile, from every starting resolution of the table, `resolution_by_density_old` stops after at most 13 rounds and returns
a resolution of the table that is neither too fine nor too coarse, or that is the finest and too coarse, or the coarsest and too fine, or that is too coarse
while half of it is too fine. -/
theorem C79_old_search (hw : 0 < size) (h : TileHistory env x y size bs fl F t A) (starting : Option ℚ) (hst : ∀ s, starting = some s → s = 0 ∨ s ∈ tableResolutions) (fuel : Nat) (hfuel : 13 ≤ fuel) :
    ∃ r ∈ tableResolutions, t.resolutionByDensityOld starting fuel = some (.ok r) ∧
      ((¬ TooFine x y A.allPts r ∧ ¬ TooCoarse x y A.allPts r) ∨ (r = 1/4 ∧ TooCoarse x y A.allPts r) ∨ (r = 1024 ∧ TooFine x y A.allPts r) ∨
        (¬ TooFine x y A.allPts r ∧ TooCoarse x y A.allPts r ∧ TooFine x y A.allPts (r / 2))) := by
  have hpos : ∀ r ∈ tableResolutions, 0 < r := by decide +kernel
  have hsorted : tableResolutions.Pairwise (· < ·) := by decide +kernel
  have hhalf : ∀ i, 0 < i → i < 13 → tableResolutions[i - 1]? = (tableResolutions[i]?).map (· / 2) := by
    have : ∀ i < 13, 0 < i → tableResolutions[i - 1]? = (tableResolutions[i]?).map (· / 2) := by decide +kernel
    intro i h0 hi
    exact this i hi h0
  let P : ℚ → Assessed := fun s => match t.assessResolution s with | .ok a => a | .error _ => .good
  have hA : ∀ r ∈ tableResolutions, t.assessResolution r = .ok (P r) := by
    intro r hr
    obtain ⟨a, ha, -⟩ := assess_history hw h (hpos r hr)
    simp only [P, ha]
  have hP : ∀ r ∈ tableResolutions, (P r = .low ↔ TooFine x y A.allPts r) ∧ (P r = .high ↔ ¬ TooFine x y A.allPts r ∧ TooCoarse x y A.allPts r) := by
    intro r hr
    obtain ⟨a, ha, h1, h2⟩ := assess_history hw h (hpos r hr)
    have : P r = a := by simp only [P, ha]
    rw [this]
    exact ⟨h1, h2⟩
  have hloop : ∃ s ∈ tableResolutions, t.resolutionByDensityOld starting fuel = Tile.searchLoop t.assessResolution tableResolutions fuel [] s := by
    unfold Tile.resolutionByDensityOld
    simp only [table_resolutions]
    rcases starting with _ | s
    · exact ⟨16, by decide +kernel, rfl⟩
    · by_cases h0 : s = 0
      · subst h0
        exact ⟨16, by decide +kernel, rfl⟩
      · have := (hst s rfl).resolve_left h0
        exact ⟨s, this, by simp only [if_neg h0, if_pos this]⟩
  obtain ⟨s, hs, hloop⟩ := hloop
  obtain ⟨k, hk, hrun, r, hr, hset⟩ := Tile.search_stops hA hsorted s hs fuel hfuel
  have hrk : tableResolutions[k] = r := by
    rw [List.getElem?_eq_getElem hk] at hr
    exact Option.some.inj hr
  have hrm : r ∈ tableResolutions := hrk ▸ List.getElem_mem hk
  obtain ⟨p1, p2⟩ := hP r hrm
  refine ⟨r, hrm, by rw [hloop, hrun, hrk], ?_⟩
  rcases hset with h1 | ⟨hk0, h1⟩ | ⟨hk0, h1⟩ | ⟨h1, q, hq0, hq, hql⟩
  · left
    rw [h1] at p1 p2
    have n1 : ¬ TooFine x y A.allPts r := fun h => by simpa using p1.2 h
    exact ⟨n1, fun h => by simpa using p2.2 ⟨n1, h⟩⟩
  · right; left
    subst hk0
    exact ⟨by rw [← hrk]; rfl, (p2.1 h1).2⟩
  · right; right; left
    have : k = 12 := by
      have : tableResolutions.length = 13 := rfl
      omega
    subst this
    exact ⟨by rw [← hrk]; rfl, p1.1 h1⟩
  · right; right; right
    refine ⟨(p2.1 h1).1, (p2.1 h1).2, ?_⟩
    have hq2 := hhalf k hq0 hk
    rw [hq, hr] at hq2
    have hq3 : q = r / 2 := by simpa using hq2
    have hqm : q ∈ tableResolutions := List.mem_of_getElem? hq
    rw [← hq3]
    exact (hP q hqm).1.1 hql

/-- another starting resolution is refused -/
theorem C79_refused (t : Tile) {s : ℚ} (h0 : s ≠ 0) (hs : s ∉ tableResolutions) (fuel : Nat) : t.resolutionByDensityOld (some s) fuel = some (.error .valueError) := by
  unfold Tile.resolutionByDensityOld
  simp only [table_resolutions]
  rw [if_neg h0, if_neg hs]

/-- soundings for the examples: 5 in each of 20 cells of size 1, and a single one in another cell -/
def sparsePts : List Pt := ⟨61/2, 61/2, 10, 0, 0⟩ :: (List.range 100).map (fun i => ⟨((i / 5 : Nat) : ℚ) + ((i % 5 : Nat) : ℚ) / 8, 1/2, 10, 0, 0⟩)

/-- **C79, what the documentation says and the code does not do**: "if 95% of the cells contain at least this many points and not more than 4 times this
many points, the resolution is deemed good".  Here 20 of 21 cells have 5 points, and the answer is LOW.  And: the resolution that is returned may be larger
than the tile. -/
theorem C79_violated : ∃ t A, TileHistory demoEnv 0 0 32 false {} .plain t A ∧ A.allPts = sparsePts ∧
    (∀ c < 20, (inCell 0 0 1 0 c A.allPts).length = 5) ∧ (inCell 0 0 1 30 30 A.allPts).length = 1 ∧ A.allPts.length = 101 ∧
    t.assessResolution 1 = .ok .low ∧ t.resolutionByDensityOld (some 1) 13 = some (.ok 32) ∧ (95 : ℚ) / 100 ≤ 20 / 21 ∧
    ∃ t A, TileHistory demoEnv 0 0 4 false {} .plain t A ∧ t.resolutionByDensityOld none 13 = some (.ok 1024) := by
  refine ⟨_, _, TileHistory.first .plain sparsePts "a" (by decide +kernel), by decide +kernel, by decide +kernel, by decide +kernel, by decide +kernel, by decide +kernel, by decide +kernel, by norm_num,
    _, _, TileHistory.first .plain [⟨1, 1, 20, 0, 0⟩, ⟨1, 2, 30, 0, 0⟩] "a" (by decide +kernel), by decide +kernel⟩

/-- the hypotheses of `C79_old_search` are met, and the search turns round: 2 is too coarse, 1 is too fine -/
example : ∃ t A, TileHistory demoEnv 0 0 32 false {} .plain t A ∧ t.assessResolution 1 = .ok .low ∧ t.assessResolution 2 = .ok .high ∧
    t.resolutionByDensityOld (some 8) 13 = some (.ok 2) ∧ t.resolutionByDensityOld (some (1/2)) 13 = some (.ok 2) := by
  refine ⟨_, _, TileHistory.first .plain ((List.range 24).map (fun i => ⟨(if i = 0 then 1/2 else 3/2), 1/2 + ((i : Nat) : ℚ) / 50, 10, 0, 0⟩)) "a" (by decide +kernel), ?_⟩
  decide +kernel

end Bathy
