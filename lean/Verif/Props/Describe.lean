import Verif.Model.Describe
import Verif.Lemmas.LogMean
import Verif.Props.Containers
import Verif.Props.Metadata

/-!
# C116: the printed description of a grid, and what its mean depth is (C51)

Model: `Grid.reprLines` (bathygrid/bgrid.py:62-86, 2103-2113), `Grid.returnExtents` (bathygrid/bgrid.py:1735-1745).
-/

namespace Bathy
open Grid

variable {env : Env} {size sub : ℚ} {bs : Bool} {fl : Fields} {F : Family} {s : Bool} {A : Store}

/-- **C51** (what it is instead): after any calls, also such that raise, `mean_depth` is the mean depth of the soundings of the last call of `add_points` that returned, rounded to
three digits, whether they are still in the grid or not; before the first one it is what it was. -/
theorem C51_last_added {τ : Type} [GridLike τ] [LawfulGrid τ] [Queried τ] {g0 g : Grid τ} {log : List AddCall} (h : Logged env g0 log g) :
    ((∀ x ∈ log, x.ok = false) ∧ g.meanDepth = g0.meanDepth) ∨
    ∃ l1 x l2, log = l1 ++ x :: l2 ∧ x.ok = true ∧ (∀ y ∈ l2, y.ok = false) ∧ g.meanDepth = round3 (meanOf (x.d.pts.map Pt.z)) := by
  induction h with
  | new => exact Or.inl ⟨by simp, rfl⟩
  | remove h c ih => rw [removePoints_mean]; exact ih
  | grid h a dask ih => rw [gridWith_mean]; exact ih
  | query h hq ih => rw [query_mean hq]; exact ih
  | add h d c a ih =>
    rename_i g
    by_cases hok : (g.addPoints d c a).err = none
    · right
      exact ⟨_, _, [], rfl, by simpa using hok, by simp, by rw [addPoints_meanDepth hok, meanDepthOf_eq]⟩
    · rw [addPoints_fail_mean g d c a hok]
      rcases ih with ⟨h1, h2⟩ | ⟨l1, x, l2, h1, h2, h3, h4⟩
      · left
        refine ⟨fun x hx => ?_, h2⟩
        rcases List.mem_append.1 hx with hx | hx
        · exact h1 x hx
        · rw [List.mem_singleton.1 hx]; simpa using hok
      · right
        refine ⟨l1, x, l2 ++ [_], by rw [h1, List.append_assoc, List.cons_append], h2, fun y hy => ?_, h4⟩
        rcases List.mem_append.1 hy with hy | hy
        · exact h3 y hy
        · rw [List.mem_singleton.1 hy]; simpa using hok

/-- What is printed of a grid with the containers `names` and the extents `e`: `ds` are the datasets of the containers, each once, in the order of the first container of each. -/
def Described (f : ReprStyle) (folder : String) (bs : Bool) (res : List ℚ) (mean : ℚ) (info : Meta) (names : List String) (e : Option Extents) (lines : List String) : Prop :=
  ∃ ds entries, List.Forall₂ (fun ky d => (CutTwice ky ∧ d = ky) ∨ (¬ CutTwice ky ∧ DatasetOf ky d)) names entries ∧ FirstSeen entries ds ∧
    ∃ time epsg north east, lines = [time, epsg, "Path: " ++ folder, "Bathygrid Version: " ++ f.version, "Resolutions (meters): " ++ f.list res, "Containers:"] ++ ds.map (" - " ++ ·) ++
        (if bs = true then ["Backscatter Mosaic: True", "Mean Intensity: " ++ f.num mean] else ["Backscatter Mosaic: False", "Mean Depth: " ++ f.rounded mean]) ++ [north, east] ∧
      (∀ t0 t1, info.minTime = some t0 → info.maxTime = some t1 → time = "Time of Data (UTC): " ++ t0 ++ " to " ++ t1) ∧
      (∀ n name, info.epsg = some n → f.crsName n = some name → epsg = "EPSG: " ++ toString n ++ " (" ++ name ++ ")") ∧
      (info.epsg = none → epsg = "EPSG: None (Unknown)") ∧
      (∀ x, e = some x → north = "Minimum Northing: " ++ f.num x.minY ++ " Maximum Northing: " ++ f.num x.maxY ∧ east = "Minimum Easting: " ++ f.num x.minX ++ " Maximum Easting: " ++ f.num x.maxX) ∧
      (e = none → north = "Minimum Northing: None Maximum Northing: None" ∧ east = "Minimum Easting: None Maximum Easting: None")

theorem described {τ : Type} (f : ReprStyle) (folder : String) (g : Grid τ) :
    Described f folder g.isBackscatter g.resolutions g.meanDepth g.info g.info.container.keys g.extents (g.reprLines f folder) := by
  obtain ⟨entries, h1, h2⟩ := C53_every_list g.info.container.keys
  refine ⟨_, entries, h1, h2, "Time of Data (UTC): " ++ g.info.minTime.getD "" ++ " to " ++ g.info.maxTime.getD "",
    "EPSG: " ++ (match g.info.epsg with | none => "None" | some n => toString n) ++ " (" ++ ((g.info.epsg.bind f.crsName).getD "Unknown") ++ ")",
    "Minimum Northing: " ++ reprNum f (g.extents.map Extents.minY) ++ " Maximum Northing: " ++ reprNum f (g.extents.map Extents.maxY),
    "Minimum Easting: " ++ reprNum f (g.extents.map Extents.minX) ++ " Maximum Easting: " ++ reprNum f (g.extents.map Extents.maxX), ?_, ?_, ?_, ?_, ?_, ?_⟩
  · unfold reprLines reprBase
    simp only [List.append_assoc, List.cons_append, List.nil_append]
    cases hb : g.isBackscatter <;> rfl
  · intro t0 t1 e0 e1; rw [e0, e1]; rfl
  · intro n name e0 e1; simp only [e0, Option.bind_some, e1, Option.getD_some]
  · intro e0; simp only [e0]; rfl
  · intro x e0; rw [e0]; exact ⟨rfl, rfl⟩
  · intro e0; rw [e0]; exact ⟨rfl, rfl⟩

/-- **C116, partial** (single resolution): after any calls `__repr__` shows the datasets of the containers of the grid, each once and nothing else, its resolutions, kind, times,
coordinate system and folder, and a box, that of `return_extents`, with every sounding in it.  Missing: the mean depth is that of the last container that was added (C51_last_added),
and a grid without soundings shows the mean depth and the box of those it had, see `C116_violated`. -/
theorem C116_described_sr_partial (hs : 0 < size) {g : Grid Tile} (h : SRHistory env size bs fl F s g A) (f : ReprStyle) (folder : String) :
    Described f folder bs g.resolutions g.meanDepth g.info A.names g.extents (g.reprLines f folder) ∧
    (A ≠ [] → ∃ e, g.extents = some e ∧ g.returnExtents = ((some e.minX, some e.minY), (some e.maxX, some e.maxY)) ∧
      ∀ p ∈ A.allPts, e.minX ≤ p.x ∧ p.x < e.maxX ∧ e.minY ≤ p.y ∧ p.y < e.maxY) := by
  have hi := (sr_inv hs h).1
  constructor
  · have := described f folder g
    rw [hi.cont, hi.backscatter] at this
    exact this
  · intro hA
    obtain ⟨i, j, nx, ny, -, -, he, -, -, hall⟩ := C10_extents_sr hs h hA
    exact ⟨_, he, by unfold returnExtents; rw [he]; rfl, hall⟩

/-- **C116, partial** (variable resolution) -/
theorem C116_described_vr_partial (hs : 0 < size) (hsub : isPowerOfTwo sub = true) {g : Grid (Grid Tile)} (h : VRHistory env size sub bs fl F s g A) (f : ReprStyle) (folder : String) :
    Described f folder bs g.resolutions g.meanDepth g.info A.names g.extents (g.reprLines f folder) ∧
    (A ≠ [] → ∃ e, g.extents = some e ∧ g.returnExtents = ((some e.minX, some e.minY), (some e.maxX, some e.maxY)) ∧
      ∀ p ∈ A.allPts, e.minX ≤ p.x ∧ p.x < e.maxX ∧ e.minY ≤ p.y ∧ p.y < e.maxY) := by
  have hi := (vr_inv hs hsub h).1
  constructor
  · have := described f folder g
    rw [hi.cont, hi.backscatter] at this
    exact this
  · intro hA
    obtain ⟨i, j, nx, ny, -, -, he, -, -, hall⟩ := C10_extents_vr hs hsub h hA
    exact ⟨_, he, by unfold returnExtents; rw [he]; rfl, hall⟩

/-- **C116** does not hold: after the only container is removed the grid still prints its mean depth and its box. -/
theorem C116_violated : ∃ g : Grid Tile, SRHistory demoEnv 16 false demoFields .plain true g [] ∧
    ∀ f folder, "Mean Depth: " ++ f.rounded (17667 / 1000) ∈ g.reprLines f folder ∧
      "Minimum Northing: " ++ f.num 0 ++ " Maximum Northing: " ++ f.num 48 ∈ g.reprLines f folder ∧ "Minimum Easting: " ++ f.num 0 ++ " Maximum Easting: " ++ f.num 32 ∈ g.reprLines f folder := by
  refine ⟨_, ((GridHistory.new .plain).add demoA "a" demoArgs (by decide +kernel)).remove "a" (by decide +kernel), fun f folder => ?_⟩
  have h : (((newSR 16 false).addPoints ⟨demoFields, demoA⟩ "a" demoArgs).st.removePoints "a").st.meanDepth = 17667 / 1000 ∧
      (((newSR 16 false).addPoints ⟨demoFields, demoA⟩ "a" demoArgs).st.removePoints "a").st.isBackscatter = false ∧
      (((newSR 16 false).addPoints ⟨demoFields, demoA⟩ "a" demoArgs).st.removePoints "a").st.extents = some ⟨0, 32, 0, 48⟩ := by decide +kernel
  obtain ⟨h1, h2, h3⟩ := h
  unfold reprLines reprBase
  rw [h1, h2, h3]
  simp [reprNum]

/-- C116: two containers of one dataset and one of another -/
example : ∃ g A, SRHistory demoEnv 16 false demoFields .plain false g A ∧ A.names = ["x__1", "y", "x__2"] ∧ g.uniqueContainerEntries = ["x", "y"] :=
  ⟨_, _, (((GridHistory.new .plain).add demoA "x__1" demoArgs (by decide +kernel)).add demoB "y" {} (by decide +kernel)).add demoA "x__2" {} (by decide +kernel), by decide +kernel, by decide +kernel⟩

/-- the hypotheses of C51_last_added -/
example : ∃ log g, Logged demoEnv (newSR 16 false : Grid Tile) log g ∧ log.map AddCall.ok = [true, false] ∧ g.meanDepth = 17667/1000 :=
  ⟨_, _, ((Logged.new).add ⟨demoFields, demoA⟩ "a" {}).add ⟨demoFields, demoB⟩ "a" {}, by decide +kernel, by decide +kernel⟩

end Bathy
