import Verif.Model.Histogram
import Verif.Lemmas.Names
import Verif.Props.Stats
import Verif.Props.GridGridding

/-!
# C94: the histograms of a grid

Model: `Verif/Model/Histogram.lean` (bathygrid/bgrid.py:1550-1661).  Specification: `latticeCells`, `inLattice`, `PlainCell`, `MeanCell`.
-/

namespace Bathy
open Grid

variable {env : Env} {size sub : ℚ} {bs : Bool} {fl : Fields} {F F' : Family} {s : Bool} {A : Store} {a : GridCall} {dask : Option Nat}

/-- a value for each square of the lattice of width `r` that holds soundings, and none for the others: `R` relates it to the soundings of the square -/
def OnePerSquare (r : ℚ) (P : List Pt) (R : List Pt → Option ℚ → Prop) (L : List ℚ) : Prop :=
  ∃ cs, cs.Perm (latticeCells r P) ∧ List.Forall₂ (fun v k => R (inLattice r P k) (some v)) L cs

/-- layers whose values `return_layer_values` takes over as they are -/
def Layer.isValued : Layer → Bool
  | .depth | .intensity | .vertical | .horizontal | .totalUnc | .hypRatio => true
  | _ => false

theorem tile_layerValues {l : Layer} (hl : l.isValued = true) (t : Tile) :
    t.layerValues l = .ok ((t.cells.map (fun p => match Dict.get? p.2 l with | some a => a.flat.filterMap id | none => [])).flatten) := by
  cases l <;> first | rfl | cases hl

theorem values_ok_sr {l : Layer} (hl : l.isValued = true) (g : Grid Tile) : ∃ L, HasStats.layerValues g l = .ok L :=
  ⟨_, extend_sr (g := g) (f := fun t => t.layerValues l) (fun t _ => tile_layerValues hl t)⟩

theorem values_ok_vr {l : Layer} (hl : l.isValued = true) (g : Grid (Grid Tile)) : ∃ L, HasStats.layerValues g l = .ok L :=
  ⟨_, extend_vr (g := g) (f := fun t => t.layerValues l) (fun t _ => tile_layerValues hl t)⟩

theorem meanCell_none {f : Pt → ℚ} (ps : List Pt) (v : Option ℚ) (h : MeanCell round3 f ps v) : v = none ↔ ps = [] := by
  obtain ⟨h1, h2⟩ := h
  refine ⟨fun hv => ?_, h1⟩
  by_contra hne
  rw [h2 hne] at hv
  cases hv

theorem meanCell_perm {f : Pt → ℚ} {ps ps' : List Pt} {v : Option ℚ} (hp : ps.Perm ps') (h : MeanCell round3 f ps v) : MeanCell round3 f ps' v := by
  have e : ps' = [] ↔ ps = [] := ⟨fun h => (h ▸ hp).eq_nil, fun h => (h ▸ hp.symm).eq_nil⟩
  obtain ⟨h1, h2⟩ := h
  refine ⟨fun he => h1 (e.1 he), fun hne => ?_⟩
  rw [h2 (fun he => hne (e.2 he))]
  unfold meanOf
  rw [(hp.map _).sum_eq, (hp.map _).length_eq]

/-- the values of a layer that holds the means of `f` in all tiles -/
theorem meanValues_of {alg : Alg} {n : Nat} {Ls : List Tile} {r : ℚ} {P : List Pt} {l : Layer} {f : Pt → ℚ} (h : AllCleared alg .plain bs (n * r) Ls [r])
    (hl : OnLattice r n Ls P)
    (hm : ∀ t ∈ Ls, ∃ d, t.layerAt r l = some d ∧ EachCell d (ncells (n * r) r) t.minX t.minY r t.pts (MeanCell round3 f)) :
    OnePerSquare r P (MeanCell round3 f) (Ls.flatMap (fun t => (t.cells.map (fun p => match Dict.get? p.2 l with | some a => a.flat.filterMap id | none => [])).flatten)) := by
  refine hl.values (R := fun ps (v : ℚ) => MeanCell round3 f ps (some v)) (fun ps ps' v hp h => meanCell_perm hp h) ?_
  intro t ht
  obtain ⟨d, hd, hc⟩ := hm t ht
  obtain ⟨ls, -, hcells, -⟩ := (h.single t ht).2.layers
  rw [ncells_mul hl.pos] at hc
  have hg : Dict.get? ls l = some d := by
    unfold Tile.layerAt at hd
    rw [hcells] at hd
    simpa [Dict.get?] using hd
  rw [hcells]
  simp only [List.map_cons, List.map_nil, hg, List.flatten_cons, List.flatten_nil, List.append_nil]
  exact values_flat meanCell_none hc

/-! ## Depths -/

theorem mainLayer_written (bs : Bool) (fl : Fields) : (if bs then Layer.intensity else Layer.depth) ∈ writtenLayers F' bs fl := by
  cases bs <;> cases F' <;> simp [writtenLayers]

/-- **C94** (depths, single resolution): after a call of 'mean' or 'shoalest' with `clear_existing` that leaves one resolution dividing the tile size, the histogram of the depths
(of the intensities for backscatter) is one of the values of all squares with soundings, one for each. -/
theorem C94_depths_sr (hs : 0 < size) {g : Grid Tile} (h : SRHistory env size bs fl F s g A) (ha : a.alg.family = some .plain) (hc : a.clear = true)
    (hok : (g.gridWith env a dask).err = none) {r : ℚ} {n : Nat} (hr : (g.gridWith env a dask).st.resolutions = [r]) (hn : size = n * r) :
    ∃ L, plotZHistogram (g.gridWith env a dask).st = .ok (.hist L) ∧ OnePerSquare r A.allPts (PlainCell a.alg) L := by
  obtain ⟨L, cs, h1, h2, h3⟩ := C74_layer_values_sr hs h ha hc hok hr hn
  refine ⟨L, ?_, cs, h2, h3⟩
  have hb : (g.gridWith env a dask).st.isBackscatter = bs := (sr_inv hs (h.switch a ha hc dask hok)).1.backscatter
  have hmem := (names_sr hs h ha (Or.inr hc) (Or.inr hc) hok (l := if bs then .intensity else .depth) (by cases bs <;> rfl)).2 (mainLayer_written bs fl)
  unfold plotZHistogram layerHistogram Grid.depthKey
  rw [hb, if_pos hmem, h1]
  rfl

/-- **C94** (depths, variable resolution), for grids of depths -/
theorem C94_depths_vr_partial (hs : 0 < size) (hsub : isPowerOfTwo sub = true) {g : Grid (Grid Tile)} (h : VRHistory env size sub false fl F s g A) (ha : a.alg.family = some .plain)
    (hc : a.clear = true) (hok : (g.gridWith env a dask).err = none) {r : ℚ} {n m : Nat} (hr : (g.gridWith env a dask).st.resolutions = [r]) (hn : sub = n * r) (hm : size = m * sub) :
    ∃ L, plotZHistogram (g.gridWith env a dask).st = .ok (.hist L) ∧ OnePerSquare r A.allPts (PlainCell a.alg) L := by
  obtain ⟨L, cs, h1, h2, h3⟩ := C74_layer_values_vr hs hsub h ha hc hok hr hn hm
  refine ⟨L, ?_, cs, h2, h3⟩
  have hb : (g.gridWith env a dask).st.isBackscatter = false := (vr_inv hs hsub (h.switch a ha hc dask hok)).1.backscatter
  have hmem := (names_vr hs hsub h ha (Or.inr hc) (Or.inr hc) hok (l := .depth) rfl).2 (mainLayer_written false fl)
  unfold plotZHistogram layerHistogram Grid.depthKey
  rw [hb]
  simp only [Bool.false_eq_true, if_false]
  rw [if_pos hmem, h1]
  rfl

/-- **C94** (negative): a gridded variable resolution grid of backscatter has no histogram of its intensities, whatever the algorithm; the layer is called 'depth' in its subgrids (C63) -/
theorem C94_depths_fails_backscatter (hs : 0 < size) (hsub : isPowerOfTwo sub = true) {g : Grid (Grid Tile)} (h : VRHistory env size sub true fl F s g A) (ha : a.alg.family = some F')
    (hF : F' = F ∨ a.clear = true) (hv : a.regrid = .full ∨ a.clear = true) (hok : (g.gridWith env a dask).err = none) :
    plotZHistogram (g.gridWith env a dask).st = .ok (.printed "intensity not found") := by
  have hb : (g.gridWith env a dask).st.isBackscatter = true := (vr_inv hs hsub (history_after h ha hF hok)).1.backscatter
  have hmem : .intensity ∉ (g.gridWith env a dask).st.layerNames := by
    rw [names_vr hs hsub h ha hF hv hok (l := .intensity) rfl]
    cases F' <;> cases h1 : fl.hasTvu <;> cases h2 : fl.hasThu <;> simp [writtenLayers, h1, h2]
  unfold plotZHistogram layerHistogram Grid.depthKey
  rw [hb]
  simp only [if_true]
  rw [if_neg hmem]
  rfl

/-! ## Uncertainties -/

/-- the answers of the three uncertainty histograms of a gridded grid: drawn exactly if the gridding algorithm and the point records have it -/
structure UncertaintyPlots {τ : Type} [HasStats τ] [LayerNames τ] (F : Family) (fl : Fields) (g : Grid τ) : Prop where
  vertical : (∃ L, plotVerticalHistogram g = .ok (.hist L)) ↔ F = .plain ∧ fl.hasTvu = true
  horizontal : (∃ L, plotHorizontalHistogram g = .ok (.hist L)) ↔ F = .plain ∧ fl.hasThu = true
  total : (∃ L, plotTotalHistogram g = .ok (.hist L)) ↔ F = .cube
  otherwise : (∃ d, plotVerticalHistogram g = .ok d) ∧ (∃ d, plotHorizontalHistogram g = .ok d) ∧ ∃ d, plotTotalHistogram g = .ok d

theorem layerHistogram_drawn {τ : Type} [HasStats τ] [LayerNames τ] {g : Grid τ} {l : Layer} {text : String} (hv : ∃ L, HasStats.layerValues g l = .ok L) :
    ((∃ L, layerHistogram g l text = .ok (.hist L)) ↔ l ∈ g.layerNames) ∧ ∃ d, layerHistogram g l text = .ok d := by
  obtain ⟨L, hL⟩ := hv
  unfold layerHistogram
  by_cases hm : l ∈ g.layerNames
  · rw [if_pos hm, hL]
    exact ⟨⟨fun _ => hm, fun _ => ⟨L, rfl⟩⟩, _, rfl⟩
  · rw [if_neg hm]
    exact ⟨⟨(by rintro ⟨_, h⟩; simp at h), fun h => absurd h hm⟩, _, rfl⟩

theorem uncertaintyPlots_of {τ : Type} [HasStats τ] [LayerNames τ] {g : Grid τ} {bs : Bool} (hn : ∀ l : Layer, l.isCore = true → (l ∈ g.layerNames ↔ l ∈ writtenLayers F' bs fl))
    (hv : ∀ l : Layer, l.isValued = true → ∃ L, HasStats.layerValues g l = .ok L) : UncertaintyPlots F' fl g := by
  refine ⟨?_, ?_, ?_, ?_⟩
  · rw [plotVerticalHistogram, (layerHistogram_drawn (hv .vertical rfl)).1, hn _ rfl]
    cases F' <;> cases bs <;> cases h1 : fl.hasTvu <;> cases h2 : fl.hasThu <;> simp [writtenLayers, h1, h2]
  · rw [plotHorizontalHistogram, (layerHistogram_drawn (hv .horizontal rfl)).1, hn _ rfl]
    cases F' <;> cases bs <;> cases h1 : fl.hasTvu <;> cases h2 : fl.hasThu <;> simp [writtenLayers, h1, h2]
  · rw [plotTotalHistogram, (layerHistogram_drawn (hv .totalUnc rfl)).1, hn _ rfl]
    cases F' <;> cases bs <;> cases h1 : fl.hasTvu <;> cases h2 : fl.hasThu <;> simp [writtenLayers, h1, h2]
  · exact ⟨(layerHistogram_drawn (hv .vertical rfl)).2, (layerHistogram_drawn (hv .horizontal rfl)).2, (layerHistogram_drawn (hv .totalUnc rfl)).2⟩

/-- **C94** (uncertainties, single resolution): none of the plots raises after a gridding call of all tiles; the vertical and horizontal ones are drawn exactly for grids made by 'mean' or
'shoalest' of soundings with that uncertainty, the total one exactly for grids made by 'cube' -/
theorem C94_uncertainties_sr (hs : 0 < size) {g : Grid Tile} (h : SRHistory env size bs fl F s g A) (ha : a.alg.family = some F') (hF : F' = F ∨ a.clear = true)
    (hv : a.regrid = .full ∨ a.clear = true) (hok : (g.gridWith env a dask).err = none) : UncertaintyPlots F' fl (g.gridWith env a dask).st :=
  uncertaintyPlots_of (fun _ hl => names_sr hs h ha hF hv hok hl) (fun _ hl => values_ok_sr hl _)

/-- **C94** (uncertainties, variable resolution) -/
theorem C94_uncertainties_vr (hs : 0 < size) (hsub : isPowerOfTwo sub = true) {g : Grid (Grid Tile)} (h : VRHistory env size sub bs fl F s g A) (ha : a.alg.family = some F')
    (hF : F' = F ∨ a.clear = true) (hv : a.regrid = .full ∨ a.clear = true) (hok : (g.gridWith env a dask).err = none) : UncertaintyPlots F' fl (g.gridWith env a dask).st :=
  uncertaintyPlots_of (fun _ hl => names_vr hs hsub h ha hF hv hok hl) (fun _ hl => values_ok_vr hl _)

/-- what the uncertainty histograms of a grid made by 'mean' show -/
structure MeanUncertainties {τ : Type} [HasStats τ] [LayerNames τ] (fl : Fields) (r : ℚ) (P : List Pt) (g : Grid τ) : Prop where
  vertical : fl.hasTvu = true → ∃ L, plotVerticalHistogram g = .ok (.hist L) ∧ OnePerSquare r P (MeanCell round3 Pt.tvu) L
  horizontal : fl.hasThu = true → ∃ L, plotHorizontalHistogram g = .ok (.hist L) ∧ OnePerSquare r P (MeanCell round3 Pt.thu) L

/-- **C94** (values of the uncertainties, single resolution): for grids made by 'mean' the values are the means of the uncertainties of the soundings of each square with soundings -/
theorem C94_uncertainty_values_sr (hs : 0 < size) {g : Grid Tile} (h : SRHistory env size bs fl F s g A) (ha : a.alg = .mean) (hc : a.clear = true)
    (hok : (g.gridWith env a dask).err = none) {r : ℚ} {n : Nat} (hr : (g.gridWith env a dask).st.resolutions = [r]) (hn : size = n * r) :
    MeanUncertainties fl r A.allPts (g.gridWith env a dask).st := by
  have hfam : a.alg.family = some .plain := by rw [ha]; rfl
  have h' := h.switch a hfam hc dask hok
  have hall := allCleared_sr hs h hfam hc hok
  have hmean := fun t (ht : (g.gridWith env a dask).st.Leaf t) => C17_mean_grid_sr hs h ha (Or.inr hc) (Or.inr hc) hok ht
  have hnames := fun l (hl : l.isCore = true) => names_sr hs h hfam (Or.inr hc) (Or.inr hc) hok (l := l) hl
  generalize (g.gridWith env a dask).st = g' at h' hall hr hmean hnames ⊢
  rw [hr] at hall
  have hl := lattice_sr hs h' (pos_of_mul hs hn) hn
  have hmt : ∀ t ∈ LeafList.leaves g', MeanTile fl bs size t r := by
    intro t ht
    obtain ⟨r', hr', -, hm⟩ := hmean t (leaf_of_mem_sr (sr_wf hs h') ht)
    rw [hr] at hr'
    rw [List.mem_singleton.1 hr'] at hm
    exact hm
  subst hn
  constructor
  · intro hf
    refine ⟨_, ?_, meanValues_of (l := .vertical) hall hl (fun t ht => (hmt t ht).vertical hf)⟩
    rw [plotVerticalHistogram, layerHistogram, if_pos ((hnames .vertical rfl).2 (by simp [writtenLayers, hf]))]
    exact congrArg (Except.map Drawn.hist) (extend_sr (g := g') (f := fun t => t.layerValues .vertical) (fun t _ => tile_layerValues rfl t))
  · intro hf
    refine ⟨_, ?_, meanValues_of (l := .horizontal) hall hl (fun t ht => (hmt t ht).horizontal hf)⟩
    rw [plotHorizontalHistogram, layerHistogram, if_pos ((hnames .horizontal rfl).2 (by simp [writtenLayers, hf]))]
    exact congrArg (Except.map Drawn.hist) (extend_sr (g := g') (f := fun t => t.layerValues .horizontal) (fun t _ => tile_layerValues rfl t))

/-- **C94** (values of the uncertainties, variable resolution) -/
theorem C94_uncertainty_values_vr (hs : 0 < size) (hsub : isPowerOfTwo sub = true) {g : Grid (Grid Tile)} (h : VRHistory env size sub bs fl F s g A) (ha : a.alg = .mean)
    (hc : a.clear = true) (hok : (g.gridWith env a dask).err = none) {r : ℚ} {n m : Nat} (hr : (g.gridWith env a dask).st.resolutions = [r]) (hn : sub = n * r) (hm : size = m * sub) :
    MeanUncertainties fl r A.allPts (g.gridWith env a dask).st := by
  have hfam : a.alg.family = some .plain := by rw [ha]; rfl
  have h' := h.switch a hfam hc dask hok
  have hall := allCleared_vr hs hsub h hfam hc hok
  have hmean := fun t (ht : (g.gridWith env a dask).st.Leaf t) => C17_mean_grid_vr hs hsub h ha (Or.inr hc) (Or.inr hc) hok ht
  have hnames := fun l (hl : l.isCore = true) => names_vr hs hsub h hfam (Or.inr hc) (Or.inr hc) hok (l := l) hl
  generalize (g.gridWith env a dask).st = g' at h' hall hr hmean hnames ⊢
  rw [hr] at hall
  have hl := lattice_vr hs hsub h' (pos_of_mul (isPowerOfTwo_pos hsub) hn) hn hm
  have hmt : ∀ t ∈ LeafList.leaves g', MeanTile fl false sub t r := by
    intro t ht
    obtain ⟨k1, k2⟩ := vr_wf hs hsub h'
    obtain ⟨r', hr', -, hm⟩ := hmean t (leaf_of_mem_vr k1 k2 ht)
    rw [hr] at hr'
    rw [List.mem_singleton.1 hr'] at hm
    exact hm
  rw [hn] at hall hmt
  constructor
  · intro hf
    refine ⟨_, ?_, meanValues_of (l := .vertical) hall hl (fun t ht => (hmt t ht).vertical hf)⟩
    rw [plotVerticalHistogram, layerHistogram, if_pos ((hnames .vertical rfl).2 (by simp [writtenLayers, hf]))]
    exact congrArg (Except.map Drawn.hist) (extend_vr (g := g') (f := fun t => t.layerValues .vertical) (fun t _ => tile_layerValues rfl t))
  · intro hf
    refine ⟨_, ?_, meanValues_of (l := .horizontal) hall hl (fun t ht => (hmt t ht).horizontal hf)⟩
    rw [plotHorizontalHistogram, layerHistogram, if_pos ((hnames .horizontal rfl).2 (by simp [writtenLayers, hf]))]
    exact congrArg (Except.map Drawn.hist) (extend_vr (g := g') (f := fun t => t.layerValues .horizontal) (fun t _ => tile_layerValues rfl t))

/-! ## What is printed instead -/

/-- the line says which layer is not there -/
def SaysWhich (l : String) : Except Err Drawn → Prop
  | .ok (.printed text) => l.toList <:+: text.toList
  | _ => True

/-- **C94** (messages): the line printed for the depths, the vertical and the total uncertainty names it -/
theorem C94_message_partial {τ : Type} [HasStats τ] [LayerNames τ] (g : Grid τ) :
    SaysWhich (if g.isBackscatter then "intensity" else "depth") (plotZHistogram g) ∧ SaysWhich "Vertical Uncertainty" (plotVerticalHistogram g) ∧
      SaysWhich "Total Uncertainty" (plotTotalHistogram g) := by
  have key : ∀ (l : Layer) (text : String), SaysWhich text (layerHistogram g l text) := by
    intro l text
    unfold layerHistogram
    split
    · cases HasStats.layerValues g l <;> trivial
    · show text.toList <:+: (text ++ " not found").toList
      rw [String.toList_append]
      exact ⟨[], " not found".toList, by simp⟩
  exact ⟨key _ _, key _ _, key _ _⟩

/-- **C94** (negative): without horizontal uncertainties the line printed says that there is no vertical uncertainty -/
theorem C94_message_fails (hs : 0 < size) {g : Grid Tile} (h : SRHistory env size bs fl F s g A) (ha : a.alg.family = some F') (hF : F' = F ∨ a.clear = true)
    (hv : a.regrid = .full ∨ a.clear = true) (hok : (g.gridWith env a dask).err = none) (hu : F' = .cube ∨ fl.hasThu = false) :
    plotHorizontalHistogram (g.gridWith env a dask).st = .ok (.printed "Vertical Uncertainty not found") ∧
      ¬ SaysWhich "Horizontal" (plotHorizontalHistogram (g.gridWith env a dask).st) := by
  have hm : .horizontal ∉ (g.gridWith env a dask).st.layerNames := by
    rw [names_sr hs h ha hF hv hok (l := .horizontal) rfl]
    rcases hu with rfl | hu
    · cases bs <;> simp [writtenLayers]
    · cases F' <;> cases bs <;> cases h1 : fl.hasTvu <;> simp [writtenLayers, h1, hu]
  have : plotHorizontalHistogram (g.gridWith env a dask).st = .ok (.printed "Vertical Uncertainty not found") := by
    rw [plotHorizontalHistogram, layerHistogram, if_neg hm]
    rfl
  refine ⟨this, ?_⟩
  rw [this]
  show ¬ "Horizontal".toList <:+: "Vertical Uncertainty not found".toList
  decide +kernel

/-- **C94** (nothing gridded): as long as no tile of a single resolution grid has layers, nothing is drawn and nothing raises -/
theorem C94_nothing_gridded {g : Grid Tile} (h : ∀ t ∈ g.present, t.cells = []) :
    (∃ text, plotZHistogram g = .ok (.printed text)) ∧ (∃ text, plotVerticalHistogram g = .ok (.printed text)) ∧
      (∃ text, plotTotalHistogram g = .ok (.printed text)) ∧ ∃ text, plotHorizontalHistogram g = .ok (.printed text) := by
  have hn : g.layerNames = [] := by
    unfold Grid.layerNames
    cases hp : g.present with
    | nil => rfl
    | cons t ts =>
      show t.layerNames = []
      unfold Tile.layerNames
      rw [h t (by rw [hp]; exact List.mem_cons_self)]
  have key : ∀ (l : Layer) (text : String), layerHistogram g l text = .ok (.printed (text ++ " not found")) := by
    intro l text
    rw [layerHistogram, hn, if_neg List.not_mem_nil]
  exact ⟨⟨_, key _ _⟩, ⟨_, key _ _⟩, ⟨_, key _ _⟩, ⟨_, key _ _⟩⟩

/-! ## The hypotheses are met -/

example : plotZHistogram (demoSR.gridWith demoEnv statCall none).st = .ok (.hist [25 / 2, 9, 40, 14]) ∧ plotZHistogram (demoVR.gridWith demoEnv statCall none).st = .ok (.hist [25 / 2, 9, 40, 14]) ∧
    (demoVR.gridWith demoEnv statCall none).err = none ∧ (demoVR.gridWith demoEnv statCall none).st.resolutions = [8] := by
  decide +kernel

example : plotVerticalHistogram (demoSR.gridWith demoEnv statCall none).st = .ok (.hist [1, 1, 2, 3]) ∧ plotHorizontalHistogram (demoVR.gridWith demoEnv statCall none).st = .ok (.hist [1, 1, 2, 1]) ∧
    plotTotalHistogram (demoVR.gridWith demoEnv statCall none).st = .ok (.printed "Total Uncertainty not found") := by
  decide +kernel

example : ∀ t ∈ ((newSR 16 false).addPoints ⟨demoFields, demoA⟩ "a" {}).st.present, t.cells = [] := by decide +kernel

/-- the intensities of a variable resolution grid are not drawn although those of the single resolution grid of the same soundings are -/
theorem C94_violated : ∃ g g' A, VRHistory demoEnv 32 16 true demoFields .plain false g A ∧ SRHistory demoEnv 16 true demoFields .plain false g' A ∧
    plotZHistogram g = .ok (.printed "intensity not found") ∧ ∃ v vs, plotZHistogram g' = .ok (.hist (v :: vs)) :=
  ⟨backVR, backSR, _, backVR_history, backSR_history,
    C94_depths_fails_backscatter (by norm_num) (by decide +kernel) ((GridHistory.new .plain).add demoA "a" {} (by decide +kernel)) (a := { alg := .mean, res := some 4 }) rfl (Or.inl rfl) (Or.inl rfl)
      (by decide +kernel), 10, [11, 32], by decide +kernel⟩

/-- a grid made by 'cube' has a total uncertainty; asked for the horizontal one, it says that there is no vertical one -/
theorem C94_message_violated : ∃ g A, SRHistory demoEnv 16 false demoFields .cube false g A ∧ (∃ L, plotTotalHistogram g = .ok (.hist L)) ∧ ¬ SaysWhich "Horizontal" (plotHorizontalHistogram g) := by
  have hok : (demoSR.gridWith demoEnv { alg := .cube, res := some 8, clear := true } none).err = none := by decide +kernel
  have hu := C94_uncertainties_sr (by norm_num) demoSR_history (a := { alg := .cube, res := some 8, clear := true }) (F' := .cube) rfl (Or.inr rfl) (Or.inr rfl) hok
  have hm := C94_message_fails (by norm_num) demoSR_history (a := { alg := .cube, res := some 8, clear := true }) (F' := .cube) rfl (Or.inr rfl) (Or.inr rfl) hok (Or.inl rfl)
  exact ⟨_, _, demoSR_history.switch { alg := .cube, res := some 8, clear := true } rfl rfl none hok, hu.total.2 rfl, hm.2⟩

end Bathy
