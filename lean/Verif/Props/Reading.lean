import Verif.Lemmas.HeldAnswers
import Verif.Lemmas.KnownAlg
import Verif.Lemmas.ContTile
import Verif.Props.Csv

/-!
# C122: calls that read a grid; C46: tables after queries for containers

Spec: `Reads`, `Grid.Held` (Spec/Reading.lean).
-/

namespace Bathy

variable {env : Env} {size sub : ℚ} {bs : Bool} {fl : Fields} {F : Family} {s : Bool} {A : Store}

/-- **C122** (single resolution grids in any state): however often layers, trimmed layers, surfaces, values at locations, tiles or chunks are asked for,
plots made, tables or rasters exported, and whether these calls return or raise: the grid holds what it held. -/
theorem C122_held_sr {g u : Grid Tile} (h : ReadsMany env g u) : g.Held u := by
  unfold ReadsMany at h
  induction h with
  | refl => exact (HeldEquiv.refl g : HeldLike.held g g)
  | tail _ hr ih => exact HeldEquiv.trans (τ := Grid Tile) _ _ _ ih ((carries_held env).reads hr)

/-- **C122** (variable resolution grids in any state) -/
theorem C122_held_vr {g u : Grid (Grid Tile)} (h : ReadsMany env g u) : g.Held u := by
  unfold ReadsMany at h
  induction h with
  | refl => exact (HeldEquiv.refl g : HeldLike.held g g)
  | tail _ hr ih => exact HeldEquiv.trans (τ := Grid (Grid Tile)) _ _ _ ih ((carries_held_sub env).reads hr)

/-- **C122**: after the calls that read, the grid is in a state for which all that is proved about reachable states holds, with the same soundings
(single resolution grids). -/
theorem C122_reachable_sr {g u : Grid Tile} (hg : SRHistory env size bs fl F s g A) (h : ReadsMany env g u) : SRHistory env size bs fl F s u A := by
  unfold ReadsMany at h
  induction h with
  | refl => exact hg
  | tail _ hr ih => exact history_requeried ih ((carries_tile env).reads hr)

/-- **C122**: after the calls that read (variable resolution grids) -/
theorem C122_reachable_vr {g u : Grid (Grid Tile)} (hg : VRHistory env size sub bs fl F s g A) (h : ReadsMany env g u) : VRHistory env size sub bs fl F s u A := by
  unfold ReadsMany at h
  induction h with
  | refl => exact hg
  | tail _ hr ih => exact history_requeried ih ((carries_sub env).reads hr)

/-- the answers of the two grids for gridded layers and for layers of single containers are the same -/
def SameAnswers {τ : Type} [LayerLike τ] [AskLike τ] (env : Env) (g u : Grid τ) : Prop :=
  ∀ (ls : List Layer), (∀ l ∈ ls, g.Askable l) → ∀ (res nodata : Option ℚ) (flag : Bool),
    (u.getLayersByName env ls res nodata flag).2 = (g.getLayersByName env ls res nodata flag).2 ∧
    (u.getLayersTrimmed env ls res nodata flag).2 = (g.getLayersTrimmed env ls res nodata flag).2 ∧
    (u.returnSurf env ls res flag nodata).2 = (g.returnSurf env ls res flag nodata).2 ∧
    ∀ l ∈ ls, ∀ x y : LocArg, (u.layerValuesAt env x y l res nodata).2 = (g.layerValuesAt env x y l res nodata).2

/-- **C122** (single resolution grids): every question about gridded layers and about layers of single containers is answered as
before the calls. -/
theorem C122_answers_sr {g u : Grid Tile} (h : ReadsMany env g u) : SameAnswers env g u :=
  fun _ hl res nd z => ⟨Grid.held_layers (carries_held env) hl (C122_held_sr h) res nd z, Grid.held_trimmed (carries_held env) hl (C122_held_sr h) res nd z,
    Grid.held_surf (carries_held env) hl (C122_held_sr h) res z nd, fun l hm x y => Grid.held_values (carries_held env) (hl l hm) (C122_held_sr h) x y res nd⟩

/-- **C122** (variable resolution grids) -/
theorem C122_answers_vr {g u : Grid (Grid Tile)} (h : ReadsMany env g u) : SameAnswers env g u :=
  fun _ hl res nd z => ⟨Grid.held_layers (carries_held_sub env) hl (C122_held_vr h) res nd z, Grid.held_trimmed (carries_held_sub env) hl (C122_held_vr h) res nd z,
    Grid.held_surf (carries_held_sub env) hl (C122_held_vr h) res z nd, fun l hm x y => Grid.held_values (carries_held_sub env) (hl l hm) (C122_held_vr h) x y res nd⟩

/-- gridded layers can be asked for in every state -/
theorem askable_gridded {l : Layer} (hl : l.gridded = true) (t : Tile) : t.Askable l := by
  unfold Tile.Askable
  cases l <;> trivial

/-- **C122**: for gridded layers in any state, whatever the tiles hold -/
theorem C122_gridded_sr (g : Grid Tile) {l : Layer} (hl : l.gridded = true) : g.Askable l := fun _ t _ => askable_gridded hl t

/-- **C122**: for gridded layers in any state, whatever the tiles hold -/
theorem C122_gridded_vr (g : Grid (Grid Tile)) {l : Layer} (hl : l.gridded = true) : g.Askable l := fun _ _ _ _ t _ => askable_gridded hl t

/-- **C122**: in every reachable state all containers can be asked for, and their counts, if no container has the name of the counts
(single resolution grids) -/
theorem C122_askable_sr (hs : 0 < size) {g : Grid Tile} (h : SRHistory env size bs fl F s g A) (c : String) :
    g.Askable (.cont c) ∧ (c ++ "_density" ∉ A.names → g.Askable (.contDensity c)) := by
  have key : ∀ k t, g.tile? k = some (some t) → t.Askable (.cont c) ∧ (c ++ "_density" ∉ A.names → t.Askable (.contDensity c)) := by
    intro k t hk
    obtain ⟨x, y, ht, -⟩ := Grid.grow_tile (sr_inv hs h).1 hk
    exact tile_askable hs ht (fun c hm => (Store.names_within A _ _ _).subset hm) c
  exact ⟨fun k t hk => (key k t hk).1, fun hc k t hk => (key k t hk).2 hc⟩

/-- **C122**: in every reachable state all containers can be asked for, and their counts (variable resolution grids) -/
theorem C122_askable_vr (hs : 0 < size) (hpow : isPowerOfTwo sub = true) {g : Grid (Grid Tile)} (h : VRHistory env size sub bs fl F s g A) (c : String) :
    g.Askable (.cont c) ∧ (c ++ "_density" ∉ A.names → g.Askable (.contDensity c)) := by
  have key : ∀ k u, g.tile? k = some (some u) → ∀ k' t, u.tile? k' = some (some t) → t.Askable (.cont c) ∧ (c ++ "_density" ∉ A.names → t.Askable (.contDensity c)) := by
    intro k u hk k' t hk'
    obtain ⟨x, y, hu⟩ := Grid.grow_tile (vr_inv hs hpow h).1 hk
    have hu : Grid.SubInv _ size x y u _ := hu
    obtain ⟨T, hf⟩ := hu.frame
    obtain ⟨x', y', ht, -⟩ := Grid.rep_of_tile hf hk'
    exact tile_askable (isPowerOfTwo_pos hpow) ht (fun c hm => (Store.names_within A _ _ _).subset ((Store.names_within _ _ _ _).subset hm)) c
  exact ⟨fun k u hk k' t hk' => (key k u hk k' t hk').1, fun hc k u hk k' t hk' => (key k u hk k' t hk').2 hc⟩

/-! ## Layers that are made when they are asked for -/

/-- containers a and c share a tile, c has a second one -/
def askedGrid : Grid Tile :=
  (((((newSR 16 false).addPoints ⟨demoFields, [⟨1, 1, 5, 1, 1⟩]⟩ "a" {}).st.addPoints ⟨demoFields, [⟨9, 1, 6, 1, 1⟩, ⟨20, 1, 7, 1, 1⟩]⟩ "c" {}).st).gridWith demoEnv
    { alg := .mean, res := some 8 } none).st

/-- after the surface of container a was asked for -/
def askedGridA : Grid Tile := (askedGrid.getLayersByName demoEnv [.cont "a"] (some 8) none false).1

/-- after the surface of container c was asked for, too -/
def askedGridC : Grid Tile := (askedGridA.getLayersByName demoEnv [.cont "c"] (some 8) none false).1

/-- after the counts of container a were asked for -/
def askedGridD : Grid Tile := (askedGridA.getLayersByName demoEnv [.contDensity "a"] (some 8) none false).1

theorem askedGrid_history : SRHistory demoEnv 16 false demoFields .plain false askedGrid [("a", [⟨1, 1, 5, 1, 1⟩]), ("c", [⟨9, 1, 6, 1, 1⟩, ⟨20, 1, 7, 1, 1⟩])] :=
  (((GridHistory.new .plain).add _ "a" {} (by decide +kernel)).add _ "c" {} (by decide +kernel)).grid { alg := .mean, res := some 8 } rfl none

theorem askedGridA_reads : ReadsMany demoEnv askedGrid askedGridA := Relation.ReflTransGen.single (Reads.layers _ _ _ _)

theorem askedGridC_reads : ReadsMany demoEnv askedGrid askedGridC := askedGridA_reads.tail (Reads.layers _ _ _ _)

theorem askedGridD_reads : ReadsMany demoEnv askedGrid askedGridD := askedGridA_reads.tail (Reads.layers _ _ _ _)

/-- the numbers of a layer in the first tile -/
def firstTileLayer (g : Grid Tile) (l : Layer) (r : ℚ) : Option (List (Option ℚ)) :=
  g.present.head?.bind (fun t => (t.cells.get? r).bind (fun ls => (ls.get? l).map (fun a => a.flat)))

/-- The layers that calls that read may change (they are not among those of C122): asking for the counts of a container by their name destroys them. -/
theorem C122_counts_lost : ReadsMany demoEnv askedGridA askedGridD ∧ firstTileLayer askedGridA (.contDensity "a") 8 = some [some 1, some 0, some 0, some 0] ∧
    firstTileLayer askedGridD (.contDensity "a") 8 = some [none, none, none, none] :=
  ⟨Relation.ReflTransGen.single (Reads.layers _ _ _ _), by decide +kernel, by decide +kernel⟩

/-- **C46 is violated** after surfaces of single containers were asked for: the exported table has a column for each of them, and in the row of the
cell at (16, 0), in which only container c has a sounding (depth 7), the 7 is in the column of container a.  The counts of container a that the export
asks for in between are missing in every tile (`C122_counts_lost`), the surface of container a in the second tile, and what a tile returns is put into
the columns one after the other. -/
theorem C46_violated : SRHistory demoEnv 16 false demoFields .plain false askedGridC [("a", [⟨1, 1, 5, 1, 1⟩]), ("c", [⟨9, 1, 6, 1, 1⟩, ⟨20, 1, 7, 1, 1⟩])] ∧
    ∃ f, (askedGridC.exportCsv demoEnv false none).2 = ([(8, f)], none) ∧
      f.header = [.x, .y, .layer .depth, .layer .density, .layer .vertical, .layer .horizontal, .layer (.cont "a"), .layer (.contDensity "a"), .layer (.cont "c"), .layer (.contDensity "c")] ∧
      ∃ w ∈ f.rows, w.x = 20 ∧ w.y = 4 ∧ w.values = [some 7, some 1, some 1, some 1, some 7, none, none, none] := by
  refine ⟨C122_reachable_sr askedGrid_history askedGridC_reads, ?_⟩
  have key : (match (askedGridC.exportCsv demoEnv false none).2 with
      | ([(r, f)], none) => decide (r = 8 ∧
          f.header = [.x, .y, .layer .depth, .layer .density, .layer .vertical, .layer .horizontal, .layer (.cont "a"), .layer (.contDensity "a"), .layer (.cont "c"), .layer (.contDensity "c")] ∧
          (∃ w ∈ f.rows, w.x = 20 ∧ w.y = 4 ∧ w.values = [some 7, some 1, some 1, some 1, some 7, none, none, none]))
      | _ => false) = true := by decide +kernel
  split at key
  · rename_i r f he
    obtain ⟨rfl, h1, w, hw, h2⟩ := of_decide_eq_true key
    exact ⟨f, he, h1, w, hw, h2⟩
  · cases key

/-- What a query for a container leaves in a tile when it raises: a layer of this name without any number, beside the layers that C122 speaks of.  It
raises for containers that were added after the tile was gridded, and always on CUBE tiles. -/
theorem C122_left_behind {x y : ℚ} {t : Tile} (hw : 0 < size) (h : TileHistory env x y size bs fl F t A) {c : String} (hc : c ∈ A.names) {r : ℚ} (hr : r ≠ 0) {nodata : Option ℚ} {zUp : Bool}
    {e : Err} (hout : (t.getLayer env (.cont c) (some r) nodata zUp).2 = .error e) :
    ∃ a : LayerArr, (t.getLayer env (.cont c) (some r) nodata zUp).1.layerAt r (.cont c) = some a ∧ a.rows = ncells size r ∧ a.cols = ncells size r ∧ ∀ v ∈ a.flat, v = none := by
  unfold Tile.getLayer at hout ⊢
  simp only at hout ⊢
  split at hout
  · cases hout
  · rename_i hne
    rw [if_neg hne]
    have hq : Tile.queryResolution t (some r) = if t.cells.has r then .ok (some r) else .ok none := by unfold Tile.queryResolution; simp only [hr, if_false]
    rw [hq] at hout ⊢
    by_cases hh : t.cells.has r = true
    · rw [if_pos hh] at hout ⊢
      simp only at hout ⊢
      obtain ⟨ls, hls⟩ := Option.isSome_iff_exists.1 ((Dict.get?_isSome t.cells r).trans hh)
      obtain ⟨-, dg, hdg, hrows, hcols⟩ := main_shape hw h hls
      have hmem : t.container.has c = true := by rw [Dict.has_iff, (history_frame hw h).2.1.container, slicesFrom_keys]; exact hc
      obtain ⟨se, hse⟩ := Option.isSome_iff_exists.1 ((Dict.get?_isSome t.container c).trans hmem)
      have hcell : t.cells ≠ [] := by intro h0; rw [h0] at hh; cases hh
      have left : t.algorithm = some .mean ∨ t.algorithm = some .shoalest ∨ t.algorithm = some .cube → Tile.leftBehind t (.cont c) r =
          { t with cells := t.cells.set r ((ls.set (.cont c) (Arr2.fill dg.rows dg.cols none)).set (.contDensity c) (Arr2.fill dg.rows dg.cols (some 0))) } := by
        intro ha
        unfold Tile.leftBehind
        rcases ha with ha | ha | ha <;> (simp only [ha, history_data hw h, hls, hse]; rw [hdg])
      have hk : t.algorithm = some .mean ∨ t.algorithm = some .shoalest ∨ t.algorithm = some .cube := (history_known h).resolve_left hcell
      split at hout
      · simp only
        rw [left hk]
        refine ⟨Arr2.fill dg.rows dg.cols none, ?_, hrows, hcols, ?_⟩
        · unfold Tile.layerAt
          simp only
          rw [Dict.get?_set_self, Option.bind_some, Dict.get?_set_ne _ _ (by simp), Dict.get?_set_self]
        · intro v hv
          simp only [Arr2.fill] at hv
          exact List.eq_of_mem_replicate hv
      · rename_i u hu
        exfalso
        have hsome : ((u.cells.get? r).bind (fun ls => ls.get? (.cont c))).isSome = true := by
          unfold Tile.ensureLayer at hu
          simp only [hmem, if_true] at hu
          have only : ∀ f, Tile.runPlainOnly f t r c = .ok u → ((u.cells.get? r).bind (fun ls => ls.get? (.cont c))).isSome = true := by
            intro f hf
            unfold Tile.runPlainOnly at hf
            split at hf
            · split at hf
              · simp only at hf
                split at hf
                · cases hf
                · cases hf
                  rw [Dict.get?_set_self, Option.bind_some, Dict.get?_set_ne _ _ (by simp), Dict.get?_set_self]
                  rfl
              · cases hf
            · cases hf
            · cases hf
          rcases hk with ha | ha | ha <;> rw [ha] at hu
          · exact only _ hu
          · exact only _ hu
          · cases hu
        split at hout
        · rename_i hn
          rw [hn] at hsome
          cases hsome
        · cases hout
    · rw [if_neg hh] at hout
      cases hout

/-- container d was added to the tile of a after the grid was gridded, and then asked for -/
def lateGrid : Grid Tile := (askedGrid.addPoints ⟨demoFields, [⟨3, 12, 8, 1, 1⟩]⟩ "d" {}).st

/-- **C46**: an export that works fails after a question that raised.  Container d has no cell numbers yet, asking for it raises (C120), but its name is now among
the layer names (`C122_left_behind`), and the export asks for it again. -/
theorem C46_export_stopped : SRHistory demoEnv 16 false demoFields .plain false lateGrid [("a", [⟨1, 1, 5, 1, 1⟩]), ("c", [⟨9, 1, 6, 1, 1⟩, ⟨20, 1, 7, 1, 1⟩]), ("d", [⟨3, 12, 8, 1, 1⟩])] ∧
    (lateGrid.exportCsv demoEnv false none).2.2 = none ∧ (lateGrid.getLayersByName demoEnv [.cont "d"] (some 8) none false).2.toOption = none ∧
    ((lateGrid.getLayersByName demoEnv [.cont "d"] (some 8) none false).1.exportCsv demoEnv false none).2.2.isSome = true :=
  ⟨askedGrid_history.add _ "d" {} (by decide +kernel), by decide +kernel, by decide +kernel, by decide +kernel⟩

/-- the hypotheses are met: container, slope and gridded layers, values at locations, tables and rasters were asked for, of both kinds of grids; the
tiles did change -/
example : ReadsMany demoEnv askedGrid askedGridC ∧ firstTileLayer askedGridC (.cont "a") 8 = some [some 5, none, none, none] ∧ firstTileLayer askedGrid (.cont "a") 8 = none ∧
    (∃ u, ReadsMany demoEnv demoVRg u ∧ VRHistory demoEnv 32 16 false demoFields .plain false u demoStore) ∧
    (match (askedGridC.getLayersByName demoEnv [.depth] (some 8) none false).2 with | .ok (some [a]) => decide (a.get? 0 0 = some (some 5) ∧ a.get? 0 1 = some (some 6) ∧ a.get? 0 2 = some (some 7)) | _ => false) = true :=
  ⟨askedGridC_reads, by decide +kernel, by decide +kernel,
    ⟨_, ((Relation.ReflTransGen.single (Reads.layers [.cont "a", .xSlope] (some 8) none true)).tail (Reads.csv false none)).tail (Reads.raster .geotiff true none none),
      C122_reachable_vr demoVRg_history (((Relation.ReflTransGen.single (Reads.layers [.cont "a", .xSlope] (some 8) none true)).tail (Reads.csv false none)).tail (Reads.raster .geotiff true none none))⟩,
    by decide +kernel⟩

/-- the hypotheses of `C122_left_behind` are met: d was added after gridding -/
example : ∃ t A, TileHistory demoEnv 0 0 16 false demoFields .plain t A ∧ "d" ∈ A.names ∧ (8 : ℚ) ≠ 0 ∧
    (t.getLayer demoEnv (.cont "d") (some 8) none false).2.toOption = none ∧
    (match (t.getLayer demoEnv (.cont "d") (some 8) none false).1.layerAt 8 (.cont "d") with | some a => decide (a.flat = [none, none, none, none]) | none => false) = true := by
  have h := ((TileHistory.first (env := demoEnv) (x := 0) (y := 0) (size := 16) (bs := false) (fl := demoFields) .plain [⟨1, 1, 5, 1, 1⟩] "a" (by decide +kernel)).grid .mean rfl (some 8)
    false .depth none none).add [⟨3, 12, 8, 1, 1⟩] "d" (by decide +kernel)
  exact ⟨_, _, h, by decide +kernel, by norm_num, by decide +kernel, by decide +kernel⟩

/-- the hypotheses of `C122_answers_sr` for containers, their counts and gridded layers, after a question that raised; the first questions are answered by numbers -/
example : (∀ l ∈ [Layer.cont "a", .contDensity "a", .depth], lateGrid.Askable l) ∧
    ReadsMany demoEnv lateGrid (lateGrid.getLayersByName demoEnv [.cont "d"] (some 8) none false).1 ∧
    (match (lateGrid.getLayersByName demoEnv [.cont "a"] (some 8) none false).2 with | .ok (some [a]) => decide (a.get? 0 0 = some (some 5) ∧ a.get? 0 1 = some none) | _ => false) = true := by
  have h := C46_export_stopped.1
  refine ⟨?_, Relation.ReflTransGen.single (Reads.layers _ _ _ _), by decide +kernel⟩
  intro l hl
  simp only [List.mem_cons, List.not_mem_nil, or_false] at hl
  rcases hl with rfl | rfl | rfl
  · exact (C122_askable_sr (by norm_num) h "a").1
  · exact (C122_askable_sr (by norm_num) h "a").2 (by decide +kernel)
  · exact C122_gridded_sr _ rfl

end Bathy
