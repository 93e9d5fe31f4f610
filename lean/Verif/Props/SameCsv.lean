import Verif.Props.ExportSurface
import Verif.Props.SameSoundings

/-!
# C131: exported tables depend on the soundings only
-/

namespace Bathy
open Grid

/-- `f` is the csv table of the soundings `P` that some grid of single or variable resolution, gridded at one resolution with `clear_existing`, exports.  `flip` says whether the depths have
the opposite sign of the stored ones. -/
inductive TableShown (env : Env) (alg : Alg) : Bool → Fields → List Pt → ℚ → Bool → CsvFile → Prop
  | sr {size r bs fl F s g A a dask zUp flip f} {n : Nat} (hs : 0 < size) (h : SRHistory env size bs fl F s g A) (ha : a.alg = alg) (hc : a.clear = true) (hr : a.res = some r)
      (hn : size = n * r) (hok : (Grid.gridWith env g a dask).err = none)
      (hflip : flip = true ↔ ¬ (StoredUp (Grid.gridWith env g a dask).st ↔ (zUp = true ∧ 0 < (Grid.gridWith env g a dask).st.meanDepth)))
      (hf : ((Grid.gridWith env g a dask).st.exportCsv env zUp none).2.1 = [(r, f)]) : TableShown env alg bs fl A.allPts r flip f
  | vr {size sub r bs fl F s g A a dask zUp flip f} {n q : Nat} (hs : 0 < size) (hsub : isPowerOfTwo sub = true) (hdiv : size = (q : ℚ) * sub) (h : VRHistory env size sub bs fl F s g A)
      (ha : a.alg = alg) (hc : a.clear = true) (hr : a.res = some r) (hn : sub = n * r) (hok : (Grid.gridWith env g a dask).err = none)
      (hflip : flip = true ↔ ¬ (StoredUp (Grid.gridWith env g a dask).st ↔ (zUp = true ∧ 0 < (Grid.gridWith env g a dask).st.meanDepth)))
      (hf : ((Grid.gridWith env g a dask).st.exportCsv env zUp none).2.1 = [(r, f)]) : TableShown env alg false fl A.allPts r flip f

variable {env env' : Env} {alg : Alg} {bs flip flip' : Bool} {fl : Fields} {P P' : List Pt} {r : ℚ} {f f' : CsvFile}

private theorem table_right (h : TableShown env alg bs fl P r flip f) (ha : alg = .mean ∨ alg = .shoalest) :
    CsvOfSoundings (CellRule alg) (Ruled alg bs fl none) (writtenLayers .plain bs fl) flip P r f := by
  cases h with
  | @sr _ _ _ _ _ _ g _ a dask _ _ _ _ hs h ha' hc hr hn hok hflip hf =>
    subst ha'
    obtain ⟨f1, h1, h2⟩ := C129_csv_sr hs h ha hc hr hn hok hflip
    rw [h1] at hf
    cases hf
    exact h2
  | @vr _ _ _ _ _ _ _ g _ a dask _ _ _ _ _ hs hsub hdiv h ha' hc hr hn hok hflip hf =>
    subst ha'
    obtain ⟨f1, h1, h2⟩ := C129_csv_vr hs hsub hdiv h ha hc hr hn hok hflip
    rw [h1] at hf
    cases hf
    exact h2

private theorem line_of {R : Layer → List Pt → Option ℚ → Prop} {ruled ruled' : Layer → Prop} {layers : List Layer} {flip' : Bool} (h : CsvOfSoundings R ruled layers flip P r f)
    (h' : CsvOfSoundings R ruled' layers flip' P' r f') (hp : P'.Perm P) {w : CsvRow} (hw : w ∈ f.rows) : ∃ w' ∈ f'.rows, w'.x = w.x ∧ w'.y = w.y := by
  obtain ⟨i, j, hx, hy⟩ := h.lattice w hw
  obtain ⟨⟨p1, m1, q1⟩, ⟨p2, m2, q2⟩, ⟨p3, m3, q3⟩, ⟨p4, m4, q4⟩⟩ := h.within w hw
  obtain ⟨w', hw', hx', hy'⟩ := h'.full i j ⟨p1, hp.mem_iff.2 m1, by linarith⟩ ⟨p2, hp.mem_iff.2 m2, by linarith⟩ ⟨p3, hp.mem_iff.2 m3, by linarith⟩ ⟨p4, hp.mem_iff.2 m4, by linarith⟩
  exact ⟨w', hw', by linarith, by linarith⟩

/-- **C131**: the csv tables that two grids with the same soundings export have lines for the same places.  The grids may have different tiles, extents and histories. -/
theorem C131_same_places (h : TableShown env alg bs fl P r flip f) (h' : TableShown env' alg bs fl P' r flip' f') (ha : alg = .mean ∨ alg = .shoalest) (hp : P'.Perm P) :
    (f'.rows.map fun w => (w.x, w.y)).Perm (f.rows.map fun w => (w.x, w.y)) := by
  have k := table_right h ha
  have k' := table_right h' ha
  refine (List.perm_ext_iff_of_nodup k'.once k.once).2 fun c => ⟨fun hc => ?_, fun hc => ?_⟩
  · obtain ⟨w, hw, rfl⟩ := List.mem_map.1 hc
    obtain ⟨w', hw', hx, hy⟩ := line_of k' k hp.symm hw
    exact List.mem_map.2 ⟨w', hw', Prod.ext hx hy⟩
  · obtain ⟨w, hw, rfl⟩ := List.mem_map.1 hc
    obtain ⟨w', hw', hx, hy⟩ := line_of k k' hp hw
    exact List.mem_map.2 ⟨w', hw', Prod.ext hx hy⟩

/-- **C131**: the lines for the same place have the same numbers in the columns of the counts and, if the tables have the same sign, of the depths, and for mean also of the uncertainties.
Missing: the same sign for every two grids with the same soundings (see `C131_violated`). -/
theorem C131_same_line_partial (h : TableShown env alg bs fl P r flip f) (h' : TableShown env' alg bs fl P' r flip' f') (ha : alg = .mean ∨ alg = .shoalest) (hp : P'.Perm P) {w w' : CsvRow}
    (hw : w ∈ f.rows) (hw' : w' ∈ f'.rows) (hx : w'.x = w.x) (hy : w'.y = w.y) {k : Nat} {l : Layer} (hk : (writtenLayers .plain bs fl)[k]? = some l) (hl : Ruled alg bs fl none l)
    (hf : flip' = flip ∨ l ≠ .depth) : ∃ v, w.values[k]? = some v ∧ w'.values[k]? = some v := by
  obtain ⟨v, hv, e⟩ := (table_right h ha).value w hw k l hk hl
  obtain ⟨v', hv', e'⟩ := (table_right h' ha).value w' hw' k l hk hl
  rw [hx, hy] at hv'
  have := rule_det ha (hp.filter _) hv' hv
  subst this
  refine ⟨_, e, ?_⟩
  rcases hf with rfl | hf
  · exact e'
  · rw [e']
    cases l <;> first | exact absurd rfl hf | rfl

private theorem all_ruled {l : Layer} (h : l ∈ writtenLayers .plain bs fl) : Ruled .mean bs fl none l := by
  simp only [writtenLayers, List.mem_append, List.mem_cons, List.not_mem_nil, or_false] at h
  rcases h with ((h | h) | h) | h
  · exact .inl h
  · exact .inr (.inl ⟨h, rfl⟩)
  · split at h
    · rename_i ht; exact .inr (.inr ⟨rfl, .inl ⟨List.mem_singleton.1 h, ht⟩⟩)
    · cases h
  · split at h
    · rename_i ht; exact .inr (.inr ⟨rfl, .inr ⟨List.mem_singleton.1 h, ht⟩⟩)
    · cases h

/-- **C131**: with the algorithm mean the tables have the same lines, if they have the same sign.  Missing: the same sign for every two grids with the same soundings. -/
theorem C131_same_table_partial (h : TableShown env .mean bs fl P r flip f) (h' : TableShown env' .mean bs fl P' r flip f') (hp : P'.Perm P) : f'.rows.Perm f.rows := by
  have k := table_right h (.inl rfl)
  have k' := table_right h' (.inl rfl)
  have same : ∀ w ∈ f.rows, ∀ w' ∈ f'.rows, w'.x = w.x → w'.y = w.y → w' = w := by
    intro w hw w' hw' hx hy
    have : w'.values = w.values := by
      refine List.ext_getElem? fun i => ?_
      by_cases hi : i < (writtenLayers .plain bs fl).length
      · obtain ⟨v, e, e'⟩ := C131_same_line_partial h h' (.inl rfl) hp hw hw' hx hy (List.getElem?_eq_getElem hi) (all_ruled (List.getElem_mem hi)) (.inl rfl)
        rw [e, e']
      · rw [List.getElem?_eq_none (by rw [k'.width w' hw']; omega), List.getElem?_eq_none (by rw [k.width w hw]; omega)]
    cases w; cases w'
    cases hx; cases hy; cases this
    rfl
  refine (List.perm_ext_iff_of_nodup (List.Nodup.of_map _ k'.once) (List.Nodup.of_map _ k.once)).2 fun w => ⟨fun hw => ?_, fun hw => ?_⟩
  · obtain ⟨u, hu, hx, hy⟩ := line_of k' k hp.symm hw
    rw [same u hu w hw hx.symm hy.symm]
    exact hu
  · obtain ⟨u, hu, hx, hy⟩ := line_of k k' hp hw
    rw [← same w hw u hu hx hy]
    exact hu

private def wet : List Pt := [⟨1, 1, 5, 1, 1⟩]
private def dry : List Pt := [⟨2, 2, -1, 1, 1⟩]
private def wetFirst : Grid Tile := (((newSR 16 false).addPoints ⟨demoFields, wet⟩ "wet" {}).st.addPoints ⟨demoFields, dry⟩ "dry" {}).st
private def dryFirst : Grid Tile := (((newSR 16 false).addPoints ⟨demoFields, dry⟩ "dry" {}).st.addPoints ⟨demoFields, wet⟩ "wet" {}).st

/-- **C131** does not hold for the depths with `z_positive_up`: the sign of the csv table depends on `mean_depth`, which is the one of the container added last (C51).  A sounding of depth 5 and a
drying one of depth -1 in the same cell have the elevation 2 if the drying one was added last, and -2 otherwise. -/
theorem C131_violated : ∃ g g' A A', SRHistory demoEnv 16 false demoFields .plain false g A ∧ SRHistory demoEnv 16 false demoFields .plain false g' A' ∧ A'.allPts.Perm A.allPts ∧
    ∃ (a : GridCall) (f f' : CsvFile), a.alg = .mean ∧ a.clear = true ∧ a.res = some 8 ∧ (g.gridWith demoEnv a none).err = none ∧ (g'.gridWith demoEnv a none).err = none ∧
      ((g.gridWith demoEnv a none).st.exportCsv demoEnv true none).2 = ([(8, f)], none) ∧ ((g'.gridWith demoEnv a none).st.exportCsv demoEnv true none).2 = ([(8, f')], none) ∧
      f.header = f'.header ∧ f.header[2]? = some .elevation ∧ f.rows.map (fun w => (w.x, w.y, w.values[0]?)) = [((4 : ℚ), (4 : ℚ), some (some (2 : ℚ)))] ∧
      f'.rows.map (fun w => (w.x, w.y, w.values[0]?)) = [((4 : ℚ), (4 : ℚ), some (some (-2 : ℚ)))] := by
  refine ⟨wetFirst, dryFirst, [("wet", wet), ("dry", dry)], [("dry", dry), ("wet", wet)], ((GridHistory.new .plain).add wet "wet" {} (by decide +kernel)).add dry "dry" {} (by decide +kernel),
    ((GridHistory.new .plain).add dry "dry" {} (by decide +kernel)).add wet "wet" {} (by decide +kernel), by decide +kernel, { alg := .mean, res := some 8, clear := true },
    ⟨[.x, .y, .elevation, .layer .density, .layer .vertical, .layer .horizontal], [⟨4, 4, [some 2, some 2, some 1, some 1]⟩]⟩,
    ⟨[.x, .y, .elevation, .layer .density, .layer .vertical, .layer .horizontal], [⟨4, 4, [some (-2), some 2, some 1, some 1]⟩]⟩,
    rfl, rfl, rfl, by decide +kernel, by decide +kernel, by decide +kernel, by decide +kernel, rfl, rfl, rfl, rfl⟩

/-! ## the hypotheses can be met -/

private theorem not_up {τ : Type} {g : Grid τ} (h : g.info.vref = none) : (false = true) ↔ ¬ (StoredUp g ↔ (false = true ∧ 0 < g.meanDepth)) :=
  ⟨fun h => (nomatch h), fun hn => absurd ⟨fun ⟨_, hs, _⟩ => (nomatch h.symm.trans hs), fun hu => (nomatch hu.1)⟩ hn⟩

private def table (l : List (ℚ × CsvFile)) : CsvFile := match l with | (_, f) :: _ => f | [] => ⟨[], []⟩
private theorem table_eq {l : List (ℚ × CsvFile)} {g : CsvFile} (h : l = [(r, g)]) : l = [(r, table l)] := by rw [h]; rfl

private def call : GridCall := { alg := .mean, res := some 8, clear := true }
private def other : Grid Tile := (((newSR 32 false).addPoints ⟨demoFields, demoC⟩ "first" demoArgs).st.addPoints ⟨demoFields, demoB⟩ "second" {}).st
private def tableVR : CsvFile := table ((demoVR.gridWith demoEnv call (some 3)).st.exportCsv demoEnv false none).2.1
private def tableOther : CsvFile := table ((other.gridWith demoEnv call none).st.exportCsv demoEnv false none).2.1

private theorem other_history : SRHistory demoEnv 32 false demoFields .plain false other [("first", demoC), ("second", demoB)] :=
  ((GridHistory.new (g0 := newSR 32 false) .plain).add demoC "first" demoArgs (by decide +kernel)).add demoB "second" {} (by decide +kernel)

private theorem vrTable : TableShown demoEnv .mean false demoFields demoStore.allPts 8 false tableVR := by
  have hok : (demoVR.gridWith demoEnv call (some 3)).err = none := by decide +kernel
  have hup := not_up (g := (demoVR.gridWith demoEnv call (some 3)).st) (by decide +kernel)
  obtain ⟨f, h, -⟩ := C129_csv_vr (size := 32) (sub := 16) (n := 2) (q := 2) (a := call) (by norm_num) (by decide +kernel) (by norm_num) demoVR_history (.inl rfl) rfl rfl (by norm_num) hok hup
  exact .vr (n := 2) (q := 2) (by norm_num) (by decide +kernel) (by norm_num) demoVR_history rfl rfl rfl (by norm_num) hok hup (table_eq (by rw [h]))

private theorem otherTable : TableShown demoEnv .mean false demoFields (Store.allPts [("first", demoC), ("second", demoB)]) 8 false tableOther := by
  have hok : (other.gridWith demoEnv call none).err = none := by decide +kernel
  have hup := not_up (g := (other.gridWith demoEnv call none).st) (by decide +kernel)
  obtain ⟨f, h, -⟩ := C129_csv_sr (size := 32) (n := 4) (a := call) (by norm_num) other_history (.inl rfl) rfl rfl (by norm_num) hok hup
  exact .sr (n := 4) (by norm_num) other_history rfl rfl rfl (by norm_num) hok hup (table_eq (by rw [h]))

/-- a variable resolution grid with a long history, and a new single resolution grid to which the same soundings were added in another order -/
example : tableOther.rows.Perm tableVR.rows := C131_same_table_partial vrTable otherTable List.perm_append_comm

example : (tableOther.rows.map fun w => (w.x, w.y)).Perm (tableVR.rows.map fun w => (w.x, w.y)) ∧
    ∀ w ∈ tableVR.rows, ∀ w' ∈ tableOther.rows, w'.x = w.x → w'.y = w.y → ∃ v, w.values[1]? = some v ∧ w'.values[1]? = some v :=
  ⟨C131_same_places vrTable otherTable (.inl rfl) List.perm_append_comm,
    fun _ hw _ hw' hx hy => C131_same_line_partial vrTable otherTable (.inl rfl) List.perm_append_comm hw hw' hx hy (l := .density) rfl (.inr (.inl ⟨rfl, rfl⟩)) (.inl rfl)⟩

end Bathy
