import Verif.Lemmas.ExportPath
import Verif.Lemmas.Recorded
import Verif.Spec.DemoGrid

/-!
# C78: the names of exported files

Model: `Grid.export` (bathygrid/bgrid.py:2192-2229).  The call tests whether the output path exists and, if so, puts the time into the name.  But the
files that are written are never at the output path, so that the test never sees them.
-/

namespace Bathy
open Grid

variable {env : Env} {size sub : ℚ} {bs : Bool} {fl : Fields} {F : Family} {s : Bool} {A : Store}

/-- what is needed of `'{}'.format(resolution)`: other numbers have other texts, without underscores and slashes -/
structure FormatOk (fmt : ℚ → List Char) : Prop where
  inj : ∀ a b, fmt a = fmt b → a = b
  score : ∀ a, '_' ∉ fmt a
  slash : ∀ a, '/' ∉ fmt a

/-- the paths that an export wrote to -/
def written {τ : Type} (out : Grid τ × List (Path × ExportFile) × Option Err) : List Path := out.2.1.map Prod.fst

section
variable {τ : Type} [LayerLike τ] [NamesLike τ] [LayerNames τ]

/-- every name is the stem of the output path, an underscore and a rest without slashes -/
theorem written_form (taken : Path → Bool) (stamp : List Char) (fmt : ℚ → List Char) (hf : ∀ a, '/' ∉ fmt a) (g : Grid τ) (path : Path) (format : List Char) (zUp : Bool) (res override : Option ℚ) :
    ∀ n ∈ written (g.export env taken stamp fmt path format zUp res override), ∃ x, n = (splitExt (exportPath taken stamp path)).1 ++ '_' :: x ∧ '/' ∉ x := by
  have hdec : ∀ k, '/' ∉ decimal k := by
    intro k h
    have := decimal_digits k _ h
    revert this; decide
  have hext : ∀ kind : RasterKind, '/' ∉ kind.ext := by intro kind; cases kind <;> decide
  intro n hn
  unfold written Grid.export at hn
  simp only at hn
  have hras : ∀ kind : RasterKind, ∀ m : List RasterFile, n ∈ (m.map (fun r => (rasterName kind (splitExt (exportPath taken stamp path)).1 (fmt r.res) r.number, ExportFile.raster r))).map Prod.fst →
      ∃ x, n = (splitExt (exportPath taken stamp path)).1 ++ '_' :: x ∧ '/' ∉ x := by
    intro kind m h
    simp only [List.map_map, List.mem_map, Function.comp_apply] at h
    obtain ⟨r, -, rfl⟩ := h
    refine ⟨fmt r.res ++ '_' :: decimal r.number ++ kind.ext, by simp [rasterName], ?_⟩
    simp [hf, hdec, hext]
  split_ifs at hn
  · simp only [List.map_map, List.mem_map, Function.comp_apply] at hn
    obtain ⟨r, -, rfl⟩ := hn
    refine ⟨fmt r.1 ++ ".csv".toList, by simp [csvName], ?_⟩
    simp only [List.mem_append, hf, false_or]
    decide
  · exact hras _ _ hn
  · simp at hn
  · exact hras _ _ hn
  · simp at hn

theorem written_folder (taken : Path → Bool) {stamp : List Char} (hs : '/' ∉ stamp) {fmt : ℚ → List Char} (hf : ∀ a, '/' ∉ fmt a) (g : Grid τ) (path : Path) (format : List Char) (zUp : Bool)
    (res override : Option ℚ) : ∀ n ∈ written (g.export env taken stamp fmt path format zUp res override), (pathSplit n).1 = (pathSplit path).1 := by
  intro n hn
  obtain ⟨x, rfl, hx⟩ := written_form taken stamp fmt hf g path format zUp res override n hn
  rw [← exportPath_folder taken hs path]
  apply pathSplit_dir
  rw [(parts_append (by simp [hx])).1, splitExt_dir]

theorem written_nodup (taken : Path → Bool) (stamp : List Char) {fmt : ℚ → List Char} (hf : FormatOk fmt) (g : Grid τ) (hg : g.resolutions.Nodup) (path : Path) (format : List Char) (zUp : Bool)
    (res override : Option ℚ) : (written (g.export env taken stamp fmt path format zUp res override)).Nodup := by
  have hras : ∀ kind : RasterKind, (((g.exportRaster env kind zUp res override).2.1.map
      (fun r => (rasterName kind (splitExt (exportPath taken stamp path)).1 (fmt r.res) r.number, ExportFile.raster r))).map Prod.fst).Nodup := by
    intro kind
    have := exportRaster_keys env g kind zUp res override hg
    unfold List.Nodup at this ⊢
    rw [List.pairwise_map] at this
    rw [List.map_map, List.pairwise_map]
    refine this.imp ?_
    intro a b hab e
    simp only [Function.comp_apply] at e
    obtain ⟨h1, h2⟩ := rasterName_inj (hf.score _) (hf.score _) e
    exact hab (by unfold RasterFile.key; rw [hf.inj _ _ h1, h2])
  unfold written Grid.export
  simp only
  split_ifs
  · have := exportCsv_keys env g zUp res hg
    unfold List.Nodup at this ⊢
    rw [List.pairwise_map] at this
    rw [List.map_map, List.pairwise_map]
    refine this.imp ?_
    intro a b hab e
    simp only [Function.comp_apply] at e
    exact hab (hf.inj _ _ (csvName_inj e))
  · exact hras _
  · exact List.nodup_nil
  · exact hras _
  · exact List.nodup_nil

/-- **C78** (every grid): formats are recognised in upper and lower case; with another format, or BAG for backscatter, the call raises ValueError, writes nothing
and leaves the grid. -/
theorem C78_refused (taken : Path → Bool) (stamp : List Char) (fmt : ℚ → List Char) (g : Grid τ) (path : Path) (format : List Char) (zUp : Bool) (res override : Option ℚ)
    (h : (∀ f ∈ ["csv", "geotiff", "bag"], format.map Char.toLower ≠ f.toList) ∨ format.map Char.toLower = "bag".toList ∧ g.isBackscatter = true) :
    g.export env taken stamp fmt path format zUp res override = (g, [], some .valueError) := by
  unfold Grid.export
  simp only
  rcases h with h | ⟨h1, h2⟩
  · rw [if_neg (h "csv" (by simp)), if_neg (h "geotiff" (by simp)), if_neg (h "bag" (by simp))]
  · rw [if_neg (by rw [h1]; decide), if_neg (by rw [h1]; decide), if_pos h1, if_pos h2]

/-- **C78, what the code does instead** (every grid): if nothing was at the output path, then after the export there is still nothing, and the same
export at any later time finds the path free again and writes exactly the same files: it overwrites every file of the first export. -/
theorem C78_overwrites (taken : Path → Bool) (stamp stamp' : List Char) (fmt : ℚ → List Char) (hf : ∀ a, '/' ∉ fmt a) (g : Grid τ) (path : Path) (format : List Char) (zUp : Bool)
    (res override : Option ℚ) (hp : taken path = false) :
    path ∉ written (g.export env taken stamp fmt path format zUp res override) ∧
    g.export env (fun p => taken p || decide (p ∈ written (g.export env taken stamp fmt path format zUp res override))) stamp' fmt path format zUp res override =
      g.export env taken stamp fmt path format zUp res override := by
  have hno : path ∉ written (g.export env taken stamp fmt path format zUp res override) := by
    intro h
    obtain ⟨x, hx, -⟩ := written_form taken stamp fmt hf g path format zUp res override path h
    have : exportPath taken stamp path = path := by unfold exportPath; rw [hp]; rfl
    rw [this] at hx
    exact not_path path x hx.symm
  refine ⟨hno, ?_⟩
  have h1 : ∀ st, exportPath taken st path = path := by intro st; unfold exportPath; rw [hp]; rfl
  have h2 : exportPath (fun p => taken p || decide (p ∈ written (g.export env taken stamp fmt path format zUp res override))) stamp' path = path := by
    unfold exportPath
    rw [if_neg]
    simp [hp, hno]
  generalize hT : (fun p => taken p || decide (p ∈ written (g.export env taken stamp fmt path format zUp res override))) = T at h2
  unfold Grid.export
  rw [h1, h2]

/-- **C78, what is true of it** (every grid): if something is at the output path, exports at different times write to different files. -/
theorem C78_times_partial (taken taken' : Path → Bool) (stamp stamp' : List Char) (fmt fmt' : ℚ → List Char) (hf : ∀ a, '/' ∉ fmt a) (hf' : ∀ a, '/' ∉ fmt' a) (g g' : Grid τ) (path : Path)
    (format format' : List Char) (zUp zUp' : Bool) (res override res' override' : Option ℚ) (hp : taken path = true) (hp' : taken' path = true)
    (hs : ∀ c ∈ ['/', '.'], c ∉ stamp) (hs' : ∀ c ∈ ['/', '.'], c ∉ stamp') (hlen : stamp.length = stamp'.length) (hne : stamp ≠ stamp') :
    ∀ n ∈ written (g.export env taken stamp fmt path format zUp res override), n ∉ written (g'.export env taken' stamp' fmt' path format' zUp' res' override') := by
  have hbase : ∀ (tk : Path → Bool) (st : List Char), tk path = true → (∀ c ∈ ['/', '.'], c ∉ st) →
      ∃ d, (splitExt (exportPath tk st path)).1 = d ++ ((splitExt (pathSplit path).2).1 ++ '_' :: st) ∧
        d = if (pathSplit path).1 = [] ∨ (pathSplit path).1.getLast? = some '/' then (pathSplit path).1 else (pathSplit path).1 ++ ['/'] := by
    intro tk st ht hst
    refine ⟨_, ?_, rfl⟩
    have hno : '/' ∉ (splitExt (pathSplit path).2).1 ++ '_' :: st ++ (splitExt (pathSplit path).2).2 := by
      obtain ⟨h1, h2⟩ := splitExt_no (pathSplit path).2 (filePart_no path)
      simp [h1, h2, hst '/' (by simp)]
    have hh : ((splitExt (pathSplit path).2).1 ++ '_' :: st ++ (splitExt (pathSplit path).2).2).head? ≠ some '/' := by
      intro e
      rw [List.head?_eq_some_iff] at e
      obtain ⟨l, e⟩ := e
      exact hno (by rw [e]; simp)
    unfold exportPath pathJoin
    rw [if_pos ht]
    simp only
    rw [if_neg hh]
    split_ifs with hc
    · exact splitExt_stamp hc (filePart_no path) (hst '/' (by simp)) (hst '.' (by simp))
    · have := splitExt_stamp (d := (pathSplit path).1 ++ ['/']) (Or.inr (by simp)) (filePart_no path) (hst '/' (by simp)) (hst '.' (by simp))
      rw [List.append_assoc] at this
      exact this
  intro n hn hn'
  obtain ⟨x, hx, -⟩ := written_form taken stamp fmt hf g path format zUp res override n hn
  obtain ⟨y, hy, -⟩ := written_form taken' stamp' fmt' hf' g' path format' zUp' res' override' n hn'
  obtain ⟨d, hd, hdd⟩ := hbase taken stamp hp hs
  obtain ⟨d', hd', hdd'⟩ := hbase taken' stamp' hp' hs'
  rw [← hdd] at hdd'
  subst hdd'
  rw [hd] at hx
  rw [hd'] at hy
  rw [hx] at hy
  simp only [List.append_assoc, List.cons_append] at hy
  have hy := List.append_cancel_left (List.append_cancel_left hy)
  have hy := (List.cons.inj hy).2
  exact hne (List.append_inj hy hlen).1
end

/-- **C78** (single resolution): after any calls, the files of one export have different names, all in the folder of the output path. -/
theorem C78_names_sr {g : Grid Tile} (h : SRHistory env size bs fl F s g A) (taken : Path → Bool) {stamp : List Char} (hs : '/' ∉ stamp) {fmt : ℚ → List Char} (hf : FormatOk fmt) (path : Path)
    (format : List Char) (zUp : Bool) (res override : Option ℚ) :
    (written (g.export env taken stamp fmt path format zUp res override)).Nodup ∧
    ∀ n ∈ written (g.export env taken stamp fmt path format zUp res override), (pathSplit n).1 = (pathSplit path).1 :=
  ⟨written_nodup taken stamp hf g (resOk_history (resOk_blank _ _ _ _ _ _ _ _) h).nodup path format zUp res override, written_folder taken hs hf.slash g path format zUp res override⟩

/-- **C78** (variable resolution). -/
theorem C78_names_vr {g : Grid (Grid Tile)} (h : VRHistory env size sub bs fl F s g A) (taken : Path → Bool) {stamp : List Char} (hs : '/' ∉ stamp) {fmt : ℚ → List Char} (hf : FormatOk fmt)
    (path : Path) (format : List Char) (zUp : Bool) (res override : Option ℚ) :
    (written (g.export env taken stamp fmt path format zUp res override)).Nodup ∧
    ∀ n ∈ written (g.export env taken stamp fmt path format zUp res override), (pathSplit n).1 = (pathSplit path).1 :=
  ⟨written_nodup taken stamp hf g (resOk_history (resOk_blank _ _ _ _ _ _ _ _) h).nodup path format zUp res override, written_folder taken hs hf.slash g path format zUp res override⟩

/-- **C78** (every grid): the files have the extension of their format and the kind of contents that goes with it, and the resolution of the raster is in its name -/
theorem C78_extension {τ : Type} [LayerLike τ] [NamesLike τ] [LayerNames τ] (taken : Path → Bool) (stamp : List Char) (fmt : ℚ → List Char) (g : Grid τ) (path : Path) (format : List Char)
    (zUp : Bool) (res override : Option ℚ) : ∀ x ∈ (g.export env taken stamp fmt path format zUp res override).2.1,
      (format.map Char.toLower = "csv".toList → (∃ f, x.2 = .csv f) ∧ ".csv".toList <:+ x.1) ∧
      (format.map Char.toLower = "geotiff".toList → ∃ f, x.2 = .raster f ∧ '_' :: fmt f.res ++ ['_'] <:+: x.1 ∧ ".tif".toList <:+ x.1) ∧
      (format.map Char.toLower = "bag".toList → ∃ f, x.2 = .raster f ∧ '_' :: fmt f.res ++ ['_'] <:+: x.1 ∧ ".bag".toList <:+ x.1) := by
  intro x hx
  have hras : ∀ (kind : RasterKind) (base : Path) (m : List RasterFile), x ∈ m.map (fun r => (rasterName kind base (fmt r.res) r.number, ExportFile.raster r)) →
      ∃ f, x.2 = .raster f ∧ '_' :: fmt f.res ++ ['_'] <:+: x.1 ∧ kind.ext <:+ x.1 := by
    intro kind base m h
    obtain ⟨r, -, rfl⟩ := List.mem_map.1 h
    exact ⟨r, rfl, ⟨base, decimal r.number ++ kind.ext, by simp [rasterName]⟩, List.suffix_append _ _⟩
  unfold Grid.export at hx
  simp only at hx
  split_ifs at hx with h1 h2 h3 h4
  · obtain ⟨r, -, rfl⟩ := List.mem_map.1 hx
    refine ⟨fun _ => ⟨⟨_, rfl⟩, List.suffix_append _ _⟩, fun h => ?_, fun h => ?_⟩
    · rw [h1] at h; exact absurd h (by decide)
    · rw [h1] at h; exact absurd h (by decide)
  · refine ⟨fun h => absurd h h1, fun _ => hras _ _ _ hx, fun h => ?_⟩
    rw [h2] at h; exact absurd h (by decide)
  · cases hx
  · exact ⟨fun h => absurd h h1, fun h => absurd h h2, fun _ => hras _ _ _ hx⟩
  · cases hx

/-- a text for every number: sign, numerator, `d`, denominator -/
def ratText (r : ℚ) : List Char := (if r.num < 0 then '-' else '+') :: decimal r.num.natAbs ++ 'd' :: decimal r.den

theorem ratText_ok : FormatOk ratText := by
  have hdig : ∀ (k : Nat) (c : Char), c.isDigit = false → c ∉ decimal k := by
    intro k c hc h
    rw [decimal_digits k c h] at hc
    cases hc
  constructor
  · intro a b h
    unfold ratText at h
    simp only [List.cons_append, List.cons.injEq] at h
    obtain ⟨h1, h2⟩ := h
    obtain ⟨h3, h4⟩ := cut_unique (hdig _ _ (by decide)) (hdig _ _ (by decide)) h2
    have h3 := decimal_inj h3
    have h4 := decimal_inj h4
    apply Rat.ext _ h4
    split_ifs at h1 with ha hb hb
    · omega
    · exact absurd h1 (by decide)
    · exact absurd h1 (by decide)
    · omega
  · intro a
    unfold ratText
    simp only [List.mem_cons, List.mem_append, List.cons_append]
    split_ifs <;> simp [hdig]
  · intro a
    unfold ratText
    simp only [List.mem_cons, List.mem_append, List.cons_append]
    split_ifs <;> simp [hdig]

/-- **C78, violated**: exporting a reachable grid twice to a path, one second apart, in a folder without any file: the names of the second export are those of
the first. -/
theorem C78_violated : ∃ (g : Grid Tile) (stamp stamp' : List Char) (path : Path), SRHistory demoEnv 16 false demoFields .plain false g demoStore ∧ stamp ≠ stamp' ∧
    written (g.export demoEnv (fun _ => false) stamp ratText path "CSV".toList true none none) = ["/out/a_+8d1.csv".toList] ∧
    written (g.export demoEnv (fun p => decide (p = "/out/a_+8d1.csv".toList)) stamp' ratText path "CSV".toList true none none) = ["/out/a_+8d1.csv".toList] := by
  refine ⟨demoSRg, "20220101_120000".toList, "20220101_120001".toList, "/out/a.csv".toList, demoSRg_history, by decide, by decide +kernel, by decide +kernel⟩

/-- the examples: several files, a path that is taken, both grid types, a refused format -/
example : FormatOk ratText ∧ SRHistory demoEnv 16 false demoFields .plain false demoSRg demoStore ∧ VRHistory demoEnv 32 16 false demoFields .plain false demoVRg demoStore ∧
    written (demoSRg.export demoEnv (fun _ => true) "20220101_120000".toList ratText "/out//a.b.tif".toList "GeoTiff".toList true none (some 16)) =
      ["/out/a.b_20220101_120000_+8d1_1.tif".toList, "/out/a.b_20220101_120000_+8d1_2.tif".toList, "/out/a.b_20220101_120000_+8d1_3.tif".toList,
       "/out/a.b_20220101_120000_+8d1_4.tif".toList] ∧
    written (demoVRg.export demoEnv (fun _ => false) "20220101_120000".toList ratText "a".toList "bag".toList true none (some 32)) =
      ["a_+8d1_1.bag".toList, "a_+8d1_2.bag".toList, "a_+8d1_3.bag".toList] ∧
    (∀ f ∈ ["csv", "geotiff", "bag"], "kml".toList.map Char.toLower ≠ f.toList) ∧
    (∀ c ∈ ['/', '.'], c ∉ "20220101_120000".toList) ∧ (∀ c ∈ ['/', '.'], c ∉ "20220101_120001".toList) ∧ "20220101_120000".toList.length = "20220101_120001".toList.length := by
  refine ⟨ratText_ok, demoSRg_history, demoVRg_history, by decide +kernel, by decide +kernel, by decide +kernel, by decide, by decide, by decide⟩

end Bathy
