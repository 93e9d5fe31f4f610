import Verif.Lemmas.BagOptions
import Verif.Props.BagXml
import Verif.Props.ExportPath

/-!
# C88, C89, C90: what is handed over with a BAG besides the layers

Model: `bagOptions`, `rxlFile`, `bagVertical` (bathygrid/bgrid.py:2067-2094, 2340-2358, bathygrid/utilities.py:447-467).
-/

namespace Bathy
open Grid

variable {env : Env} {size sub : ℚ} {bs : Bool} {fl : Fields} {F : Family} {s : Bool} {A : Store}

/-- a WKT of an axis that points down, in one of the two ways that the code looks for -/
def PointsDown (wkt : List Char) : Prop := "\"depth (D)\",down".toList <:+: wkt ∨ "\"Depth\",DOWN".toList <:+: wkt

instance (wkt : List Char) : Decidable (PointsDown wkt) := inferInstanceAs (Decidable (_ ∨ _))

/-- the text behind the name of an option -/
def option (now : BagNow) (a : BagArgs) (name : String) : Option (List Char) := (bagOptions now a).lookup name

/-- **C88, what is true of it**: an axis that does not point down is handed over as it was given, which is also what the two replacements would give. -/
theorem C88_vertical_partial (now : BagNow) (a : BagArgs) (h0 : a.vertCrs ≠ []) (h : ¬ PointsDown a.vertCrs) :
    option now a "VAR_VERT_WKT" = some a.vertCrs ∧ replaceAll wkt1Down wkt1Up (replaceAll wkt2Down wkt2Up a.vertCrs) = a.vertCrs := by
  unfold PointsDown at h
  rw [not_or] at h
  refine ⟨?_, ?_⟩
  · show some (vertText a.vertCrs) = _
    simp only [vertText, orElse, if_neg h0]
  · have h2 : replaceAll wkt2Down wkt2Up a.vertCrs = a.vertCrs := replaceFrom_none h.1
    rw [h2]
    exact replaceFrom_none h.2

/-- **C88, what the code does instead**: an axis that points down still points down in the option, whatever else is given. -/
theorem C88_stays_down (now : BagNow) (a : BagArgs) (h : PointsDown a.vertCrs) : ∃ v, option now a "VAR_VERT_WKT" = some v ∧ PointsDown v := by
  have h0 : a.vertCrs ≠ [] := by
    intro e
    rw [e] at h
    revert h
    decide
  refine ⟨a.vertCrs, ?_, h⟩
  show some (vertText a.vertCrs) = _
  simp only [vertText, orElse, if_neg h0]

/-- **C88, violated**: the elevations of a BAG are positive up, but the option says that the axis points down. -/
theorem C88_violated : ∃ (now : BagNow) (a : BagArgs) (v : List Char), option now a "VAR_VERT_WKT" = some v ∧ PointsDown v :=
  ⟨⟨[], [], []⟩, { vertCrs := "VERT_CS[\"MLLW depth\",AXIS[\"Depth\",DOWN]]".toList }, _, rfl, by decide +kernel⟩

/-- **C88, the replacement for WKT2 is wrong too**: every time it is made the text loses a quotation mark, so that a text with one such axis would no longer have its quotation marks
in pairs. -/
theorem C88_wkt2_quotes (wkt : List Char) : ∃ k, (replaceAll wkt2Down wkt2Up wkt).length = wkt.length + 14 * k ∧ (replaceAll wkt2Down wkt2Up wkt).count '"' + k = wkt.count '"' ∧
    (k = 0 ↔ ¬ "\"depth (D)\",down".toList <:+: wkt) := by
  obtain ⟨k, h1, h2, h3⟩ := replaceFrom_count (old := wkt2Down) (new := wkt2Up) (by decide) '"' (le_refl wkt.length)
  have e1 : wkt2Down.length = 16 := by decide
  have e2 : wkt2Up.length = 30 := by decide
  have e3 : wkt2Down.count '"' = 2 := by decide
  have e4 : wkt2Up.count '"' = 1 := by decide
  rw [e1, e2] at h1
  rw [e3, e4] at h2
  exact ⟨k, by unfold replaceAll; omega, by unfold replaceAll; omega, h3⟩

/-- **C88**: every other option is the text given, and the texts that were left out are filled in; no option is given twice. -/
theorem C88_options (now : BagNow) (a : BagArgs) (hd : a.date ≠ []) (ht : a.datetime ≠ []) (hp : a.process ≠ []) :
    [option now a "VAR_INDIVIDUAL_NAME", option now a "VAR_ORGANISATION_NAME", option now a "VAR_POSITION_NAME", option now a "VAR_DATE", option now a "VAR_ABSTRACT",
      option now a "VAR_PROCESS_STEP_DESCRIPTION", option now a "VAR_DATETIME", option now a "VAR_RESTRICTION_CODE", option now a "VAR_OTHER_CONSTRAINTS", option now a "VAR_CLASSIFICATION",
      option now a "VAR_SECURITY_USER_NOTE"] =
    [some a.individual, some a.organisation, some a.position, some a.date, some a.abstract, some a.process, some a.datetime, some a.restriction, some a.constraints, some a.classification,
      some a.note] ∧
    option now { a with date := [], datetime := [], process := [] } "VAR_DATE" = some now.date ∧
    option now { a with date := [], datetime := [], process := [] } "VAR_DATETIME" = some now.datetime ∧
    option now { a with date := [], datetime := [], process := [] } "VAR_PROCESS_STEP_DESCRIPTION" = some ("Generated By GDAL ".toList ++ now.gdal) ∧
    ((bagOptions now a).map Prod.fst).Nodup := by
  have e1 : option now a "VAR_DATE" = some (orElse a.date now.date) := rfl
  have e2 : option now a "VAR_DATETIME" = some (orElse a.datetime now.datetime) := rfl
  have e3 : option now a "VAR_PROCESS_STEP_DESCRIPTION" = some (orElse a.process ("Generated By GDAL ".toList ++ now.gdal)) := rfl
  refine ⟨?_, rfl, rfl, rfl, ?_⟩
  · rw [e1, e2, e3]
    simp only [orElse, if_neg hd, if_neg ht, if_neg hp]
    rfl
  · show (["VAR_INDIVIDUAL_NAME", "VAR_ORGANISATION_NAME", "VAR_POSITION_NAME", "VAR_DATE", "VAR_VERT_WKT", "VAR_ABSTRACT", "VAR_PROCESS_STEP_DESCRIPTION", "VAR_DATETIME", "VAR_RESTRICTION_CODE",
      "VAR_OTHER_CONSTRAINTS", "VAR_CLASSIFICATION", "VAR_SECURITY_USER_NOTE"] : List String).Nodup
    decide

/-- the hypotheses are met: a height, a depth of WKT2 -/
example : let a : BagArgs := { vertCrs := "VERT_CS[\"NAVD88\",AXIS[\"Gravity-related height\",UP]]".toList, date := ['d'], datetime := ['t'], process := ['p'] }
    a.vertCrs ≠ [] ∧ ¬ PointsDown a.vertCrs ∧ a.date ≠ [] ∧ a.datetime ≠ [] ∧ a.process ≠ [] := by decide +kernel

example : PointsDown "AXIS[\"depth (D)\",down]".toList ∧ replaceAll wkt2Down wkt2Up "AXIS[\"depth (D)\",down]".toList = "AXIS[\"gravity-related height (H),up]".toList ∧
    replaceAll wkt1Down wkt1Up "[\"Depth\",DOWN][\"Depth\",DOWN]".toList = "[\"Gravity-related height\",UP][\"Gravity-related height\",UP]".toList := by decide +kernel

section
variable {τ : Type} [LayerLike τ] [NamesLike τ] [LayerNames τ]

/-- every file of an export in the BAG format is named after the stem of the output path and ends with `.bag` -/
theorem written_bag (taken : Path → Bool) (stamp : List Char) (fmt : ℚ → List Char) (hf : ∀ a, '/' ∉ fmt a) (g : Grid τ) (path : Path) (format : List Char) (hb : format.map Char.toLower = "bag".toList)
    (zUp : Bool) (res override : Option ℚ) :
    ∀ n ∈ written (g.export env taken stamp fmt path format zUp res override), ∃ x, n = (splitExt (exportPath taken stamp path)).1 ++ '_' :: x ++ ".bag".toList ∧ '/' ∉ x := by
  intro n hn
  have hdec : ∀ k, '/' ∉ decimal k := by
    intro k h
    have := decimal_digits k _ h
    revert this; decide
  unfold written Grid.export at hn
  simp only at hn
  rw [if_neg (by rw [hb]; decide), if_neg (by rw [hb]; decide), if_pos hb] at hn
  split_ifs at hn
  · simp at hn
  · simp only [List.map_map, List.mem_map, Function.comp_apply] at hn
    obtain ⟨r, -, rfl⟩ := hn
    exact ⟨fmt r.res ++ '_' :: decimal r.number, by simp [rasterName, RasterKind.ext], by simp [hf, hdec]⟩

theorem rxl_names (taken : Path → Bool) {stamp : List Char} (hs : '/' ∉ stamp) {fmt : ℚ → List Char} (hf : FormatOk fmt) (g : Grid τ) (hg : g.resolutions.Nodup) (path : Path) (format : List Char)
    (hb : format.map Char.toLower = "bag".toList) (zUp : Bool) (res override : Option ℚ) :
    (∀ n ∈ written (g.export env taken stamp fmt path format zUp res override), rxlName n = n ++ "_rxl".toList ∧ (pathSplit (rxlName n)).1 = (pathSplit path).1) ∧
    (written (g.export env taken stamp fmt path format zUp res override) ++ (written (g.export env taken stamp fmt path format zUp res override)).map rxlName).Nodup := by
  have hn := written_nodup (env := env) taken stamp hf g hg path format zUp res override
  have hfo := written_folder (env := env) taken hs hf.slash g path format zUp res override
  have hbag := written_bag (env := env) taken stamp fmt hf.slash g path format hb zUp res override
  generalize written (g.export env taken stamp fmt path format zUp res override) = W at hn hfo hbag ⊢
  have hr : ∀ n ∈ W, rxlName n = n ++ "_rxl".toList := by
    intro n h
    obtain ⟨x, rfl, hx⟩ := hbag n h
    exact rxlName_bag _ _ hx
  refine ⟨fun n h => ⟨hr n h, ?_⟩, ?_⟩
  · rw [hr n h, ← hfo n h]
    exact pathSplit_dir (parts_append (by decide)).1
  · rw [List.nodup_append]
    refine ⟨hn, ?_, ?_⟩
    · refine hn.map_on ?_
      intro a ha b hb' e
      rw [hr a ha, hr b hb'] at e
      exact List.append_cancel_right e
    · intro a ha b hb' e
      rw [List.mem_map] at hb'
      obtain ⟨n, hn', rfl⟩ := hb'
      obtain ⟨x, rfl, -⟩ := hbag a ha
      rw [hr n hn'] at e
      have := congrArg List.getLast? e
      rw [List.getLast?_append, List.getLast?_append (l := n)] at this
      have e1 : ".bag".toList.getLast? = some 'g' := by decide
      have e2 : "_rxl".toList.getLast? = some 'l' := by decide
      rw [e1, e2, Option.some_or, Option.some_or] at this
      exact absurd this (by decide)
end

/-- **C89** (single resolution): the registration file of each BAG of an export is in the folder of the output path and has the name of the BAG with `_rxl` behind it; no two files
of the export, BAGs and registration files, have the same name. -/
theorem C89_registration_sr {g : Grid Tile} (h : SRHistory env size bs fl F s g A) (taken : Path → Bool) {stamp : List Char} (hs : '/' ∉ stamp) {fmt : ℚ → List Char} (hf : FormatOk fmt) (path : Path)
    (format : List Char) (hb : format.map Char.toLower = "bag".toList) (zUp : Bool) (res override : Option ℚ) :
    (∀ n ∈ written (g.export env taken stamp fmt path format zUp res override), rxlName n = n ++ "_rxl".toList ∧ (pathSplit (rxlName n)).1 = (pathSplit path).1) ∧
    (written (g.export env taken stamp fmt path format zUp res override) ++ (written (g.export env taken stamp fmt path format zUp res override)).map rxlName).Nodup :=
  rxl_names taken hs hf g (resOk_history (resOk_blank _ _ _ _ _ _ _ _) h).nodup path format hb zUp res override

/-- **C89** (variable resolution). -/
theorem C89_registration_vr {g : Grid (Grid Tile)} (h : VRHistory env size sub bs fl F s g A) (taken : Path → Bool) {stamp : List Char} (hs : '/' ∉ stamp) {fmt : ℚ → List Char} (hf : FormatOk fmt)
    (path : Path) (format : List Char) (hb : format.map Char.toLower = "bag".toList) (zUp : Bool) (res override : Option ℚ) :
    (∀ n ∈ written (g.export env taken stamp fmt path format zUp res override), rxlName n = n ++ "_rxl".toList ∧ (pathSplit (rxlName n)).1 = (pathSplit path).1) ∧
    (written (g.export env taken stamp fmt path format zUp res override) ++ (written (g.export env taken stamp fmt path format zUp res override)).map rxlName).Nodup :=
  rxl_names taken hs hf g (resOk_history (resOk_blank _ _ _ _ _ _ _ _) h).nodup path format hb zUp res override

/-- **C89**: a registration file is written exactly for a BAG that is there and a reference that is not empty, and the reference is the only one in it. -/
theorem C89_document (there : Bool) (resfile : Path) (wkt : String) :
    ((rxlFile there resfile wkt).isSome ↔ there = true ∧ wkt ≠ "") ∧
    ∀ f ∈ rxlFile there resfile wkt, (Xml.findAll ["coordinate_system", "wkt"] f.2).map Xml.text = [some wkt] := by
  unfold rxlFile
  split_ifs with h
  · refine ⟨by simp [h], ?_⟩
    intro f hf
    rw [Option.mem_def, Option.some.injEq] at hf
    subst hf
    rfl
  · exact ⟨by simpa using h, by simp⟩

/-- the hypotheses are met: an export with several BAGs -/
example : FormatOk ratText ∧ SRHistory demoEnv 16 false demoFields .plain false demoSRg demoStore ∧ VRHistory demoEnv 32 16 false demoFields .plain false demoVRg demoStore ∧
    "Bag".toList.map Char.toLower = "bag".toList ∧
    (written (demoSRg.export demoEnv (fun _ => false) "20220101_120000".toList ratText "/out/a.b.bag".toList "Bag".toList true none (some 16))).map rxlName =
      ["/out/a.b_+8d1_1.bag_rxl".toList, "/out/a.b_+8d1_2.bag_rxl".toList, "/out/a.b_+8d1_3.bag_rxl".toList, "/out/a.b_+8d1_4.bag_rxl".toList] := by
  refine ⟨ratText_ok, demoSRg_history, demoVRg_history, by decide, by decide +kernel⟩

/-- the texts of the reference systems of a document -/
def references (root : Xml) : List (Option String) := (Xml.findAll crsHierarchy root).map Xml.text

/-- **C90**: a vertical reference is returned exactly when the document has two references and the first vertical one of them is this; all before it must be readable and not vertical. -/
theorem C90_found (vertical : Option String → Except Err Bool) (root : Xml) (t : Option String) :
    bagVertical vertical (some root) = .ok t ↔
      ∃ a b, references root = [a, b] ∧ (vertical a = .ok true ∧ t = a ∨ vertical a = .ok false ∧ vertical b = .ok true ∧ t = b) := by
  unfold bagVertical references
  simp only
  match Xml.findAll crsHierarchy root with
  | [] => simp
  | [x] => simp
  | x :: y :: z :: l => simp
  | [x, y] =>
    rw [if_pos (by rfl : [x, y].length = 2)]
    simp only [firstVertical, List.map_cons, List.map_nil, List.cons.injEq, and_true]
    constructor
    · intro h
      refine ⟨_, _, ⟨rfl, rfl⟩, ?_⟩
      cases hx : vertical x.text with
      | error e => rw [hx] at h; cases h
      | ok v =>
        rw [hx] at h
        cases v with
        | true => exact Or.inl ⟨rfl, (Except.ok.inj h).symm⟩
        | false =>
          cases hy : vertical y.text with
          | error e => rw [hy] at h; cases h
          | ok w =>
            rw [hy] at h
            cases w with
            | true => exact Or.inr ⟨rfl, rfl, (Except.ok.inj h).symm⟩
            | false => cases h
    · rintro ⟨a, b, ⟨rfl, rfl⟩, ⟨h1, rfl⟩ | ⟨h1, h2, rfl⟩⟩
      · rw [h1]
      · rw [h1]
        simp only [h2]

/-- **C90**: with one vertical reference among two that can be read, the order does not matter. -/
theorem C90_order (vertical : Option String → Except Err Bool) (root root' : Xml) (v h : Option String) (hv : vertical v = .ok true) (hh : vertical h = .ok false)
    (h1 : references root = [h, v]) (h2 : references root' = [v, h]) : bagVertical vertical (some root) = .ok v ∧ bagVertical vertical (some root') = .ok v :=
  ⟨(C90_found _ _ _).2 ⟨_, _, h1, Or.inr ⟨hh, hv, rfl⟩⟩, (C90_found _ _ _).2 ⟨_, _, h2, Or.inl ⟨hv, rfl⟩⟩⟩

/-- **C90**: any other number of references is refused, with the error for it. -/
theorem C90_refused (vertical : Option String → Except Err Bool) (root : Xml) (h : (references root).length ≠ 2) : bagVertical vertical (some root) = .error .valueError := by
  unfold bagVertical
  simp only
  rw [if_neg (by unfold references at h; rwa [List.length_map] at h)]

/-- **C90**: writing the times into the metadata does not change the vertical reference that is found. -/
theorem C90_times (vertical : Option String → Except Err Bool) (start stop : String) (root : Xml) :
    bagVertical vertical (some (Xml.setTimes start stop root)) = bagVertical vertical (some root) := by
  unfold bagVertical
  simp only
  rw [C82_frame start stop root crsHierarchy (by decide +kernel) (by decide +kernel)]

/-- a document with the references given -/
def withReferences (l : List String) : Xml := .node "root" [] none (l.map (fun t =>
  .node (Xml.gmd ++ "referenceSystemInfo") [] none [.node (Xml.gmd ++ "MD_ReferenceSystem") [] none [.node (Xml.gmd ++ "referenceSystemIdentifier") [] none
    [.node (Xml.gmd ++ "RS_Identifier") [] none [.node (Xml.gmd ++ "code") [] none [Xml.leaf (gco ++ "CharacterString") t]]]]]))

/-- the hypotheses are met -/
example : let vertical : Option String → Except Err Bool := fun t => .ok (decide (t = some "V"))
    references (withReferences ["H", "V"]) = [some "H", some "V"] ∧ references (withReferences ["V", "H"]) = [some "V", some "H"] ∧ (references (withReferences ["V"])).length ≠ 2 ∧
    vertical (some "V") = .ok true ∧ vertical (some "H") = .ok false := by
  refine ⟨by decide +kernel, by decide +kernel, by decide +kernel, rfl, rfl⟩

end Bathy
