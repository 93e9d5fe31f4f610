import Verif.Lemmas.BagMinMax
import Verif.Props.Export
import Verif.Props.SameCells

/-!
# C86: smallest and largest values in the attributes of a BAG

Model: `correctMinMax` (bathygrid/bgrid.py:1957-1983).
-/

namespace Bathy

/-- the number `v` is what the band of that name is to show for a stored number of the layer in a cell of the file -/
def ShownIn {τ : Type} [HasLeaves τ] (g : Grid τ) (f : RasterFile) (name : String) (l : Layer) (v : ℚ) : Prop :=
  ∃ x y z, StoredCell g l f.res x y z ∧ f.Covers name x y ∧ NamedValue g name z v

/-- The attributes say the smallest and the largest of what the file shows; `unc` is the layer of the uncertainties, if the file has them.  Attributes of
uncertainties that the file does not have are as before. -/
structure ExtremesRight {τ : Type} [HasLeaves τ] (g : Grid τ) (unc : Option Layer) (f : RasterFile) (before after : Dict String (Option ℚ)) : Prop where
  maxElevation : ∃ m, after.get? "Maximum Elevation Value" = some (some m) ∧ IsGreatest {v | ShownIn g f "Elevation" .depth v} m
  minElevation : ∃ m, after.get? "Minimum Elevation Value" = some (some m) ∧ IsLeast {v | ShownIn g f "Elevation" .depth v} m
  maxUncertainty : ∀ l, unc = some l → ∃ m, after.get? "Maximum Uncertainty Value" = some (some m) ∧ IsGreatest {v | ShownIn g f "Uncertainty" l v} m
  minUncertainty : ∀ l, unc = some l → ∃ m, after.get? "Minimum Uncertainty Value" = some (some m) ∧ IsLeast {v | ShownIn g f "Uncertainty" l v} m
  other : ∀ k, k ≠ "Maximum Elevation Value" → k ≠ "Minimum Elevation Value" →
    (unc ≠ none → k ≠ "Maximum Uncertainty Value" ∧ k ≠ "Minimum Uncertainty Value") → after.get? k = before.get? k

theorem named_eq {τ : Type} {g : Grid τ} {name : String} {z v w : ℚ} (h1 : NamedValue g name z v) (h2 : NamedValue g name z w) : v = w := by
  by_cases hu : StoredUp g
  · by_cases h : name = "Elevation"
    · rw [(h1.1 h).1 hu, (h2.1 h).1 hu]
    · by_cases h' : name = "Depth"
      · rw [(h1.2.1 h').1 hu, (h2.2.1 h').1 hu]
      · rw [h1.2.2 h h', h2.2.2 h h']
  · by_cases h : name = "Elevation"
    · rw [(h1.1 h).2 hu, (h2.1 h).2 hu]
    · by_cases h' : name = "Depth"
      · rw [(h1.2.1 h').2 hu, (h2.2.1 h').2 hu]
      · rw [h1.2.2 h h', h2.2.2 h h']

/-- what is at the cells with a valid elevation -/
theorem masked_shown {τ : Type} [HasLeaves τ] {g : Grid τ} {f : RasterFile} {name : String} {l : Layer} {a b : LayerArr}
    (ha : a.WF) (hb : b.WF) (hr : b.rows = a.rows) (hc : b.cols = a.cols) (hmem : ∀ b', (name, b') ∈ f.bands ↔ b' = b)
    (hA : BandShows g "Elevation" .depth f a) (hB : BandShows g name l f b) (hsame : ∀ x y, Numbered g l f.res x y ↔ Numbered g .depth f.res x y)
    (hno : ∀ x y z, StoredCell g .depth f.res x y z → ¬ NamedValue g "Elevation" z 1000000) :
    (∀ v ∈ boolIndex (transpose b).flat ((transpose a).flat.map (fun v => decide (v ≠ some 1000000))), v ≠ none) ∧
    ∀ w, some w ∈ boolIndex (transpose b).flat ((transpose a).flat.map (fun v => decide (v ≠ some 1000000))) ↔ ShownIn g f name l w := by
  have hm := mem_masked (transpose_wf a) (transpose_wf b) hc.symm hr.symm (fun v => decide (v ≠ some 1000000))
  have key : ∀ v, v ∈ boolIndex (transpose b).flat ((transpose a).flat.map (fun v => decide (v ≠ some 1000000))) ↔ ∃ i j z w, i < b.rows ∧ j < b.cols ∧
      StoredCell g l f.res (f.geo.x0 + (j : ℚ) * f.res) (f.geo.y0 - (i : ℚ) * f.res - f.res) z ∧ v = some w ∧ NamedValue g name z w := by
    intro v
    rw [hm]
    constructor
    · rintro ⟨j, i, w, h1, h2, h3⟩
      rw [transpose_get ha] at h1
      rw [transpose_get hb] at h3
      have hij : i < b.rows ∧ j < b.cols := by
        by_contra hn; rw [Arr2.get?_none_of_not_lt b hn] at h3; cases h3
      have hst : Numbered g .depth f.res (f.geo.x0 + (j : ℚ) * f.res) (f.geo.y0 - (i : ℚ) * f.res - f.res) := by
        by_contra hn
        have := hA.2 i j (by omega) (by omega) (fun z hz => hn ⟨z, hz⟩)
        rw [h1, Option.some.injEq] at this
        exact of_decide_eq_true h2 this
      obtain ⟨z, hz⟩ := (hsame _ _).2 hst
      obtain ⟨u, hu, hN⟩ := hB.1 i j z hij.1 hij.2 hz
      rw [h3, Option.some.injEq] at hu
      exact ⟨i, j, z, u, hij.1, hij.2, hz, hu, hN⟩
    · rintro ⟨i, j, z, w, hi, hj, hz, rfl, hN⟩
      obtain ⟨z', hz'⟩ := (hsame _ _).1 ⟨z, hz⟩
      obtain ⟨u, hu, hN'⟩ := hA.1 i j z' (by omega) (by omega) hz'
      obtain ⟨u', hu', hN''⟩ := hB.1 i j z hi hj hz
      refine ⟨j, i, some u, by rw [transpose_get ha]; exact hu, ?_, ?_⟩
      · apply decide_eq_true
        intro e
        rw [Option.some.injEq] at e
        subst e
        exact hno _ _ _ hz' hN'
      · rw [transpose_get hb, hu', named_eq hN'' hN]
  refine ⟨fun v hv => ?_, fun w => ?_⟩
  · obtain ⟨-, -, -, w, -, -, -, rfl, -⟩ := (key v).1 hv
    simp
  · rw [key]
    constructor
    · rintro ⟨i, j, z, w', hi, hj, hz, e, hN⟩
      rw [Option.some.injEq] at e
      subst e
      exact ⟨_, _, z, hz, ⟨b, (hmem b).2 rfl, i, j, hi, hj, rfl, by ring⟩, hN⟩
    · rintro ⟨x, y, z, hz, ⟨b', hb', i, j, hi, hj, rfl, hy⟩, hN⟩
      rw [hmem] at hb'
      subst hb'
      have : y = f.geo.y0 - (i : ℚ) * f.res - f.res := by linarith
      subst this
      exact ⟨i, j, z, w, hi, hj, hz, rfl, hN⟩

/-- numbers of a list, as the largest and the smallest -/
theorem extremes_of {vs : List (Option ℚ)} {P : ℚ → Prop} (hne : ∃ w, P w) (hall : ∀ v ∈ vs, v ≠ none) (hP : ∀ w, some w ∈ vs ↔ P w) :
    ∃ M m, npExtreme max vs = .ok (some M) ∧ npExtreme min vs = .ok (some m) ∧ IsGreatest {v | P v} M ∧ IsLeast {v | P v} m := by
  have hv : vs ≠ [] := by
    rintro rfl
    obtain ⟨w, hw⟩ := hne
    have := (hP w).2 hw
    cases this
  obtain ⟨M, e1, g1⟩ := npMax_spec hv hall
  obtain ⟨m, e2, g2⟩ := npMin_spec hv hall
  have hset : {w | some w ∈ vs} = {v | P v} := Set.ext hP
  rw [hset] at g1 g2
  exact ⟨M, m, e1, e2, g1, g2⟩

theorem named_exists {τ : Type} (g : Grid τ) (name : String) (z : ℚ) : ∃ v, NamedValue g name z v := by
  by_cases hu : StoredUp g
  · by_cases h : name = "Depth"
    · subst h; exact ⟨-z, by intro h; exact absurd h (by decide), fun _ => ⟨fun _ => rfl, fun h => absurd hu h⟩, fun _ h => absurd rfl h⟩
    · exact ⟨z, fun _ => ⟨fun _ => rfl, fun h => absurd hu h⟩, fun h' => absurd h' h, fun _ _ => rfl⟩
  · by_cases h : name = "Elevation"
    · subst h; exact ⟨-z, fun _ => ⟨fun h => absurd h hu, fun _ => rfl⟩, by intro h; exact absurd h (by decide), fun h => absurd rfl h⟩
    · exact ⟨z, fun h' => absurd h' h, fun _ => ⟨fun h => absurd h hu, fun _ => rfl⟩, fun _ _ => rfl⟩

/-- from the files to the attributes -/
theorem extremes_right {τ : Type} [HasLeaves τ] {g : Grid τ} {bands : List (String × Layer)} {unc : Option Layer} {res : ℚ} {files : List RasterFile}
    (hR : RastersRight g bands res files) (hexp : bands = ("Elevation", .depth) :: unc.toList.map (fun l => ("Uncertainty", l)))
    (hS : ∀ l, unc = some l → ∀ x y, Numbered g l res x y ↔ Numbered g .depth res x y)
    (hno : ∀ x y z, StoredCell g .depth res x y z → ¬ NamedValue g "Elevation" z 1000000) {f : RasterFile} (hf : f ∈ files) (hsh : OneShape (f.bands.map Prod.snd))
    (attrs : Dict String (Option ℚ)) : ExtremesRight g unc f attrs (correctMinMax 1000000 f attrs) := by
  obtain ⟨hres, -, hnames, hbands⟩ := hR.right f hf
  obtain ⟨R, C, hsh⟩ := hsh
  subst hres
  obtain ⟨name, l, hnl, x, y, z, hst, hcov⟩ := hR.some f hf
  rw [hexp] at hnames hbands hnl
  obtain ⟨a, ha, hA⟩ := hbands 0 "Elevation" .depth rfl
  have hamem : ("Elevation", a) ∈ f.bands := List.mem_of_getElem? ha
  obtain ⟨aw, ar, ac⟩ := hsh a (List.mem_map.2 ⟨_, hamem, rfl⟩)
  -- the file has a cell with a depth
  have hcell : ∃ w, ShownIn g f "Elevation" .depth w := by
    have hdep : Numbered g .depth f.res x y := by
      cases ht : unc with
      | some lu =>
        rw [ht] at hnl
        simp only [Option.toList_some, List.map_cons, List.map_nil, List.mem_cons, Prod.mk.injEq, List.not_mem_nil, or_false] at hnl
        rcases hnl with ⟨rfl, rfl⟩ | ⟨rfl, rfl⟩
        · exact ⟨z, hst⟩
        · exact (hS _ ht x y).1 ⟨z, hst⟩
      | none =>
        rw [ht] at hnl
        simp only [Option.toList_none, List.map_nil, List.mem_cons, Prod.mk.injEq, List.not_mem_nil, or_false] at hnl
        obtain ⟨rfl, rfl⟩ := hnl
        exact ⟨z, hst⟩
    obtain ⟨z', hz'⟩ := hdep
    obtain ⟨b, hb, i, j, hi, hj, e1, e2⟩ := hcov
    obtain ⟨-, br, bc⟩ := hsh b (List.mem_map.2 ⟨_, hb, rfl⟩)
    obtain ⟨v, hv⟩ := named_exists g "Elevation" z'
    exact ⟨v, x, y, z', hz', ⟨a, hamem, i, j, by omega, by omega, e1, e2⟩, hv⟩
  cases ht : unc with
  | none =>
    rw [ht] at hnames
    have hl : f.bands = [("Elevation", a)] := by
      match hfb : f.bands, hnames, ha with
      | [p], _, h => simp only [List.getElem?_cons_zero, Option.some.injEq] at h; rw [h]
      | [], h, _ => simp at h
      | _ :: _ :: _, h, _ => simp at h
    have hmem : ∀ b', ("Elevation", b') ∈ f.bands ↔ b' = a := by intro b'; rw [hl]; simp
    obtain ⟨hall, hP⟩ := masked_shown aw aw rfl rfl hmem hA hA (fun _ _ => Iff.rfl) hno
    obtain ⟨M, m, e1, e2, g1, g2⟩ := extremes_of hcell hall hP
    have hc : correctMinMax 1000000 f attrs = (attrs.set "Maximum Elevation Value" (some M)).set "Minimum Elevation Value" (some m) := by
      unfold correctMinMax layerMinMax
      rw [hl]
      simp only [List.map_cons, List.map_nil, e1, e2, setAttr, Res.andThen, Res.ok]
    rw [hc]
    refine ⟨⟨M, ?_, g1⟩, ⟨m, Dict.get?_set_self _ _ _, g2⟩, by simp, by simp, fun k h1 h2 _ => ?_⟩
    · rw [Dict.get?_set_ne _ _ (by decide), Dict.get?_set_self]
    · rw [Dict.get?_set_ne _ _ h2, Dict.get?_set_ne _ _ h1]
  | some lu =>
    rw [ht] at hnames hbands
    obtain ⟨b, hb, hB⟩ := hbands 1 "Uncertainty" lu rfl
    have hbmem : ("Uncertainty", b) ∈ f.bands := List.mem_of_getElem? hb
    obtain ⟨bw, br, bc⟩ := hsh b (List.mem_map.2 ⟨_, hbmem, rfl⟩)
    have hl : f.bands = [("Elevation", a), ("Uncertainty", b)] := by
      match hfb : f.bands, hnames, ha, hb with
      | [p, q], _, h, h' => 
        simp only [List.getElem?_cons_zero, List.getElem?_cons_succ, Option.some.injEq] at h h'; rw [h, h']
      | [], h, _, _ => simp at h
      | [_], h, _, _ => simp at h
      | _ :: _ :: _ :: _, h, _, _ => simp at h
    have hmem : ∀ b', ("Elevation", b') ∈ f.bands ↔ b' = a := by intro b'; rw [hl]; simp
    have hmem' : ∀ b', ("Uncertainty", b') ∈ f.bands ↔ b' = b := by intro b'; rw [hl]; simp
    obtain ⟨hall, hP⟩ := masked_shown aw aw rfl rfl hmem hA hA (fun _ _ => Iff.rfl) hno
    obtain ⟨M, m, e1, e2, g1, g2⟩ := extremes_of hcell hall hP
    obtain ⟨hall', hP'⟩ := masked_shown aw bw (by omega) (by omega) hmem' hA hB (hS _ ht) hno
    have hcell' : ∃ w, ShownIn g f "Uncertainty" lu w := by
      obtain ⟨w, x, y, z, h1, ⟨a', ha', i, j, hi, hj, h3, h4⟩, -⟩ := hcell
      rw [hmem] at ha'
      subst ha'
      obtain ⟨z', hz'⟩ := (hS _ ht x y).2 ⟨z, h1⟩
      obtain ⟨v, hv⟩ := named_exists g "Uncertainty" z'
      exact ⟨v, x, y, z', hz', ⟨b, hbmem, i, j, by omega, by omega, h3, h4⟩, hv⟩
    obtain ⟨M', m', e1', e2', g1', g2'⟩ := extremes_of hcell' hall' hP'
    have hshape : (transpose a).rows = (transpose b).rows ∧ (transpose a).cols = (transpose b).cols := ⟨ac.trans bc.symm, ar.trans br.symm⟩
    have hc : correctMinMax 1000000 f attrs = (((attrs.set "Maximum Elevation Value" (some M)).set "Minimum Elevation Value" (some m)).set "Maximum Uncertainty Value" (some M')).set
        "Minimum Uncertainty Value" (some m') := by
      unfold correctMinMax layerMinMax
      rw [hl]
      simp only [List.map_cons, List.map_nil, e1, e2, e1', e2', setAttr, Res.andThen, Res.ok, if_pos hshape]
    rw [hc]
    refine ⟨⟨M, ?_, g1⟩, ⟨m, ?_, g2⟩, fun l hl => ⟨M', ?_, by cases hl; exact g1'⟩, fun l hl => ⟨m', Dict.get?_set_self _ _ _, by cases hl; exact g2'⟩, fun k h1 h2 h3 => ?_⟩
    · rw [Dict.get?_set_ne _ _ (by decide), Dict.get?_set_ne _ _ (by decide), Dict.get?_set_ne _ _ (by decide), Dict.get?_set_self]
    · rw [Dict.get?_set_ne _ _ (by decide), Dict.get?_set_ne _ _ (by decide), Dict.get?_set_self]
    · rw [Dict.get?_set_ne _ _ (by decide), Dict.get?_set_self]
    · rw [Dict.get?_set_ne _ _ (h3 (by simp)).2, Dict.get?_set_ne _ _ (h3 (by simp)).1, Dict.get?_set_ne _ _ h2, Dict.get?_set_ne _ _ h1]

variable {size sub : ℚ} {fl : Fields} {env : Env} {F : Family} {s : Bool} {A : Store} {zUp : Bool} {a : GridCall} {dask : Option Nat}

/-- the layer that a BAG shows as uncertainty -/
def uncLayer (F : Family) (fl : Fields) : Option Layer :=
  match F with
  | .plain => if fl.hasTvu then some .vertical else none
  | .cube => some .totalUnc

theorem bag_bands (F : Family) (fl : Fields) (zUp : Bool) :
    expectedBands .bag zUp false F fl = ("Elevation", .depth) :: (uncLayer F fl).toList.map (fun l => ("Uncertainty", l)) := by
  cases F <;> cases h : fl.hasTvu <;> simp [expectedBands, uncLayer, h]

theorem plain_unc {τ : Type} [HasLeaves τ] {g : Grid τ} {res : ℚ} (hS : SameCells g .depth fl res) (l : Layer) (hl : uncLayer .plain fl = some l) (x y : ℚ) :
    Numbered g l res x y ↔ Numbered g .depth res x y := by
  cases ht : fl.hasTvu with
  | true => rw [uncLayer, ht] at hl; cases hl; exact hS.vertical ht x y
  | false => rw [uncLayer, ht] at hl; cases hl

/-- **C86** right after gridding a single resolution grid by mean or shoalest, for every BAG that is exported: if no stored depth has the elevation 1000000, the attributes say the
smallest and the largest elevation (and uncertainty) that the file shows.  (CUBE: `C86_cube_sr_partial`.) -/
theorem C86_extremes_sr_partial (hs : 0 < size) {g : Grid Tile} (h : SRHistory env size false fl F s g A) (ha : a.alg.family = some .plain) (hF : .plain = F ∨ a.clear = true)
    (hv : a.regrid = .full ∨ a.clear = true) (hok : (g.gridWith env a dask).err = none) {r : ℚ} (hr : a.res = some r) {m : Nat} (hm : size = (m : ℚ) * r)
    {res : Option ℚ} (hres : res = none ∨ res = some r) (override : Option ℚ)
    (hno : ∀ x y z, StoredCell (g.gridWith env a dask).st .depth r x y z → ¬ NamedValue (g.gridWith env a dask).st "Elevation" z 1000000)
    {f : RasterFile} (hf : f ∈ ((g.gridWith env a dask).st.exportRaster env .bag zUp res override).2.1) (attrs : Dict String (Option ℚ)) :
    ExtremesRight (g.gridWith env a dask).st (uncLayer .plain fl) f attrs (correctMinMax 1000000 f attrs) := by
  obtain ⟨per, hp, -, -, hex, hR⟩ := C76_rasters_sr_partial (kind := .bag) (zUp := zUp) hs h (crs_of_file hf) ha hF hv hok (fun _ => rfl) hr hm hres override
  have hsh := export_shape env (g.gridWith env a dask).st .bag zUp res override f hf
  rw [hex] at hf
  obtain ⟨p, hpm, hfp⟩ := List.mem_flatMap.1 hf
  have h1 : SRHistory env size false fl .plain s (g.gridWith env a dask).st A := history_after h ha hF hok
  have hRp := hR p hpm
  rw [hp p hpm] at hRp
  exact extremes_right hRp (bag_bands .plain fl zUp) (plain_unc (C85_same_cells_sr hs h1 r)) hno hfp hsh attrs

/-- **C86** for variable resolution grids -/
theorem C86_extremes_vr_partial (hs : 0 < size) (hpow : isPowerOfTwo sub = true) {q : Nat} (hdiv : size = (q : ℚ) * sub) {g : Grid (Grid Tile)}
    (h : VRHistory env size sub false fl F s g A) (ha : a.alg.family = some .plain) (hF : .plain = F ∨ a.clear = true) (hv : a.regrid = .full ∨ a.clear = true)
    (hok : (g.gridWith env a dask).err = none) {res : Option ℚ} {rs : List ℚ} (hrs : (res = none ∧ rs = (g.gridWith env a dask).st.resolutions) ∨ ∃ r, res = some r ∧ rs = [r])
    (hm : ∀ r ∈ rs, ∃ m : Nat, sub = (m : ℚ) * r) (override : Option ℚ)
    (hno : ∀ r ∈ rs, ∀ x y z, StoredCell (g.gridWith env a dask).st .depth r x y z → ¬ NamedValue (g.gridWith env a dask).st "Elevation" z 1000000)
    {f : RasterFile} (hf : f ∈ ((g.gridWith env a dask).st.exportRaster env .bag zUp res override).2.1) (attrs : Dict String (Option ℚ)) :
    ExtremesRight (g.gridWith env a dask).st (uncLayer .plain fl) f attrs (correctMinMax 1000000 f attrs) := by
  obtain ⟨per, hp, hex, hR⟩ := C76_rasters_vr_partial (kind := .bag) (zUp := zUp) hs hpow hdiv h (crs_of_file hf) ha hF hv hok hrs hm override
  have hsh := export_shape env (g.gridWith env a dask).st .bag zUp res override f hf
  rw [hex] at hf
  obtain ⟨p, hpm, hfp⟩ := List.mem_flatMap.1 hf
  have h1 : VRHistory env size sub false fl .plain s (g.gridWith env a dask).st A := history_after h ha hF hok
  have hpr : p.1 ∈ rs := hp ▸ List.mem_map.2 ⟨p, hpm, rfl⟩
  exact extremes_right (hR p hpm) (bag_bands .plain fl zUp) (plain_unc (C85_same_cells_vr hs hpow h1 p.1)) (hno p.1 hpr) hfp hsh attrs

/-- a stored cell of a single resolution grid is an element of an array -/
theorem stored_flat {g : Grid Tile} {l : Layer} {r : ℚ} {P : ℚ → Bool}
    (h : (g.tiles.all (fun T => T.flat.all (fun t => t.all (fun t => t.cells.all (fun c => c.2.all (fun a => decide (a.1 ≠ l) || a.2.flat.all (fun v => v.all P))))))) = true)
    {x y z : ℚ} (hz : StoredCell g l r x y z) : P z = true := by
  obtain ⟨u, ls, a, i, j, ⟨r', c', t, ⟨T, hT, ht⟩, e⟩, h2, h3, h4, -⟩ := hz
  have e : u = t := e
  subst e
  rw [hT] at h
  simp only [Option.all_some, List.all_eq_true] at h
  have ht' : some u ∈ T.flat := by
    by_cases hn : r' < T.rows ∧ c' < T.cols
    · rw [Arr2.get?_eq_flat T hn.1 hn.2] at ht; exact List.mem_of_getElem? ht
    · rw [Arr2.get?_none_of_not_lt T hn] at ht; cases ht
  have h1 := h _ ht'
  simp only [Option.all_some, List.all_eq_true] at h1
  have h5 := h1 _ (Dict.mem_of_get? _ h2) _ (Dict.mem_of_get? _ h3)
  have ha : some z ∈ a.flat := by
    by_cases hn : i < a.rows ∧ j < a.cols
    · rw [Arr2.get?_eq_flat a hn.1 hn.2] at h4; exact List.mem_of_getElem? h4
    · rw [Arr2.get?_none_of_not_lt a hn] at h4; cases h4
  simp only [ne_eq, not_true_eq_false, decide_false, Bool.false_or, List.all_eq_true] at h5
  simpa using h5 _ ha

/-- the hypotheses are met, and the attributes of the file -/
example : SRHistory demoEnv 16 false demoFields .plain false demoSR demoStore ∧ (demoSR.gridWith demoEnv { alg := .mean, res := some 8 } none).err = none ∧
    (∀ x y z, StoredCell (demoSR.gridWith demoEnv { alg := .mean, res := some 8 } none).st .depth 8 x y z →
      ¬ NamedValue (demoSR.gridWith demoEnv { alg := .mean, res := some 8 } none).st "Elevation" z 1000000) ∧
    ((demoSR.gridWith demoEnv { alg := .mean, res := some 8 } none).st.exportRaster demoEnv .bag false none none).2.1.map
        (fun f => correctMinMax 1000000 f [("Maximum Elevation Value", some 1000000), ("Minimum Elevation Value", some (-40))]) =
      [[("Maximum Elevation Value", some (-9)), ("Minimum Elevation Value", some (-40)), ("Maximum Uncertainty Value", some 3), ("Minimum Uncertainty Value", some 1)]] := by
  refine ⟨demoSR_history, by decide +kernel, fun x y z hz hN => ?_, by decide +kernel⟩
  have hz := stored_flat (P := fun z => decide (z ≠ 1000000) && decide (z ≠ -1000000)) (by decide +kernel) hz
  simp only [Bool.and_eq_true, decide_eq_true_eq] at hz
  by_cases hu : StoredUp (demoSR.gridWith demoEnv { alg := .mean, res := some 8 } none).st
  · exact hz.1 ((hN.1 rfl).1 hu).symm
  · exact hz.2 (by linarith [(hN.1 rfl).2 hu])

/-- a grid with a sounding 1000000 m above the surface, and one below -/
def farSR : Grid Tile :=
  (((newSR 16 false).addPoints ⟨demoFields, [⟨3, 5, -1000000, 1, 1⟩, ⟨12, 13, -7, 1, 2⟩]⟩ "a" demoArgs).st.gridWith demoEnv { alg := .mean, res := some 8 } none).st

theorem farSR_history : SRHistory demoEnv 16 false demoFields .plain false farSR [("a", [⟨3, 5, -1000000, 1, 1⟩, ⟨12, 13, -7, 1, 2⟩])] :=
  ((GridHistory.new .plain).add [⟨3, 5, -1000000, 1, 1⟩, ⟨12, 13, -7, 1, 2⟩] "a" demoArgs (by decide +kernel)).grid { alg := .mean, res := some 8 } rfl none

/-- **C86 is violated** without the hypothesis on the elevations: an elevation of 1000000 is taken for no data, and the largest elevation is another one. -/
theorem C86_violated : SRHistory demoEnv 16 false demoFields .plain false farSR [("a", [⟨3, 5, -1000000, 1, 1⟩, ⟨12, 13, -7, 1, 2⟩])] ∧
    ∃ f, (farSR.exportRaster demoEnv .bag false none none).2.1 = [f] ∧ (correctMinMax 1000000 f []).get? "Maximum Elevation Value" = some (some 7) ∧
      ShownIn farSR f "Elevation" .depth 1000000 := by
  refine ⟨farSR_history, ?_⟩
  have hd : (((farSR.exportRaster demoEnv .bag false none none).2.1.map (fun f => decide ((correctMinMax 1000000 f []).get? "Maximum Elevation Value" = some (some 7)) &&
      decide (f.res = 8) && decide (f.geo.x0 = 0) && decide (f.geo.y0 = 16) && f.bands.any (fun b => decide (b.1 = "Elevation") && decide (b.2.rows = 2) && decide (b.2.cols = 2)))) = [true]) := by
    decide +kernel
  obtain ⟨f, fs, hfs, hd, hn⟩ := List.map_eq_cons_iff.1 hd
  rw [List.map_eq_nil_iff] at hn
  subst hn
  · refine ⟨f, hfs, ?_⟩
    simp only [Bool.and_eq_true, decide_eq_true_eq, List.any_eq_true] at hd
    obtain ⟨⟨⟨⟨h1, h2⟩, h3⟩, h4⟩, ⟨n, b⟩, hb, ⟨rfl, hr⟩, hc⟩ := hd
    refine ⟨h1, 0, 0, -1000000, ?_, ⟨b, hb, 1, 0, by rw [show b.rows = 2 from hr]; decide, by rw [show b.cols = 2 from hc]; decide, by rw [h3]; norm_num, by rw [h2, h4]; norm_num⟩, ?_⟩
    · rw [h2]
      obtain ⟨t, ht, hP⟩ := Grid.exists_tileAt_any (g := farSR) (r := 0) (c := 0) (fun t => decide (t.minX = 0) && decide (t.minY = 0) &&
        (t.cells.get? 8).any (fun ls => (ls.get? .depth).any (fun a => decide (a.get? 0 0 = some (some (-1000000)))))) (by decide +kernel)
      simp only [Bool.and_eq_true, decide_eq_true_eq] at hP
      obtain ⟨ls, hls, h2⟩ := (Option.any_eq_true _ _).1 hP.2
      obtain ⟨a, ha, h3⟩ := (Option.any_eq_true _ _).1 h2
      refine Grid.stored_grid.2 ⟨0, 0, t, ht, t, ls, a, 0, 0, rfl, hls, ha, of_decide_eq_true h3, ?_, ?_⟩
      · rw [hP.1.1]; norm_num
      · rw [hP.1.2]; norm_num
    · have hu : ¬ StoredUp farSR := by
        rintro ⟨s, hs, -⟩
        have : farSR.info.vref = none := by decide +kernel
        rw [this] at hs; cases hs
      exact ⟨fun _ => ⟨fun h => absurd h hu, fun _ => by norm_num⟩, fun h => absurd h (by decide), fun h => absurd rfl h⟩

end Bathy
