import Verif.Props.ExportUpdate
import Verif.Spec.SameRasters

/-!
# C130: exported rasters depend on the soundings only
-/

namespace Bathy
open Grid

/-- `files` are the rasters of the soundings `P` that some grid exports: one of single or variable resolution that was just gridded, or that was gridded and then changed and brought up to
date any number of times.  `up` says whether its depths are stored positive up. -/
inductive RastersShown (env : Env) (alg : Alg) (kind : RasterKind) (zUp : Bool) : Bool → Fields → List Pt → ℚ → Bool → List RasterFile → Prop
  | sr {size r bs fl F s g A a dask up files override} {n : Nat} (hs : 0 < size) (h : SRHistory env size bs fl F s g A) (hE : g.info.epsg ≠ none) (ha : a.alg = alg)
      (hF : F = .plain ∨ a.clear = true) (hv : a.regrid = .full ∨ a.clear = true) (hr : a.res = some r) (hn : size = n * r) (hok : (Grid.gridWith env g a dask).err = none)
      (hk : kind = .bag → bs = false) (hup : up = true ↔ StoredUp (Grid.gridWith env g a dask).st)
      (hf : ((Grid.gridWith env g a dask).st.exportRaster env kind zUp (some r) override).2.1 = files) : RastersShown env alg kind zUp bs fl A.allPts r up files
  | vr {size sub r fl F s g A a dask up files override} {n q : Nat} (hs : 0 < size) (hsub : isPowerOfTwo sub = true) (hdiv : size = (q : ℚ) * sub)
      (h : VRHistory env size sub false fl F s g A) (hE : g.info.epsg ≠ none) (ha : a.alg = alg)
      (hF : F = .plain ∨ a.clear = true) (hv : a.regrid = .full ∨ a.clear = true) (hr : a.res = some r) (hn : sub = n * r) (hok : (Grid.gridWith env g a dask).err = none)
      (hup : up = true ↔ StoredUp (Grid.gridWith env g a dask).st)
      (hf : ((Grid.gridWith env g a dask).st.exportRaster env kind zUp (some r) override).2.1 = files) : RastersShown env alg kind zUp false fl A.allPts r up files
  | updateSR {size r bs fl F s g g1 A A' a a0 d0 da up files override} {n : Nat} (hs : 0 < size) (h : SRHistory env size bs fl F s g A) (ha0 : a0.alg = alg) (hr0 : a0.res = some r)
      (hv0 : a0.regrid = .full ∨ a0.clear = true) (hF : F = .plain ∨ a0.clear = true) (hn : size = n * r) (hok0 : (Grid.gridWith env g a0 d0).err = none)
      (hsince : Since env fl a0.alg r (Grid.gridWith env g a0 d0).st A g1 A') (ha : a.alg = a0.alg) (har : a.res = some r) (hok : (Grid.gridWith env g1 a da).err = none)
      (hE : (Grid.gridWith env g1 a da).st.info.epsg ≠ none) (hk : kind = .bag → bs = false) (hup : up = true ↔ StoredUp (Grid.gridWith env g1 a da).st)
      (hf : ((Grid.gridWith env g1 a da).st.exportRaster env kind zUp (some r) override).2.1 = files) : RastersShown env alg kind zUp bs fl A'.allPts r up files
  | updateVR {size sub r fl F s g g1 A A' a a0 d0 da up files override} {n q : Nat} (hs : 0 < size) (hsub : isPowerOfTwo sub = true) (hdiv : size = (q : ℚ) * sub)
      (h : VRHistory env size sub false fl F s g A) (ha0 : a0.alg = alg) (hr0 : a0.res = some r)
      (hv0 : a0.regrid = .full ∨ a0.clear = true) (hF : F = .plain ∨ a0.clear = true) (hn : sub = n * r) (hok0 : (Grid.gridWith env g a0 d0).err = none)
      (hsince : Since env fl a0.alg r (Grid.gridWith env g a0 d0).st A g1 A') (ha : a.alg = a0.alg) (har : a.res = some r) (hok : (Grid.gridWith env g1 a da).err = none)
      (hE : (Grid.gridWith env g1 a da).st.info.epsg ≠ none) (hup : up = true ↔ StoredUp (Grid.gridWith env g1 a da).st)
      (hf : ((Grid.gridWith env g1 a da).st.exportRaster env kind zUp (some r) override).2.1 = files) : RastersShown env alg kind zUp false fl A'.allPts r up files

variable {env env' : Env} {alg : Alg} {kind kind' : RasterKind} {zUp zUp' bs bs' up : Bool} {fl fl' : Fields} {P P' : List Pt} {r : ℚ} {files files' : List RasterFile}

private theorem shown_right (h : RastersShown env alg kind zUp bs fl P r up files) (ha : alg = .mean ∨ alg = .shoalest) :
    0 < r ∧ ((∃ g : Grid Tile, (up = true ↔ StoredUp g) ∧ RastersOfSoundings g (CellRule alg) (Ruled alg bs fl none) (expectedBands kind zUp bs .plain fl) P r files) ∨
      ∃ g : Grid (Grid Tile), (up = true ↔ StoredUp g) ∧ RastersOfSoundings g (CellRule alg) (Ruled alg bs fl none) (expectedBands kind zUp bs .plain fl) P r files) := by
  cases h with
  | @sr _ _ _ _ _ _ g _ a dask _ _ override _ hs h hE ha' hF hv hr hn hok hk hup hf =>
    subst ha'
    obtain ⟨fs, h1, h2⟩ := C129_rasters_sr hs h hE ha hF hv hr hn hok hk zUp override
    rw [h1] at hf
    subst hf
    exact ⟨pos_of_mul hs hn, .inl ⟨_, hup, h2⟩⟩
  | @vr _ _ _ _ _ _ g _ a dask _ _ override _ _ hs hsub hdiv h hE ha' hF hv hr hn hok hup hf =>
    subst ha'
    obtain ⟨fs, h1, h2⟩ := C129_rasters_vr hs hsub hdiv h hE ha hF hv hr hn hok kind zUp override
    rw [h1] at hf
    subst hf
    exact ⟨pos_of_mul (isPowerOfTwo_pos hsub) hn, .inr ⟨_, hup, h2⟩⟩
  | @updateSR _ _ _ _ _ _ g g1 _ _ a a0 d0 da _ _ override _ hs h ha0 hr0 hv0 hF hn hok0 hsince ha' har hok hE hk hup hf =>
    subst ha0
    obtain ⟨fs, h1, h2⟩ := C129_rasters_updated_sr hs h ha hr0 hv0 hF hn hok0 hsince ha' har hok hE hk zUp override
    rw [h1] at hf
    subst hf
    exact ⟨pos_of_mul hs hn, .inl ⟨_, hup, h2⟩⟩
  | @updateVR _ _ _ _ _ _ g g1 _ _ a a0 d0 da _ _ override _ _ hs hsub hdiv h ha0 hr0 hv0 hF hn hok0 hsince ha' har hok hE hup hf =>
    subst ha0
    obtain ⟨fs, h1, h2⟩ := C129_rasters_updated_vr hs hsub hdiv h ha hr0 hv0 hF hn hok0 hsince ha' har hok hE kind zUp override
    rw [h1] at hf
    subst hf
    exact ⟨pos_of_mul (isPowerOfTwo_pos hsub) hn, .inr ⟨_, hup, h2⟩⟩

private theorem band_one {names : List (String × Layer)} {bands : List (String × LayerArr)} (h : bands.map Prod.fst = names.map Prod.fst) (hnd : (names.map Prod.fst).Nodup) {name : String}
    {l : Layer} {a a' : LayerArr} {k : Nat} (hk : names[k]? = some (name, l)) (ha : bands[k]? = some (name, a)) (ha' : (name, a') ∈ bands) : a' = a := by
  obtain ⟨m, hm⟩ := List.mem_iff_getElem?.1 ha'
  have h1 : (bands.map Prod.fst)[k]? = some name := by rw [List.getElem?_map, ha]; rfl
  have h2 : (bands.map Prod.fst)[m]? = some name := by rw [List.getElem?_map, hm]; rfl
  rw [← h] at hnd
  obtain ⟨hk', h1⟩ := List.getElem?_eq_some_iff.1 h1
  obtain ⟨hm', h2⟩ := List.getElem?_eq_some_iff.1 h2
  have : m = k := (List.Nodup.getElem_inj_iff hnd).1 (h2.trans h1.symm)
  subst this
  rw [hm] at ha
  cases ha
  rfl

private def sign (up : Bool) (name : String) (z : ℚ) : ℚ := if name = "Elevation" then (if up then z else -z) else if name = "Depth" then (if up then -z else z) else z

private theorem named_sign {τ : Type} {g : Grid τ} (hup : up = true ↔ StoredUp g) {name : String} {z v : ℚ} (h : NamedValue g name z v) : v = sign up name z := by
  obtain ⟨h1, h2, h3⟩ := h
  unfold sign
  by_cases e1 : name = "Elevation"
  · rw [if_pos e1]
    cases up with
    | true => exact (h1 e1).1 (hup.1 rfl)
    | false => exact (h1 e1).2 fun h => by have := hup.2 h; cases this
  · rw [if_neg e1]
    by_cases e2 : name = "Depth"
    · rw [if_pos e2]
      cases up with
      | true => exact (h2 e2).1 (hup.1 rfl)
      | false => exact (h2 e2).2 fun h => by have := hup.2 h; cases this
    · rw [if_neg e2]; exact h3 e1 e2

/-- what the rasters show, without the grid -/
private structure Right (alg : Alg) (kind : RasterKind) (zUp bs : Bool) (fl : Fields) (P : List Pt) (r : ℚ) (up : Bool) (files : List RasterFile) : Prop where
  pos : 0 < r
  pixel : ∀ name l, (name, l) ∈ expectedBands kind zUp bs .plain fl → Ruled alg bs fl none l → ∀ x y v, PixelIn files r name x y v →
    (onSquare r x y P = [] → v = some 1000000) ∧ (onSquare r x y P ≠ [] → ∃ z, CellRule alg l (onSquare r x y P) (some z) ∧ v = some (sign up name z))
  all : ∀ name l, (name, l) ∈ expectedBands kind zUp bs .plain fl → Ruled alg bs fl none l → ∀ p ∈ P, ∃ (i j : ℤ) (v : Option ℚ), PixelIn files r name (i * r) (j * r) v ∧ OnSquare r (i * r) (j * r) p

private theorem right_of {τ : Type} {g : Grid τ} (hr : 0 < r) (hup : up = true ↔ StoredUp g)
    (h : RastersOfSoundings g (CellRule alg) (Ruled alg bs fl none) (expectedBands kind zUp bs .plain fl) P r files) : Right alg kind zUp bs fl P r up files := by
  have hnd := (finalNames_expected kind zUp bs .plain fl).2.1
  refine ⟨hr, fun name l hn hl x y v ⟨f, hf, a, ha, i, j, hv, hi, hj, hx, hy⟩ => ?_, fun name l hn hl p hp => ?_⟩
  · obtain ⟨k, hk⟩ := List.mem_iff_getElem?.1 hn
    obtain ⟨a', ha', hval⟩ := (h.value f hf).2 k name l hk hl
    have := band_one (h.named f hf) hnd hk ha' ha
    subst this
    obtain ⟨v1, v2⟩ := hval i j hi hj
    subst hx hy
    rw [hv] at v1 v2
    refine ⟨fun hnil => Option.some.inj (v1 hnil), fun hne => ?_⟩
    obtain ⟨z, w, hz, hw, hnv⟩ := v2 hne
    exact ⟨z, hz, by rw [Option.some.inj hw, named_sign hup hnv]⟩
  · obtain ⟨f, hf, a, ha, i, j, hi, hj, hin⟩ := h.all p hp name l hn hl
    obtain ⟨k, hk⟩ := List.mem_iff_getElem?.1 hn
    obtain ⟨hres, hb⟩ := h.value f hf
    obtain ⟨a', ha', hval⟩ := hb k name l hk hl
    have := band_one (h.named f hf) hnd hk ha' ha
    subst this
    obtain ⟨cx, cy, hx, hy⟩ := h.lattice f hf
    obtain ⟨v1, v2⟩ := hval i j hi hj
    rw [hres] at hin
    have ex : ((cx + j : ℤ) : ℚ) * r = f.geo.x0 + (j : ℚ) * r := by rw [hx]; push_cast; ring
    have ey : ((cy - i - 1 : ℤ) : ℚ) * r = f.geo.y0 - (i : ℚ) * r - r := by rw [hy]; push_cast; ring
    obtain ⟨v, hv⟩ : ∃ v, a.get? i j = some v := by
      by_cases hnil : onSquare r (f.geo.x0 + (j : ℚ) * r) (f.geo.y0 - (i : ℚ) * r - r) P = []
      · exact ⟨_, v1 hnil⟩
      · obtain ⟨z, w, -, hw, -⟩ := v2 hnil
        exact ⟨_, hw⟩
    refine ⟨cx + j, cy - i - 1, v, ⟨f, hf, a, ha, i, j, hv, hi, hj, ex, ey⟩, ?_⟩
    rw [ex, ey]
    exact hin

private theorem shown_right' (h : RastersShown env alg kind zUp bs fl P r up files) (ha : alg = .mean ∨ alg = .shoalest) : Right alg kind zUp bs fl P r up files := by
  obtain ⟨hr, ⟨g, hup, h⟩ | ⟨g, hup, h⟩⟩ := shown_right h ha
  · exact right_of hr hup h
  · exact right_of hr hup h

private theorem onSquare_perm (hp : P'.Perm P) (x y : ℚ) : (onSquare r x y P').Perm (onSquare r x y P) := hp.filter _

private theorem both (h : RastersShown env alg kind zUp bs fl P r up files) (h' : RastersShown env' alg kind' zUp' bs' fl' P' r up files') (ha : alg = .mean ∨ alg = .shoalest)
    (hp : P'.Perm P) {name name' : String} {l : Layer} (hn : (name, l) ∈ expectedBands kind zUp bs .plain fl) (hn' : (name', l) ∈ expectedBands kind' zUp' bs' .plain fl')
    (hl : Ruled alg bs fl none l) (hl' : Ruled alg bs' fl' none l) {x y : ℚ} {v v' : Option ℚ} (hv : PixelIn files r name x y v) (hv' : PixelIn files' r name' x y v') :
    ((∀ p ∈ P, ¬ OnSquare r x y p) → v = some 1000000 ∧ v' = some 1000000) ∧ ((∃ p ∈ P, OnSquare r x y p) → ∃ z, v = some (sign up name z) ∧ v' = some (sign up name' z)) := by
  obtain ⟨k1, k2⟩ := (shown_right' h ha).pixel name l hn hl x y v hv
  obtain ⟨k1', k2'⟩ := (shown_right' h' ha).pixel name' l hn' hl' x y v' hv'
  have hq := onSquare_perm (r := r) hp x y
  refine ⟨fun hnone => ?_, fun ⟨p, hp, hin⟩ => ?_⟩
  · have hnil : onSquare r x y P = [] := List.filter_eq_nil_iff.2 fun p hp => by simpa using hnone p hp
    exact ⟨k1 hnil, k1' (by rw [hnil] at hq; exact hq.eq_nil)⟩
  · have hne : onSquare r x y P ≠ [] := List.ne_nil_of_mem (List.mem_filter.2 ⟨hp, decide_eq_true hin⟩)
    obtain ⟨z, hz, rfl⟩ := k2 hne
    obtain ⟨z', hz', rfl⟩ := k2' (fun h => hne (by rw [h] at hq; exact hq.symm.eq_nil))
    have := rule_det ha hq hz' hz
    rw [Option.some.inj this]
    exact ⟨z, rfl, rfl⟩

/-- **C130**: where the rasters that two grids with the same soundings export have a pixel at the same place, in bands of the same layer, it has the same number if the bands have the same
name or neither is a band of depths (the uncertainty has different names in BAGs and GeoTIFFs).  The grids may have different tiles, extents, histories, sizes of chunks and kinds of rasters. -/
theorem C130_same_pixel (h : RastersShown env alg kind zUp bs fl P r up files) (h' : RastersShown env' alg kind' zUp' bs' fl' P' r up files') (ha : alg = .mean ∨ alg = .shoalest)
    (hp : P'.Perm P) {name name' : String} {l : Layer} (hn : (name, l) ∈ expectedBands kind zUp bs .plain fl) (hn' : (name', l) ∈ expectedBands kind' zUp' bs' .plain fl')
    (hl : Ruled alg bs fl none l) (hl' : Ruled alg bs' fl' none l) (hname : name' = name ∨ ∀ s ∈ [name, name'], s ≠ "Elevation" ∧ s ≠ "Depth")
    {x y : ℚ} {v v' : Option ℚ} (hv : PixelIn files r name x y v) (hv' : PixelIn files' r name' x y v') : v' = v := by
  obtain ⟨k1, k2⟩ := both h h' ha hp hn hn' hl hl' hv hv'
  by_cases hq : ∃ p ∈ P, OnSquare r x y p
  · obtain ⟨z, rfl, rfl⟩ := k2 hq
    rcases hname with rfl | hname
    · rfl
    · obtain ⟨a1, a2⟩ := hname name (by simp)
      obtain ⟨b1, b2⟩ := hname name' (by simp)
      simp only [sign, if_neg a1, if_neg a2, if_neg b1, if_neg b2]
  · push Not at hq
    obtain ⟨rfl, rfl⟩ := k1 hq
    rfl

/-- **C130**: a band of depths has the opposite numbers of a band of elevations where there are soundings, and the same mark 1000000 where there are none -/
theorem C130_depth_elevation (h : RastersShown env alg kind zUp bs fl P r up files) (h' : RastersShown env' alg kind' zUp' bs' fl' P' r up files') (ha : alg = .mean ∨ alg = .shoalest)
    (hp : P'.Perm P) {l : Layer} (hn : ("Elevation", l) ∈ expectedBands kind zUp bs .plain fl) (hn' : ("Depth", l) ∈ expectedBands kind' zUp' bs' .plain fl')
    (hl : Ruled alg bs fl none l) (hl' : Ruled alg bs' fl' none l) {x y : ℚ} {v v' : Option ℚ} (hv : PixelIn files r "Elevation" x y v) (hv' : PixelIn files' r "Depth" x y v') :
    ((∀ p ∈ P, ¬ OnSquare r x y p) → v = some 1000000 ∧ v' = some 1000000) ∧ ((∃ p ∈ P, OnSquare r x y p) → ∃ z, v = some z ∧ v' = some (-z)) := by
  obtain ⟨k1, k2⟩ := both h h' ha hp hn hn' hl hl' hv hv'
  refine ⟨k1, fun hq => ?_⟩
  obtain ⟨z, rfl, rfl⟩ := k2 hq
  cases up with
  | true => exact ⟨z, rfl, rfl⟩
  | false => exact ⟨-z, rfl, by simp [sign]⟩

private theorem int_eq (hr : 0 < r) {i i' : ℤ} {t : ℚ} (h : (i : ℚ) * r ≤ t ∧ t < i * r + r) (h' : (i' : ℚ) * r ≤ t ∧ t < i' * r + r) : i = i' := by
  have k1 : (i : ℚ) < i' + 1 := by by_contra hc; push Not at hc; nlinarith [h.1, h.2, h'.1, h'.2]
  have k2 : (i' : ℚ) < i + 1 := by by_contra hc; push Not at hc; nlinarith [h.1, h.2, h'.1, h'.2]
  have k1 : i < i' + 1 := by exact_mod_cast k1
  have k2 : i' < i + 1 := by exact_mod_cast k2
  omega

/-- **C130**: every sounding is below such a pixel of both exports: the pixels are over the same square and have the same number -/
theorem C130_every_sounding (h : RastersShown env alg kind zUp bs fl P r up files) (h' : RastersShown env' alg kind' zUp' bs' fl' P' r up files') (ha : alg = .mean ∨ alg = .shoalest)
    (hp : P'.Perm P) {name name' : String} {l : Layer} (hn : (name, l) ∈ expectedBands kind zUp bs .plain fl) (hn' : (name', l) ∈ expectedBands kind' zUp' bs' .plain fl')
    (hl : Ruled alg bs fl none l) (hl' : Ruled alg bs' fl' none l)
    (hname : name' = name ∨ ∀ s ∈ [name, name'], s ≠ "Elevation" ∧ s ≠ "Depth") {p : Pt} (hmem : p ∈ P) :
    ∃ x y v, OnSquare r x y p ∧ PixelIn files r name x y (some v) ∧ PixelIn files' r name' x y (some v) := by
  have hR := shown_right' h ha
  obtain ⟨i, j, v, hv, hin⟩ := hR.all name l hn hl p hmem
  obtain ⟨i', j', v', hv', hin'⟩ := (shown_right' h' ha).all name' l hn' hl' p (hp.mem_iff.2 hmem)
  have e1 := int_eq hR.pos hin.1 hin'.1
  have e2 := int_eq hR.pos hin.2 hin'.2
  subst e1 e2
  have := C130_same_pixel h h' ha hp hn hn' hl hl' hname hv hv'
  subst this
  obtain ⟨-, k2⟩ := hR.pixel name l hn hl _ _ _ hv
  obtain ⟨z, -, rfl⟩ := k2 (List.ne_nil_of_mem (List.mem_filter.2 ⟨hmem, decide_eq_true hin⟩))
  exact ⟨_, _, _, hin, hv, hv'⟩

/-! ## the hypotheses can be met -/

private def call : GridCall := { alg := .mean, res := some 8, clear := true }
private def srFiles : List RasterFile := ((demoSR.gridWith demoEnv call none).st.exportRaster demoEnv .bag false (some 8) none).2.1
private def vrFiles : List RasterFile := ((demoVR.gridWith demoEnv call (some 2)).st.exportRaster demoEnv .geotiff true (some 8) (some 16)).2.1

private theorem srShown : RastersShown demoEnv .mean .bag false false demoFields demoStore.allPts 8 false srFiles :=
  .sr (n := 2) (g := demoSR) (a := call) (dask := none) (override := none) (by norm_num) demoSR_history (by decide +kernel) rfl (.inr rfl) (.inr rfl) rfl (by norm_num) (by decide +kernel) (fun _ => rfl)
    ⟨fun h => (nomatch h), fun ⟨_, hs, _⟩ => nomatch (show (demoSR.gridWith demoEnv call none).st.info.vref = none by decide +kernel).symm.trans hs⟩ rfl

private theorem vrShown : RastersShown demoEnv .mean .geotiff true false demoFields demoStore.allPts 8 false vrFiles :=
  .vr (n := 2) (q := 2) (g := demoVR) (a := call) (dask := some 2) (override := some 16) (by norm_num) (by decide +kernel) (by norm_num) demoVR_history (by decide +kernel) rfl (.inr rfl) (.inr rfl) rfl
    (by norm_num) (by decide +kernel) ⟨fun h => (nomatch h), fun ⟨_, hs, _⟩ => nomatch (show (demoVR.gridWith demoEnv call (some 2)).st.info.vref = none by decide +kernel).symm.trans hs⟩ rfl

/-- the BAG of a single resolution grid and the GeoTIFF of a variable resolution grid -/
example {p : Pt} (hp : p ∈ demoStore.allPts) :
    ∃ x y v, OnSquare 8 x y p ∧ PixelIn srFiles 8 "Elevation" x y (some v) ∧ PixelIn vrFiles 8 "Elevation" x y (some v) :=
  C130_every_sounding srShown vrShown (.inl rfl) (List.Perm.refl _) (l := .depth) (by decide +kernel) (by decide +kernel) (.inl rfl) (.inl rfl) (.inl rfl) hp

private def upd : GridCall := { alg := .mean, res := some 8, regrid := .update }
private def changed : Grid Tile := (((demoSR.gridWith demoEnv call none).st.removePoints "b").st.addPoints ⟨demoFields, demoA⟩ "a" {}).st
private def updFiles : List RasterFile := ((changed.gridWith demoEnv upd (some 2)).st.exportRaster demoEnv .bag false (some 8) (some 16)).2.1
private def fresh : Grid Tile := (((newSR 32 false).addPoints ⟨demoFields, demoA⟩ "first" demoArgs).st.addPoints ⟨demoFields, demoC⟩ "second" {}).st
private def freshFiles : List RasterFile := ((fresh.gridWith demoEnv call none).st.exportRaster demoEnv .geotiff true (some 8) none).2.1

private theorem updShown : RastersShown demoEnv .mean .bag false false demoFields ((demoStore.remove "b") ++ [("a", demoA)] : Store).allPts 8 false updFiles :=
  .updateSR (n := 2) (g := demoSR) (g1 := changed) (a0 := call) (a := upd) (d0 := none) (da := some 2) (override := some 16) (by norm_num) demoSR_history rfl rfl (.inr rfl) (.inr rfl)
    (by norm_num) (by decide +kernel) ((Since.refl.remove "b" (by decide +kernel)).add demoA "a" {} (by decide +kernel)) rfl rfl (by decide +kernel) (by decide +kernel) (fun _ => rfl)
    ⟨fun h => (nomatch h), fun ⟨_, hs, _⟩ => nomatch (show (changed.gridWith demoEnv upd (some 2)).st.info.vref = none by decide +kernel).symm.trans hs⟩ rfl

private theorem freshShown : RastersShown demoEnv .mean .geotiff true false demoFields (Store.allPts [("first", demoA), ("second", demoC)]) 8 false freshFiles :=
  .sr (n := 4) (size := 32) (g := fresh) (a := call) (dask := none) (override := none) (by norm_num)
    (((GridHistory.new (g0 := newSR 32 false) .plain).add demoA "first" demoArgs (by decide +kernel)).add demoC "second" {} (by decide +kernel)) (by decide +kernel) rfl (.inr rfl) (.inr rfl) rfl (by norm_num)
    (by decide +kernel) (fun h => nomatch h)
    ⟨fun h => (nomatch h), fun ⟨_, hs, _⟩ => nomatch (show (fresh.gridWith demoEnv call none).st.info.vref = none by decide +kernel).symm.trans hs⟩ rfl

/-- a grid that was changed and updated by workers, and a new grid with larger tiles to which the same soundings were added in another order -/
example {p : Pt} (hp : p ∈ ((demoStore.remove "b") ++ [("a", demoA)] : Store).allPts) :
    ∃ x y v, OnSquare 8 x y p ∧ PixelIn updFiles 8 "Uncertainty" x y (some v) ∧ PixelIn freshFiles 8 "Vertical Uncertainty" x y (some v) :=
  C130_every_sounding updShown freshShown (.inl rfl) List.perm_append_comm (l := .vertical) (by decide +kernel) (by decide +kernel)
    (.inr (.inr ⟨rfl, .inl ⟨rfl, rfl⟩⟩)) (.inr (.inr ⟨rfl, .inl ⟨rfl, rfl⟩⟩)) (.inr (by decide)) hp

private def depthFiles : List RasterFile := ((demoSR.gridWith demoEnv call none).st.exportRaster demoEnv .geotiff false (some 8) none).2.1

private theorem depthShown : RastersShown demoEnv .mean .geotiff false false demoFields demoStore.allPts 8 false depthFiles :=
  .sr (n := 2) (g := demoSR) (a := call) (dask := none) (override := none) (by norm_num) demoSR_history (by decide +kernel) rfl (.inr rfl) (.inr rfl) rfl (by norm_num) (by decide +kernel)
    (fun h => nomatch h) ⟨fun h => (nomatch h), fun ⟨_, hs, _⟩ => nomatch (show (demoSR.gridWith demoEnv call none).st.info.vref = none by decide +kernel).symm.trans hs⟩ rfl

example {x y : ℚ} {v v' : Option ℚ} (hv : PixelIn srFiles 8 "Elevation" x y v) (hv' : PixelIn depthFiles 8 "Depth" x y v') :
    ((∀ p ∈ demoStore.allPts, ¬ OnSquare 8 x y p) → v = some 1000000 ∧ v' = some 1000000) ∧ ((∃ p ∈ demoStore.allPts, OnSquare 8 x y p) → ∃ z, v = some z ∧ v' = some (-z)) :=
  C130_depth_elevation srShown depthShown (.inl rfl) (List.Perm.refl _) (l := .depth) (by decide +kernel) (by decide +kernel) (.inl rfl) (.inl rfl) hv hv'

end Bathy
