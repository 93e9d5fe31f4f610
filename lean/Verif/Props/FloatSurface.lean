import Verif.Lemmas.FloatRun
import Verif.Props.FloatMean
import Verif.Props.SurfaceKept

/-!
# C108: the surface of a whole grid in floating point arithmetic

C100 and C102 with the arithmetic of C107.
-/

namespace Bathy

variable {M : Arith} {env : Env} {size sub η η' Ω Ω' Z : ℚ} {cf sf : Fmt} {bs : Bool} {fl : Fields} {F : Family} {s : Bool} {A : Store} {a : GridCall} {dask : Option Nat}

/-! ## the rules -/

theorem nearMean_perm {sto : ℚ → ℚ} {f : Pt → ℚ} {ps ps' : List Pt} {v : Option ℚ} (hp : ps.Perm ps') (h : NearMeanCell sto cf sf f ps v) : NearMeanCell sto cf sf f ps' v := by
  refine ⟨fun he => h.1 (by subst he; exact hp.eq_nil), fun hne => ?_⟩
  obtain ⟨w, h1, h2, h3⟩ := h.2 (fun he => hne (by subst he; exact hp.nil_eq.symm))
  refine ⟨w, h1, h2, ?_⟩
  have e1 : meanOf (ps'.map f) = meanOf (ps.map f) := by unfold meanOf; rw [(hp.map f).sum_eq, (hp.map f).length_eq]
  have e2 : meanOf (ps'.map (fun p => |f p|)) = meanOf (ps.map (fun p => |f p|)) := by unfold meanOf; rw [(hp.map _).sum_eq, (hp.map _).length_eq]
  rw [e1, e2, ← hp.length_eq]
  exact h3

theorem nearShoal_perm {sto : ℚ → ℚ} {ps ps' : List Pt} {v : Option ℚ} (hp : ps.Perm ps') (h : NearShoalCell sto sf ps v) : NearShoalCell sto sf ps' v := by
  refine ⟨fun he => h.1 (by subst he; exact hp.eq_nil), fun hne => ?_⟩
  obtain ⟨m, w, h0, h1⟩ := h.2 (fun he => hne (by subst he; exact hp.nil_eq.symm))
  exact ⟨m, w, ⟨(hp.map Pt.z).mem_iff.1 h0.1, fun x hx => h0.2 x ((hp.map Pt.z).mem_iff.2 hx)⟩, h1⟩

/-- the rule of a layer -/
theorem frule_cases {alg : Alg} {nodata : Option ℚ} {l : Layer} (ha : alg = .mean ∨ alg = .shoalest) (h : Ruled alg bs fl nodata l) (sto : ℚ → ℚ) (cf sf : Fmt) :
    (l = .density ∧ nodata = none ∧ FloatRule sto cf sf alg l = CountCell) ∨
    (l = mainLayer bs ∧ alg = .shoalest ∧ FloatRule sto cf sf alg l = NearShoalCell sto sf) ∨
    (alg = .mean ∧ ∃ f, FloatRule sto cf sf alg l = NearMeanCell sto cf sf f ∧
      ((l = mainLayer bs ∧ f = Pt.z) ∨ (l = .vertical ∧ fl.hasTvu = true ∧ f = Pt.tvu) ∨ (l = .horizontal ∧ fl.hasThu = true ∧ f = Pt.thu))) := by
  rcases h with h | ⟨rfl, h⟩ | ⟨rfl, ⟨rfl, h⟩ | ⟨rfl, h⟩⟩
  · have h : l = mainLayer bs := h
    subst h
    rcases ha with rfl | rfl
    · exact .inr (.inr ⟨rfl, Pt.z, by cases bs <;> rfl, .inl ⟨rfl, rfl⟩⟩)
    · exact .inr (.inl ⟨rfl, rfl, by cases bs <;> rfl⟩)
  · exact .inl ⟨rfl, h, rfl⟩
  · exact .inr (.inr ⟨rfl, Pt.tvu, rfl, .inr (.inl ⟨rfl, h, rfl⟩)⟩)
  · exact .inr (.inr ⟨rfl, Pt.thu, rfl, .inr (.inr ⟨rfl, h, rfl⟩)⟩)

theorem frule_perm {alg : Alg} {nodata : Option ℚ} {l : Layer} (ha : alg = .mean ∨ alg = .shoalest) (h : Ruled alg bs fl nodata l) (sto : ℚ → ℚ) (cf sf : Fmt) (ps ps' : List Pt)
    (v : Option ℚ) (hp : ps.Perm ps') (hr : FloatRule sto cf sf alg l ps v) : FloatRule sto cf sf alg l ps' v := by
  rcases frule_cases ha h sto cf sf with ⟨rfl, h2, -⟩ | ⟨-, -, e⟩ | ⟨-, f, e, -⟩
  · exact rule_perm (alg := alg) (bs := bs) (fl := fl) (.inr (.inl ⟨rfl, h2⟩)) ps ps' v hp hr
  · rw [e] at hr ⊢; exact nearShoal_perm hp hr
  · rw [e] at hr ⊢; exact nearMean_perm hp hr

theorem frule_none {alg : Alg} {nodata : Option ℚ} {l : Layer} (ha : alg = .mean ∨ alg = .shoalest) (h : Ruled alg bs fl nodata l) (sto : ℚ → ℚ) (cf sf : Fmt) (ps : List Pt)
    (hr : FloatRule sto cf sf alg l ps none) : ps = [] := by
  rcases frule_cases ha h sto cf sf with ⟨rfl, h2, -⟩ | ⟨-, -, e⟩ | ⟨-, f, e, -⟩
  · exact rule_none (alg := alg) (bs := bs) (fl := fl) (.inr (.inl ⟨rfl, h2⟩)) ps hr
  · rw [e] at hr
    by_contra hne
    obtain ⟨m, w, -, h1, -⟩ := hr.2 hne
    cases h1
  · rw [e] at hr
    by_contra hne
    obtain ⟨w, h1, -⟩ := hr.2 hne
    cases h1

theorem frule_fill {alg : Alg} {nodata : Option ℚ} {l : Layer} (ha : alg = .mean ∨ alg = .shoalest) (h : Ruled alg bs fl nodata l) (sto : ℚ → ℚ) (cf sf : Fmt) (flip : Bool) :
    ∃ v, FloatRule sto cf sf alg l [] v ∧ shownCell l nodata flip v = fillValue l nodata := by
  rcases frule_cases ha h sto cf sf with ⟨rfl, h2, -⟩ | ⟨h1, -, e⟩ | ⟨-, f, e, h1⟩
  · exact rule_fill (alg := alg) (bs := bs) (fl := fl) (.inr (.inl ⟨rfl, h2⟩)) flip
  · refine ⟨none, ?_, ?_⟩
    · rw [e]; exact ⟨fun _ => rfl, fun h => absurd rfl h⟩
    · rw [h1]; cases bs <;> rfl
  · refine ⟨none, ?_, ?_⟩
    · rw [e]; exact ⟨fun _ => rfl, fun h => absurd rfl h⟩
    · rcases h1 with ⟨rfl, -⟩ | ⟨rfl, -⟩ | ⟨rfl, -⟩
      · cases bs <;> rfl
      · rfl
      · rfl

/-- a gridded tile follows the rules -/
theorem float_leaf_rule {w r : ℚ} {n : Nat} {t : Tile} (hw : 0 < w) (hr : 0 < r) (hn : w = n * r) {r' : ℚ} (h : FloatRun M env fl F w bs a t r')
    (ha : a.alg = .mean ∨ a.alg = .shoalest) (hF : F = .plain ∨ a.clear = true) (hM : Machine cf sf M) (hroom : Room cf sf t.pts.length Z) (hZ : BoundedBy fl Z t.pts)
    (hres : a.res = some r) {nodata : Option ℚ} {l : Layer} (hl : Ruled a.alg bs fl nodata l) : LeafRule r n l (FloatRule M.sto cf sf a.alg l) t := by
  obtain ⟨t0, B, c, h1, h2, hc, h3, h4, h5⟩ := h
  have hr' : r' = r := h4 r hres
  subst hr'
  rw [h2] at hroom hZ
  have hF' : F = .plain ∨ c.clear = true := hF.imp id hc.clear
  unfold LeafRule
  rw [h2, ← ceil_cells hr hn]
  rcases ha with e | e
  · obtain ⟨-, k1, k2, k3, k4⟩ := C107_mean hw h1 hM hroom hZ h3 hF' c.params c.border
    rw [hc.alg, e] at h5
    rw [h5] at k1 k2 k3 k4
    rcases frule_cases (.inl e) hl M.sto cf sf with ⟨rfl, -, e'⟩ | ⟨-, e', -⟩ | ⟨-, f, e', ⟨rfl, rfl⟩ | ⟨rfl, hf, rfl⟩ | ⟨rfl, hf, rfl⟩⟩
    · rw [e']; exact k2
    · rw [e] at e'; cases e'
    · rw [e']; exact k1
    · rw [e']; exact k3 hf
    · rw [e']; exact k4 hf
  · obtain ⟨-, -, k2⟩ := C107_shoalest hw h1 h3 hF' c.params c.border
    have k1 := C107_shoalest_near hw h1 hM hroom hZ h3 hF' c.params c.border
    rw [hc.alg, e] at h5
    rw [h5] at k1 k2
    rcases frule_cases (.inr e) hl M.sto cf sf with ⟨rfl, -, e'⟩ | ⟨rfl, -, e'⟩ | ⟨e', -⟩
    · rw [e']; exact k2
    · rw [e']; exact k1
    · rw [e] at e'; cases e'

theorem bounded_sublist {P Q : List Pt} (h : P.Sublist Q) (hZ : BoundedBy fl Z Q) : BoundedBy fl Z P := fun p hp => hZ p (h.subset hp)

theorem room_sublist {P Q : List Pt} (hM : Machine cf sf M) (h : P.Sublist Q) (hQ : Q ≠ []) (hZ : BoundedBy fl Z Q) (hroom : Room cf sf Q.length Z) : Room cf sf P.length Z := by
  obtain ⟨p, hp⟩ := List.exists_mem_of_ne_nil _ hQ
  exact Arith.room_mono hM.calcs.u_nonneg hM.calcs.η_nonneg (le_trans (abs_nonneg p.z) (hZ p hp).1) h.length_le hroom

/-! ## calls that cannot fail -/

theorem plainOk_ftile (M : Arith) (env : Env) (F : Family) {size sub : ℚ} {bs : Bool} {fl : Fields} (hs : 0 < size) :
    Grid.PlainOk env (ftileSpec M env F size sub bs fl hs) F where
  ok := by
    intro x y t A c r hrep ha hF hr hpow _
    obtain ⟨h1, -, -⟩ := hrep
    show (M.grid env (show Tile from t) c.alg c.res c.clear c.mode c.params c.border).1.err = none
    rw [hr]
    show (M.gridAt env (show Tile from t) c.alg r c.clear c.params c.border).err = none
    rcases ha with ha | ha
    · rw [ha]
      have key := float_grid hs h1 (alg := .mean) (F' := .plain) rfl (hF.imp Eq.symm id) hpow c.params c.border
      obtain ⟨L, hL⟩ := Arith.canon_mean_ok M env (dk := mainLayer bs) (mainLayer_cases bs) hs (isPowerOfTwo_pos hpow)
        (⟨fl, A.allPts⟩ : PtArr) (float_box hs h1) c.params c.border
      simp only at key
      rw [mainLayer_new, hL] at key
      exact key.1
    · rw [ha]; exact (C107_shoalest hs h1 hpow hF c.params c.border).1

/-- **C108** (no failure, single resolution): gridding by mean or shoalest does not fail, whatever the rounding does -/
theorem C108_grid_ok_sr (hs : 0 < size) {g : Grid (FTile M)} (h : FloatSR M env size bs fl F s g A) (ha : a.alg = .mean ∨ a.alg = .shoalest) (hF : F = .plain ∨ a.clear = true)
    {r : ℚ} (hr : a.res = some r) (hpow : isPowerOfTwo r = true) (he : A ≠ []) (hal : g.gridAlgorithm = none ∨ g.gridAlgorithm = some a.alg ∨ a.clear = true) :
    (g.gridWith env a dask).err = none := by
  have hg := fsr_inv hs h
  have hr' := Grid.grow_reps hg
  exact Grid.gridWith_plainOk (plainOk_ftile M env F hs) hr'.1 hr'.2 (by rw [Grid.grow_isEmpty hs hg]; simpa using he) ha hF hr hpow ⟨hal, fun _ _ _ _ => trivial⟩ dask

/-- **C108** (no failure, variable resolution) -/
theorem C108_grid_ok_vr (hs : 0 < size) (hsub : isPowerOfTwo sub = true) {g : Grid (Grid (FTile M))} (h : FloatVR M env size sub bs fl F s g A)
    (ha : a.alg = .mean ∨ a.alg = .shoalest) (hF : F = .plain ∨ a.clear = true)
    {r : ℚ} (hr : a.res = some r) (hpow : isPowerOfTwo r = true) (he : A ≠ []) (hal : g.gridAlgorithm = none ∨ g.gridAlgorithm = some a.alg ∨ a.clear = true)
    (hals : ∀ i j u, g.TileAt i j u → u.gridAlgorithm = none ∨ u.gridAlgorithm = some a.alg ∨ a.clear = true) :
    (g.gridWith env a dask).err = none := by
  have hg := fvr_inv hs hsub h
  have hr' := Grid.grow_reps hg
  exact Grid.gridWith_plainOk (Grid.plainOk_sub (plainOk_ftile M env F (isPowerOfTwo_pos hsub)) hs hsub) hr'.1 hr'.2 (by rw [Grid.grow_isEmpty hs hg]; simpa using he) ha hF hr hpow
    ⟨hal, fun i j u hu => ⟨hals i j u hu, fun _ _ _ _ => trivial⟩⟩ dask

/-! ## the surface -/

/-- **C108** (single resolution): after any sequence of calls, a `grid` call of all tiles with 'mean' or 'shoalest' at a resolution that divides the tile
size, in floating point arithmetic, makes `get_layers_by_name` return a surface of all soundings added and not removed: each cell of the depths and the uncertainties is
NaN iff there is no sounding in its square, and otherwise has 3 decimals and is at most `meanError` away from the exact mean (least depth) of just the soundings in its
square; the counts are exact.  Queries, and writing and reading of tiles, change nothing. -/
theorem C108_surface_sr (hs : 0 < size) {g : Grid (FTile M)} (h : FloatSR M env size bs fl F s g A) (ha : a.alg = .mean ∨ a.alg = .shoalest) (hF : F = .plain ∨ a.clear = true)
    (hv : a.regrid = .full ∨ a.clear = true) {r : ℚ} (hr : a.res = some r) {n : Nat} (hn : size = n * r) (hok : (g.gridWith env a dask).err = none)
    (hM : Machine cf sf M) (hroom : Room cf sf A.allPts.length Z) (hZ : BoundedBy fl Z A.allPts)
    {v : Grid (FTile M)} (hu : Requeried env (g.gridWith env a dask).st v)
    {nodata : Option ℚ} {zUp flip : Bool} {l : Layer} (hl : Ruled a.alg bs fl nodata l) (hflip : flip = true ↔ (zUp = true ↔ ¬ StoredUp (g.gridWith env a dask).st)) :
    ∃ e arr, v.extents = some e ∧ v.getLayersByName env [l] (some r) nodata zUp = (v, .ok (some [arr])) ∧
      SurfaceOf (FloatRule M.sto cf sf a.alg l) (shownCell l nodata flip) A.allPts r e arr := by
  have hrp := pos_of_mul hs hn
  have hfam : a.alg.family = some .plain := by rcases ha with e | e <;> rw [e] <;> rfl
  have h1 : FloatSR M env size bs fl .plain s (g.gridWith env a dask).st A := history_after h hfam (hF.imp Eq.symm id) hok
  have hA := store_ne (fsr_inv hs h) hok
  have hne := allPts_ne hA (fsr_inv hs h).ne
  have hgr := fsr_inv hs h1
  have hflip' : flip = true ↔ (zUp = true ↔ ¬ StoredUp v) := by rw [storedUp_congr (requeried_info hu)]; exact hflip
  have hrun := Grid.grow_reps (fsr_inv hs h)
  refine surface_grow_sr (shaped_ftile M env .plain hs) hs (g := v) (fsr_inv hs (history_requeried h1 hu)) hA hrp hn (rule_written hl)
    (frule_perm ha hl M.sto cf sf) (frule_none ha hl M.sto cf sf) (frule_fill ha hl M.sto cf sf flip)
    (leaves_requeried (τ := FTile M) (leafRule_queried (rule_saved hl) (writtenLayers_core (rule_written hl))) hu fun t ht => ?_)
    hflip'
  obtain ⟨r', -, hr'⟩ := (Grid.leaf_grid (leafRuns_ftile M env F (sub := 0) hs) hrun.1 hrun.2 (fun _ h => h) hv hv hok).1 t ht
  have hsl := sublist_sr (shaped_ftile M env .plain hs) (g := (g.gridWith env a dask).st) hgr ht
  exact float_leaf_rule hs hrp hn hr' ha hF hM (room_sublist hM hsl hne hZ hroom) (bounded_sublist hsl hZ) hr hl

/-- **C108** (variable resolution) -/
theorem C108_surface_vr (hs : 0 < size) (hsub : isPowerOfTwo sub = true) {q : Nat} (hdiv : size = (q : ℚ) * sub) {g : Grid (Grid (FTile M))} (h : FloatVR M env size sub bs fl F s g A)
    (ha : a.alg = .mean ∨ a.alg = .shoalest) (hF : F = .plain ∨ a.clear = true)
    (hv : a.regrid = .full ∨ a.clear = true) {r : ℚ} (hr : a.res = some r) {n : Nat} (hn : sub = n * r) (hok : (g.gridWith env a dask).err = none)
    (hM : Machine cf sf M) (hroom : Room cf sf A.allPts.length Z) (hZ : BoundedBy fl Z A.allPts)
    {v : Grid (Grid (FTile M))} (hu : Requeried env (g.gridWith env a dask).st v)
    {nodata : Option ℚ} {zUp flip : Bool} {l : Layer} (hl : Ruled a.alg false fl nodata l) (hflip : flip = true ↔ (zUp = true ↔ ¬ StoredUp (g.gridWith env a dask).st)) :
    ∃ e arr, v.extents = some e ∧ v.getLayersByName env [l] (some r) nodata zUp = (v, .ok (some [arr])) ∧
      SurfaceOf (FloatRule M.sto cf sf a.alg l) (shownCell l nodata flip) A.allPts r e arr := by
  have hsp := isPowerOfTwo_pos hsub
  have hrp := pos_of_mul hsp hn
  have hfam : a.alg.family = some .plain := by rcases ha with e | e <;> rw [e] <;> rfl
  have h1 : FloatVR M env size sub bs fl .plain s (g.gridWith env a dask).st A := history_after h hfam (hF.imp Eq.symm id) hok
  have hA := store_ne (fvr_inv hs hsub h) hok
  have hne := allPts_ne hA (fvr_inv hs hsub h).ne
  have hgr := fvr_inv hs hsub h1
  have hflip' : flip = true ↔ (zUp = true ↔ ¬ StoredUp v) := by rw [storedUp_congr (requeried_info hu)]; exact hflip
  have hrun := Grid.grow_reps (fvr_inv hs hsub h)
  refine surface_grow_vr (shaped_ftile M env .plain hsp) hs hsub hdiv (g := v) (fvr_inv hs hsub (history_requeried h1 hu)) hA hrp hn (rule_written hl)
    (frule_perm ha hl M.sto cf sf) (frule_none ha hl M.sto cf sf) (frule_fill ha hl M.sto cf sf flip)
    (leaves_requeried (τ := Grid (FTile M)) (fun t u hq => leaves_queried (τ := FTile M) (leafRule_queried (rule_saved hl) (writtenLayers_core (rule_written hl))) hq) hu fun t ht => ?_)
    hflip'
  obtain ⟨r', -, hr'⟩ := (Grid.leaf_grid (Grid.leafRuns_sub (leafRuns_ftile M env F hsp) hs hsub) hrun.1 hrun.2 (fun _ h => h) hv hv hok).1 t ht
  have hsl := sublist_vr (shaped_ftile M env .plain hsp) hs hsub (g := (g.gridWith env a dask).st) hgr ht
  exact float_leaf_rule hsp hrp hn hr' ha hF hM (room_sublist hM hsl hne hZ hroom) (bounded_sublist hsl hZ) hr hl

/-! ## sums in double, layers in single precision -/

theorem surface_mono {R R' : List Pt → Option ℚ → Prop} {shown : Option ℚ → Option ℚ} {P : List Pt} {r : ℚ} {e : Extents} {arr : LayerArr} (h : SurfaceOf R shown P r e arr)
    (hR : ∀ ps v, (∀ p ∈ ps, p ∈ P) → ps.length ≤ P.length → R ps v → R' ps v) : SurfaceOf R' shown P r e arr :=
  ⟨h.rows, h.cols, fun i j hi hj => by
    obtain ⟨v, h1, h2⟩ := h.cell i j hi hj
    exact ⟨v, hR _ _ (fun p hp => (List.mem_filter.1 hp).1) (List.length_filter_le _ _) h1, h2⟩, h.all⟩

theorem within_numpy {P : List Pt} (hη0 : 0 ≤ η) (hη : η ≤ 1 / 10 ^ 9) (hη' : η' ≤ 1 / 10 ^ 9) (hn : P.length ≤ 2 ^ 24) (hZ : BoundedBy fl Z P) (sto : ℚ → ℚ)
    {alg : Alg} (ha : alg = .mean ∨ alg = .shoalest) (ps : List Pt) (v : Option ℚ) (hsub : ∀ p ∈ ps, p ∈ P) (hlen : ps.length ≤ P.length)
    (h : FloatRule sto (fmt64 η Ω) (fmt32 η' Ω') alg (mainLayer bs) ps v) : WithinCell (51 / 10 ^ 5 + Z * (2 / 10 ^ 7)) alg ps v := by
  rcases ha with rfl | rfl
  · have h : NearMeanCell sto (fmt64 η Ω) (fmt32 η' Ω') Pt.z ps v := by cases bs <;> exact h
    obtain ⟨h1, h2⟩ := near_numpy hη0 hη hη' (by omega) (fun p hp => (hZ p (hsub p hp)).1) h
    refine ⟨h1, fun hne => ?_⟩
    obtain ⟨w, h3, h4⟩ := h2 hne
    exact ⟨w, _, h3, h4, rfl⟩
  · have h : NearShoalCell sto (fmt32 η' Ω') ps v := by cases bs <;> exact h
    refine ⟨h.1, fun hne => ?_⟩
    obtain ⟨m, w, h1, h2, -, h3⟩ := h.2 hne
    obtain ⟨p, hp, hpm⟩ := List.mem_map.1 h1.1
    refine ⟨w, m, h2, le_trans h3 (roundError_numpy hη' (abs_nonneg m) ?_), h1⟩
    rw [← hpm]
    exact (hZ p (hsub p hp)).1

/-- **C108** (sums in double, layers in single precision; single resolution): with at most 2^24 soundings of at most `Z ≤ 12000` m, every depth of the surface is at most 0.51 mm, and
0.2 mm for every 1000 m of `Z`, away from the exact mean (the least depth) of the soundings in the square of its cell. -/
theorem C108_numpy_sr (hs : 0 < size) {g : Grid (FTile M)} (h : FloatSR M env size bs fl F s g A) (ha : a.alg = .mean ∨ a.alg = .shoalest) (hF : F = .plain ∨ a.clear = true)
    (hv : a.regrid = .full ∨ a.clear = true) {r : ℚ} (hr : a.res = some r) {n : Nat} (hn : size = n * r) (hok : (g.gridWith env a dask).err = none)
    (hM : Machine (fmt64 η Ω) (fmt32 η' Ω') M) (hη : η ≤ 1 / 10 ^ 9) (hη' : η' ≤ 1 / 10 ^ 9) (hΩ : 10 ^ 15 ≤ Ω) (hΩ' : 10 ^ 15 ≤ Ω') (hlen : A.allPts.length ≤ 2 ^ 24)
    (hZ0 : 0 ≤ Z) (hZ1 : Z ≤ 12000) (hZ : BoundedBy fl Z A.allPts)
    {nodata : Option ℚ} {zUp flip : Bool} (hflip : flip = true ↔ (zUp = true ↔ ¬ StoredUp (g.gridWith env a dask).st)) :
    ∃ e arr, (g.gridWith env a dask).st.extents = some e ∧
      (g.gridWith env a dask).st.getLayersByName env [mainLayer bs] (some r) nodata zUp = ((g.gridWith env a dask).st, .ok (some [arr])) ∧
      SurfaceOf (WithinCell (51 / 10 ^ 5 + Z * (2 / 10 ^ 7)) a.alg) (shownCell (mainLayer bs) nodata flip) A.allPts r e arr := by
  obtain ⟨e, arr, h1, h2, h3⟩ := C108_surface_sr hs h ha hF hv hr hn hok hM (room_numpy hM.calcs.η_nonneg hη hη' hΩ hΩ' hlen hZ0 hZ1) hZ .refl (.inl rfl) hflip
  exact ⟨e, arr, h1, h2, surface_mono h3 (within_numpy hM.calcs.η_nonneg hη hη' hlen hZ M.sto ha)⟩

/-- **C108** (sums in double, layers in single precision; variable resolution) -/
theorem C108_numpy_vr (hs : 0 < size) (hsub : isPowerOfTwo sub = true) {q : Nat} (hdiv : size = (q : ℚ) * sub) {g : Grid (Grid (FTile M))} (h : FloatVR M env size sub bs fl F s g A)
    (ha : a.alg = .mean ∨ a.alg = .shoalest) (hF : F = .plain ∨ a.clear = true)
    (hv : a.regrid = .full ∨ a.clear = true) {r : ℚ} (hr : a.res = some r) {n : Nat} (hn : sub = n * r) (hok : (g.gridWith env a dask).err = none)
    (hM : Machine (fmt64 η Ω) (fmt32 η' Ω') M) (hη : η ≤ 1 / 10 ^ 9) (hη' : η' ≤ 1 / 10 ^ 9) (hΩ : 10 ^ 15 ≤ Ω) (hΩ' : 10 ^ 15 ≤ Ω') (hlen : A.allPts.length ≤ 2 ^ 24)
    (hZ0 : 0 ≤ Z) (hZ1 : Z ≤ 12000) (hZ : BoundedBy fl Z A.allPts)
    {nodata : Option ℚ} {zUp flip : Bool} (hflip : flip = true ↔ (zUp = true ↔ ¬ StoredUp (g.gridWith env a dask).st)) :
    ∃ e arr, (g.gridWith env a dask).st.extents = some e ∧
      (g.gridWith env a dask).st.getLayersByName env [.depth] (some r) nodata zUp = ((g.gridWith env a dask).st, .ok (some [arr])) ∧
      SurfaceOf (WithinCell (51 / 10 ^ 5 + Z * (2 / 10 ^ 7)) a.alg) (shownCell .depth nodata flip) A.allPts r e arr := by
  obtain ⟨e, arr, h1, h2, h3⟩ := C108_surface_vr hs hsub hdiv h ha hF hv hr hn hok hM (room_numpy hM.calcs.η_nonneg hη hη' hΩ hΩ' hlen hZ0 hZ1) hZ .refl (.inl rfl) hflip
  exact ⟨e, arr, h1, h2, surface_mono h3 (within_numpy (bs := false) hM.calcs.η_nonneg hη hη' hlen hZ M.sto ha)⟩

/-! ## the hypotheses can be met -/

/-- the demo grid on a machine that adds in double precision and has layers in single precision -/
def floatSR : Grid (FTile numpyArith) :=
  (((((((Grid.blank "SRGrid_Root" true 0 0 16 0 false none : Grid (FTile numpyArith)).addPoints ⟨demoFields, demoA⟩ "a" {}).st.addPoints ⟨demoFields, demoB⟩ "b" {}).st.gridWith demoEnv
    { alg := .mean, res := some 2 } (some 2)).st.removePoints "a").st).addPoints ⟨demoFields, demoC⟩ "c" {}).st

theorem floatSR_history : FloatSR numpyArith demoEnv 16 false demoFields .plain false floatSR demoStore :=
  (((((GridHistory.new .plain).add demoA "a" {} (by decide +kernel)).add demoB "b" {} (by decide +kernel)).grid { alg := .mean, res := some 2 } rfl (some 2)).remove "a"
    (by decide +kernel)).add demoC "c" {} (by decide +kernel)

def floatVR : Grid (Grid (FTile numpyArith)) :=
  (((((((Grid.blank "VRGridTile_Root" true 0 0 32 16 false none : Grid (Grid (FTile numpyArith))).addPoints ⟨demoFields, demoA⟩ "a" {}).st.addPoints ⟨demoFields, demoB⟩ "b" {}).st.gridWith demoEnv
    { alg := .mean, res := some 2 } (some 2)).st.removePoints "a").st).addPoints ⟨demoFields, demoC⟩ "c" {}).st

theorem floatVR_history : FloatVR numpyArith demoEnv 32 16 false demoFields .plain false floatVR demoStore :=
  (((((GridHistory.new .plain).add demoA "a" {} (by decide +kernel)).add demoB "b" {} (by decide +kernel)).grid { alg := .mean, res := some 2 } rfl (some 2)).remove "a"
    (by decide +kernel)).add demoC "c" {} (by decide +kernel)

example : ∃ e arr, (floatSR.gridWith demoEnv { alg := .mean, res := some 8 } none).st.extents = some e ∧
    (floatSR.gridWith demoEnv { alg := .mean, res := some 8 } none).st.getLayersByName demoEnv [.depth] (some 8) none false =
      ((floatSR.gridWith demoEnv { alg := .mean, res := some 8 } none).st, .ok (some [arr])) ∧
    SurfaceOf (WithinCell (51 / 10 ^ 5 + 100 * (2 / 10 ^ 7)) .mean) (shownCell .depth none false) demoStore.allPts 8 e arr :=
  C108_numpy_sr (n := 2) (dask := none) (η := 0) (Ω := 10 ^ 15) (η' := 0) (Ω' := 10 ^ 15) (Z := 100) (bs := false) (by norm_num) floatSR_history (.inl rfl) (.inl rfl) (.inl rfl) (a := { alg := .mean, res := some 8 }) rfl
    (by norm_num) (by decide +kernel) (numpyArith_machine _ _) (by norm_num) (by norm_num) (by norm_num) (by norm_num) (by decide +kernel) (by norm_num)
    (by norm_num) (by unfold BoundedBy; decide +kernel) (no_flip (by decide +kernel))

example : ∃ e arr, (floatVR.gridWith demoEnv { alg := .mean, res := some 8 } none).st.extents = some e ∧
    (floatVR.gridWith demoEnv { alg := .mean, res := some 8 } none).st.getLayersByName demoEnv [.depth] (some 8) none false =
      ((floatVR.gridWith demoEnv { alg := .mean, res := some 8 } none).st, .ok (some [arr])) ∧
    SurfaceOf (WithinCell (51 / 10 ^ 5 + 100 * (2 / 10 ^ 7)) .mean) (shownCell .depth none false) demoStore.allPts 8 e arr :=
  C108_numpy_vr (n := 2) (q := 2) (dask := none) (η := 0) (Ω := 10 ^ 15) (η' := 0) (Ω' := 10 ^ 15) (Z := 100) (by norm_num) (by decide +kernel) (by norm_num) floatVR_history (.inl rfl) (.inl rfl) (.inl rfl)
    (a := { alg := .mean, res := some 8 }) rfl
    (by norm_num) (by decide +kernel) (numpyArith_machine _ _) (by norm_num) (by norm_num) (by norm_num) (by norm_num) (by decide +kernel) (by norm_num)
    (by norm_num) (by unfold BoundedBy; decide +kernel) (no_flip (by decide +kernel))

end Bathy
