import Verif.Spec.ExportSurface
import Verif.Props.PointSurface
import Verif.Props.SameSoundings
import Verif.Props.Csv
import Verif.Props.Export

/-!
# C129: exported files in terms of the soundings

After gridding, the exported csv tables and rasters are the surface of the soundings.
-/

namespace Bathy
open Grid

variable {env : Env} {alg : Alg} {l : Layer} {P : List Pt} {r : ℚ} {flip : Bool} {e : Extents} {arr : LayerArr}

/-- what is stored for the layer, in terms of the soundings -/
structure StoredBySoundings {τ : Type} [HasLeaves τ] (g : τ) (alg : Alg) (l : Layer) (r : ℚ) (P : List Pt) : Prop where
  value : ∀ x y z, StoredCell g l r x y z → (∃ i j : ℤ, x = i * r ∧ y = j * r) ∧ CellRule alg l (onSquare r x y P) (some z)
  all : ∀ p ∈ P, ∃ x y z, StoredCell g l r x y z ∧ OnSquare r x y p

private theorem inCell_square {i j : Nat} : inCell e.minX e.minY r i j P = onSquare r (e.minX + (j : ℚ) * r) (e.minY + (i : ℚ) * r) P := by
  unfold inCell onSquare
  refine List.filter_congr fun q _ => ?_
  rw [decide_eq_decide]
  unfold InCell OnSquare
  push_cast
  constructor
  · rintro ⟨h1, h2, h3, h4⟩; exact ⟨⟨h1, by linarith⟩, h3, by linarith⟩
  · rintro ⟨⟨h1, h2⟩, h3, h4⟩; exact ⟨h1, by linarith, h3, by linarith⟩

private theorem mem_onSquare {x y : ℚ} {p : Pt} : p ∈ onSquare r x y P ↔ p ∈ P ∧ OnSquare r x y p := by
  unfold onSquare; simp

private theorem axis_eq (hr : 0 < r) {i i' : ℤ} {x x' t : ℚ} (hx : x = i * r) (hx' : x' = i' * r) (h : x ≤ t ∧ t < x + r) (h' : x' ≤ t ∧ t < x' + r) : x = x' := by
  subst hx hx'
  have k1 : (i : ℚ) < i' + 1 := by by_contra hc; push Not at hc; nlinarith [h.1, h.2, h'.1, h'.2]
  have k2 : (i' : ℚ) < i + 1 := by by_contra hc; push Not at hc; nlinarith [h.1, h.2, h'.1, h'.2]
  have k1 : i < i' + 1 := by exact_mod_cast k1
  have k2 : i' < i + 1 := by exact_mod_cast k2
  rw [show i = i' by omega]

private theorem shown_inj {z z' : ℚ} (h : shownValue l flip z = shownValue l flip z') : z = z' := by
  unfold shownValue at h
  split at h
  · exact neg_injective h
  · exact h

private theorem rule_some_nil (ha : alg = .mean ∨ alg = .shoalest) (hl : l ≠ .density) (z : ℚ) : ¬ CellRule alg l [] (some z) := by
  intro h
  rcases ha with rfl | rfl <;> cases l <;> first | exact absurd rfl hl | exact absurd (h.1 rfl) (by simp)

/-- from the array that is shown to what is stored -/
theorem stored_by {τ : Type} [HasLeaves τ] {g : Grid τ} {bs : Bool} {fl : Fields} (hl : Ruled alg bs fl none l)
    (hm : MosaicSpec g [l] r none false g (some [arr])) (he : g.extents = some e) (hflip : flip = true ↔ (false = true ↔ ¬ StoredUp g))
    (hs : SurfaceOf (CellRule alg l) (shownCell l none flip) P r e arr) (hc : ∃ i j : ℤ, e.minX = i * r ∧ e.minY = j * r) : StoredBySoundings g alg l r P := by
  obtain ⟨-, e', he', hsh⟩ := hm.shows _ rfl
  rw [he] at he'; cases he'
  obtain ⟨a, h0, -, -, hsh⟩ := hsh 0 l rfl
  cases h0
  have hsh := hsh flip hflip
  have hat : ∀ i j z, i < arr.rows → j < arr.cols → StoredCell g l r (e.minX + (j : ℚ) * r) (e.minY + (i : ℚ) * r) z → CellRule alg l (inCell e.minX e.minY r i j P) (some z) := by
    intro i j z hi hj hz
    obtain ⟨v, hv, hg⟩ := hs.cell i j hi hj
    rw [hsh.value i j z hi hj hz] at hg
    cases v with
    | none => cases hg
    | some w =>
      have hg : shownValue l flip z = shownValue l flip w := Option.some.inj (Option.some.inj hg)
      rw [shown_inj hg]; exact hv
  constructor
  · intro x y z hz
    obtain ⟨i, j, hi, hj, rfl, rfl⟩ := hsh.all x y z hz
    obtain ⟨cx, cy, hx, hy⟩ := hc
    refine ⟨⟨cx + j, cy + i, by rw [hx]; push_cast; ring, by rw [hy]; push_cast; ring⟩, ?_⟩
    rw [← inCell_square]
    exact hat i j z hi hj hz
  · intro p hp
    obtain ⟨i, j, hi, hj, hin⟩ := hs.all p hp
    have hmem : p ∈ inCell e.minX e.minY r i j P := List.mem_filter.2 ⟨hp, decide_eq_true hin⟩
    by_cases hz : ∃ z, StoredCell g l r (e.minX + (j : ℚ) * r) (e.minY + (i : ℚ) * r) z
    · obtain ⟨z, hz⟩ := hz
      rw [inCell_square] at hmem
      exact ⟨_, _, z, hz, (mem_onSquare.1 hmem).2⟩
    · push Not at hz
      obtain ⟨v, hv, hg⟩ := hs.cell i j hi hj
      rw [hsh.empty i j hi hj hz] at hg
      have hg := Option.some.inj hg
      exfalso
      cases v with
      | none => rw [rule_none hl _ hv] at hmem; cases hmem
      | some w =>
        by_cases hd : l = .density
        · subst hd
          have hw : w = 0 := by simpa [shownCell, shownValue, fillValue] using hg.symm
          have hv : some w = some _ := hv
          rw [hw] at hv
          have hv := Option.some.inj hv
          have : (inCell e.minX e.minY r i j P).length = 0 := by exact_mod_cast hv.symm
          rw [List.length_eq_zero_iff.1 this] at hmem
          cases hmem
        · have : fillValue l none = none := by
            unfold fillValue
            rw [if_neg]
            rintro (h | h)
            · exact hd h
            · subst h
              rcases hl with h | ⟨h, -⟩ | ⟨-, ⟨h, -⟩ | ⟨h, -⟩⟩
              · cases bs <;> cases h
              · cases h
              · cases h
              · cases h
          rw [this] at hg
          cases hg

variable {size sub : ℚ} {bs : Bool} {fl : Fields} {F : Family} {s : Bool} {A : Store} {a : GridCall} {dask : Option Nat}

/-- **C129** (single resolution grids): what is stored after gridding, in terms of the soundings -/
theorem C129_stored_sr (hs : 0 < size) {g : Grid Tile} (h : SRHistory env size bs fl F s g A) (ha : a.alg = .mean ∨ a.alg = .shoalest) (hF : F = .plain ∨ a.clear = true)
    (hv : a.regrid = .full ∨ a.clear = true) (hr : a.res = some r) {n : Nat} (hn : size = n * r) (hok : (g.gridWith env a dask).err = none)
    (hl : Ruled a.alg bs fl none l) : StoredBySoundings (g.gridWith env a dask).st a.alg l r A.allPts := by
  classical
  have hup : decide (StoredUp (g.gridWith env a dask).st) = true ↔ (false = true ↔ ¬ StoredUp (g.gridWith env a dask).st) := by simp
  obtain ⟨e, arr, h1, h2, -⟩ := C100_surface_sr hs h ha hF hv hr hn hok (l := l) (nodata := none) (zUp := false) hl hup
  obtain ⟨hrp, h3, h4, -⟩ := layerShown_surface (.sr hs h hl rfl hF hv hr hn hok hup h1 (by rw [h2])) ha
  have hfam : a.alg.family = some .plain := by rcases ha with e | e <;> rw [e] <;> rfl
  have hh : SRHistory env size bs fl .plain s (g.gridWith env a dask).st A := history_after h hfam (hF.imp Eq.symm id) hok
  exact stored_by hl (C34_mosaic_sr hs hh (writtenLayers_core (rule_written hl)) hrp h2) h1 hup h3 h4

/-- **C129** (variable resolution grids): the same -/
theorem C129_stored_vr (hs : 0 < size) (hsub : isPowerOfTwo sub = true) {q : Nat} (hdiv : size = (q : ℚ) * sub) {g : Grid (Grid Tile)}
    (h : VRHistory env size sub bs fl F s g A) (ha : a.alg = .mean ∨ a.alg = .shoalest) (hF : F = .plain ∨ a.clear = true)
    (hv : a.regrid = .full ∨ a.clear = true) (hr : a.res = some r) {n : Nat} (hn : sub = n * r) (hok : (g.gridWith env a dask).err = none)
    (hl : Ruled a.alg false fl none l) : StoredBySoundings (g.gridWith env a dask).st a.alg l r A.allPts := by
  classical
  have hup : decide (StoredUp (g.gridWith env a dask).st) = true ↔ (false = true ↔ ¬ StoredUp (g.gridWith env a dask).st) := by simp
  obtain ⟨e, arr, h1, h2, -⟩ := C100_surface_vr hs hsub hdiv h ha hF hv hr hn hok (l := l) (nodata := none) (zUp := false) hl hup
  obtain ⟨hrp, h3, h4, -⟩ := layerShown_surface (.vr hs hsub hdiv h hl rfl hF hv hr hn hok hup h1 (by rw [h2])) ha
  have hfam : a.alg.family = some .plain := by rcases ha with e | e <;> rw [e] <;> rfl
  have hh : VRHistory env size sub bs fl .plain s (g.gridWith env a dask).st A := history_after h hfam (hF.imp Eq.symm id) hok
  exact stored_by hl (C34_mosaic_vr hs hsub hdiv hh (writtenLayers_core (rule_written hl)) hrp h2) h1 hup h3 h4

/-- a square of the lattice with a sounding has a stored cell -/
private theorem stored_at {τ : Type} [HasLeaves τ] {g : τ} (hr : 0 < r) (hst : StoredBySoundings g alg l r P) {i j : ℤ} {x y : ℚ} (hx : x = i * r) (hy : y = j * r)
    {p : Pt} (hp : p ∈ P) (hin : OnSquare r x y p) : ∃ z, StoredCell g l r x y z := by
  obtain ⟨x', y', z, hz, hin'⟩ := hst.all p hp
  obtain ⟨⟨i', j', hx', hy'⟩, -⟩ := hst.value x' y' z hz
  rw [axis_eq hr hx hx' hin.1 hin'.1, axis_eq hr hy hy' hin.2 hin'.2]
  exact ⟨z, hz⟩

private theorem shownAt_rule {τ : Type} [HasLeaves τ] {g : τ} (hr : 0 < r) (hl : Ruled alg bs fl none l) (hst : StoredBySoundings g alg l r P) {i j : ℤ} {x y : ℚ} (hx : x = i * r)
    (hy : y = j * r) {v : Option ℚ} (hv : ShownAt g l r flip x y v) : ∃ w, CellRule alg l (onSquare r x y P) w ∧ v = shownCell l none flip w := by
  by_cases hz : ∃ z, StoredCell g l r x y z
  · obtain ⟨z, hz⟩ := hz
    exact ⟨some z, (hst.value x y z hz).2, hv.1 z hz⟩
  · push Not at hz
    have : onSquare r x y P = [] := by
      by_contra hne
      obtain ⟨p, hp⟩ := List.exists_mem_of_ne_nil _ hne
      obtain ⟨z, h⟩ := stored_at hr hst hx hy (mem_onSquare.1 hp).1 (mem_onSquare.1 hp).2
      exact hz z h
    obtain ⟨w, h1, h2⟩ := rule_fill hl flip
    exact ⟨w, by rw [this]; exact h1, by rw [hv.2 hz, h2]⟩

private theorem csv_of {τ : Type} [HasLeaves τ] {g : Grid τ} {l0 : Layer} {ls : List Layer} {zUp : Bool} {f : CsvFile} (hr : 0 < r) (hc : ∀ e, g.extents = some e → ∃ i j : ℤ, e.minX = i * r ∧ e.minY = j * r)
    (hst : ∀ l, Ruled alg bs fl none l → StoredBySoundings g alg l r P) (h0 : Ruled alg bs fl none l0) (h0d : l0 ≠ .density) (ha : alg = .mean ∨ alg = .shoalest)
    (h : CsvSpec g (l0 :: ls) r zUp flip f) : CsvOfSoundings (CellRule alg) (Ruled alg bs fl none) (l0 :: ls) flip P r f := by
  obtain ⟨e, r0, r1, c0, c1, he, hbox, hrow, hcell⟩ := h.cells
  have hbox := hbox l0 rfl
  obtain ⟨cx, cy, hx, hy⟩ := hc e he
  have h1 := hst l0 h0
  have hax : ∀ j : Nat, e.minX + (j : ℚ) * r = ((cx + j : ℤ) : ℚ) * r := fun j => by rw [hx]; push_cast; ring
  have hay : ∀ i : Nat, e.minY + (i : ℚ) * r = ((cy + i : ℤ) : ℚ) * r := fun i => by rw [hy]; push_cast; ring
  -- a stored cell has a sounding
  have hpt : ∀ {x y z}, StoredCell g l0 r x y z → ∃ p ∈ P, OnSquare r x y p := by
    intro x y z hz
    by_contra hcon
    push Not at hcon
    have : onSquare r x y P = [] := List.filter_eq_nil_iff.2 fun q hq => by simpa using hcon q hq
    have hv := (h1.value x y z hz).2
    rw [this] at hv
    exact rule_some_nil ha h0d z hv
  constructor
  · intro w hw k l hk hl
    obtain ⟨i, j, -, hwx, hwy, -, hval⟩ := hcell w hw
    obtain ⟨v, hv, hsh⟩ := hval k l hk
    obtain ⟨u, hu1, hu2⟩ := shownAt_rule hr hl (hst l hl) (hax j) (hay i) hsh
    refine ⟨u, ?_, by rw [hv, hu2]⟩
    rw [hwx, hwy, add_sub_cancel_right, add_sub_cancel_right]
    exact hu1
  · intro p hp
    obtain ⟨x, y, z, hz, hin⟩ := h1.all p hp
    obtain ⟨i, j, k1, k2, k3, k4, rfl, rfl⟩ := hbox.all x y z hz
    obtain ⟨w, hw, hwx, hwy⟩ := hrow i j k1 k2 k3 k4
    refine ⟨w, hw, by rw [hwx, hwy, add_sub_cancel_right, add_sub_cancel_right]; exact hin, fun w' hw' hin' => ?_⟩
    obtain ⟨i', j', -, hwx', hwy', -⟩ := hcell w' hw'
    rw [hwx', hwy', add_sub_cancel_right, add_sub_cancel_right] at hin'
    have ex := axis_eq hr (hax j') (hax j) hin'.1 hin.1
    have ey := axis_eq hr (hay i') (hay i) hin'.2 hin.2
    exact List.inj_on_of_nodup_map h.once hw' hw (Prod.ext (by rw [hwx, hwx', ex]) (by rw [hwy, hwy', ey]))
  · intro w hw w' hw'
    obtain ⟨i, j, ⟨k1, k2, k3, k4⟩, hwx, hwy, -⟩ := hcell w hw
    obtain ⟨i', j', ⟨k1', k2', k3', k4'⟩, hwx', hwy', -⟩ := hcell w' hw'
    obtain ⟨u, hu, hux, huy⟩ := hrow i' j k1' k2' k3 k4
    exact ⟨u, hu, by rw [hux, hwx], by rw [huy, hwy']⟩
  · intro w hw
    obtain ⟨i, j, ⟨k1, k2, k3, k4⟩, hwx, hwy, -⟩ := hcell w hw
    obtain ⟨i1, z1, hz1⟩ := hbox.left
    obtain ⟨i2, j2, z2, e2, hz2⟩ := hbox.right
    obtain ⟨j3, z3, hz3⟩ := hbox.top
    obtain ⟨i4, j4, z4, e4, hz4⟩ := hbox.bottom
    obtain ⟨p1, hp1, q1⟩ := hpt hz1
    obtain ⟨p2, hp2, q2⟩ := hpt hz2
    obtain ⟨p3, hp3, q3⟩ := hpt hz3
    obtain ⟨p4, hp4, q4⟩ := hpt hz4
    have m : ∀ {b c : Nat}, b ≤ c → (b : ℚ) * r ≤ c * r := fun h => mul_le_mul_of_nonneg_right (by exact_mod_cast h) hr.le
    refine ⟨⟨p1, hp1, ?_⟩, ⟨p2, hp2, ?_⟩, ⟨p3, hp3, ?_⟩, ⟨p4, hp4, ?_⟩⟩
    · rw [hwx]; have := q1.1.2; have := m k3; linarith
    · rw [hwx]; have := q2.1.1; have := m (show j ≤ j2 by omega); linarith
    · rw [hwy]; have := q3.2.2; have := m k1; linarith
    · rw [hwy]; have := q4.2.1; have := m (show i ≤ i4 by omega); linarith
  · intro w hw
    obtain ⟨i, j, -, -, -, h, -⟩ := hcell w hw
    exact h
  · exact h.once
  · intro w hw
    obtain ⟨i, j, -, hwx, hwy, -⟩ := hcell w hw
    exact ⟨_, _, by rw [hwx, add_sub_cancel_right]; exact hax j, by rw [hwy, add_sub_cancel_right]; exact hay i⟩
  · intro i j ⟨p1, hp1, q1⟩ ⟨p2, hp2, q2⟩ ⟨p3, hp3, q3⟩ ⟨p4, hp4, q4⟩
    have hpos : ∀ p ∈ P, ∃ i j : Nat, (r0 ≤ i ∧ i < r1 ∧ c0 ≤ j ∧ j < c1) ∧ OnSquare r (((cx + j : ℤ) : ℚ) * r) (((cy + i : ℤ) : ℚ) * r) p := by
      intro p hp
      obtain ⟨x, y, z, hz, hin⟩ := h1.all p hp
      obtain ⟨i, j, k1, k2, k3, k4, rfl, rfl⟩ := hbox.all x y z hz
      exact ⟨i, j, ⟨k1, k2, k3, k4⟩, by rw [← hax, ← hay]; exact hin⟩
    have lt : ∀ {a b : ℤ} {t : ℚ}, (a : ℚ) * r ≤ t → t < b * r + r → a ≤ b := by
      intro a b t h1 h2
      have : (a : ℚ) * r < (b + 1) * r := by linarith
      have : (a : ℚ) < b + 1 := lt_of_mul_lt_mul_right this hr.le
      have : a < b + 1 := by exact_mod_cast this
      omega
    obtain ⟨_, b1, ⟨-, -, a1, -⟩, o1⟩ := hpos p1 hp1
    obtain ⟨_, b2, ⟨-, -, -, a2⟩, o2⟩ := hpos p2 hp2
    obtain ⟨b3, _, ⟨a3, -⟩, o3⟩ := hpos p3 hp3
    obtain ⟨b4, _, ⟨-, a4, -⟩, o4⟩ := hpos p4 hp4
    have e1 := lt o1.1.1 q1
    have e2 := lt q2 o2.1.2
    have e3 := lt o3.2.1 q3
    have e4 := lt q4 o4.2.2
    obtain ⟨w, hw, hwx, hwy⟩ := hrow (j - cy).toNat (i - cx).toNat (by omega) (by omega) (by omega) (by omega)
    refine ⟨w, hw, ?_, ?_⟩
    · rw [hwx, add_sub_cancel_right, hax, show cx + (i - cx).toNat = i by omega]
    · rw [hwy, add_sub_cancel_right, hay, show cy + (j - cy).toNat = j by omega]

private theorem only_res {τ : Type} {g : Grid τ} (hne : g.resolutions ≠ []) (hp : g.resolutions.Pairwise (· < ·)) (h : ∀ x ∈ g.resolutions, x = r) : g.resolutions = [r] := by
  match hg : g.resolutions, hne with
  | [x], _ => rw [hg] at h; rw [h x (by simp)]
  | x :: y :: xs, _ =>
    rw [hg] at h hp
    have h1 := h x (by simp)
    have h2 := h y (by simp)
    have := (List.pairwise_cons.1 hp).1 y (by simp)
    rw [h1, h2] at this
    exact absurd this (lt_irrefl _)

private theorem res_sr (hs : 0 < size) {g : Grid Tile} (h : SRHistory env size bs fl F s g A) (ha : a.alg = .mean ∨ a.alg = .shoalest) (hF : F = .plain ∨ a.clear = true)
    (hv : a.regrid = .full ∨ a.clear = true) (hr : a.res = some r) {n : Nat} (hn : size = n * r) (hok : (g.gridWith env a dask).err = none) :
    (g.gridWith env a dask).st.resolutions = [r] ∧ 0 < r ∧ ∀ e, (g.gridWith env a dask).st.extents = some e → ∃ i j : ℤ, e.minX = i * r ∧ e.minY = j * r := by
  classical
  have hl : Ruled a.alg bs fl none (mainLayer bs) := .inl rfl
  have hfam : a.alg.family = some .plain := by rcases ha with e | e <;> rw [e] <;> rfl
  have hlv := Grid.leaves_sr hs h hv hok
  have hup : decide (StoredUp (g.gridWith env a dask).st) = true ↔ (false = true ↔ ¬ StoredUp (g.gridWith env a dask).st) := by simp
  obtain ⟨e, arr, h1, h2, -⟩ := C100_surface_sr hs h ha hF hv hr hn hok (nodata := none) (zUp := false) hl hup
  obtain ⟨hrp, -, h4, -⟩ := layerShown_surface (.sr hs h hl rfl hF hv hr hn hok hup h1 (by rw [h2])) ha
  obtain ⟨p, hp⟩ := List.exists_mem_of_ne_nil _ (allPts_ne (store_ne (sr_inv hs h).1 hok) (sr_inv hs h).1.ne)
  obtain ⟨x, y, z, ⟨u, -, -, -, -, hu, -⟩, -⟩ := (C129_stored_sr hs h ha hF hv hr hn hok hl).all p hp
  obtain ⟨r', hr', -⟩ := hlv.1 u hu
  refine ⟨only_res (List.ne_nil_of_mem hr') (C28_resolutions_sr hs h hok).1 fun x hx => ?_, hrp, fun e' he' => ?_⟩
  · obtain ⟨t, -, hrun⟩ := hlv.2 x hx
    exact (leafRun_density hs hrun hfam (hF.imp Eq.symm id)).1 r hr
  · rw [h1] at he'; cases he'; exact h4

private theorem res_vr (hs : 0 < size) (hsub : isPowerOfTwo sub = true) {q : Nat} (hdiv : size = (q : ℚ) * sub) {g : Grid (Grid Tile)}
    (h : VRHistory env size sub bs fl F s g A) (ha : a.alg = .mean ∨ a.alg = .shoalest) (hF : F = .plain ∨ a.clear = true)
    (hv : a.regrid = .full ∨ a.clear = true) (hr : a.res = some r) {n : Nat} (hn : sub = n * r) (hok : (g.gridWith env a dask).err = none) :
    (g.gridWith env a dask).st.resolutions = [r] ∧ 0 < r ∧ ∀ e, (g.gridWith env a dask).st.extents = some e → ∃ i j : ℤ, e.minX = i * r ∧ e.minY = j * r := by
  classical
  have hl : Ruled a.alg false fl none (mainLayer false) := .inl rfl
  have hfam : a.alg.family = some .plain := by rcases ha with e | e <;> rw [e] <;> rfl
  have hlv := Grid.leaves_vr hs hsub h hv hok
  have hup : decide (StoredUp (g.gridWith env a dask).st) = true ↔ (false = true ↔ ¬ StoredUp (g.gridWith env a dask).st) := by simp
  obtain ⟨e, arr, h1, h2, -⟩ := C100_surface_vr hs hsub hdiv h ha hF hv hr hn hok (nodata := none) (zUp := false) hl hup
  obtain ⟨hrp, -, h4, -⟩ := layerShown_surface (.vr hs hsub hdiv h hl rfl hF hv hr hn hok hup h1 (by rw [h2])) ha
  obtain ⟨p, hp⟩ := List.exists_mem_of_ne_nil _ (allPts_ne (store_ne (vr_inv hs hsub h).1 hok) (vr_inv hs hsub h).1.ne)
  obtain ⟨x, y, z, ⟨u, -, -, -, -, hu, -⟩, -⟩ := (C129_stored_vr hs hsub hdiv h ha hF hv hr hn hok hl).all p hp
  obtain ⟨r', hr', -⟩ := hlv.1 u hu
  refine ⟨only_res (List.ne_nil_of_mem hr') (C28_resolutions_vr_partial hs hsub h hok).1 fun x hx => ?_, hrp, fun e' he' => ?_⟩
  · obtain ⟨t, -, hrun⟩ := hlv.2 x hx
    exact (leafRun_density (isPowerOfTwo_pos hsub) hrun hfam (hF.imp Eq.symm id)).1 r hr
  · rw [h1] at he'; cases he'; exact h4

private theorem one_file {β : Type} {files : List (ℚ × β)} (h : files.map Prod.fst = [r]) : ∃ f, files = [(r, f)] := by
  match files, h with
  | [(x, f)], h => exact ⟨f, by rw [show x = r by simpa using h]⟩

private theorem main_density : mainLayer bs ≠ .density := by cases bs <;> decide

/-- **C129** (single resolution grids): after gridding by mean or shoalest with existing layers cleared, the export writes one csv table, and it is the surface of the soundings -/
theorem C129_csv_sr (hs : 0 < size) {g : Grid Tile} (h : SRHistory env size bs fl F s g A) (ha : a.alg = .mean ∨ a.alg = .shoalest) (hc : a.clear = true)
    (hr : a.res = some r) {n : Nat} (hn : size = n * r) (hok : (g.gridWith env a dask).err = none) {zUp : Bool}
    (hflip : flip = true ↔ ¬ (StoredUp (g.gridWith env a dask).st ↔ (zUp = true ∧ 0 < (g.gridWith env a dask).st.meanDepth))) :
    ∃ f, (g.gridWith env a dask).st.exportCsv env zUp none = ((g.gridWith env a dask).st, [(r, f)], none) ∧
      CsvOfSoundings (CellRule a.alg) (Ruled a.alg bs fl none) (writtenLayers .plain bs fl) flip A.allPts r f := by
  obtain ⟨k1, hrp, hcor⟩ := res_sr hs h ha (.inr hc) (.inr hc) hr hn hok
  obtain ⟨files, h1, h2, h3⟩ := C46_after_gridding_sr hs h ha hc hok (flip := flip) (zUp := zUp) (by
    rw [k1]; intro x hx; rw [List.mem_singleton.1 hx]; exact ⟨n, hn⟩) hflip
  rw [k1] at h2
  obtain ⟨f, rfl⟩ := one_file h2
  refine ⟨f, h1, ?_⟩
  have h3 := h3 _ List.mem_cons_self
  obtain ⟨ls, hw, -⟩ := written_plain bs fl
  rw [hw] at h3 ⊢
  exact csv_of hrp hcor (fun l hl => C129_stored_sr hs h ha (.inr hc) (.inr hc) hr hn hok hl) (.inl rfl) main_density ha h3

/-- **C129** (variable resolution grids): the same -/
theorem C129_csv_vr (hs : 0 < size) (hsub : isPowerOfTwo sub = true) {q : Nat} (hdiv : size = (q : ℚ) * sub) {g : Grid (Grid Tile)}
    (h : VRHistory env size sub bs fl F s g A) (ha : a.alg = .mean ∨ a.alg = .shoalest) (hc : a.clear = true)
    (hr : a.res = some r) {n : Nat} (hn : sub = n * r) (hok : (g.gridWith env a dask).err = none) {zUp : Bool}
    (hflip : flip = true ↔ ¬ (StoredUp (g.gridWith env a dask).st ↔ (zUp = true ∧ 0 < (g.gridWith env a dask).st.meanDepth))) :
    ∃ f, (g.gridWith env a dask).st.exportCsv env zUp none = ((g.gridWith env a dask).st, [(r, f)], none) ∧
      CsvOfSoundings (CellRule a.alg) (Ruled a.alg false fl none) (writtenLayers .plain false fl) flip A.allPts r f := by
  obtain ⟨k1, hrp, hcor⟩ := res_vr hs hsub hdiv h ha (.inr hc) (.inr hc) hr hn hok
  obtain ⟨files, h1, h2, h3⟩ := C46_after_gridding_vr hs hsub hdiv h ha hc hok (flip := flip) (zUp := zUp) (by
    rw [k1]; intro x hx; rw [List.mem_singleton.1 hx]; exact ⟨n, hn⟩) hflip
  rw [k1] at h2
  obtain ⟨f, rfl⟩ := one_file h2
  refine ⟨f, h1, ?_⟩
  have h3 := h3 _ List.mem_cons_self
  obtain ⟨ls, hw, -⟩ := written_plain false fl
  rw [hw] at h3 ⊢
  exact csv_of hrp hcor (fun l hl => C129_stored_vr hs hsub hdiv h ha (.inr hc) (.inr hc) hr hn hok hl) (.inl rfl) main_density ha h3

theorem rasters_of {τ : Type} [HasLeaves τ] {g : Grid τ} {names : List (String × Layer)} {files : List RasterFile} (hr : 0 < r) (ha : alg = .mean ∨ alg = .shoalest)
    (hst : ∀ l, Ruled alg bs fl none l → StoredBySoundings g alg l r P) (hnames : ∀ name l, (name, l) ∈ names → l ≠ .density) (hlat : ∀ name l, (name, l) ∈ names → ∀ x y z, StoredCell g l r x y z → ∃ i j : ℤ, x = i * r ∧ y = j * r)
    (h : RastersRight g names r files) : RastersOfSoundings g (CellRule alg) (Ruled alg bs fl none) names P r files := by
  -- the files lie on the lattice
  have hgeo : ∀ f ∈ files, ∃ i j : ℤ, f.geo.x0 = i * r ∧ f.geo.y0 = j * r := by
    intro f hf
    obtain ⟨name, l, hn, x, y, z, hz, a, -, i, j, -, -, hx, hy⟩ := h.some f hf
    obtain ⟨cx, cy, hcx, hcy⟩ := hlat name l hn x y z hz
    rw [(h.right f hf).1] at hx hy
    exact ⟨cx - j, cy + 1 + i, by push_cast; linarith, by push_cast; linarith⟩
  have hpix : ∀ f ∈ files, ∀ i j : Nat, ∃ ci cj : ℤ, f.geo.x0 + (j : ℚ) * r = ci * r ∧ f.geo.y0 - (i : ℚ) * r - r = cj * r := by
    intro f hf i j
    obtain ⟨cx, cy, hx, hy⟩ := hgeo f hf
    exact ⟨cx + j, cy - i - 1, by rw [hx]; push_cast; ring, by rw [hy]; push_cast; ring⟩
  -- a sounding below a pixel is in the stored cell of the pixel
  have hover : ∀ f ∈ files, ∀ p ∈ P, ∀ name l, Ruled alg bs fl none l → f.OverPoint name p → ∃ x y z, StoredCell g l r x y z ∧ OnSquare r x y p ∧ f.Covers name x y := by
    intro f hf p hp name l hl hov
    obtain ⟨a, hb, i, j, hi, hj, hin⟩ := hov
    have hres := (h.right f hf).1
    obtain ⟨ci, cj, hci, hcj⟩ := hpix f hf i j
    rw [hres] at hin
    obtain ⟨z, hz⟩ := stored_at hr (hst l hl) hci hcj hp hin
    exact ⟨_, _, z, hz, hin, a, hb, i, j, hi, hj, by rw [hres], by rw [hres]; ring⟩
  constructor
  · intro f hf
    obtain ⟨hres, -, -, hband⟩ := h.right f hf
    refine ⟨hres, fun k name l hk hl => ?_⟩
    obtain ⟨a, hb, hshow, hempty⟩ := hband k name l hk
    rw [hres] at hshow hempty
    refine ⟨a, hb, fun i j hi hj => ⟨fun hnil => ?_, fun hne => ?_⟩⟩
    · refine hempty i j hi hj fun z hz => ?_
      have hv := ((hst l hl).value _ _ z hz).2
      rw [hnil] at hv
      exact rule_some_nil ha (hnames name l (List.mem_of_getElem? hk)) z hv
    · obtain ⟨p, hp⟩ := List.exists_mem_of_ne_nil _ hne
      obtain ⟨ci, cj, hci, hcj⟩ := hpix f hf i j
      obtain ⟨z, hz⟩ := stored_at hr (hst l hl) hci hcj (mem_onSquare.1 hp).1 (mem_onSquare.1 hp).2
      obtain ⟨v, hv1, hv2⟩ := hshow i j z hi hj hz
      exact ⟨z, v, ((hst l hl).value _ _ z hz).2, hv1, hv2⟩
  · exact fun f hf => (h.right f hf).2.2.1
  · exact hgeo
  · intro p hp name l hn hl
    obtain ⟨x, y, z, hz, hin⟩ := (hst l hl).all p hp
    obtain ⟨f, hf, a, hb, i, j, hi, hj, hx, hy⟩ := h.all name l hn x y z hz
    have hres := (h.right f hf).1
    rw [hres] at hx hy
    refine ⟨f, hf, a, hb, i, j, hi, hj, ?_⟩
    rw [hres, ← hx, ← hy, add_sub_cancel_right]
    exact hin
  · refine (List.Pairwise.and_mem.1 h.apart).imp ?_
    rintro f f' ⟨hf, hf', hap⟩ p hp name l hn hl ⟨h1, h2⟩
    obtain ⟨x, y, z, hz, hin, hc⟩ := hover f hf p hp name l hl h1
    obtain ⟨x', y', z', hz', hin', hc'⟩ := hover f' hf' p hp name l hl h2
    obtain ⟨⟨i, j, hi, hj⟩, -⟩ := (hst l hl).value _ _ _ hz
    obtain ⟨⟨i', j', hi', hj'⟩, -⟩ := (hst l hl).value _ _ _ hz'
    have ex := axis_eq hr hi' hi hin'.1 hin.1
    have ey := axis_eq hr hj' hj hin'.2 hin.2
    rw [ex, ey] at hc'
    exact hap name l hn x y z hz ⟨hc, hc'⟩

theorem lattice_of {τ : Type} [HasLeaves τ] {g g' : Grid τ} {o : Option (List LayerArr)} (hm : MosaicSpec g [l] r none false g' o)
    (hc : ∀ e, g.extents = some e → ∃ i j : ℤ, e.minX = i * r ∧ e.minY = j * r) {x y z : ℚ} (hz : StoredCell g l r x y z) : ∃ i j : ℤ, x = i * r ∧ y = j * r := by
  classical
  cases o with
  | none => exact absurd hz (hm.none_iff.1 rfl l (by simp) x y z)
  | some D =>
    obtain ⟨-, e, he, hsh⟩ := hm.shows _ rfl
    obtain ⟨a, -, -, -, hsh⟩ := hsh 0 l rfl
    obtain ⟨i, j, -, -, hx, hy⟩ := (hsh (decide (StoredUp g)) (by simp)).all x y z hz
    obtain ⟨cx, cy, hcx, hcy⟩ := hc e he
    exact ⟨cx + j, cy + i, by rw [hx, hcx]; push_cast; ring, by rw [hy, hcy]; push_cast; ring⟩

theorem bands_density {kind : RasterKind} {zUp : Bool} {name : String} (h : (name, l) ∈ expectedBands kind zUp bs .plain fl) : l ≠ .density := by
  rintro rfl
  unfold expectedBands at h
  split at h
  · simp at h
  · split at h <;> simp at h

/-- **C129** (single resolution grids): after gridding all tiles by mean or shoalest the exported GeoTIFF or BAG rasters are the surface of the soundings (for a grid with a coordinate
system; BAG for depths only) -/
theorem C129_rasters_sr (hs : 0 < size) {g : Grid Tile} (h : SRHistory env size bs fl F s g A) (hE : g.info.epsg ≠ none) (ha : a.alg = .mean ∨ a.alg = .shoalest)
    (hF : F = .plain ∨ a.clear = true) (hv : a.regrid = .full ∨ a.clear = true) (hr : a.res = some r) {n : Nat} (hn : size = n * r) (hok : (g.gridWith env a dask).err = none)
    {kind : RasterKind} (hk : kind = .bag → bs = false) (zUp : Bool) (override : Option ℚ) :
    ∃ files, (g.gridWith env a dask).st.exportRaster env kind zUp (some r) override = ((g.gridWith env a dask).st, files, none) ∧
      RastersOfSoundings (g.gridWith env a dask).st (CellRule a.alg) (Ruled a.alg bs fl none) (expectedBands kind zUp bs .plain fl) A.allPts r files := by
  have hfam : a.alg.family = some .plain := by rcases ha with e | e <;> rw [e] <;> rfl
  obtain ⟨-, hrp, hcor⟩ := res_sr hs h ha hF hv hr hn hok
  obtain ⟨per, k1, k2, k3, k4, k5⟩ := C76_rasters_sr_partial hs h hE hfam (hF.imp Eq.symm id) hv hok hk hr hn (res := some r) (.inr rfl) override (zUp := zUp)
  obtain ⟨p, rfl⟩ := List.length_eq_one_iff.1 (k3 rfl)
  have hp := k1 p (by simp)
  have k5 := k5 p (by simp)
  rw [hp] at k5
  refine ⟨p.2, by rw [k4]; simp, rasters_of hrp ha (fun l hl => C129_stored_sr hs h ha hF hv hr hn hok hl) (fun name l hl => bands_density hl) (fun name l hl x y z hz => ?_) k5⟩
  have hw : l ∈ writtenLayers .plain bs fl := expected_written (List.mem_map.2 ⟨_, hl, rfl⟩)
  have hh : SRHistory env size bs fl .plain s (g.gridWith env a dask).st A := history_after h hfam (hF.imp Eq.symm id) hok
  obtain ⟨o, ho, -⟩ := C64_retrievable_sr_partial (layers := [l]) hs h hfam (hF.imp Eq.symm id) hv hok (by simpa using hw) hrp hn none false
  exact lattice_of (C34_mosaic_sr hs hh (writtenLayers_core hw) hrp (Prod.ext_iff.2 ⟨rfl, ho⟩)) hcor hz

/-- **C129** (variable resolution grids of depths): the same -/
theorem C129_rasters_vr (hs : 0 < size) (hsub : isPowerOfTwo sub = true) {q : Nat} (hdiv : size = (q : ℚ) * sub) {g : Grid (Grid Tile)}
    (h : VRHistory env size sub false fl F s g A) (hE : g.info.epsg ≠ none) (ha : a.alg = .mean ∨ a.alg = .shoalest)
    (hF : F = .plain ∨ a.clear = true) (hv : a.regrid = .full ∨ a.clear = true) (hr : a.res = some r) {n : Nat} (hn : sub = n * r) (hok : (g.gridWith env a dask).err = none)
    (kind : RasterKind) (zUp : Bool) (override : Option ℚ) :
    ∃ files, (g.gridWith env a dask).st.exportRaster env kind zUp (some r) override = ((g.gridWith env a dask).st, files, none) ∧
      RastersOfSoundings (g.gridWith env a dask).st (CellRule a.alg) (Ruled a.alg false fl none) (expectedBands kind zUp false .plain fl) A.allPts r files := by
  have hfam : a.alg.family = some .plain := by rcases ha with e | e <;> rw [e] <;> rfl
  obtain ⟨-, hrp, hcor⟩ := res_vr hs hsub hdiv h ha hF hv hr hn hok
  obtain ⟨per, k1, k4, k5⟩ := C76_rasters_vr_partial hs hsub hdiv h hE hfam (hF.imp Eq.symm id) hv hok (res := some r) (rs := [r]) (.inr ⟨r, rfl, rfl⟩)
    (by intro x hx; rw [List.mem_singleton.1 hx]; exact ⟨n, hn⟩) override (zUp := zUp) (kind := kind)
  obtain ⟨f, rfl⟩ := one_file k1
  have k5 := k5 _ List.mem_cons_self
  refine ⟨f, by rw [k4]; simp, rasters_of hrp ha (fun l hl => C129_stored_vr hs hsub hdiv h ha hF hv hr hn hok hl) (fun name l hl => bands_density hl) (fun name l hl x y z hz => ?_) k5⟩
  have hw : l ∈ writtenLayers .plain false fl := expected_written (List.mem_map.2 ⟨_, hl, rfl⟩)
  have hh : VRHistory env size sub false fl .plain s (g.gridWith env a dask).st A := history_after h hfam (hF.imp Eq.symm id) hok
  obtain ⟨o, ho, -⟩ := C64_retrievable_vr_partial (layers := [l]) hs hsub hdiv h hfam (hF.imp Eq.symm id) hv hok (by simpa using hw) hrp hn none false
  exact lattice_of (C34_mosaic_vr hs hsub hdiv hh (writtenLayers_core hw) hrp (Prod.ext_iff.2 ⟨rfl, ho⟩)) hcor hz

/-! ## the hypotheses can be met -/

private theorem not_up {τ : Type} {g : Grid τ} (h : g.info.vref = none) : ¬ StoredUp g := fun ⟨_, hs, _⟩ => nomatch h.symm.trans hs

private def meanCall : GridCall := { alg := .mean, res := some 8, clear := true }

example : StoredBySoundings (demoSR.gridWith demoEnv meanCall none).st .mean .density 8 demoStore.allPts ∧
    StoredBySoundings (demoVR.gridWith demoEnv meanCall (some 3)).st .mean .vertical 8 demoStore.allPts :=
  ⟨C129_stored_sr (size := 16) (n := 2) (a := meanCall) (by norm_num) demoSR_history (.inl rfl) (.inr rfl) (.inl rfl) rfl (by norm_num) (by decide +kernel) (.inr (.inl ⟨rfl, rfl⟩)),
    C129_stored_vr (size := 32) (sub := 16) (n := 2) (q := 2) (a := meanCall) (by norm_num) (by decide +kernel) (by norm_num) demoVR_history (.inl rfl) (.inr rfl) (.inl rfl) rfl
      (by norm_num) (by decide +kernel) (.inr (.inr ⟨rfl, .inl ⟨rfl, rfl⟩⟩))⟩

/-- as elevations: the depths of the demo grid change their sign -/
example : ∃ f, (demoSR.gridWith demoEnv meanCall none).st.exportCsv demoEnv true none = ((demoSR.gridWith demoEnv meanCall none).st, [(8, f)], none) ∧
    CsvOfSoundings (CellRule .mean) (Ruled .mean false demoFields none) (writtenLayers .plain false demoFields) true demoStore.allPts 8 f :=
  C129_csv_sr (size := 16) (n := 2) (a := meanCall) (by norm_num) demoSR_history (.inl rfl) rfl rfl (by norm_num) (by decide +kernel)
    ⟨fun _ h => not_up (by decide +kernel) (h.2 ⟨rfl, by decide +kernel⟩), fun _ => rfl⟩

example : ∃ f, (demoVR.gridWith demoEnv meanCall (some 3)).st.exportCsv demoEnv false none = ((demoVR.gridWith demoEnv meanCall (some 3)).st, [(8, f)], none) ∧
    CsvOfSoundings (CellRule .mean) (Ruled .mean false demoFields none) (writtenLayers .plain false demoFields) false demoStore.allPts 8 f :=
  C129_csv_vr (size := 32) (sub := 16) (n := 2) (q := 2) (a := meanCall) (by norm_num) (by decide +kernel) (by norm_num) demoVR_history (.inl rfl) rfl rfl (by norm_num) (by decide +kernel)
    ⟨fun h => (nomatch h), fun h => absurd ⟨fun hu => absurd hu (not_up (by decide +kernel)), fun hu => nomatch hu.1⟩ h⟩

/-- four files -/
example : (∃ files, (demoSR.gridWith demoEnv meanCall none).st.exportRaster demoEnv .bag false (some 8) (some 16) = ((demoSR.gridWith demoEnv meanCall none).st, files, none) ∧
      RastersOfSoundings (demoSR.gridWith demoEnv meanCall none).st (CellRule .mean) (Ruled .mean false demoFields none) (expectedBands .bag false false .plain demoFields) demoStore.allPts 8 files) ∧
    ((demoSR.gridWith demoEnv meanCall none).st.exportRaster demoEnv .bag false (some 8) (some 16)).2.1.length = 4 :=
  ⟨C129_rasters_sr (size := 16) (n := 2) (a := meanCall) (by norm_num) demoSR_history (by decide +kernel) (.inl rfl) (.inr rfl) (.inl rfl) rfl (by norm_num) (by decide +kernel) (fun _ => rfl) _ _,
    (by decide +kernel)⟩

example : ∃ files, (demoVR.gridWith demoEnv { alg := .shoalest, res := some 4, clear := true } none).st.exportRaster demoEnv .geotiff true (some 4) (some 32) =
      ((demoVR.gridWith demoEnv { alg := .shoalest, res := some 4, clear := true } none).st, files, none) ∧
    RastersOfSoundings (demoVR.gridWith demoEnv { alg := .shoalest, res := some 4, clear := true } none).st (CellRule .shoalest) (Ruled .shoalest false demoFields none)
      (expectedBands .geotiff true false .plain demoFields) demoStore.allPts 4 files :=
  C129_rasters_vr (size := 32) (sub := 16) (n := 4) (q := 2) (a := { alg := .shoalest, res := some 4, clear := true }) (by norm_num) (by decide +kernel) (by norm_num) demoVR_history (by decide +kernel) (.inr rfl)
    (.inl rfl) (.inl rfl) rfl (by norm_num) (by decide +kernel) _ _ _

end Bathy
