import Verif.Props.AutoSurface
import Verif.Props.Metadata

/-!
# C115: surfaces of variable resolution grids that choose their own resolutions

`grid(clear_existing=True)` without a resolution, on a variable resolution grid: every square of the side of a subtile has a resolution of its own.
-/

namespace Bathy
open Grid

variable {env : Env} {size sub : ℚ} {bs : Bool} {fl : Fields} {F : Family} {s : Bool} {A : Store} {a : GridCall} {r : ℚ} {dask : Option Nat}

/-- the soundings in the square (i, j) of the plane -/
def inSquare (w : ℚ) (i j : ℤ) (P : List Pt) : List Pt := P.filter (fun p => decide (⌊p.x / w⌋ = i ∧ ⌊p.y / w⌋ = j))

/-- the soundings in the squares with resolution `r` -/
def atRes (w : ℚ) (ρ : ℤ → ℤ → ℚ) (r : ℚ) (P : List Pt) : List Pt := P.filter (fun p => decide (ρ ⌊p.x / w⌋ ⌊p.y / w⌋ = r))

/-- what is known of the resolution that a tile chose by the depth of its soundings -/
def ByDepth (w : ℚ) (P : List Pt) (r : ℚ) : Prop := meanOf (P.map Pt.z) < 20480 → ∃ r0, TableEntry (meanOf (P.map Pt.z)) r0 ∧ r = min w r0

/-- a tile of a variable resolution grid that was gridded without a resolution -/
theorem leaf_auto_vr (hs : 0 < size) (hsub : isPowerOfTwo sub = true) {g : Grid (Grid Tile)} (h : VRHistory env size sub bs fl F s g A) (ha : a.alg = .mean ∨ a.alg = .shoalest)
    (hc : a.clear = true) (hr : a.res = none) (hm : a.mode ≠ .other) (hok : (g.gridWith env a dask).err = none) {t' : Tile} (ht' : (g.gridWith env a dask).st.Leaf t') :
    ∃ r, r ∈ (g.gridWith env a dask).st.resolutions ∧ LeafRun env fl F sub false a t' r ∧ OnlyAt false fl .plain t' r ∧ ((r ∈ tableResolutions ∨ r = sub) ∧ r ≤ sub) ∧
      (a.mode = .depth → ByDepth sub t'.pts r) ∧ t'.pts ≠ [] := by
  have hsp := isPowerOfTwo_pos hsub
  obtain ⟨h1, -⟩ := plain_family ha
  obtain ⟨r1, -, hrun⟩ := (Grid.leaves_vr hs hsub h (Or.inr hc) hok).1 t' ht'
  obtain ⟨i, j, u', hu', i', j', t1, ht1, rfl⟩ := ht'
  obtain ⟨-, -, -, -, hback, -⟩ := gridWith_at hok
  obtain ⟨u, rs, hu, hd, -⟩ := hback i j u' hu'
  have hold : ∃ t, u.TileAt i' j' t := by
    cases hd with
    | skipped _ hc' _ => rw [hc] at hc'; cases hc'
    | gridded c hcall hl he =>
      have he : (u.gridWith env c none).err = none := he
      obtain ⟨-, -, -, -, hback', -⟩ := gridWith_at he
      obtain ⟨t, -, ht, -⟩ := hback' i' j' t' ht1
      exact ⟨t, ht⟩
  obtain ⟨t, ht⟩ := hold
  obtain ⟨u2, t2, r, k1, k2, hg, hres, kd, kl⟩ := C67_own_resolution_vr hs hsub h (Or.inr hc) hr hok hu ht
  obtain rfl := tileAt_unique k1 hu'
  obtain rfl := tileAt_unique k2 ht1
  obtain ⟨p, q, e, -, -, -, hrep, -⟩ := tileAt_rep (vr_inv hs hsub h).1 hu
  have hrep : SubInv _ size _ _ u _ := hrep
  obtain ⟨T, hf⟩ := hrep.frame
  obtain ⟨-, -, hR, hne⟩ := frame_tileAt hf.toReady ht
  obtain ⟨hfr, hrp, -⟩ := history_frame hsp hR.1
  obtain ⟨b, hg⟩ := hg
  have hsame := Tile.grid_samePts env t a.alg (some r) a.clear a.mode a.params b
  rw [hg] at hsame
  have hpts := Tile.samePoints_pts hsame
  rw [hc] at hg
  have honly := grid_only hsp hR.1 h1 hg
  have hr1 : r1 = r := by
    have e1 := onlyAt_resolutions (leafRun_only hsp hrun h1 hc).2
    rw [onlyAt_resolutions honly] at e1
    exact ((List.cons.inj e1).1).symm
  subst hr1
  have hpne : t.pts ≠ [] := by
    rw [hrp.pts]
    exact allPts_ne hne (Store.within_ne _ _ _ _)
  have hw : t.maxX - t.minX = sub := by
    have e1 : t.minX = _ := hfr.1
    have e2 : t.maxX = _ := hfr.2.1
    rw [e1, e2]
    exact add_sub_cancel_left _ _
  have hw' : t.width = sub := hfr.2.2.2.2.1
  obtain ⟨d, hd⟩ : ∃ d, t.data = some d := by
    cases hd : t.data with
    | none => unfold Tile.pts at hpne; rw [hd] at hpne; exact absurd rfl hpne
    | some d => exact ⟨d, rfl⟩
  have hdp : t.pts = d.pts := by unfold Tile.pts; rw [hd]
  obtain ⟨r0, h0, hl, hent⟩ := C30_depth_lookup_partial t d hd (hdp ▸ hpne)
  have hdepth : a.mode = .depth → r1 = min sub r0 := by
    intro e
    have := kl e
    rw [hl, hw'] at this
    exact (Except.ok.inj this).symm
  refine ⟨r1, hres, hrun, honly, ?_, ?_, by have e : t2.pts = t.pts := hpts; rw [e]; exact hpne⟩
  · cases hmode : a.mode with
    | other => exact absurd hmode hm
    | depth =>
      rw [hdepth hmode]
      refine ⟨?_, min_le_left _ _⟩
      rcases min_choice sub r0 with e | e
      · right; exact e
      · left; rw [e]; exact h0
    | density =>
      have := C31_density_resolution_valid env t none r1 (kd hmode)
      rw [hw] at this
      exact this
  · intro hmode
    unfold ByDepth
    have e : t2.pts = t.pts := hpts
    rw [e, hdp]
    intro hlt
    exact ⟨r0, (hent hlt).1, hdepth hmode⟩

theorem filter_flatMap_of {α β : Type} (f : α → List β) (c : α → Bool) (q : β → Bool) : ∀ (l : List α), (∀ x ∈ l, ∀ y ∈ f x, q y = c x) → (l.flatMap f).filter q = (l.filter c).flatMap f := by
  intro l
  induction l with
  | nil => intro _; rfl
  | cons x l ih =>
    intro h
    rw [List.flatMap_cons, List.filter_append, ih (fun y hy => h y (List.mem_cons_of_mem _ hy)), List.filter_cons]
    have hx := h x List.mem_cons_self
    by_cases hc : c x = true
    · rw [if_pos hc, List.flatMap_cons, List.filter_eq_self.2 (fun y hy => by rw [hx y hy]; exact hc)]
    · rw [if_neg hc, List.filter_eq_nil_iff.2 (fun y hy => by rw [hx y hy]; exact hc), List.nil_append]

theorem only_one {α : Type} {R : α → α → Prop} {l : List α} {t : α} {c : α → Bool} (hp : l.Pairwise R) (ht : t ∈ l) (hc : c t = true) (hR : ¬ R t t) (hall : ∀ u ∈ l, c u = true → u = t) :
    l.filter c = [t] := by
  have h1 : t ∈ l.filter c := List.mem_filter.2 ⟨ht, hc⟩
  have h2 := hp.filter c
  have h3 : ∀ u ∈ l.filter c, u = t := fun u hu => hall u (List.mem_filter.1 hu).1 (List.mem_filter.1 hu).2
  generalize l.filter c = l' at *
  match l' with
  | [] => exact absurd h1 List.not_mem_nil
  | [x] => rw [h3 x (by simp)]
  | x :: y :: _ =>
    have := (List.pairwise_cons.1 h2).1 y (by simp)
    rw [h3 x (by simp), h3 y (by simp)] at this
    exact absurd this hR

/-- the square of a sounding in a box of the lattice -/
theorem floor_box {w x : ℚ} (hw : 0 < w) {i : ℤ} (h1 : (i : ℚ) * w ≤ x) (h2 : x < (i : ℚ) * w + w) : ⌊x / w⌋ = i := by
  rw [Int.floor_eq_iff]
  constructor
  · rw [le_div_iff₀ hw]; exact h1
  · rw [div_lt_iff₀ hw]; linarith

/-- some of the tiles -/
theorem OnLattice.part {n : Nat} {Ls : List Tile} {P : List Pt} (h : OnLattice r n Ls P) (c : Tile → Bool) (q : Pt → Bool) (hq : ∀ t ∈ Ls, ∀ p ∈ t.pts, q p = c t) :
    OnLattice r n (Ls.filter c) (P.filter q) where
  pos := h.pos
  npos := h.npos
  origin := fun t ht => h.origin t (List.mem_filter.1 ht).1
  box := fun t ht => h.box t (List.mem_filter.1 ht).1
  apart := h.apart.filter c
  all := by
    rw [← filter_flatMap_of Tile.pts c q Ls hq]
    exact h.all.filter q

/-- **C115**: after any sequence of calls, `grid` with `clear_existing=True` and without a resolution, with 'mean' or 'shoalest', in either mode, on a variable resolution grid with
subtiles whose size is a power of two from a quarter on: there is a resolution for every square of the side of a subtile, from the table or that side, for the depth mode that of the
mean depth of the soundings in the square, so that the layer at each of the resolutions reported is a surface (see C100) of just the soundings in the squares with this resolution, and
every sounding is in one of these. -/
theorem C115_auto_surface_vr (hs : 0 < size) (hsub : isPowerOfTwo sub = true) {k : Nat} (hk : sub = 2 ^ k / 4) {m : Nat} (hdiv : size = (m : ℚ) * sub) {g : Grid (Grid Tile)}
    (h : VRHistory env size sub bs fl F s g A) (ha : a.alg = .mean ∨ a.alg = .shoalest) (hc : a.clear = true) (hr : a.res = none) (hm : a.mode ≠ .other)
    (hok : (g.gridWith env a dask).err = none) {nodata : Option ℚ} {zUp flip : Bool} {l : Layer} (hl : Ruled a.alg false fl nodata l)
    (hflip : flip = true ↔ (zUp = true ↔ ¬ StoredUp (g.gridWith env a dask).st)) :
    ∃ ρ : ℤ → ℤ → ℚ,
      (∀ p ∈ A.allPts, ρ ⌊p.x / sub⌋ ⌊p.y / sub⌋ ∈ (g.gridWith env a dask).st.resolutions ∧ (a.mode = .depth → ByDepth sub (inSquare sub ⌊p.x / sub⌋ ⌊p.y / sub⌋ A.allPts) (ρ ⌊p.x / sub⌋ ⌊p.y / sub⌋))) ∧
      ∀ r ∈ (g.gridWith env a dask).st.resolutions, ((r ∈ tableResolutions ∨ r = sub) ∧ r ≤ sub) ∧ atRes sub ρ r A.allPts ≠ [] ∧
        ∃ e arr, (g.gridWith env a dask).st.extents = some e ∧ (g.gridWith env a dask).st.getLayersByName env [l] (some r) nodata zUp = ((g.gridWith env a dask).st, .ok (some [arr])) ∧
          SurfaceOf (CellRule a.alg l) (shownCell l nodata flip) (atRes sub ρ r A.allPts) r e arr := by
  have hsp := isPowerOfTwo_pos hsub
  obtain ⟨h1, h2⟩ := plain_family ha
  have hh : VRHistory env size sub bs fl .plain s (g.gridWith env a dask).st A := history_after h h1 (Or.inr hc) hok
  have hA := store_ne (vr_inv hs hsub h).1 hok
  have hleaf := fun t ht => leaf_auto_vr (t' := t) hs hsub h ha hc hr hm hok ht
  have hvis := (Grid.leaves_vr hs hsub h (Or.inr hc) hok).2
  generalize (g.gridWith env a dask).st = g1 at *
  have hinv := (vr_inv hs hsub hh).1
  obtain ⟨w1, w2⟩ := vr_wf hs hsub hh
  have hmem : ∀ t, t ∈ LeafList.leaves g1 ↔ g1.Leaf t := fun t => ⟨leaf_of_mem_vr w1 w2, fun ht => by
    obtain ⟨i, j, u, hu, i', j', t', ht', rfl⟩ := ht
    refine mem_leaves_sub ((Grid.mem_present w1).2 ⟨i, j, hu⟩) ?_
    rw [leaves_tiles]
    exact (Grid.mem_present (w2 i j u hu)).2 ⟨i', j', ht'⟩⟩
  have hlat1 : OnLattice sub 1 (LeafList.leaves g1) A.allPts := lattice_vr hs hsub hh hsp (by simp) hdiv
  classical
  let ρ : ℤ → ℤ → ℚ := fun i j => if hx : ∃ t, g1.Leaf t ∧ t.minX = (i : ℚ) * sub ∧ t.minY = (j : ℚ) * sub then (hleaf hx.choose hx.choose_spec.1).choose else 0
  -- the square of a leaf
  have hsq : ∀ t, g1.Leaf t → ∀ p ∈ t.pts, (t.minX = (⌊p.x / sub⌋ : ℚ) * sub ∧ t.minY = (⌊p.y / sub⌋ : ℚ) * sub) ∧ InBox t.minX t.minY sub p := by
    intro t ht p hp
    obtain ⟨i, j, hx, hy⟩ := hlat1.origin t ((hmem t).2 ht)
    have hb := hlat1.box t ((hmem t).2 ht) p hp
    rw [Nat.cast_one, one_mul] at hb
    have hb' := hb
    rw [hx, hy] at hb'
    obtain ⟨b1, b2, b3, b4⟩ := hb'
    rw [floor_box hsp b1 b2, floor_box hsp b3 b4]
    exact ⟨⟨hx, hy⟩, hb⟩
  have huniq : ∀ t u, g1.Leaf t → g1.Leaf u → t.minX = u.minX → t.minY = u.minY → ∀ p ∈ t.pts, t = u := by
    intro t u ht hu hx hy p hp
    by_contra hne
    have : Std.Symm (Apart ((1 : Nat) * sub)) := ⟨fun _ _ h => Apart.symm h⟩
    have hb := hlat1.box t ((hmem t).2 ht) p hp
    exact hlat1.apart.forall ((hmem t).2 ht) ((hmem u).2 hu) hne p hb (by rw [← hx, ← hy]; exact hb)
  have hρ : ∀ t (ht : g1.Leaf t), ∀ p ∈ t.pts, ∀ r, OnlyAt false fl .plain t r → ρ ⌊p.x / sub⌋ ⌊p.y / sub⌋ = r := by
    intro t ht p hp r ho
    obtain ⟨⟨hx, hy⟩, -⟩ := hsq t ht p hp
    have hex : ∃ t, g1.Leaf t ∧ t.minX = (⌊p.x / sub⌋ : ℚ) * sub ∧ t.minY = (⌊p.y / sub⌋ : ℚ) * sub := ⟨t, ht, hx, hy⟩
    show (if hx : _ then _ else _) = r
    rw [dif_pos hex]
    have he : t = hex.choose := huniq t _ ht hex.choose_spec.1 (hx.trans hex.choose_spec.2.1.symm) (hy.trans hex.choose_spec.2.2.symm) p hp
    obtain ⟨-, -, ho', -⟩ := (hleaf hex.choose hex.choose_spec.1).choose_spec
    have e1 := onlyAt_resolutions ho'
    have e2 := onlyAt_resolutions ho
    have e1 := (congrArg Tile.resolutions he).trans e1
    rw [e2] at e1
    exact (List.cons.inj e1).1.symm
  have hin : ∀ p ∈ A.allPts, ∃ t, g1.Leaf t ∧ p ∈ t.pts := by
    intro p hp
    obtain ⟨t, ht, hpt⟩ := List.mem_flatMap.1 (hlat1.all.mem_iff.2 hp)
    exact ⟨t, (hmem t).1 ht, hpt⟩
  refine ⟨ρ, ?_, ?_⟩
  · intro p hp
    obtain ⟨t, ht, hpt⟩ := hin p hp
    obtain ⟨r, q1, -, q3, -, q5, -⟩ := hleaf t ht
    rw [hρ t ht p hpt r q3]
    refine ⟨q1, fun hmode => ?_⟩
    obtain ⟨⟨hx, hy⟩, -⟩ := hsq t ht p hpt
    have hperm : t.pts.Perm (inSquare sub ⌊p.x / sub⌋ ⌊p.y / sub⌋ A.allPts) := by
      have e : (LeafList.leaves g1).filter (fun u => decide (u.minX = t.minX ∧ u.minY = t.minY)) = [t] := by
        refine only_one (hlat1.apart) ((hmem t).2 ht) (by simp) ?_ ?_
        · intro hap
          have hb := hlat1.box t ((hmem t).2 ht) p hpt
          exact hap p hb hb
        · intro u hu hcu
          have := of_decide_eq_true hcu
          exact (huniq t u ht ((hmem u).1 hu) this.1.symm this.2.symm p hpt).symm
      have := hlat1.part (fun u => decide (u.minX = t.minX ∧ u.minY = t.minY)) (fun q => decide (⌊q.x / sub⌋ = ⌊p.x / sub⌋ ∧ ⌊q.y / sub⌋ = ⌊p.y / sub⌋)) (by
        intro u hu q hq
        obtain ⟨⟨hx', hy'⟩, -⟩ := hsq u ((hmem u).1 hu) q hq
        rw [decide_eq_decide, hx, hy, hx', hy']
        constructor
        · rintro ⟨e1, e2⟩; rw [e1, e2]; exact ⟨rfl, rfl⟩
        · rintro ⟨e1, e2⟩
          exact ⟨by exact_mod_cast mul_right_cancel₀ hsp.ne' e1, by exact_mod_cast mul_right_cancel₀ hsp.ne' e2⟩)
      have := this.all
      rw [e] at this
      rw [List.flatMap_cons, List.flatMap_nil, List.append_nil] at this
      unfold inSquare
      exact this
    have := q5 hmode
    unfold ByDepth at this ⊢
    rw [← meanOf_perm (hperm.map Pt.z)]
    exact this
  · intro r hr
    obtain ⟨t0, ht0, hrun0⟩ := hvis r hr
    obtain ⟨r', -, -, q3, q4, -, q6⟩ := hleaf t0 ht0
    have hrr : r' = r := by
      have e1 := onlyAt_resolutions (leafRun_only hsp hrun0 h1 hc).2
      rw [onlyAt_resolutions q3] at e1
      exact (List.cons.inj e1).1
    subst hrr
    obtain ⟨n, hn⟩ := chosen_divides hk q4
    have hrp := pos_of_mul hsp hn
    have hPne : atRes sub ρ r' A.allPts ≠ [] := by
      obtain ⟨p, hp⟩ := List.exists_mem_of_ne_nil _ q6
      have : p ∈ A.allPts := hlat1.all.mem_iff.1 (List.mem_flatMap.2 ⟨t0, (hmem t0).2 ht0, hp⟩)
      exact List.ne_nil_of_mem (List.mem_filter.2 ⟨this, by simpa using hρ t0 ht0 p hp r' q3⟩)
    refine ⟨q4, hPne, ?_⟩
    have S := shaped_tile env .plain hsp (sub := 0) (bs := false) (fl := fl)
    obtain ⟨o, ho⟩ := Grid.grow_retrieves (env := env) (n0 := m * n) (Grid.retrieves_sub (retrieves_shaped env S) (answers_shaped env S)
        (fun {x y t A} _ hc => by
          have hc : t.cells ≠ [] := hc t rfl
          show Except.ok (!t.cells.isEmpty) = _
          cases he : t.cells with
          | nil => exact absurd he hc
          | cons p ps => rfl) (fun l hl => writtenLayers_core hl) hs hsub hdiv)
      hinv hA (fun u hu => by
        obtain ⟨_, -, -, ⟨ls, q, -⟩, -⟩ := hleaf u hu
        rw [q]; simp) (layers := [l]) (by simpa using rule_written hl) hrp hn (by rw [hdiv, hn]; push_cast; ring) nodata zUp
    have hmo := mosaic_of_answers (Grid.answers_sub (answers_shaped env S) hs hsub hdiv) hinv (by simpa using writtenLayers_core (rule_written hl)) (by simp) hrp (Grid.allOrNone_single g1 l r')
      (Prod.ext_iff.2 ⟨rfl, ho⟩)
    have hlat := (lattice_vr hs hsub hh hrp hn hdiv).part (fun t => decide (t.resolutions = [r'])) (fun p => decide (ρ ⌊p.x / sub⌋ ⌊p.y / sub⌋ = r')) (by
      intro t ht p hp
      obtain ⟨r1, -, -, q3, -⟩ := hleaf t ((hmem t).1 ht)
      rw [decide_eq_decide, hρ t ((hmem t).1 ht) p hp r1 q3, onlyAt_resolutions q3]
      simp)
    obtain ⟨e, arr, he, k2, k3, k4⟩ := surface_mosaic_part (R := CellRule a.alg l) hlat (fun t ht => (hmem t).1 (List.mem_filter.1 ht).1)
      (fun t ht hno => by
        obtain ⟨r1, -, -, q3, -⟩ := hleaf t ht
        have hne : r1 ≠ r' := by
          intro e
          rw [e] at q3
          exact hno (List.mem_filter.2 ⟨(hmem t).2 ht, by simpa using onlyAt_resolutions q3⟩)
        obtain ⟨ls, q, -⟩ := q3
        unfold Tile.layerAt
        rw [q]
        simp [Dict.get?, hne])
      (fun t ht => by
        obtain ⟨i, j, u, hu, i', j', t', ht', rfl⟩ := (hmem t).1 (List.mem_filter.1 ht).1
        obtain ⟨e, x, y, he, hx, hy, -, hall⟩ := contains_vr S hs hsub hinv hu
        obtain ⟨hx', -, hy', -⟩ := hall i' j' t ht'
        exact ⟨e, j * m * n + j' * n, i * m * n + i' * n, he, by rw [hx', hx, hdiv, hn]; push_cast; ring, by rw [hy', hy, hdiv, hn]; push_cast; ring⟩)
      (fun t ht => by
        obtain ⟨ht1, ht2⟩ := List.mem_filter.1 ht
        obtain ⟨r1, -, hrun, q3, -⟩ := hleaf t ((hmem t).1 ht1)
        have : r1 = r' := by
          have e1 := onlyAt_resolutions q3
          rw [of_decide_eq_true ht2] at e1
          exact (List.cons.inj e1).1.symm
        subst this
        obtain ⟨t1, B, c, b1, b2, b3, b4⟩ := hrun
        obtain ⟨-, -, -, b5⟩ := grid_as_some b4
        have hrun' : LeafRun env fl F sub false { a with res := some r1 } t r1 :=
          ⟨t1, B, { c with res := some r1 }, b1, b2, ⟨b3.alg, b3.regrid, b3.params, b3.clearFull, b3.clear, fun r0 h0 => h0, b3.border⟩, b5 c.mode⟩
        exact leaf_rule (a := { a with res := some r1 }) hsp hrp hn hrun' ha (Or.inr hc) rfl hl)
      (rule_perm hl) (rule_none hl) (rule_fill hl flip) hPne hflip hmo
    subst k3
    exact ⟨e, arr, he, Prod.ext_iff.2 ⟨k2, ho⟩, k4⟩

/-- C115: soundings of 9 to 40 m in subtiles of 16 m, three resolutions in the depth mode -/
example : VRHistory demoEnv 32 16 false demoFields .plain false demoVR demoStore ∧ (16 : ℚ) = 2 ^ 6 / 4 ∧ (32 : ℚ) = ((2 : Nat) : ℚ) * 16 ∧
    (demoVR.gridWith demoEnv { alg := .mean, res := none, mode := .depth, clear := true } none).err = none ∧
    (demoVR.gridWith demoEnv { alg := .mean, res := none, mode := .depth, clear := true } none).st.resolutions = [1/4, 1/2, 2] ∧
    (demoVR.gridWith demoEnv { alg := .shoalest, res := none, mode := .density, clear := true } (some 2)).err = none ∧
    (demoVR.gridWith demoEnv { alg := .shoalest, res := none, mode := .density, clear := true } (some 2)).st.resolutions = [16] :=
  ⟨demoVR_history, by norm_num, by norm_num, by decide +kernel⟩

end Bathy
