import Verif.Props.UpdateSurface

/-!
# Surfaces of grids in any reachable state

What C100 and C113 say of the layers of single and variable resolution grids, gridded as a whole or updated, in one relation, for theorems that compare surfaces (C123, C124).
-/

namespace Bathy
open Grid

variable {env : Env} {alg : Alg} {l : Layer} {P : List Pt} {r : ℚ} {up : Bool} {nodata : Option ℚ} {e : Extents} {arr : LayerArr}

/-- `arr`, over the extents `e`, is what a grid answers when it is asked for the layer `l` after soundings `P` were gridded at resolution `r` with the algorithm `alg`.  Single and
variable resolution grids in every reachable state, all tiles gridded or an update of a grid kept up to date since a call for all tiles; the resolution divides the tile size. -/
inductive LayerShown (env : Env) (alg : Alg) (l : Layer) : List Pt → ℚ → Bool → Option ℚ → Extents → LayerArr → Prop
  | sr {size r bs fl F s g A a dask nodata zUp up e arr} {n : Nat} (hs : 0 < size) (h : SRHistory env size bs fl F s g A) (hl : Ruled alg bs fl nodata l) (ha : a.alg = alg)
      (hF : F = .plain ∨ a.clear = true) (hv : a.regrid = .full ∨ a.clear = true) (hr : a.res = some r) (hn : size = n * r) (hok : (g.gridWith env a dask).err = none)
      (hup : up = true ↔ (zUp = true ↔ ¬ StoredUp (g.gridWith env a dask).st)) (he : (g.gridWith env a dask).st.extents = some e)
      (hq : ((g.gridWith env a dask).st.getLayersByName env [l] (some r) nodata zUp).2 = .ok (some [arr])) : LayerShown env alg l A.allPts r up nodata e arr
  | vr {size sub r bs fl F s g A a dask nodata zUp up e arr} {n q : Nat} (hs : 0 < size) (hsub : isPowerOfTwo sub = true) (hdiv : size = (q : ℚ) * sub)
      (h : VRHistory env size sub bs fl F s g A) (hl : Ruled alg false fl nodata l) (ha : a.alg = alg)
      (hF : F = .plain ∨ a.clear = true) (hv : a.regrid = .full ∨ a.clear = true) (hr : a.res = some r) (hn : sub = n * r)
      (hok : (g.gridWith env a dask).err = none) (hup : up = true ↔ (zUp = true ↔ ¬ StoredUp (g.gridWith env a dask).st)) (he : (g.gridWith env a dask).st.extents = some e)
      (hq : ((g.gridWith env a dask).st.getLayersByName env [l] (some r) nodata zUp).2 = .ok (some [arr])) : LayerShown env alg l A.allPts r up nodata e arr
  | updateSR {size r bs fl F s g g1 v A A' a a0 d0 da nodata zUp up e arr} {n : Nat} (hs : 0 < size) (h : SRHistory env size bs fl F s g A) (hl : Ruled alg bs fl nodata l)
      (ha0 : a0.alg = alg) (hr0 : a0.res = some r)
      (hv0 : a0.regrid = .full ∨ a0.clear = true) (hF : F = .plain ∨ a0.clear = true) (hn : size = n * r) (hok0 : (g.gridWith env a0 d0).err = none)
      (hsince : Since env fl alg r (g.gridWith env a0 d0).st A g1 A') (ha : a.alg = alg) (har : a.res = some r) (hok : (g1.gridWith env a da).err = none)
      (hu : Requeried env (g1.gridWith env a da).st v) (hup : up = true ↔ (zUp = true ↔ ¬ StoredUp v)) (he : v.extents = some e)
      (hq : (v.getLayersByName env [l] (some r) nodata zUp).2 = .ok (some [arr])) : LayerShown env alg l A'.allPts r up nodata e arr
  | updateVR {size sub r bs fl F s g g1 v A A' a a0 d0 da nodata zUp up e arr} {n q : Nat} (hs : 0 < size) (hsub : isPowerOfTwo sub = true) (hdiv : size = (q : ℚ) * sub)
      (h : VRHistory env size sub bs fl F s g A) (hl : Ruled alg false fl nodata l) (ha0 : a0.alg = alg) (hr0 : a0.res = some r)
      (hv0 : a0.regrid = .full ∨ a0.clear = true) (hF : F = .plain ∨ a0.clear = true) (hn : sub = n * r) (hok0 : (g.gridWith env a0 d0).err = none)
      (hsince : Since env fl alg r (g.gridWith env a0 d0).st A g1 A') (ha : a.alg = alg) (har : a.res = some r) (hok : (g1.gridWith env a da).err = none)
      (hu : Requeried env (g1.gridWith env a da).st v) (hup : up = true ↔ (zUp = true ↔ ¬ StoredUp v)) (he : v.extents = some e)
      (hq : (v.getLayersByName env [l] (some r) nodata zUp).2 = .ok (some [arr])) : LayerShown env alg l A'.allPts r up nodata e arr

/-- the lower left corner lies on the lattice of the squares -/
private def Corner (r : ℚ) (e : Extents) : Prop := ∃ i j : ℤ, e.minX = i * r ∧ e.minY = j * r

private theorem corner {τ : Type} {g : Grid τ} {size : ℚ} {pts : List Pt} {n : Nat} (h : Aligned g size pts) (he : g.extents = some e) (hn : size = n * r) : Corner r e := by
  obtain ⟨i, j, nx, ny, -, -, h1, -⟩ := h
  rw [h1] at he; cases he
  exact ⟨i * n, j * n, by rw [hn]; push_cast; ring, by rw [hn]; push_cast; ring⟩

theorem layerShown_surface (h : LayerShown env alg l P r up nodata e arr) (ha : alg = .mean ∨ alg = .shoalest) :
    0 < r ∧ SurfaceOf (CellRule alg l) (shownCell l nodata up) P r e arr ∧ (∃ i j : ℤ, e.minX = i * r ∧ e.minY = j * r) ∧ ∃ bs fl, Ruled alg bs fl nodata l := by
  cases h with
  | sr hs h hl ha' hF hv hr hn hok hup he hq =>
    subst ha'
    obtain ⟨e', arr', h1, h2, h3⟩ := C100_surface_sr hs h ha hF hv hr hn hok (l := l) (nodata := nodata) hl hup
    rw [h2] at hq; cases hq
    have hfam := (plain_family ha).1
    have h4 := history_after h hfam (hF.imp Eq.symm id) hok
    have hc := corner (C10_extents_sr hs h4 (store_ne (sr_inv hs h).1 hok)) he hn
    rw [h1] at he; cases he
    exact ⟨pos_of_mul hs hn, h3, hc, _, _, hl⟩
  | @vr size sub _ _ _ _ _ _ _ _ _ _ _ _ _ _ n q hs hsub hdiv h hl ha' hF hv hr hn hok hup he hq =>
    subst ha'
    obtain ⟨e', arr', h1, h2, h3⟩ := C100_surface_vr hs hsub hdiv h ha hF hv hr hn hok (l := l) (nodata := nodata) hl hup
    rw [h2] at hq; cases hq
    have hfam := (plain_family ha).1
    have h4 := history_after h hfam (hF.imp Eq.symm id) hok
    have hc := corner (r := r) (n := q * n) (C10_extents_vr hs hsub h4 (store_ne (vr_inv hs hsub h).1 hok)) he (by rw [hdiv, hn]; push_cast; ring)
    rw [h1] at he; cases he
    exact ⟨pos_of_mul (isPowerOfTwo_pos hsub) hn, h3, hc, _, _, hl⟩
  | @updateSR size _ bs fl _ _ g g1 v A _ a a0 d0 da _ _ _ _ _ n hs h hl ha0 hr0 hv0 hF hn hok0 hsince ha' har hok hu hup he hq =>
    subst ha0
    obtain ⟨e', arr', h1, h2, h3⟩ := C113_update_surface_sr hs h ha hr0 hv0 hF hn hok0 hsince ha' har hok hu (l := l) (nodata := nodata) hl hup
    rw [h2] at hq; cases hq
    obtain ⟨f1, f2⟩ := plain_family ha
    have k1 : GrowInv (curSpec env .plain size 0 bs fl hs a0.alg r) (g.gridWith env a0 d0).st A :=
      grow_did (sr_inv hs h).1 (fun hB hd => (regrids_full hs f1 f2 r).did rfl hr0 ⟨hv0, hF⟩ hB hd) hok0
    have inv : ∀ {v B}, Since env fl a0.alg r (g.gridWith env a0 d0).st A v B → GrowInv (curSpec env .plain size 0 bs fl hs a0.alg r) v B :=
      fun hv => since_inv hs (curSpec_query hs) (regrids_update hs f1 f2 r) k1 hv
    have hc := corner (grow_aligned (inv (since_requeried (hsince.grid a ha' har da hok) hu)) (store_ne (inv hsince) hok)) he hn
    rw [h1] at he; cases he
    exact ⟨pos_of_mul hs hn, h3, hc, _, _, hl⟩
  | @updateVR size sub _ bs fl _ _ g g1 v A _ a a0 d0 da _ _ _ _ _ n q hs hsub hdiv h hl ha0 hr0 hv0 hF hn hok0 hsince ha' har hok hu hup he hq =>
    subst ha0
    obtain ⟨e', arr', h1, h2, h3⟩ := C113_update_surface_vr hs hsub hdiv h ha hr0 hv0 hF hn hok0 hsince ha' har hok hu (l := l) (nodata := nodata) hl hup
    rw [h2] at hq; cases hq
    obtain ⟨f1, f2⟩ := plain_family ha
    have hp := isPowerOfTwo_pos hsub
    have k1 : GrowInv (subSpec (bs := bs) (curSpec env .plain sub 0 false fl hp a0.alg r) hs hsub) (g.gridWith env a0 d0).st A :=
      grow_did (vr_inv hs hsub h).1 (fun hB hd => (regrids_sub (regrids_full hp f1 f2 r) hs hsub).did rfl hr0 ⟨hv0, hF⟩ hB hd) hok0
    have inv : ∀ {v B}, Since env fl a0.alg r (g.gridWith env a0 d0).st A v B → GrowInv (subSpec (bs := bs) (curSpec env .plain sub 0 false fl hp a0.alg r) hs hsub) v B :=
      fun hv => since_inv hs (sub_query (curSpec_query hp) hs hsub) (regrids_sub (regrids_update hp f1 f2 r) hs hsub) k1 hv
    have hc := corner (r := r) (n := q * n) (grow_aligned (inv (since_requeried (hsince.grid a ha' har da hok) hu)) (store_ne (inv hsince) hok)) he (by rw [hdiv, hn]; push_cast; ring)
    rw [h1] at he; cases he
    exact ⟨pos_of_mul hp hn, h3, hc, _, _, hl⟩

end Bathy
