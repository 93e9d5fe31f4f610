import Verif.Lemmas.ChunkRun
import Verif.Lemmas.Stats
import Verif.Spec.TileGenerator

/-!
# `get_tiles_by_resolution`
-/

namespace Bathy
namespace Grid
variable {τ : Type} [LayerLike τ] [TileLike τ] [HasLeaves τ] {size sub : ℚ} {bs : Bool} {fl : Fields}

/-- nothing is stored by objects without a geotransform -/
def NoGeo (C : ChildSpec τ size sub bs fl) : Prop :=
  ∀ {x y : ℚ} {t : τ} {A : Store} {res : ℚ}, C.Rep x y t A → LayerLike.geo t res = none → ∀ l px py z, ¬ StoredCell t l res px py z

omit [LayerLike τ] [TileLike τ] [HasLeaves τ] in
theorem slotBefore_div {n k m : Nat} (h : k < m) : slotBefore (k / n, k % n) (m / n, m % n) := by
  unfold slotBefore
  by_cases e : k / n = m / n
  · right
    refine ⟨e, ?_⟩
    have h1 := Nat.div_add_mod k n
    have h2 := Nat.div_add_mod m n
    simp only
    rw [e] at h1
    omega
  · left
    have := Nat.div_le_div_right (c := n) h.le
    simp only
    omega

/-- one round -/
theorem yield_tile {env : Env} {C : ChildSpec τ size sub bs fl} (L : Answers env C) (hgo : GeoOk C) (hng : NoGeo C) {x0 y0 : ℚ} {nx ny : Nat} {T : Arr2 (Option τ)} {g : Grid τ} {A : Store}
    (hf : Ready C x0 y0 nx ny T g A) {layers : List Layer} (hcore : ∀ l ∈ layers, l.isCore = true) {res : ℚ} (hres : 0 < res) {nodata : Option ℚ} {zUp : Bool}
    {r c : Nat} {t : τ} (ht : g.TileAt r c t) {g' : Grid τ} {D : TileData} (h : g.getTileData env r c res layers nodata zUp = (g', .ok D)) :
    g' = g ∧ (D.cells : ℚ) * res = g.tileSize ∧
      YieldRight x0 y0 t layers res nodata (g.flips zUp) (r * D.cells) (c * D.cells) ⟨D.geo, D.row0, D.col0, D.cells, D.data⟩ := by
  obtain ⟨h1, n, hn, hD, h2, h3⟩ := getTileData_same L hf hcore hres ht h
  have hrep := (frame_tileAt hf ht).2.2.1
  have hsz := cellsAlong_ok hres.ne' hn
  have hsz' : size = (n : ℚ) * res := by rw [← hf.tileSize]; exact hsz
  have ex : x0 + ((c * n : Nat) : ℚ) * res = x0 + (c : ℚ) * size := by rw [hsz']; push_cast; ring
  have ey : y0 + ((r * n : Nat) : ℚ) * res = y0 + (r : ℚ) * size := by rw [hsz']; push_cast; ring
  subst hD
  refine ⟨h1, hsz.symm, ⟨rfl, h2, fun l hl => (h3 l hl).1, ?_, ?_, ?_⟩⟩
  · intro l a ha
    simp only at ha ⊢
    rw [ex, ey]
    by_cases hl : l ∈ layers
    · exact (h3 l hl).2 a ha
    · rw [h2 l hl] at ha; cases ha
  · intro ge hge
    simp only at hge ⊢
    have := hgo hrep hge
    subst this
    refine ⟨rfl, ex.symm, ?_⟩
    rw [ey, ← hsz']
  · intro hge l px py z
    exact hng hrep hge l px py z

theorem yield_loop {env : Env} {C : ChildSpec τ size sub bs fl} (L : Answers env C) (hgo : GeoOk C) (hng : NoGeo C) {x0 y0 : ℚ} {nx ny : Nat} {T : Arr2 (Option τ)} {g : Grid τ} {A : Store}
    (hf : Ready C x0 y0 nx ny T g A) {layers : List Layer} (hcore : ∀ l ∈ layers, l.isCore = true) {res : ℚ} (hres : 0 < res) {nodata : Option ℚ} {zUp : Bool} (m : Nat)
    (hm : m ≤ T.flat.length) :
    ∃ P : List (Nat × Nat), P.Pairwise slotBefore ∧ (∀ p ∈ P, g.Filled p.1 p.2 ∧ ∃ k < m, p = (k / T.cols, k % T.cols)) ∧
      ((Res.forEach (List.range m) (g, []) (yieldStep env res layers nodata zUp)).err = none →
        (Res.forEach (List.range m) (g, []) (yieldStep env res layers nodata zUp)).st.1 = g ∧ ∀ k < m, g.Filled (k / T.cols) (k % T.cols) → (k / T.cols, k % T.cols) ∈ P) ∧
      List.Forall₂ (fun p y => ∃ t, g.TileAt p.1 p.2 t ∧ (y.cells : ℚ) * res = g.tileSize ∧
        YieldRight x0 y0 t layers res nodata (g.flips zUp) (p.1 * y.cells) (p.2 * y.cells) y) P (Res.forEach (List.range m) (g, []) (yieldStep env res layers nodata zUp)).st.2 := by
  have hTw : T.WF := by show T.flat.length = _; rw [hf.rep.2.2.1, hf.rep.1, hf.rep.2.1]
  have hcols : g.txs.length = T.cols := by rw [hf.txs, hf.rep.2.1]; simp [originsOf]
  induction m with
  | zero => exact ⟨[], .nil, by simp, fun _ => ⟨rfl, fun k hk => (by omega)⟩, .nil⟩
  | succ m ih =>
    obtain ⟨P, p1, p2, p3, p4⟩ := ih (by omega)
    rw [List.range_succ, Res.forEach_append]
    generalize hout : Res.forEach (List.range m) (g, []) (yieldStep env res layers nodata zUp) = out at p3 p4
    by_cases he : out.err = none
    · obtain ⟨q1, q2⟩ := p3 he
      rw [Res.andThen_of_err_none he]
      simp only [Res.forEach_cons, Res.forEach_nil]
      rcases hst : out.st with ⟨gs, ys⟩
      rw [hst] at q1 p4
      simp only at q1 p4
      subst q1
      have hlt : m < T.flat.length := by omega
      have hget := Arr2.flat_getElem?_eq T hTw hlt
      rcases ho : T.flat[m]? with _ | o
      · rw [List.getElem?_eq_none_iff] at ho; omega
      rw [ho] at hget
      cases o with
      | none =>
        have hstep : yieldStep env res layers nodata zUp (gs, ys) m = .ok (gs, ys) := by
          unfold yieldStep tile?
          simp only [hf.tiles, Option.bind_some, ho]
        rw [hstep]
        refine ⟨P, p1, fun p hp => ⟨(p2 p hp).1, ?_⟩, fun _ => ⟨rfl, ?_⟩, p4⟩
        · obtain ⟨k, hk, e⟩ := (p2 p hp).2
          exact ⟨k, by omega, e⟩
        · intro k hk hfill
          by_cases e : k = m
          · subst e
            obtain ⟨t, T', hT', ht⟩ := hfill
            rw [hf.tiles] at hT'; cases hT'
            rw [← hget] at ht
            cases ht
          · exact q2 k (by omega) hfill
      | some t =>
        have ht : gs.TileAt (m / T.cols) (m % T.cols) t := ⟨T, hf.tiles, hget.symm⟩
        rcases hd : gs.getTileData env (m / T.cols) (m % T.cols) res layers nodata zUp with ⟨g', ex⟩
        cases ex with
        | error e =>
          have hstep : yieldStep env res layers nodata zUp (gs, ys) m = .fail (g', ys) e := by
            unfold yieldStep tile?
            simp only [hf.tiles, Option.bind_some, ho, hcols, hd]
          rw [hstep]
          refine ⟨P, p1, fun p hp => ⟨(p2 p hp).1, ?_⟩, fun h => (by cases h), p4⟩
          obtain ⟨k, hk, e⟩ := (p2 p hp).2
          exact ⟨k, by omega, e⟩
        | ok D =>
          obtain ⟨e1, e2, e3⟩ := yield_tile L hgo hng hf hcore hres ht hd
          subst e1
          have hstep : yieldStep env res layers nodata zUp (g', ys) m = .ok (g', ys ++ [⟨D.geo, D.row0, D.col0, D.cells, D.data⟩]) := by
            unfold yieldStep tile?
            simp only [hf.tiles, Option.bind_some, ho, hcols, hd]
          rw [hstep]
          refine ⟨P ++ [(m / T.cols, m % T.cols)], ?_, ?_, fun _ => ⟨rfl, ?_⟩, ?_⟩
          · rw [List.pairwise_append]
            refine ⟨p1, by simp, ?_⟩
            intro p hp q hq
            obtain ⟨k, hk, rfl⟩ := (p2 p hp).2
            rw [List.mem_singleton] at hq
            subst hq
            exact slotBefore_div hk
          · intro p hp
            rcases List.mem_append.1 hp with hp | hp
            · obtain ⟨k, hk, e⟩ := (p2 p hp).2
              exact ⟨(p2 p hp).1, k, by omega, e⟩
            · rw [List.mem_singleton] at hp
              subst hp
              exact ⟨⟨t, ht⟩, m, by omega, rfl⟩
          · intro k hk hfill
            by_cases e : k = m
            · subst e; simp
            · exact List.mem_append_left _ (q2 k (by omega) hfill)
          · exact List.rel_append p4 (.cons ⟨t, ht, e2, e3⟩ .nil)
    · obtain ⟨e, he'⟩ := Option.ne_none_iff_exists'.1 he
      have : out.andThen (fun st => Res.forEach [m] st (yieldStep env res layers nodata zUp)) = out := by
        obtain ⟨st, err⟩ := out
        simp only at he'
        subst he'
        rfl
      rw [this]
      refine ⟨P, p1, fun p hp => ⟨(p2 p hp).1, ?_⟩, fun h => absurd h he, p4⟩
      obtain ⟨k, hk, e⟩ := (p2 p hp).2
      exact ⟨k, by omega, e⟩

omit [TileLike τ] [HasLeaves τ] in
/-- nothing is raised if every tile can be read -/
theorem yield_ok {env : Env} {g : Grid τ} {T : Arr2 (Option τ)} (hT : g.tiles = some T) (hw : T.WF) (hcols : g.txs.length = T.cols) {res : ℚ} {layers : List Layer} {nodata : Option ℚ} {zUp : Bool}
    (h : ∀ r c t, g.TileAt r c t → ∃ D, g.getTileData env r c res layers nodata zUp = (g, .ok D)) (l : List Nat) (ys : List TileYield) (hl : ∀ k ∈ l, k < T.flat.length) :
    (Res.forEach l (g, ys) (yieldStep env res layers nodata zUp)).err = none := by
  induction l generalizing ys with
  | nil => rfl
  | cons k l ih =>
    rw [Res.forEach_cons]
    have hk := hl k (by simp)
    have hget := Arr2.flat_getElem?_eq T hw hk
    rcases ho : T.flat[k]? with _ | o
    · rw [List.getElem?_eq_none_iff] at ho; omega
    rw [ho] at hget
    have key : ∃ ys', yieldStep env res layers nodata zUp (g, ys) k = .ok (g, ys') := by
      cases o with
      | none =>
        refine ⟨ys, ?_⟩
        unfold yieldStep tile?
        simp only [hT, Option.bind_some, ho]
      | some t =>
        obtain ⟨D, hD⟩ := h _ _ t ⟨T, hT, hget.symm⟩
        refine ⟨ys ++ [⟨D.geo, D.row0, D.col0, D.cells, D.data⟩], ?_⟩
        unfold yieldStep tile?
        simp only [hT, Option.bind_some, ho, hcols, hD]
    obtain ⟨ys', hs⟩ := key
    rw [hs, Res.andThen_of_err_none rfl]
    exact ih ys' (fun k hk => hl k (by simp [hk]))

theorem noGeo_tile (env : Env) (F : Family) {size sub : ℚ} {bs : Bool} {fl : Fields} (hs : 0 < size) : NoGeo (tileSpec env F size sub bs fl hs) := by
  rintro x y t A res _ hge l px py z ⟨u, ls, a, i, j, hu, h1, -⟩
  have hu : u = t := hu
  subst hu
  have hge : (if u.cells.has res then some (Geo.mk u.minX res u.maxY) else none) = none := hge
  have : u.cells.has res = true := by rw [← Dict.get?_isSome, h1]; rfl
  rw [if_pos this] at hge
  cases hge

theorem noGeo_sub {C : ChildSpec τ sub 0 false fl} (hs : 0 < size) (hpow : isPowerOfTwo sub = true) : NoGeo (subSpec (size := size) (bs := bs) C hs hpow) :=
  fun hrep hge => absurd hge (geo_sub hs hpow hrep _)

/-- the generator, for any grid that grew -/
theorem yield_grow {env : Env} {C : ChildSpec τ size sub bs fl} (L : Answers env C) (hgo : GeoOk C) (hng : NoGeo C) {g : Grid τ} {A : Store} (hg : GrowInv C g A)
    {layers : List Layer} (hcore : ∀ l ∈ layers, l.isCore = true) {res : ℚ} (hres : 0 < res) (nodata : Option ℚ) (zUp : Bool) :
    YieldSpec g layers res nodata (g.flips zUp) (g.tilesByResolution env (some res) layers nodata zUp) := by
  have hq : g.queryRes (some res) = .ok res := by unfold queryRes; simp only [if_neg hres.ne']
  have hnil : ∀ e, YieldSpec g layers res nodata (g.flips zUp) (.fail (g, []) e) := fun e =>
    ⟨⟨[], .nil, by simp, fun h => (by cases h), .nil⟩, fun h => (by cases h)⟩
  unfold tilesByResolution
  rw [hq]
  simp only
  split
  · exact hnil _
  · exact hnil _
  · rename_i hno
    rcases hg.body with ⟨h1, h2, -⟩ | ⟨-, i, j, nx, ny, T, hf, he⟩
    · unfold noGrid at hno
      rw [h2] at hno
      cases hno
    · obtain ⟨P, p1, p2, p3, p4⟩ := yield_loop (nodata := nodata) (zUp := zUp) L hgo hng hf.toReady hcore hres T.flat.length le_rfl
      have hsl : g.slots = T.flat.length := by unfold slots; rw [hf.tiles]
      rw [hsl]
      have hTw : T.WF := by show T.flat.length = _; rw [hf.rep.2.2.1, hf.rep.1, hf.rep.2.1]
      refine ⟨⟨P, p1, fun p hp => (p2 p hp).1, ?_, ?_⟩, fun h => (p3 h).1⟩
      · intro herr r c hfill
        obtain ⟨t, T', hT', ht⟩ := id hfill
        rw [hf.tiles] at hT'; cases hT'
        have hb := lt_of_get ht
        have hcp : 0 < T.cols := by omega
        have e1 : (r * T.cols + c) / T.cols = r := by rw [Nat.add_comm, Nat.add_mul_div_right _ _ hcp, Nat.div_eq_of_lt hb.2]; simp
        have e2 : (r * T.cols + c) % T.cols = c := by rw [Nat.add_comm, Nat.add_mul_mod_self_right, Nat.mod_eq_of_lt hb.2]
        have hlt : r * T.cols + c < T.flat.length := by
          rw [Arr2.get?_eq_flat T hb.1 hb.2] at ht
          exact (List.getElem?_eq_some_iff.1 ht).1
        have := (p3 herr).2 _ hlt (by rw [e1, e2]; exact hfill)
        rwa [e1, e2] at this
      · refine p4.imp ?_
        rintro p y ⟨t, h1, h2, h3⟩
        exact ⟨_, t, he, h1, h2, h3⟩

end Grid
end Bathy
