import Verif.Lemmas.DiskHistory

/-!
# With an output folder the same happens in memory, also when a call fails

Data with other fields than before makes `add_points` fail somewhere in the loop over the tiles.
-/

namespace Bathy
namespace Grid
variable {τ φ : Type} [DiskLike τ φ]

/-- `add_points` of a tile with its folder, and what the grid does with the tile after it, are in memory the same as without a folder -/
structure Follow (b : Backend) (t : τ) (o : Option φ) (dt : PtArr) (c : String) : Prop where
  err : (DiskLike.addD b dt c (t, ⟨o, []⟩)).err = (TileLike.addPoints t dt c).err
  st : (DiskLike.addD b dt c (t, ⟨o, []⟩)).st.1 = (TileLike.addPoints t dt c).st
  flush : (TileLike.addPoints t dt c).err = none → ∃ q, DiskLike.flush b .points (if TileLike.isEmpty (TileLike.addPoints t dt c).st then none else some (TileLike.addPoints t dt c).st)
    ⟨(DiskLike.addD b dt c (t, ⟨o, []⟩)).st.2.now, []⟩ = .ok (if TileLike.isEmpty (TileLike.addPoints t dt c).st then none else some (TileLike.addPoints t dt c).st, q)

/-- one round of the loop of `_add_points_to_tiles` -/
theorem addToTileD_follow (b : Backend) {fl : Fields} {pts : List Pt} {bins : List Nat} {c : String} {g : Grid τ} {d : Disk (Root φ)} {k : Nat} {o : Option τ} {p : ℚ × ℚ}
    (ho : g.tile? k = some o) (hp : g.tileOrigin k = some p)
    (hnew : o = none → ∃ t0 : τ, TileLike.build g.tileSize g.subtileSize g.isBackscatter p.1 p.2 = .ok t0 ∧
      Follow b t0 (tileFolder d.now p) ⟨fl, boolIndex pts (bins.map (fun b => decide (b = k)))⟩ c)
    (hold : ∀ t, o = some t → Follow b t (tileFolder d.now p) ⟨fl, boolIndex pts (bins.map (fun b => decide (b = k)))⟩ c) :
    (addToTileD b fl pts bins c (g, d) k).err = (addToTile fl pts bins c g k).err ∧ (addToTileD b fl pts bins c (g, d) k).st.1 = (addToTile fl pts bins c g k).st ∧
      (∃ o', (addToTile fl pts bins c g k).st = g.setTile k o') ∧ ∀ q, q ≠ p → tileFolder (addToTileD b fl pts bins c (g, d) k).st.2.now q = tileFolder d.now q := by
  obtain ⟨x, y⟩ := p
  have hput : ∀ (R : Root φ) o q, q ≠ (x, y) → tileFolder (putTile R (x, y) o) q = tileFolder R q := by
    intro R o q hq; rw [tileFolder_putTile, if_neg hq]
  have fin : ∀ t : τ, Follow b t (tileFolder d.now (x, y)) ⟨fl, boolIndex pts (bins.map (fun b => decide (b = k)))⟩ c →
      addToTile fl pts bins c g k = (match (TileLike.addPoints t ⟨fl, boolIndex pts (bins.map (fun b => decide (b = k)))⟩ c).err with
        | some e => .fail (g.setTile k (some (TileLike.addPoints t ⟨fl, boolIndex pts (bins.map (fun b => decide (b = k)))⟩ c).st)) e
        | none => .ok (g.setTile k (if TileLike.isEmpty (TileLike.addPoints t ⟨fl, boolIndex pts (bins.map (fun b => decide (b = k)))⟩ c).st then none
            else some (TileLike.addPoints t ⟨fl, boolIndex pts (bins.map (fun b => decide (b = k)))⟩ c).st))) →
      addToTileD b fl pts bins c (g, d) k = (match (DiskLike.addD b ⟨fl, boolIndex pts (bins.map (fun b => decide (b = k)))⟩ c (t, focus d (x, y))).err with
        | some e => .fail (g.setTile k (some (DiskLike.addD b ⟨fl, boolIndex pts (bins.map (fun b => decide (b = k)))⟩ c (t, focus d (x, y))).st.1),
            absorb d (x, y) (DiskLike.addD b ⟨fl, boolIndex pts (bins.map (fun b => decide (b = k)))⟩ c (t, focus d (x, y))).st.2) e
        | none => flushTile b .points (g.setTile k (if TileLike.isEmpty (DiskLike.addD b ⟨fl, boolIndex pts (bins.map (fun b => decide (b = k)))⟩ c (t, focus d (x, y))).st.1 then none
            else some (DiskLike.addD b ⟨fl, boolIndex pts (bins.map (fun b => decide (b = k)))⟩ c (t, focus d (x, y))).st.1),
            absorb d (x, y) (DiskLike.addD b ⟨fl, boolIndex pts (bins.map (fun b => decide (b = k)))⟩ c (t, focus d (x, y))).st.2) k) →
      (addToTileD b fl pts bins c (g, d) k).err = (addToTile fl pts bins c g k).err ∧ (addToTileD b fl pts bins c (g, d) k).st.1 = (addToTile fl pts bins c g k).st ∧
      (∃ o', (addToTile fl pts bins c g k).st = g.setTile k o') ∧ ∀ q, q ≠ (x, y) → tileFolder (addToTileD b fl pts bins c (g, d) k).st.2.now q = tileFolder d.now q := by
    intro t hF e1 e2
    rw [e1, e2]
    generalize boolIndex pts (bins.map (fun b => decide (b = k))) = sel at hF
    have hfoc : focus d (x, y) = ⟨tileFolder d.now (x, y), []⟩ := rfl
    rw [hfoc, hF.err, hF.st]
    generalize hq : (DiskLike.addD b ⟨fl, sel⟩ c (t, ⟨tileFolder d.now (x, y), []⟩)).st.2 = c'
    cases he : (TileLike.addPoints t ⟨fl, sel⟩ c).err with
    | some e =>
      refine ⟨rfl, rfl, ⟨_, rfl⟩, fun q hne => ?_⟩
      simp only [Res.fail_st, absorb_now]
      exact hput _ _ _ hne
    | none =>
      obtain ⟨q', hfl⟩ := hF.flush he
      rw [hq] at hfl
      simp only
      generalize (if TileLike.isEmpty (TileLike.addPoints t ⟨fl, sel⟩ c).st = true then none else some (TileLike.addPoints t ⟨fl, sel⟩ c).st) = u at hfl
      have hfoc' : focus (absorb d (x, y) c') (x, y) = ⟨c'.now, []⟩ := by
        unfold focus
        rw [absorb_now, tileFolder_putTile, if_pos rfl]
      have hflush : flushTile b .points (g.setTile k u, absorb d (x, y) c') k = .ok (g.setTile k u, absorb (absorb d (x, y) c') (x, y) q') := by
        unfold flushTile
        simp only [tile_setTile g ho, setTile_origin, hp, hfoc', hfl, Res.ok_st, Res.ok_err, setTile_setTile]
        rfl
      rw [hflush]
      refine ⟨rfl, rfl, ⟨_, rfl⟩, fun q hne => ?_⟩
      simp only [Res.ok_st, absorb_now]
      rw [hput _ _ _ hne, hput _ _ _ hne]
  cases o with
  | none =>
    obtain ⟨t0, h1, h2⟩ := hnew rfl
    have h1 : TileLike.build g.tileSize g.subtileSize g.isBackscatter x y = .ok t0 := h1
    refine fin t0 h2 ?_ ?_
    · unfold addToTile
      simp only [ho, hp, h1]
      rfl
    · unfold addToTileD
      simp only [ho, hp, h1]
      rfl
  | some t =>
    refine fin t (hold t rfl) ?_ ?_
    · unfold addToTile
      simp only [ho]
      rfl
    · unfold addToTileD
      simp only [ho, hp]
      rfl

/-- the loop of `_add_points_to_tiles` -/
theorem addLoopD_follow (b : Backend) {fl : Fields} {pts : List Pt} {bins : List Nat} {c : String} (g0 : Grid τ) (R0 : Root φ) (ks : List Nat) (hnd : ks.Nodup)
    (hinj : ∀ j ∈ ks, ∀ k ∈ ks, g0.tileOrigin j = g0.tileOrigin k → j = k)
    (hks : ∀ k ∈ ks, ∃ o p, g0.tile? k = some o ∧ g0.tileOrigin k = some p ∧
      (o = none → ∃ t0 : τ, TileLike.build g0.tileSize g0.subtileSize g0.isBackscatter p.1 p.2 = .ok t0 ∧
        Follow b t0 (tileFolder R0 p) ⟨fl, boolIndex pts (bins.map (fun b => decide (b = k)))⟩ c) ∧
      (∀ t, o = some t → Follow b t (tileFolder R0 p) ⟨fl, boolIndex pts (bins.map (fun b => decide (b = k)))⟩ c))
    (g : Grid τ) (d : Disk (Root φ)) (hsz : g.tileSize = g0.tileSize ∧ g.subtileSize = g0.subtileSize ∧ g.isBackscatter = g0.isBackscatter)
    (hg : ∀ k ∈ ks, g.tile? k = g0.tile? k ∧ g.tileOrigin k = g0.tileOrigin k) (hd : ∀ k ∈ ks, ∀ p, g0.tileOrigin k = some p → tileFolder d.now p = tileFolder R0 p) :
    (Res.forEach ks (g, d) (addToTileD b fl pts bins c)).err = (Res.forEach ks g (addToTile fl pts bins c)).err ∧
    (Res.forEach ks (g, d) (addToTileD b fl pts bins c)).st.1 = (Res.forEach ks g (addToTile fl pts bins c)).st := by
  induction ks generalizing g d with
  | nil => exact ⟨rfl, rfl⟩
  | cons k ks ih =>
    rw [List.nodup_cons] at hnd
    obtain ⟨o, p, ho, hp, h1, h2⟩ := hks k List.mem_cons_self
    have hgk := hg k List.mem_cons_self
    have hdk := hd k List.mem_cons_self p hp
    obtain ⟨e1, e2, ⟨o', e3⟩, e4⟩ := addToTileD_follow (fl := fl) (pts := pts) (bins := bins) (c := c) b (d := d) (hgk.1.trans ho) (hgk.2.trans hp)
      (fun h => by rw [hsz.1, hsz.2.1, hsz.2.2, hdk]; exact h1 h) (fun t h => by rw [hdk]; exact h2 t h)
    rw [Res.forEach_cons, Res.forEach_cons]
    unfold Res.andThen
    rw [e1]
    cases he : (addToTile fl pts bins c g k).err with
    | some e => exact ⟨rfl, e2⟩
    | none =>
      simp only
      rw [show (addToTileD b fl pts bins c (g, d) k).st = ((addToTile fl pts bins c g k).st, (addToTileD b fl pts bins c (g, d) k).st.2) from Prod.ext e2 rfl]
      refine ih hnd.2 (fun i hi j hj => hinj i (List.mem_cons_of_mem _ hi) j (List.mem_cons_of_mem _ hj)) (fun j hj => hks j (List.mem_cons_of_mem _ hj)) _ _ ?_ ?_ ?_
      · rw [e3]
        unfold setTile
        split
        · exact hsz
        · exact hsz
      · intro j hj
        have hjk : j ≠ k := by rintro rfl; exact hnd.1 hj
        rw [e3, tile_setTile_ne _ hjk, setTile_origin]
        exact hg j (List.mem_cons_of_mem _ hj)
      · intro j hj q hq
        have hne : q ≠ p := by
          rintro rfl
          have := hinj j (List.mem_cons_of_mem _ hj) k List.mem_cons_self (hq.trans hp.symm)
          subst this
          exact hnd.1 hj
        rw [e4 q hne]
        exact hd j (List.mem_cons_of_mem _ hj) q hq

variable {size sub : ℚ} {bs : Bool} {fl fl' : Fields} {D : τ → φ → Prop} {G : φ → Prop}

/-- tiles with points of the fields `fl` that are given points of the fields `fl'` -/
structure FollowSpec (C : ChildSpec τ size sub bs fl) (fl' : Fields) (D : τ → φ → Prop) (G : φ → Prop) : Prop where
  first : ∀ (b : Backend) {x y : ℚ} {c : String} {pts : List Pt} {o : Option φ}, pts ≠ [] → (∀ p ∈ pts, InBox x y size p) → (∀ f, o = some f → G f) →
    ∃ t0 : τ, TileLike.build size sub bs x y = .ok t0 ∧ Follow b t0 o ⟨fl', pts⟩ c
  add : ∀ (b : Backend) {x y : ℚ} {t : τ} {A : Store} {c : String} {pts : List Pt} {f : φ}, C.Rep x y t A → c ∉ A.names → pts ≠ [] →
    (∀ p ∈ pts, InBox x y size p) → D t f → Follow b t (some f) ⟨fl', pts⟩ c

/-- `add_points` of a grid whose tiles were put in their places -/
theorem addPointsD_follow {C : ChildSpec τ size sub bs fl} (S : FollowSpec C fl' D G) (b : Backend) (hs : 0 < size) {x0 y0 : ℚ} {nx ny : Nat} {g g2 : Grid τ} {A : Store} {c : String}
    {pts : List Pt} {a : AddArgs} (hmeta : (g.info.update c a).err = none) (hk : c ∉ g.info.container.keys) (hc : c ∉ A.names)
    (hp : Placed C x0 y0 nx ny { g with info := (g.info.update c a).st } g2 A pts) (d : Disk (Root φ)) (hd : TSync D G g d.now) :
    (addPointsD b ⟨fl', pts⟩ c a (g, d)).err = (addPoints g ⟨fl', pts⟩ c a).err ∧ (addPointsD b ⟨fl', pts⟩ c a (g, d)).st.1 = (addPoints g ⟨fl', pts⟩ c a).st := by
  obtain ⟨ga, s1, s2⟩ := hp.step
  obtain ⟨T, h⟩ := hp.ready
  have hin := hp.inr
  obtain ⟨-, -, hlen, hslots⟩ := h.rep
  have hd2 : TSync D G g2 (saveGrid b g2 d).now :=
    (hd.congr (fun t p => (hp.has t p).trans (has_congr rfl rfl rfl t p)) (fun _ => rfl)).congr (fun _ _ => Iff.rfl) (saveGrid_folder b g2 d)
  have hbin := bin2d_rect hs pts hin
  rw [← h.edgesX, ← h.edgesY] at hbin
  have hlt : ∀ k ∈ npUnique (pts.map (cellOf x0 y0 size nx)), k < ny * nx := by
    intro k hk
    rw [mem_npUnique, List.mem_map] at hk
    obtain ⟨p, hp, rfl⟩ := hk
    exact cellOf_rect_lt hs (hin p hp)
  have hsel : ∀ k ∈ npUnique (pts.map (cellOf x0 y0 size nx)),
      boolIndex pts ((pts.map (cellOf x0 y0 size nx)).map (fun b => decide (b = k))) ≠ [] := by
    intro k hk he
    have hk' := hlt k hk
    rw [mem_npUnique, List.mem_map] at hk
    obtain ⟨p, hp, hpk⟩ := hk
    rw [select_rect hs pts hin hk', List.filter_eq_nil_iff] at he
    have := he p hp
    simp only [decide_eq_true_eq] at this
    exact this ((cellOf_rect_iff hs (hin p hp) hk').1 hpk)
  have hbox : ∀ k ∈ npUnique (pts.map (cellOf x0 y0 size nx)), ∀ p ∈ boolIndex pts ((pts.map (cellOf x0 y0 size nx)).map (fun b => decide (b = k))),
      InBox (slotX x0 size nx k) (slotY y0 size nx k) size p := by
    intro k hk p hp
    rw [select_rect hs pts hin (hlt k hk)] at hp
    simpa using (List.mem_filter.1 hp).2
  have hloop := addLoopD_follow (fl := fl') (pts := pts) (bins := pts.map (cellOf x0 y0 size nx)) (c := c) b g2 (saveGrid b g2 d).now (npUnique (pts.map (cellOf x0 y0 size nx)))
    (npUnique_nodup _) (by
      intro j hj k hk he
      rw [tileOrigin_eq h.txs h.tys (hlt k hk)] at he
      exact origin_inj hs h.txs h.tys (hlt j hj) (hlt k hk) he (tileOrigin_eq h.txs h.tys (hlt k hk))) (by
      intro k hk
      have hkl : k < T.flat.length := by rw [hlen]; exact hlt k hk
      have htile : g2.tile? k = some T.flat[k] := by unfold tile?; rw [h.tiles]; exact List.getElem?_eq_getElem hkl
      have horg := tileOrigin_eq h.txs h.tys (hlt k hk)
      have hslot := hslots k _ (List.getElem?_eq_getElem hkl)
      refine ⟨T.flat[k], _, htile, horg, fun ho => ?_, fun t ho => ?_⟩
      · rw [h.tileSize, h.subtileSize, h.backscatter]
        refine S.first b (hsel k hk) (hbox k hk) (fun f hf => hd2.rest _ f hf (fun t ⟨j, hj, hjp⟩ => ?_))
        rw [origin_inj hs h.txs h.tys (slot_lt h.tiles hlen hj) (hlt k hk) hjp horg, htile, ho] at hj
        cases hj
      · rw [ho] at htile hslot
        obtain ⟨f, hf1, hf2⟩ := hd2.has t _ ⟨k, htile, horg⟩
        rw [hf1]
        rcases hslot with ⟨e, -⟩ | ⟨t', e, -, hrep⟩
        · cases e
        · cases e
          exact S.add b hrep (fun h => hc ((Store.names_within A _ _ _).subset h)) (hsel k hk) (hbox k hk) hf2)
    g2 (saveGrid b g2 d) ⟨rfl, rfl, rfl⟩ (fun _ _ => ⟨rfl, rfl⟩) (fun _ _ _ _ => rfl)
  unfold addPointsD addPoints
  simp only
  rw [(Dict.has_false_iff _ _).2 hk]
  simp only [Bool.false_eq_true, if_false, hmeta]
  rw [s1]
  have e1 : inMemory (Res.ok ga) d = .ok (ga, d) := rfl
  have e2 : inMemory (Res.ok g2) d = .ok (g2, d) := rfl
  rw [e1, Res.andThen_ok, Res.andThen_ok]
  simp only
  rw [s2, e2, Res.andThen_ok, Res.andThen_ok]
  unfold addToTilesD addToTiles
  simp only
  rw [hbin]
  simp only
  unfold Res.andThen
  rw [hloop.1]
  cases (Res.forEach (npUnique (pts.map (cellOf x0 y0 size nx))) g2 (addToTile fl' pts (pts.map (cellOf x0 y0 size nx)) c)).err with
  | some e => exact ⟨rfl, hloop.2⟩
  | none =>
    simp only [Res.ok_err, Res.ok_st]
    rw [hloop.2]
    exact ⟨trivial, rfl⟩

/-- `add_points` of a growing grid, with whatever data -/
theorem disk_add_follow {C : ChildSpec τ size sub bs fl} (S : FollowSpec C fl' D G) (hs : 0 < size) (b : Backend) {g : Grid τ} {A : Store} (hi : GrowInv C g A) {d : Disk (Root φ)}
    (hd : TSync D G g d.now) (pts : List Pt) (c : String) (a : AddArgs) :
    (addPointsD b ⟨fl', pts⟩ c a (g, d)).err = (addPoints g ⟨fl', pts⟩ c a).err ∧ (addPointsD b ⟨fl', pts⟩ c a (g, d)).st.1 = (addPoints g ⟨fl', pts⟩ c a).st := by
  by_cases hc : c ∈ g.info.container.keys
  · have : g.info.container.has c = true := by rw [Dict.has_iff]; exact hc
    unfold addPointsD addPoints
    simp only [this, if_true]
    exact ⟨rfl, rfl⟩
  · cases hm : (g.info.update c a).err with
    | some e =>
      unfold addPointsD addPoints
      simp only
      rw [(Dict.has_false_iff _ _).2 hc]
      simp only [Bool.false_eq_true, if_false, hm]
      exact ⟨rfl, rfl⟩
    | none =>
      by_cases hp : pts = []
      · subst hp
        have hub : ∃ e, updateBase { g with info := (g.info.update c a).st } [] = .fail { g with info := (g.info.update c a).st } e := by
          unfold updateBase
          simp only [hi.canGrow, List.map_nil, listMin, listMax, reduce1, if_true]
          split
          · exact ⟨_, rfl⟩
          · rcases Option.eq_none_or_eq_some g.extents with he | ⟨e, he⟩
            · rw [he]; exact ⟨_, rfl⟩
            · rw [he]; exact ⟨_, rfl⟩
        obtain ⟨e, hub⟩ := hub
        unfold addPointsD addPoints
        simp only
        rw [(Dict.has_false_iff _ _).2 hc]
        simp only [Bool.false_eq_true, if_false, hm]
        rw [hub]
        exact ⟨rfl, rfl⟩
      · obtain ⟨u, hu, -, -, -, -, i, j, nx, ny, T, -, -, -, g2, hpl, hg2⟩ := addPoints_placed C hs hi (by rw [hi.cont] at hc; exact hc) hp hm
        exact addPointsD_follow S b hs hm hc (by rw [hi.cont] at hc; exact hc) hpl d hd

end Grid

/-- tiles: with other fields the points of an existing tile are refused -/
theorem tileFollow (env : Env) (F : Family) (size sub : ℚ) (bs : Bool) (fl fl' : Fields) (hs : 0 < size) :
    Grid.FollowSpec (tileSpec env F size sub bs fl hs) fl' Tile.Holds (fun _ : TileFolder => False) where
  first := by
    intro b x y c pts o hp hbox ho
    obtain ⟨t0, u, q, h1, h2, h3, h4, q', f, h5, -, -⟩ := (tileDisk env size sub bs fl' hs).first b F (c := c) (o := o) hp hbox ho
    have hne := (tileSpec env F size sub bs fl' hs).nonempty h3
    refine ⟨t0, h1, ?_, ?_, fun _ => ?_⟩
    · rw [h4, h2]; rfl
    · rw [h4, h2]; rfl
    · rw [h4, h2]
      simp only [Res.ok_st, hne, Bool.false_eq_true, if_false]
      exact ⟨_, h5⟩
  add := by
    intro b x y t A c pts f h hc hp hbox hf
    by_cases hfl : fl' = fl
    · subst hfl
      obtain ⟨u, q, h2, h3, h4, q', f', h5, -, -⟩ := (tileDisk env size sub bs fl' hs).add b F h hc hp hbox hf
      have hne := (tileSpec env F size sub bs fl' hs).nonempty h3
      refine ⟨?_, ?_, fun _ => ?_⟩
      · rw [h4, h2]; rfl
      · rw [h4, h2]; rfl
      · rw [h4, h2]
        simp only [Res.ok_st, hne, Bool.false_eq_true, if_false]
        exact ⟨_, h5⟩
    · refine ⟨rfl, rfl, fun he => ?_⟩
      exfalso
      have hh : t.container.has c = false := by
        rw [← Bool.not_eq_true, Dict.has_iff]
        intro hk
        rw [(history_frame hs h.1).2.1.container, slicesFrom_keys] at hk
        exact hc hk
      have hdat := history_data hs h.1
      have he : (t.addPoints ⟨fl', pts⟩ c).err = none := he
      unfold Tile.addPoints at he
      rw [hdat] at he
      simp only [hh, Bool.false_eq_true, if_false, Res.andThen_ok, hdat] at he
      rw [if_neg (fun e => hfl e.symm)] at he
      cases he

namespace Grid
variable {τ φ : Type} [DiskLike τ φ] {size sub : ℚ} {bs : Bool} {fl fl' : Fields} {D : τ → φ → Prop}

/-- subgrids -/
theorem subFollow {C : ChildSpec τ sub 0 false fl} (S : FollowSpec C fl' D (fun _ : φ => False)) (hs : 0 < size) (hpow : isPowerOfTwo sub = true) :
    FollowSpec (size := size) (bs := bs) (subSpec C hs hpow) fl' (fun g F => Synced D (fun _ => False) false g (some F)) (Leftover size) where
  first := by
    intro b x y c pts o hp hbox ho
    obtain ⟨g0, u, h1, h2, h3, g2, h4, h5⟩ := addPoints_newSubPlaced C hs hpow (c := c) hp hbox
    have hg0 : g0 = blank "" false x y sub 0 false (some ⟨x, x + size, y, y + size⟩) := by
      unfold newSub at h1
      rw [hpow, if_pos rfl] at h1
      cases h1; rfl
    obtain ⟨e1, e2⟩ := addPointsD_follow S b (isPowerOfTwo_pos hpow) (update_sub g0.info c (by rw [hg0]; rfl)).1 (by rw [hg0]; simp [blank, Dict.keys]) (by simp [Store.names]) h4
      ⟨o, []⟩ ⟨fun t p h => absurd h (isEmpty_has (by rw [hg0]; rfl) t p), fun p f hf _ => by
        cases o with
        | none => cases hf
        | some f0 =>
          have := (ho f0 rfl).tiles p
          have hf : f0.tiles.get? p = some f := hf
          rw [this] at hf; cases hf⟩
    exact ⟨g0, h1, e1, e2, fun _ => ⟨_, rfl⟩⟩
  add := by
    intro b x y g A c pts f h hc hp hbox hf
    obtain ⟨u, h2, h3, g2, h4, h5⟩ := addPoints_subPlaced C hs (isPowerOfTwo_pos hpow) h hc hp hbox
    obtain ⟨f', e0, -, hsync⟩ := hf
    obtain ⟨e1, e2⟩ := addPointsD_follow S b (isPowerOfTwo_pos hpow) (update_sub g.info c h.vref).1 (by rw [SubInv.cont h]; exact hc) hc h4 ⟨some f, []⟩ hsync
    exact ⟨e1, e2, fun _ => ⟨_, rfl⟩⟩

/-! ### removing -/

variable [Queried τ] {G : φ → Prop}

/-- a round of the loop of `remove_points` that fails -/
theorem removeFromTileD_fail {env : Env} {C : Family → ChildSpec τ size sub bs fl} (S : DiskSpec env C D G) (b : Backend) (F : Family) {g : Grid τ} {x y : ℚ} {k : Nat} {o : Option τ}
    (ho : g.tile? k = some o) (horg : g.tileOrigin k = some (x, y)) {B : Store} (hs : Slot (C F) x y o B) (c : String)
    {e : Err} (herr : (removeFromTile c g k).err = some e) {d : Disk (Root φ)} (hd : TSync D G g d.now) :
    (removeFromTileD b c (g, d) k).err = some e ∧ (removeFromTileD b c (g, d) k).st.1 = (removeFromTile c g k).st := by
  rcases hs with ⟨rfl, rfl⟩ | ⟨t, rfl, hB, hrep⟩
  · unfold removeFromTile at herr
    rw [ho] at herr
    cases herr
  · obtain ⟨f, hf1, hf2⟩ := hd.has t _ ⟨k, ho, horg⟩
    obtain ⟨u, q, hu, hq, -, -⟩ := S.remove b F (c := c) hrep hf2
    have hfoc : focus d (x, y) = ⟨some f, []⟩ := by unfold focus; rw [hf1]
    unfold removeFromTile at herr ⊢
    unfold removeFromTileD
    simp only [ho, horg, hfoc, hu, hq, Res.ok_err, Res.ok_st] at herr ⊢
    cases he : TileLike.isEmpty u with
    | false => rw [he] at herr; cases herr
    | true =>
      simp only [he, if_true] at herr ⊢
      unfold inMemory Res.andThen
      simp only [herr]
      exact ⟨trivial, trivial⟩

/-- the loop of `remove_points` -/
theorem removeLoopD_follow {env : Env} {C : Family → ChildSpec τ size sub bs fl} (S : DiskSpec env C D G) (b : Backend) (F : Family) (hpos : 0 < size) {minX minY : ℚ} {nx ny : Nat} {B : Nat → Store} (c : String)
    (ks : List Nat) (hnd : ks.Nodup) (g : Grid τ) (hx : g.txs = originsOf minX size nx) (hy : g.tys = originsOf minY size ny) (hl : ∀ j o, g.tile? j = some o → j < ny * nx)
    (hks : ∀ k ∈ ks, ∃ o, g.tile? k = some o ∧ Slot (C F) (slotX minX size nx k) (slotY minY size nx k) o (B k)) (d : Disk (Root φ)) (hd : TSync D G g d.now) :
    (Res.forEach ks (g, d) (removeFromTileD b c)).err = (Res.forEach ks g (removeFromTile c)).err ∧
    (Res.forEach ks (g, d) (removeFromTileD b c)).st.1 = (Res.forEach ks g (removeFromTile c)).st := by
  induction ks generalizing g d with
  | nil => exact ⟨rfl, rfl⟩
  | cons k ks ih =>
    rw [List.nodup_cons] at hnd
    obtain ⟨o, ho, hs⟩ := hks k List.mem_cons_self
    rw [Res.forEach_cons, Res.forEach_cons]
    cases he : (removeFromTile c g k).err with
    | some e =>
      obtain ⟨h1, h2⟩ := removeFromTileD_fail S b F ho (tileOrigin_eq hx hy (hl k o ho)) hs c he hd
      unfold Res.andThen
      simp only [h1, he]
      exact ⟨trivial, h2⟩
    | none =>
      obtain ⟨u1, d1, h1, h2, h3, h4, h5, h6, h7⟩ := removeFromTileD_spec S b F hpos hx hy hl ho hs c he hd
      have hl1 : ∀ j o, u1.tile? j = some o → j < ny * nx := by
        intro j o hj
        by_cases hjk : j = k
        · rw [hjk]; exact hl k _ ho
        · rw [h7 j hjk] at hj; exact hl j o hj
      rw [h1, h2, Res.andThen_ok, Res.andThen_ok]
      exact ih hnd.2 u1 (h5.trans hx) (h6.trans hy) hl1 (by
        intro j hj
        rw [h7 j (fun e => hnd.1 (e ▸ hj))]
        exact hks j (List.mem_cons_of_mem _ hj)) d1 h3

/-- `remove_points` of a growing grid, of whatever container -/
theorem disk_remove_follow {env : Env} {C : Family → ChildSpec τ size sub bs fl} (S : DiskSpec env C D G) (hs : 0 < size) (b : Backend) {F : Family} {g : Grid τ} {A : Store} (hi : GrowInv (C F) g A)
    {d : Disk (Root φ)} (hd : TSync D G g d.now) (c : String) :
    (removePointsD b c (g, d)).err = (removePoints g c).err ∧ (removePointsD b c (g, d)).st.1 = (removePoints g c).st := by
  unfold removePointsD removePoints
  simp only
  cases hh : g.info.container.has c with
  | false => exact ⟨rfl, rfl⟩
  | true =>
    simp only [if_true]
    generalize hg1 : ({ g with info := { g.info with container := g.info.container.pop c } } : Grid τ) = g1
    have key : (if g1.isEmpty then Res.ok (g1, d) else Res.forEach (List.range g1.slots) (g1, d) (removeFromTileD b c)).err =
        (if g1.isEmpty then Res.ok g1 else Res.forEach (List.range g1.slots) g1 (removeFromTile c)).err ∧
        (if g1.isEmpty then Res.ok (g1, d) else Res.forEach (List.range g1.slots) (g1, d) (removeFromTileD b c)).st.1 =
        (if g1.isEmpty then Res.ok g1 else Res.forEach (List.range g1.slots) g1 (removeFromTile c)).st := by
      cases he : g1.isEmpty with
      | true => exact ⟨rfl, rfl⟩
      | false =>
        simp only [Bool.false_eq_true, if_false]
        rcases hi.body with ⟨-, e, -⟩ | ⟨-, i, j, nx, ny, T, hf, -⟩
        · rw [← hg1] at he
          unfold isEmpty at he
          simp only [e] at he
          cases he
        · obtain ⟨-, -, hlen, hslots⟩ := hf.rep
          have hT : g1.tiles = some T := by rw [← hg1]; exact hf.tiles
          have hx : g1.txs = originsOf ((i : ℚ) * size) size nx := by rw [← hg1]; exact hf.txs
          have hy : g1.tys = originsOf ((j : ℚ) * size) size ny := by rw [← hg1]; exact hf.tys
          refine removeLoopD_follow S b F hs (B := fun k => A.within (slotX ((i : ℚ) * size) size nx k) (slotY ((j : ℚ) * size) size nx k) size) c _ List.nodup_range g1 hx hy
            (fun j o hj => slot_lt hT hlen hj) ?_ d ?_
          · intro k hk
            have hkl : k < T.flat.length := by
              unfold slots at hk; rw [hT] at hk; simpa using hk
            refine ⟨T.flat[k], by unfold tile?; rw [hT]; exact List.getElem?_eq_getElem hkl, hslots k _ (List.getElem?_eq_getElem hkl)⟩
          · rw [← hg1]; exact hd.congr (fun t p => has_congr rfl rfl rfl t p) (fun _ => rfl)
    generalize (if g1.isEmpty then Res.ok (g1, d) else Res.forEach (List.range g1.slots) (g1, d) (removeFromTileD b c)) = rD at key
    generalize (if g1.isEmpty then Res.ok g1 else Res.forEach (List.range g1.slots) g1 (removeFromTile c)) = r at key
    unfold Res.andThen
    rw [key.1]
    cases r.err with
    | some e => exact ⟨rfl, key.2⟩
    | none =>
      simp only [Res.ok_err, Res.ok_st]
      rw [key.2]
      exact ⟨trivial, rfl⟩

end Grid
end Bathy
