import Verif.Model.Grid
import Verif.Lemmas.Within

/-!
# The array of tiles: adding and removing points
-/

namespace Bathy

/-- What the proofs about a grid need to know about its tiles: `Rep x y t A` says that the tile `t` at (x, y) holds the soundings `A`. -/
structure ChildSpec (τ : Type) [TileLike τ] (size sub : ℚ) (bs : Bool) (fl : Fields) where
  Rep : ℚ → ℚ → τ → Store → Prop
  first : ∀ {x y : ℚ} {c : String} {pts : List Pt}, pts ≠ [] → (∀ p ∈ pts, InBox x y size p) →
    ∃ t0 u, TileLike.build size sub bs x y = .ok t0 ∧ TileLike.addPoints t0 ⟨fl, pts⟩ c = .ok u ∧ Rep x y u [(c, pts)]
  add : ∀ {x y : ℚ} {t : τ} {A : Store} {c : String} {pts : List Pt}, Rep x y t A → c ∉ A.names → pts ≠ [] → (∀ p ∈ pts, InBox x y size p) →
    ∃ u, TileLike.addPoints t ⟨fl, pts⟩ c = .ok u ∧ Rep x y u (A ++ [(c, pts)])
  remove : ∀ {x y : ℚ} {t : τ} {A : Store} {c : String}, Rep x y t A →
    ∃ u, TileLike.removePoints t c = .ok u ∧ (c ∉ A.names → u = t) ∧ ((A.remove c = [] ∧ TileLike.isEmpty u = true) ∨ (A.remove c ≠ [] ∧ Rep x y u (A.remove c)))
  nonempty : ∀ {x y : ℚ} {t : τ} {A : Store}, Rep x y t A → TileLike.isEmpty t = false
  count : ∀ {x y : ℚ} {t : τ} {A : Store}, Rep x y t A → TileLike.pointsCount t = A.allPts.length

namespace Grid
variable {τ : Type} [TileLike τ] {size sub : ℚ} {bs : Bool} {fl : Fields}

/-- a slot of the tile array holds the soundings `B` -/
def Slot (C : ChildSpec τ size sub bs fl) (x y : ℚ) (o : Option τ) (B : Store) : Prop :=
  (o = none ∧ B = []) ∨ (∃ t, o = some t ∧ B ≠ [] ∧ C.Rep x y t B)

/-- the tile array holds the soundings `A`, each slot those in its square -/
def TilesRep (C : ChildSpec τ size sub bs fl) (minX minY : ℚ) (nx ny : Nat) (T : Arr2 (Option τ)) (A : Store) : Prop :=
  T.rows = ny ∧ T.cols = nx ∧ T.flat.length = ny * nx ∧
    ∀ k o, T.flat[k]? = some o → Slot C (slotX minX size nx k) (slotY minY size nx k) o (A.within (slotX minX size nx k) (slotY minY size nx k) size)

/-- the tile origins and edges of `n` tiles starting at `lo` -/
def originsOf (lo size : ℚ) (n : Nat) : List ℚ := (List.range n).map (fun i : Nat => lo + (i : ℚ) * size)

omit [TileLike τ] in
theorem tileOrigin_eq {g : Grid τ} {minX minY : ℚ} {nx ny : Nat} (hx : g.txs = originsOf minX size nx) (hy : g.tys = originsOf minY size ny)
    {k : Nat} (hk : k < ny * nx) : g.tileOrigin k = some (slotX minX size nx k, slotY minY size nx k) := by
  have h1 : k % nx < nx := Arr2.mod_lt_cols hk
  have h2 : k / nx < ny := Arr2.div_lt_rows hk
  unfold tileOrigin
  rw [hx, hy]
  have hl : (originsOf minX size nx).length = nx := by simp [originsOf]
  rw [hl]
  unfold originsOf
  rw [List.getElem?_map, List.getElem?_range h1, List.getElem?_map, List.getElem?_range h2]
  rfl

/-- one round of the loop of `_add_points_to_tiles` -/
theorem addToTile_spec (C : ChildSpec τ size sub bs fl) {g : Grid τ} {minX minY : ℚ} {nx ny : Nat}
    (hsz : g.tileSize = size) (hsub : g.subtileSize = sub) (hbs : g.isBackscatter = bs)
    (hx : g.txs = originsOf minX size nx) (hy : g.tys = originsOf minY size ny) {T : Arr2 (Option τ)} (hT : g.tiles = some T)
    {k : Nat} (hk : k < ny * nx) {o : Option τ} (ho : T.flat[k]? = some o) {B : Store}
    (hs : Slot C (slotX minX size nx k) (slotY minY size nx k) o B) {pts : List Pt} {bins : List Nat} {c : String} (hc : c ∉ B.names)
    (hsel : boolIndex pts (bins.map (fun b => decide (b = k))) ≠ [])
    (hbox : ∀ p ∈ boolIndex pts (bins.map (fun b => decide (b = k))), InBox (slotX minX size nx k) (slotY minY size nx k) size p) :
    ∃ u, addToTile fl pts bins c g k = .ok { g with tiles := some (T.setFlat k (some u)) } ∧
      C.Rep (slotX minX size nx k) (slotY minY size nx k) u (B ++ [(c, boolIndex pts (bins.map (fun b => decide (b = k))))]) := by
  generalize hsl : boolIndex pts (bins.map (fun b => decide (b = k))) = sel at *
  have htile : g.tile? k = some o := by unfold tile?; rw [hT]; exact ho
  rcases hs with ⟨rfl, rfl⟩ | ⟨t, rfl, hB, hrep⟩
  · obtain ⟨t0, u, hb, ha, hu⟩ := C.first (c := c) hsel hbox
    refine ⟨u, ?_, hu⟩
    unfold addToTile
    simp only [hsl, htile, tileOrigin_eq hx hy hk, hsz, hsub, hbs, hb, ha, Res.ok_err, Res.ok_st, C.nonempty hu, setTile, hT]
    rfl
  · obtain ⟨u, ha, hu⟩ := C.add hrep hc hsel hbox
    refine ⟨u, ?_, hu⟩
    unfold addToTile
    simp only [hsl, htile, ha, Res.ok_err, Res.ok_st, C.nonempty hu, setTile, hT]
    rfl

/-- the loop of `_add_points_to_tiles` over any list of different tiles, each of which gets some points -/
theorem addLoop_spec (C : ChildSpec τ size sub bs fl) {g : Grid τ} {minX minY : ℚ} {nx ny : Nat}
    (hsz : g.tileSize = size) (hsub : g.subtileSize = sub) (hbs : g.isBackscatter = bs)
    (hx : g.txs = originsOf minX size nx) (hy : g.tys = originsOf minY size ny) {A : Store} {pts : List Pt} {bins : List Nat} {c : String}
    (hc : c ∉ A.names) (ks : List Nat) (hnd : ks.Nodup) (hlt : ∀ k ∈ ks, k < ny * nx)
    (hsel : ∀ k ∈ ks, boolIndex pts (bins.map (fun b => decide (b = k))) ≠ [])
    (hbox : ∀ k ∈ ks, ∀ p ∈ boolIndex pts (bins.map (fun b => decide (b = k))), InBox (slotX minX size nx k) (slotY minY size nx k) size p)
    (T : Arr2 (Option τ)) (hlen : T.flat.length = ny * nx)
    (hT : ∀ k ∈ ks, ∀ o, T.flat[k]? = some o →
      Slot C (slotX minX size nx k) (slotY minY size nx k) o (A.within (slotX minX size nx k) (slotY minY size nx k) size)) :
    ∃ T' : Arr2 (Option τ), Res.forEach ks { g with tiles := some T } (addToTile fl pts bins c) = .ok { g with tiles := some T' } ∧
      T'.rows = T.rows ∧ T'.cols = T.cols ∧ T'.flat.length = ny * nx ∧ (∀ k : Nat, k ∉ ks → T'.flat[k]? = T.flat[k]?) ∧
      ∀ k ∈ ks, ∃ u, T'.flat[k]? = some (some u) ∧ C.Rep (slotX minX size nx k) (slotY minY size nx k) u
        (A.within (slotX minX size nx k) (slotY minY size nx k) size ++ [(c, boolIndex pts (bins.map (fun b => decide (b = k))))]) := by
  induction ks generalizing T with
  | nil => exact ⟨T, rfl, rfl, rfl, hlen, fun _ _ => rfl, by simp⟩
  | cons k ks ih =>
    rw [List.nodup_cons] at hnd
    have hk := hlt k List.mem_cons_self
    have hkl : k < T.flat.length := by rw [hlen]; exact hk
    obtain ⟨u, hu, hrep⟩ := addToTile_spec C (g := { g with tiles := some T }) hsz hsub hbs hx hy rfl hk (List.getElem?_eq_getElem hkl)
      (hT k List.mem_cons_self _ (List.getElem?_eq_getElem hkl)) (fun h => hc ((Store.names_within A _ _ _).subset h)) (hsel k List.mem_cons_self)
      (hbox k List.mem_cons_self)
    obtain ⟨T', h1, h2, h3, h4, h5, h6⟩ := ih hnd.2 (fun j hj => hlt j (List.mem_cons_of_mem _ hj)) (fun j hj => hsel j (List.mem_cons_of_mem _ hj))
      (fun j hj => hbox j (List.mem_cons_of_mem _ hj)) (T.setFlat k (some u)) (by simpa [Arr2.setFlat] using hlen)
      (by
        intro j hj o ho
        have hjk : k ≠ j := fun e => hnd.1 (e ▸ hj)
        simp only [Arr2.setFlat, List.getElem?_set_ne hjk] at ho
        exact hT j (List.mem_cons_of_mem _ hj) o ho)
    refine ⟨T', ?_, h2, h3, h4, ?_, ?_⟩
    · rw [Res.forEach_cons, hu]; exact h1
    · intro j hj
      rw [List.mem_cons, not_or] at hj
      rw [h5 j hj.2]
      simp only [Arr2.setFlat, List.getElem?_set_ne (Ne.symm hj.1)]
    · intro j hj
      rcases List.mem_cons.1 hj with rfl | hj
      · refine ⟨u, ?_, hrep⟩
        rw [h5 j hnd.1]
        simp only [Arr2.setFlat]
        rw [List.getElem?_set_self hkl]
      · exact h6 j hj

/-- `_add_points_to_tiles` on a tile array that holds `A` -/
theorem addToTiles_spec (C : ChildSpec τ size sub bs fl) (hpos : 0 < size) {g : Grid τ} {minX minY : ℚ} {nx ny : Nat}
    (hsz : g.tileSize = size) (hsub : g.subtileSize = sub) (hbs : g.isBackscatter = bs)
    (hx : g.txs = originsOf minX size nx) (hy : g.tys = originsOf minY size ny)
    (hex : g.edgesX = edgesOf minX size nx) (hey : g.edgesY = edgesOf minY size ny) {A : Store} {T : Arr2 (Option τ)} (hT : g.tiles = some T)
    (hrep : TilesRep C minX minY nx ny T A) {pts : List Pt} {c : String} (hc : c ∉ A.names)
    (hbox : ∀ p ∈ pts, InRect minX minY size nx ny p) :
    ∃ T', addToTiles g ⟨fl, pts⟩ c = .ok { g with tiles := some T', numberOfTiles := some ((T'.flat.countP Option.isSome : Nat) : Int) } ∧
      TilesRep C minX minY nx ny T' (A ++ [(c, pts)]) ∧
      (∀ k : Nat, k < ny * nx → (∀ p ∈ pts, ¬ InBox (slotX minX size nx k) (slotY minY size nx k) size p) → T'.flat[k]? = T.flat[k]?) := by
  obtain ⟨hr1, hr2, hlen, hslots⟩ := hrep
  have hbin := bin2d_rect hpos pts hbox
  rw [← hex, ← hey] at hbin
  have hlt : ∀ k ∈ npUnique (pts.map (cellOf minX minY size nx)), k < ny * nx := by
    intro k hk
    rw [mem_npUnique, List.mem_map] at hk
    obtain ⟨p, hp, rfl⟩ := hk
    exact cellOf_rect_lt hpos (hbox p hp)
  have hsel : ∀ k ∈ npUnique (pts.map (cellOf minX minY size nx)),
      boolIndex pts ((pts.map (cellOf minX minY size nx)).map (fun b => decide (b = k))) ≠ [] := by
    intro k hk he
    have hk' := hlt k hk
    rw [mem_npUnique, List.mem_map] at hk
    obtain ⟨p, hp, hpk⟩ := hk
    rw [select_rect hpos pts hbox hk', List.filter_eq_nil_iff] at he
    have := he p hp
    simp only [decide_eq_true_eq] at this
    exact this ((cellOf_rect_iff hpos (hbox p hp) hk').1 hpk)
  have hg : ({ g with tiles := some T } : Grid τ) = g := by rw [← hT]
  obtain ⟨T', h1, h2, h3, h4, h5, h6⟩ := addLoop_spec C hsz hsub hbs hx hy hc (npUnique (pts.map (cellOf minX minY size nx))) (npUnique_nodup _)
    hlt hsel (by
      intro k hk p hp
      rw [select_rect hpos pts hbox (hlt k hk)] at hp
      simpa using (List.mem_filter.1 hp).2) T hlen (fun k _ o ho => hslots k o ho)
  rw [hg] at h1
  refine ⟨T', ?_, ⟨by rw [h2, hr1], by rw [h3, hr2], h4, ?_⟩, ?_⟩
  · unfold addToTiles
    rw [hbin]
    simp only
    rw [h1]
    rfl
  · intro k o ho
    have hkl : k < ny * nx := by rw [← h4]; exact (List.getElem?_eq_some_iff.1 ho).1
    rw [Store.within_append]
    by_cases hk : k ∈ npUnique (pts.map (cellOf minX minY size nx))
    · obtain ⟨u, hu1, hu2⟩ := h6 k hk
      rw [hu1] at ho
      cases ho
      right
      have hs := hsel k hk
      rw [select_rect hpos pts hbox hkl] at hu2 hs
      rw [Store.within_single c pts _ _ _ hs]
      exact ⟨u, rfl, by simp, hu2⟩
    · rw [h5 k hk] at ho
      have : pts.filter (fun p => decide (InBox (slotX minX size nx k) (slotY minY size nx k) size p)) = [] := by
        rw [List.filter_eq_nil_iff]
        intro p hp
        simp only [decide_eq_true_eq]
        intro hb
        apply hk
        rw [mem_npUnique, List.mem_map]
        exact ⟨p, hp, (cellOf_rect_iff hpos (hbox p hp) hkl).2 hb⟩
      rw [Store.within_single_nil _ _ _ _ _ this, List.append_nil]
      exact hslots k o ho
  · intro k hk hno
    apply h5
    intro hmem
    rw [mem_npUnique, List.mem_map] at hmem
    obtain ⟨p, hp, hpk⟩ := hmem
    exact hno p hp ((cellOf_rect_iff hpos (hbox p hp) hk).1 hpk)

/-! ### removing -/

/-- the mask can be indexed by every tile (or is not used) -/
def MaskOk (g : Grid τ) (n : Nat) : Prop := ∀ m, g.mask = some m → m.flat.any id = true → n ≤ m.flat.length

omit [TileLike τ] in
theorem countP_set_none {l : List (Option τ)} {k : Nat} {t : τ} (h : l[k]? = some (some t)) :
    (l.set k none).countP Option.isSome + 1 = l.countP Option.isSome := by
  obtain ⟨hk, hv⟩ := List.getElem?_eq_some_iff.1 h
  have := List.countP_set (p := Option.isSome) (a := none) hk
  rw [hv] at this
  simp only [Option.isSome_some, if_true, Option.isSome_none, Bool.false_eq_true, if_false] at this
  have hpos : 0 < l.countP Option.isSome := List.countP_pos_iff.2 ⟨some t, List.mem_of_getElem? h, rfl⟩
  omega

omit [TileLike τ] in
theorem countP_set_some {l : List (Option τ)} {k : Nat} {t u : τ} (h : l[k]? = some (some t)) :
    (l.set k (some u)).countP Option.isSome = l.countP Option.isSome := by
  obtain ⟨hk, hv⟩ := List.getElem?_eq_some_iff.1 h
  have := List.countP_set (p := Option.isSome) (a := some u) hk
  rw [hv] at this
  simp only [Option.isSome_some, if_true] at this
  have hpos : 0 < l.countP Option.isSome := List.countP_pos_iff.2 ⟨some t, List.mem_of_getElem? h, rfl⟩
  omega

/-- one round of the loop of `remove_points` -/
theorem removeFromTile_spec (C : ChildSpec τ size sub bs fl) {g : Grid τ} {x y : ℚ} {T : Arr2 (Option τ)} (hT : g.tiles = some T)
    {k : Nat} {o : Option τ} (ho : T.flat[k]? = some o) {B : Store} (hs : Slot C x y o B)
    (c : String) (hm : MaskOk g T.flat.length ∨ (removeFromTile c g k).err = none)
    (hn : g.numberOfTiles = some ((T.flat.countP Option.isSome : Nat) : Int)) :
    ∃ o' m', removeFromTile c g k = .ok { g with tiles := some (T.setFlat k o'), mask := m', numberOfTiles := some (((T.setFlat k o').flat.countP Option.isSome : Nat) : Int) } ∧ Slot C x y o' (B.remove c) ∧
      (MaskOk g T.flat.length → MaskOk { g with mask := m' } T.flat.length) ∧ m'.map Arr2.dims = g.mask.map Arr2.dims ∧ (c ∉ B.names → o' = o) := by
  have htile : g.tile? k = some o := by unfold tile?; rw [hT]; exact ho
  have hkl : k < T.flat.length := (List.getElem?_eq_some_iff.1 ho).1
  rcases hs with ⟨rfl, rfl⟩ | ⟨t, rfl, hB, hrep⟩
  · refine ⟨none, g.mask, ?_, Or.inl ⟨rfl, rfl⟩, id, rfl, fun _ => rfl⟩
    unfold removeFromTile
    rw [htile]
    simp only
    have : T.setFlat k none = T := by
      unfold Arr2.setFlat
      have : T.flat.set k none = T.flat := by
        apply List.ext_getElem?
        intro j
        by_cases hj : k = j
        · subst hj; rw [List.getElem?_set_self hkl, ho]
        · rw [List.getElem?_set_ne hj]
      rw [this]
    rw [this, ← hT, ← hn]
  · obtain ⟨u, hu, hab, hcase⟩ := C.remove (c := c) hrep
    have hset : (T.setFlat k (some u)).setFlat k none = T.setFlat k none := by simp [Arr2.setFlat]
    rcases hcase with ⟨hnil, he⟩ | ⟨hne, hrep'⟩
    · have htile2 : ({ g with tiles := some (T.setFlat k (some u)) } : Grid τ).tile? k = some (some u) := by
        simp only [tile?, Option.bind_some, Arr2.setFlat]
        rw [List.getElem?_set_self hkl]
      have hcnt : ((T.flat.countP Option.isSome : Nat) : Int) - 1 = (((T.setFlat k none).flat.countP Option.isSome : Nat) : Int) := by
        have := countP_set_none ho
        simp only [Arr2.setFlat]
        omega
      have hgen : ∀ m', (MaskOk g T.flat.length → MaskOk { g with mask := m' } T.flat.length) →
          m'.map Arr2.dims = g.mask.map Arr2.dims →
          removeTile { g with tiles := some (T.setFlat k (some u)) } k =
            .ok { g with tiles := some (T.setFlat k none), mask := m', numberOfTiles := some (((T.setFlat k none).flat.countP Option.isSome : Nat) : Int) } →
          ∃ o' m', removeFromTile c g k = .ok { g with tiles := some (T.setFlat k o'), mask := m', numberOfTiles := some (((T.setFlat k o').flat.countP Option.isSome : Nat) : Int) } ∧
            Slot C x y o' (B.remove c) ∧ (MaskOk g T.flat.length → MaskOk { g with mask := m' } T.flat.length) ∧
            m'.map Arr2.dims = g.mask.map Arr2.dims ∧ (c ∉ B.names → o' = some t) := by
        intro m' hm' hml hrt
        refine ⟨none, m', ?_, Or.inl ⟨rfl, hnil⟩, hm', hml, ?_⟩
        rotate_left
        · intro hcb
          rw [Store.remove_of_not_mem _ _ hcb] at hnil
          exact absurd hnil hB
        unfold removeFromTile
        rw [htile]
        simp only [hu, Res.ok_err, Res.ok_st, he, if_true, setTile, hT]
        exact hrt
      have hrun : removeFromTile c g k = removeTile { g with tiles := some (T.setFlat k (some u)) } k := by
        unfold removeFromTile
        rw [htile]
        simp only [hu, Res.ok_err, Res.ok_st, he, if_true, setTile, hT]
      rcases Option.eq_none_or_eq_some g.mask with hmask | ⟨m, hmask⟩
      · apply hgen none
        · intro _ m h; cases h
        · rw [hmask]
        unfold removeTile
        rw [htile2]
        simp only [hmask, Res.andThen_ok, hn, setTile, hset, hcnt]
      · by_cases hany : m.flat.any id = true
        · have hl : k < m.flat.length := by
            rcases hm with hm | hm
            · exact lt_of_lt_of_le hkl (hm m hmask hany)
            · by_contra hlt
              rw [hrun] at hm
              unfold removeTile at hm
              rw [htile2] at hm
              simp only [hmask, hany, if_true, if_neg hlt, Res.andThen_fail, Res.fail_err, reduceCtorEq] at hm
          apply hgen (some (m.setFlat k false))
          · intro h0 m2 hm2 _
            cases hm2
            simpa [Arr2.setFlat] using h0 m hmask hany
          · rw [hmask]; simp [Arr2.setFlat, Arr2.dims]
          · unfold removeTile
            rw [htile2]
            simp only [hmask, hany, if_true, if_pos hl, Res.andThen_ok, hn, setTile, hset, hcnt]
        · apply hgen (some m)
          · intro _ m2 hm2 h; cases hm2; exact absurd h hany
          · rw [hmask]
          · unfold removeTile
            rw [htile2]
            simp only [hmask, hany, if_false, Res.andThen_ok, hn, setTile, hset, hcnt, Bool.false_eq_true]
    · refine ⟨some u, g.mask, ?_, Or.inr ⟨u, rfl, hne, hrep'⟩, id, rfl, fun h => by rw [hab h]⟩
      unfold removeFromTile
      rw [htile]
      simp only [hu, Res.ok_err, Res.ok_st, C.nonempty hrep', setTile, hT, Bool.false_eq_true, if_false]
      have := countP_set_some (u := u) ho
      simp only [Arr2.setFlat, this, ← hn]

/-- the loop of `remove_points` over any list of different tiles -/
theorem removeLoop_spec (C : ChildSpec τ size sub bs fl) {g : Grid τ} {minX minY : ℚ} {nx ny : Nat} {A : Store} (c : String)
    (ks : List Nat) (hnd : ks.Nodup) (hlt : ∀ k ∈ ks, k < ny * nx) (T : Arr2 (Option τ)) (hlen : T.flat.length = ny * nx) (mk : Option (Arr2 Bool))
    (hm : MaskOk { g with mask := mk } (ny * nx) ∨
      (Res.forEach ks { g with tiles := some T, mask := mk, numberOfTiles := some ((T.flat.countP Option.isSome : Nat) : Int) } (removeFromTile c)).err = none)
    (hT : ∀ k ∈ ks, ∀ o, T.flat[k]? = some o →
      Slot C (slotX minX size nx k) (slotY minY size nx k) o (A.within (slotX minX size nx k) (slotY minY size nx k) size)) :
    ∃ (T' : Arr2 (Option τ)) (m' : Option (Arr2 Bool)),
      Res.forEach ks { g with tiles := some T, mask := mk, numberOfTiles := some ((T.flat.countP Option.isSome : Nat) : Int) } (removeFromTile c) =
        .ok { g with tiles := some T', mask := m', numberOfTiles := some ((T'.flat.countP Option.isSome : Nat) : Int) } ∧
      (MaskOk { g with mask := mk } (ny * nx) → MaskOk { g with mask := m' } (ny * nx)) ∧
      m'.map Arr2.dims = mk.map Arr2.dims ∧
      T'.rows = T.rows ∧ T'.cols = T.cols ∧ T'.flat.length = ny * nx ∧ (∀ k : Nat, k ∉ ks → T'.flat[k]? = T.flat[k]?) ∧
      ∀ k ∈ ks, ∀ o, T'.flat[k]? = some o →
        Slot C (slotX minX size nx k) (slotY minY size nx k) o ((A.within (slotX minX size nx k) (slotY minY size nx k) size).remove c) ∧
        (c ∉ (A.within (slotX minX size nx k) (slotY minY size nx k) size).names → T.flat[k]? = some o) := by
  induction ks generalizing T mk with
  | nil => exact ⟨T, mk, rfl, id, rfl, rfl, rfl, hlen, fun _ _ => rfl, by simp⟩
  | cons k ks ih =>
    rw [List.nodup_cons] at hnd
    have hk := hlt k List.mem_cons_self
    have hkl : k < T.flat.length := by rw [hlen]; exact hk
    obtain ⟨o', m1, hu, hslot, hm1, hml1, hab⟩ := removeFromTile_spec C
      (g := { g with tiles := some T, mask := mk, numberOfTiles := some ((T.flat.countP Option.isSome : Nat) : Int) }) rfl
      (List.getElem?_eq_getElem hkl) (hT k List.mem_cons_self _ (List.getElem?_eq_getElem hkl)) c
      (by
        rcases hm with hm | hm
        · left; rw [hlen]; exact hm
        · right; rw [Res.forEach_cons] at hm; exact (Res.andThen_err_none hm).1) rfl
    rw [hlen] at hm1
    obtain ⟨T', m', h1, hm', hml, h2, h3, h4, h5, h6⟩ := ih hnd.2 (fun j hj => hlt j (List.mem_cons_of_mem _ hj)) (T.setFlat k o')
      (by simpa [Arr2.setFlat] using hlen) m1
      (by
        rcases hm with hm | hm
        · left; exact hm1 hm
        · right
          rw [Res.forEach_cons, hu] at hm
          exact hm)
      (by
        intro j hj o ho
        have hjk : k ≠ j := fun e => hnd.1 (e ▸ hj)
        simp only [Arr2.setFlat, List.getElem?_set_ne hjk] at ho
        exact hT j (List.mem_cons_of_mem _ hj) o ho)
    refine ⟨T', m', ?_, fun h => hm' (hm1 h), hml.trans hml1, h2, h3, h4, ?_, ?_⟩
    · rw [Res.forEach_cons, hu]; exact h1
    · intro j hj
      rw [List.mem_cons, not_or] at hj
      rw [h5 j hj.2]
      simp only [Arr2.setFlat, List.getElem?_set_ne (Ne.symm hj.1)]
    · intro j hj o ho
      rcases List.mem_cons.1 hj with rfl | hj
      · rw [h5 j hnd.1] at ho
        simp only [Arr2.setFlat] at ho
        rw [List.getElem?_set_self hkl] at ho
        cases ho
        refine ⟨hslot, fun h => ?_⟩
        rw [hab h, List.getElem?_eq_getElem hkl]
      · obtain ⟨q1, q2⟩ := h6 j hj o ho
        refine ⟨q1, fun h => ?_⟩
        have hjk : k ≠ j := fun e => hnd.1 (e ▸ hj)
        have := q2 h
        simp only [Arr2.setFlat, List.getElem?_set_ne hjk] at this
        exact this

/-- a tile array that holds `A` has a tile iff `A` has soundings in its rectangle -/
theorem tilesRep_empty (C : ChildSpec τ size sub bs fl) (hpos : 0 < size) {minX minY : ℚ} {nx ny : Nat} {T : Arr2 (Option τ)} {A : Store}
    (h : TilesRep C minX minY nx ny T A) (hin : ∀ p ∈ A.allPts, InRect minX minY size nx ny p) (hne : ∀ q ∈ A, q.2 ≠ []) :
    T.flat.any Option.isSome = !decide (A = []) := by
  obtain ⟨-, -, hlen, hs⟩ := h
  by_cases hA : A = []
  · subst hA
    simp only [decide_true, Bool.not_true]
    rw [List.any_eq_false]
    intro o ho
    obtain ⟨k, hk⟩ := List.mem_iff_getElem?.1 ho
    rcases hs k o hk with ⟨rfl, -⟩ | ⟨t, -, hB, -⟩
    · simp
    · exact absurd rfl hB
  · simp only [hA, decide_false, Bool.not_false]
    obtain ⟨p, hp⟩ : ∃ p, p ∈ A.allPts := by
      rw [← List.isEmpty_eq_false_iff_exists_mem]
      rw [Bool.eq_false_iff]
      intro he
      exact hA (Store.nil_of_allPts hne (List.isEmpty_iff.1 he))
    have hk := cellOf_rect_lt hpos (hin p hp)
    rw [List.any_eq_true]
    have hk' : cellOf minX minY size nx p < T.flat.length := by rw [hlen]; exact hk
    refine ⟨_, List.getElem_mem hk', ?_⟩
    rcases hs _ _ (List.getElem?_eq_getElem hk') with ⟨-, hB⟩ | ⟨t, ht, -, -⟩
    · have hb := (cellOf_rect_iff hpos (hin p hp) hk).1 rfl
      have : p ∈ (A.within (slotX minX size nx (cellOf minX minY size nx p)) (slotY minY size nx (cellOf minX minY size nx p)) size).allPts := by
        rw [Store.allPts_within, List.mem_filter]; exact ⟨hp, by simpa using hb⟩
      rw [hB] at this
      simp [Store.allPts] at this
    · rw [ht]; rfl

end Grid
end Bathy
