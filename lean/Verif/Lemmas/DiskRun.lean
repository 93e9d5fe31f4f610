import Verif.Lemmas.DiskGrid

/-!
# Gridding with an output folder

The tiles are saved and loaded one after the other; the result is the one of the run in memory, up to layers that only answer queries.
-/

namespace Bathy

/-- queries do not change the soundings near the border -/
class LawfulQuery (τ : Type) [GridLike τ] [Queried τ] : Prop where
  side : ∀ {env : Env} {t u : τ}, Queried.queried env t u → ∀ (s : Side) (buf : ℚ), GridLike.sidePoints u s buf = GridLike.sidePoints t s buf

instance : LawfulQuery Tile where
  side := by
    intro env t u h s buf
    show Tile.sidePoints u s buf = Tile.sidePoints t s buf
    unfold Tile.sidePoints
    rcases h with ⟨l, r, n, z, rfl⟩ | h
    · obtain ⟨hd, -, h1, h2, h3, h4, -⟩ := (Tile.getLayer_same env t l r n z).1
      rw [hd, h1, h2, h3, h4]
    · have hi := h.info
      simp only [Tile.toMeta, TileMeta.mk.injEq] at hi
      obtain ⟨h1, h2, h3, h4, -⟩ := hi
      rw [h.data, h1, h2, h3, h4]

namespace Grid

instance {τ : Type} [GridLike τ] [Queried τ] [LawfulQuery τ] : LawfulQuery (Grid τ) where
  side := by
    intro env g u h s buf
    show sidePoints u s buf = sidePoints g s buf
    rcases h with ⟨k, t, v, hk, hq, rfl⟩ | ⟨-, -, rfl⟩
    · unfold tile? at hk
      unfold sidePoints setTile
      rcases Option.eq_none_or_eq_some g.tiles with ht | ⟨T, ht⟩
      · rw [ht] at hk; cases hk
      · rw [ht] at hk ⊢
        simp only [Option.bind_some] at hk ⊢
        have : (T.setFlat k (some v)).flat.mapM (slotSide s buf) = T.flat.mapM (slotSide s buf) := by
          apply mapM_eq_of_map_eq
          apply List.ext_getElem?
          intro j
          simp only [Arr2.setFlat, List.getElem?_map, List.getElem?_set]
          by_cases hj : k = j
          · subst hj
            simp only [if_true, (List.getElem?_eq_some_iff.1 hk).1, hk, Option.map_some, Option.some.injEq]
            exact LawfulQuery.side hq s buf
          · simp only [hj, if_false]
        rw [this]
    · rfl

variable {τ φ : Type} {D : τ → φ → Prop} {G : φ → Prop} [DiskLike τ φ] [Queried τ]

theorem requeried_side [LawfulQuery τ] {env : Env} {t u : τ} (h : Requeried env t u) (s : Side) (buf : ℚ) : GridLike.sidePoints u s buf = GridLike.sidePoints t s buf := by
  unfold Requeried at h
  induction h with
  | refl => rfl
  | tail _ hq ih => rw [LawfulQuery.side hq, ih]

theorem slotsQueried_refl (env : Env) (T : Arr2 (Option τ)) : SlotsQueried env T T :=
  ⟨rfl, fun _ => ⟨id, fun t h => ⟨t, h, Relation.ReflTransGen.refl⟩⟩⟩

theorem slotsQueried_set {env : Env} {T U : Arr2 (Option τ)} (h : SlotsQueried env T U) {k : Nat} (hk : k < T.flat.length) {o o' : Option τ}
    (ho : (o = none ∧ o' = none) ∨ ∃ t v, o = some t ∧ o' = some v ∧ Requeried env t v) : SlotsQueried env (T.setFlat k o) (U.setFlat k o') := by
  obtain ⟨hd, hs⟩ := h
  have hd' := hd
  simp only [Arr2.dims, Prod.mk.injEq] at hd'
  have hkU : k < U.flat.length := by rw [hd'.2.2]; exact hk
  refine ⟨by simpa [Arr2.dims, Arr2.setFlat] using hd, fun j => ?_⟩
  by_cases hj : k = j
  · subst hj
    simp only [Arr2.setFlat, List.getElem?_set_self hk, List.getElem?_set_self hkU]
    rcases ho with ⟨rfl, rfl⟩ | ⟨t, v, rfl, rfl, hq⟩
    · exact ⟨fun _ => rfl, fun t h => by cases h⟩
    · refine ⟨fun h => (by cases h), fun t' h => ?_⟩
      cases h
      exact ⟨v, rfl, hq⟩
  · simp only [Arr2.setFlat, List.getElem?_set_ne hj]
    exact hs j

theorem slotsQueried_side [LawfulQuery τ] {env : Env} {T U : Arr2 (Option τ)} (h : SlotsQueried env T U) (k : Nat) (o o' : Option τ) (ho : T.flat[k]? = some o) (ho' : U.flat[k]? = some o') :
    SameSide o o' := by
  cases o with
  | none => rw [(h.2 k).1 ho] at ho'; cases ho'; trivial
  | some t =>
    obtain ⟨v, hv, hq⟩ := (h.2 k).2 t ho
    rw [hv] at ho'
    cases ho'
    exact fun s buf => requeried_side hq s buf

omit [Queried τ] in
theorem sameSide_trans {o o' o'' : Option τ} (h : SameSide o o') (h' : SameSide o' o'') : SameSide o o'' := by
  cases o <;> cases o' <;> cases o'' <;> simp only [SameSide] at *
  intro s buf
  rw [h', h]

variable {size sub : ℚ} {bs : Bool} {fl : Fields}

/-- state of the run with an output folder after `m` tiles, next to the one in memory -/
structure RunSim (D : τ → φ → Prop) (G : φ → Prop) (env : Env) (g : Grid τ) (out : Nat → Option τ → Res (Option τ) × List ℚ) (T : Arr2 (Option τ)) (m : Nat) (U : Arr2 (Option τ)) (R : List ℚ)
    (d d' : Disk (Root φ)) : Prop where
  slots : SlotsQueried env (prefixTiles out T m) U
  rest : ∀ j : Nat, m ≤ j → U.flat[j]? = T.flat[j]?
  sync : TSync D G (g.withTiles U R) d'.now
  top : TopOf d.now d'.now

theorem gridStepD_spec [LawfulGrid τ] [LawfulQuery τ] {env : Env} {C : Family → ChildSpec τ size sub bs fl} (S : DiskSpec env C D G) (b : Backend) {F F' : Family} (hpos : 0 < size)
    {x0 y0 : ℚ} {nx ny : Nat} {T : Arr2 (Option τ)} {g : Grid τ} {A : Store} (h : Ready (C F) x0 y0 nx ny T g A) (a : GridCall) (p : Plan) (hF : a.alg.family = some F') (hFF : F' = F ∨ a.clear = true)
    {m : Nat} (hm : m < ny * nx) {U : Arr2 (Option τ)} {R : List ℚ} {d d' : Disk (Root φ)} (hsim : RunSim D G env g (outAt env g a p none T) T m U R d d') :
    (∃ U' R' d'', gridStep env a p (g.withTiles (prefixTiles (outAt env g a p none T) T m) R, clearAt a (T.flat.take m)) m =
        .ok (g.withTiles (prefixTiles (outAt env g a p none T) T (m + 1)) R', clearAt a (T.flat.take (m + 1))) ∧
      gridStepD env b a p ((g.withTiles U R, d'), clearAt a (T.flat.take m)) m = .ok ((g.withTiles U' R', d''), clearAt a (T.flat.take (m + 1))) ∧
      RunSim D G env g (outAt env g a p none T) T (m + 1) U' R' d d'') ∨
    (∃ e, (gridStep env a p (g.withTiles (prefixTiles (outAt env g a p none T) T m) R, clearAt a (T.flat.take m)) m).err = some e ∧
      (gridStepD env b a p ((g.withTiles U R, d'), clearAt a (T.flat.take m)) m).err = some e) := by
  obtain ⟨-, -, hlen, hslots⟩ := h.rep
  have hmT : m < T.flat.length := by rw [hlen]; exact hm
  obtain ⟨o, ho⟩ : ∃ o, T.flat[m]? = some o := ⟨_, List.getElem?_eq_getElem hmT⟩
  have hsucc := prefixTiles_succ (outAt env g a p none T) T ho
  have hmP : m < (prefixTiles (outAt env g a p none T) T m).flat.length := by simpa [prefixTiles] using hmT
  have hUo : (g.withTiles U R).tile? m = some o := by
    show U.flat[m]? = some o
    rw [hsim.rest m (le_refl _)]; exact ho
  have hUlen : U.flat.length = ny * nx := by
    have := hsim.slots.1
    simp only [Arr2.dims, Prod.mk.injEq] at this
    rw [this.2.2]; simpa [prefixTiles] using hlen
  have hPo : (prefixTiles (outAt env g a p none T) T m).flat[m]? = some o := by
    rw [prefixTiles_get, ho]; simp
  have horg : ∀ (U : Arr2 (Option τ)) R, (g.withTiles U R).tileOrigin m = some (slotX x0 size nx m, slotY y0 size nx m) := fun U R => tileOrigin_eq h.txs h.tys hm
  have hinj : ∀ (R : List ℚ) (j : Nat) t, (g.withTiles U R).tile? j = some (some t) → (g.withTiles U R).tileOrigin j = some (slotX x0 size nx m, slotY y0 size nx m) → j = m :=
    fun R j t hj hp => origin_inj (g := g.withTiles U R) hpos h.txs h.tys (slot_lt (g := g.withTiles U R) rfl hUlen hj) hm hp (horg U R)
  have hstep := gridStep_eq env (g := g) a p h.tiles ho R
  rw [hstep]
  have htk := take_succ_eq ho
  generalize hpo : (slotX x0 size nx m, slotY y0 size nx m) = pos at *
  unfold gridStepD
  simp only [hUo, horg]
  cases o with
  | none =>
    have hout : outAt env g a p none T m none = (.ok none, []) := rfl
    rw [hout] at hsucc ⊢
    left
    obtain ⟨d'', h1, h2, x, h3, h4⟩ := flushTile_dropped0 b .grid (d := d') hUo (horg U R) (S.gone b .grid (o := tileFolder d'.now pos) (by
      intro f hf
      refine hsim.sync.rest _ f hf (fun t ⟨j, hj, hp⟩ => ?_)
      rw [hinj R j t hj hp, hUo] at hj
      cases hj))
    refine ⟨U, R, d'', rfl, ?_, ?_, ?_, ?_, hsim.top.trans h2⟩
    · rw [h1, htk, clearAt_none]
      rfl
    · rw [← hsucc, Res.ok_st, setFlat_self hPo]
      exact hsim.slots
    · intro j hj; exact hsim.rest j (by omega)
    · have := hsim.sync.set (o' := none) (x := x) hUo (horg U R) (hinj R) h4 (by simp) (fun _ => h3)
      rwa [setTile_self hUo] at this
  | some t =>
    simp only
    by_cases hsk : skips a (clearAt a (T.flat.take m)) t = true
    · have hout : outAt env g a p none T m (some t) = (.ok (some t), GridLike.resolutions t) := by
        unfold outAt outcome; simp only [hsk, if_true]
      rw [hout] at hsucc ⊢
      left
      refine ⟨U, addNew R (GridLike.resolutions t), d', rfl, ?_, ?_, fun j hj => hsim.rest j (by omega), ?_, hsim.top⟩
      · rw [if_pos hsk, htk, clearAt_skip hsk]
        rfl
      · rw [← hsucc, Res.ok_st, setFlat_self hPo]
        exact hsim.slots
      · exact hsim.sync.congr (fun t p => has_congr rfl rfl rfl t p) (fun _ => rfl)
    · rw [if_neg hsk]
      have hnb : ∀ k buf, (g.withTiles U R).neighborPoints k buf = g.neighborPoints k buf := by
        have hd := hsim.slots.1
        simp only [Arr2.dims, Prod.mk.injEq] at hd
        refine neighborPoints_congr h.tiles rfl hd.1 hd.2.1 (by rw [hlen]; exact hUlen) ?_
        intro k o o' h1 h2
        refine sameSide_trans (o' := if k < m then (outAt env g a p none T k o).1.st else o) ?_ (slotsQueried_side hsim.slots k _ _ (by rw [prefixTiles_get, h1]; rfl) h2)
        split
        · exact sameSide_outcome _ _ _ _ _ _ _ _
        · exact sameSide_refl _
      rw [borderFor_congr hnb]
      cases hb : g.borderFor m t a.alg none a.border with
      | error e =>
        have hout : outAt env g a p none T m (some t) = (.fail (some t) e, []) := by
          unfold outAt outcome; simp only [hsk, hb]; rfl
        right
        rw [hout]
        exact ⟨e, rfl, rfl⟩
      | ok bd =>
        have hcall : (g.withTiles U R).childCall a p (clearNext a (clearAt a (T.flat.take m)) t) bd = g.childCall a p (clearNext a (clearAt a (T.flat.take m)) t) bd := rfl
        simp only [hcall]
        generalize hcl : g.childCall a p (clearNext a (clearAt a (T.flat.take m)) t) bd = call at *
        have hout : outAt env g a p none T m (some t) = (⟨some (GridLike.grid env t call).1.st, (GridLike.grid env t call).1.err⟩, (GridLike.grid env t call).2) := by
          unfold outAt outcome; simp only [hsk, hb, ← hcl]; rfl
        obtain ⟨f, hf1, hf2⟩ := hsim.sync.has t _ ⟨m, hUo, horg U R⟩
        have hfoc : focus d' pos = ⟨some f, []⟩ := by unfold focus; rw [hf1]
        rcases hslots m _ ho with ⟨e, -⟩ | ⟨t', e, -, hrep⟩
        · cases e
        cases e
        have hclear : F' = F ∨ call.clear = true := by
          rcases hFF with h | h
          · exact Or.inl h
          · right
            rw [← hcl]
            show clearNext a (clearAt a (T.flat.take m)) t = true
            unfold clearNext clearAt
            rw [h]; simp
        have hfam : call.alg.family = some F' := by rw [← hcl]; exact hF
        obtain ⟨g1, g2⟩ := S.grid b F F' call hfam hclear hrep hf2
        rw [hout] at hsucc ⊢
        simp only [hfoc] at hsucc ⊢
        cases he : (GridLike.grid env t call).1.err with
        | some e =>
          right
          rw [he] at g1
          rw [g1]
          exact ⟨e, rfl, rfl⟩
        | none =>
          left
          obtain ⟨g3, v, hkept, hq⟩ := g2 he
          rw [he] at g1
          rw [g1, g3]
          simp only [if_true]
          obtain ⟨d'', h1, h2, f', h3, h4⟩ := flushTile_kept b .grid (g := g.withTiles U (addNew R (GridLike.grid env t call).2)) (d := d') hUo (horg U _) hkept
          refine ⟨U.setFlat m (some v), addNew R (GridLike.grid env t call).2, d'', rfl, ?_, ?_, ?_, ?_, hsim.top.trans h2⟩
          · have e1 : ({ (g.withTiles U R).setTile m (some (DiskLike.gridD env b call (t, ⟨some f, []⟩)).1.st.1) with
                resolutions := addNew ((g.withTiles U R).setTile m (some (DiskLike.gridD env b call (t, ⟨some f, []⟩)).1.st.1)).resolutions (GridLike.grid env t call).2 } : Grid τ) =
                (g.withTiles U (addNew R (GridLike.grid env t call).2)).setTile m (some (DiskLike.gridD env b call (t, ⟨some f, []⟩)).1.st.1) := rfl
            rw [e1, h1, htk, clearAt_run (by simpa using hsk)]
            rfl
          · rw [← hsucc]
            exact slotsQueried_set hsim.slots hmP (Or.inr ⟨_, _, rfl, rfl, hq⟩)
          · intro j hj
            have : m ≠ j := by omega
            simp only [Arr2.setFlat, List.getElem?_set_ne this]
            exact hsim.rest j (by omega)
          · have hs' : TSync D G (g.withTiles U (addNew R (GridLike.grid env t call).2)) d'.now := hsim.sync.congr (fun t p => has_congr rfl rfl rfl t p) (fun _ => rfl)
            exact hs'.set (o' := some v) hUo (horg U _) (hinj _) h4 (by rintro _ ⟨⟩; exact ⟨f', rfl, h3⟩) (by simp)

/-- the loop of `_grid_regular` -/
theorem gridLoopD_spec [LawfulGrid τ] [LawfulQuery τ] {env : Env} {C : Family → ChildSpec τ size sub bs fl} (S : DiskSpec env C D G) (b : Backend) {F F' : Family} (hpos : 0 < size)
    {x0 y0 : ℚ} {nx ny : Nat} {T : Arr2 (Option τ)} {g : Grid τ} {A : Store} (h : Ready (C F) x0 y0 nx ny T g A) (a : GridCall) (p : Plan) (hF : a.alg.family = some F') (hFF : F' = F ∨ a.clear = true)
    (d : Disk (Root φ)) (hd : TSync D G g d.now) {m : Nat} (hm : m ≤ ny * nx) :
    (∃ U R d', Res.forEach (List.range m) (g, a.clear) (gridStep env a p) = .ok (g.withTiles (prefixTiles (outAt env g a p none T) T m) R, clearAt a (T.flat.take m)) ∧
      Res.forEach (List.range m) ((g, d), a.clear) (gridStepD env b a p) = .ok ((g.withTiles U R, d'), clearAt a (T.flat.take m)) ∧
      RunSim D G env g (outAt env g a p none T) T m U R d d') ∨
    (∃ e, (Res.forEach (List.range m) (g, a.clear) (gridStep env a p)).err = some e ∧ (Res.forEach (List.range m) ((g, d), a.clear) (gridStepD env b a p)).err = some e) := by
  induction m with
  | zero =>
    left
    have h1 : g.withTiles T g.resolutions = g := by
      have := h.tiles
      cases g; simp only at this; subst this; rfl
    have h2 : clearAt a ([] : List (Option τ)) = a.clear := by simp [clearAt]
    refine ⟨T, g.resolutions, d, ?_, ?_, ?_, fun _ _ => rfl, by rw [h1]; exact hd, topOf_refl _⟩
    · simp only [List.range_zero, Res.forEach_nil, prefixTiles_zero, List.take_zero, h1, h2]
    · simp only [List.range_zero, Res.forEach_nil, List.take_zero, h1, h2]
    · rw [prefixTiles_zero]; exact slotsQueried_refl env T
  | succ m ih =>
    rw [List.range_succ, Res.forEach_append, Res.forEach_append]
    rcases ih (by omega) with ⟨U, R, d', h1, h2, h3⟩ | ⟨e, h1, h2⟩
    · rw [h1, h2, Res.andThen_ok, Res.andThen_ok, Res.forEach_cons, Res.forEach_cons]
      rcases gridStepD_spec S b hpos h a p hF hFF (by omega) h3 with ⟨U', R', d'', e1, e2, e3⟩ | ⟨e, e1, e2⟩
      · left
        rw [e1, e2]
        exact ⟨U', R', d'', rfl, rfl, e3⟩
      · right
        refine ⟨e, ?_, ?_⟩
        · unfold Res.andThen; rw [e1]
        · unfold Res.andThen; rw [e2]
    · right
      refine ⟨e, ?_, ?_⟩
      · unfold Res.andThen; rw [h1]
      · unfold Res.andThen; rw [h2]

/-- `grid` with an output folder -/
theorem gridRunD_spec [LawfulGrid τ] [LawfulQuery τ] {env : Env} {C : Family → ChildSpec τ size sub bs fl} (S : DiskSpec env C D G) (b : Backend) {F F' : Family} (hpos : 0 < size)
    {x0 y0 : ℚ} {nx ny : Nat} {T : Arr2 (Option τ)} {g : Grid τ} {A : Store} (h : Ready (C F) x0 y0 nx ny T g A) (hmask : MaskProper g.mask) (a : GridCall) (hF : a.alg.family = some F')
    (hFF : F' = F ∨ a.clear = true) (d : Disk (Root φ)) (hd : TSync D G g d.now) :
    (gridRunD env b a (g, d)).err = (g.grid env a).err ∧
    ((g.grid env a).err = none → ∃ v d', gridRunD env b a (g, d) = .ok (v, d') ∧ Requeried env (g.grid env a).st v ∧ v.resolutions = (g.grid env a).st.resolutions ∧ Synced D G true v d'.now) := by
  unfold gridRunD grid
  simp only
  rcases gridPlan_spec env g a with ⟨gr, h1, -⟩ | ⟨al, gr, gp, e, h1⟩
  · rw [h1]
    have e1 : inMemory (Res.ok (g.withAttrs (some a.alg) gr a.params [])) d = .ok (g.withAttrs (some a.alg) gr a.params [], d) := rfl
    rw [e1, Res.andThen_ok, Res.andThen_ok]
    have h' : Ready (C F) x0 y0 nx ny T (g.withAttrs (some a.alg) gr a.params []) A :=
      ⟨h.tileSize, h.subtileSize, h.backscatter, h.txs, h.tys, h.edgesX, h.edgesY, h.tiles, h.rep, h.inr, h.nx_pos, h.ny_pos, h.dims⟩
    have hmask' : MaskProper (g.withAttrs (some a.alg) gr a.params []).mask := hmask
    have hd' : TSync D G (g.withAttrs (some a.alg) gr a.params []) d.now := hd.congr (fun t p => has_congr rfl rfl rfl t p) (fun _ => rfl)
    generalize g.withAttrs (some a.alg) gr a.params [] = g1 at *
    generalize (gridPlan env g a).2 = p
    unfold gridRegularD gridRegular
    have hsl : g1.slots = ny * nx := by rw [slots_eq h'.tiles]; exact h'.rep.2.2.1
    simp only [hsl]
    rcases gridLoopD_spec S b hpos h' a p hF hFF d hd' (le_refl _) with ⟨U, R, d', e1, e2, e3⟩ | ⟨e, e1, e2⟩
    · rw [e1, e2]
      simp only [Res.ok_err, Res.ok_st, true_and, forall_true_left]
      refine ⟨_, _, rfl, ?_, rfl, _, saveGrid_now b _ d', headerOk_save b (by exact hmask') _, ?_⟩
      · exact requeried_tiles (g := { g1.withTiles (prefixTiles (outAt env g1 a p none T) T (ny * nx)) R with resolutions := npUnique R }) rfl e3.slots
      · exact e3.sync.congr (fun t p => has_congr rfl rfl rfl t p) (saveGrid_folder b _ d')
    · rw [e1, e2]
      simp
  · rw [h1]
    exact ⟨rfl, fun h => by cases h⟩

end Grid
end Bathy
