import Verif.Lemmas.DiskRun
import Verif.Lemmas.GridHistory

/-!
# Gridding in parallel with an output folder

The workers write the folders of their subgrids, then the tiles are saved and loaded one after the other; the result is the one of the parallel run in memory, up to
layers that only answer queries.
-/

namespace Bathy
namespace Grid

theorem forEach_zip_map {α β σ : Type} (f : α → β) (body : σ → α × β → Res σ) (l : List α) (s : σ) :
    Res.forEach (l.zip (l.map f)) s body = Res.forEach l s (fun s j => body s (j, f j)) := by
  induction l generalizing s with
  | nil => rfl
  | cons y ys ih =>
    simp only [List.map_cons, List.zip_cons_cons, Res.forEach_cons]
    congr 1
    funext s'
    exact ih s'

variable {τ φ : Type} {D : τ → φ → Prop} {G : φ → Prop} [DiskLike τ φ]

/-- saving and loading the changed tile in slot `k` -/
theorem flushTile_kept0 (b : Backend) (part : Tile.Part) {g : Grid τ} {d : Disk (Root φ)} {k : Nat} {o : Option τ} {p : ℚ × ℚ} {u v : τ} (ho : g.tile? k = some o)
    (hp : g.tileOrigin k = some p) (h : Kept D b part u (tileFolder d.now p) v) :
    ∃ d', flushTile b part (g.setTile k (some u), d) k = .ok (g.setTile k (some v), d') ∧ TopOf d.now d'.now ∧
      ∃ f, D v f ∧ ∀ q, tileFolder d'.now q = if q = p then some f else tileFolder d.now q := by
  obtain ⟨q, f, h1, h2, h3⟩ := h
  refine ⟨absorb d p q, ?_, ?_, f, h3, ?_⟩
  · unfold flushTile
    have hfoc : focus d p = ⟨tileFolder d.now p, []⟩ := rfl
    simp only [tile_setTile g ho, setTile_origin, hp, hfoc, h1, Res.ok_st, Res.ok_err, setTile_setTile]
    rfl
  · exact topOf_put _ _ _
  · intro r
    rw [absorb_now, tileFolder_putTile, h2]

/-- the workers: each starts with the folder of its tile and leaves the other folders alone -/
theorem work_spec (env : Env) (b : Backend) {g : Grid τ} {P : Nat → ℚ × ℚ} (js : List (Job τ)) (hO : ∀ j ∈ js, g.tileOrigin j.idx = some (P j.idx))
    (hP : js.Pairwise (fun i j => P i.idx ≠ P j.idx)) (d : Disk (Root φ)) (acc : List (Res (τ × Disk (Option φ)) × List ℚ)) :
    ∃ d', js.foldl (workStep env b g) (d, acc) = (d', acc ++ js.map (fun j => DiskLike.gridD env b j.call (j.tile, focus d (P j.idx)))) ∧
      TopOf d.now d'.now ∧ (∀ q, (∀ j ∈ js, q ≠ P j.idx) → tileFolder d'.now q = tileFolder d.now q) ∧
      ∀ j ∈ js, tileFolder d'.now (P j.idx) = (DiskLike.gridD env b j.call (j.tile, focus d (P j.idx))).1.st.2.now := by
  induction js generalizing d acc with
  | nil => exact ⟨d, by simp, topOf_refl _, fun _ _ => rfl, by simp⟩
  | cons j js ih =>
    rw [List.pairwise_cons] at hP
    have hw : workStep env b g (d, acc) j = (absorb d (P j.idx) (DiskLike.gridD env b j.call (j.tile, focus d (P j.idx))).1.st.2, acc ++ [DiskLike.gridD env b j.call (j.tile, focus d (P j.idx))]) := by
      unfold workStep
      rw [hO j List.mem_cons_self]
    rw [List.foldl_cons, hw]
    have hd1 : ∀ q, tileFolder (absorb d (P j.idx) (DiskLike.gridD env b j.call (j.tile, focus d (P j.idx))).1.st.2).now q =
        if q = P j.idx then (DiskLike.gridD env b j.call (j.tile, focus d (P j.idx))).1.st.2.now else tileFolder d.now q := by
      intro q
      rw [absorb_now, tileFolder_putTile]
    have htop : TopOf d.now (absorb d (P j.idx) (DiskLike.gridD env b j.call (j.tile, focus d (P j.idx))).1.st.2).now := topOf_put _ _ _
    generalize hr : DiskLike.gridD env b j.call (j.tile, focus d (P j.idx)) = r at *
    generalize absorb d (P j.idx) r.1.st.2 = d1 at *
    obtain ⟨d', h1, h2, h3, h4⟩ := ih (fun i hi => hO i (List.mem_cons_of_mem _ hi)) hP.2 d1 (acc ++ [r])
    have hfoc : ∀ i ∈ js, focus d1 (P i.idx) = focus d (P i.idx) := by
      intro i hi
      unfold focus
      rw [hd1, if_neg (Ne.symm (hP.1 i hi))]
    refine ⟨d', ?_, htop.trans h2, ?_, ?_⟩
    · rw [h1, List.map_cons, hr, List.append_assoc]
      congr 2
      rw [List.singleton_append, List.cons.injEq]
      refine ⟨rfl, List.map_congr_left (fun i hi => ?_)⟩
      rw [hfoc i hi]
    · intro q hq
      rw [h3 q (fun i hi => hq i (List.mem_cons_of_mem _ hi)), hd1, if_neg (hq j List.mem_cons_self)]
    · intro i hi
      rcases List.mem_cons.1 hi with rfl | hi
      · rw [h3 _ (fun i' hi' => hP.1 i' hi'), hd1, if_pos rfl, hr]
      · rw [h4 i hi, hfoc i hi]

/-- the results are saved and loaded one after the other -/
theorem flushJobs_spec (b : Backend) {P : Nat → ℚ × ℚ} (u v : Job τ → τ) (js : List (Job τ)) (hP : js.Pairwise (fun i j => P i.idx ≠ P j.idx)) (hI : js.Pairwise (fun i j => i.idx ≠ j.idx))
    (g : Grid τ) (d : Disk (Root φ)) (hO : ∀ j ∈ js, g.tileOrigin j.idx = some (P j.idx)) (hT : ∀ j ∈ js, ∃ o, g.tile? j.idx = some o)
    (hK : ∀ j ∈ js, Kept D b .grid (u j) (tileFolder d.now (P j.idx)) (v j)) :
    ∃ d', Res.forEach js (g, d) (fun s j => flushTile b .grid (s.1.setTile j.idx (some (u j)), s.2) j.idx) = .ok (js.foldl (fun g j => g.setTile j.idx (some (v j))) g, d') ∧
      TopOf d.now d'.now ∧ (∀ q, (∀ j ∈ js, q ≠ P j.idx) → tileFolder d'.now q = tileFolder d.now q) ∧
      ∀ j ∈ js, ∃ f, tileFolder d'.now (P j.idx) = some f ∧ D (v j) f := by
  induction js generalizing g d with
  | nil => exact ⟨d, rfl, topOf_refl _, fun _ _ => rfl, by simp⟩
  | cons j js ih =>
    rw [List.pairwise_cons] at hP hI
    obtain ⟨o, ho⟩ := hT j List.mem_cons_self
    obtain ⟨d1, h1, h2, f, h3, h4⟩ := flushTile_kept0 b .grid ho (hO j List.mem_cons_self) (hK j List.mem_cons_self)
    have hd1 : ∀ i ∈ js, tileFolder d1.now (P i.idx) = tileFolder d.now (P i.idx) := fun i hi => by rw [h4, if_neg (Ne.symm (hP.1 i hi))]
    obtain ⟨d', e1, e2, e3, e4⟩ := ih hP.2 hI.2 (g.setTile j.idx (some (v j))) d1 (fun i hi => by rw [setTile_origin]; exact hO i (List.mem_cons_of_mem _ hi))
      (fun i hi => by rw [tile_setTile_ne g (Ne.symm (hI.1 i hi))]; exact hT i (List.mem_cons_of_mem _ hi))
      (fun i hi => by rw [hd1 i hi]; exact hK i (List.mem_cons_of_mem _ hi))
    refine ⟨d', ?_, h2.trans e2, ?_, ?_⟩
    · rw [Res.forEach_cons, h1, Res.andThen_ok, e1]
      rfl
    · intro q hq
      rw [e3 q (fun i hi => hq i (List.mem_cons_of_mem _ hi)), h4, if_neg (hq j List.mem_cons_self)]
    · intro i hi
      rcases List.mem_cons.1 hi with rfl | hi
      · exact ⟨f, by rw [e3 _ (fun i' hi' => hP.1 i' hi'), h4, if_pos rfl], h3⟩
      · exact e4 i hi

omit [DiskLike τ φ]

/-- the tiles after the results are set -/
def setAll (v : Job τ → τ) (js : List (Job τ)) (U : Arr2 (Option τ)) : Arr2 (Option τ) := js.foldl (fun U j => U.setFlat j.idx (some (v j))) U

theorem setAll_grid (v : Job τ → τ) (js : List (Job τ)) (g : Grid τ) (U : Arr2 (Option τ)) (R : List ℚ) :
    js.foldl (fun g j => g.setTile j.idx (some (v j))) (g.withTiles U R) = g.withTiles (setAll v js U) R := by
  induction js generalizing U with
  | nil => rfl
  | cons j js ih => exact ih (U.setFlat j.idx (some (v j)))

theorem setAll_length (v : Job τ → τ) (js : List (Job τ)) (U : Arr2 (Option τ)) : (setAll v js U).flat.length = U.flat.length := by
  induction js generalizing U with
  | nil => rfl
  | cons j js ih => exact (ih (U.setFlat j.idx (some (v j)))).trans (by simp [Arr2.setFlat])

theorem setAll_ne (v : Job τ → τ) (js : List (Job τ)) (U : Arr2 (Option τ)) {k : Nat} (hk : ∀ j ∈ js, j.idx ≠ k) : (setAll v js U).flat[k]? = U.flat[k]? := by
  induction js generalizing U with
  | nil => rfl
  | cons j js ih =>
    refine (ih (U.setFlat j.idx (some (v j))) (fun i hi => hk i (List.mem_cons_of_mem _ hi))).trans ?_
    simp only [Arr2.setFlat, List.getElem?_set_ne (hk j List.mem_cons_self)]

theorem setAll_mem (v : Job τ → τ) (js : List (Job τ)) (hI : js.Pairwise (fun i j => i.idx ≠ j.idx)) (U : Arr2 (Option τ)) (hl : ∀ j ∈ js, j.idx < U.flat.length) {j : Job τ} (hj : j ∈ js) :
    (setAll v js U).flat[j.idx]? = some (some (v j)) := by
  induction js generalizing U with
  | nil => simp at hj
  | cons i js ih =>
    rw [List.pairwise_cons] at hI
    rcases List.mem_cons.1 hj with rfl | hj
    · refine (setAll_ne v js _ (fun i hi => Ne.symm (hI.1 i hi))).trans ?_
      simp only [Arr2.setFlat, List.getElem?_set_self (hl j List.mem_cons_self)]
    · exact ih hI.2 (U.setFlat i.idx (some (v i))) (fun i' hi' => by simpa [Arr2.setFlat] using hl i' (List.mem_cons_of_mem _ hi')) hj

theorem setAll_queried [Queried τ] {env : Env} {u v : Job τ → τ} (js : List (Job τ)) (hq : ∀ j ∈ js, Requeried env (u j) (v j)) {T U : Arr2 (Option τ)} (h : SlotsQueried env T U)
    (hl : ∀ j ∈ js, j.idx < T.flat.length) : SlotsQueried env (setAll u js T) (setAll v js U) := by
  induction js generalizing T U with
  | nil => exact h
  | cons j js ih =>
    exact ih (fun i hi => hq i (List.mem_cons_of_mem _ hi)) (slotsQueried_set h (hl j List.mem_cons_self) (Or.inr ⟨_, _, rfl, rfl, hq j List.mem_cons_self⟩))
      (fun i hi => by simpa [Arr2.setFlat] using hl i (List.mem_cons_of_mem _ hi))

section
variable [GridLike τ]

theorem jobsIn_idx {g : Grid τ} {a : GridCall} {p : Plan} {limit : Option ℚ} {T : Arr2 (Option τ)} {b m : Nat} {j : Job τ} (h : j ∈ jobsIn g a p limit T b m) :
    b ≤ j.idx ∧ j.idx < m ∧ T.flat[j.idx]? = some (some j.tile) := by
  obtain ⟨k, o, h1, h2, h3, h4⟩ := mem_jobsIn h
  unfold jobAt at h4
  cases o with
  | none => cases h4
  | some t =>
    simp only at h4
    split at h4
    · cases h4
    · split at h4
      · cases h4
      · cases h4
        refine ⟨h1, h2, ?_⟩
        cases hk : T.flat[k]? with
        | none => rw [hk] at h3; cases h3
        | some o => rw [hk] at h3; exact congrArg some h3

theorem jobsIn_clear {g : Grid τ} {a : GridCall} {p : Plan} {limit : Option ℚ} {T : Arr2 (Option τ)} {b m : Nat} {j : Job τ} (h : j ∈ jobsIn g a p limit T b m) :
    j.call.alg = a.alg ∧ (a.clear = true → j.call.clear = true) := by
  obtain ⟨k, o, h1, h2, h3, h4⟩ := mem_jobsIn h
  unfold jobAt at h4
  cases o with
  | none => cases h4
  | some t =>
    simp only at h4
    split at h4
    · cases h4
    · split at h4
      · cases h4
      · cases h4
        refine ⟨rfl, fun hc => ?_⟩
        show clearNext a (clearAt a (T.flat.take k)) t = true
        unfold clearNext clearAt
        rw [hc]; simp

theorem jobsIn_pairwise (g : Grid τ) (a : GridCall) (p : Plan) (limit : Option ℚ) (T : Arr2 (Option τ)) (b m : Nat) : (jobsIn g a p limit T b m).Pairwise (fun i j => i.idx ≠ j.idx) := by
  unfold jobsIn
  rw [List.pairwise_filterMap]
  have hidx : ∀ (k : Nat) (o : Option τ) (j : Job τ), jobAt g a p limit T k o = some j → j.idx = k := by
    intro k o j h
    unfold jobAt at h
    cases o with
    | none => cases h
    | some t =>
      simp only at h
      split at h
      · cases h
      · split at h
        · cases h
        · cases h; rfl
  refine (List.nodup_range' (s := b) (n := m - b)).imp ?_
  intro k k' hne j hj j' hj'
  rw [hidx _ _ _ hj, hidx _ _ _ hj']
  exact hne

end

variable [DiskLike τ φ] [Queried τ] {size sub : ℚ} {bs : Bool} {fl : Fields}

theorem findSome_map_congr {α β γ : Type} {f : α → Option γ} {g : β → Option γ} {ι : Type} {l : List ι} {x : ι → α} {y : ι → β} (h : ∀ i ∈ l, f (x i) = g (y i)) :
    (l.map x).findSome? f = (l.map y).findSome? g := by
  induction l with
  | nil => rfl
  | cons i l ih =>
    simp only [List.map_cons, List.findSome?_cons, h i List.mem_cons_self]
    rw [ih (fun i' hi' => h i' (List.mem_cons_of_mem _ hi'))]

/-- one group of jobs -/
theorem runJobsD_spec [LawfulGrid τ] [LawfulQuery τ] {env : Env} {C : Family → ChildSpec τ size sub bs fl} (S : DiskSpec env C D G) (bk : Backend) {F F' : Family} (hpos : 0 < size)
    {x0 y0 : ℚ} {nx ny : Nat} {T : Arr2 (Option τ)} {g : Grid τ} {A : Store} (h : Ready (C F) x0 y0 nx ny T g A) (a : GridCall) (p : Plan) (hF : a.alg.family = some F') (hFF : F' = F ∨ a.clear = true)
    {limit : Option ℚ} {b m : Nat} (hbm : b ≤ m) (hm : m ≤ ny * nx) (hbo : ∀ (k : Nat) o, k < m → T.flat[k]? = some o → BorderOk g a limit T k o)
    {U : Arr2 (Option τ)} {R : List ℚ} {d d' : Disk (Root φ)} (hsim : RunSim D G env g (outAt env g a p limit T) T b U R d d') :
    (∃ U' R' d'', runJobs env (g.withTiles (prefixTiles (outAt env g a p limit T) T b) R) (jobsIn g a p limit T b m) = .ok (g.withTiles (prefixTiles (outAt env g a p limit T) T m) R') ∧
      runJobsD env bk (g.withTiles U R, d') (jobsIn g a p limit T b m) = .ok (g.withTiles U' R', d'') ∧ RunSim D G env g (outAt env g a p limit T) T m U' R' d d'') ∨
    (∃ e, (runJobs env (g.withTiles (prefixTiles (outAt env g a p limit T) T b) R) (jobsIn g a p limit T b m)).err = some e ∧
      (runJobsD env bk (g.withTiles U R, d') (jobsIn g a p limit T b m)).err = some e) := by
  obtain ⟨-, -, hlen, hslots⟩ := h.rep
  have hjob : ∀ j ∈ jobsIn g a p limit T b m, b ≤ j.idx ∧ j.idx < m ∧ T.flat[j.idx]? = some (some j.tile) := fun j hj => jobsIn_idx hj
  have hcall : ∀ j ∈ jobsIn g a p limit T b m, j.call.alg.family = some F' ∧ (F' = F ∨ j.call.clear = true) := by
    intro j hj
    obtain ⟨h1, h2⟩ := jobsIn_clear hj
    exact ⟨by rw [h1]; exact hF, hFF.imp id h2⟩
  have hI := jobsIn_pairwise g a p limit T b m
  have htiles := jobs_tiles env g a p limit T R b (m - b) (by omega) (by rw [Nat.add_sub_cancel' hbm]; exact hbo)
  rw [Nat.add_sub_cancel' hbm, setAll_grid] at htiles
  have htiles : setAll (fun j : Job τ => (GridLike.grid env j.tile j.call).1.st) (jobsIn g a p limit T b m) (prefixTiles (outAt env g a p limit T) T b) = prefixTiles (outAt env g a p limit T) T m :=
    Option.some.inj (congrArg Grid.tiles htiles)
  generalize jobsIn g a p limit T b m = js at *
  let P : Nat → ℚ × ℚ := fun k => (slotX x0 size nx k, slotY y0 size nx k)
  have horg : ∀ (U : Arr2 (Option τ)) R (k : Nat), k < ny * nx → (g.withTiles U R).tileOrigin k = some (P k) := fun U R k hk => tileOrigin_eq h.txs h.tys hk
  have hUlen : U.flat.length = ny * nx := by
    have := hsim.slots.1
    simp only [Arr2.dims, Prod.mk.injEq] at this
    rw [this.2.2]; simpa [prefixTiles] using hlen
  have hPinj : ∀ i k : Nat, i < ny * nx → k < ny * nx → P i = P k → i = k := by
    intro i k hi hk hik
    exact origin_inj (g := g.withTiles U R) hpos h.txs h.tys hi hk (horg U R i hi) (by rw [hik]; exact horg U R k hk)
  have hP : js.Pairwise (fun i j => P i.idx ≠ P j.idx) := by
    refine hI.imp_of_mem ?_
    intro i j hi hj hne he
    exact hne (hPinj _ _ (by have := hjob i hi; omega) (by have := hjob j hj; omega) he)
  have hO : ∀ j ∈ js, (g.withTiles U R).tileOrigin j.idx = some (P j.idx) := fun j hj => horg U R _ (by have := hjob j hj; omega)
  have hUt : ∀ j ∈ js, (g.withTiles U R).tile? j.idx = some (some j.tile) := by
    intro j hj
    obtain ⟨h1, -, h3⟩ := hjob j hj
    show U.flat[j.idx]? = _
    rw [hsim.rest _ h1, h3]
  -- the folder of each job
  have hgrid : ∀ j ∈ js, (DiskLike.gridD env bk j.call (j.tile, focus d' (P j.idx))).1.err = (GridLike.grid env j.tile j.call).1.err ∧
      ((GridLike.grid env j.tile j.call).1.err = none → (DiskLike.gridD env bk j.call (j.tile, focus d' (P j.idx))).2 = (GridLike.grid env j.tile j.call).2 ∧
        ∃ v, Kept D bk .grid (DiskLike.gridD env bk j.call (j.tile, focus d' (P j.idx))).1.st.1 (DiskLike.gridD env bk j.call (j.tile, focus d' (P j.idx))).1.st.2.now v ∧
          Requeried env (GridLike.grid env j.tile j.call).1.st v) := by
    intro j hj
    obtain ⟨f, hf1, hf2⟩ := hsim.sync.has j.tile _ ⟨j.idx, hUt j hj, hO j hj⟩
    have hfoc : focus d' (P j.idx) = ⟨some f, []⟩ := by unfold focus; rw [hf1]
    rcases hslots j.idx _ (hjob j hj).2.2 with ⟨e, -⟩ | ⟨t', e, -, hrep⟩
    · cases e
    cases e
    obtain ⟨c1, c2⟩ := hcall j hj
    rw [hfoc]
    exact S.grid bk F F' j.call c1 c2 hrep hf2
  obtain ⟨d1, w1, w2, w3, w4⟩ := work_spec env bk (g := g.withTiles U R) js hO hP d' []
  have hfind : (js.map (fun j => DiskLike.gridD env bk j.call (j.tile, focus d' (P j.idx)))).findSome? (fun r => r.1.err) =
      (js.map (fun j => GridLike.grid env j.tile j.call)).findSome? (fun r => r.1.err) := findSome_map_congr (fun j hj => (hgrid j hj).1)
  unfold runJobs runJobsD
  simp only [w1, List.nil_append, hfind]
  cases hfs : (js.map (fun j => GridLike.grid env j.tile j.call)).findSome? (fun r => r.1.err) with
  | some e => right; exact ⟨e, rfl, rfl⟩
  | none =>
    left
    have hnone : ∀ j ∈ js, (GridLike.grid env j.tile j.call).1.err = none := by
      rw [List.findSome?_eq_none_iff] at hfs
      intro j hj
      exact hfs _ (List.mem_map.2 ⟨j, hj, rfl⟩)
    have hex : ∀ j : Job τ, ∃ v : τ, j ∈ js → Kept D bk .grid (DiskLike.gridD env bk j.call (j.tile, focus d' (P j.idx))).1.st.1 (DiskLike.gridD env bk j.call (j.tile, focus d' (P j.idx))).1.st.2.now v ∧
        Requeried env (GridLike.grid env j.tile j.call).1.st v := by
      intro j
      by_cases hj : j ∈ js
      · obtain ⟨v, hv⟩ := ((hgrid j hj).2 (hnone j hj)).2
        exact ⟨v, fun _ => hv⟩
      · exact ⟨j.tile, fun h => absurd h hj⟩
    choose v hv using hex
    obtain ⟨d2, f1, f2, f3, f4⟩ := flushJobs_spec (D := D) bk (P := P) (fun j => (DiskLike.gridD env bk j.call (j.tile, focus d' (P j.idx))).1.st.1) v js hP hI (g.withTiles U R) d1 hO
      (fun j hj => ⟨_, hUt j hj⟩) (fun j hj => by rw [w4 j hj]; exact (hv j hj).1)
    have hres : (js.map (fun j => DiskLike.gridD env bk j.call (j.tile, focus d' (P j.idx)))).map Prod.snd = (js.map (fun j => GridLike.grid env j.tile j.call)).map Prod.snd := by
      rw [List.map_map, List.map_map]
      exact List.map_congr_left (fun j hj => ((hgrid j hj).2 (hnone j hj)).1)
    rw [foldl_zip_map, forEach_zip_map, setAll_grid, htiles, f1, setAll_grid, Res.andThen_ok, hres]
    have hRfold : ∀ q, (∀ j ∈ js, q ≠ P j.idx) → tileFolder d2.now q = tileFolder d'.now q := fun q hq => by rw [f3 q hq, w3 q hq]
    refine ⟨setAll v js U, _, d2, rfl, rfl, ?_, ?_, ?_, hsim.top.trans (w2.trans f2)⟩
    · rw [← htiles]
      exact setAll_queried js (fun j hj => (hv j hj).2) hsim.slots (fun j hj => by have := hjob j hj; simp [prefixTiles]; omega)
    · intro k hk
      rw [setAll_ne v js U (fun j hj => by have := hjob j hj; omega)]
      exact hsim.rest k (by omega)
    · have hat : ∀ (k : Nat) (t : τ) (X : List ℚ), ((g.withTiles (setAll v js U) X).tile? k = some (some t) → (∃ j ∈ js, j.idx = k ∧ t = v j) ∨ ((∀ j ∈ js, j.idx ≠ k) ∧ (g.withTiles U R).tile? k = some (some t))) := by
        intro k t X hk
        have hk : (setAll v js U).flat[k]? = some (some t) := hk
        by_cases hex : ∃ j ∈ js, j.idx = k
        · obtain ⟨j, hj, rfl⟩ := hex
          rw [setAll_mem v js hI U (fun j hj => by have := hjob j hj; omega) hj] at hk
          exact Or.inl ⟨j, hj, rfl, (Option.some.inj (Option.some.inj hk)).symm⟩
        · push Not at hex
          rw [setAll_ne v js U hex] at hk
          exact Or.inr ⟨hex, hk⟩
      have hlt : ∀ (k : Nat) (X : Arr2 (Option τ)) (Y : List ℚ) o, X.flat.length = ny * nx → (g.withTiles X Y).tile? k = some o → k < ny * nx := fun k X Y o hX ho => slot_lt (g := g.withTiles X Y) rfl hX ho
      have hSlen : (setAll v js U).flat.length = ny * nx := by rw [setAll_length]; exact hUlen
      constructor
      · rintro t q ⟨k, hk, hq⟩
        have hkl := hlt k _ _ _ hSlen hk
        rw [horg _ _ k hkl] at hq
        cases hq
        rcases hat k t _ hk with ⟨j, hj, rfl, rfl⟩ | ⟨hne, hk'⟩
        · exact f4 j hj
        · rw [hRfold _ (fun j hj he => hne j hj (hPinj _ _ (by have := hjob j hj; omega) hkl he.symm))]
          exact hsim.sync.has t _ ⟨k, hk', horg U R k hkl⟩
      · intro q f hf hno
        have hq : ∀ j ∈ js, q ≠ P j.idx := by
          rintro j hj rfl
          exact hno (v j) ⟨j.idx, setAll_mem v js hI U (fun j hj => by have := hjob j hj; omega) hj, horg _ _ _ (by have := hjob j hj; omega)⟩
        rw [hRfold q hq] at hf
        refine hsim.sync.rest q f hf ?_
        rintro t ⟨k, hk, hkq⟩
        have hkl := hlt k _ _ _ hUlen hk
        rw [horg _ _ k hkl] at hkq
        cases hkq
        refine hno t ⟨k, ?_, horg _ _ k hkl⟩
        show (setAll v js U).flat[k]? = _
        rw [setAll_ne v js U (fun j hj he => hq j hj (by rw [he]))]
        exact hk

/-- the loop of `_grid_parallel` over the first `m` slots -/
theorem parLoopD_spec [LawfulGrid τ] [LawfulQuery τ] {env : Env} {C : Family → ChildSpec τ size sub bs fl} (S : DiskSpec env C D G) (bk : Backend) {F F' : Family} (hpos : 0 < size)
    {x0 y0 : ℚ} {nx ny : Nat} {T : Arr2 (Option τ)} {g : Grid τ} {A : Store} (h : Ready (C F) x0 y0 nx ny T g A) (n : Nat) (a : GridCall) (p : Plan) (hF : a.alg.family = some F')
    (hFF : F' = F ∨ a.clear = true) {limit : Option ℚ} (hlim : parLimit a p = .ok limit) (d : Disk (Root φ)) (hd : TSync D G g d.now) {m : Nat} (hm : m ≤ ny * nx) :
    (∃ b U R d', b ≤ m ∧ Res.forEach (List.range m) (⟨{ g with resolutions := [] }, a.clear, []⟩ : ParState τ) (parStep env n a p) =
        .ok ⟨g.withTiles (prefixTiles (outAt env g a p limit T) T b) R, clearAt a (T.flat.take m), jobsIn g a p limit T b m⟩ ∧
      Res.forEach (List.range m) (⟨({ g with resolutions := [] }, d), a.clear, []⟩ : ParStateD τ φ) (parStepD env bk n a p) =
        .ok ⟨(g.withTiles U R, d'), clearAt a (T.flat.take m), jobsIn g a p limit T b m⟩ ∧
      (∀ (k : Nat) o, k < m → T.flat[k]? = some o → BorderOk g a limit T k o) ∧ RunSim D G env g (outAt env g a p limit T) T b U R d d') ∨
    (∃ e, (Res.forEach (List.range m) (⟨{ g with resolutions := [] }, a.clear, []⟩ : ParState τ) (parStep env n a p)).err = some e ∧
      (Res.forEach (List.range m) (⟨({ g with resolutions := [] }, d), a.clear, []⟩ : ParStateD τ φ) (parStepD env bk n a p)).err = some e) := by
  have hg := h.tiles
  have hlen : T.flat.length = ny * nx := h.rep.2.2.1
  induction m with
  | zero =>
    left
    have h1 : ({ g with resolutions := [] } : Grid τ) = g.withTiles T [] := by cases g; simp only at hg; subst hg; rfl
    have h2 : clearAt a ([] : List (Option τ)) = a.clear := by simp [clearAt]
    refine ⟨0, T, [], d, le_refl _, ?_, ?_, fun k o hk => by omega, ?_, fun _ _ => rfl, ?_, topOf_refl _⟩
    · simp only [List.range_zero, Res.forEach_nil, prefixTiles_zero, List.take_zero, jobsIn_self, h1, h2]
    · simp only [List.range_zero, Res.forEach_nil, List.take_zero, jobsIn_self, h1, h2]
    · rw [prefixTiles_zero]; exact slotsQueried_refl env T
    · rw [← h1]
      exact hd.congr (fun t p => has_congr rfl rfl rfl t p) (fun _ => rfl)
  | succ m ih =>
    have hm' : m < T.flat.length := by omega
    obtain ⟨o, ho⟩ : ∃ o, T.flat[m]? = some o := ⟨_, List.getElem?_eq_getElem hm'⟩
    rw [List.range_succ, Res.forEach_append, Res.forEach_append]
    rcases ih (by omega) with ⟨b, U, R, d', hbm, h1, h2, h3, h4⟩ | ⟨e, h1, h2⟩
    · rw [h1, h2, Res.andThen_ok, Res.andThen_ok, Res.forEach_cons, Res.forEach_cons]
      have htile : (g.withTiles (prefixTiles (outAt env g a p limit T) T b) R).tile? m = some o := by
        show (prefixTiles (outAt env g a p limit T) T b).flat[m]? = some o
        rw [prefixTiles_get, ho, Option.map_some, if_neg (by omega)]
      have htileU : (g.withTiles U R).tile? m = some o := by
        show U.flat[m]? = some o
        rw [h4.rest m hbm]; exact ho
      have hnb := neighborPoints_prefix env (g := g) a p limit hg b R
      have hUlen : U.flat.length = ny * nx := by
        have := h4.slots.1
        simp only [Arr2.dims, Prod.mk.injEq] at this
        rw [this.2.2]; simpa [prefixTiles] using hlen
      have hnbU : ∀ k buf, (g.withTiles U R).neighborPoints k buf = g.neighborPoints k buf := by
        have hd := h4.slots.1
        simp only [Arr2.dims, Prod.mk.injEq] at hd
        refine neighborPoints_congr h.tiles rfl hd.1 hd.2.1 (by rw [hlen]; exact hUlen) ?_
        intro k o o' h1 h2
        refine sameSide_trans (o' := if k < b then (outAt env g a p limit T k o).1.st else o) ?_ (slotsQueried_side h4.slots k _ _ (by rw [prefixTiles_get, h1]; rfl) h2)
        split
        · exact sameSide_outcome _ _ _ _ _ _ _ _
        · exact sameSide_refl _
      have hjs := jobsIn_succ g a p limit hbm ho
      have htk := take_succ_eq ho
      have hextend : ∀ (hbo : BorderOk g a limit T m o), ∀ (k : Nat) o, k < m + 1 → T.flat[k]? = some o → BorderOk g a limit T k o := by
        intro hbo k o' hk ho'
        rcases Nat.lt_succ_iff_lt_or_eq.1 hk with h | rfl
        · exact h3 k o' h ho'
        · rw [ho] at ho'; cases ho'; exact hbo
      unfold parStep parStepD
      simp only [htile, htileU]
      cases o with
      | none =>
        left
        have hj : jobAt g a p limit T m none = none := rfl
        refine ⟨b, U, R, d', by omega, ?_, ?_, hextend trivial, h4⟩
        · simp only [Res.andThen_ok, Res.forEach_nil]
          rw [hjs, hj, htk, clearAt_none]
          simp
        · simp only [Res.andThen_ok, Res.forEach_nil]
          rw [hjs, hj, htk, clearAt_none]
          simp
      | some t =>
        simp only
        by_cases hsk : skips a (clearAt a (T.flat.take m)) t = true
        · left
          have hj : jobAt g a p limit T m (some t) = none := by unfold jobAt; simp only [hsk, if_true]
          refine ⟨b, U, addNew R (GridLike.resolutions t), d', by omega, ?_, ?_, hextend (Or.inl hsk), h4.slots, h4.rest, ?_, h4.top⟩
          · rw [if_pos hsk]
            simp only [Res.andThen_ok, Res.forEach_nil]
            rw [hjs, hj, htk, clearAt_skip hsk]
            simp only [Option.toList_none, List.append_nil]
            rfl
          · rw [if_pos hsk]
            simp only [Res.andThen_ok, Res.forEach_nil]
            rw [hjs, hj, htk, clearAt_skip hsk]
            simp only [Option.toList_none, List.append_nil]
            rfl
          · exact h4.sync.congr (fun t p => has_congr rfl rfl rfl t p) (fun _ => rfl)
        · rw [if_neg hsk, if_neg hsk, hlim]
          simp only
          rw [borderFor_congr hnb, borderFor_congr hnbU]
          cases hb : g.borderFor m t a.alg limit a.border with
          | error e => right; exact ⟨e, rfl, rfl⟩
          | ok bd =>
            have hcall : ∀ V, (g.withTiles V R).childCall a p (clearNext a (clearAt a (T.flat.take m)) t) bd =
              g.childCall a p (clearNext a (clearAt a (T.flat.take m)) t) bd := fun _ => rfl
            have hj : jobAt g a p limit T m (some t) = some ⟨m, t, g.childCall a p (clearNext a (clearAt a (T.flat.take m)) t) bd⟩ := by
              unfold jobAt; simp only [hsk, hb]; rfl
            have hbo' := hextend (Or.inr ⟨bd, hb⟩)
            simp only [hcall]
            have hjl : jobsIn g a p limit T b m ++ [⟨m, t, g.childCall a p (clearNext a (clearAt a (T.flat.take m)) t) bd⟩] = jobsIn g a p limit T b (m + 1) := by
              rw [hjs, hj]; rfl
            rw [hjl, ← clearAt_run (by simpa using hsk), ← htk]
            by_cases hn : (jobsIn g a p limit T b (m + 1)).length = n
            · rw [if_pos hn, if_pos hn]
              rcases runJobsD_spec S bk hpos h a p hF hFF (b := b) (m := m + 1) (by omega) hm hbo' h4 with ⟨U', R', d'', e1, e2, e3⟩ | ⟨e, e1, e2⟩
              · left
                refine ⟨m + 1, U', R', d'', le_refl _, ?_, ?_, hbo', e3⟩
                · rw [e1, jobsIn_self]
                  rfl
                · rw [e2, jobsIn_self]
                  rfl
              · right
                refine ⟨e, ?_, ?_⟩
                · unfold Res.andThen; simp only [e1]
                · unfold Res.andThen; simp only [e2]
            · rw [if_neg hn, if_neg hn]
              left
              exact ⟨b, U, R, d', by omega, rfl, rfl, hbo', h4⟩
    · right
      refine ⟨e, ?_, ?_⟩
      · unfold Res.andThen; rw [h1]
      · unfold Res.andThen; rw [h2]

/-- `grid` with an output folder, in one process or with workers -/
theorem gridWithD_spec [LawfulGrid τ] [LawfulQuery τ] {env : Env} {C : Family → ChildSpec τ size sub bs fl} (S : DiskSpec env C D G) (bk : Backend) {F F' : Family} (hpos : 0 < size)
    {x0 y0 : ℚ} {nx ny : Nat} {T : Arr2 (Option τ)} {g : Grid τ} {A : Store} (h : Ready (C F) x0 y0 nx ny T g A) (hmask : MaskProper g.mask) (a : GridCall) (hF : a.alg.family = some F')
    (hFF : F' = F ∨ a.clear = true) (dask : Option Nat) (d : Disk (Root φ)) (hd : TSync D G g d.now) :
    (gridWithD env bk a dask (g, d)).err = (g.gridWith env a dask).err ∧
    ((g.gridWith env a dask).err = none → ∃ v d', gridWithD env bk a dask (g, d) = .ok (v, d') ∧ Requeried env (g.gridWith env a dask).st v ∧
      v.resolutions = (g.gridWith env a dask).st.resolutions ∧ Synced D G true v d'.now) := by
  cases dask with
  | none => exact gridRunD_spec S bk hpos h hmask a hF hFF d hd
  | some n =>
    show ((inMemory (gridPlan env g a).1 d).andThen (gridParallelD env bk n a (gridPlan env g a).2)).err = (g.gridDask env n a).err ∧
      ((g.gridDask env n a).err = none → ∃ v d', (inMemory (gridPlan env g a).1 d).andThen (gridParallelD env bk n a (gridPlan env g a).2) = .ok (v, d') ∧
        Requeried env (g.gridDask env n a).st v ∧ v.resolutions = (g.gridDask env n a).st.resolutions ∧ Synced D G true v d'.now)
    unfold gridDask
    simp only
    rcases gridPlan_spec env g a with ⟨gr, h1, -, -, h4, -⟩ | ⟨al, gr, gp, e, h1⟩
    · obtain ⟨limit, hlim⟩ := parLimit_ok a (gridPlan env g a).2 (fun h => by obtain ⟨h7, h8⟩ := h4 h; rw [h7]; exact h8)
      rw [h1]
      have e1 : inMemory (Res.ok (g.withAttrs (some a.alg) gr a.params [])) d = .ok (g.withAttrs (some a.alg) gr a.params [], d) := rfl
      rw [e1, Res.andThen_ok, Res.andThen_ok]
      have h' : Ready (C F) x0 y0 nx ny T (g.withAttrs (some a.alg) gr a.params []) A :=
        ⟨h.tileSize, h.subtileSize, h.backscatter, h.txs, h.tys, h.edgesX, h.edgesY, h.tiles, h.rep, h.inr, h.nx_pos, h.ny_pos, h.dims⟩
      have hmask' : MaskProper (g.withAttrs (some a.alg) gr a.params []).mask := hmask
      have hd' : TSync D G (g.withAttrs (some a.alg) gr a.params []) d.now := hd.congr (fun t p => has_congr rfl rfl rfl t p) (fun _ => rfl)
      generalize g.withAttrs (some a.alg) gr a.params [] = g1 at *
      generalize (gridPlan env g a).2 = p at *
      unfold gridParallelD gridParallel
      have hsl : g1.slots = ny * nx := by rw [slots_eq h'.tiles]; exact h'.rep.2.2.1
      simp only [hsl]
      rcases parLoopD_spec S bk hpos h' n a p hF hFF hlim d hd' (le_refl _) with ⟨b, U, R, d', hbm, e1, e2, e3, e4⟩ | ⟨e, e1, e2⟩
      · rw [e1, e2]
        simp only [Res.ok_err, Res.ok_st]
        have hlast : (∃ U' R' d'', lastJobs env (g1.withTiles (prefixTiles (outAt env g1 a p limit T) T b) R) (jobsIn g1 a p limit T b (ny * nx)) =
              .ok (g1.withTiles (prefixTiles (outAt env g1 a p limit T) T (ny * nx)) R') ∧
            lastJobsD env bk (g1.withTiles U R, d') (jobsIn g1 a p limit T b (ny * nx)) = .ok (g1.withTiles U' R', d'') ∧ RunSim D G env g1 (outAt env g1 a p limit T) T (ny * nx) U' R' d d'') ∨
            (∃ e, (lastJobs env (g1.withTiles (prefixTiles (outAt env g1 a p limit T) T b) R) (jobsIn g1 a p limit T b (ny * nx))).err = some e ∧
              (lastJobsD env bk (g1.withTiles U R, d') (jobsIn g1 a p limit T b (ny * nx))).err = some e) := by
          have hrun := runJobsD_spec S bk hpos h' a p hF hFF hbm (le_refl _) e3 e4
          unfold lastJobs lastJobsD
          by_cases hj : (jobsIn g1 a p limit T b (ny * nx)).isEmpty = true
          · rw [if_pos hj, if_pos hj]
            rw [List.isEmpty_iff.1 hj] at hrun
            rcases hrun with ⟨U', R', d'', r1, r2, r3⟩ | ⟨e, r1, -⟩
            · left
              exact ⟨U', R', d'', r1, r2, r3⟩
            · cases r1
          · rw [if_neg hj, if_neg hj]
            exact hrun
        rcases hlast with ⟨U', R', d'', r1, r2, r3⟩ | ⟨e, r1, r2⟩
        · rw [r1, r2, Res.andThen_ok, Res.andThen_ok]
          simp only [Res.ok_err, Res.ok_st, true_and, forall_true_left]
          refine ⟨_, _, rfl, ?_, rfl, _, saveGrid_now bk _ d'', headerOk_save bk (by exact hmask') _, ?_⟩
          · exact requeried_tiles (g := { g1.withTiles (prefixTiles (outAt env g1 a p limit T) T (ny * nx)) R' with resolutions := npUnique R' }) rfl r3.slots
          · exact r3.sync.congr (fun t p => has_congr rfl rfl rfl t p) (saveGrid_folder bk _ d'')
        · simp only [Res.andThen, r1, r2]
          simp
      · rw [e1, e2]
        simp
    · rw [h1]
      exact ⟨rfl, fun h => by cases h⟩

end Grid
end Bathy
