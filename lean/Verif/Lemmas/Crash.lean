import Verif.Spec.Crash
import Verif.Lemmas.DiskLoad

/-!
# What is on disk between the writes of two tiles
-/

namespace Bathy
namespace Grid
variable {τ φ : Type} [DiskLike τ φ] [Queried τ] [LawfulGrid τ] {size sub : ℚ} {bs : Bool} {fl : Fields} {D : τ → φ → Prop} {G : φ → Prop}

omit [LawfulGrid τ] in
/-- the first tiles of `add_points` -/
theorem addSome_ready {env : Env} {C : Family → ChildSpec τ size sub bs fl} (S : DiskSpec env C D G) (b : Backend) (F : Family) (hs : 0 < size) {x0 y0 : ℚ} {nx ny : Nat} {T : Arr2 (Option τ)}
    {g : Grid τ} {A : Store} (h : Ready (C F) x0 y0 nx ny T g A) (hm : MaskProper g.mask) {c : String} {pts : List Pt} (hc : c ∉ A.names) (hin : ∀ p ∈ pts, InRect x0 y0 size nx ny p)
    (m : Nat) (d : Disk (Root φ)) (hd : TSync D G g d.now) :
    ∃ (T' : Arr2 (Option τ)) (d' : Disk (Root φ)) (bins : List Nat), bin2d [pts.map Pt.x] [pts.map Pt.y] g.edgesX g.edgesY = .ok bins ∧
      Res.forEach ((npUnique bins).take m) (g, saveGrid b g d) (addToTileD b fl pts bins c) = .ok ({ g with tiles := some T' }, d') ∧
      Synced D G false { g with tiles := some T' } d'.now ∧
      ∃ B : Store, Ready (C F) x0 y0 nx ny T' { g with tiles := some T' } B ∧ (∀ n, n ≠ c → B.ptsOf n = A.ptsOf n) ∧
        (B.ptsOf c).Sublist pts := by
  obtain ⟨hr1, hr2, hlen, hslots⟩ := h.rep
  have hbin := bin2d_rect hs pts hin
  rw [← h.edgesX, ← h.edgesY] at hbin
  have hsub : (npUnique (pts.map (cellOf x0 y0 size nx))).take m ⊆ npUnique (pts.map (cellOf x0 y0 size nx)) := List.take_subset _ _
  generalize hks : (npUnique (pts.map (cellOf x0 y0 size nx))).take m = ks at hsub
  have hlt : ∀ k ∈ ks, k < ny * nx := by
    intro k hk
    have hk := hsub hk
    rw [mem_npUnique, List.mem_map] at hk
    obtain ⟨p, hp, rfl⟩ := hk
    exact cellOf_rect_lt hs (hin p hp)
  have hsel : ∀ k ∈ ks, boolIndex pts ((pts.map (cellOf x0 y0 size nx)).map (fun b => decide (b = k))) ≠ [] := by
    intro k hk he
    have hk' := hlt k hk
    have hk := hsub hk
    rw [mem_npUnique, List.mem_map] at hk
    obtain ⟨p, hp, hpk⟩ := hk
    rw [select_rect hs pts hin hk', List.filter_eq_nil_iff] at he
    have := he p hp
    simp only [decide_eq_true_eq] at this
    exact this ((cellOf_rect_iff hs (hin p hp) hk').1 hpk)
  have hbox : ∀ k ∈ ks, ∀ p ∈ boolIndex pts ((pts.map (cellOf x0 y0 size nx)).map (fun b => decide (b = k))), InBox (slotX x0 size nx k) (slotY y0 size nx k) size p := by
    intro k hk p hp
    rw [select_rect hs pts hin (hlt k hk)] at hp
    simpa using (List.mem_filter.1 hp).2
  have hnd : ks.Nodup := by rw [← hks]; exact (List.take_sublist _ _).nodup (npUnique_nodup _)
  have hg : ({ g with tiles := some T } : Grid τ) = g := by rw [← h.tiles]
  obtain ⟨T', d', h1, h2, h3, h4⟩ := addLoopD_spec S b F hs h.tileSize h.subtileSize h.backscatter h.txs h.tys hc ks hnd hlt hsel hbox T hlen (fun k _ o ho => hslots k o ho)
    (saveGrid b g d) (by rw [hg]; exact hd.congr (fun _ _ => Iff.rfl) (saveGrid_folder b g d))
  obtain ⟨T2, e1, e2, e3, e4, e5, e6⟩ := addLoop_spec (C F) h.tileSize h.subtileSize h.backscatter h.txs h.tys hc ks hnd hlt hsel hbox T hlen (fun k _ o ho => hslots k o ho)
  rw [h1] at e1
  obtain rfl : T' = T2 := by
    have := congrArg (fun r : Res (Grid τ) => r.st.tiles) e1
    simpa using this
  rw [hg] at h2
  refine ⟨T', d', _, hbin, by rw [hks]; exact h2, ?_, ?_⟩
  · obtain ⟨F', i1, i2⟩ := h4 _ (saveGrid_now b g d)
    refine ⟨F', i1, ?_, h3⟩
    exact ((headerOk_save b hm _).top i2).numbers rfl rfl rfl rfl rfl rfl
  · refine ⟨A ++ [(c, pts.filter (fun p => decide (cellOf x0 y0 size nx p ∈ ks)))], ?_, ?_, ?_⟩
    · refine ⟨h.tileSize, h.subtileSize, h.backscatter, h.txs, h.tys, h.edgesX, h.edgesY, rfl, ⟨by rw [e2, hr1], by rw [e3, hr2], e4, ?_⟩, ?_, h.nx_pos, h.ny_pos, h.dims⟩
      · intro k o ho
        have hkl : k < ny * nx := by rw [← e4]; exact (List.getElem?_eq_some_iff.1 ho).1
        rw [Store.within_append]
        have hf : (pts.filter (fun p => decide (cellOf x0 y0 size nx p ∈ ks))).filter (fun p => decide (InBox (slotX x0 size nx k) (slotY y0 size nx k) size p)) =
            if k ∈ ks then pts.filter (fun p => decide (InBox (slotX x0 size nx k) (slotY y0 size nx k) size p)) else [] := by
          rw [List.filter_filter]
          split
          · rename_i hk
            apply List.filter_congr
            intro p hp
            by_cases hb : InBox (slotX x0 size nx k) (slotY y0 size nx k) size p
            · have := (cellOf_rect_iff hs (hin p hp) hkl).2 hb
              simp [hb, this, hk]
            · simp [hb]
          · rename_i hk
            rw [List.filter_eq_nil_iff]
            intro p hp
            simp only [Bool.and_eq_true, decide_eq_true_eq, not_and]
            intro hb
            have := (cellOf_rect_iff hs (hin p hp) hkl).2 hb
            rw [this]
            exact hk
        by_cases hk : k ∈ ks
        · obtain ⟨u, hu1, hu2⟩ := e6 k hk
          rw [hu1] at ho
          cases ho
          right
          have hse := hsel k hk
          rw [select_rect hs pts hin hkl] at hu2 hse
          rw [if_pos hk] at hf
          rw [Store.within_single c _ _ _ _ (by rw [hf]; exact hse), hf]
          exact ⟨u, rfl, by simp, hu2⟩
        · rw [e5 k hk] at ho
          rw [if_neg hk] at hf
          rw [Store.within_single_nil _ _ _ _ _ hf, List.append_nil]
          exact hslots k o ho
      · intro p hp
        rw [Store.allPts_append] at hp
        rcases List.mem_append.1 hp with hp | hp
        · exact h.inr p hp
        · simp only [Store.allPts, List.map_cons, List.map_nil, List.flatten_cons, List.flatten_nil, List.append_nil] at hp
          exact hin p (List.mem_filter.1 hp).1
    · intro n hn
      rw [Store.ptsOf_append, Store.ptsOf_not_mem (A := [_]) (by simpa [Store.names] using hn), List.append_nil]
    · rw [Store.ptsOf_append, Store.ptsOf_not_mem A hc, List.nil_append]
      simp only [Store.ptsOf, Store.allPts, decide_true, List.filter_cons_of_pos, List.filter_nil, List.map_cons, List.map_nil, List.flatten_cons, List.flatten_nil, List.append_nil]
      exact List.filter_sublist

/-- the folder after the first tiles of `add_points` were written -/
theorem add_stopped {env : Env} {C : Family → ChildSpec τ size sub bs fl} (hC : Closed env C) (S : DiskSpec env C D G) (hs : 0 < size) {g0 : Grid τ}
    (h0 : ∀ F, GrowInv (C F) g0 []) (h0m : g0.mask = none) (b : Backend) {F : Family} {s exact : Bool} {g : Grid τ} {d : Disk (Root φ)} {A : Store}
    (h : GridHistory env g0 fl F s g A) (hd : InStep D G exact g d A) {pts : List Pt} {c : String} {a : AddArgs} (hok : (g.addPoints ⟨fl, pts⟩ c a).err = none) (m : Nat) :
    ∃ v d', addStoppedD b ⟨fl, pts⟩ c a m (g, d) = .ok (v, d') ∧ Synced D G false v d'.now ∧ MaskProper v.mask ∧ (∃ e, v.extents = some e) ∧
      ∃ (x0 y0 : ℚ) (nx ny : Nat) (T : Arr2 (Option τ)) (B : Store), Ready (C F) x0 y0 nx ny T v B ∧ (∀ n, n ≠ c → B.ptsOf n = A.ptsOf n) ∧ (B.ptsOf c).Sublist pts := by
  have hi := (history_inv hC hs h0 h0m h).1
  have hp : pts ≠ [] := by
    rintro rfl
    exact addPoints_nil hi c a fl hok
  have hc : c ∉ A.names := by
    intro hc
    have : g.info.container.has c = true := by rw [Dict.has_iff, hi.cont]; exact hc
    unfold addPoints at hok
    rw [this] at hok
    simp at hok
  have hm : (g.info.update c a).err = none := by
    rcases Option.eq_none_or_eq_some (g.info.update c a).err with hm | ⟨e, hm⟩
    · exact hm
    · exfalso
      unfold addPoints at hok
      simp only [hm] at hok
      split at hok
      · simp at hok
      · simp at hok
  have hmask := history_mask hC hs h0 h0m (h.add pts c a hok)
  obtain ⟨u, hu, -, -, -, -, i, j, nx, ny, -, -, hext, -, g2, hpl, hg2⟩ := addPoints_placed (C F) hs hi hc hp hm
  rw [hu] at hmask
  have hk : c ∉ g.info.container.keys := by rw [hi.cont]; exact hc
  obtain ⟨ga, s1, s2⟩ := hpl.step
  obtain ⟨T, hready⟩ := hpl.ready
  have hg2e : g2.extents = u.extents := by
    obtain ⟨T', e1, -⟩ := addToTiles_spec (C F) hs hready.tileSize hready.subtileSize hready.backscatter hready.txs hready.tys hready.edgesX hready.edgesY hready.tiles hready.rep hc hpl.inr
    have huv := hu
    unfold addPoints at huv
    rw [(Dict.has_false_iff _ _).2 hk] at huv
    simp only [Bool.false_eq_true, if_false, hm] at huv
    rw [s1, Res.andThen_ok, s2, Res.andThen_ok, e1, Res.andThen_ok] at huv
    exact congrArg (fun r : Res (Grid τ) => r.st.extents) huv
  have hg2m : MaskProper g2.mask := by rw [hg2]; exact hmask
  obtain ⟨T', d', bins, h1, h2, h3, B, h4, h5, h6⟩ := addSome_ready S b F hs hready hg2m hc hpl.inr m d
    ((inStep_tsync hi hd).congr (fun t p => (hpl.has t p).trans (has_congr rfl rfl rfl t p)) (fun _ => rfl))
  refine ⟨_, d', ?_, h3, hg2m, ⟨_, hg2e.trans hext⟩, _, _, nx, ny, T', B, h4, h5, h6⟩
  unfold addStoppedD
  simp only
  rw [(Dict.has_false_iff _ _).2 hk]
  simp only [Bool.false_eq_true, if_false, hm]
  rw [s1]
  have e1 : inMemory (Res.ok ga) d = .ok (ga, d) := rfl
  have e2 : inMemory (Res.ok g2) d = .ok (g2, d) := rfl
  rw [e1, Res.andThen_ok]
  simp only
  rw [s2, e2, Res.andThen_ok]
  simp only
  rw [h1]
  exact h2

/-! ### removing -/

/-- the soundings that are left when `remove_points` of `c` stopped: those of `c` in the slots `ks` are gone -/
def leftIn (A : Store) (c : String) (keep : Pt → Bool) : Store := A.map (fun q => if q.1 = c then (q.1, q.2.filter keep) else q)

theorem leftIn_remove (A : Store) (c : String) (keep : Pt → Bool) : (leftIn A c keep).remove c = A.remove c := by
  induction A with
  | nil => rfl
  | cons q A ih =>
    simp only [leftIn, Store.remove, List.map_cons, List.filter_cons] at ih ⊢
    by_cases hq : q.1 = c
    · simp only [hq, if_true, ne_eq, not_true, decide_false, Bool.false_eq_true, if_false]
      exact ih
    · simp only [hq, if_false, ne_eq, not_false_iff, decide_true, if_true]
      rw [ih]

theorem leftIn_sub {A : Store} {c : String} {keep : Pt → Bool} {p : Pt} (h : p ∈ (leftIn A c keep).allPts) : p ∈ A.allPts := by
  rw [Store.mem_allPts] at h ⊢
  obtain ⟨q, hq, hp⟩ := h
  unfold leftIn at hq
  rw [List.mem_map] at hq
  obtain ⟨q', hq', rfl⟩ := hq
  refine ⟨q', hq', ?_⟩
  split at hp
  · exact (List.mem_filter.1 hp).1
  · exact hp

theorem leftIn_within {A : Store} {c : String} {keep : Pt → Bool} {x y s : ℚ} {b : Bool} (h : ∀ p ∈ A.allPts, InBox x y s p → keep p = b) :
    (leftIn A c keep).within x y s = if b then A.within x y s else (A.within x y s).remove c := by
  induction A with
  | nil => cases b <;> rfl
  | cons q A ih =>
    have h1 : ∀ p ∈ q.2, InBox x y s p → keep p = b := fun p hp => h p (by rw [Store.allPts_cons]; exact List.mem_append_left _ hp)
    have ih := ih (fun p hp => h p (by rw [Store.allPts_cons]; exact List.mem_append_right _ hp))
    have e1 : leftIn (q :: A) c keep = [if q.1 = c then (q.1, q.2.filter keep) else q] ++ leftIn A c keep := rfl
    have e2 : (q :: A) = [q] ++ A := rfl
    have e3 : ∀ B B' : Store, (B ++ B').remove c = B.remove c ++ B'.remove c := fun B B' => List.filter_append ..
    rw [e1, e2, Store.within_append, Store.within_append, ih, e3]
    have key : Store.within [if q.1 = c then (q.1, q.2.filter keep) else q] x y s = if b then Store.within [q] x y s else (Store.within [q] x y s).remove c := by
      obtain ⟨n, l⟩ := q
      by_cases hq : n = c
      · subst hq
        simp only [if_true]
        cases b with
        | true =>
          have : (l.filter keep).filter (fun p => decide (InBox x y s p)) = l.filter (fun p => decide (InBox x y s p)) := by
            rw [List.filter_filter]
            apply List.filter_congr
            intro p hp
            by_cases hb : InBox x y s p
            · simp [hb, h1 p hp hb]
            · simp [hb]
          simp only [if_true]
          by_cases hl : l.filter (fun p => decide (InBox x y s p)) = []
          · rw [Store.within_single_nil _ _ _ _ _ hl, Store.within_single_nil _ _ _ _ _ (this.trans hl)]
          · rw [Store.within_single _ _ _ _ _ hl, Store.within_single _ _ _ _ _ (by rw [this]; exact hl), this]
        | false =>
          have : (l.filter keep).filter (fun p => decide (InBox x y s p)) = [] := by
            rw [List.filter_filter, List.filter_eq_nil_iff]
            intro p hp
            by_cases hb : InBox x y s p
            · simp [h1 p hp hb]
            · simp [hb]
          rw [Store.within_single_nil _ _ _ _ _ this, ← Store.within_remove]
          simp [Store.remove, Store.within_nil]
      · simp only [if_neg hq]
        cases b with
        | true => rfl
        | false =>
          simp only [Bool.false_eq_true, if_false]
          rw [← Store.within_remove]
          simp [Store.remove, hq]
    rw [key]
    cases b <;> rfl

omit [DiskLike τ φ] [Queried τ] [LawfulGrid τ] in
theorem removeFromTile_shift [TileLike τ] (c : String) (g : Grid τ) (k : Nat) (n δ : Int) (hn : g.numberOfTiles = some n) :
    ∃ n', (removeFromTile c g k).st.numberOfTiles = some n' ∧
      removeFromTile c { g with numberOfTiles := some (n + δ) } k = ⟨{ (removeFromTile c g k).st with numberOfTiles := some (n' + δ) }, (removeFromTile c g k).err⟩ := by
  have ht : ∀ j, ({ g with numberOfTiles := some (n + δ) } : Grid τ).tile? j = g.tile? j := fun _ => rfl
  unfold removeFromTile
  rw [ht]
  rcases hk : g.tile? k with _ | _ | t
  · exact ⟨n, hn, rfl⟩
  · exact ⟨n, hn, rfl⟩
  · simp only
    obtain ⟨T, hT⟩ : ∃ T, g.tiles = some T := by
      unfold tile? at hk
      cases e : g.tiles with
      | none => rw [e] at hk; cases hk
      | some T => exact ⟨T, rfl⟩
    have hset : ∀ (v : Option τ), g.setTile k v = { g with tiles := some (T.setFlat k v) } := fun v => by unfold setTile; rw [hT]
    have hset' : ∀ (v : Option τ), ({ g with numberOfTiles := some (n + δ) } : Grid τ).setTile k v = { g with tiles := some (T.setFlat k v), numberOfTiles := some (n + δ) } :=
      fun v => by unfold setTile; simp only [hT]
    rw [hset, hset']
    cases (TileLike.removePoints t c).err with
    | some e => exact ⟨n, hn, rfl⟩
    | none =>
      simp only
      cases TileLike.isEmpty (TileLike.removePoints t c).st with
      | false => exact ⟨n, hn, rfl⟩
      | true =>
        simp only [if_true]
        unfold removeTile
        simp only [tile?, Option.bind_some]
        rcases ho : (T.setFlat k (some (TileLike.removePoints t c).st)).flat[k]? with _ | _ | v
        · exact ⟨n, hn, rfl⟩
        · exact ⟨n, hn, rfl⟩
        · simp only
          have e : n - 1 + δ = n + δ - 1 := by omega
          cases hmk : g.mask with
          | none => exact ⟨n - 1, by simp [hn, Res.andThen_ok, setTile], by simp [hn, setTile, e, Res.ok, Res.andThen]⟩
          | some mk =>
            simp only
            by_cases ha : mk.flat.any id = true
            · by_cases hl : k < mk.flat.length
              · exact ⟨n - 1, by simp [hn, setTile, ha, hl], by simp [hn, setTile, ha, hl, e, Res.ok, Res.andThen]⟩
              · exact ⟨n, by simp [hn, Res.andThen_fail, ha, hl], by simp [ha, hl, Res.fail, Res.andThen]⟩
            · exact ⟨n - 1, by simp [hn, setTile, ha], by simp [hn, setTile, ha, e, Res.ok, Res.andThen]⟩

omit [DiskLike τ φ] [Queried τ] [LawfulGrid τ] in
/-- the loop does not look at the number of tiles -/
theorem removeLoop_shift [TileLike τ] (c : String) (ks : List Nat) (g : Grid τ) (n δ : Int) (hn : g.numberOfTiles = some n) :
    ∃ n', (Res.forEach ks g (removeFromTile c)).st.numberOfTiles = some n' ∧
      Res.forEach ks { g with numberOfTiles := some (n + δ) } (removeFromTile c) =
        ⟨{ (Res.forEach ks g (removeFromTile c)).st with numberOfTiles := some (n' + δ) }, (Res.forEach ks g (removeFromTile c)).err⟩ := by
  induction ks generalizing g n with
  | nil => exact ⟨n, hn, rfl⟩
  | cons k ks ih =>
    obtain ⟨n1, e1, e2⟩ := removeFromTile_shift c g k n δ hn
    rw [Res.forEach_cons, Res.forEach_cons, e2]
    generalize removeFromTile c g k = r at *
    obtain ⟨st, err⟩ := r
    cases err with
    | some e => exact ⟨n1, e1, rfl⟩
    | none => exact ih st n1 e1

omit [LawfulGrid τ] in
/-- the folder after the first slots were visited by `remove_points`: the attributes of the grid as before, some tiles without the soundings of `c` -/
theorem remove_stopped {env : Env} {C : Family → ChildSpec τ size sub bs fl} (S : DiskSpec env C D G) (hs : 0 < size) (b : Backend) {F : Family} {exact : Bool} {g : Grid τ}
    {d : Disk (Root φ)} {A : Store} {x0 y0 : ℚ} {nx ny : Nat} {T : Arr2 (Option τ)} (h : Frame (C F) x0 y0 nx ny T g A) (hne : ∀ q ∈ A, q.2 ≠ [])
    (hcont : g.info.container.keys = A.names) (hmk : MaskOk g (ny * nx)) (hd : Synced D G exact g d.now) {c : String} (hc : c ∈ A.names) (m : Nat) :
    ∃ v d' T1, removeStoppedD b c m (g, d) = .ok (v, d') ∧ Synced D G exact { g with tiles := some T1 } d'.now ∧
      ∃ B : Store, Ready (C F) x0 y0 nx ny T1 { g with tiles := some T1 } B ∧ B.remove c = A.remove c := by
  have hA : A ≠ [] := by rintro rfl; simp [Store.names] at hc
  have hhas : g.info.container.has c = true := by rw [Dict.has_iff, hcont]; exact hc
  obtain ⟨hr1, hr2, hlen, hslot⟩ := h.rep
  obtain ⟨F0, hF0, hhead, hsync⟩ := hd
  generalize hg0 : ({ g with info := { g.info with container := g.info.container.pop c } } : Grid τ) = g0
  have hg0t : g0.tiles = some T := by rw [← hg0]; exact h.tiles
  have hg0m : g0.mask = g.mask := by rw [← hg0]
  have hg0n : g0.numberOfTiles = some ((T.flat.countP Option.isSome : Nat) : Int) := by rw [← hg0]; exact h.num
  have hemp : g0.isEmpty = false := by
    have : g0.isEmpty = g.isEmpty := by rw [← hg0]; rfl
    rw [this, frame_isEmpty (C F) hs h.toReady hne]; simpa using hA
  have hslots : g0.slots = ny * nx := by unfold slots; rw [hg0t]; exact hlen
  have hself : ({ g0 with tiles := some T, mask := g.mask, numberOfTiles := some ((T.flat.countP Option.isSome : Nat) : Int) } : Grid τ) = g0 := by
    rw [← hg0t, ← hg0m, ← hg0n]
  have hsync0 : TSync D G g0 d.now := by rw [← hg0]; exact hsync.congr (fun t p => has_congr rfl rfl rfl t p) (fun _ => rfl)
  generalize hks : (List.range (ny * nx)).take m = ks
  have hlt : ∀ k ∈ ks, k < ny * nx := fun k hk => List.mem_range.1 (List.take_subset m _ (hks ▸ hk))
  have hnd : ks.Nodup := by rw [← hks]; exact (List.take_sublist _ _).nodup List.nodup_range
  obtain ⟨T', m', h1, -, -, h4, h5, h6, h7, h8⟩ := removeLoop_spec (C F) (g := g0) (minX := x0) (minY := y0) (nx := nx) (ny := ny) (A := A) c
    ks hnd hlt T hlen g.mask (Or.inl hmk) (fun k _ o ho => hslot k o ho)
  rw [hself] at h1
  obtain ⟨v, d', e1, e2, e3, e4, e5, e6, -⟩ := removeLoopD_spec S b F hs (minX := x0) (minY := y0) (nx := nx) (ny := ny)
    (B := fun k => A.within (slotX x0 size nx k) (slotY y0 size nx k) size) c ks hnd g0 (by rw [← hg0]; exact h.txs) (by rw [← hg0]; exact h.tys)
    (fun j o hj => slot_lt hg0t hlen hj) (by
      intro k hk
      have hk := hlt k hk
      rw [← hlen] at hk
      have hk' : T.flat[k]? = some T.flat[k] := List.getElem?_eq_getElem hk
      refine ⟨T.flat[k], ?_, hslot k _ hk'⟩
      unfold tile?; rw [hg0t]; exact hk') (by rw [h1]; rfl) d hsync0
  rw [h1] at e1
  have hv := congrArg Res.st e1
  simp only [Res.ok_st] at hv
  refine ⟨v, d', T', ?_, ?_, leftIn A c (fun p => decide (cellOf x0 y0 size nx p ∉ ks)), ?_, leftIn_remove _ _ _⟩
  · unfold removeStoppedD
    simp only [hhas, if_true]
    rw [hg0, hemp, hslots, hks]
    simp only [Bool.false_eq_true, if_false]
    exact e2
  · obtain ⟨F1, hF1, htop⟩ := e4 F0 hF0
    refine ⟨F1, hF1, ?_, ?_⟩
    · have := hhead.top htop
      exact ⟨this.info, this.txs, this.tys, this.edgesX, this.edgesY, this.mask⟩
    · refine e3.congr (fun t p => ?_) (fun _ => rfl)
      apply has_congr
      · rw [← hv]
      · rw [← hv, ← hg0]
      · rw [← hv, ← hg0]
  · refine ⟨h.tileSize, h.subtileSize, h.backscatter, h.txs, h.tys, h.edgesX, h.edgesY, rfl, ⟨by rw [h4, hr1], by rw [h5, hr2], h6, ?_⟩, fun p hp => h.inr p (leftIn_sub hp), h.nx_pos, h.ny_pos, h.dims⟩
    intro k o ho
    have hkl : k < ny * nx := by rw [← h6]; exact (List.getElem?_eq_some_iff.1 ho).1
    rw [leftIn_within (b := decide (k ∉ ks)) (by
      intro p hp hb
      rw [(cellOf_rect_iff hs (h.inr p hp) hkl).2 hb])]
    by_cases hk : k ∈ ks
    · simp only [hk, not_true, decide_false, Bool.false_eq_true, if_false]
      exact (h8 k hk o ho).1
    · simp only [hk, not_false_iff, decide_true, if_true]
      rw [h7 k hk] at ho
      exact hslot k o ho

omit [DiskLike τ φ] [Queried τ] [LawfulGrid τ] in
/-- a grid that was read holds the same soundings -/
theorem ready_reloaded [TileLike τ] [Reloads τ] {C : ChildSpec τ size sub bs fl} (hC : ∀ {x y : ℚ} {t v : τ} {B : Store}, C.Rep x y t B → Reloads.reloaded true t v → C.Rep x y v B)
    {x0 y0 : ℚ} {nx ny : Nat} {T : Arr2 (Option τ)} {g u : Grid τ} {A : Store} (h : Ready C x0 y0 nx ny T g A) (hu : Reloaded true g u) :
    ∃ U, Ready C x0 y0 nx ny U u A ∧ u = { g with tiles := some U, mask := some (maskOnDisk g.mask) } := by
  have hsh := hu.shape
  rw [h.tiles] at hsh
  obtain ⟨U, hU⟩ : ∃ U, u.tiles = some U := by
    cases e : u.tiles with
    | none => rw [e] at hsh; cases hsh
    | some U => exact ⟨U, rfl⟩
  rw [hU] at hsh
  simp only [Option.map_some, Option.some.injEq, Arr2.dims, Prod.mk.injEq] at hsh
  obtain ⟨hn, hmd⟩ := hu.numbers rfl
  have hue : u = { g with tiles := some U, mask := some (maskOnDisk g.mask) } := by
    have := hu.attrs
    rw [hU, hn, hmd] at this
    exact this
  refine ⟨U, ?_, hue⟩
  obtain ⟨h1, h2, h3, h4⟩ := h.rep
  have hrep : TilesRep C x0 y0 nx ny U A := by
    refine ⟨by rw [hsh.1, h1], by rw [hsh.2.1, h2], by rw [hsh.2.2, h3], ?_⟩
    intro k o ho
    have hk : k < T.flat.length := by rw [← hsh.2.2]; exact (List.getElem?_eq_some_iff.1 ho).1
    have e1 : g.tile? k = T.flat[k]? := by unfold tile?; rw [h.tiles]; rfl
    have e2 : u.tile? k = U.flat[k]? := by unfold tile?; rw [hU]; rfl
    have hT := h4 k _ (List.getElem?_eq_getElem hk)
    rw [List.getElem?_eq_getElem hk] at e1
    cases hTk : T.flat[k] with
    | none =>
      rw [hTk] at e1 hT
      rcases hu.missing k e1 with h5 | ⟨h5, -⟩
      · rw [e2, ho] at h5
        cases h5
        exact hT
      · cases h5
    | some t =>
      rw [hTk] at e1 hT
      obtain ⟨v, h5, h6⟩ := hu.tiles k t e1
      rw [e2, ho] at h5
      cases h5
      rcases hT with ⟨hT, -⟩ | ⟨t', ht', hB, hrep⟩
      · cases hT
      · cases ht'
        exact Or.inr ⟨v, rfl, hB, hC hrep h6⟩
  subst hue
  exact ⟨h.tileSize, h.subtileSize, h.backscatter, h.txs, h.tys, h.edgesX, h.edgesY, rfl, hrep, h.inr, h.nx_pos, h.ny_pos, h.dims⟩

omit [DiskLike τ φ] [Queried τ] [LawfulGrid τ] in
/-- `remove_points` of a grid from which some of the soundings of `c` are gone already, and whose number of tiles may be wrong -/
theorem remove_again [TileLike τ] (C : ChildSpec τ size sub bs fl) (hs : 0 < size) {x0 y0 : ℚ} {nx ny : Nat} {T : Arr2 (Option τ)} {g : Grid τ} {A B : Store}
    (h : Ready C x0 y0 nx ny T g B) (hB : B.remove c = A.remove c) (hne : ∀ q ∈ A, q.2 ≠ []) (hhas : g.info.container.has c = true) {N : Int} (hN : g.numberOfTiles = some N)
    (hm : MaskOk g (ny * nx)) (hp : MaskProper g.mask) :
    ∃ (T' : Arr2 (Option τ)) (m' : Option (Arr2 Bool)) (N' : Int) (w : Grid τ), removePoints g c = .ok w ∧
      w = { g with info := { g.info with container := g.info.container.pop c }, mask := m', tiles := (if A.remove c = [] then none else some T'), numberOfTiles := some N' } ∧
      Ready C x0 y0 nx ny T' { w with tiles := some T' } (A.remove c) ∧ MaskProper m' := by
  obtain ⟨hr1, hr2, hlen, hslot⟩ := h.rep
  generalize hg0 : ({ g with info := { g.info with container := g.info.container.pop c } } : Grid τ) = g0
  have hg0t : g0.tiles = some T := by rw [← hg0]; exact h.tiles
  have hrdy : ∀ (T' : Arr2 (Option τ)) (m' : Option (Arr2 Bool)) (N' : Option Int), TilesRep C x0 y0 nx ny T' (A.remove c) →
      Ready C x0 y0 nx ny T' { g0 with tiles := some T', mask := m', numberOfTiles := N' } (A.remove c) := by
    intro T' m' N' hTR
    rw [← hg0]
    exact ⟨h.tileSize, h.subtileSize, h.backscatter, h.txs, h.tys, h.edgesX, h.edgesY, rfl, hTR, fun p hp => h.inr p (Store.mem_allPts_remove (by rw [hB]; exact hp)), h.nx_pos, h.ny_pos, h.dims⟩
  have hrun : removePoints g c = (if g0.isEmpty then Res.ok g0 else Res.forEach (List.range g0.slots) g0 (removeFromTile c)).andThen
      (fun g => .ok (if g.isEmpty then { g with tiles := none } else g)) := by
    unfold removePoints
    rw [hhas]
    simp only [if_true]
    rw [hg0]
  have key : ∃ (T' : Arr2 (Option τ)) (m' : Option (Arr2 Bool)) (N' : Int),
      (if g0.isEmpty then Res.ok g0 else Res.forEach (List.range g0.slots) g0 (removeFromTile c)) = .ok { g0 with tiles := some T', mask := m', numberOfTiles := some N' } ∧
      TilesRep C x0 y0 nx ny T' (A.remove c) ∧ MaskProper m' := by
    cases hemp : g0.isEmpty with
    | true =>
      refine ⟨T, g.mask, N, ?_, ⟨hr1, hr2, hlen, ?_⟩, hp⟩
      · simp only [if_true]
        have : ({ g0 with tiles := some T, mask := g.mask, numberOfTiles := some N } : Grid τ) = g0 := by
          rw [← hg0t, ← hN, ← hg0]
        rw [this]
      · intro k o ho
        have h1 := hslot k o ho
        have : o = none := by
          unfold isEmpty at hemp
          rw [hg0t] at hemp
          simp only [Bool.not_eq_true'] at hemp
          rw [List.any_eq_false] at hemp
          have := hemp o (List.mem_of_getElem? ho)
          simpa using this
        subst this
        rcases h1 with ⟨-, h1⟩ | ⟨t, ht, -⟩
        · left
          refine ⟨rfl, ?_⟩
          rw [← hB, Store.within_remove, h1]
          rfl
        · cases ht
    | false =>
      simp only [Bool.false_eq_true, if_false]
      have hslots : g0.slots = ny * nx := by unfold slots; rw [hg0t]; exact hlen
      rw [hslots]
      obtain ⟨T', m', h1, h2, h3, h4, h5, h6, h7, h8⟩ := removeLoop_spec C (g := g0) (minX := x0) (minY := y0) (nx := nx) (ny := ny) (A := B) c
        (List.range (ny * nx)) List.nodup_range (fun k hk => List.mem_range.1 hk) T hlen g.mask (Or.inl hm) (fun k _ o ho => hslot k o ho)
      obtain ⟨n', e1, e2⟩ := removeLoop_shift c (List.range (ny * nx)) { g0 with tiles := some T, mask := g.mask, numberOfTiles := some ((T.flat.countP Option.isSome : Nat) : Int) } _
        (N - ((T.flat.countP Option.isSome : Nat) : Int)) rfl
      have hself : ({ g0 with tiles := some T, mask := g.mask, numberOfTiles := some (((T.flat.countP Option.isSome : Nat) : Int) + (N - ((T.flat.countP Option.isSome : Nat) : Int))) } : Grid τ) = g0 := by
        rw [show ((T.flat.countP Option.isSome : Nat) : Int) + (N - ((T.flat.countP Option.isSome : Nat) : Int)) = N by omega, ← hg0t, ← hN, ← hg0]
      simp only at e2
      rw [hself, h1] at e2
      refine ⟨T', m', _, e2, ⟨by rw [h4, hr1], by rw [h5, hr2], h6, ?_⟩, maskProper_dims h3 hp⟩
      intro k o ho
      have hk : k < ny * nx := by rw [← h6]; exact (List.getElem?_eq_some_iff.1 ho).1
      rw [← hB, Store.within_remove]
      exact (h8 k (List.mem_range.2 hk) o ho).1
  obtain ⟨T', m', N', h1, h2, h3⟩ := key
  refine ⟨T', m', N', _, by rw [hrun, h1, Res.andThen_ok], ?_, ?_, h3⟩
  · have := frame_isEmpty C hs (hrdy T' m' (some N') h2) (Store.remove_ne c hne)
    rw [this]
    subst hg0
    by_cases hr : A.remove c = [] <;> simp [hr]
  · have := hrdy T' m' (some N') h2
    split
    · exact this
    · exact this

end Grid

theorem sr_add_stopped {env : Env} {b : Backend} {size : ℚ} {bs : Bool} {fl : Fields} (hs : 0 < size) {F : Family} {s exact : Bool} {g : Grid Tile} {d : Disk (Grid.Root TileFolder)} {A : Store}
    (h : SRDisk env b size bs fl F s exact g d A) {pts : List Pt} {c : String} {a : AddArgs} (hok : (g.addPoints ⟨fl, pts⟩ c a).err = none) (m : Nat) :
    ∃ u : Grid Tile, Grid.loadD (Grid.addStoppedD b ⟨fl, pts⟩ c a m (g, d)).st.2.now = .ok u ∧ (∀ n, n ≠ c → (Holds.under u n).Perm (A.ptsOf n)) ∧ (Holds.under u c).Subperm pts := by
  obtain ⟨h1, h2⟩ := sr_disk hs h
  obtain ⟨v, d', e1, e2, e3, ⟨e, e4⟩, x0, y0, nx, ny, T, B, e5, e6, e7⟩ := Grid.add_stopped (closed_tile env hs) (tileDisk env size 0 bs fl hs) hs (fun _ => Grid.growInv_blank _ _) rfl b h1 h2 hok m
  rw [e1]
  simp only [Res.ok_st]
  have hst := Grid.storable_frame hs tileSpec_saveable e5 e4 e3
  have e2' := e2
  obtain ⟨F', e, -⟩ := e2'
  rw [e] at e2 ⊢
  obtain ⟨u, l1, l2⟩ := Grid.load_holds tileSave hst (Grid.synced_holds tileSave (fun _ _ _ h => h) (fun _ h => h.elim) hst e2)
  have P := tilePts env F size 0 bs fl hs
  refine ⟨u, l1, fun n hn => ?_, ?_⟩
  · rw [← e6 n hn]
    exact (List.Perm.of_eq (LawfulReload.under l2 n)).trans (Grid.grid_under_perm P hs e5 n)
  · exact ((List.Perm.of_eq (LawfulReload.under l2 c)).trans (Grid.grid_under_perm P hs e5 c)).subperm.trans e7.subperm

theorem vr_add_stopped {env : Env} {b : Backend} {size sub : ℚ} {bs : Bool} {fl : Fields} (hs : 0 < size) (hpow : isPowerOfTwo sub = true) {F : Family} {s exact : Bool}
    {g : Grid (Grid Tile)} {d : Disk (Grid.Root (GridFolder TileFolder))} {A : Store}
    (h : VRDisk env b size sub bs fl F s exact g d A) {pts : List Pt} {c : String} {a : AddArgs} (hok : (g.addPoints ⟨fl, pts⟩ c a).err = none) (m : Nat) :
    ∃ u : Grid (Grid Tile), Grid.loadD (Grid.addStoppedD b ⟨fl, pts⟩ c a m (g, d)).st.2.now = .ok u ∧ (∀ n, n ≠ c → (Holds.under u n).Perm (A.ptsOf n)) ∧
      (Holds.under u c).Subperm pts := by
  obtain ⟨h1, h2⟩ := vr_disk hs hpow h
  have hC := Grid.closed_sub (bs := bs) (closed_tile (fl := fl) env (isPowerOfTwo_pos hpow)) hs hpow
  have S := Grid.subDisk (size := size) (bs := bs) (tileDisk env sub 0 false fl (isPowerOfTwo_pos hpow)) hs hpow
  obtain ⟨v, d', e1, e2, e3, ⟨e, e4⟩, x0, y0, nx, ny, T, B, e5, e6, e7⟩ := Grid.add_stopped hC S hs (fun _ => Grid.growInv_blank _ _) rfl b h1 h2 hok m
  rw [e1]
  simp only [Res.ok_st]
  have hst := Grid.storable_frame hs (subSpec_storable hs hpow) e5 e4 e3
  have e2' := e2
  obtain ⟨F', e, -⟩ := e2'
  rw [e] at e2 ⊢
  obtain ⟨u, l1, l2⟩ := Grid.load_holds (Grid.subSave tileSave (fun _ => trivial)) hst (Grid.synced_holds (Grid.subSave tileSave (fun _ => trivial))
      (fun _ _ hp h => sub_loads hp h) (fun _ h => ⟨rfl, by rw [e5.tileSize]; exact h⟩) hst e2)
  have P := Grid.subPts (size := size) (bs := bs) _ (tilePts env F sub 0 false fl (isPowerOfTwo_pos hpow)) hs hpow
  refine ⟨u, l1, fun n hn => ?_, ?_⟩
  · rw [← e6 n hn]
    exact (List.Perm.of_eq (LawfulReload.under l2 n)).trans (Grid.grid_under_perm P hs e5 n)
  · exact ((List.Perm.of_eq (LawfulReload.under l2 c)).trans (Grid.grid_under_perm P hs e5 c)).subperm.trans e7.subperm

theorem sr_remove_stopped {env : Env} {b : Backend} {size : ℚ} {bs : Bool} {fl : Fields} (hs : 0 < size) {F : Family} {g : Grid Tile} {d : Disk (Grid.Root TileFolder)} {A : Store}
    (h : SRDisk env b size bs fl F false true g d A) {c : String} (hc : c ∈ A.names) (m : Nat) :
    ∃ (u w : Grid Tile) (d' : Disk (Grid.Root TileFolder)), Grid.loadD (Grid.removeStoppedD b c m (g, d)).st.2.now = .ok u ∧
      Grid.removePointsD b c (u, (Grid.removeStoppedD b c m (g, d)).st.2) = .ok (w, d') ∧
      (∀ r col n, w.underAt r col n = (g.removePoints c).st.underAt r col n) ∧ w.isEmpty = (g.removePoints c).st.isEmpty ∧
      w = { (g.removePoints c).st with tiles := w.tiles, mask := w.mask, numberOfTiles := w.numberOfTiles } ∧
      ∃ v : Grid Tile, Grid.loadD d'.now = .ok v ∧ ∀ n, Holds.under v n = Holds.under w n := by
  obtain ⟨h1, h2⟩ := sr_disk hs h
  obtain ⟨hi, hmask⟩ := sr_inv hs h1
  have hA : A ≠ [] := by rintro rfl; simp [Store.names] at hc
  obtain ⟨hmk, -⟩ := hmask rfl
  rcases h2 with ⟨-, e⟩ | h2
  · exact absurd e hA
  rcases hi.body with ⟨e, -⟩ | ⟨-, i, j, nx, ny, T, hf, hext⟩
  · exact absurd e hA
  have hsl : g.slots = ny * nx := by unfold Grid.slots; rw [hf.tiles]; exact hf.rep.2.2.1
  rw [hsl] at hmk
  have hpr := sr_mask hs h1
  obtain ⟨v, d1, T1, e1, e2, B, e3, e4⟩ := Grid.remove_stopped (tileDisk env size 0 bs fl hs) hs b hf hi.ne hi.cont hmk h2 hc m
  rw [e1]
  simp only [Res.ok_st]
  have hst := Grid.storable_frame hs tileSpec_saveable e3 hext hpr
  have e2' := e2
  obtain ⟨F', eF, -⟩ := e2'
  rw [eF] at e2
  obtain ⟨u, l1, l2⟩ := Grid.load_holds tileSave hst (Grid.synced_holds tileSave (fun _ _ _ h => h) (fun _ h => h.elim) hst e2)
  obtain ⟨U, r1, r2⟩ := Grid.ready_reloaded (fun hr hv => (closed_tile env hs).query F hr (Or.inr hv)) e3 l2
  have hq : Requeried env { g with tiles := some T1 } u := Grid.requeried_reloaded (fun _ t v _ => requeried_tile env t v) l2 (by simp)
  have hus : SRSynced true u (some F') := by
    clear l1 l2 r1 r2
    unfold Requeried at hq
    induction hq with
    | refl => exact e2
    | tail _ hq ih => exact ih.query (tile_stable env) hq
  have hcu : u.info.container.has c = true := by rw [r2, Dict.has_iff]; exact (by rw [hi.cont]; exact hc)
  have hmu : u.mask = some (maskOnDisk g.mask) := by rw [r2]
  have hmku : Grid.MaskOk u (ny * nx) := by
    intro a ha hany
    rw [hmu] at ha
    cases ha
    cases hg : g.mask with
    | none => rw [hg] at hany; cases hany
    | some a => rw [hg] at hany; exact hmk a hg hany
  have hpru : Grid.MaskProper u.mask := by
    intro a ha hl
    rw [hmu] at ha
    cases ha
    cases hg : g.mask with
    | none => rfl
    | some a => rw [hg] at hl; exact hpr a hg hl
  obtain ⟨T2, m2, N2, w, w1, w2, w3, w4⟩ := Grid.remove_again (tileSpec env F size 0 bs fl hs) hs r1 e4 hi.ne hcu (N := ((T.flat.countP Option.isSome : Nat) : Int)) (by rw [r2]; exact hf.num) hmku hpru
  obtain ⟨d2, w5, w6⟩ := Grid.removePointsD_spec (tileDisk env size 0 bs fl hs) b F hs r1 w1 (by rw [w2]; exact w4) d1 (by rw [eF]; exact hus)
  obtain ⟨T3, m3, k1, k2, -⟩ := Grid.removePoints_frame (tileSpec env F size 0 bs fl hs) hs hf hi.ne hi.cont hc (Or.inl hmk)
  have P := tilePts env F size 0 bs fl hs
  rw [k1]
  simp only [Res.ok_st]
  refine ⟨u, w, d2, by rw [eF]; exact l1, w5, ?_, ?_, ?_, ?_⟩
  · intro r col n
    by_cases hr : A.remove c = []
    · unfold Grid.underAt
      rw [w2]
      simp [hr]
    · have hw : w = { w with tiles := some T2 } := by
        rw [w2]; simp [hr]
      rw [hw, Grid.underAt_frame P w3 r col n]
      have := Grid.underAt_frame P k2 r col n
      simp only [hr, if_false]
      exact this.symm
  · by_cases hr : A.remove c = []
    · unfold Grid.isEmpty
      rw [w2]
      simp [hr]
    · have hw : w = { w with tiles := some T2 } := by
        rw [w2]; simp [hr]
      rw [hw, Grid.frame_isEmpty _ hs w3 (Store.remove_ne c hi.ne)]
      have := Grid.frame_isEmpty _ hs k2 (Store.remove_ne c hi.ne)
      rw [← this, if_neg hr]
  · rw [w2, r2]
  · have w6' := w6
    obtain ⟨F2, eF2, -⟩ := w6'
    rw [eF2] at w6 ⊢
    by_cases hr : A.remove c = []
    · have hwe : w.isEmpty = true := by unfold Grid.isEmpty; rw [w2]; simp [hr]
      obtain ⟨v, v1, v2⟩ := Grid.load_leftover (τ := Tile) rfl (Grid.leftover_of hwe w6)
      refine ⟨v, v1, fun n => ?_⟩
      rw [(Grid.isEmpty_holds v2.1).2, (Grid.isEmpty_holds hwe).2]
    · have hw : w = { w with tiles := some T2 } := by
        rw [w2]; simp [hr]
      rw [← hw] at w3
      have hstw := Grid.storable_frame hs tileSpec_saveable w3 (show w.extents = _ by rw [w2, r2]; exact hext) (by rw [w2]; exact w4)
      obtain ⟨v, v1, v2⟩ := Grid.load_holds tileSave hstw (Grid.synced_holds tileSave (fun _ _ _ h => h) (fun _ h => h.elim) hstw w6)
      exact ⟨v, v1, LawfulReload.under v2⟩

end Bathy
