import Verif.Lemmas.GridReach
import Verif.Props.TileStore
import Verif.Spec.Soundings

/-!
# The soundings stored in a grid, in terms of the store
-/

namespace Bathy

theorem Store.ptsOf_remove (A : Store) (c c' : String) : (A.remove c).ptsOf c' = if c' = c then [] else A.ptsOf c' := by
  unfold Store.ptsOf Store.remove
  rw [List.filter_filter]
  split
  · rename_i h
    subst h
    have : A.filter (fun a => decide (a.1 = c') && decide (a.1 ≠ c')) = [] := by
      rw [List.filter_eq_nil_iff]
      intro q _
      simp
    rw [this]; rfl
  · rename_i h
    congr 1
    apply List.filter_congr
    intro q _
    by_cases hq : q.1 = c'
    · simp [hq, h]
    · simp [hq]

theorem Store.ptsOf_append (A B : Store) (c : String) : (A ++ B).ptsOf c = A.ptsOf c ++ B.ptsOf c := by
  unfold Store.ptsOf; rw [List.filter_append, Store.allPts_append]

theorem Store.ptsOf_not_mem (A : Store) {c : String} (h : c ∉ A.names) : A.ptsOf c = [] := by
  unfold Store.ptsOf
  have : A.filter (fun p => decide (p.1 = c)) = [] := by
    rw [List.filter_eq_nil_iff]
    intro q hq
    simp only [decide_eq_true_eq]
    intro he; exact h (he ▸ List.mem_map_of_mem (f := Prod.fst) hq)
  rw [this]; rfl

theorem Store.mem_ptsOf {A : Store} {c : String} {p : Pt} (h : p ∈ A.ptsOf c) : p ∈ A.allPts := by
  rw [Store.mem_allPts]
  unfold Store.ptsOf at h
  rw [Store.mem_allPts] at h
  obtain ⟨q, hq, hp⟩ := h
  exact ⟨q, (List.mem_filter.1 hq).1, hp⟩

theorem Tile.under_rep {t : Tile} {A : Store} {fl : Fields} (h : t.Rep A fl) (c : String) : t.under c = A.ptsOf c := by
  unfold Tile.under
  cases hc : t.container.get? c with
  | some se => obtain ⟨s, e⟩ := se; exact slice_of_rep h hc
  | none =>
    have : c ∉ A.names := by
      rw [Dict.get?_eq_none, h.container, slicesFrom_keys] at hc; exact hc
    simp only
    rw [Store.ptsOf_not_mem A this]

namespace Grid
variable {τ : Type} [TileLike τ] [Holds τ] {size sub : ℚ} {bs : Bool} {fl : Fields}

/-- the stored soundings are determined by the store -/
structure PtsSpec (C : ChildSpec τ size sub bs fl) where
  can : ℚ → ℚ → Store → String → List Pt
  eq : ∀ {x y : ℚ} {t : τ} {A : Store}, C.Rep x y t A → ∀ c, Holds.under t c = can x y A c
  remove : ∀ x y A c c', can x y (Store.remove A c) c' = if c' = c then [] else can x y A c'
  append : ∀ x y A B c, c ∉ Store.names B → can x y (A ++ B) c = can x y A c
  perm : ∀ {x y A}, (∀ p ∈ Store.allPts A, InBox x y size p) → ∀ c, (can x y A c).Perm (Store.ptsOf A c)
  all : ∀ {x y : ℚ} {t : τ} {A : Store}, C.Rep x y t A → (∀ p ∈ Store.allPts A, InBox x y size p) → (Holds.all t).Perm A.allPts

/-- the soundings of container `c` in slot `k` -/
def slotCan {C : ChildSpec τ size sub bs fl} (P : PtsSpec C) (x0 y0 : ℚ) (nx : Nat) (A : Store) (c : String) (k : Nat) : List Pt :=
  P.can (slotX x0 size nx k) (slotY y0 size nx k) (A.within (slotX x0 size nx k) (slotY y0 size nx k) size) c

theorem slotCan_nil {C : ChildSpec τ size sub bs fl} (P : PtsSpec C) {x0 y0 : ℚ} {nx : Nat} {A : Store} {k : Nat}
    (h : A.within (slotX x0 size nx k) (slotY y0 size nx k) size = []) (c : String) : slotCan P x0 y0 nx A c k = [] := by
  unfold slotCan
  rw [h]
  exact List.Perm.eq_nil (P.perm (A := []) (by simp [Store.allPts]) c)

theorem slotCan_remove {C : ChildSpec τ size sub bs fl} (P : PtsSpec C) (x0 y0 : ℚ) (nx : Nat) (A : Store) (c c' : String) (k : Nat) :
    slotCan P x0 y0 nx (A.remove c) c' k = if c' = c then [] else slotCan P x0 y0 nx A c' k := by
  unfold slotCan
  rw [Store.within_remove]
  exact P.remove _ _ _ _ _

theorem slotCan_append {C : ChildSpec τ size sub bs fl} (P : PtsSpec C) (x0 y0 : ℚ) (nx : Nat) (A B : Store) {c : String} (hc : c ∉ B.names) (k : Nat) :
    slotCan P x0 y0 nx (A ++ B) c k = slotCan P x0 y0 nx A c k := by
  unfold slotCan
  rw [Store.within_append]
  exact P.append _ _ _ _ _ (fun h => hc ((Store.names_within _ _ _ _).subset h))

theorem slotCan_perm {C : ChildSpec τ size sub bs fl} (P : PtsSpec C) (x0 y0 : ℚ) (nx : Nat) (A : Store) (c : String) (k : Nat) :
    (slotCan P x0 y0 nx A c k).Perm ((A.ptsOf c).filter (fun p => decide (InBox (slotX x0 size nx k) (slotY y0 size nx k) size p))) := by
  unfold slotCan
  rw [← Store.ptsOf_within]
  exact P.perm (Store.within_box _ _ _ _) c

omit [Holds τ] in
theorem flatMap_slots {C : ChildSpec τ size sub bs fl} {x0 y0 : ℚ} {nx ny : Nat} {T : Arr2 (Option τ)} {A : Store} (h : TilesRep C x0 y0 nx ny T A)
    {f : Option τ → List Pt} {f' : Nat → List Pt} (hf : ∀ (k : Nat) o, T.flat[k]? = some o → f o = f' k) :
    T.flat.flatMap f = (List.range (ny * nx)).flatMap f' := by
  rw [List.flatMap_def, List.flatMap_def]
  congr 1
  apply List.ext_getElem?
  intro k
  rw [List.getElem?_map, List.getElem?_map]
  by_cases hk : k < ny * nx
  · have hk' : k < T.flat.length := by rw [h.2.2.1]; exact hk
    rw [List.getElem?_range hk, List.getElem?_eq_getElem hk']
    simp only [Option.map_some, Option.some.injEq]
    exact hf k _ (List.getElem?_eq_getElem hk')
  · rw [List.getElem?_eq_none (by rw [h.2.2.1]; omega), List.getElem?_eq_none (by simpa using hk)]
    rfl

theorem slot_under {C : ChildSpec τ size sub bs fl} (P : PtsSpec C) {x0 y0 : ℚ} {nx ny : Nat} {T : Arr2 (Option τ)} {A : Store}
    (h : TilesRep C x0 y0 nx ny T A) {k : Nat} {o : Option τ} (ho : T.flat[k]? = some o) (c : String) : slotUnder c o = slotCan P x0 y0 nx A c k := by
  rcases h.2.2.2 k o ho with ⟨rfl, h2⟩ | ⟨t, rfl, -, h2⟩
  · rw [slotCan_nil P h2]; rfl
  · exact P.eq h2 c

/-- the soundings of a container, slot by slot -/
theorem grid_under {C : ChildSpec τ size sub bs fl} (P : PtsSpec C) {x0 y0 : ℚ} {nx ny : Nat} {T : Arr2 (Option τ)} {g : Grid τ} {A : Store}
    (h : Ready C x0 y0 nx ny T g A) (c : String) : Holds.under g c = (List.range (ny * nx)).flatMap (slotCan P x0 y0 nx A c) := by
  show g.slotList.flatMap (slotUnder c) = _
  unfold slotList
  rw [h.tiles]
  exact flatMap_slots h.rep (fun k o ho => slot_under P h.rep ho c)

theorem flatMap_perm {α β : Type} {l : List α} {f f' : α → List β} (h : ∀ a ∈ l, (f a).Perm (f' a)) : (l.flatMap f).Perm (l.flatMap f') := by
  induction l with
  | nil => exact List.Perm.refl _
  | cons a l ih =>
    simp only [List.flatMap_cons]
    exact (h a List.mem_cons_self).append (ih (fun b hb => h b (List.mem_cons_of_mem _ hb)))

theorem canFlat_perm {C : ChildSpec τ size sub bs fl} (P : PtsSpec C) (hs : 0 < size) {x0 y0 : ℚ} {nx ny : Nat} {A : Store}
    (hin : ∀ p ∈ A.allPts, InRect x0 y0 size nx ny p) (c : String) :
    ((List.range (ny * nx)).flatMap (slotCan P x0 y0 nx A c)).Perm (A.ptsOf c) :=
  (flatMap_perm (fun k _ => slotCan_perm P x0 y0 nx A c k)).trans (slots_perm hs (A.ptsOf c) (fun p hp => hin p (Store.mem_ptsOf hp)))

theorem grid_under_perm {C : ChildSpec τ size sub bs fl} (P : PtsSpec C) (hs : 0 < size) {x0 y0 : ℚ} {nx ny : Nat} {T : Arr2 (Option τ)} {g : Grid τ} {A : Store}
    (h : Ready C x0 y0 nx ny T g A) (c : String) : (Holds.under g c).Perm (A.ptsOf c) := by
  rw [grid_under P h c]
  exact canFlat_perm P hs h.inr c

theorem grid_all_perm {C : ChildSpec τ size sub bs fl} (P : PtsSpec C) (hs : 0 < size) {x0 y0 : ℚ} {nx ny : Nat} {T : Arr2 (Option τ)} {g : Grid τ} {A : Store}
    (h : Ready C x0 y0 nx ny T g A) : (Holds.all g).Perm A.allPts := by
  show (g.slotList.flatMap slotAll).Perm _
  unfold slotList
  rw [h.tiles]
  simp only
  rw [flatMap_slots h.rep (f := slotAll) (f' := fun k => slotAll ((T.flat[k]?).join)) (fun k o ho => by rw [ho]; rfl)]
  refine (flatMap_perm ?_).trans (slots_perm hs A.allPts h.inr)
  intro k hk
  have hk' : k < T.flat.length := by rw [h.rep.2.2.1]; exact List.mem_range.1 hk
  rw [← Store.allPts_within]
  have ho := List.getElem?_eq_getElem hk'
  rw [ho]
  rcases h.rep.2.2.2 k _ ho with ⟨h1, h2⟩ | ⟨t, h1, -, h2⟩
  · rw [h1, h2]; exact List.Perm.refl _
  · rw [h1]; exact P.all h2 (Store.within_box _ _ _ _)

/-! ### tiles by their place -/

omit [Holds τ] in
/-- the tile in a row and column -/
theorem tileAt_rep {C : ChildSpec τ size sub bs fl} {g : Grid τ} {A : Store} (h : GrowInv C g A) {r c : Nat} {t : τ} (ht : g.TileAt r c t) :
    ∃ (a b : ℤ) (e : Extents), g.extents = some e ∧ (a : ℚ) * size = e.minX + (c : ℚ) * size ∧ (b : ℚ) * size = e.minY + (r : ℚ) * size ∧
      C.Rep ((a : ℚ) * size) ((b : ℚ) * size) t (A.within ((a : ℚ) * size) ((b : ℚ) * size) size) ∧ A.within ((a : ℚ) * size) ((b : ℚ) * size) size ≠ [] ∧
      (a : ℚ) * size + size ≤ e.maxX ∧ (b : ℚ) * size + size ≤ e.maxY := by
  obtain ⟨T, hT, hrc⟩ := ht
  rcases h.body with ⟨-, h2, -⟩ | ⟨-, i, j, nx, ny, T', hf, hext⟩
  · rw [hT] at h2; cases h2
  · have : T' = T := by have := hf.tiles; rw [hT] at this; cases this; rfl
    subst this
    obtain ⟨h1, h2, h3, h4⟩ := hf.rep
    unfold Arr2.get? at hrc
    split at hrc
    · rename_i hlt
      rw [h1, h2] at hlt
      rw [h2] at hrc
      have e1 : slotX ((i : ℚ) * size) size nx (r * nx + c) = ((i + c : ℤ) : ℚ) * size := by
        unfold slotX; rw [Arr2.idx_mod hlt.2]; push_cast; ring
      have e2 : slotY ((j : ℚ) * size) size nx (r * nx + c) = ((j + r : ℤ) : ℚ) * size := by
        unfold slotY; rw [Arr2.idx_div hlt.2]; push_cast; ring
      have := h4 _ _ hrc
      rw [e1, e2] at this
      rcases this with ⟨q, -⟩ | ⟨t', q, q1, q2⟩
      · cases q
      · cases q
        have hc1 : ((c : ℚ) + 1) * size ≤ (nx : ℚ) * size ∨ size < 0 := by
          by_cases hs : 0 ≤ size
          · left; exact mul_le_mul_of_nonneg_right (by exact_mod_cast hlt.2) hs
          · right; exact lt_of_not_ge hs
        have hr1 : ((r : ℚ) + 1) * size ≤ (ny : ℚ) * size ∨ size < 0 := by
          by_cases hs : 0 ≤ size
          · left; exact mul_le_mul_of_nonneg_right (by exact_mod_cast hlt.1) hs
          · right; exact lt_of_not_ge hs
        have hpos : ¬ size < 0 := by
          intro hneg
          obtain ⟨q, hq⟩ := List.exists_mem_of_ne_nil _ q1
          have hqn := Store.within_ne _ _ _ _ q hq
          obtain ⟨p, hp⟩ := List.exists_mem_of_ne_nil _ hqn
          have hb := Store.within_box _ _ _ _ p (Store.mem_allPts.2 ⟨q, hq, hp⟩)
          have := hb.1; have := hb.2.1; linarith
        refine ⟨i + c, j + r, _, hext, by push_cast; ring, by push_cast; ring, q2, q1, ?_, ?_⟩
        · rcases hc1 with hc1 | hc1
          · push_cast; linarith
          · exact absurd hc1 hpos
        · rcases hr1 with hc1 | hc1
          · push_cast; linarith
          · exact absurd hc1 hpos
    · cases hrc

omit [Holds τ] in
/-- a place with soundings has a tile -/
theorem rep_tileAt {C : ChildSpec τ size sub bs fl} (hs : 0 < size) {g : Grid τ} {A : Store} (h : GrowInv C g A) {a b : ℤ}
    (hne : A.within ((a : ℚ) * size) ((b : ℚ) * size) size ≠ []) :
    ∃ r c t, g.TileAt r c t ∧ C.Rep ((a : ℚ) * size) ((b : ℚ) * size) t (A.within ((a : ℚ) * size) ((b : ℚ) * size) size) ∧
      g.tileOrigin (r * g.txs.length + c) = some ((a : ℚ) * size, (b : ℚ) * size) := by
  have hA : A ≠ [] := by rintro rfl; exact hne rfl
  rcases h.body with ⟨h1, -⟩ | ⟨-, i, j, nx, ny, T, hf, hext⟩
  · exact absurd h1 hA
  · obtain ⟨h1, h2, h3, h4⟩ := hf.rep
    obtain ⟨q, hq⟩ := List.exists_mem_of_ne_nil _ hne
    have hqn := Store.within_ne _ _ _ _ q hq
    obtain ⟨p, hp⟩ := List.exists_mem_of_ne_nil _ hqn
    have hpw : p ∈ (A.within ((a : ℚ) * size) ((b : ℚ) * size) size).allPts := Store.mem_allPts.2 ⟨q, hq, hp⟩
    have hb := Store.within_box _ _ _ _ p hpw
    have hpA : p ∈ A.allPts := by
      rw [Store.allPts_within] at hpw; exact (List.mem_filter.1 hpw).1
    have hr := hf.inr p hpA
    have hlo : ∀ {i a : ℤ} {n : Nat} {v : ℚ}, (a : ℚ) * size ≤ v → v < (a : ℚ) * size + size → (i : ℚ) * size ≤ v → v < (i : ℚ) * size + (n : ℚ) * size →
        ∃ c : Nat, c < n ∧ a = i + c := by
      intro i a n v q1 q2 q3 q4
      have w1 : (i : ℚ) * size < ((a + 1 : ℤ) : ℚ) * size := by push_cast; linarith
      have w2 : (a : ℚ) * size < ((i + n : ℤ) : ℚ) * size := by push_cast; linarith
      have w3 := lt_of_mul_lt_mul_right w1 hs.le
      have w4 := lt_of_mul_lt_mul_right w2 hs.le
      have w5 : i < a + 1 := by exact_mod_cast w3
      have w6 : a < i + n := by exact_mod_cast w4
      exact ⟨(a - i).toNat, by omega, by omega⟩
    obtain ⟨c, hc, rfl⟩ := hlo hb.1 hb.2.1 hr.1 hr.2.1
    obtain ⟨r, hrr, rfl⟩ := hlo hb.2.2.1 hb.2.2.2 hr.2.2.1 hr.2.2.2
    have hk : r * nx + c < T.flat.length := by rw [h3]; exact Arr2.idx_lt hrr hc
    have e1 : slotX ((i : ℚ) * size) size nx (r * nx + c) = ((i + c : ℤ) : ℚ) * size := by
      unfold slotX; rw [Arr2.idx_mod hc]; push_cast; ring
    have e2 : slotY ((j : ℚ) * size) size nx (r * nx + c) = ((j + r : ℤ) : ℚ) * size := by
      unfold slotY; rw [Arr2.idx_div hc]; push_cast; ring
    have := h4 _ _ (List.getElem?_eq_getElem hk)
    rw [e1, e2] at this
    rcases this with ⟨-, q⟩ | ⟨t, q, q1, q2⟩
    · exact absurd q hne
    · refine ⟨r, c, t, ⟨T, hf.tiles, ?_⟩, q2, ?_⟩
      · unfold Arr2.get?
        rw [h1, h2, if_pos ⟨hrr, hc⟩, List.getElem?_eq_getElem hk, q]
      · have hl : g.txs.length = nx := by rw [hf.txs]; simp [originsOf]
        rw [hl, tileOrigin_eq hf.txs hf.tys (Arr2.idx_lt hrr hc), e1, e2]

/-- two aligned squares with a common point are the same -/
theorem box_unique (hs : 0 < size) {a b a' b' : ℤ} {p : Pt} (h : InBox ((a : ℚ) * size) ((b : ℚ) * size) size p)
    (h' : InBox ((a' : ℚ) * size) ((b' : ℚ) * size) size p) : a = a' ∧ b = b' := by
  have key : ∀ {a a' : ℤ} {v : ℚ}, (a : ℚ) * size ≤ v → v < (a' : ℚ) * size + size → a ≤ a' := by
    intro a a' v q1 q2
    have w1 : (a : ℚ) * size < ((a' + 1 : ℤ) : ℚ) * size := by push_cast; linarith
    have w3 := lt_of_mul_lt_mul_right w1 hs.le
    have : a < a' + 1 := by exact_mod_cast w3
    omega
  exact ⟨le_antisymm (key h.1 h'.2.1) (key h'.1 h.2.1), le_antisymm (key h.2.2.1 h'.2.2.2) (key h'.2.2.1 h.2.2.2)⟩

omit [TileLike τ] [Holds τ] in
/-- a tile by row and column or by flat index -/
theorem tile?_of_tileAt {g : Grid τ} {r c : Nat} {t : τ} (h : g.TileAt r c t) (hx : ∀ T, g.tiles = some T → T.cols = g.txs.length) :
    g.tile? (r * g.txs.length + c) = some (some t) := by
  obtain ⟨T, hT, hrc⟩ := h
  unfold Arr2.get? at hrc
  split at hrc
  · unfold tile?
    rw [hT]
    rw [hx T hT] at hrc
    exact hrc
  · cases hrc

/-- subgrids -/
def subPts (C : ChildSpec τ sub 0 false fl) (P : PtsSpec C) (hs : 0 < size) (hpow : isPowerOfTwo sub = true) :
    PtsSpec (subSpec (size := size) (bs := bs) C hs hpow) where
  can x y A c := (List.range (ncells size sub * ncells size sub)).flatMap (slotCan P x y (ncells size sub) A c)
  eq := by
    intro x y g A h c
    obtain ⟨T, hf⟩ := SubInv.frame h
    exact grid_under P hf.toReady c
  remove := by
    intro x y A c c'
    by_cases hc : c' = c
    · rw [if_pos hc, List.flatMap_eq_nil_iff]
      intro k _
      rw [slotCan_remove, if_pos hc]
    · rw [if_neg hc]
      apply List.flatMap_congr
      intro k _
      rw [slotCan_remove, if_neg hc]
  append := by
    intro x y A B c hc
    apply List.flatMap_congr
    intro k _
    exact slotCan_append P x y (ncells size sub) A B hc k
  perm := by
    intro x y A hbox c
    exact canFlat_perm P (isPowerOfTwo_pos hpow) (fun p hp => inRect_of_inBox hs (isPowerOfTwo_pos hpow) (hbox p hp)) c
  all := by
    intro x y g A h _
    obtain ⟨T, hf⟩ := SubInv.frame h
    exact grid_all_perm P (isPowerOfTwo_pos hpow) hf.toReady

end Grid

/-- tiles -/
def tilePts (env : Env) (F : Family) (size sub : ℚ) (bs : Bool) (fl : Fields) (hs : 0 < size) : Grid.PtsSpec (tileSpec env F size sub bs fl hs) where
  can _ _ A c := A.ptsOf c
  eq := fun h c => Tile.under_rep (history_frame hs h.1).2.1 c
  remove := fun _ _ A c c' => Store.ptsOf_remove A c c'
  append := by
    intro _ _ A B c hc
    rw [Store.ptsOf_append, Store.ptsOf_not_mem B hc, List.append_nil]
  perm := fun _ _ => List.Perm.refl _
  all := by
    intro x y t A h _
    have := (history_frame hs h.1).2.1.pts
    show (Tile.pts t).Perm _
    rw [this]

end Bathy

namespace Bathy
namespace Grid
variable {τ : Type} [TileLike τ] [Holds τ] {size sub : ℚ} {bs : Bool} {fl : Fields}

omit [Holds τ] in
/-- the tile in a row and column of a frame -/
theorem frame_tileAt {C : ChildSpec τ size sub bs fl} {x0 y0 : ℚ} {nx ny : Nat} {T : Arr2 (Option τ)} {g : Grid τ} {A : Store} (hf : Ready C x0 y0 nx ny T g A)
    {r c : Nat} {t : τ} (ht : g.TileAt r c t) : r < ny ∧ c < nx ∧ C.Rep (x0 + (c : ℚ) * size) (y0 + (r : ℚ) * size) t (A.within (x0 + (c : ℚ) * size) (y0 + (r : ℚ) * size) size) ∧
      A.within (x0 + (c : ℚ) * size) (y0 + (r : ℚ) * size) size ≠ [] := by
  obtain ⟨T', hT, hrc⟩ := ht
  have : T' = T := by have := hf.tiles; rw [hT] at this; cases this; rfl
  subst this
  obtain ⟨h1, h2, h3, h4⟩ := hf.rep
  unfold Arr2.get? at hrc
  split at hrc
  · rename_i hlt
    rw [h1, h2] at hlt
    rw [h2] at hrc
    have e1 : slotX x0 size nx (r * nx + c) = x0 + (c : ℚ) * size := by
      unfold slotX; rw [Arr2.idx_mod hlt.2]
    have e2 : slotY y0 size nx (r * nx + c) = y0 + (r : ℚ) * size := by
      unfold slotY; rw [Arr2.idx_div hlt.2]
    have := h4 _ _ hrc
    rw [e1, e2] at this
    rcases this with ⟨q, -⟩ | ⟨t', q, q1, q2⟩
    · cases q
    · cases q
      exact ⟨hlt.1, hlt.2, q2, q1⟩
  · cases hrc

omit [Holds τ] in
/-- the body of the invariant of a grid with soundings -/
theorem grow_body {C : ChildSpec τ size sub bs fl} {g : Grid τ} {A : Store} (h : GrowInv C g A) (hA : A ≠ []) :
    ∃ (i j : ℤ) (nx ny : Nat) (T : Arr2 (Option τ)), Frame C ((i : ℚ) * size) ((j : ℚ) * size) nx ny T g A ∧
      g.extents = some ⟨(i : ℚ) * size, (i : ℚ) * size + (nx : ℚ) * size, (j : ℚ) * size, (j : ℚ) * size + (ny : ℚ) * size⟩ := by
  rcases h.body with ⟨h1, -⟩ | ⟨-, h1⟩
  · exact absurd h1 hA
  · exact h1

omit [Holds τ] in
theorem grow_isEmpty {C : ChildSpec τ size sub bs fl} (hs : 0 < size) {g : Grid τ} {A : Store} (h : GrowInv C g A) : g.isEmpty = decide (A = []) := by
  rcases h.body with ⟨e1, e2, -⟩ | ⟨e1, i, j, nx, ny, T, hf, -⟩
  · unfold isEmpty; rw [e2, e1]; rfl
  · exact frame_isEmpty C hs hf.toReady h.ne

omit [Holds τ] in
theorem grow_pointsCount {C : ChildSpec τ size sub bs fl} (hs : 0 < size) {g : Grid τ} {A : Store} (h : GrowInv C g A) : g.pointsCount = A.allPts.length := by
  rcases h.body with ⟨e1, e2, -⟩ | ⟨e1, i, j, nx, ny, T, hf, -⟩
  · unfold pointsCount isEmpty; rw [e2, e1]; rfl
  · exact pointsCount_frame C hs hf.toReady h.ne

theorem grow_all {C : ChildSpec τ size sub bs fl} (P : PtsSpec C) (hs : 0 < size) {g : Grid τ} {A : Store} (h : GrowInv C g A) : (Holds.all g).Perm A.allPts := by
  rcases h.body with ⟨e1, e2, -⟩ | ⟨e1, i, j, nx, ny, T, hf, -⟩
  · show (g.slotList.flatMap slotAll).Perm _
    unfold slotList
    rw [e2, e1]; exact List.Perm.refl _
  · exact grid_all_perm P hs hf.toReady

theorem grow_under {C : ChildSpec τ size sub bs fl} (P : PtsSpec C) (hs : 0 < size) {g : Grid τ} {A : Store} (h : GrowInv C g A) (c : String) :
    (Holds.under g c).Perm (A.ptsOf c) := by
  rcases h.body with ⟨e1, e2, -⟩ | ⟨e1, i, j, nx, ny, T, hf, -⟩
  · show (g.slotList.flatMap (slotUnder c)).Perm _
    unfold slotList
    rw [e2, e1]; exact List.Perm.refl _
  · exact grid_under_perm P hs hf.toReady c

/-- the extents determine the frame -/
theorem frame_inj (hs : 0 < size) {i j i' j' : ℤ} {w h w' h' : Nat}
    (he : (⟨(i : ℚ) * size, (i : ℚ) * size + (w : ℚ) * size, (j : ℚ) * size, (j : ℚ) * size + (h : ℚ) * size⟩ : Extents) =
      ⟨(i' : ℚ) * size, (i' : ℚ) * size + (w' : ℚ) * size, (j' : ℚ) * size, (j' : ℚ) * size + (h' : ℚ) * size⟩) :
    i = i' ∧ j = j' ∧ w = w' ∧ h = h' := by
  rw [Extents.mk.injEq] at he
  obtain ⟨q1, q2, q3, q4⟩ := he
  have hi : i = i' := by have := mul_right_cancel₀ hs.ne' q1; exact_mod_cast this
  have hj : j = j' := by have := mul_right_cancel₀ hs.ne' q3; exact_mod_cast this
  subst hi; subst hj
  have hw : w = w' := by have := mul_right_cancel₀ hs.ne' (add_left_cancel q2); exact_mod_cast this
  have hh : h = h' := by have := mul_right_cancel₀ hs.ne' (add_left_cancel q4); exact_mod_cast this
  exact ⟨rfl, rfl, hw, hh⟩

theorem underAt_frame {C : ChildSpec τ size sub bs fl} (P : PtsSpec C) {x0 y0 : ℚ} {nx ny : Nat} {T : Arr2 (Option τ)} {g : Grid τ} {A : Store}
    (h : Ready C x0 y0 nx ny T g A) (r c : Nat) (name : String) :
    g.underAt r c name = if r < ny ∧ c < nx then slotCan P x0 y0 nx A name (r * nx + c) else [] := by
  unfold underAt
  rw [h.tiles]
  simp only [Option.bind_some]
  unfold Arr2.get?
  rw [h.rep.1, h.rep.2.1]
  split
  · rename_i hlt
    have hk : r * nx + c < T.flat.length := by rw [h.rep.2.2.1]; exact Arr2.idx_lt hlt.1 hlt.2
    rw [List.getElem?_eq_getElem hk]
    exact slot_under P h.rep (List.getElem?_eq_getElem hk) name
  · rfl

/-- what a successful `remove_points` does to every tile -/
theorem remove_underAt {C : ChildSpec τ size sub bs fl} (P : PtsSpec C) (hs : 0 < size) {g u : Grid τ} {A : Store} {n : String} (hg : GrowInv C g A)
    (hu : GrowInv C u (A.remove n)) (hext : u.extents = g.extents) (r c : Nat) (m : String) :
    u.underAt r c m = if m = n then [] else g.underAt r c m := by
  by_cases hA : A = []
  · subst hA
    have h1 : ∀ {v : Grid τ}, v.tiles = none → v.underAt r c m = [] := by intro v hv; unfold underAt; rw [hv]; rfl
    have hg1 : g.tiles = none := by
      rcases hg.body with ⟨-, e, -⟩ | ⟨e, -⟩
      · exact e
      · exact absurd rfl e
    have hu1 : u.tiles = none := by
      rcases hu.body with ⟨-, e, -⟩ | ⟨e, -⟩
      · exact e
      · exact absurd rfl e
    rw [h1 hg1, h1 hu1]; simp
  · obtain ⟨i, j, nx, ny, T, hf, he⟩ := grow_body hg hA
    rw [underAt_frame P hf.toReady]
    by_cases hr : A.remove n = []
    · have hu1 : u.tiles = none := by
        rcases hu.body with ⟨-, e, -⟩ | ⟨e, -⟩
        · exact e
        · exact absurd hr e
      have hz : u.underAt r c m = [] := by unfold underAt; rw [hu1]; rfl
      rw [hz]
      by_cases hm : m = n
      · rw [if_pos hm]
      · rw [if_neg hm]
        split
        · have := slotCan_remove P ((i : ℚ) * size) ((j : ℚ) * size) nx A n m (r * nx + c)
          rw [if_neg hm] at this
          rw [← this, hr]
          exact (slotCan_nil P rfl m).symm
        · rfl
    · obtain ⟨i', j', nx', ny', T', hf', he'⟩ := grow_body hu hr
      rw [hext, he] at he'
      obtain ⟨rfl, rfl, rfl, rfl⟩ := frame_inj hs (Option.some.inj he')
      rw [underAt_frame P hf'.toReady]
      rw [slotCan_remove]
      by_cases hm : m = n
      · simp [hm]
      · simp [hm]

end Grid
end Bathy
