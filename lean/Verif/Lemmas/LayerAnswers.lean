import Verif.Spec.Layers
import Verif.Lemmas.Mosaic
import Verif.Lemmas.GridLeaf
import Verif.Lemmas.Shaped
import Verif.Props.TileGridding

/-!
# What tiles answer, and what a grid makes of it
-/

namespace Bathy

theorem fillValue_eq (l : Layer) (nodata : Option ℚ) : Tile.nodataFor l nodata = fillValue l nodata := by
  have key : ∀ v : ℚ, (if 0 ≤ v then (⌊v⌋ : ℚ) else (⌈v⌉ : ℚ)) = if v < 0 then -(⌊-v⌋ : ℚ) else (⌊v⌋ : ℚ) := by
    intro v
    by_cases h : 0 ≤ v
    · rw [if_pos h, if_neg (not_lt.2 h)]
    · rw [if_neg h, if_pos (not_le.1 h), Int.floor_neg]; push_cast; ring
  unfold Tile.nodataFor fillValue
  cases l <;> cases nodata <;> simp [key]

/-- the array with its values finished: sign and nodata -/
theorem finish_get {l : Layer} {nodata : Option ℚ} {zUp : Bool} {a D : LayerArr} (h : Tile.finishLayer l nodata zUp a = some D) :
    D.rows = a.rows ∧ D.cols = a.cols ∧ (a.WF → D.WF) ∧ (∀ i j z, a.get? i j = some (some z) → D.get? i j = some (some (shownValue l zUp z))) ∧
      (∀ i j, a.get? i j = some none → D.get? i j = some nodata) ∧ ∃ z, some z ∈ a.flat := by
  unfold Tile.finishLayer at h
  split at h
  · cases h
  · rename_i hall
    have hz : ∃ z, some z ∈ a.flat := by
      rw [List.all_eq_true] at hall
      push Not at hall
      obtain ⟨o, ho, hn⟩ := hall
      cases o with
      | none => simp at hn
      | some z => exact ⟨z, ho⟩
    simp only [Option.some.injEq] at h
    have hflip : ∀ i j z, a.get? i j = some (some z) →
        (if l = .depth ∧ zUp = true then a.map (Option.map (fun v => v * (-1))) else a).get? i j = some (some (shownValue l zUp z)) := by
      intro i j z hz
      unfold shownValue
      split
      · rw [Arr2.get?_map, hz]; simp
      · exact hz
    have hflip' : ∀ i j, a.get? i j = some none →
        (if l = .depth ∧ zUp = true then a.map (Option.map (fun v => v * (-1))) else a).get? i j = some none := by
      intro i j hz
      split
      · rw [Arr2.get?_map, hz]; simp
      · exact hz
    have hw : a.WF → (if l = .depth ∧ zUp = true then a.map (Option.map (fun v => v * (-1))) else a).WF := by
      intro hw
      split
      · unfold Arr2.WF Arr2.map at *; simpa using hw
      · exact hw
    have hr : (if l = .depth ∧ zUp = true then a.map (Option.map (fun v => v * (-1))) else a).rows = a.rows := by split <;> rfl
    have hc : (if l = .depth ∧ zUp = true then a.map (Option.map (fun v => v * (-1))) else a).cols = a.cols := by split <;> rfl
    generalize (if l = .depth ∧ zUp = true then a.map (Option.map (fun v => v * (-1))) else a) = b at *
    subst h
    cases nodata with
    | none => exact ⟨hr, hc, hw, hflip, hflip', hz⟩
    | some v =>
      refine ⟨hr, hc, ?_, ?_, ?_, hz⟩
      · intro h; have := hw h; unfold Arr2.WF Arr2.map at *; simpa using this
      · intro i j z h; simp only [Arr2.get?_map, hflip i j z h]; rfl
      · intro i j h; simp only [Arr2.get?_map, hflip' i j h]; rfl

theorem get?_bounds {α : Type} {a : Arr2 α} {i j : Nat} {v : α} (h : a.get? i j = some v) : i < a.rows ∧ j < a.cols := by
  unfold Arr2.get? at h
  split at h
  · assumption
  · cases h

theorem finish_none {l : Layer} {nodata : Option ℚ} {zUp : Bool} {a : LayerArr} (h : Tile.finishLayer l nodata zUp a = none) (i j : Nat) (z : ℚ) : a.get? i j ≠ some (some z) := by
  unfold Tile.finishLayer at h
  split at h
  · rename_i hall
    intro hz
    unfold Arr2.get? at hz
    split at hz
    · have := List.all_eq_true.1 hall _ (List.mem_of_getElem? hz)
      simp at this
    · cases hz
  · cases h

namespace Grid
variable {τ : Type} [TileLike τ] [LayerLike τ] [HasLeaves τ]
variable {size sub : ℚ} {bs : Bool} {fl : Fields}

/-- the objects represented by `C` answer for their cells -/
structure Answers (env : Env) (C : ChildSpec τ size sub bs fl) : Prop where
  ans : ∀ {x y : ℚ} {t : τ} {A : Store} {l : Layer} {res : ℚ} {nodata : Option ℚ} {zUp : Bool} {t' : τ} {o : Option LayerArr}, C.Rep x y t A → l.isCore = true → 0 < res →
    LayerLike.getLayer env t l res nodata zUp = (t', .ok o) →
    t' = t ∧ (o = none → ∀ px py z, ¬ StoredCell t l res px py z) ∧ ∀ D, o = some D → (∃ px py z, StoredCell t l res px py z) ∧ ShowsCells t l res nodata zUp x y D
  loc : ∀ {x y : ℚ} {t : τ} {A : Store} {l : Layer} {res px py z : ℚ}, C.Rep x y t A → l.isCore = true → StoredCell t l res px py z →
    x ≤ px ∧ px < x + size ∧ y ≤ py ∧ py < y + size

end Grid

open Grid

theorem lt_ncells {width res : ℚ} (hr : 0 < res) {j : Nat} (h : j < ncells width res) : (j : ℚ) * res < width := by
  unfold ncells at h
  have h1 : (j : ℤ) < ⌈width / res⌉ := by omega
  rw [Int.lt_ceil] at h1
  rw [lt_div_iff₀ hr] at h1
  exact_mod_cast h1

/-- the shape of the stored arrays of a tile -/
theorem tile_shape {F : Family} {size : ℚ} {bs : Bool} {fl : Fields} {x y : ℚ} {t : Tile}
    (hf : Tile.sameFrame (Tile.new x y size bs) t) (hg : t.GInv fl F) {res : ℚ} {ls : Dict Layer LayerArr} {l : Layer} {a : LayerArr} (hl : l.isCore = true) (h1 : t.cells.get? res = some ls)
    (h2 : ls.get? l = some a) : t.minX = x ∧ t.minY = y ∧ 0 < res ∧ HasShape a (ncells size res) (ncells size res) := by
  have hcore : t.coreAt res = some (core ls) := by unfold Tile.coreAt; rw [h1]; rfl
  obtain ⟨hr, -, -, ⟨-, hok⟩, -⟩ := hg.cells res _ hcore
  have hw : t.width = size := hf.2.2.2.2.1
  refine ⟨hf.1, hf.2.2.1, hr, ?_⟩
  rw [hw] at hok
  have hcc : core (core ls) = core ls := by unfold core; rw [List.filter_filter]; simp
  rw [hcc] at hok
  have : (core ls).get? l = some a := by rw [core_get? ls hl]; exact h2
  exact hok _ (Dict.mem_of_get? _ this)

theorem answers_shaped (env : Env) {F : Family} {size sub : ℚ} {bs : Bool} {fl : Fields} {C : ChildSpec Tile size sub bs fl} (S : Shaped C F) : Answers env C where
  ans := by
    intro x y t A l res nodata zUp t' o hrep hl hres h
    have hem : t.isEmpty = false := C.nonempty hrep
    obtain ⟨hfr, -, hgi⟩ := S.shape hrep
    have h : t.getLayer env l (some res) nodata zUp = (t', .ok o) := h
    have hens : ∀ nd, Tile.ensureLayer env t l res nd = .ok t := by
      intro nd; cases l <;> first | rfl | (simp [Layer.isCore] at hl)
    unfold Tile.getLayer at h
    rw [hem] at h
    have hq : Tile.queryResolution t (some res) = if t.cells.has res then .ok (some res) else .ok none := by
      unfold Tile.queryResolution; simp only [if_neg (ne_of_gt hres)]
    rw [hq] at h
    simp only [Bool.false_eq_true, if_false] at h
    by_cases hhas : t.cells.has res = true
    · rw [if_pos hhas] at h
      simp only [hens] at h
      split at h
      · cases h
      · rename_i a ha
        simp only [Prod.mk.injEq, Except.ok.injEq] at h
        obtain ⟨rfl, ho⟩ := h
        rw [Option.bind_eq_some_iff] at ha
        obtain ⟨ls, hls, hla⟩ := ha
        obtain ⟨ex, ey, -, hw, hrow, hcol⟩ := tile_shape hfr hgi hl hls hla
        have hst : ∀ {px py z : ℚ}, StoredCell t l res px py z ↔ ∃ i j : Nat, a.get? i j = some (some z) ∧ px = x + (j : ℚ) * res ∧ py = y + (i : ℚ) * res := by
          intro px py z
          constructor
          · rintro ⟨u, ls', a', i, j, hu, k1, k2, k3, k4, k5⟩
            have hu : u = t := hu
            subst hu
            rw [hls] at k1; cases k1
            rw [hla] at k2; cases k2
            exact ⟨i, j, k3, by rw [k4, ex], by rw [k5, ey]⟩
          · rintro ⟨i, j, k3, k4, k5⟩
            exact ⟨t, ls, a, i, j, rfl, hls, hla, k3, by rw [k4, ex], by rw [k5, ey]⟩
        refine ⟨rfl, ?_, ?_⟩
        · rintro rfl px py z hz
          obtain ⟨i, j, k, -⟩ := hst.1 hz
          exact finish_none ho i j z k
        · rintro D rfl
          obtain ⟨f1, f2, f3, f4, f5, z, f6⟩ := finish_get ho
          have inj : ∀ {i j i' j' : Nat}, x + (j : ℚ) * res = x + (j' : ℚ) * res → y + (i : ℚ) * res = y + (i' : ℚ) * res → i = i' ∧ j = j' := by
            intro i j i' j' e1 e2
            have e1 := mul_right_cancel₀ hres.ne' (add_left_cancel e1)
            have e2 := mul_right_cancel₀ hres.ne' (add_left_cancel e2)
            exact ⟨by exact_mod_cast e2, by exact_mod_cast e1⟩
          refine ⟨?_, ?_, ?_, ?_⟩
          · obtain ⟨k, hk⟩ := List.mem_iff_getElem?.1 f6
            have hkl := (List.getElem?_eq_some_iff.1 hk).1
            rw [Arr2.flat_getElem?_eq a hw hkl] at hk
            exact ⟨_, _, z, hst.2 ⟨_, _, hk, rfl, rfl⟩⟩
          · intro i j z hi hj hz
            obtain ⟨i', j', k, e1, e2⟩ := hst.1 hz
            obtain ⟨rfl, rfl⟩ := inj e1 e2
            exact f4 i j z k
          · intro i j hi hj hz
            rw [← fillValue_eq]
            apply f5
            rw [f1] at hi; rw [f2] at hj
            obtain ⟨v, hv⟩ := Arr2.get?_isSome a hw hi hj
            cases v with
            | none => exact hv
            | some z => exact absurd (hst.2 ⟨i, j, hv, rfl, rfl⟩) (hz z)
          · intro px py z hz
            obtain ⟨i, j, k, e1, e2⟩ := hst.1 hz
            obtain ⟨k1, k2⟩ := get?_bounds k
            exact ⟨i, j, by rw [f1]; exact k1, by rw [f2]; exact k2, e1, e2⟩
    · rw [if_neg hhas] at h
      simp only [Prod.mk.injEq, Except.ok.injEq] at h
      obtain ⟨rfl, rfl⟩ := h
      refine ⟨rfl, ?_, by simp⟩
      rintro - px py z ⟨u, ls', a', i, j, hu, k1, -⟩
      have hu : u = t := hu
      subst hu
      exact hhas (by rw [← Dict.get?_isSome, k1]; rfl)
  loc := by
    rintro x y t A l res px py z hrep hl ⟨u, ls, a, i, j, hu, k1, k2, k3, k4, k5⟩
    have hu : u = t := hu
    subst hu
    obtain ⟨hfr, -, hgi⟩ := S.shape hrep
    obtain ⟨ex, ey, hres, hw, hrow, hcol⟩ := tile_shape hfr hgi hl k1 k2
    obtain ⟨b1, b2⟩ := get?_bounds k3
    rw [hrow] at b1; rw [hcol] at b2
    have c1 := lt_ncells hres b1
    have c2 := lt_ncells hres b2
    have c3 : 0 ≤ (i : ℚ) * res := by positivity
    have c4 : 0 ≤ (j : ℚ) * res := by positivity
    rw [ex] at k4; rw [ey] at k5
    subst k4; subst k5
    exact ⟨by linarith, by linarith, by linarith, by linarith⟩

theorem answers_tile (env : Env) (F : Family) {size sub : ℚ} {bs : Bool} {fl : Fields} (hs : 0 < size) : Answers env (tileSpec env F size sub bs fl hs) :=
  answers_shaped env (shaped_tile env F hs)

namespace Grid
variable {τ : Type} [LayerLike τ]

/-- a tile that does not change when it is asked -/
theorem tileLayers_same {env : Env} {res : ℚ} {nodata : Option ℚ} {zUp : Bool} {layers : List Layer} {t : τ}
    (hq : ∀ l ∈ layers, ∀ t' o, LayerLike.getLayer env t l res nodata zUp = (t', .ok o) → t' = t) {d d' : Dict Layer LayerArr} {t' : τ}
    (h : tileLayersFrom env res nodata zUp t d layers = (t', .ok d')) :
    t' = t ∧ (∀ l ∈ layers, ∃ o, LayerLike.getLayer env t l res nodata zUp = (t, .ok o)) ∧
      ((∀ l ∈ layers, LayerLike.getLayer env t l res nodata zUp = (t, .ok none)) → d' = d) ∧
      ∀ f : Layer → LayerArr, (∀ l ∈ layers, LayerLike.getLayer env t l res nodata zUp = (t, .ok (some (f l)))) → (d.keys ++ layers).Nodup →
        d' = d ++ layers.map (fun l => (l, f l)) := by
  induction layers generalizing d with
  | nil =>
    simp only [tileLayersFrom, Prod.mk.injEq, Except.ok.injEq] at h
    obtain ⟨rfl, rfl⟩ := h
    refine ⟨rfl, by simp, fun _ => rfl, fun f _ _ => by simp⟩
  | cons l ls ih =>
    have hq' : ∀ l ∈ ls, ∀ t' o, LayerLike.getLayer env t l res nodata zUp = (t', .ok o) → t' = t := fun l hl => hq l (List.mem_cons_of_mem _ hl)
    unfold tileLayersFrom at h
    split at h
    · cases h
    · rename_i t1 ht1
      obtain rfl := hq l List.mem_cons_self _ _ ht1
      obtain ⟨i1, i2, i3, i4⟩ := ih hq' h
      refine ⟨i1, ?_, ?_, ?_⟩
      · intro l' hl'
        rcases List.mem_cons.1 hl' with rfl | hl'
        · exact ⟨none, ht1⟩
        · exact i2 l' hl'
      · exact fun h => i3 (fun l' hl' => h l' (List.mem_cons_of_mem _ hl'))
      · intro f hf hnd
        have := hf l List.mem_cons_self
        rw [ht1] at this
        simp at this
    · rename_i t1 a ht1
      obtain rfl := hq l List.mem_cons_self _ _ ht1
      obtain ⟨i1, i2, i3, i4⟩ := ih hq' h
      refine ⟨i1, ?_, ?_, ?_⟩
      · intro l' hl'
        rcases List.mem_cons.1 hl' with rfl | hl'
        · exact ⟨some a, ht1⟩
        · exact i2 l' hl'
      · intro hn
        have := hn l List.mem_cons_self
        rw [ht1] at this
        simp at this
      · intro f hf hnd
        have ha : a = f l := by
          have := hf l List.mem_cons_self
          rw [ht1] at this
          simpa using this
        have hlk : l ∉ d.keys := by
          intro hl
          rw [List.nodup_append] at hnd
          exact hnd.2.2 l hl l List.mem_cons_self rfl
        have hset : d.set l a = d ++ [(l, a)] := Dict.set_of_not_mem d _ a hlk
        have hnd' : ((d.set l a).keys ++ ls).Nodup := by
          rw [hset]
          simpa [Dict.keys, List.append_assoc] using hnd
        rw [i4 f (fun l' hl' => hf l' (List.mem_cons_of_mem _ hl')) hnd', hset, ha]
        simp


omit [LayerLike τ] in
theorem stored_grid [HasLeaves τ] {g : Grid τ} {l : Layer} {res px py z : ℚ} : StoredCell g l res px py z ↔ ∃ r c t, g.TileAt r c t ∧ StoredCell t l res px py z := by
  constructor
  · rintro ⟨u, ls, a, i, j, ⟨r, c, t, ht, hu⟩, k⟩
    exact ⟨r, c, t, ht, u, ls, a, i, j, hu, k⟩
  · rintro ⟨r, c, t, ht, u, ls, a, i, j, hu, k⟩
    exact ⟨u, ls, a, i, j, ⟨r, c, t, ht, hu⟩, k⟩

variable [TileLike τ] [HasLeaves τ] {size sub : ℚ} {bs : Bool} {fl : Fields}

/-- what a tile contributes -/
theorem tile_entry {env : Env} {C : ChildSpec τ size sub bs fl} (L : Answers env C) {x y : ℚ} {t : τ} {A : Store} (hrep : C.Rep x y t A) {layers : List Layer}
    (hcore : ∀ l ∈ layers, l.isCore = true) (hnd : layers.Nodup) {res : ℚ} (hres : 0 < res) {n : Nat} {nodata : Option ℚ} {zUp : Bool}
    (hall : (∀ l ∈ layers, ∃ px py z, StoredCell t l res px py z) ∨ ∀ l ∈ layers, ∀ px py z, ¬ StoredCell t l res px py z)
    (hf : Fits (foundIn env res layers nodata zUp) n layers.length t) :
    askedFor env res layers nodata zUp t = t ∧
    (foundIn env res layers nodata zUp t = .ok [] → ∀ l ∈ layers, ∀ px py z, ¬ StoredCell t l res px py z) ∧
    (foundIn env res layers nodata zUp t ≠ .ok [] → ∃ l ∈ layers, ∃ px py z, StoredCell t l res px py z) ∧
    (∀ (k : Nat) l, layers[k]? = some l → ∀ i j, i < n → j < n →
      (∀ z, StoredCell t l res (x + (j : ℚ) * res) (y + (i : ℚ) * res) z → entryVal (foundIn env res layers nodata zUp t) k (fillValue l nodata) i j = some (shownValue l zUp z)) ∧
      ((∀ z, ¬ StoredCell t l res (x + (j : ℚ) * res) (y + (i : ℚ) * res) z) → entryVal (foundIn env res layers nodata zUp t) k (fillValue l nodata) i j = fillValue l nodata)) ∧
    (∀ l ∈ layers, ∀ px py z, StoredCell t l res px py z → ∃ i j : Nat, i < n ∧ j < n ∧ px = x + (j : ℚ) * res ∧ py = y + (i : ℚ) * res) := by
  obtain ⟨d, hd, -, hsh⟩ := hf
  have htl : tileLayersFrom env res nodata zUp t [] layers = (askedFor env res layers nodata zUp t, .ok d) := by
    rw [← hd]; rfl
  obtain ⟨h1, h2, h3, h4⟩ := tileLayers_same (fun l hl t' o h => (L.ans hrep (hcore l hl) hres h).1) htl
  rw [hd]
  refine ⟨h1, ?_⟩
  rcases hall with hall | hall
  · have hex : ∀ l ∈ layers, ∃ a, LayerLike.getLayer env t l res nodata zUp = (t, .ok (some a)) := by
      intro l hl
      obtain ⟨o, ho⟩ := h2 l hl
      cases o with
      | none =>
        obtain ⟨px, py, z, hz⟩ := hall l hl
        exact absurd hz ((L.ans hrep (hcore l hl) hres ho).2.1 rfl px py z)
      | some a => exact ⟨a, ho⟩
    have hex' : ∀ l, ∃ a, l ∈ layers → LayerLike.getLayer env t l res nodata zUp = (t, .ok (some a)) := by
      intro l
      by_cases hl : l ∈ layers
      · obtain ⟨a, ha⟩ := hex l hl; exact ⟨a, fun _ => ha⟩
      · exact ⟨Arr2.fill 0 0 none, fun h => absurd h hl⟩
    choose f hf using hex'
    have hdd := h4 f hf (by simpa [Dict.keys] using hnd)
    have hdd : d = layers.map (fun l => (l, f l)) := by simpa using hdd
    subst hdd
    refine ⟨?_, ?_, ?_, ?_⟩
    · intro he l hl
      simp only [Except.ok.injEq, List.map_eq_nil_iff] at he
      rw [he] at hl; cases hl
    · intro hne
      have : layers ≠ [] := by rintro rfl; exact hne rfl
      obtain ⟨l, hl⟩ := List.exists_mem_of_ne_nil _ this
      exact ⟨l, hl, hall l hl⟩
    · intro k l hk i j hi hj
      have hl := List.mem_of_getElem? hk
      obtain ⟨-, -, hsc⟩ := L.ans hrep (hcore l hl) hres (hf l hl)
      obtain ⟨-, hsc⟩ := hsc _ rfl
      have hn := hsh (l, f l) (List.mem_map_of_mem hl)
      have hval : entryVal (.ok (layers.map (fun l => (l, f l)))) k (fillValue l nodata) i j = ((f l).get? i j).join := by
        unfold entryVal; simp only [List.getElem?_map, hk, Option.map_some]
      rw [hval]
      refine ⟨?_, ?_⟩
      · intro z hz
        rw [hsc.value i j z (by rw [hn.1]; exact hi) (by rw [hn.2]; exact hj) hz]; rfl
      · intro hz
        rw [hsc.empty i j (by rw [hn.1]; exact hi) (by rw [hn.2]; exact hj) hz]; rfl
    · intro l hl px py z hz
      obtain ⟨-, -, hsc⟩ := L.ans hrep (hcore l hl) hres (hf l hl)
      have hn := hsh (l, f l) (List.mem_map_of_mem hl)
      obtain ⟨i, j, hi, hj, e⟩ := (hsc _ rfl).2.all px py z hz
      rw [hn.1] at hi; rw [hn.2] at hj
      exact ⟨i, j, hi, hj, e⟩
  · have hnone : ∀ l ∈ layers, LayerLike.getLayer env t l res nodata zUp = (t, .ok none) := by
      intro l hl
      obtain ⟨o, ho⟩ := h2 l hl
      cases o with
      | none => exact ho
      | some a =>
        obtain ⟨px, py, z, hz⟩ := ((L.ans hrep (hcore l hl) hres ho).2.2 a rfl).1
        exact absurd hz (hall l hl px py z)
    have hdd := h3 hnone
    subst hdd
    refine ⟨fun _ => hall, fun h => absurd rfl h, ?_, fun l hl px py z hz => absurd hz (hall l hl px py z)⟩
    intro k l hk i j hi hj
    exact ⟨fun z hz => absurd hz (hall l (List.mem_of_getElem? hk) _ _ z), fun _ => rfl⟩

theorem mul_lt_div {n c j : Nat} {size res x0 : ℚ} (hres : 0 < res) (hn : size = (n : ℚ) * res) (h1 : x0 + (c : ℚ) * size ≤ x0 + (j : ℚ) * res)
    (h2 : x0 + (j : ℚ) * res < x0 + (c : ℚ) * size + size) : c = j / n := by
  subst hn
  have e1 : ((c * n : Nat) : ℚ) * res ≤ (j : ℚ) * res := by push_cast; nlinarith
  have e2 : (j : ℚ) * res < (((c + 1) * n : Nat) : ℚ) * res := by push_cast; nlinarith
  have e1 := le_of_mul_le_mul_right e1 hres
  have e2 := lt_of_mul_lt_mul_right e2 hres.le
  have e1 : c * n ≤ j := by exact_mod_cast e1
  have e2 : j < (c + 1) * n := by exact_mod_cast e2
  have : j / n = c := Nat.div_eq_of_lt_le e1 e2
  exact this.symm

theorem at_cell {n j : Nat} {size res x0 : ℚ} (hn : size = (n : ℚ) * res) : x0 + ((j / n : Nat) : ℚ) * size + ((j % n : Nat) : ℚ) * res = x0 + (j : ℚ) * res := by
  have h1 : (((j / n) * n + j % n : Nat) : ℚ) = (j : ℚ) := by rw [Nat.div_add_mod']
  push_cast at h1
  rw [hn, ← h1]; ring

/-- `get_layers_by_name` of a grid -/
theorem grid_answers {env : Env} {C : ChildSpec τ size sub bs fl} (L : Answers env C) {x0 y0 : ℚ} {nx ny : Nat} {T : Arr2 (Option τ)} {g : Grid τ} {A : Store}
    (hf : Ready C x0 y0 nx ny T g A) (hh : g.height = some ((ny : ℚ) * size)) (hw : g.width = some ((nx : ℚ) * size)) {layers : List Layer}
    (hcore : ∀ l ∈ layers, l.isCore = true) (hnd : layers.Nodup) {res : ℚ} (hres : 0 < res) (hall : AllOrNone g layers res)
    {nodata : Option ℚ} {zUp : Bool} {g' : Grid τ} {o : Option (List LayerArr)} (h : getLayersByName env g layers (some res) nodata zUp = (g', .ok o)) :
    g' = g ∧ (o = none → ∀ l ∈ layers, ∀ px py z, ¬ StoredCell g l res px py z) ∧
    ∀ D, o = some D → D.length = layers.length ∧ (∃ l ∈ layers, ∃ px py z, StoredCell g l res px py z) ∧
      ∀ (k : Nat) l, layers[k]? = some l → ∃ a, D[k]? = some a ∧ (a.rows : ℚ) * res = (ny : ℚ) * size ∧ (a.cols : ℚ) * res = (nx : ℚ) * size ∧
        ShowsCells g l res nodata (g.flips zUp) x0 y0 a := by
  have hTw : T.WF := by show T.flat.length = _; rw [hf.rep.2.2.1, hf.rep.1, hf.rep.2.1]
  have hlaid : Laid g T := ⟨hf.tiles, hTw, by rw [hf.txs, originsOf_length, hf.rep.2.1], by rw [hh, hf.tileSize, hf.rep.1], by rw [hw, hf.tileSize, hf.rep.2.1]⟩
  obtain ⟨-, ⟨hno, ho, hg'⟩ | ⟨n, hn, hfit, hnone, hsome, hg'⟩⟩ := getLayers_spec hlaid hres h
  · refine ⟨hg', ?_, ?_⟩
    · intro _ l hl px py z hz
      obtain ⟨r, c, t, ht, -⟩ := stored_grid.1 hz
      exact hno r c t ht
    · intro D hD; rw [ho] at hD; cases hD
  · have hsz := cellsAlong_ok hres.ne' hn
    rw [hf.tileSize] at hsz
    have hent : ∀ r c t, g.TileAt r c t → _ := fun r c t ht =>
      tile_entry L (frame_tileAt hf ht).2.2.1 hcore hnd hres (hall r c t ht) (hfit r c t ht)
    refine ⟨?_, ?_, ?_⟩
    · rw [hg']
      have : T.flat.map (Option.map (askedFor env res layers nodata (g.flips zUp))) = T.flat := by
        apply List.ext_getElem?
        intro k
        rw [List.getElem?_map]
        rcases Option.eq_none_or_eq_some T.flat[k]? with hk | ⟨v, hk⟩
        · rw [hk]; rfl
        · rw [hk]
          cases v with
          | none => rfl
          | some t =>
            have hkl := (List.getElem?_eq_some_iff.1 hk).1
            have := (hent (k / T.cols) (k % T.cols) t ⟨T, hf.tiles, by rw [← Arr2.flat_getElem?_eq T hTw hkl]; exact hk⟩).1
            simp only [Option.map_some, this]
      rw [this]
      show { g with tiles := some T } = g
      rw [← hf.tiles]
    · intro ho l hl px py z hz
      obtain ⟨r, c, t, ht, hz⟩ := stored_grid.1 hz
      exact (hent r c t ht).2.1 (hnone.1 ho r c t ht) l hl px py z hz
    · intro D hD
      obtain ⟨hlen, hD'⟩ := hsome D hD
      refine ⟨hlen, ?_, ?_⟩
      · have : ¬ ∀ r c t, g.TileAt r c t → foundIn env res layers nodata (g.flips zUp) t = .ok [] := by
          intro hc; rw [hnone.2 hc] at hD; cases hD
        push Not at this
        obtain ⟨r, c, t, ht, hne⟩ := this
        obtain ⟨l, hl, px, py, z, hz⟩ := (hent r c t ht).2.2.1 hne
        exact ⟨l, hl, px, py, z, stored_grid.2 ⟨r, c, t, ht, hz⟩⟩
      · intro k l hk
        obtain ⟨a, ha, hr, hc, hwf, hv⟩ := hD' k l hk
        rw [hf.rep.1] at hr hv
        rw [hf.rep.2.1] at hc hv
        rw [fillValue_eq] at hv
        refine ⟨a, ha, by rw [hr, hsz]; push_cast; ring, by rw [hc, hsz]; push_cast; ring, ?_, ?_, ?_⟩
        · intro i j z hi hj hz
          rw [hr] at hi; rw [hc] at hj
          obtain ⟨r, c, t, ht, hz⟩ := stored_grid.1 hz
          obtain ⟨-, -, hrep, -⟩ := frame_tileAt hf ht
          obtain ⟨b1, b2, b3, b4⟩ := L.loc hrep (hcore l (List.mem_of_getElem? hk)) hz
          obtain rfl := mul_lt_div hres hsz b1 b2
          obtain rfl := mul_lt_div hres hsz b3 b4
          rw [hv i j hi hj]
          obtain ⟨T', hT', hget⟩ := ht
          have : T' = T := by have := hf.tiles; rw [hT'] at this; cases this; rfl
          subst this
          unfold slotVal
          rw [hget]
          simp only
          have hnpos : 0 < n := Nat.pos_of_ne_zero (by rintro rfl; simp at hi)
          have := ((hent _ _ t ⟨T', hT', hget⟩).2.2.2.1 k l hk (i % n) (j % n) (Nat.mod_lt _ hnpos) (Nat.mod_lt _ hnpos)).1 z
          rw [at_cell hsz, at_cell hsz] at this
          rw [this hz]
        · intro i j hi hj hz
          rw [hr] at hi; rw [hc] at hj
          rw [hv i j hi hj]
          unfold slotVal
          split
          · rename_i t hget
            have ht : g.TileAt (i / n) (j / n) t := ⟨T, hf.tiles, hget⟩
            have hnpos : 0 < n := Nat.pos_of_ne_zero (by rintro rfl; simp at hi)
            have := ((hent _ _ t ht).2.2.2.1 k l hk (i % n) (j % n) (Nat.mod_lt _ hnpos) (Nat.mod_lt _ hnpos)).2
            rw [at_cell hsz, at_cell hsz] at this
            rw [this (fun z hz' => hz z (stored_grid.2 ⟨_, _, t, ht, hz'⟩))]
          · rfl
        · intro px py z hz
          obtain ⟨r, c, t, ht, hz⟩ := stored_grid.1 hz
          obtain ⟨hr1, hc1, hrep, -⟩ := frame_tileAt hf ht
          have hl := List.mem_of_getElem? hk
          obtain ⟨i, j, hi, hj, e1, e2⟩ := (hent r c t ht).2.2.2.2 l hl px py z hz
          refine ⟨r * n + i, c * n + j, ?_, ?_, ?_, ?_⟩
          · rw [hr]; exact Arr2.idx_lt hr1 hi
          · rw [hc]; exact Arr2.idx_lt hc1 hj
          · rw [e1, hsz]; push_cast; ring
          · rw [e2, hsz]; push_cast; ring


omit [LayerLike τ] [TileLike τ] in
theorem allOrNone_single (g : Grid τ) (l : Layer) (res : ℚ) : AllOrNone g [l] res := by
  intro r c t _
  by_cases h : ∃ px py z, StoredCell t l res px py z
  · left; intro l' hl'; rw [List.mem_singleton.1 hl']; exact h
  · right; intro l' hl' px py z hz; rw [List.mem_singleton.1 hl'] at hz; exact h ⟨px, py, z, hz⟩

/-- a subgrid answers for its cells -/
theorem answers_sub {env : Env} {C : ChildSpec τ sub 0 false fl} (L : Answers env C) (hs : 0 < size) (hpow : isPowerOfTwo sub = true) {q : Nat} (hq : size = (q : ℚ) * sub) :
    Answers env (subSpec (size := size) (bs := bs) C hs hpow) where
  ans := by
    intro x y g A l res nodata zUp g' o hrep hl hres h
    have hrep : SubInv C size x y g A := hrep
    obtain ⟨T, hfr⟩ := hrep.frame
    have hnc : ncells size sub = q := by rw [hq]; exact ncells_mul (isPowerOfTwo_pos hpow) q
    rw [hnc] at hfr
    obtain ⟨hw, hh⟩ := hfr.dims _ hrep.extents
    have hw : g.width = some ((q : ℚ) * sub) := by rw [hw, ← hq]; congr 1; ring
    have hh : g.height = some ((q : ℚ) * sub) := by rw [hh, ← hq]; congr 1; ring
    have hup : g.positiveUp = false := by unfold positiveUp; rw [hrep.vref]
    have hflip : g.flips zUp = zUp := by unfold flips; rw [hup]; rfl
    have h : getLayer env g l res nodata zUp = (g', .ok o) := h
    unfold getLayer at h
    rcases hc : getLayersByName env g [l] (some res) nodata zUp with ⟨g1, e | o1⟩
    · rw [hc] at h; cases h
    · rw [hc] at h
      obtain ⟨k1, k2, k3⟩ := grid_answers L hfr.toReady hh hw (by simpa using hl) (by simp) hres (allOrNone_single g l res) hc
      rw [hflip] at k3
      cases o1 with
      | none =>
        simp only [Prod.mk.injEq, Except.ok.injEq] at h
        obtain ⟨rfl, rfl⟩ := h
        exact ⟨k1, fun _ => k2 rfl l (by simp), by simp⟩
      | some D =>
        obtain ⟨hlen, ⟨l', hl', hst⟩, hsc⟩ := k3 D rfl
        rw [List.mem_singleton.1 hl'] at hst
        obtain ⟨a, ha, -, -, hsc⟩ := hsc 0 l rfl
        cases D with
        | nil => cases ha
        | cons a' D' =>
          simp only [List.getElem?_cons_zero, Option.some.injEq] at ha
          subst ha
          simp only [Prod.mk.injEq, Except.ok.injEq] at h
          obtain ⟨rfl, rfl⟩ := h
          refine ⟨k1, by simp, ?_⟩
          intro D hD
          cases hD
          exact ⟨hst, hsc⟩
  loc := by
    intro x y g A l res px py z hrep hl hz
    have hrep : SubInv C size x y g A := hrep
    obtain ⟨T, hfr⟩ := hrep.frame
    have hnc : ncells size sub = q := by rw [hq]; exact ncells_mul (isPowerOfTwo_pos hpow) q
    rw [hnc] at hfr
    obtain ⟨r, c, t, ht, hz⟩ := stored_grid.1 hz
    obtain ⟨hr, hc, hrt, -⟩ := frame_tileAt hfr.toReady ht
    obtain ⟨b1, b2, b3, b4⟩ := L.loc hrt hl hz
    have hsub := isPowerOfTwo_pos hpow
    have e1 : ((c : ℚ) + 1) * sub ≤ (q : ℚ) * sub := mul_le_mul_of_nonneg_right (by exact_mod_cast hc) hsub.le
    have e2 : ((r : ℚ) + 1) * sub ≤ (q : ℚ) * sub := mul_le_mul_of_nonneg_right (by exact_mod_cast hr) hsub.le
    have e3 : 0 ≤ (c : ℚ) * sub := by positivity
    have e4 : 0 ≤ (r : ℚ) * sub := by positivity
    rw [← hq] at e1 e2
    exact ⟨by linarith, by linarith, by linarith, by linarith⟩

/-- the grids of the histories -/
theorem grow_answers {env : Env} {C : ChildSpec τ size sub bs fl} (L : Answers env C) {g : Grid τ} {A : Store} (hg : GrowInv C g A) {layers : List Layer}
    (hcore : ∀ l ∈ layers, l.isCore = true) (hnd : layers.Nodup) {res : ℚ} (hres : 0 < res) (hall : AllOrNone g layers res)
    {nodata : Option ℚ} {zUp : Bool} {g' : Grid τ} {o : Option (List LayerArr)} (h : getLayersByName env g layers (some res) nodata zUp = (g', .ok o)) :
    g' = g ∧ (o = none → ∀ l ∈ layers, ∀ px py z, ¬ StoredCell g l res px py z) ∧
    ∀ D, o = some D → D.length = layers.length ∧ (∃ l ∈ layers, ∃ px py z, StoredCell g l res px py z) ∧ ∃ e, g.extents = some e ∧
      ∀ (k : Nat) l, layers[k]? = some l → ∃ a, D[k]? = some a ∧ (a.rows : ℚ) * res = e.maxY - e.minY ∧ (a.cols : ℚ) * res = e.maxX - e.minX ∧
        ShowsCells g l res nodata (g.flips zUp) e.minX e.minY a := by
  rcases hg.body with ⟨-, hT, -⟩ | ⟨-, i, j, nx, ny, T, hf, he⟩
  · exfalso
    unfold getLayersByName noGrid at h
    rw [hT] at h
    cases h
  · obtain ⟨hw, hh⟩ := hf.dims _ he
    have hw : g.width = some ((nx : ℚ) * size) := by rw [hw]; congr 1; ring
    have hh : g.height = some ((ny : ℚ) * size) := by rw [hh]; congr 1; ring
    obtain ⟨k1, k2, k3⟩ := grid_answers L hf.toReady hh hw hcore hnd hres hall h
    refine ⟨k1, k2, ?_⟩
    intro D hD
    obtain ⟨m1, m2, m3⟩ := k3 D hD
    refine ⟨m1, m2, _, he, ?_⟩
    intro k l hk
    obtain ⟨a, n1, n2, n3, n4⟩ := m3 k l hk
    exact ⟨a, n1, by rw [n2]; ring, by rw [n3]; ring, n4⟩

end Grid

theorem hasSub_iff (sub s : List Char) : hasSub sub s = true ↔ sub <:+: s := by
  induction s with
  | nil => simp [hasSub, List.infix_nil, List.isEmpty_iff]
  | cons c cs ih => rw [hasSub, Bool.or_eq_true, ih, List.isPrefixOf_iff_prefix, List.infix_cons_iff]

theorem flips_eq {τ : Type} (g : Grid τ) (zUp : Bool) : Grid.flips g zUp = true ↔ (zUp = true ↔ ¬ StoredUp g) := by
  have : g.positiveUp = true ↔ StoredUp g := by
    unfold Grid.positiveUp StoredUp
    cases hv : g.info.vref with
    | none => simp
    | some s => simp only [contains, hasSub_iff, Option.some.injEq, exists_eq_left']
  rw [← this]
  unfold Grid.flips
  cases g.positiveUp <;> cases zUp <;> simp

end Bathy
