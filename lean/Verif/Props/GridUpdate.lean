import Verif.Lemmas.GridUpdate
import Verif.Spec.Alike
import Verif.Lemmas.GridExtents
import Verif.Spec.DemoGrid

/-!
# C22, C23: `regrid_option='update'`

Model: `Grid.gridWith` (bathygrid/bgrid.py:1279-1521).  The specification of an update is the full run.
-/

namespace Bathy
open Grid

/-- what may happen between gridding and the update: soundings are added and removed, layers are looked at, updates and further gridding with
the same algorithm and resolution -/
inductive Since {τ : Type} [GridLike τ] [Queried τ] (env : Env) (fl : Fields) (alg : Alg) (r : ℚ) (g0 : Grid τ) (A0 : Store) : Grid τ → Store → Prop
  | refl : Since env fl alg r g0 A0 g0 A0
  | add {g A} (h : Since env fl alg r g0 A0 g A) (pts : List Pt) (c : String) (a : AddArgs) (hok : (g.addPoints ⟨fl, pts⟩ c a).err = none) :
      Since env fl alg r g0 A0 (g.addPoints ⟨fl, pts⟩ c a).st (A ++ [(c, pts)])
  | reject {g A} (h : Since env fl alg r g0 A0 g A) (pts : List Pt) (hp : pts ≠ []) (c : String) (a : AddArgs) (hno : (g.addPoints ⟨fl, pts⟩ c a).err ≠ none) :
      Since env fl alg r g0 A0 (g.addPoints ⟨fl, pts⟩ c a).st A
  | remove {g A} (h : Since env fl alg r g0 A0 g A) (c : String) (hok : (g.removePoints c).err = none) : Since env fl alg r g0 A0 (g.removePoints c).st (A.remove c)
  | query {g u A} (h : Since env fl alg r g0 A0 g A) (hq : Queried.queried env g u) : Since env fl alg r g0 A0 u A
  | grid {g A} (h : Since env fl alg r g0 A0 g A) (a : GridCall) (ha : a.alg = alg) (hr : a.res = some r) (dask : Option Nat)
      (hok : (g.gridWith env a dask).err = none) : Since env fl alg r g0 A0 (g.gridWith env a dask).st A

section
variable {τ : Type} [GridLike τ] [Queried τ] [LawfulGrid τ] {size sub : ℚ} {bs : Bool} {fl : Fields} {env : Env} {alg : Alg} {r : ℚ}

theorem since_inv {C : ChildSpec τ size sub bs fl} (hs : 0 < size) (hq : ∀ {x y : ℚ} {t u : τ} {A : Store}, C.Rep x y t A → Queried.queried env t u → C.Rep x y u A)
    (hr : Regrids env C C alg r (fun _ => True)) {g0 g : Grid τ} {A0 A : Store} (h0 : GrowInv C g0 A0) (h : Since env fl alg r g0 A0 g A) : GrowInv C g A := by
  induction h with
  | refl => exact h0
  | @add g A h pts c a hok ih =>
    have hp : pts ≠ [] := by
      rintro rfl
      exact addPoints_nil ih c a fl hok
    have hc : c ∉ A.names := by
      intro hc
      have : g.info.container.has c = true := by rw [Dict.has_iff, ih.cont]; exact hc
      unfold addPoints at hok
      rw [this] at hok
      simp at hok
    have hm : (g.info.update c a).err = none := by
      rcases Option.eq_none_or_eq_some (g.info.update c a).err with hm | ⟨e, hm⟩
      · exact hm
      · exfalso
        unfold addPoints at hok
        simp only [hm] at hok
        split at hok
        · simp at hok
        · simp at hok
    obtain ⟨u, hu, hinv, -⟩ := addPoints_grow C hs ih hc hp hm
    rw [hu]; exact hinv
  | @reject g A h pts hp c a hno ih =>
    rcases addPoints_reject C hs ih hp c a hno with ⟨h1, -⟩ | ⟨-, -, h2, h1⟩
    · rw [h1]; exact ih
    · rw [h1]
      refine grow_info ih ?_
      rcases Meta.update_container g.info c a with ⟨h3, -⟩ | ⟨-, h3⟩
      · exact absurd h3 h2
      · rw [h3]
  | @remove g A h c hok ih =>
    obtain ⟨u, hu, hinv, -⟩ := removePoints_grow C hs ih c (Or.inr hok)
    rw [hu]; exact hinv
  | @query g u A h hqu ih =>
    rcases hqu with ⟨k, t, v, hk, hqu, rfl⟩ | ⟨-, -, rfl⟩
    · exact grow_set ih hk (fun x y B hB => hq hB hqu)
    · exact grow_mask ih _
  | @grid g A h a ha hr' dask hok ih =>
    exact grow_did ih (fun hB hd => hr.did ha hr' trivial hB hd) hok

/-- two calls with the algorithm and resolution give tiles that are related -/
structure AlikeRuns [Alike τ] (env : Env) (C : ChildSpec τ size sub bs fl) (R : Tile → Tile → Prop) (alg : Alg) (r : ℚ) : Prop where
  run : ∀ {a b : GridCall}, a.alg = alg → b.alg = alg → a.res = some r → b.res = some r → ∀ {x y : ℚ} {t t1 t2 : τ} {B : Store} {rs rs' : List ℚ}, C.Rep x y t B →
    Did env a t t1 rs → Did env b t t2 rs' → Alike.alike R t1 t2

omit [Queried τ] in
theorem alike_gridWith [Alike τ] [Holds τ] {C : ChildSpec τ size sub bs fl} {R : Tile → Tile → Prop} (h : AlikeRuns env C R alg r) {g : Grid τ} {A : Store} (hg : GrowInv C g A)
    {a b : GridCall} (ha : a.alg = alg) (hb : b.alg = alg) (har : a.res = some r) (hbr : b.res = some r) {da db : Option Nat} (hoa : (g.gridWith env a da).err = none)
    (hob : (g.gridWith env b db).err = none) : Grid.Alike R (g.gridWith env a da).st (g.gridWith env b db).st := by
  obtain ⟨-, -, -, f1, b1, -⟩ := gridWith_at hoa
  obtain ⟨-, -, -, f2, b2, -⟩ := gridWith_at hob
  have hrep := (grow_reps hg).1
  constructor
  · intro i j t1 h1
    obtain ⟨t, rs, ht, hd, -⟩ := b1 i j t1 h1
    obtain ⟨t2, rs', ht2, hd2, -⟩ := f2 i j t ht
    obtain ⟨x, y, B, hB⟩ := hrep i j t ht
    exact ⟨t2, ht2, h.run ha hb har hbr hB hd hd2⟩
  · intro i j t2 h1
    obtain ⟨t, rs, ht, hd, -⟩ := b2 i j t2 h1
    obtain ⟨t1, rs', ht1, hd1, -⟩ := f1 i j t ht
    obtain ⟨x, y, B, hB⟩ := hrep i j t ht
    exact ⟨t1, ht1, h.run ha hb har hbr hB hd1 hd⟩

omit [Queried τ] in
theorem alikeRuns_sub [Alike τ] [Holds τ] {C : ChildSpec τ sub 0 false fl} {R : Tile → Tile → Prop} (h : AlikeRuns env C R alg r) (hs : 0 < size) (hpow : isPowerOfTwo sub = true) :
    AlikeRuns (size := size) (bs := bs) env (subSpec C hs hpow) R alg r where
  run := by
    intro a b ha hb har hbr x y u u1 u2 A rs rs' hrep h1 h2
    have hrep : SubInv C size x y u A := hrep
    obtain ⟨c1, ca, cr, f1, b1⟩ := did_tiles h1
    obtain ⟨c2, ca', cr', f2, b2⟩ := did_tiles h2
    have hrep := (sub_reps hrep).1
    constructor
    · intro i j t1 h1
      obtain ⟨t, rs, ht, hd⟩ := b1 i j t1 h1
      obtain ⟨t2, rs', ht2, hd2⟩ := f2 i j t ht
      obtain ⟨x, y, B, hB⟩ := hrep i j t ht
      exact ⟨t2, ht2, h.run (ca.trans ha) (ca'.trans hb) (cr r har) (cr' r hbr) hB hd hd2⟩
    · intro i j t2 h1
      obtain ⟨t, rs, ht, hd⟩ := b2 i j t2 h1
      obtain ⟨t1, rs', ht1, hd1⟩ := f1 i j t ht
      obtain ⟨x, y, B, hB⟩ := hrep i j t ht
      exact ⟨t1, ht1, h.run (ca.trans ha) (ca'.trans hb) (cr r har) (cr' r hbr) hB hd1 hd⟩

end

/-- the tiles have the same layers at `r` -/
def SameLayersAt (r : ℚ) (t t' : Tile) : Prop := ∀ l : Layer, l.isCore = true → t.layerAt r l = t'.layerAt r l

section
variable {env : Env} {size sub : ℚ} {bs : Bool} {fl : Fields} {s : Bool} {A A' : Store} {alg : Alg} {r : ℚ}

theorem alikeRuns_tile {F : Family} (hs : 0 < size) (hF : alg.family = some F) (hne : alg ≠ .cube) :
    AlikeRuns env (curSpec env F size sub bs fl hs alg r) (SameLayersAt r) alg r where
  run := by
    intro a b ha hb har hbr x y t t1 t2 B rs rs' hrep h1 h2
    have key : ∀ {a t' rs}, a.alg = alg → a.res = some r → Did env a t t' rs → Current env x y size bs fl F alg r t' B := by
      intro a t' rs ha har h
      rcases did_current hs hF hne ha har hrep.1.1 (Or.inl rfl) h with ⟨rfl, h3, -⟩ | ⟨-, -, h3⟩
      · exact hrep.2 h3
      · exact h3
    obtain ⟨L1, e1, c1, -⟩ := key ha har h1
    obtain ⟨L2, e2, c2, -⟩ := key hb hbr h2
    rw [e1] at e2; cases e2
    intro l hl
    rw [layerAt_of_core c1 hl, layerAt_of_core c2 hl]

theorem plain_family (h : alg = .mean ∨ alg = .shoalest) : alg.family = some .plain ∧ alg ≠ .cube := by
  rcases h with rfl | rfl
  · exact ⟨rfl, by simp⟩
  · exact ⟨rfl, by simp⟩

/-- **C22, partial** (single resolution): a grid in any reachable state is gridded with mean or shoalest at the resolution `r` (all tiles: not an
update, or clearing).  After that soundings are added and removed and layers are looked at in any way.  Then `grid` with the same algorithm and resolution
and `regrid_option='update'` gives a grid that has, in every tile, the same layers at `r` as the grid given by a full run, whether these
calls use workers or not.  Missing: CUBE, for which it is false (`C22_violated`). -/
theorem C22_update_equals_full_sr_partial {F : Family} (hs : 0 < size) {g g1 : Grid Tile} (h : SRHistory env size bs fl F s g A) (halg : alg = .mean ∨ alg = .shoalest)
    {a0 : GridCall} (ha0 : a0.alg = alg) (hr0 : a0.res = some r) (hv0 : a0.regrid = .full ∨ a0.clear = true) (hF : F = .plain ∨ a0.clear = true) {d0 : Option Nat}
    (hok0 : (g.gridWith env a0 d0).err = none) (hsince : Since env fl alg r (g.gridWith env a0 d0).st A g1 A')
    {a b : GridCall} (ha : a.alg = alg) (hb : b.alg = alg) (har : a.res = some r) (hbr : b.res = some r) (_hau : a.regrid = .update) (_hbf : b.regrid = .full)
    {da db : Option Nat} (hoa : (g1.gridWith env a da).err = none) (hob : (g1.gridWith env b db).err = none) :
    Grid.Alike (SameLayersAt r) (g1.gridWith env a da).st (g1.gridWith env b db).st := by
  obtain ⟨h1, h2⟩ := plain_family halg
  have k1 : GrowInv (curSpec env .plain size 0 bs fl hs alg r) (g.gridWith env a0 d0).st A :=
    grow_did (sr_inv hs h).1 (fun hB hd => (regrids_full hs h1 h2 r).did ha0 hr0 ⟨hv0, hF⟩ hB hd) hok0
  have k2 := since_inv hs (curSpec_query hs) (regrids_update hs h1 h2 r) k1 hsince
  exact alike_gridWith (alikeRuns_tile hs h1 h2) k2 ha hb har hbr hoa hob

/-- **C22, partial** (variable resolution) -/
theorem C22_update_equals_full_vr_partial {F : Family} (hs : 0 < size) (hsub : isPowerOfTwo sub = true) {g g1 : Grid (Grid Tile)} (h : VRHistory env size sub bs fl F s g A)
    (halg : alg = .mean ∨ alg = .shoalest)
    {a0 : GridCall} (ha0 : a0.alg = alg) (hr0 : a0.res = some r) (hv0 : a0.regrid = .full ∨ a0.clear = true) (hF : F = .plain ∨ a0.clear = true) {d0 : Option Nat}
    (hok0 : (g.gridWith env a0 d0).err = none) (hsince : Since env fl alg r (g.gridWith env a0 d0).st A g1 A')
    {a b : GridCall} (ha : a.alg = alg) (hb : b.alg = alg) (har : a.res = some r) (hbr : b.res = some r) (_hau : a.regrid = .update) (_hbf : b.regrid = .full)
    {da db : Option Nat} (hoa : (g1.gridWith env a da).err = none) (hob : (g1.gridWith env b db).err = none) :
    Grid.Alike (SameLayersAt r) (g1.gridWith env a da).st (g1.gridWith env b db).st := by
  obtain ⟨h1, h2⟩ := plain_family halg
  have hp := isPowerOfTwo_pos hsub
  have k1 : GrowInv (subSpec (bs := bs) (curSpec env .plain sub 0 false fl hp alg r) hs hsub) (g.gridWith env a0 d0).st A :=
    grow_did (vr_inv hs hsub h).1 (fun hB hd => (regrids_sub (regrids_full hp h1 h2 r) hs hsub).did ha0 hr0 ⟨hv0, hF⟩ hB hd) hok0
  have k2 := since_inv hs (sub_query (curSpec_query hp) hs hsub) (regrids_sub (regrids_update hp h1 h2 r) hs hsub) k1 hsince
  exact alike_gridWith (alikeRuns_sub (alikeRuns_tile hp h1 h2) hs hsub) k2 ha hb har hbr hoa hob

end

/-- the hypotheses of C22 are met: the demo grid is gridded, a container is removed, one is added; both calls return -/
example : ∃ g1 A1, (demoSR.gridWith demoEnv { alg := .mean, res := some 2, clear := true } none).err = none ∧
    Since demoEnv demoFields .mean 2 (demoSR.gridWith demoEnv { alg := .mean, res := some 2, clear := true } none).st demoStore g1 A1 ∧
    (g1.gridWith demoEnv { alg := .mean, res := some 2, regrid := .update } (some 2)).err = none ∧ (g1.gridWith demoEnv { alg := .mean, res := some 2 } none).err = none ∧ A1 ≠ [] :=
  ⟨_, _, by decide +kernel, (Since.refl.remove "b" (by decide +kernel)).add demoA "a" {} (by decide +kernel), by decide +kernel, by decide +kernel, by decide +kernel⟩

example : ∃ g1 A1, (demoVR.gridWith demoEnv { alg := .shoalest, res := some 1, clear := true } none).err = none ∧
    Since demoEnv demoFields .shoalest 1 (demoVR.gridWith demoEnv { alg := .shoalest, res := some 1, clear := true } none).st demoStore g1 A1 ∧
    (g1.gridWith demoEnv { alg := .shoalest, res := some 1, regrid := .update } (some 2)).err = none ∧ (g1.gridWith demoEnv { alg := .shoalest, res := some 1 } none).err = none ∧ A1 ≠ [] :=
  ⟨_, _, by decide +kernel, (Since.refl.remove "b" (by decide +kernel)).add demoA "a" {} (by decide +kernel), by decide +kernel, by decide +kernel, by decide +kernel⟩

/-! ### CUBE -/

private def cube0 : GridCall := { alg := .cube, res := some 1 }
private def cubeU : GridCall := { alg := .cube, res := some 1, regrid := .update }
private def near0 : Grid Tile := ((newSR 32 false).addPoints ⟨demoFields, [⟨30, 10, 5, 1, 1⟩, ⟨50, 10, 5, 1, 1⟩]⟩ "a" {}).st
private def near1 : Grid Tile := ((near0.gridWith demoEnv cube0 none).st.addPoints ⟨demoFields, [⟨33, 10, 9, 1, 1⟩]⟩ "b" {}).st

/-- the depth in a cell of a tile at resolution 1 -/
private def depthIn (t : Tile) (r c : Nat) : Option (Option ℚ) := (t.layerAt 1 .depth).bind (fun a => a.get? r c)

/-- **C22** does not hold for CUBE: a sounding is added to the right tile, one metre from the border.  The update skips the left tile, as its own
soundings did not change; the full run passes the new sounding on to it and its depth changes. -/
theorem C22_violated : ∃ g A g1 A1, SRHistory demoEnv 32 false demoFields .cube false g A ∧ (g.gridWith demoEnv cube0 none).err = none ∧
    Since demoEnv demoFields .cube 1 (g.gridWith demoEnv cube0 none).st A g1 A1 ∧
    (g1.gridWith demoEnv cubeU none).err = none ∧ (g1.gridWith demoEnv cube0 none).err = none ∧
    (∃ t, (g1.gridWith demoEnv cubeU none).st.TileAt 0 0 t ∧ depthIn t 10 30 = some (some 5)) ∧
    (∃ t, (g1.gridWith demoEnv cube0 none).st.TileAt 0 0 t ∧ depthIn t 10 30 = some (some 7)) := by
  refine ⟨near0, _, near1, _, (GridHistory.new .cube).add _ "a" {} (by decide +kernel), by decide +kernel, Since.refl.add _ "b" {} (by decide +kernel), by decide +kernel, by decide +kernel, ?_, ?_⟩
  · obtain ⟨t, ht, hP⟩ := exists_tileAt_any (g := (near1.gridWith demoEnv cubeU none).st) (r := 0) (c := 0) (fun t => decide (depthIn t 10 30 = some (some 5))) (by decide +kernel)
    exact ⟨t, ht, of_decide_eq_true hP⟩
  · obtain ⟨t, ht, hP⟩ := exists_tileAt_any (g := (near1.gridWith demoEnv cube0 none).st) (r := 0) (c := 0) (fun t => decide (depthIn t 10 30 = some (some 7))) (by decide +kernel)
    exact ⟨t, ht, of_decide_eq_true hP⟩

/-! ## C23 -/

theorem update_keeps {τ : Type} [GridLike τ] [LawfulGrid τ] {env : Env} {g : Grid τ} {a : GridCall} (hu : a.regrid = .update) (hc : a.clear = false) {i j : Nat} {t : τ}
    (ht : g.TileAt i j t) (hp : GridLike.pointCountChanged t = false)
    (hb : GridLike.isLeaf (τ := τ) = false ∨ ∀ i' j' t', i' < i ∨ (i' = i ∧ j' < j) → g.TileAt i' j' t' → GridLike.pointCountChanged t' = false) (dask : Option Nat) :
    (g.gridWith env a dask).st.TileAt i j t := by
  obtain ⟨T, hT, hg⟩ := ht
  have hij : i < T.rows ∧ j < T.cols := by unfold Arr2.get? at hg; split at hg <;> [assumption; cases hg]
  have hk : T.flat[i * T.cols + j]? = some (some t) := by unfold Arr2.get? at hg; rw [if_pos hij] at hg; exact hg
  have hcl : clearAt a (T.flat.take (i * T.cols + j)) = false := by
    unfold clearAt
    rw [hc, Bool.false_or, Bool.and_eq_false_iff]
    rcases hb with hb | hb
    · left; rw [hb]; simp
    · right
      rw [List.any_eq_false]
      intro o ho
      obtain ⟨m, hm, hmo⟩ := List.mem_take_iff_getElem.1 ho
      rw [lt_min_iff] at hm
      cases o with
      | none => simp
      | some t' =>
        have hcols : 0 < T.cols := by omega
        have h1 : m / T.cols * T.cols + m % T.cols = m := Nat.div_add_mod' m T.cols
        have h2 : m % T.cols < T.cols := Nat.mod_lt _ hcols
        have h3 : m / T.cols < i ∨ (m / T.cols = i ∧ m % T.cols < j) := by
          rcases Nat.lt_trichotomy (m / T.cols) i with h | h | h
          · exact Or.inl h
          · right; refine ⟨h, ?_⟩; rw [h] at h1; omega
          · exfalso
            have : (i + 1) * T.cols ≤ m / T.cols * T.cols := Nat.mul_le_mul_right _ h
            rw [Nat.add_mul, Nat.one_mul] at this
            omega
        have := hb _ _ t' h3 ⟨T, hT, by unfold Arr2.get?; rw [if_pos ⟨by omega, h2⟩, h1, List.getElem?_eq_getElem hm.2, hmo]⟩
        simp [this]
  have hout : ∀ g1 p l, (outAt env g1 a p l T (i * T.cols + j) (some t)).1.st = some t := by
    intro g1 p l
    unfold outAt outcome
    simp only
    rw [hcl, if_pos (by unfold skips; simp [hu, hp])]
    rfl
  have hpre : ∀ g1 p l m, (prefixTiles (outAt env g1 a p l T) T m).get? i j = some (some t) := by
    intro g1 p l m
    unfold Arr2.get?
    rw [if_pos (show i < (prefixTiles (outAt env g1 a p l T) T m).rows ∧ j < (prefixTiles (outAt env g1 a p l T) T m).cols from hij)]
    rw [show (prefixTiles (outAt env g1 a p l T) T m).cols = T.cols from rfl, prefixTiles_get, hk, Option.map_some, hout]
    simp
  rcases gridWith_spec env g a dask with ⟨al, gr, gp, e, h, -⟩ | ⟨gr, T', -, -, hT', -, ⟨-, h⟩ | ⟨-, e, b, R, -, h⟩⟩
  · rw [h]; exact ⟨T, hT, hg⟩
  · rw [hT] at hT'; cases hT'
    rw [h]; exact ⟨_, rfl, hpre _ _ _ _⟩
  · rw [hT] at hT'; cases hT'
    rw [h]; exact ⟨_, rfl, hpre _ _ _ _⟩

/-- **C23, partial** (single resolution): an update leaves every tile alone whose soundings did not change, if no tile before it (row by row) has changed
soundings; whether the call returns or raises, for every state.  Missing: unchanged tiles after a changed one, see `C23_violated`. -/
theorem C23_update_leaves_tiles_alone_sr_partial (env : Env) {g : Grid Tile} {a : GridCall} (hu : a.regrid = .update) (hc : a.clear = false) {i j : Nat} {t : Tile}
    (ht : g.TileAt i j t) (hp : t.pointCountChanged = false) (hb : ∀ i' j' t', i' < i ∨ (i' = i ∧ j' < j) → g.TileAt i' j' t' → t'.pointCountChanged = false)
    (dask : Option Nat) : (g.gridWith env a dask).st.TileAt i j t :=
  update_keeps hu hc ht hp (Or.inr hb) dask

/-- **C23, partial** (variable resolution): an update leaves every subgrid alone in which the soundings of no tile changed; whether the call returns or
raises, for every state.  In the other subgrids, see the theorem for single resolution. -/
theorem C23_update_leaves_subgrids_alone_vr_partial (env : Env) {g : Grid (Grid Tile)} {a : GridCall} (hu : a.regrid = .update) (hc : a.clear = false) {i j : Nat} {u : Grid Tile}
    (ht : g.TileAt i j u) (hp : ∀ i' j' t, u.TileAt i' j' t → t.pointCountChanged = false) (hwf : ∀ T, u.tiles = some T → T.WF) (dask : Option Nat) :
    (g.gridWith env a dask).st.TileAt i j u := by
  refine update_keeps hu hc ht ?_ (Or.inl rfl) dask
  show u.pointCountChanged = false
  unfold pointCountChanged
  rcases Option.eq_none_or_eq_some u.tiles with hT | ⟨T, hT⟩
  · rw [hT]
  · rw [hT]
    simp only
    rw [List.any_eq_false]
    intro o ho
    cases o with
    | none => simp
    | some t =>
      obtain ⟨k, hk⟩ := List.getElem?_of_mem ho
      have hw : T.flat.length = T.rows * T.cols := hwf T hT
      have hkl : k < T.rows * T.cols := by rw [← hw]; exact (List.getElem?_eq_some_iff.1 hk).1
      have := hp (k / T.cols) (k % T.cols) t ⟨T, hT, by
        unfold Arr2.get?; rw [if_pos ⟨Arr2.div_lt_rows hkl, Arr2.mod_lt_cols hkl⟩, Nat.div_add_mod']; exact hk⟩
      have h' : GridLike.pointCountChanged t = false := this
      simp [h']

private def two0 : Grid Tile := ((newSR 32 false).addPoints ⟨demoFields, [⟨10, 10, 5, 1, 1⟩, ⟨50, 10, 5, 1, 1⟩]⟩ "a" {}).st
private def two1 : Grid Tile := ((two0.gridWith demoEnv { alg := .mean, res := some 1 } none).st.gridWith demoEnv { alg := .mean, res := some 2 } none).st
private def two2 : Grid Tile := (two1.addPoints ⟨demoFields, [⟨11, 10, 9, 1, 1⟩]⟩ "b" {}).st

/-- **C23** does not hold: `clear_existing` becomes true with the first changed tile and stays so for the tiles that follow.  Two tiles with layers at
1 and 2; a sounding is added to the first; the update at 2 also clears the second tile, whose soundings did not change, and its layers at 1 are gone. -/
theorem C23_violated : ∃ g A, SRHistory demoEnv 32 false demoFields .plain false g A ∧ (g.grid demoEnv { alg := .mean, res := some 2, regrid := .update }).err = none ∧
    (∃ t, g.TileAt 0 1 t ∧ t.pointCountChanged = false ∧ t.resolutions = [1, 2]) ∧
    ∃ t, (g.grid demoEnv { alg := .mean, res := some 2, regrid := .update }).st.TileAt 0 1 t ∧ t.resolutions = [2] := by
  refine ⟨two2, _, (((((GridHistory.new .plain).add _ "a" {} (by decide +kernel)).grid { alg := .mean, res := some 1 } rfl none).grid { alg := .mean, res := some 2 } rfl none).add _ "b" {} (by decide +kernel)), by decide +kernel, ?_, ?_⟩
  · obtain ⟨t, ht, hP⟩ := exists_tileAt_any (g := two2) (r := 0) (c := 1) (fun t => decide (t.pointCountChanged = false ∧ t.resolutions = [1, 2])) (by decide +kernel)
    exact ⟨t, ht, of_decide_eq_true hP⟩
  · obtain ⟨t, ht, hP⟩ := exists_tileAt_any (g := (two2.grid demoEnv { alg := .mean, res := some 2, regrid := .update }).st) (r := 0) (c := 1) (fun t => decide (t.resolutions = [2])) (by decide +kernel)
    exact ⟨t, ht, of_decide_eq_true hP⟩

/-- the hypotheses of C23 are met: the first tile did not change, a later one did -/
example : ∃ g : Grid Tile, (∃ t, g.TileAt 0 0 t ∧ t.pointCountChanged = false) ∧ g.pointCountChanged = true ∧ (∀ i' j' t', i' < 0 ∨ (i' = 0 ∧ j' < 0) → g.TileAt i' j' t' → t'.pointCountChanged = false) := by
  refine ⟨(two1.addPoints ⟨demoFields, [⟨51, 10, 9, 1, 1⟩]⟩ "b" {}).st, ?_, by decide +kernel, fun i' j' t' h => by omega⟩
  obtain ⟨t, ht, hP⟩ := exists_tileAt_any (g := (two1.addPoints ⟨demoFields, [⟨51, 10, 9, 1, 1⟩]⟩ "b" {}).st) (r := 0) (c := 0) (fun t => decide (t.pointCountChanged = false)) (by decide +kernel)
  exact ⟨t, ht, of_decide_eq_true hP⟩

end Bathy
