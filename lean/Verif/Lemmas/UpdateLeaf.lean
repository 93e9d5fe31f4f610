import Verif.Lemmas.GridUpdate
import Verif.Lemmas.FloatUpdate
import Verif.Spec.Leaves

/-!
# The `SRTile` objects after a `grid` call that leaves out unchanged tiles
-/

namespace Bathy
namespace Grid
variable {τ : Type} [GridLike τ] {size sub : ℚ} {bs : Bool} {fl : Fields}

/-- calls with the algorithm and resolution leave leaves with the property `P`, whether they visit the object or not -/
structure LeafDid [HasLeaves τ] (env : Env) (C : ChildSpec τ size sub bs fl) (alg : Alg) (r : ℚ) (P : Tile → Prop) : Prop where
  run : ∀ {a : GridCall}, a.alg = alg → a.res = some r → ∀ {x y : ℚ} {t t1 : τ} {B : Store} {rs : List ℚ}, C.Rep x y t B → Did env a t t1 rs → ∀ u, HasLeaves.leaf t1 u → P u

theorem leafDid_sub [LawfulGrid τ] [HasLeaves τ] [Holds τ] {env : Env} {C : ChildSpec τ sub 0 false fl} {alg : Alg} {r : ℚ} {P : Tile → Prop} (h : LeafDid env C alg r P) (hs : 0 < size)
    (hpow : isPowerOfTwo sub = true) : LeafDid (size := size) (bs := bs) env (subSpec C hs hpow) alg r P where
  run := by
    intro a ha har x y u u1 A rs hrep hd v hv
    have hrep : SubInv C size x y u A := hrep
    obtain ⟨c, ca, cr, -, b⟩ := did_tiles hd
    obtain ⟨i, j, t1, ht1, hv⟩ := hv
    obtain ⟨t, rs', ht, hd'⟩ := b i j t1 ht1
    obtain ⟨x', y', B, hB⟩ := (sub_reps hrep).1 i j t ht
    exact h.run (ca.trans ha) (cr r har) hB hd' v hv

theorem leafDid_grid [LawfulGrid τ] [HasLeaves τ] [Holds τ] {env : Env} {C : ChildSpec τ size sub bs fl} {alg : Alg} {r : ℚ} {P : Tile → Prop} (h : LeafDid env C alg r P) {g : Grid τ} {A : Store}
    (hg : GrowInv C g A) {a : GridCall} (ha : a.alg = alg) (har : a.res = some r) {dask : Option Nat} (hok : (g.gridWith env a dask).err = none) :
    ∀ u, (g.gridWith env a dask).st.Leaf u → P u := by
  rintro u ⟨i, j, t1, ht1, hu⟩
  obtain ⟨-, -, -, -, b, -⟩ := gridWith_at hok
  obtain ⟨t, rs, ht, hd, -⟩ := b i j t1 ht1
  obtain ⟨x, y, B, hB⟩ := (grow_reps hg).1 i j t ht
  exact h.run ha har hB hd u hu

end Grid

open Grid

/-- the tile has the layers of its soundings -/
def IsCurrent (env : Env) (size : ℚ) (bs : Bool) (fl : Fields) (F : Family) (alg : Alg) (r : ℚ) (t : Tile) : Prop :=
  ∃ x y B, TileHistory env x y size bs fl F t B ∧ Current env x y size bs fl F alg r t B

theorem leafDid_tile {env : Env} {F : Family} {size sub : ℚ} {bs : Bool} {fl : Fields} (hs : 0 < size) {alg : Alg} (hF : alg.family = some F) (hne : alg ≠ .cube) (r : ℚ) :
    LeafDid env (curSpec env F size sub bs fl hs alg r) alg r (IsCurrent env size bs fl F alg r) where
  run := by
    intro a ha har x y t t1 B rs hrep hd u hu
    have hu : u = t1 := hu
    subst hu
    rcases did_current hs hF hne ha har hrep.1.1 (Or.inl rfl) hd with ⟨rfl, h3, -⟩ | ⟨h1, -, h3⟩
    · exact ⟨x, y, B, hrep.1.1, hrep.2 h3⟩
    · exact ⟨x, y, B, h1, h3⟩

/-- the tile has the layers of its soundings, in arithmetic `M` -/
def IsFCurrent (M : Arith) (env : Env) (size : ℚ) (bs : Bool) (fl : Fields) (F : Family) (alg : Alg) (r : ℚ) (t : Tile) : Prop :=
  ∃ x y B, FloatHistory M env x y size bs fl F t B ∧ FCurrent M env x y size bs fl F alg r t B

theorem leafDid_ftile {M : Arith} {env : Env} {F : Family} {size sub : ℚ} {bs : Bool} {fl : Fields} (hs : 0 < size) {alg : Alg} (hF : alg.family = some F) (hne : alg ≠ .cube) (r : ℚ) :
    LeafDid env (fcurSpec M env F size sub bs fl hs alg r) alg r (IsFCurrent M env size bs fl F alg r) where
  run := by
    intro a ha har x y t t1 B rs hrep hd u hu
    have hu : u = t1 := hu
    subst hu
    rcases did_fcurrent hs hF hne ha har hrep.1.1 (Or.inl rfl) hd with ⟨rfl, h3, -⟩ | ⟨h1, -, h3⟩
    · exact ⟨x, y, B, hrep.1.1, hrep.2 h3⟩
    · exact ⟨x, y, B, h1, h3⟩

theorem shaped_cur (env : Env) (F : Family) {size sub : ℚ} {bs : Bool} {fl : Fields} (hs : 0 < size) (alg : Alg) (r : ℚ) : Shaped (curSpec env F size sub bs fl hs alg r) F :=
  ⟨fun h => history_frame hs h.1.1, fun h => h.1.2⟩

theorem shaped_fcur (M : Arith) (env : Env) (F : Family) {size sub : ℚ} {bs : Bool} {fl : Fields} (hs : 0 < size) (alg : Alg) (r : ℚ) :
    Shaped (show ChildSpec Tile size sub bs fl from fcurSpec M env F size sub bs fl hs alg r) F :=
  ⟨fun h => float_frame hs h.1.1, fun h => h.1.2⟩

end Bathy
