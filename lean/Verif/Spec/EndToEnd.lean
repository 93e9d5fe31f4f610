import Verif.Spec.Surface
import Verif.Spec.Points
import Verif.Model.GridRun

/-!
# Specification of a whole session: create, add, grid, read
-/

namespace Bathy

/-- one call of `add_points`: the container, the soundings, the optional arguments -/
structure Delivery where
  name : String
  pts : List Pt
  args : AddArgs

/-- what the deliveries amount to -/
def storeOf (cs : List Delivery) : Store := cs.map (fun c => (c.name, c.pts))

/-- `add_points` for one delivery after the other, up to the first exception -/
def deliver {τ : Type} [TileLike τ] (fl : Fields) (g : Grid τ) (cs : List Delivery) : Res (Grid τ) :=
  Res.forEach cs g (fun g c => g.addPoints ⟨fl, c.pts⟩ c.name c.args)

/-- a time between the years 1000 and 9999, in seconds since 1970 -/
def TimeOk (o : Option ℚ) : Prop := ∀ q, o = some q → -30610224000 ≤ pyInt q ∧ pyInt q < 253402300800

/-- deliveries of one survey: the epsg code `n` or none, the vertical reference `v`, times of this age, different names, none of them empty -/
structure Survey (n : Int) (v : Option String) (cs : List Delivery) : Prop where
  crs : ∀ c ∈ cs, c.args.crs = none ∨ c.args.crs = some (.code n)
  vref : ∀ c ∈ cs, c.args.vref = v
  minTime : ∀ c ∈ cs, TimeOk c.args.minTime
  maxTime : ∀ c ∈ cs, TimeOk c.args.maxTime
  names : (cs.map Delivery.name).Nodup
  pts : ∀ c ∈ cs, c.pts ≠ []

/-- the vertical reference says that the values count upwards -/
def UpRef (v : Option String) : Prop := ∃ s, v = some s ∧ "height (h)\",up".toList <:+: s.toList

end Bathy
