import Verif.Model.Layers

/-!
# What a grid says of itself

`has_vertical_uncertainty`, `has_horizontal_uncertainty` and `has_tiles` (bathygrid/bgrid.py:130-194).  `no_grid` is in `Model/Layers`.
-/

namespace Bathy

/-- the names of the data that is looked at: of a tile its own (bathygrid/bgrid.py:149-151), of a subgrid those of its last tile, as the loop has no break
(bathygrid/bgrid.py:145-148); `none` when there is no data, also for a subgrid without tiles, whose own `data` is None -/
class FieldsSeen (τ : Type) where
  fieldsSeen : τ → Option Fields

instance : FieldsSeen Tile := ⟨fun t => t.data.map PtArr.fields⟩
instance {τ : Type} [FieldsSeen τ] : FieldsSeen (Grid τ) := ⟨fun g => g.present.getLast?.bind FieldsSeen.fieldsSeen⟩

namespace Grid
variable {τ : Type}

/-- bathygrid/bgrid.py:130-180: the first tile decides; the implicit `return None` counts as False -/
def hasField [FieldsSeen τ] (name : Fields → Bool) (g : Grid τ) : Bool :=
  match g.tiles with
  | none => false
  | some _ => match g.present.head? with
    | none => false
    | some t => match FieldsSeen.fieldsSeen t with
      | none => false
      | some f => name f

/-- bathygrid/bgrid.py:130-154 -/
def hasVerticalUncertainty [FieldsSeen τ] (g : Grid τ) : Bool := g.hasField Fields.hasTvu

/-- bathygrid/bgrid.py:156-180 -/
def hasHorizontalUncertainty [FieldsSeen τ] (g : Grid τ) : Bool := g.hasField Fields.hasThu

/-- bathygrid/bgrid.py:182-194 `has_tiles` -/
def hasTiles [GridLike τ] (g : Grid τ) : Bool := g.present.any (fun _ => GridLike.isLeaf τ)

end Grid
end Bathy
