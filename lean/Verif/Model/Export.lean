import Verif.Model.Chunks

/-!
# Raster exports (bathygrid/bgrid.py:196-207, 2274-2382, bathygrid/utilities.py:297-348, bathygrid/grids.py:264-271)

Not modelled: the files themselves (a file is what GDAL is given: the geotransform, the bands and their names), the coordinate reference system, and
the stylesheet beside a BAG file (`_generate_caris_rxl`).  What is written into a BAG file after that is in `Model/BagMinMax` and `Model/BagXml`.
-/

namespace Bathy

/-- the two raster formats -/
inductive RasterKind
  | geotiff
  | bag
  deriving DecidableEq

/-- the direction of the exported values: bathygrid/bgrid.py:2369 the BAG export is always positive up -/
def RasterKind.up (kind : RasterKind) (zUp : Bool) : Bool := match kind with | .geotiff => zUp | .bag => true

/-- a raster file: the resolution and the number in its name, the geotransform, the bands with their descriptions -/
structure RasterFile where
  res : ℚ
  number : Nat
  geo : Geo
  bands : List (String × LayerArr)
  deriving DecidableEq

/-- what `layer_names` looks at; for a tile the layers of its first resolution (`Tile.layerNames`) -/
class LayerNames (τ : Type) where
  layerNames : τ → List Layer

/-- bathygrid/bgrid.py:196-207 `layer_names`: those of the first tile that is not None -/
def Grid.layerNames {τ : Type} [LayerNames τ] (g : Grid τ) : List Layer := match g.present with | [] => [] | t :: _ => LayerNames.layerNames t

instance : LayerNames Tile := ⟨Tile.layerNames⟩
instance {τ : Type} [LayerNames τ] : LayerNames (Grid τ) := ⟨Grid.layerNames⟩

/-- bathygrid/bgrid.py:2290-2291, 2358-2359: the dictionary `lyrtranslator` -/
def bandName (kind : RasterKind) (l : Layer) : Except Err String :=
  match l with
  | .depth => .ok "Depth"
  | .density => .ok "Density"
  | .vertical => .ok (match kind with | .geotiff => "Vertical Uncertainty" | .bag => "Uncertainty")
  | .totalUnc => .ok (match kind with | .geotiff => "Total Uncertainty" | .bag => "Uncertainty")
  | .horizontal => .ok "Horizontal Uncertainty"
  | .intensity => .ok "Intensity"
  | _ => .error .keyError

/-- bathygrid/bgrid.py:2304-2305, 2370-2371: `finalnames[finalnames.index('Depth')] = 'Elevation'`; `index` raises ValueError if there is none -/
def toElevation (names : List String) : Except Err (List String) :=
  match names.idxOf? "Depth" with
  | none => .error .valueError
  | some i => .ok (names.set i "Elevation")

/-- bathygrid/bgrid.py:2301-2305, 2369-2371: the names of the bands -/
def finalNames (kind : RasterKind) (intensity zUp : Bool) (layers : List Layer) : Except Err (List String) :=
  match layers.mapM (bandName kind) with
  | .error e => .error e
  | .ok names => if intensity then .ok names else if zUp then toElevation names else .ok names

/-- bathygrid/utilities.py:325-347 `gdal_raster_create`: without an EPSG code `pyproj_crs_to_osgeo` raises AttributeError (C111), `data[0]` of no arrays is an IndexError, `SetGeoTransform(None)` a TypeError, a missing name an
IndexError.  Simplification: the file that GDAL had begun in the last two cases is not there; pyproj
knows the EPSG code. -/
def rasterCreate (epsg : Option Int) (res : ℚ) (number : Nat) (names : List String) (c : Chunk) : Except Err RasterFile :=
  if epsg = none then .error .attributeError
  else if c.data = [] then .error .indexError
  else
    match c.geo with
    | none => .error .typeError
    | some ge =>
      if names = [] then .ok ⟨res, number, ge, (bands c).map (fun a => ("", a))⟩
      else if names.length < c.data.length then .error .indexError
      else .ok ⟨res, number, ge, names.zip (bands c)⟩

/-- bathygrid/bgrid.py:2308-2315, 2373-2382: the files for the chunks of one resolution, up to an exception -/
def writeRasters (epsg : Option Int) (res : ℚ) (names : List String) : Nat → List Chunk → List RasterFile × Option Err
  | _, [] => ([], none)
  | k, c :: cs =>
    match rasterCreate epsg res k names c with
    | .error e => ([], some e)
    | .ok f => let r := writeRasters epsg res names (k + 1) cs; (f :: r.1, r.2)

namespace Grid
variable {τ : Type} [LayerLike τ] [LayerNames τ]

omit [LayerLike τ] in
/-- bathygrid/bgrid.py:2298-2301, 2368: the layers that are exported; the BAG export does not ask for backscatter -/
def rasterLayers (g : Grid τ) (kind : RasterKind) : List Layer :=
  if kind = .geotiff ∧ g.isBackscatter = true then [.intensity] else g.layerNames.filter (fun l => l ∈ [Layer.depth, .vertical, .totalUnc])

omit [LayerNames τ] in
/-- bathygrid/bgrid.py:2307-2315, 2372-2382: the loop over the resolutions; the files written so far, and what was raised.  Simplification: if a file
cannot be written the generator has not gone on to the chunks that follow; here the grid is the one after all chunks (they differ in the slope and
container layers that tiles keep, and these are not exported). -/
def rasterLoop (env : Env) (epsg : Option Int) (layers : List Layer) (names : List String) (zUp : Bool) (override : Option ℚ) : List ℚ → Grid τ → List RasterFile → Grid τ × List RasterFile × Option Err
  | [], g, fs => (g, fs, none)
  | r :: rs, g, fs =>
    let out := g.getChunks env r layers (some 1000000) zUp override true
    let w := writeRasters epsg r names 1 out.st.2
    match w.2 with
    | some e => (out.st.1, fs ++ w.1, some e)
    | none =>
      match out.err with
      | some e => (out.st.1, fs ++ w.1, some e)
      | none => rasterLoop env epsg layers names zUp override rs out.st.1 (fs ++ w.1)

/-- bathygrid/bgrid.py:2274-2315 `_export_geotiff` and 2317-2382 `_export_bag` (always positive up) -/
def exportRaster (env : Env) (g : Grid τ) (kind : RasterKind) (zUp : Bool) (res : Option ℚ) (override : Option ℚ) : Grid τ × List RasterFile × Option Err :=
  let zUp := kind.up zUp
  let layers := g.rasterLayers kind
  match finalNames kind (decide (kind = .geotiff ∧ g.isBackscatter = true)) zUp layers with
  | .error e => (g, [], some e)
  | .ok names => rasterLoop env g.info.epsg layers names zUp override (match res with | none => g.resolutions | some r => [r]) g []

end Grid

end Bathy
