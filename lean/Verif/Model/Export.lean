import Verif.Model.Surface
import Verif.Model.ComponentState
import Verif.Model.Serial

/-!
Display markers (ros_interface.hpp, ros_interface.cpp).

A marker is its lists of points and colours.  Simplifications: the header, type, pose, scale, name and id of the marker are
left out; the location of a cell (`GridIndexToLocationInGridFrame`) is a parameter `loc`; `LookupUniqueColor` and
`InterpolateHotToCold` of CRU are parameters.  `none` is an exception.  The components of a colour are `float`s (`Fl`).
-/
set_option autoImplicit false

namespace VGT.Export
open VGT VGT.EDT

/-- `std_msgs/ColorRGBA`. -/
structure Color where
  r : Fl
  g : Fl
  b : Fl
  a : Fl
  deriving DecidableEq, Repr

/-- `no_color` (ros_interface.cpp:79-81 and others). -/
def noColor : Color := ⟨.fin 0, .fin 0, .fin 0, .fin 0⟩

/-- `visualization_msgs/Marker`: points and colours. -/
structure Marker (P : Type) where
  points : List P
  colors : List Color
  deriving DecidableEq, Repr

/-- The test `cell_color.a > 0.0f`. -/
def visible (c : Color) : Bool := Fl.lt (.fin 0) c.a

/-- The loop body for each index (ros_interface.hpp:128-143, 189-201, 241-253). -/
def exportLoop {P C : Type} (d : Dims) (data : Idx → C) (loc : ZIdx → P) (color : C → ZIdx → Option Color) :
    List ZIdx → Marker P → Option (Marker P)
  | [], m => some m
  | i :: is, m =>
    match getImm d data i with
    | none => none
    | some c =>
      match color c i with
      | none => none
      | some col =>
        if visible col then exportLoop d data loc color is ⟨m.points ++ [loc i], m.colors ++ [col]⟩
        else exportLoop d data loc color is m

/-- `ExportVoxelGridToRViz` (ros_interface.hpp:92-148): all cells in the order of the triple loop. -/
def exportGrid {P C : Type} (d : Dims) (data : Idx → C) (loc : ZIdx → P) (color : C → ZIdx → Option Color) :
    Option (Marker P) :=
  exportLoop d data loc color ((allIdx d).map VGT.toZ) ⟨[], []⟩

/-- `ExportVoxelGridIndexMapToRViz` (ros_interface.hpp:150-205): the entries of the hash map in the order of iteration,
those with value 0 are passed over. -/
def exportIndexMap {P C : Type} (d : Dims) (data : Idx → C) (loc : ZIdx → P) (color : C → ZIdx → Option Color)
    (indexMap : List (ZIdx × ℕ)) : Option (Marker P) :=
  exportLoop d data loc color ((indexMap.filter fun e => decide (0 < e.2)).map Prod.fst) ⟨[], []⟩

/-- `ExportVoxelGridIndicesToRViz` (ros_interface.hpp:207-256). -/
def exportIndices {P C : Type} (d : Dims) (data : Idx → C) (loc : ZIdx → P) (color : C → ZIdx → Option Color)
    (indices : List ZIdx) : Option (Marker P) :=
  exportLoop d data loc color indices ⟨[], []⟩

/-- One chunk of `ExportDynamicSpatialHashedVoxelGridToRViz` (ros_interface.hpp:300-325): the grid index is the base plus
the index in the chunk. -/
def chunkLoop {P C : Type} (base : ZIdx) (chunk : Idx → C) (loc : ZIdx → P) (color : C → ZIdx → Option Color) :
    List Idx → Marker P → Option (Marker P)
  | [], m => some m
  | i :: is, m =>
    let g : ZIdx := ((i.1 : ℤ) + base.1, (i.2.1 : ℤ) + base.2.1, (i.2.2 : ℤ) + base.2.2)
    match color (chunk i) g with
    | none => none
    | some col =>
      if visible col then chunkLoop base chunk loc color is ⟨m.points ++ [loc g], m.colors ++ [col]⟩
      else chunkLoop base chunk loc color is m

/-- `ExportDynamicSpatialHashedVoxelGridToRViz` (ros_interface.hpp:258-328): the chunks in the order of iteration of the
hash map, the cells of each in the order of the triple loop. -/
def exportChunks {P C : Type} (counts : Dims) (loc : ZIdx → P) (color : C → ZIdx → Option Color) :
    List (ZIdx × (Idx → C)) → Marker P → Option (Marker P)
  | [], m => some m
  | (base, chunk) :: rest, m =>
    match chunkLoop base chunk loc color (allIdx counts) m with
    | none => none
    | some m' => exportChunks counts loc color rest m'

/-! ### Colour functions -/

/-- Colours for filled, free and unknown cells. -/
structure Palette where
  collision : Color
  free : Color
  unknown : Color
  deriving DecidableEq, Repr

/-- The choice by occupancy (ros_interface.cpp:47-63, 237-253, 465-481, 552-568, 828-844). -/
def occColor {C : Type} (occ : C → Fl) (p : Palette) (c : C) : Color :=
  if Fl.lt .half (occ c) then p.collision
  else if Fl.lt (occ c) .half then p.free
  else p.unknown

/-- `ExportForDisplay` with three colours (ros_interface.cpp:41-70, 231-260, 546-575, 822-851). -/
def exportForDisplay {P C : Type} (occ : C → Fl) (d : Dims) (data : Idx → C) (loc : ZIdx → P) (p : Palette) :
    Option (Marker P) :=
  exportGrid d data loc fun c _ => some (occColor occ p c)

/-- `ExportForDisplay` of the spatially hashed map (ros_interface.cpp:459-488). -/
def exportHashedForDisplay {P C : Type} (occ : C → Fl) (counts : Dims) (chunks : List (ZIdx × (Idx → C))) (loc : ZIdx → P)
    (p : Palette) : Option (Marker P) :=
  exportChunks counts loc (fun c _ => some (occColor occ p c)) chunks ⟨[], []⟩

/-- The three palettes of `ExportForSeparateDisplay` and `ExportSurfacesForSeparateDisplay`
(ros_interface.cpp:72-95, 138-164 and the other map types). -/
def separatePalettes (p : Palette) : List Palette :=
  [⟨p.collision, noColor, noColor⟩, ⟨noColor, p.free, noColor⟩, ⟨noColor, noColor, p.unknown⟩]

/-- `ExportForSeparateDisplay` (ros_interface.cpp:72-95, 262-285, 490-513, 615-638, 891-914). -/
def exportForSeparateDisplay {P C : Type} (occ : C → Fl) (d : Dims) (data : Idx → C) (loc : ZIdx → P) (p : Palette) :
    Option (List (Marker P)) :=
  (separatePalettes p).mapM fun q => exportForDisplay occ d data loc q

/-- The colour function of `ExportSurfacesForDisplay` (ros_interface.cpp:106-129, 296-319, 649-672, 925-948).
`asBool` is the use of the result of `IsSurfaceIndex` as a condition; in the code that is `maybeAsBool`. -/
def surfaceColor {C : Type} (asBool : Option (Option Bool) → Option Bool) (occ : C → Fl) (d : Dims) (data : Idx → C)
    (p : Palette) (c : C) (i : ZIdx) : Option Color :=
  match asBool (isSurfaceIndex occ d data i) with
  | none => none
  | some true => some (occColor occ p c)
  | some false => some noColor

/-- `ExportSurfacesForDisplay` with three colours (ros_interface.cpp:97-136, 287-326, 640-679, 916-955). -/
def exportSurfacesForDisplay {P C : Type} (asBool : Option (Option Bool) → Option Bool) (occ : C → Fl) (d : Dims)
    (data : Idx → C) (loc : ZIdx → P) (p : Palette) : Option (Marker P) :=
  exportGrid d data loc (surfaceColor asBool occ d data p)

/-- `ExportSurfacesForSeparateDisplay` (ros_interface.cpp:138-163, 328-353, 726-751, 1002-1027). -/
def exportSurfacesForSeparateDisplay {P C : Type} (asBool : Option (Option Bool) → Option Bool) (occ : C → Fl) (d : Dims)
    (data : Idx → C) (loc : ZIdx → P) (p : Palette) : Option (List (Marker P)) :=
  (separatePalettes p).mapM fun q => exportSurfacesForDisplay asBool occ d data loc q

/-- `ExportForSeparateDisplay` of the spatially hashed map (ros_interface.cpp:490-513). -/
def exportHashedForSeparateDisplay {P C : Type} (occ : C → Fl) (counts : Dims) (chunks : List (ZIdx × (Idx → C)))
    (loc : ZIdx → P) (p : Palette) : Option (List (Marker P)) :=
  (separatePalettes p).mapM fun q => exportHashedForDisplay occ counts chunks loc q

/-- `ExportIndexMapForDisplay` (ros_interface.cpp:166-183, 391-408, 754-771, 1110-1128): every listed cell in one colour. -/
def exportIndexMapForDisplay {P C : Type} (d : Dims) (data : Idx → C) (loc : ZIdx → P) (indexMap : List (ZIdx × ℕ))
    (surface : Color) : Option (Marker P) := exportIndexMap d data loc (fun _ _ => some surface) indexMap

/-- `ExportIndicesForDisplay` (ros_interface.cpp:185-203, 410-428, 773-791, 1130-1149). -/
def exportIndicesForDisplay {P C : Type} (d : Dims) (data : Idx → C) (loc : ZIdx → P) (indices : List ZIdx)
    (surface : Color) : Option (Marker P) := exportIndices d data loc (fun _ _ => some surface) indices

/-- The colour by object (ros_interface.cpp:577-613, 681-724, 853-889, 957-1000).  `specifies` is `specifies_colors` as a
function of the map being empty; in the code it is the identity: `specifies_colors = object_color_map.empty()`. -/
def objectColor (specifies : Bool → Bool) (lookup : ℕ → Color) (colorMap : List (ℕ × Color)) (obj : ℕ) : Color :=
  if specifies colorMap.isEmpty then
    match colorMap.lookup obj with
    | some col => col
    | none => noColor
  else lookup obj

/-- `ExportForDisplay` with an object colour map (ros_interface.cpp:577-613, 853-889). -/
def exportObjects {P C : Type} (specifies : Bool → Bool) (obj : C → ℕ) (lookup : ℕ → Color) (d : Dims) (data : Idx → C)
    (loc : ZIdx → P) (colorMap : List (ℕ × Color)) : Option (Marker P) :=
  exportGrid d data loc fun c _ => some (objectColor specifies lookup colorMap (obj c))

/-- `ExportSurfacesForDisplay` with an object colour map (ros_interface.cpp:681-724, 957-1000). -/
def exportObjectSurfaces {P C : Type} (asBool : Option (Option Bool) → Option Bool) (specifies : Bool → Bool) (occ : C → Fl)
    (obj : C → ℕ) (lookup : ℕ → Color) (d : Dims) (data : Idx → C) (loc : ZIdx → P) (colorMap : List (ℕ × Color)) :
    Option (Marker P) :=
  exportGrid d data loc fun c i =>
    match asBool (isSurfaceIndex occ d data i) with
    | none => none
    | some true => some (objectColor specifies lookup colorMap (obj c))
    | some false => some noColor

/-- The grey of `ExportConnectedComponentsForDisplay`. -/
def grey : Color := ⟨.fin (1 / 2), .fin (1 / 2), .fin (1 / 2), .fin 1⟩

/-- The colour function of `ExportConnectedComponentsForDisplay` (ros_interface.cpp:363-382, 1037-1056). -/
def componentColor {C : Type} (occ : C → Fl) (comp : C → ℕ) (lookup : ℕ → Color) (colorUnknown : Bool) (c : C) : Color :=
  if !Fl.eq (occ c) .half then lookup (comp c)
  else if colorUnknown then lookup (comp c) else grey

/-- `ExportConnectedComponentsForDisplay` (ros_interface.cpp:356-389, 1030-1063). -/
def exportComponents {P C : Type} (occ : C → Fl) (comp : C → ℕ) (lookup : ℕ → Color) (d : Dims) (data : Idx → C)
    (loc : ZIdx → P) (colorUnknown : Bool) : Option (Marker P) :=
  exportGrid d data loc fun c _ => some (componentColor occ comp lookup colorUnknown c)

/-- `ExportSpatialSegmentForDisplay` (ros_interface.cpp:1065-1108); `hotToCold k n` is
`InterpolateHotToCold(k, 0.0, n)`. -/
def exportSegment {P : Type} (lookup : ℕ → Color) (hotToCold : ℕ → ℕ → Color) (d : Dims) (s : TagMapSt) (loc : ZIdx → P)
    (obj seg : ℕ) : Option (Marker P) :=
  match s.numSegments with
  | none => none
  | some n =>
    exportGrid d s.data loc fun c _ =>
      some (if c.obj = obj ∧ c.seg = seg then (if n < 22 then lookup c.seg else hotToCold c.seg n) else noColor)

/-! ### Signed distance fields -/

/-- The `float` constants `0.8f` and `0.2f`. -/
def colorScaling : ℚ := 13421773 / 2 ^ 24
@[inherit_doc colorScaling]
def minColorValue : ℚ := 13421773 / 2 ^ 26

/-- CRU `ClampValue(value, 0.0f, 1.0f)`: `std::min(1, std::max(0, value))`. -/
def clampAlpha (a : Fl) : Fl :=
  let m := if Fl.lt (.fin 0) a then a else .fin 0
  if Fl.lt m (.fin 1) then m else .fin 1

/-- `scale_color_value` (ros_interface.hpp:336-346); `rs` rounds to `ScalarType`, `rf` to `float`.  `|distance / extrema|`,
its product with 0.8 and the sum with 0.2. -/
def scaleColor (rs rf : ℚ → ℚ) (distance extrema : Fl) : Fl :=
  match Fl.div rs distance extrema with
  | .nan => .nan
  | .pinf => .pinf
  | .ninf => .pinf
  | .fin q => .fin (rf (rf (rf |q| * colorScaling) + minColorValue))

/-- The colour function of `ExportSDFForDisplay` (ros_interface.hpp:349-375). -/
def sdfColor (rs rf : ℚ → ℚ) (alpha minimum maximum distance : Fl) : Color :=
  if Fl.lt (.fin 0) distance then ⟨.fin 0, scaleColor rs rf distance maximum, .fin 0, clampAlpha alpha⟩
  else if Fl.lt distance (.fin 0) then ⟨scaleColor rs rf distance minimum, .fin 0, .fin 0, clampAlpha alpha⟩
  else ⟨.fin 0, .fin 0, .fin 1, clampAlpha alpha⟩

/-- `ExportSDFForDisplay` (ros_interface.hpp:332-381) of a field that is not locked: minimum and maximum are those of the
cells; `none` also stands for the undefined behaviour of `GetMinimumMaximum` without cells or with NaN. -/
def exportSDF {P : Type} (rs rf : ℚ → ℚ) (d : Dims) (data : Idx → Fl) (loc : ZIdx → P) (alpha : Fl) : Option (Marker P) :=
  match Ser.minMaxElement id ((allIdx d).map data) with
  | none => none
  | some (minimum, maximum) => exportGrid d data loc fun distance _ => some (sdfColor rs rf alpha minimum maximum distance)

/-- A value converted to `float` to bind to `const float&`; overflow to infinity is not modelled. -/
def toFloat (rf : ℚ → ℚ) : Fl → Fl
  | .fin q => .fin (rf q)
  | x => x

/-- `ExportSDFForDisplayCollisionOnly` (ros_interface.hpp:383-411): the parameter of the colour function is
`const float&` also for `double` fields.  CRU `MakeFromFloatColors` copies the components. -/
def exportSDFCollision {P : Type} (rf : ℚ → ℚ) (d : Dims) (data : Idx → Fl) (loc : ZIdx → P) (alpha : Fl) :
    Option (Marker P) :=
  exportGrid d data loc fun distance _ =>
    some (if Fl.le (toFloat rf distance) (.fin 0) then ⟨.fin 1, .fin 0, .fin 0, alpha⟩ else noColor)

end VGT.Export
