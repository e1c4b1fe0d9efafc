import Verif.Model.Generator

/-!
Model of the implicit copy assignment of `LayoutBitmapGenerator` (the class declares none, src/Common/Include/LayoutBitmapGenerator.h:24-143)
when memory runs out in it.

It assigns the members in the order of their declaration (32-48): layout pointer, window, layers, matrix pointer, fragments,
the two lists of geometries, rasteriser, step sizes.  Copying the layers (`std::set`), the fragments and the two lists takes
memory and may throw; the member at which it throws is left in some state of its type, the members before it are
copies, those after it are the old ones.

Simplification: a member at which the assignment threw may hold anything of its type.
-/

namespace Verif.Generator

/-- src/Common/Include/LayoutBitmapGenerator.h:33-34: layout and window are copied first and without taking memory. -/
def copyFirst (old src : Generator) : Generator := { old with data := src.data, ws := src.ws }

/-- src/Common/Include/LayoutBitmapGenerator.h:35 and 40: the layers, and the pointer to the matrix — not the matrix. -/
def copyLayers (old src : Generator) : Generator :=
  { copyFirst old src with layers := src.layers, bitmap := src.bitmap }

/-- src/Common/Include/LayoutBitmapGenerator.h:41: the fragments. -/
def copyFrags (old src : Generator) : Generator := { copyLayers old src with frags := src.frags }

/-- src/Common/Include/LayoutBitmapGenerator.h:43: the converted geometries. -/
def copyGeoms (old src : Generator) : Generator := { copyFrags old src with geoms := src.geoms }

/-- what `old = src` may leave in `old` when copying the layers throws -/
inductive FailedAtLayers (old src : Generator) : Generator → Prop
  | mk (ls : List Int) : FailedAtLayers old src { copyFirst old src with layers := ls }

/-- what `old = src` may leave in `old` when copying the fragments throws -/
inductive FailedAtFrags (old src : Generator) : Generator → Prop
  | mk (fr : V2 Fragment) : FailedAtFrags old src { copyLayers old src with frags := fr }

/-- what `old = src` may leave in `old` when copying one of the lists of geometries throws -/
inductive FailedAtGeoms (old src : Generator) : Generator → Prop
  | geoms (gs : List Geometry) : FailedAtGeoms old src { copyFrags old src with geoms := gs }
  | legacy (ls : List Geometry) : FailedAtGeoms old src { copyGeoms old src with legacy := ls }

end Verif.Generator
