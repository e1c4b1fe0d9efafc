import Verif.Model.Geometry

/-!
Model of `src/Common/Impl/UnitTests/LayoutPrinter/LayoutPrinter.cpp` (declared in `Include/LayoutPrinter.h`).
Output goes to `std::cout` and `std::cerr`; the streams do not fail and memory suffices.
-/

namespace Verif.Printer
open Verif

/-- a natural number written by a stream -/
def showNat (n : Nat) : List UInt8 :=
  if h : n < 10 then [UInt8.ofNat (48 + n)] else showNat (n / 10) ++ [UInt8.ofNat (48 + n % 10)]
decreasing_by omega

/-- an `int16_t` or `int32_t` written by a stream -/
def showInt (v : Int) : List UInt8 := if v < 0 then 45 :: showNat v.natAbs else showNat v.natAbs

/-- a string literal -/
def lit (s : String) : List UInt8 := s.toList.map fun c => UInt8.ofNat c.toNat

/-- `boost::format`: the pieces of the format string, `inr k` for `%k%` (counted from 1), with the arguments put in. -/
def format (pieces : List (String ⊕ Nat)) (args : List (List UInt8)) : List UInt8 :=
  pieces.flatMap fun p => match p with
    | .inl s => lit s
    | .inr k => (args[k - 1]?).getD []

/-- `std::string(n, ' ')` -/
def spaces (n : Nat) : List UInt8 := List.replicate n 32

/-- `InGetGeometryDataStr`, LayoutPrinter.cpp:17-42 (`Geom` is not null here). -/
def geometryDataStr (g : Geometry) (depth : Nat) : List UInt8 :=
  let currSpace := 4 * depth
  let headerSpacer := spaces currSpace
  let dataSpacer := spaces (currSpace + 2)
  format [.inr 1, .inl "Geometry {\n", .inr 2, .inl "Layer = ", .inr 3, .inl "\n", .inr 4, .inl "Min = {", .inr 5, .inl ", ",
      .inr 6, .inl "}\n", .inr 7, .inl "Max = {", .inr 8, .inl ", ", .inr 9, .inl "}\n", .inr 10, .inl "}\n"]
    [headerSpacer, dataSpacer, showInt g.layer, dataSpacer, showInt g.min.x, showInt g.min.y, dataSpacer, showInt g.max.x,
      showInt g.max.y, dataSpacer]

/-- What a call writes: standard output, standard error. -/
structure Written where
  out : List UInt8 := []
  err : List UInt8 := []
deriving DecidableEq, Repr

/-- `InPrintRectangle`, LayoutPrinter.cpp:45-77, for a rectangle: `coords[0]` and `coords[2]` are unchecked. -/
def printRectangle (g : Geometry) (depth : Nat) : Res (List UInt8) :=
  let currSpace := 4 * depth
  let headerSpacer := spaces currSpace
  let dataSpacer := spaces (currSpace + 2)
  match g.coords[0]?, g.coords[2]? with
  | some a, some b => .ok (format [.inr 1, .inl "Rectangle{\n", .inr 2, .inl "\n", .inr 3, .inl "Type ", .inr 4, .inl "\n", .inr 5,
        .inl "LeftTop = {", .inr 6, .inl ", ", .inr 7, .inl "}\n", .inr 8, .inl "RightBot = {", .inr 9, .inl ", ", .inr 10, .inl "}\n",
        .inr 11, .inl "}\n"]
      [headerSpacer, geometryDataStr g (depth + 1), dataSpacer, showInt g.rectType, dataSpacer, showInt a.x, showInt a.y, dataSpacer,
        showInt b.x, showInt b.y, headerSpacer])
  | _, _ => .ub

/-- `LayoutPrinter::PrintGeometry`, LayoutPrinter.cpp:81-102 (`4 * (depth + 1) + 2` is assumed not to wrap). -/
def printGeometry (g : Option Geometry) (depth : Nat) : Res Written :=
  match g with
  | none => .ok { err := lit "Invalid Geometry\n" }
  | some g =>
    match g.type with
    | .rectangle => do
      let t ← printRectangle g depth
      pure { out := t }
    | _ => .ok {}

end Verif.Printer
