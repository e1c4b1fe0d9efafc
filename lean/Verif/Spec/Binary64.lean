import Verif.Model.Generator
import Verif.Spec.Converter

/-!
Specification for C82: the exponents of binary64 are limited.  A result whose size is not between 2⁻¹⁰²² and 2¹⁰²³ (and not zero) may
overflow, or lose bits as a subnormal number.
-/

namespace Verif.Spec.Binary64
open Verif.Ieee

/-- zero, or of a size that binary64 represents with full precision -/
def Normal (q : ℚ) : Prop := q = 0 ∨ (2 : ℚ) ^ (-1022 : ℤ) ≤ |q| ∧ |q| ≤ 2 ^ 1023

/-- Some arithmetic that rounds to nearest, ties to even, where exact results are `Normal`; what it does with all other results (infinities,
subnormal numbers, traps) is open. -/
def RoundsNormal (rnd : ℚ → ℚ) : Prop := ∀ q, Normal q → rnd q = rne q

/-- unit in the last place with gradual underflow -/
def ulpSub (q : ℚ) : ℚ := 2 ^ (max (Int.log 2 |q| - 52) (-1074))

/-- binary64 with subnormal numbers (round to nearest, ties to even) -/
def rneSub (q : ℚ) : ℚ := if q = 0 then 0 else roundEven (q / ulpSub q) * ulpSub q

/-- a `double` a caller passes: NaN, an infinity, or a 53-bit number that is zero or between 2⁻²⁰⁰ and 2²⁰⁰ in size -/
def Moderate : Fl → Prop
  | .fin q => rne q = q ∧ (q = 0 ∨ (2 : ℚ) ^ (-200 : ℤ) ≤ |q| ∧ |q| ≤ 2 ^ 200)
  | _ => True

/-- a call of a `LayoutBitmapGenerator`; `edit`: the caller changes the bitmap behind the pointer `GetMatrix` returned -/
inductive Call
  | init (data : Option Nat) (layers : List Int) (mn mx : Coord)
  | setLayers (layers : List Int)
  | process (al : Alloc) (stale : Res Nat) (mem : Memory) (depth R C : Nat)
  | edit (m : BitMatrix)

/-- the call, with `rnd` for the arithmetic; calls other than `Process` return nothing (here `true` and no text) -/
def perform (rnd : ℚ → ℚ) : Call → Generator → Option (Out Generator (Bool × List UInt8))
  | .init d ls mn mx, g => match Generator.init d ls mn mx g with
    | .ok _ g' => some (.ok (true, []) g')
    | .throw e g' => some (.throw e g')
    | .ub => some .ub
  | .setLayers ls, g => some (.ok (true, []) (Generator.setLayerArray ls g))
  | .process al stale mem depth R C, g => Generator.process rnd al stale mem depth R C g
  | .edit m, g => some (.ok (true, []) { g with bitmap := m })

/-- the outcomes of a sequence of calls, each with the object it leaves; the sequence ends at undefined behaviour or a call that does not
return (`none`) -/
def session (rnd : ℚ → ℚ) : List Call → Generator → List (Option (Out Generator (Bool × List UInt8)))
  | [], _ => []
  | c :: cs, g => perform rnd c g :: match perform rnd c g with
    | some (.ok _ g') => session rnd cs g'
    | some (.throw _ g') => session rnd cs g'
    | _ => []

/-- the numbers passed fit their types: `int32_t` coordinates, `size_t` sizes -/
def CallFits : Call → Prop
  | .init _ _ mn mx => inI32 mn.x ∧ inI32 mn.y ∧ inI32 mx.x ∧ inI32 mx.y
  | .process _ _ mem _ R C => R < 2 ^ 64 ∧ C < 2 ^ 64 ∧
      ∀ a l y g, some l ∈ (mem.layouts a).libraries → y ∈ l.layers → some g ∈ y.geometries →
        g.coords.length < 2 ^ 64 ∧ ∀ c ∈ g.coords, inI32 c.x ∧ inI32 c.y
  | _ => True

end Verif.Spec.Binary64
