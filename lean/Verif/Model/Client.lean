import Verif.Model.Generator

/-!
The loop a client of the library runs, as in `src/Common/Impl/UnitTests/GeneratorTest/GeneratorTest.cpp:46-51`
(and 85-90): one bitmap per layer from one generator.
-/

namespace Verif.Client
open Verif Generator

/-- `SetLayerArray({n}); Process(R, C); GetMatrix()` for each layer number in turn, GeneratorTest.cpp:48-51.  An
exception ends the loop.  Simplification: the matrices are recorded as values when `GetMatrix` is called (the
pointer it returns is always the same object). -/
def renderLayers (rnd : ℚ → ℚ) (al : Alloc) (stale : Res Nat) (mem : Memory) (depth R C : Nat) :
    List Int → Generator → Option (Out Generator (List BitMatrix))
  | [], g => some (.ok [] g)
  | n :: ns, g =>
    match process rnd al stale mem depth R C (setLayerArray [n] g) with
    | none => none
    | some .ub => some .ub
    | some (.throw e g') => some (.throw e g')
    | some (.ok _ g') =>
      match renderLayers rnd al stale mem depth R C ns g' with
      | none => none
      | some .ub => some .ub
      | some (.throw e g'') => some (.throw e g'')
      | some (.ok ms g'') => some (.ok (getMatrix g' :: ms) g'')

end Verif.Client
