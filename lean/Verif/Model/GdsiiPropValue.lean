import Verif.Model.GdsiiReader

/-!
`ReadSection_PROPVALUE` (GdsiiBinaryReader.cpp:830-857), which no code calls: the line that would dispatch it
(GdsiiBinaryReader.cpp:110) is commented out.  Here also the reader as it would be with that line.
-/

namespace Verif.Gds
open Verif

/-- `ReadSection_PROPVALUE`, GdsiiBinaryReader.cpp:830-857.  The last test is the one of `ReadSection_PROPATTR`: it
leaves when there *is* a property that waits for its value; without any property `properties[size() - 1]` is outside. -/
def secPropValue (r : Rec) (p : PS) : Res PS :=
  if p.inGeom then
    match p.theGeom.properties.getLast? with
    | some (_, []) => .ok p
    | none => .ub
    | some (k, _) =>
      let x := readString r.length p.file
      .ok ({ p with file := x.2 }.onGeom fun (g : Geometry) => { g with properties := g.properties.dropLast ++ [(k, x.1)] })
  else .ok p

/-- The `switch` of `Read` with line 110 (`rt_PROPVALUE` = 0x2C, Include/GDSIITypes.hpp) in effect. -/
def dispatchPV (env : Env) (r : Rec) (p : PS) : Res PS :=
  if r.recordType = 0x2C then secPropValue r p else dispatch env r p

/-- The loop of `Read`, GdsiiBinaryReader.cpp:60-131, with that `switch` (compare `readRecords`). -/
def readRecordsPV (env : Env) : Nat → PS → Res PS
  | 0, p => .ok p
  | fuel + 1, p =>
    if p.file.eof then .ok p
    else match p.file.rest with
      | b0 :: b1 :: t :: _ :: rest => do
        let p ← dispatchPV env ⟨recLength b0 b1, t⟩ { p with file := ⟨rest, false⟩ }
        readRecordsPV env fuel p
      | _ => .ok { p with file := ⟨[], true⟩ }

end Verif.Gds
