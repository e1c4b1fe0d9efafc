import Verif.Proofs.GdsiiAny
import Verif.Props.GdsiiFile

/-!
C61: records the GDSII reader has no use for.
-/

namespace Verif.Props
open Verif Spec.Gdsii

/-- **C61** A record of a type the reader does not know is skipped, data included, wherever it stands. -/
theorem C61_unknown (env : Gds.Env) (p : Gds.PS) (o : Other) (h : o.Fits) (rest : List UInt8) (fuel : Nat) :
    Gds.readRecords env (fuel + 1) { p with file := ⟨record o.type o.dataType o.payload ++ rest, false⟩ } =
      Gds.readRecords env fuel { p with file := ⟨rest, false⟩ } := by
  rw [Gds.record_step env _ _ _ h.2, Gds.dispatch_other env _ _ _ h.1, Res.ok_bind]
  unfold Gds.seek
  dsimp only
  rw [List.drop_left]

theorem not_inLib {p : Gds.PS} (h : ¬ AtLibrary p) : p.inLib = false := by
  unfold Gds.PS.inLib
  unfold AtLibrary at h
  rcases p with ⟨_, _, _, _, lib, elem, geom⟩
  cases lib <;> cases elem <;> cases geom <;> simp_all

theorem not_inElem {p : Gds.PS} (h : ¬ AtStructure p) : p.inElem = false := by
  unfold Gds.PS.inElem
  unfold AtStructure at h
  rcases p with ⟨_, _, _, _, lib, elem, geom⟩
  cases lib <;> cases elem <;> cases geom <;> simp_all

theorem not_inGeom {p : Gds.PS} (h : ¬ AtFigure p) : p.inGeom = false := by
  unfold Gds.PS.inGeom
  unfold AtFigure at h
  rcases p with ⟨_, _, _, _, lib, elem, geom⟩
  cases lib <;> cases elem <;> cases geom <;> simp_all

theorem dispatch_ignored (env : Gds.Env) (r : Gds.Rec) (p : Gds.PS) (h : OutOfPlace p r.recordType) : Gds.dispatch env r p = .ok p := by
  obtain ⟨len, t⟩ := r
  dsimp only at h
  cases h with
  | bgnLib h =>
    show Gds.secBgnLib p = _
    unfold Gds.secBgnLib
    rw [if_pos (Option.isSome_iff_ne_none.2 h)]
  | library ht h =>
    have h := not_inLib h
    simp only [List.mem_cons, List.not_mem_nil, or_false] at ht
    rcases ht with rfl | rfl | rfl
    · show Gds.secLibName _ p = _; unfold Gds.secLibName; rw [h]; rfl
    · show Gds.secUnits _ p = _; unfold Gds.secUnits; rw [h]; rfl
    · show Gds.secBgnStr p = _; unfold Gds.secBgnStr; rw [h]; rfl
  | «structure» ht h =>
    have h := not_inElem h
    simp only [List.mem_cons, List.not_mem_nil, or_false] at ht
    rcases ht with rfl | rfl | rfl | rfl | rfl | rfl | rfl
    · show Gds.secStrName _ p = _; unfold Gds.secStrName; rw [h]; rfl
    · show Gds.secEndStr p = _; unfold Gds.secEndStr; rw [h]; rfl
    · show Gds.secNewGeom _ p = _; unfold Gds.secNewGeom; rw [h]; rfl
    · show Gds.secNewGeom _ p = _; unfold Gds.secNewGeom; rw [h]; rfl
    · show Gds.secSref p = _; unfold Gds.secSref; rw [h]; rfl
    · show Gds.secNewGeom _ p = _; unfold Gds.secNewGeom; rw [h]; rfl
    · show Gds.secNewGeom _ p = _; unfold Gds.secNewGeom; rw [h]; rfl
  | figure ht h =>
    have h := not_inGeom h
    simp only [List.mem_cons, List.not_mem_nil, or_false] at ht
    rcases ht with rfl | rfl | rfl | rfl | rfl | rfl | rfl | rfl | rfl | rfl | rfl | rfl | rfl | rfl
    · show Gds.secLayer p = _; unfold Gds.secLayer; rw [h]; rfl
    · show Gds.secDataType p = _; unfold Gds.secDataType; rw [h]; rfl
    · show Gds.secWidth p = _; unfold Gds.secWidth; rw [h]; rfl
    · show Gds.secXy _ p = _; unfold Gds.secXy; rw [h]; rfl
    · show Gds.secEndEl p = _; unfold Gds.secEndEl; rw [h]; rfl
    · show Gds.secSname _ p = _; unfold Gds.secSname; rw [h]; rfl
    · show Gds.secTextType p = _; unfold Gds.secTextType; rw [h]; rfl
    · show Gds.secPresentation p = _; unfold Gds.secPresentation; rw [h]; rfl
    · show Gds.secString _ p = _; unfold Gds.secString; rw [h]; rfl
    · show Gds.secStrans p = _; unfold Gds.secStrans; rw [h]; rfl
    · show Gds.secMag _ p = _; unfold Gds.secMag; rw [h]; rfl
    · show Gds.secPathType p = _; unfold Gds.secPathType; rw [h]; rfl
    · show Gds.secPropAttr p = _; unfold Gds.secPropAttr; rw [h]; rfl
    · show Gds.secBoxType p = _; unfold Gds.secBoxType; rw [h]; rfl
  | sname h => show Gds.secSname _ p = _; unfold Gds.secSname; rw [if_neg (by simp [h])]
  | text ht h =>
    simp only [List.mem_cons, List.not_mem_nil, or_false] at ht
    rcases ht with rfl | rfl | rfl
    · show Gds.secTextType p = _; unfold Gds.secTextType; rw [if_neg (by simp [h])]
    · show Gds.secPresentation p = _; unfold Gds.secPresentation; rw [if_neg (by simp [h])]
    · show Gds.secString _ p = _; unfold Gds.secString; rw [if_neg (by simp [h])]
  | boxType h => show Gds.secBoxType p = _; unfold Gds.secBoxType; rw [if_neg (by simp [h])]

/-- **C61** A record of a type the reader does know, but out of place, is not skipped: its header is ignored and its data are read as if they were the next
records. -/
theorem C61_out_of_place (env : Gds.Env) (p : Gds.PS) (t d : UInt8) (payload rest : List UInt8) (hl : payload.length ≤ 65531) (h : OutOfPlace p t)
    (fuel : Nat) :
    Gds.readRecords env (fuel + 1) { p with file := ⟨record t d payload ++ rest, false⟩ } =
      Gds.readRecords env fuel { p with file := ⟨payload ++ rest, false⟩ } := by
  have h' : OutOfPlace { p with file := ⟨payload ++ rest, false⟩ } t := by
    cases h with
    | bgnLib h => exact .bgnLib h
    | library ht h => exact .library ht h
    | «structure» ht h => exact .structure ht h
    | figure ht h => exact .figure ht h
    | sname h => exact .sname h
    | text ht h => exact .text ht h
    | boxType h => exact .boxType h
  rw [Gds.record_step env _ _ _ hl, dispatch_ignored env _ _ h', Res.ok_bind]

/-- **C61** So an array reference in a structure puts the reader out of step: AREF itself is unknown and skipped, but then the name of the structure is read
as records. -/
theorem C61_array_reference (env : Gds.Env) (p : Gds.PS) (hp : AtStructure p) (name rest : List UInt8) (hn : FitsS name) (fuel : Nat) :
    Gds.readRecords env (fuel + 2) { p with file := ⟨record 0x0B 0 [] ++ (record 0x12 6 (padded name) ++ rest), false⟩ } =
      Gds.readRecords env fuel { p with file := ⟨padded name ++ rest, false⟩ } := by
  rw [C61_unknown env p ⟨0x0B, 0, []⟩ ⟨by decide, by simp⟩]
  refine C61_out_of_place env p 0x12 6 (padded name) rest ?_ (.figure (by decide) ?_) fuel
  · have := hn.2
    unfold padded
    split <;> simp <;> omega
  · intro h
    have := h.2.2
    rw [hp.2.2] at this
    cases this

/-- C61 at work: in the structure at hand the array refers to a structure with the name 00 04 07 00 (as bytes); the reader
takes that for ENDSTR and ends the structure. -/
example : ∃ p : Gds.PS, AtStructure p ∧ p.libs = [some {}] ∧ ∃ p', ∀ env fuel,
    Gds.readRecords env (fuel + 4) { p with file := ⟨record 0x0B 0 [] ++ (record 0x12 6 [0, 4, 7, 0] ++ []), false⟩ } = .ok p' ∧
      p'.libs = [some { elements := [some 0] }] := by
  let p : Gds.PS := { file := ⟨[], false⟩, libs := [some {}], heap := fun _ => {}, next := 1, lib := some 0, elem := some 0 }
  exact ⟨p, ⟨by simp [p], by simp [p], rfl⟩, rfl, _, fun env fuel => ⟨rfl, rfl⟩⟩

end Verif.Props
