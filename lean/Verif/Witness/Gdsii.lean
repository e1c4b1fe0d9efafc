import Verif.Props.GdsiiAny
import Verif.Props.GdsiiDark
import Verif.Props.GdsiiFile
import Verif.Props.GdsiiHelpers
import Verif.Props.GdsiiPrefix
import Verif.Props.GdsiiPropValue
import Verif.Props.GdsiiReader
import Verif.Props.GdsiiSkip
import Verif.Props.GdsiiUb

/-! Concrete cases of the hypotheses of the theorems about the GDSII reader. -/

namespace Verif.Witness
open Verif Props Spec.Gdsii Gds

set_option maxRecDepth 20000

/-- a reader for the file `odd` -/
def oddWorld : Gds.World := ⟨{ fileName := [97], hasData := true }, { libraries := [], fileName := [], fileFormat := .undefined }, fun _ => {}⟩

theorem odd_parse : ∃ p, parse emptyEnv odd [] (fun _ => {}) 5 = .ok p := ⟨_, rfl⟩

example := C57_outcome emptyEnv odd [] (fun _ => {}) 5 1000 (by decide)
example : True := by
  obtain ⟨p, h⟩ := odd_parse
  have _ := C57_any_file emptyEnv odd [] (fun _ => {}) 5 p h
  have _ := C59_prefix emptyEnv (odd.take 90) (odd.drop 90) [] (fun _ => {}) 5 p (by rw [List.take_append_drop]; exact h)
  trivial
example := C57_read emptyEnv 5 oddWorld odd [] rfl rfl (by simp) rfl
example := C53_parse { emptyEnv with rnd := Ieee.rne } rfl sample (by decide) 700 [] (fun _ => {}) 10
example := C59_design { emptyEnv with rnd := Ieee.rne } rfl sample (by decide) 0 (sample.bytes.take 336) (sample.bytes.drop 336) (by simp) (fun _ => {}) 10

/-- the reader inside a figure with a property -/
def inFigure : Gds.PS := { file := ⟨[], false⟩, libs := [some {}], heap := fun _ => { geometries := [some { type := .polygon, properties := [(7, [])] }] }, next := 1, lib := some 0, elem := some 0, geom := true }
example := C53_second_property emptyEnv inFigure rfl 7 9 [1, 2] 5 rfl
example := C69_out_of_step emptyEnv inFigure rfl 7 6 [65, 66] [1, 2] 5 rfl
/-- … and without -/
def inFigure0 : Gds.PS := { inFigure with heap := fun _ => { geometries := [some { type := .polygon }] } }
example := C69_without_attr emptyEnv inFigure0 rfl ⟨8, 0x2C⟩ rfl rfl
example : True := by
  obtain ⟨p, h⟩ : ∃ p, Gds.readRecordsPV emptyEnv 200 { file := ⟨valued, false⟩, libs := [], heap := fun _ => {}, next := 0 } = .ok p := ⟨_, rfl⟩
  have _ := C69_never_stored emptyEnv valued [] (fun _ => {}) 0 200 p h
  trivial

example := C44_denormalize_dword 0x01020304#32 1 2 3 4 (by decide)
example := C45_small_lost ((2 : ℚ) ^ (-60 : Int)) (by norm_num)
example := C45_large_lost (16 ^ (64 : Int)) ⟨1, 256, by norm_num, by norm_num⟩ (by norm_num)
example := C47_wrong_pairs 5 3 0 1 (by decide) (by decide)
example := C52_unresolved (fun _ => { geometries := [some { type := .reference, refName := [83] }] }) [{ elements := [some 0] }] (by simp; unfold NoNulls; decide)
  ⟨{ type := .reference, refName := [83] }, by decide, by decide⟩

/-- the reader inside a structure -/
def inStructure : Gds.PS := { file := ⟨[], false⟩, libs := [some {}], heap := fun _ => {}, next := 1, lib := some 0, elem := some 0 }
example := C61_unknown emptyEnv inStructure ⟨0x1F, 6, [65, 66]⟩ ⟨by decide, by decide⟩ [1, 2] 5
example := C61_out_of_place emptyEnv inStructure 0x0D 2 [0, 7] [1, 2] (by decide) (.figure (by decide) (fun h => by cases h.2.2)) 5
example := C61_array_reference emptyEnv inStructure ⟨by simp [inStructure], by simp [inStructure], rfl⟩ [65, 66] [1, 2] ⟨by decide, by decide⟩ 5

/-- a point with a coordinate that cannot be negated -/
example : True := by
  have h : parse emptyEnv (record 0x01 2 (List.replicate 24 0) ++ record 0x05 2 (List.replicate 24 0) ++ record 0x0C 0 [] ++ record 0x10 3 [0, 0, 0, 1, 0x80, 0, 0, 0] ++
    record 0x11 0 [] ++ record 0x07 0 [] ++ record 0x04 0 []) [] (fun _ => {}) 0 = .ub := rfl
  have _ := C60_causes emptyEnv (fun _ => by simp [emptyEnv]) _ [] (fun _ => {}) 0 h
  trivial
example := C60_cut_in_dates emptyEnv 600 (List.replicate 10 0) 2 (by decide) [] (fun _ => {}) 0

end Verif.Witness
