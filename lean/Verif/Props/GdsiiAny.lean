import Verif.Proofs.GdsiiAny
import Verif.Props.GdsiiFile

/-!
C57: what the GDSII reader makes of an arbitrary file (once it reads one, see C46 and C53).
-/

namespace Verif.Props
open Verif Spec.Gdsii

theorem inv_start (libs : List (Option Library)) (heap : Elements) (next : Nat) (s : Gds.Strm) :
    Gds.Inv libs heap next { file := s, libs := libs, heap := heap, next := next } [] where
  libs := by simp
  good := by simp
  next := Nat.le_refl _
  owned := by simp [elementsOf]
  closed := by simp [elementsOf]
  opened := by intro a h; cases h
  rest := fun _ _ => rfl
  lib := by intro i h; cases h

/-- **C57** The record loop ends on every file, without an exception: with any bound on the number of records that is greater than the number of
bytes, the outcome is the same, and if it is defined, the end of the file has been reached. -/
theorem C57_outcome (env : Gds.Env) (content : List UInt8) (libs : List (Option Library)) (heap : Elements) (next fuel : Nat) (h : content.length < fuel) :
    Gds.readRecords env fuel { file := ⟨content, false⟩, libs := libs, heap := heap, next := next } = parse env content libs heap next ∧
    (∀ e, parse env content libs heap next ≠ .throw e) ∧ ∀ p, parse env content libs heap next = .ok p → p.file.eof = true := by
  refine ⟨Gds.readRecords_fuel _ _ _ _ h (Nat.lt_succ_self _), Gds.noThrow_readRecords _ _ _, fun p hp => ?_⟩
  exact Gds.readRecords_eof _ _ _ _ (Nat.lt_succ_self _) hp

/-- **C57** Whatever bytes a file has: if its record loop is defined, the libraries that were there are as before, and the new ones behind them have only
good elements, each one a new one, listed once in one library, in order of their addresses.  At most one new element is not listed (the structure the file
ends in).  All other elements are as before. -/
theorem C57_any_file (env : Gds.Env) (content : List UInt8) (libs : List (Option Library)) (heap : Elements) (next : Nat) (p : Gds.PS)
    (h : parse env content libs heap next = .ok p) :
    ∃ new : List Library, p.libs = libs ++ new.map some ∧ (∀ l ∈ new, GoodLibrary l) ∧ (∀ a ∈ elementsOf new, GoodElement (p.heap a)) ∧
      next ≤ p.next ∧ elementsOf new ++ p.elem.toList = List.range' next (p.next - next) ∧
      ∀ a, (a < next ∨ p.next ≤ a) → p.heap a = heap a := by
  obtain ⟨new, hi⟩ := Gds.readRecords_inv env _ (inv_start libs heap next ⟨content, false⟩) h
  exact ⟨new, hi.libs, hi.good, hi.closed, hi.next, hi.owned, hi.rest⟩

theorem noNulls_new {heap : Elements} {new : List Library} (h1 : ∀ l ∈ new, GoodLibrary l) (h2 : ∀ a ∈ elementsOf new, GoodElement (heap a))
    (l : Library) (hl : l ∈ new) : NoNulls heap l := by
  refine ⟨(h1 l hl).elements, fun hc => ?_⟩
  unfold geometriesOf at hc
  rw [List.mem_flatMap] at hc
  obtain ⟨e, he, hc⟩ := hc
  cases e with
  | none => cases hc
  | some a =>
    have ha : a ∈ elementsOf new := by
      unfold elementsOf
      rw [List.mem_flatMap]
      exact ⟨l, hl, by rw [List.mem_filterMap]; exact ⟨_, he, rfl⟩⟩
    obtain ⟨gs, hg, _⟩ := (h2 a ha).geometries
    dsimp only at hc
    rw [hg] at hc
    simp at hc

/-- an old library stays without null pointers -/
theorem noNulls_old {heap heap' : Elements} {next : Nat} (l : Library) (hn : NoNulls heap l) (hl : ∀ a ∈ elementsOf [l], a < next)
    (hh : ∀ a, a < next → heap' a = heap a) : NoNulls heap' l := by
  refine ⟨hn.1, fun hc => hn.2 ?_⟩
  unfold geometriesOf at hc ⊢
  rw [List.mem_flatMap] at hc ⊢
  obtain ⟨e, he, hc⟩ := hc
  refine ⟨e, he, ?_⟩
  cases e with
  | none => exact hc
  | some a =>
    have ha : a ∈ elementsOf [l] := by
      unfold elementsOf
      simp only [List.flatMap_cons, List.flatMap_nil, List.append_nil]
      rw [List.mem_filterMap]; exact ⟨_, he, rfl⟩
    dsimp only at hc ⊢
    rwa [← hh a (hl a ha)]

/-- **C57** `Read` of any file into a layout of complete libraries (in particular an empty one) is undefined, or
post-processes the good libraries it has added together with the old ones as in C52: it returns true if all references can be resolved, false if not. -/
theorem C57_read (env : Gds.Env) (next : Nat) (w : Gds.World) (content : List UInt8) (old : List Library) (hdata : w.reader.hasData = true)
    (hw : w.data.libraries = old.map some) (hold : ∀ l ∈ old, NoNulls w.heap l ∧ ∀ a ∈ elementsOf [l], a < next)
    (hf : env.fs (Msk.narrow w.reader.fileName) = some content) :
    (Gds.read env next false w = .ub ∧ parse env content (old.map some) w.heap next = .ub) ∨
    ∃ new heap, (∀ l ∈ new, GoodLibrary l) ∧ (∀ a ∈ elementsOf new, next ≤ a ∧ GoodElement (heap a)) ∧ (elementsOf new).Nodup ∧
      (∀ a, a < next → heap a = w.heap a) ∧
      (((∀ g ∈ referencesOf heap (old ++ new), (firstNamed heap (old ++ new) g.refName).isSome) ∧
        ∃ ls, List.Forall₂ (Enumerated heap) (old ++ new) ls ∧
          Gds.read env next false w = .ok true ⟨w.reader,
            { libraries := (ls.map (boxOf (resolvedHeap heap (old ++ new)))).map some, fileName := w.reader.fileName, fileFormat := .gdsiiBin },
            resolvedHeap heap (old ++ new)⟩) ∨
       ((∃ g ∈ referencesOf heap (old ++ new), firstNamed heap (old ++ new) g.refName = none) ∧
        ∃ heap', Gds.read env next false w = .ok false ⟨w.reader,
            { libraries := (old ++ new).map some, fileName := w.reader.fileName, fileFormat := .gdsiiBin }, heap'⟩ ∧
          PartlyResolved heap (old ++ new) heap')) := by
  have hread : Gds.read env next false w = match parse env content (old.map some) w.heap next with
      | .ok p =>
        match Gds.postProcess p.libs p.heap with
        | .ok (libs, heap, b) =>
          .ok b ⟨w.reader, { libraries := libs, fileName := w.reader.fileName, fileFormat := .gdsiiBin }, heap⟩
        | _ => .ub
      | _ => .ub := by
    unfold Gds.read
    rw [hdata]
    simp only [Bool.not_true, Bool.false_eq_true, if_false]
    rw [hf]
    dsimp only
    rw [hw]
    rfl
  cases hp : parse env content (old.map some) w.heap next with
  | ub => rw [hp] at hread; exact .inl ⟨hread, rfl⟩
  | throw e => exact absurd hp ((C57_outcome env content _ _ _ _ (Nat.lt_succ_self _)).2.1 e)
  | ok p =>
    rw [hp] at hread
    dsimp only at hread
    obtain ⟨new, h1, h2, h3, h4, h5, h6⟩ := C57_any_file _ _ _ _ _ _ hp
    right
    have hrange : ∀ a ∈ elementsOf new, next ≤ a := by
      intro a ha
      have : a ∈ List.range' next (p.next - next) := by rw [← h5]; exact List.mem_append_left _ ha
      rw [List.mem_range'_1] at this
      exact this.1
    have hnd : (elementsOf new).Nodup := by
      have : (List.range' next (p.next - next)).Nodup := List.nodup_range'
      rw [← h5] at this
      exact (List.nodup_append.1 this).1
    refine ⟨new, p.heap, h2, fun a ha => ⟨hrange a ha, h3 a ha⟩, hnd, fun a ha => h6 a (.inl ha), ?_⟩
    have hnn : ∀ l ∈ old ++ new, NoNulls p.heap l := by
      intro l hl
      rcases List.mem_append.1 hl with hl | hl
      · exact noNulls_old l (hold l hl).1 (hold l hl).2 (fun a ha => h6 a (.inl ha))
      · exact noNulls_new h2 h3 l hl
    rw [← List.map_append] at h1
    rw [h1] at hread
    by_cases hr : ∀ g ∈ referencesOf p.heap (old ++ new), (firstNamed p.heap (old ++ new) g.refName).isSome
    · left
      refine ⟨hr, ?_⟩
      obtain ⟨ls, h7, h8⟩ := C52_post_process p.heap (old ++ new) hnn hr
      refine ⟨ls, h7, ?_⟩
      rw [hread, h8]
    · right
      have hr' : ∃ g ∈ referencesOf p.heap (old ++ new), firstNamed p.heap (old ++ new) g.refName = none := by
        by_contra hc
        apply hr
        intro g hg
        cases hx : firstNamed p.heap (old ++ new) g.refName with
        | some _ => rfl
        | none => exact absurd ⟨g, hg, hx⟩ hc
      refine ⟨hr', ?_⟩
      obtain ⟨heap', h8, h9⟩ := C52_unresolved p.heap (old ++ new) hnn hr'
      refine ⟨heap', ?_, h9⟩
      rw [hread, h8]

/-- C57 at work: a file that is cut off inside the second of two structures and also has records out of place (a LAYER before any
library).  One element is finished, one is open. -/
def odd : List UInt8 :=
  record 0x0D 2 [] ++ record 0x01 2 (List.replicate 24 0) ++ record 0x05 2 (List.replicate 24 0) ++ record 0x06 6 [65, 66] ++ record 0x08 0 [] ++
    record 0x0D 2 [0, 7] ++ record 0x11 0 [] ++ record 0x07 0 [] ++ record 0x05 2 (List.replicate 24 0) ++ record 0x06 6 [67, 68] ++ [0, 4, 8]

def emptyEnv : Gds.Env := { fs := fun _ => some odd, rnd := Ieee.rne, mem := fun _ => List.replicate 8 0 }

example : ∃ p, parse emptyEnv odd [] (fun _ => {}) 5 = .ok p ∧ p.libs = [some { elements := [some 5] }] ∧ p.elem = some 6 ∧ p.next = 7 ∧
    (p.heap 5).name = [65, 66] ∧ (p.heap 5).geometries.length = 1 ∧ (p.heap 6).name = [67, 68] := by
  refine ⟨_, rfl, ?_, rfl, rfl, rfl, rfl, rfl⟩
  rfl

set_option maxRecDepth 20000 in
example : ∃ w : Gds.World, w.reader.hasData = true ∧ w.data.libraries = ([] : List Library).map some ∧
    emptyEnv.fs (Msk.narrow w.reader.fileName) = some odd ∧ ∃ w', Gds.read emptyEnv 5 false w = .ok true w' := by
  refine ⟨⟨{ fileName := [97], hasData := true }, { libraries := [], fileName := [], fileFormat := .undefined }, fun _ => {}⟩, rfl, rfl, rfl, _, rfl⟩

/-- **C57** A file that cannot be opened: `Read` returns false and leaves the layout and all elements alone, for any layout argument. -/
theorem C57_missing_file (env : Gds.Env) (next : Nat) (null : Bool) (w : Gds.World) (hf : env.fs (Msk.narrow w.reader.fileName) = none) :
    ∃ r, Gds.read env next null w = .ok false ⟨r, w.data, w.heap⟩ := by
  unfold Gds.read
  rw [hf]
  split
  · exact ⟨_, rfl⟩
  · exact ⟨_, rfl⟩

/-- C57_missing_file at work on a reader that is past its first check. -/
example (env : Gds.Env) : ∃ r, Gds.read { env with fs := fun _ => none } 5 false ⟨{ hasData := true, fileName := [97] }, {}, fun _ => {}⟩ =
    .ok false ⟨r, {}, fun _ => {}⟩ :=
  C57_missing_file _ 5 false ⟨{ hasData := true, fileName := [97] }, {}, fun _ => {}⟩ rfl

end Verif.Props
