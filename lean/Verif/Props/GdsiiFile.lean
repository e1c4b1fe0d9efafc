import Verif.Proofs.GdsiiParse2
import Verif.Props.GdsiiReader

/-!
C53: what the GDSII reader makes of a well-formed file, once it reads one (C46: an object of the class itself never does;
`p_data` is protected, so a derived class can set it).  `env.rnd = Ieee.rne`: `double` is IEEE 754 binary64 rounding to
nearest, ties to even.
-/

namespace Verif.Props
open Verif Spec.Gdsii Ieee

/-- **C53** The records of a file: reading every well-formed file, followed by any number of zero bytes, with any libraries
already in the layout, appends exactly one library — name, units and one element per structure, in order — and stores
exactly the elements described: names, flat flags, boxes, and every boundary, path, box, text and reference with its layer,
types, width, flags, magnification, coordinates and strings, in order.  (The value of a property is lost.) -/
theorem C53_parse (env : Gds.Env) (hr : env.rnd = rne) (d : Design) (hd : d.Fits) (zeros : Nat) (libs : List (Option Library))
    (heap : Elements) (next : Nat) :
    ∃ p, Gds.readRecords env ((d.bytes ++ List.replicate zeros 0).length + 1)
        { file := ⟨d.bytes ++ List.replicate zeros 0, false⟩, libs := libs, heap := heap, next := next } = .ok p ∧
      p.libs = libs ++ [some (d.library next)] ∧ p.heap = storeFrom heap next (d.structures.map Structure.element) := by
  obtain ⟨n, hn, h⟩ := Gds.parses_design hr d hd libs heap next (List.replicate zeros 0)
  obtain ⟨p, h1, h2, h3⟩ := Gds.zeros_end env zeros (d.bytes.length - n + zeros + 1) (by omega) (libs ++ [some (d.library next)])
    (storeFrom heap next (d.structures.map Structure.element)) (next + d.structures.length)
  refine ⟨p, ?_, h2, h3⟩
  have e : (d.bytes ++ List.replicate zeros 0).length + 1 = n + (d.bytes.length - n + zeros + 1) := by
    rw [List.length_append, List.length_replicate]; omega
  rw [e]
  exact (h _).trans h1

/-- the names a structure refers to -/
def refersTo (s : Structure) (name : List UInt8) : Prop :=
  ∃ i ∈ s.items, ∃ flags mag pos, i.figure = .sref name flags mag pos

/-- **C53** `Read` into an empty layout: for every well-formed file in which every reference names a structure, it
returns true, and the layout is the one library described, post-processed as in C52. -/
theorem C53_read (env : Gds.Env) (hr : env.rnd = rne) (d : Design) (hd : d.Fits) (zeros : Nat) (next : Nat) (w : Gds.World)
    (hdata : w.reader.hasData = true) (hw : w.data.libraries = [])
    (hf : env.fs (Msk.narrow w.reader.fileName) = some (d.bytes ++ List.replicate zeros 0))
    (hrefs : ∀ s ∈ d.structures, ∀ name, refersTo s name → ∃ s' ∈ d.structures, s'.name = name) :
    let store := storeFrom w.heap next (d.structures.map Structure.element)
    ∃ lib, Enumerated store (d.library next) lib ∧
      Gds.read env next false w = .ok true ⟨w.reader,
        { libraries := [some (boxOf (resolvedHeap store [d.library next]) lib)], fileName := w.reader.fileName,
          fileFormat := .gdsiiBin }, resolvedHeap store [d.library next]⟩ := by
  intro store
  have hst : ∀ (i : Nat) (h : i < d.structures.length), store (next + i) = d.structures[i].element := by
    intro i h
    show storeFrom _ _ _ _ = _
    unfold storeFrom
    rw [if_neg (by omega)]
    have : next + i - next = i := by omega
    rw [this]
    simp [h]
  have hel : elementsOf [d.library next] = List.range' next d.structures.length := by
    simp [elementsOf, Design.library]
  have hmem : ∀ a ∈ List.range' next d.structures.length, ∃ s ∈ d.structures, store a = s.element := by
    intro a ha
    rw [List.mem_range'] at ha
    obtain ⟨i, hi, rfl⟩ := ha
    rw [Nat.one_mul]
    exact ⟨_, List.getElem_mem _, hst i hi⟩
  have hn : NoNulls store (d.library next) := by
    refine ⟨by simp [Design.library], ?_⟩
    intro hc
    simp only [geometriesOf, Design.library, List.mem_flatMap, List.mem_map] at hc
    obtain ⟨e, ⟨a, ha, rfl⟩, hg⟩ := hc
    obtain ⟨s, _, hs⟩ := hmem a ha
    dsimp only at hg
    rw [hs] at hg
    simp [Structure.element] at hg
  have hres : ∀ g ∈ referencesOf store [d.library next], (firstNamed store [d.library next] g.refName).isSome := by
    intro g hg
    unfold referencesOf at hg
    rw [hel] at hg
    simp only [List.mem_flatMap, List.mem_filter, List.mem_filterMap, id, decide_eq_true_eq] at hg
    obtain ⟨a, ha, ⟨og, hg, rfl⟩, ht⟩ := hg
    obtain ⟨s, hs, hse⟩ := hmem a ha
    rw [hse] at hg
    simp only [Structure.element, List.mem_map, Option.some.injEq] at hg
    obtain ⟨i, hi, rfl⟩ := hg
    have hi' : ∃ flags mag pos, i.figure = .sref i.geometry.refName flags mag pos := by
      unfold Item.geometry at ht ⊢
      cases hq : i.figure <;> rw [hq] at ht <;> first | exact ⟨_, _, _, rfl⟩ | cases ht
    obtain ⟨s', hs', hname⟩ := hrefs s hs _ ⟨i, hi, hi'⟩
    unfold firstNamed
    rw [hel, List.find?_isSome]
    obtain ⟨j, hj, rfl⟩ := List.getElem_of_mem hs'
    refine ⟨next + j, ?_, ?_⟩
    · rw [List.mem_range']; exact ⟨j, hj, by omega⟩
    · rw [hst j hj]
      exact decide_eq_true hname
  obtain ⟨p, h1, h2, h3⟩ := C53_parse env hr d hd zeros [] w.heap next
  obtain ⟨ls', h4, h5⟩ := C52_post_process store [d.library next] (by simpa using hn) hres
  cases h4 with
  | @cons _ lib _ _ h6 h7 =>
    cases h7
    refine ⟨lib, h6, ?_⟩
    unfold Gds.read
    rw [hdata]
    simp only [Bool.not_true, Bool.false_eq_true, if_false]
    rw [hf]
    dsimp only
    rw [hw, h1]
    dsimp only
    rw [h2, h3]
    have h5' : Gds.postProcess ([] ++ [some (d.library next)]) store = _ := h5
    rw [h5']
    rfl

/-- C53 at work: a library with the structures `S` (a box and a boundary) and `T` (a reference to `S`, a text and a path). -/
def sample : Design :=
  { version := 600, dates := List.replicate 24 0, name := [76], user := ⟨0x3E, [0x41, 0x89, 0x37, 0x4B, 0xC6, 0xA7, 0xF0]⟩
    physical := ⟨0x39, [0x44, 0xB8, 0x2F, 0xA0, 0x9B, 0x5A, 0x54]⟩
    structures := [
      { dates := List.replicate 24 0, name := [83], items := [
          { figure := .box 3 0 [⟨0, 0⟩, ⟨0, 5⟩, ⟨5, 5⟩, ⟨5, 0⟩, ⟨0, 0⟩] },
          { figure := .boundary 3 1 [⟨-7, 2⟩, ⟨0, 2⟩, ⟨0, 9⟩, ⟨-7, 2⟩], property := some (1, [65]) }] },
      { dates := List.replicate 24 0, name := [84], items := [
          { figure := .sref [83] none (some ⟨0x41, [0x20, 0, 0, 0, 0, 0, 0]⟩) ⟨100, 100⟩ },
          { figure := .text 5 0 none none none none none ⟨1, 2⟩ [72, 105] },
          { figure := .path 6 0 (some 2) (some 40) [⟨0, 0⟩, ⟨10, 0⟩], others := [⟨0x26, 1, [0, 0]⟩] }] }] }

instance (v : Int) : Decidable (Fits16 v) := by unfold Fits16; infer_instance
instance (v : Int) : Decidable (Fits32 v) := by unfold Fits32; infer_instance
instance (c : Coord) : Decidable (FitsC c) := by unfold FitsC; infer_instance
instance (s : List UInt8) : Decidable (FitsS s) := by unfold FitsS; infer_instance
instance (r : Real8) : Decidable (FitsR r) := by unfold FitsR; infer_instance
instance (o : Other) : Decidable o.Fits := by unfold Other.Fits; infer_instance
instance (f : Figure) : Decidable f.Fits := by unfold Figure.Fits; cases f <;> dsimp only <;> infer_instance
instance (i : Item) : Decidable i.Fits := by unfold Item.Fits; infer_instance
instance (s : Structure) : Decidable s.Fits := by unfold Structure.Fits; infer_instance
instance (d : Design) : Decidable d.Fits := by unfold Design.Fits; infer_instance

example : sample.Fits ∧ (∀ s ∈ sample.structures, ∀ name, refersTo s name → ∃ s' ∈ sample.structures, s'.name = name) ∧
    (sample.structures.map Structure.element).map (fun e => (e.min, e.max, e.isFlat)) =
      [(⟨-7, 0⟩, ⟨5, 9⟩, true), (⟨0, 0⟩, ⟨100, 100⟩, false)] := by
  refine ⟨?_, ?_, by decide⟩
  · decide
  · intro s hs name hn
    refine ⟨sample.structures[0], by simp [sample], ?_⟩
    simp only [sample, List.mem_cons, List.not_mem_nil, or_false] at hs
    obtain ⟨i, hi, f, m, p, h⟩ := hn
    rcases hs with rfl | rfl
    · simp only [List.mem_cons, List.not_mem_nil, or_false] at hi
      rcases hi with rfl | rfl <;> cases h
    · simp only [List.mem_cons, List.not_mem_nil, or_false] at hi
      rcases hi with rfl | rfl | rfl <;> cases h
      rfl

example : ∃ env : Gds.Env, ∃ w : Gds.World, ∃ lib store,
    Gds.read env 10 false w = .ok true ⟨w.reader, { libraries := [some lib], fileName := w.reader.fileName, fileFormat := .gdsiiBin }, store⟩ ∧
    lib.name = [76] ∧ lib.elements = [some 10, some 11] ∧ (store 10).name = [83] ∧ (store 10).nested = true ∧ (store 11).nested = false := by
  let env : Gds.Env := { fs := fun _ => some (sample.bytes ++ List.replicate 700 0), rnd := rne, mem := fun _ => [] }
  let w : Gds.World := ⟨{ fileName := [97], hasData := true }, { libraries := [], fileName := [], fileFormat := .undefined }, fun _ => {}⟩
  obtain ⟨lib, h1, h2⟩ := C53_read env rfl sample (by decide) 700 10 w rfl rfl rfl (by
    intro s hs name hn
    refine ⟨sample.structures[0], by simp [sample], ?_⟩
    simp only [sample, List.mem_cons, List.not_mem_nil, or_false] at hs
    obtain ⟨i, hi, f, m, p, h⟩ := hn
    rcases hs with rfl | rfl
    · simp only [List.mem_cons, List.not_mem_nil, or_false] at hi
      rcases hi with rfl | rfl <;> cases h
    · simp only [List.mem_cons, List.not_mem_nil, or_false] at hi
      rcases hi with rfl | rfl | rfl <;> cases h
      rfl)
  refine ⟨env, w, _, _, h2, ?_, ?_, by decide, by decide, by decide⟩
  · unfold boxOf
    rw [h1.rest]
    split <;> rfl
  · unfold boxOf
    rw [h1.rest]
    split <;> rfl

/-- **C53** The value of a property is never stored, so a second property of the same element puts the reader out of step: the
data of its PROPATTR record is left in the stream and taken for the next record. -/
theorem C53_second_property (env : Gds.Env) (p : Gds.PS) (hg : p.inGeom = true) (old : Int) (k : Int) (rest : List UInt8) (fuel : Nat)
    (hp : p.theGeom.properties.getLast? = some (old, [])) :
    Gds.readRecords env (fuel + 1) { p with file := ⟨record 0x2B 2 (be16 k) ++ rest, false⟩ } =
      Gds.readRecords env fuel { p with file := ⟨be16 k ++ rest, false⟩ } := by
  rw [Gds.record_step env _ _ _ (by rw [Gds.be16_length]; omega)]
  have : Gds.dispatch env ⟨(be16 k).length, 0x2B⟩ { p with file := ⟨be16 k ++ rest, false⟩ } =
      .ok { p with file := ⟨be16 k ++ rest, false⟩ } := by
    show Gds.secPropAttr _ = _
    unfold Gds.secPropAttr
    have h1 : { p with file := ⟨be16 k ++ rest, false⟩ }.inGeom = true := hg
    have h2 : { p with file := ⟨be16 k ++ rest, false⟩ }.theGeom.properties.getLast? = some (old, []) := hp
    rw [if_pos h1, h2]
  rw [this, Res.ok_bind]

/-- C53 at work: a figure that has a property. -/
example : ∃ p : Gds.PS, p.inGeom = true ∧ p.theGeom.properties.getLast? = some (7, []) := by
  let g : Geometry := { type := .polygon, properties := [(7, [])] }
  let p : Gds.PS := { file := ⟨[], false⟩, libs := [some {}], heap := fun _ => { geometries := [some g] }, next := 1, lib := some 0, elem := some 0, geom := true }
  exact ⟨p, rfl, rfl⟩

end Verif.Props
