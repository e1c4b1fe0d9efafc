import Verif.Model.Generator

/-!
Generators and the matrices they hand out, as objects of a client program: `GetMatrix` returns a `std::shared_ptr`
(Include/LayoutMatrix.h:26, LayoutBitmapGenerator.cpp:107-111) to the matrix the constructor allocates
(Include/LayoutBitmapGenerator.h:56), and the class has a user-declared destructor and no copy or move operations of its own
(Include/LayoutBitmapGenerator.h:51-62), so that copying — and `std::move` — copies the members one by one, the pointer among them.
-/

namespace Verif.Sharing
open Verif

/-- A generator object: its members, and the address its member `bitmap` points to (Include/LayoutBitmapGenerator.h:40).  The field
`gen.bitmap` of the value is not used: the matrix is in the heap. -/
structure Obj where
  gen : Generator
  addr : Nat

/-- The objects of the program: matrices by address (those at addresses from `used` on are not allocated yet), generators and pointer
variables by name.  Simplification: a matrix is never freed here; `shared_ptr` frees it when no generator and no pointer refers to it
any more, and then nobody can see it. -/
structure World where
  matrix : Nat → BitMatrix := fun _ => BitMatrix.empty
  used : Nat := 0
  gens : Nat → Option Obj := fun _ => none
  ptrs : Nat → Option Nat := fun _ => none

/-- change a function at one argument -/
def upd {α : Type} (f : Nat → α) (i : Nat) (a : α) : Nat → α := fun k => if k = i then a else f k

/-- Calls of a client. -/
inductive Call where
  /-- `LayoutBitmapGenerator i;` -/
  | create (i : Nat)
  /-- `LayoutBitmapGenerator j(i);`, `j = i;`, also with `std::move(i)` -/
  | copy (i j : Nat)
  /-- the end of the life of `i` -/
  | destroy (i : Nat)
  /-- `i.Init(...)` -/
  | init (i : Nat) (data : Option Nat) (layers : List Int) (mn mx : Coord)
  /-- `i.SetLayerArray(...)` -/
  | setLayers (i : Nat) (layers : List Int)
  /-- `i.Process(R, C)`; `mem` is what the layout pointers point to at that moment, `depth` and `stale` as in `Generator.process` -/
  | process (i : Nat) (al : Alloc) (stale : Res Nat) (mem : Memory) (depth R C : Nat)
  /-- `h = i.GetMatrix();` -/
  | get (i h : Nat)
  /-- a change of `*h` through the pointer, leaving the value `m` -/
  | write (h : Nat) (m : BitMatrix)

/-- the generator `o` as the functions of Generator.lean see it: with its matrix -/
def load (w : World) (o : Obj) : Generator := { o.gen with bitmap := w.matrix o.addr }

/-- the effect of a call on generator `i` -/
def store (w : World) (i : Nat) (o : Obj) (g : Generator) : World :=
  { w with matrix := upd w.matrix o.addr g.bitmap, gens := upd w.gens i (some ⟨g, o.addr⟩) }

/-- a call on generator `i` -/
def onGen {α : Type} (w : World) (i : Nat) (f : Generator → Option (Out Generator α)) : Option (Out World Unit) :=
  match w.gens i with
  | none => some .ub
  | some o =>
    match f (load w o) with
    | none => none
    | some .ub => some .ub
    | some (.throw e g) => some (.throw e (store w i o g))
    | some (.ok _ g) => some (.ok () (store w i o g))

/-- One call.  `none` = `SplitSref` nests deeper than `depth`; using an object that does not exist (or constructing one that does) is undefined.
`create`: Include/LayoutBitmapGenerator.h:56; `copy`: the implicit copy constructor and copy assignment; `destroy`: LayoutBitmapGenerator.cpp:407;
`get`: LayoutBitmapGenerator.cpp:107-111; the others call Generator.lean. -/
def call (rnd : ℚ → ℚ) (w : World) : Call → Option (Out World Unit)
  | .create i =>
    match w.gens i with
    | some _ => some .ub
    | none => some (.ok () { w with matrix := upd w.matrix w.used BitMatrix.empty, used := w.used + 1,
                                    gens := upd w.gens i (some ⟨Generator.new rnd, w.used⟩) })
  | .copy i j =>
    match w.gens i with
    | none => some .ub
    | some o => some (.ok () { w with gens := upd w.gens j (some o) })
  | .destroy i =>
    match w.gens i with
    | none => some .ub
    | some _ => some (.ok () { w with gens := upd w.gens i none })
  | .init i data layers mn mx => onGen w i fun g => some (Generator.init data layers mn mx g)
  | .setLayers i layers => onGen w i fun g => some (Out.ok () (Generator.setLayerArray layers g))
  | .process i al stale mem depth R C => onGen w i fun g => Generator.process rnd al stale mem depth R C g
  | .get i h =>
    match w.gens i with
    | none => some .ub
    | some o => some (.ok () { w with ptrs := upd w.ptrs h (some o.addr) })
  | .write h m =>
    match w.ptrs h with
    | none => some .ub
    | some a => some (.ok () { w with matrix := upd w.matrix a m })

end Verif.Sharing
