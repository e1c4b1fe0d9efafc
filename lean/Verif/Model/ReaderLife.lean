import Verif.Model.MskReader

/-!
Readers as objects on the heap: `GetReader` and `FreeReader`, `src/Common/Impl/LayoutReader/LayoutReader.cpp:7-27`, and calls
through the pointer they hand out.
-/

namespace Verif.Msk.Life
open Verif Msk

/-- `class LayoutReader` (Include/LayoutReader.hpp:17-27) has virtual functions but no virtual destructor, and the objects
deleted through it are of the derived class `MskReader`.  The C++ standard leaves that undefined (`baseDelete = false`);
compilers run the destructor of the base class and free the memory (`baseDelete = true`; the derived class has only raw
pointers, MskReader.hpp:19-21, so nothing else is lost). -/
structure Impl where
  baseDelete : Bool

/-- The readers that exist.  An address identifies an object for good: a later object never has the address of an earlier
one, as a pointer to a deleted object is invalid even when its memory is used again. -/
structure Readers where
  next : Nat := 1
  live : Nat → Option Reader := fun _ => none

/-- one object changed -/
def Readers.put (h : Readers) (a : Nat) (r : Option Reader) : Readers := { h with live := fun b => if b = a then r else h.live b }

/-- `delete p` for a non-null pointer to `LayoutReader`, LayoutReader.cpp:14 and 24. -/
def delete (i : Impl) (a : Nat) : M Readers Unit := fun h =>
  if i.baseDelete then
    match h.live a with
    | some _ => .ok () (h.put a none)
    | none => .ub
  else .ub

/-- `GetReader`, LayoutReader.cpp:7-19; `none` = null. -/
def getReader (i : Impl) (env : Env) (name : List Nat) : M Readers (Option Nat) := fun h =>
  let a := h.next
  let h1 : Readers := { h with next := a + 1 }
  match isMyFormat env name {} with
  | .ok true r => .ok (some a) (h1.put a (some r))
  | .ok false r =>
    match delete i a (h1.put a (some r)) with
    | .ok _ h2 => .ok none h2
    | .throw e h2 => .throw e h2
    | .ub => .ub
  | .throw e r => .throw e (h1.put a (some r))
  | .ub => .ub

/-- `FreeReader`, LayoutReader.cpp:21-26.  The assignment in line 25 changes the function's own parameter only. -/
def freeReader (i : Impl) (p : Option Nat) : M Readers Unit :=
  match p with
  | none => pure ()
  | some a => delete i a

/-- the readers, the caller's layouts and the elements -/
structure State where
  readers : Readers := {}
  layouts : Nat → LayoutData := fun _ => {}
  heap : Elements

/-- What a client does.  `read`: the layout is one of the caller's (`none` = null), `addr` the address of the new element. -/
inductive Call where
  | get (env : Env) (name : List Nat)
  | isMyFormat (env : Env) (p : Option Nat) (name : List Nat)
  | read (env : Env) (addr : Nat) (p : Option Nat) (layout : Option Nat)
  | free (p : Option Nat)

/-- what a call returns -/
inductive Answer where
  | pointer (p : Option Nat)
  | bool (b : Bool)
  | void
deriving DecidableEq, Repr

/-- One call.  `none`: undefined behaviour.  (No call throws; the model of an exception would be `none`, too.) -/
def call (i : Impl) : Call → State → Option (Answer × State)
  | .get env name, s =>
    match getReader i env name s.readers with
    | .ok p h => some (.pointer p, { s with readers := h })
    | _ => none
  | .isMyFormat env p name, s =>
    match p.bind s.readers.live, p with
    | some r, some a =>
      match Msk.isMyFormat env name r with
      | .ok b r' => some (.bool b, { s with readers := s.readers.put a (some r') })
      | _ => none
    | _, _ => none
  | .read env addr p layout, s =>
    match p.bind s.readers.live, p with
    | some r, some a =>
      match Msk.read env addr layout.isNone ⟨r, (layout.map s.layouts).getD {}, s.heap⟩ with
      | .ok b w => some (.bool b, { s with
          readers := s.readers.put a (some w.reader)
          layouts := fun l => if some l = layout then w.data else s.layouts l
          heap := w.heap })
      | _ => none
    | _, _ => none
  | .free p, s =>
    match freeReader i p s.readers with
    | .ok _ h => some (.void, { s with readers := h })
    | _ => none

/-- A sequence of calls with their answers. -/
def calls (i : Impl) : List Call → State → Option (List (Call × Answer) × State)
  | [], s => some ([], s)
  | c :: cs, s =>
    match call i c s with
    | none => none
    | some (a, s1) =>
      match calls i cs s1 with
      | none => none
      | some (h, s2) => some ((c, a) :: h, s2)

end Verif.Msk.Life
