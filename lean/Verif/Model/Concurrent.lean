import Verif.Model.LayoutMatrix

/-!
Several programs (or threads, each with its own objects) that call `FlushFile` and `ReadFile` at the same time:
`src/Common/Impl/LayoutMatrix/LayoutMatrix.cpp:288-328`, cut into the operations on the file system that others can get in between.

Files are those of POSIX: an open file is a place in it of one's own; `trunc` empties the file at once, also for those who have
it open; characters written behind the end leave a gap of zero bytes; reading ends at the end the file then has.  `std::fstream`
hands characters on in pieces; here the pieces have any sizes.  Not modelled: errors while reading, removing and renaming files
(the library does neither), locks (it has none).  Memory suffices.
-/

namespace Verif.Concurrent
open BitMatrix LayoutMatrix

/-- how far a call on an object `m` is -/
inductive Job
  /-- `m.FlushFile(name)` has not opened the file yet -/
  | flush (m : BitMatrix) (name : List UInt8)
  /-- … has opened it; `off` characters of the text are written (LayoutMatrix.cpp:325-326) -/
  | writing (m : BitMatrix) (name text : List UInt8) (off : Nat)
  /-- `m.ReadFile(name)` has not opened the file yet -/
  | read (m : BitMatrix) (name : List UInt8)
  /-- … has opened it and got these characters (LayoutMatrix.cpp:298-299) -/
  | reading (m : BitMatrix) (name got : List UInt8)
  /-- the call has returned; the object is `m` -/
  | returned (b : Bool) (m : BitMatrix)
  /-- the call has thrown; the object is `m` -/
  | threw (e : Exc) (m : BitMatrix)
  /-- the call ran into undefined behaviour -/
  | undefined

/-- `write(2)` at place `off`: what was there is replaced, a gap before it is filled with zeros -/
def overwrite (c : List UInt8) (off : Nat) (piece : List UInt8) : List UInt8 :=
  (c ++ List.replicate (off - c.length) 0).take off ++ piece ++ c.drop (off + piece.length)

/-- the file `name` gets the content `c` -/
def setFile (fs : Fs) (name c : List UInt8) : Fs := { fs with files := fun n => if n = name then some c else fs.files n }

/-- `FlushFile` up to the writing, LayoutMatrix.cpp:317-323: the file is emptied, then the text is made (others cannot see that) -/
def openWrite (m : BitMatrix) (name : List UInt8) (fs : Fs) : Job × Fs :=
  if name = [] then (.returned false m, fs)
  else if fs.writable name = false then (.returned false m, fs)
  else match encodeHash m with
    | .ok h => (.writing m name h 0, setFile fs name [])
    | .throw e => (.threw e m, setFile fs name [])
    | .ub => (.undefined, setFile fs name [])

/-- The next piece of `n` characters, LayoutMatrix.cpp:325-327.  After the last one, or if none can be written any more (`n = 0`: the
disk is full; the result of `write` is not tested), the call returns. -/
def writePiece (m : BitMatrix) (name text : List UInt8) (off n : Nat) (fs : Fs) : Job × Fs :=
  if n = 0 ∨ text.length ≤ off then (.returned true m, fs)
  else
    let piece := (text.drop off).take n
    (.writing m name text (off + piece.length), setFile fs name (overwrite ((fs.files name).getD []) off piece))

/-- `ReadFile` up to the reading, LayoutMatrix.cpp:292-296 -/
def openRead (m : BitMatrix) (name : List UInt8) (fs : Fs) : Job :=
  if name = [] then .returned false m
  else if fs.readable name = false then .returned false m
  else match fs.files name with
    | none => .returned false m
    | some _ => .reading m name []

/-- The next piece of `n + 1` characters, LayoutMatrix.cpp:298-299; at the end of the file the rest of the function,
LayoutMatrix.cpp:301-308 -/
def readPiece (p : Platform) (m : BitMatrix) (name got : List UInt8) (n : Nat) (fs : Fs) : Job :=
  match ((fs.files name).getD []).drop got.length with
  | [] =>
    match decodeHash p Alloc.ok got with
    | .ub => .undefined
    | .throw e => .threw e m
    | .ok d => if opNot d then .returned false m else .returned true (assignMoveL m d).1
  | c :: rest => .reading m name (got ++ (c :: rest).take (n + 1))

/-- one operation of a call; `n`: the size of the piece -/
def advance (p : Platform) (n : Nat) (t : Job) (fs : Fs) : Job × Fs :=
  match t with
  | .flush m name => openWrite m name fs
  | .writing m name text off => writePiece m name text off n fs
  | .read m name => (openRead m name fs, fs)
  | .reading m name got => (readPiece p m name got n fs, fs)
  | t => (t, fs)

/-- the file system and all calls -/
structure System where
  fs : Fs
  jobs : Nat → Job

/-- call number `k` does its next operation -/
def step (p : Platform) (w : System) (k n : Nat) : System :=
  let (t, fs) := advance p n (w.jobs k) w.fs
  ⟨fs, fun i => if i = k then t else w.jobs i⟩

/-- A schedule: who does the next operation, and with which size.  A program that ends or is killed no longer occurs in it. -/
def run (p : Platform) : System → List (Nat × Nat) → System
  | w, [] => w
  | w, (k, n) :: s => run p (step p w k n) s

end Verif.Concurrent
