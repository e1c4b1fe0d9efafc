import Verif.Model.Geometry

/-!
Model of the parts of the C library's `sscanf` that `MskReader` uses (ISO C 7.21.6.2), in the "C" locale.
The input is the `std::string` passed as `c_str()`: it ends at the first NUL.

A number that does not fit `int` is undefined behaviour (7.21.6.2 paragraph 10), so is a `%s` that does not
fit its buffer.
-/

namespace Verif.Scan

/-- `isspace` in the "C" locale. -/
def isSpace (c : UInt8) : Bool := c == 32 || (9 ≤ c && c ≤ 13)

/-- `isdigit`. -/
def isDigit (c : UInt8) : Bool := 48 ≤ c && c ≤ 57

/-- Value of a digit string. -/
def decVal (ds : List UInt8) : Nat := ds.foldl (fun acc c => acc * 10 + (c.toNat - 48)) 0

/-- One piece of a format string: a literal character, white space, `%d`, or `%s` into a buffer of `cap` bytes. -/
inductive Piece where
  | chr (c : UInt8)
  | ws
  | int
  | str (cap : Nat)
deriving DecidableEq, Repr

/-- A converted value. -/
inductive Val where
  | int (v : Int)
  | str (s : List UInt8)
deriving DecidableEq, Repr

/-- What `sscanf` did: the values stored, in order, and whether it stopped because the input ended. -/
structure Done where
  vals : List Val
  eof : Bool
deriving DecidableEq, Repr

/-- The optional sign of `%d`: whether it was a minus, and the rest. -/
def takeSign : List UInt8 → Bool × List UInt8
  | [] => (false, [])
  | c :: cs => if c = 45 then (true, cs) else if c = 43 then (false, cs) else (false, c :: cs)

/-- `sscanf`.  White space is skipped before `%d` and `%s`; a literal must match exactly. -/
def scan : List Piece → List UInt8 → Res Done
  | [], _ => .ok ⟨[], false⟩
  | .chr c :: f, inp => match inp with
    | [] => .ok ⟨[], true⟩
    | a :: rest => if a = c then scan f rest else .ok ⟨[], false⟩
  | .ws :: f, inp => scan f (inp.dropWhile isSpace)
  | .int :: f, inp =>
    let i := inp.dropWhile isSpace
    if i = [] then .ok ⟨[], true⟩
    else
      let s := takeSign i
      let ds := s.2.takeWhile isDigit
      if ds = [] then .ok ⟨[], false⟩
      else
        let v : Int := if s.1 then - (decVal ds : Int) else decVal ds
        if inI32 v then
          scan f (s.2.dropWhile isDigit) >>= fun d => .ok ⟨.int v :: d.vals, d.eof⟩
        else .ub
  | .str cap :: f, inp =>
    let i := inp.dropWhile isSpace
    if i = [] then .ok ⟨[], true⟩
    else
      let t := i.takeWhile (fun c => !isSpace c)
      if t.length < cap then
        scan f (i.dropWhile (fun c => !isSpace c)) >>= fun d => .ok ⟨.str t :: d.vals, d.eof⟩
      else .ub

/-- The return value of `sscanf` is zero: nothing stored and the input had not ended (the value is then not
`EOF`). -/
def Done.isZero (d : Done) : Bool := d.vals.isEmpty && !d.eof

/-- `s.c_str()` as a C string. -/
def cstr (s : List UInt8) : List UInt8 := s.takeWhile (· ≠ 0)

/-- `k`-th stored integer, or the value the variable had before. -/
def Done.intAt (d : Done) (k : Nat) (dflt : Int) : Int :=
  match d.vals[k]? with
  | some (.int v) => v
  | _ => dflt

/-- `k`-th stored string, or the empty buffer. -/
def Done.strAt (d : Done) (k : Nat) : List UInt8 :=
  match d.vals[k]? with
  | some (.str s) => s
  | _ => []

end Verif.Scan
