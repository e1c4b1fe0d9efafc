import Verif.Spec.Base64
import Verif.Base

/-!
Specification of what decoding an arbitrary text should give: the digits up to the first character that is not one.
-/

namespace Verif.Spec

/-- the value of a Base64 digit, in either alphabet -/
def digit (c : UInt8) : Nat := ((List.range 64).find? fun v => alphabet false v == c || alphabet true v == c).getD 0

/-- bit `n` of the digits written one after the other, six bits each, most significant first -/
def digitBit (p : List UInt8) (n : Nat) : Nat := if (digit (p.getD (n / 6) 0)).testBit (5 - n % 6) then 1 else 0

/-- `d` are the whole bytes in the bits of the digits `p` -/
def DecodesTo (p d : List UInt8) : Prop :=
  d.length = 6 * p.length / 8 ∧ ∀ n, n < 8 * d.length → msbBit d n = digitBit p n

/-- The outcome of decoding a text, which consists of the digits `p`, possibly a character `c` that is not a digit, and more:
without `c`, whole groups of four digits decode to their bytes and anything else is read beyond its end; if `c` is a
padding character in the third or fourth place of its group, the digits decode to their whole bytes (the rest of the text is
ignored); every other `c` is an error. -/
def DecodeOutcome (e : List UInt8) (r : Res (List UInt8)) : Prop :=
  let p := e.takeWhile isAlpha
  match e.drop p.length with
  | [] => if p.length % 4 = 0 then ∃ d, r = .ok d ∧ DecodesTo p d else r = .ub
  | c :: _ => if 2 ≤ p.length % 4 ∧ (c = padChar false ∨ c = padChar true) then ∃ d, r = .ok d ∧ DecodesTo p d
    else r = .throw .runtimeError

end Verif.Spec
