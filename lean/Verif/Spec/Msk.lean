import Verif.Model.LayoutData
import Mathlib.Data.Nat.Digits.Defs

/-!
Specification vocabulary for C42 and C43: what the text of an MSK file means.  Nothing here refers to the
reader or to `sscanf`; the grammar is stated on the characters of a line.
-/

namespace Verif.Spec.Msk
open Verif

/-- white space only -/
def Blank (s : List UInt8) : Prop := ∀ c ∈ s, c.toNat = 32 ∨ (9 ≤ c.toNat ∧ c.toNat ≤ 13)

/-- a decimal digit -/
def IsDig (c : UInt8) : Prop := 48 ≤ c.toNat ∧ c.toNat ≤ 57

/-- a non-empty digit string -/
def Digits (s : List UInt8) : Prop := s ≠ [] ∧ ∀ c ∈ s, IsDig c

/-- the number a digit string denotes, most significant digit first -/
def value (s : List UInt8) : Nat := Nat.ofDigits 10 (s.reverse.map fun c => c.toNat - 48)

/-- `s` is a decimal integer with optional sign, of value `v` -/
inductive IsInt : List UInt8 → Int → Prop
  | plain {ds} : Digits ds → IsInt ds (value ds)
  | plus {ds} : Digits ds → IsInt (43 :: ds) (value ds)
  | minus {ds} : Digits ds → IsInt (45 :: ds) (-(value ds : Int))

/-- an integer with white space in front -/
def Field (s : List UInt8) (v : Int) : Prop := ∃ sp t, s = sp ++ t ∧ Blank sp ∧ IsInt t v

/-- `s` does not begin with a digit -/
def NoDigit (s : List UInt8) : Prop := ∀ c ∈ s.head?, ¬ IsDig c

/-- no integer can be read from the beginning of `s` -/
def NoField (s : List UInt8) : Prop := ¬ ∃ f v r, s = f ++ r ∧ Field f v

/-- `Reads n s vs`: the integers `vs` are read from the beginning of `s`, separated by commas, at most `n` -/
inductive Reads : Nat → List UInt8 → List Int → Prop
  | none {n s} : NoField s → Reads (n + 1) s []
  | last {n f v r} : Field f v → NoDigit r → (n = 0 ∨ ∀ c ∈ r.head?, c ≠ 44) → Reads (n + 1) (f ++ r) [v]
  | more {n f v s vs} : Field f v → Reads (n + 1) s vs → Reads (n + 2) (f ++ 44 :: s) (v :: vs)

/-- the text of a line as a C string: what comes before the first NUL -/
def CText (l t : List UInt8) : Prop := 0 ∉ t ∧ (l = t ∨ ∃ r, l = t ++ 0 :: r)

/-- `t` differs from the keyword `k` in a character that is there -/
def Differs (k t : List UInt8) : Prop := ∃ i, i < k.length ∧ i < t.length ∧ t[i]? ≠ k[i]?

/-- the layer numbers of the MSK format -/
inductive LayerOf : String → Int → Prop
  | title : LayerOf "TITLE" (-6)
  | bb : LayerOf "BB" (-5)
  | vi : LayerOf "VI" (-4)
  | nw : LayerOf "NW" 1
  | dn : LayerOf "DN" 16
  | dp : LayerOf "DP" 17
  | po : LayerOf "PO" 13
  | co : LayerOf "CO" 19
  | me : LayerOf "ME" 23
  | m2 : LayerOf "M2" 27
  | m3 : LayerOf "M3" 34
  | m4 : LayerOf "M4" 36
  | m5 : LayerOf "M5" 53
  | m6 : LayerOf "M6" 55

/-- the bytes of an ASCII string -/
def bytes (s : String) : List UInt8 := s.toList.map fun c => UInt8.ofNat c.toNat

/-- the layer name of a rectangle: the last field with one closing bracket removed -/
def LayerName (tok name : List UInt8) : Prop := tok = name ++ [41] ∨ (tok = name ∧ tok.getLast? ≠ some 41)

/-- the rectangle with two opposite corners, as a closed outline from the corner (left, top) -/
def boxOf (x1 y1 x2 y2 layer : Int) : Geometry :=
  { type := .rectangle, layer := layer, coords := [⟨x1, y2⟩, ⟨x2, y2⟩, ⟨x2, y1⟩, ⟨x1, y1⟩, ⟨x1, y2⟩],
    min := ⟨min x1 x2, min y1 y2⟩, max := ⟨max x1 x2, max y1 y2⟩ }

/-- what a line contributes: a box, and whether it came from a `BB` line -/
structure Item where
  isBB : Bool
  name : List UInt8
  box : Geometry
deriving DecidableEq, Repr

/-- a complete rectangle line `REC(x,y,w,h,tok`: the layer field ends at white space or at the end -/
def RecLine (t : List UInt8) (x y w h : Int) (tok : List UInt8) : Prop :=
  ∃ a b c d sp rest, t = bytes "REC(" ++ (a ++ 44 :: (b ++ 44 :: (c ++ 44 :: (d ++ 44 :: (sp ++ tok ++ rest))))) ∧
    Field a x ∧ Field b y ∧ Field c w ∧ Field d h ∧ Blank sp ∧ tok ≠ [] ∧ (∀ e ∈ tok, ¬ Blank [e]) ∧
    ∀ e ∈ rest.head?, Blank [e]

/-- the numbers of a rectangle line fit, and so do the layer name and the opposite corner -/
def RecFits (x y w h : Int) (tok : List UInt8) : Prop :=
  inI32 x ∧ inI32 y ∧ inI32 w ∧ inI32 h ∧ inI32 (x + w) ∧ inI32 (y + h) ∧ tok.length < 8

/-- nothing at all can be read: a wrong character in the keyword, or something that is not a number after it -/
def Unreadable (k t : List UInt8) : Prop :=
  Differs k t ∨ ∃ u, t = k ++ u ∧ NoField u ∧ ¬ Blank u

/-- what the `REC` part of a line contributes -/
inductive RecGives (l : List UInt8) : Option Item → Prop
  | absent : ¬ bytes "REC" <:+: l → RecGives l none
  | unreadable {t} : CText l t → Unreadable (bytes "REC(") t → RecGives l none
  | unknown {t x y w h tok name} : CText l t → RecLine t x y w h tok → RecFits x y w h tok → LayerName tok name →
      (¬ ∃ s n, LayerOf s n ∧ name = bytes s) → RecGives l none
  | known {t x y w h tok name s n} : bytes "REC" <:+: l → CText l t → RecLine t x y w h tok → RecFits x y w h tok →
      LayerName tok name → LayerOf s n → name = bytes s →
      RecGives l (some ⟨false, name, boxOf x y (x + w) (y + h) n⟩)

/-- the `BB` item with the given corners; missing numbers count as 0 -/
def bbItem (vs : List Int) : Item :=
  ⟨true, bytes "BB", boxOf (vs.getD 0 0) (vs.getD 1 0) (vs.getD 2 0) (vs.getD 3 0) (-5)⟩

/-- the numbers of a `BB` line and its extent fit -/
def BBFits (vs : List Int) : Prop :=
  (∀ v ∈ vs, inI32 v) ∧ inI32 (vs.getD 2 0 - vs.getD 0 0) ∧ inI32 (vs.getD 3 0 - vs.getD 1 0)

/-- what the `BB` part of a line contributes -/
inductive BBGives (l : List UInt8) : Option Item → Prop
  | absent : ¬ bytes "BB" <:+: l → BBGives l none
  | unreadable {t} : CText l t → Unreadable (bytes "BB(") t → BBGives l none
  | cut {t} : bytes "BB" <:+: l → CText l t → t <+: bytes "BB(" → BBGives l (some (bbItem []))
  | read {t u vs} : bytes "BB" <:+: l → CText l t → t = bytes "BB(" ++ u → Reads 4 u vs → (vs = [] → Blank u) → BBFits vs →
      BBGives l (some (bbItem vs))

/-- a title line that overflows: one of its two numbers does not fit, or its text has 64 characters or more -/
inductive TitleOverflow (t : List UInt8) : Prop
  | first {a v r} : t = bytes "TITLE" ++ (a ++ r) → Field a v → NoDigit r → ¬ inI32 v → TitleOverflow t
  | second {a v b w r} : t = bytes "TITLE" ++ (a ++ (b ++ r)) → Field a v → inI32 v → NoDigit b → Field b w → NoDigit r →
      ¬ inI32 w → TitleOverflow t
  | text {a v b w sp sp' tok r} : t = bytes "TITLE" ++ (a ++ (b ++ (sp ++ 35 :: (sp' ++ (tok ++ r))))) → Field a v → inI32 v →
      NoDigit b → Field b w → inI32 w → Blank sp → Blank sp' → (∀ e ∈ tok, ¬ Blank [e]) → tok.length = 64 → TitleOverflow t

/-- the `TITLE` part of a line is harmless -/
def TitleFine (l : List UInt8) : Prop :=
  bytes "TITLE" <:+: l → ∀ t, CText l t → ¬ TitleOverflow t

/-- the line without carriage returns -/
def strip (l : List UInt8) : List UInt8 := l.filter fun c => c ≠ 13

/-- what a line of the file contributes -/
def LineGives (l : List UInt8) (items : List Item) : Prop :=
  ∃ o1 o2, BBGives (strip l) o1 ∧ RecGives (strip l) o2 ∧ TitleFine (strip l) ∧ items = o1.toList ++ o2.toList

/-- `content` consists of these lines: each ended by a line feed, except that the last one may lack it if it is
not empty -/
inductive Lines : List UInt8 → List (List UInt8) → Prop
  | nil : Lines [] []
  | last {l} : l ≠ [] → 10 ∉ l → Lines l [l]
  | cons {l s ls} : 10 ∉ l → Lines s ls → Lines (l ++ 10 :: s) (l :: ls)

/-- the layer numbers in the order in which the library lists them: a `BB` line always opens a new layer, a
rectangle only if its number has not occurred yet -/
def layerOrder : List Int → List Item → List Int
  | _, [] => []
  | seen, i :: is =>
    if i.isBB ∨ i.box.layer ∉ seen then i.box.layer :: layerOrder (i.box.layer :: seen) is
    else layerOrder seen is

end Verif.Spec.Msk

namespace Verif.Spec.Msk

/-- a natural number in decimal -/
def decimalNat (n : Nat) : List UInt8 :=
  if n = 0 then [48] else (Nat.digits 10 n).reverse.map fun d => UInt8.ofNat (48 + d)

/-- an integer in decimal -/
def decimal (v : Int) : List UInt8 :=
  if v < 0 then 45 :: decimalNat v.natAbs else decimalNat v.natAbs

/-- a rectangle to be written: corner, size and layer name -/
structure Rect where
  x : Int
  y : Int
  w : Int
  h : Int
  layer : String
deriving DecidableEq, Repr

/-- the rectangle as a line `REC(x,y,w,h,layer)` -/
def Rect.text (r : Rect) : List UInt8 :=
  bytes "REC(" ++ decimal r.x ++ bytes "," ++ decimal r.y ++ bytes "," ++ decimal r.w ++ bytes "," ++ decimal r.h ++
    bytes "," ++ bytes r.layer ++ bytes ")"

/-- a header line followed by the rectangles, every line ended by `eol` -/
def fileText (eol header : List UInt8) (rs : List Rect) : List UInt8 :=
  header ++ eol ++ (rs.map fun r => r.text ++ eol).flatten

/-- the box of `g` is the smallest one around the boxes of `gs` -/
structure Encloses (mn mx : Coord) (gs : List Geometry) : Prop where
  left : ∀ g ∈ gs, mn.x ≤ g.min.x
  bottom : ∀ g ∈ gs, mn.y ≤ g.min.y
  right : ∀ g ∈ gs, g.max.x ≤ mx.x
  top : ∀ g ∈ gs, g.max.y ≤ mx.y
  left_hit : ∃ g ∈ gs, mn.x = g.min.x
  bottom_hit : ∃ g ∈ gs, mn.y = g.min.y
  right_hit : ∃ g ∈ gs, mx.x = g.max.x
  top_hit : ∃ g ∈ gs, mx.y = g.max.y

end Verif.Spec.Msk

namespace Verif.Spec.Msk

/-- a letter, digit or underscore -/
def WordChar (c : UInt8) : Prop :=
  (48 ≤ c.toNat ∧ c.toNat ≤ 57) ∨ (65 ≤ c.toNat ∧ c.toNat ≤ 90) ∨ (97 ≤ c.toNat ∧ c.toNat ≤ 122) ∨ c.toNat = 95

/-- the name ends with a word character followed by `.msk` in upper or lower case -/
def MskName (s : List UInt8) : Prop :=
  ∃ p w m k x, s = p ++ [w, 46, m, k, x] ∧ WordChar w ∧ (m = 109 ∨ m = 77) ∧ (k = 115 ∨ k = 83) ∧ (x = 107 ∨ x = 75)

end Verif.Spec.Msk
