import Verif.Spec.Msk
import Verif.Model.MskMemory

/-!
Specification vocabulary for C83: what the lines of an MSK file hold, and what is left of it when memory requests fail.
Only the names of the program points (`Point`) come from the model.
-/

namespace Verif.Spec.MskMem
open Verif Spec.Msk Msk.Mem

/-- What a line holds: the boxes of its `BB` and `REC` sections, which keywords occur in it, and whether its title is readable. -/
structure Line where
  bb : Option Item := none
  rect : Option Item := none
  hasBB : Bool := false
  hasRec : Bool := false
  hasTitle : Bool := false
  title : Bool := false
deriving DecidableEq, Repr

/-- The text `l` of a line holds `p`. -/
structure Holds (l : List UInt8) (p : Line) : Prop where
  bb : BBGives (strip l) p.bb
  rect : RecGives (strip l) p.rect
  fine : TitleFine (strip l)
  hasBB : p.hasBB = true ↔ bytes "BB" <:+: strip l
  hasRec : p.hasRec = true ↔ bytes "REC" <:+: strip l
  hasTitle : p.hasTitle = true ↔ bytes "TITLE" <:+: strip l
  title : p.title = true ↔ p.hasTitle = true ∧ ∀ t, CText (strip l) t → ¬ Unreadable (bytes "TITLE") t

/-- Some object a line needs cannot be made: `new` fails for a keyword that occurs in it. -/
def stops (fails : Point → Bool) (k : Nat) (p : Line) : Bool :=
  p.hasBB && fails (.newObject k .bb) || p.hasRec && fails (.newObject k .rect) || p.hasTitle && fails (.newObject k .title)

/-- Reading breaks off: at some line that is reached (no `getline` before it fails, nor does it itself) an object cannot be made. -/
def aborts (fails : Point → Bool) : Nat → List Line → Bool
  | _, [] => false
  | k, p :: ps => !fails (.getline k) && (stops fails k p || aborts fails (k + 1) ps)

/-- What becomes of the box of a section: nothing, if its coordinates or its entry in the layer cannot be stored; otherwise it is in
its layer, and in the element (`true`) unless that entry cannot be stored (`false`). -/
def boxIn (fails : Point → Bool) (k : Nat) (part : Part) : Option Item → List (Item × Bool)
  | none => []
  | some i => if fails (.fill k part) || fails (.layer k part) then [] else [(i, !fails (.element k part))]

/-- What becomes of the boxes of a file. -/
def boxes (fails : Point → Bool) : Nat → List Line → List (Item × Bool)
  | _, [] => []
  | k, p :: ps => if fails (.getline k) then [] else boxIn fails k .bb p.bb ++ boxIn fails k .rect p.rect ++ boxes fails (k + 1) ps

/-- The boxes the element lists. -/
def delivered (fails : Point → Bool) (ps : List Line) : List Item := ((boxes fails 0 ps).filter Prod.snd).map Prod.fst

/-- The number of titles whose text object is made and filled, before reading ends or breaks off. -/
def titles (fails : Point → Bool) : Nat → List Line → Nat
  | _, [] => 0
  | k, p :: ps =>
    if fails (.getline k) || stops fails k p then 0
    else (if p.title && !fails (.fill k .title) then 1 else 0) + titles fails (k + 1) ps

/-- One of the requests before the first line of the file fails. -/
def early (fails : Point → Bool) : Bool :=
  fails .pathString || fails .openStream || fails .newLibrary || fails .newElement || fails .layoutName || fails .elementName ||
    fails .libraryName

/-- Between `s` and `s'` nothing was added to the memory but the objects `new`, and nothing removed. -/
def Grew (s s' : St) (new : List Nat) : Prop := new.Nodup ∧ (∀ a ∈ new, s.next ≤ a) ∧ ∀ a, s'.live a = true ↔ s.live a = true ∨ a ∈ new

/-- the pointers in the layers with number `n` -/
def layerPointers (l : LibObj) (n : Int) : List Nat := (l.layers.filter fun y => y.layer = n).flatMap LayerObj.geometries

/-- The objects and the list of libraries that were there before are as before. -/
structure Untouched (s s' : St) : Prop where
  libs : ∀ b, b < s.next → s'.libs b = s.libs b
  elems : ∀ b, b < s.next → s'.elems b = s.elems b
  geos : ∀ b, b < s.next → s'.geos b = s.geos b

/-- The situation: the reader is set to a file with the given content (by an accepted `IsMyFormat`) and the names can be converted;
it has not yet read anything successfully; addresses from `next` on are unused. -/
structure Ready (env : Msk.Env) (s : St) (content ename lname : List UInt8) : Prop where
  stuck : s.stuck = false
  file : env.fs (Msk.narrow s.fileName) = some content
  ename : env.utf8 (Msk.elemName s.fileName) = some ename
  lname : env.utf8 s.fileName = some lname
  library : s.activeLibrary = none
  element : s.activeElement = none
  fresh : ∀ a, s.next ≤ a → s.live a = false

/-- `Read` (from `s` to `s'`) delivered a library `lib` with an element `el`.  `P`: the boxes that were put in a layer, with their
addresses, and whether the element lists them too; `T`: text objects nobody refers to. -/
structure Outcome (s s' : St) (ename lname : List UInt8) (lib el : Nat) (P : List (Nat × Item × Bool)) (T : List Nat) : Prop where
  fileName : s'.data.fileName = s.fileName
  fileFormat : s'.data.fileFormat = .msk
  libraries : s'.data.libraries = s.data.libraries ++ [lib]
  libName : (s'.libs lib).name = lname
  elements : (s'.libs lib).elements = [el]
  elName : (s'.elems el).name = ename
  /-- no box and no text is stored twice -/
  nodup : (P.map Prod.fst ++ T).Nodup
  boxes : ∀ p ∈ P, s'.geos p.1 = p.2.1.box
  geometries : (s'.elems el).geometries = (P.filter fun p => p.2.2).map Prod.fst
  layers : ∀ n, (layerPointers (s'.libs lib) n).Perm ((P.filter fun p => p.2.1.box.layer = n).map Prod.fst)
  text : ∀ a ∈ T, (s'.geos a).type = .text
  /-- the memory holds the library, the element, the boxes it lists, and the texts -/
  memory : Grew s s' (lib :: el :: ((P.filter fun p => p.2.2).map Prod.fst ++ T))
  dangling : ∀ p ∈ P, p.2.2 = false → s'.live p.1 = false

end Verif.Spec.MskMem
