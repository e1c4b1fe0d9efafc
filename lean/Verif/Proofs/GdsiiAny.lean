import Verif.Proofs.GdsiiParse2
import Verif.Spec.GdsiiAny

/-! The record loop of the GDSII reader on arbitrary files. -/

namespace Verif.Gds
open Verif Spec.Gdsii

/-! ### what one record does -/

/-- an assignment to the geometry `g` that keeps it good -/
structure Keeps (g : Geometry) (f : Geometry → Geometry) : Prop where
  type : (f g).type = g.type
  good : GoodGeometry g → GoodGeometry (f g)

/-- the effect of one record on everything but the stream -/
inductive Eff (p : PS) : PS → Prop
  | skip (s : Strm) : Eff p { p with file := s }
  | newLib (s : Strm) : p.lib = none → Eff p { p with file := s, libs := p.libs ++ [some ({} : Library)], lib := some p.libs.length }
  | onLib (s : Strm) (f : Library → Library) : p.inLib = true → (∀ l, (f l).elements = l.elements) → (∀ l, GoodLibrary l → GoodLibrary (f l)) →
      Eff p ({ p with file := s }.onLib f)
  | endLib : Eff p { p with lib := none }
  | newElem (s : Strm) : p.inLib = true →
      Eff p { p with file := s, heap := fun b => if b = p.next then {} else p.heap b, elem := some p.next, next := p.next + 1 }
  | name (s : Strm) (n : List UInt8) : p.inElem = true → 0 ∉ n → Eff p ({ p with file := s }.onElem fun (e : Element) => { e with name := n })
  | endStr (a : Nat) (e : Element) : p.inElem = true → p.elem = some a → elemBox (p.heap a) = .ok e →
      Eff p { (p.onElem fun _ => e).onLib (fun (l : Library) => { l with elements := l.elements ++ [some a] }) with elem := none }
  | newGeom (t : GType) (f : Element → Element) : p.inElem = true → t ≠ .undefined →
      (∀ e, f e = { e with geometries := e.geometries ++ [some { type := t }], isFlat := e.isFlat && decide (t ≠ .reference) }) →
      Eff p { p.onElem f with geom := true }
  | onGeom (s : Strm) (f : Geometry → Geometry) : p.inGeom = true → Keeps p.theGeom f → Eff p ({ p with file := s }.onGeom f)
  | endGeom : p.inGeom = true → Eff p { p with geom := false }

theorem fits16_toInt (v : BitVec 16) : Fits16 v.toInt := by
  have h1 := BitVec.toInt_lt (x := v)
  have h2 := BitVec.le_toInt (x := v)
  unfold Fits16
  constructor <;> omega

theorem readWord_fits (old : Int) (s : Strm) : Fits16 (readWord old s).1 := fits16_toInt _

theorem normalizeDword_fits {u v : BitVec 32} (h : normalizeDword u = .ok v) : Fits32 v.toInt := by
  rw [normalizeDword_eq] at h
  dsimp only at h
  split at h
  · cases h
  · rename_i hne
    have h1 := BitVec.toInt_lt (x := v)
    have h2 := BitVec.le_toInt (x := v)
    have e := Res.ok.inj h
    rw [e] at hne
    have h3 : v.toInt ≠ -2147483648 := by
      intro hc
      apply hne
      apply BitVec.eq_of_toInt_eq
      rw [hc]
      decide
    unfold Fits32
    constructor <;> omega

theorem readDword_fits {old : Int} {s : Strm} {x : Int × Strm} (h : readDword old s = .ok x) : Fits32 x.1 := by
  unfold readDword at h
  dsimp only at h
  cases hn : normalizeDword (dwordOf (rd id 4 (dwordBytes (BitVec.ofInt 32 old)) s).1) with
  | ok v => rw [hn, Res.ok_bind] at h; cases h; exact normalizeDword_fits hn
  | throw e => rw [hn] at h; cases h
  | ub => rw [hn] at h; cases h

theorem bind_ok {α β : Type} {x : Res α} {f : α → Res β} {b : β} (h : (x >>= f) = .ok b) : ∃ a, x = .ok a ∧ f a = .ok b := by
  cases x with
  | ok a => exact ⟨a, rfl, h⟩
  | throw e => cases h
  | ub => cases h

theorem readCoord_fits {old : Coord} {s : Strm} {x : Coord × Strm} (h : readCoord old s = .ok x) : FitsC x.1 := by
  unfold readCoord at h
  obtain ⟨a, h1, h⟩ := bind_ok h
  obtain ⟨b, h2, h⟩ := bind_ok h
  cases h
  exact ⟨normalizeDword_fits h1, normalizeDword_fits h2⟩

theorem readCoords_fits (n : Nat) {old : Coord} {s : Strm} {x : List Coord × Strm} (h : readCoords n old s = .ok x) : ∀ c ∈ x.1, FitsC c := by
  induction n generalizing old s x with
  | zero => cases h; simp
  | succ n ih =>
    rw [readCoords] at h
    obtain ⟨a, h1, h⟩ := bind_ok h
    obtain ⟨b, h2, h⟩ := bind_ok h
    cases h
    intro c hc
    rcases List.mem_cons.1 hc with rfl | hc
    · exact readCoord_fits h1
    · exact ih h2 c hc

theorem readString_good (n : Nat) (s : Strm) : 0 ∉ (readString n s).1 := by
  intro h
  have := List.all_takeWhile (p := fun c : UInt8 => decide (c ≠ 0)) (l := (rd id n (List.replicate n 0) s).1)
  rw [List.all_eq_true] at this
  have h2 := this 0 h
  simp at h2

theorem readWordNew_fits {s : Strm} {x : Int × Strm} (h : readWordNew s = .ok x) : Fits16 x.1 := by
  unfold readWordNew at h
  split at h
  · cases h
  · cases h; exact readWord_fits _ _

theorem geomBox_box (g : Geometry) : geomBox g = { g with min := (geomBox g).min, max := (geomBox g).max } ∧
    (g.coords ≠ [] → (geomBox g).min = lowest g.coords ∧ (geomBox g).max = highest g.coords) := by
  obtain ⟨t, la, co, mi, ma⟩ := g
  unfold geomBox
  cases co with
  | nil => exact ⟨rfl, fun h => absurd rfl h⟩
  | cons c cs =>
    dsimp only
    rw [foldl_bbox]
    exact ⟨rfl, fun _ => ⟨rfl, rfl⟩⟩

theorem geomBox_type (g : Geometry) : (geomBox g).type = g.type := by rw [(geomBox_box g).1]

theorem geomBox_good (g h : Geometry) (hg : GoodGeometry g) (cs : List Coord) (hc : ∀ c ∈ cs, FitsC c) (hh : h = { g with coords := cs }) :
    GoodGeometry (geomBox h) := by
  subst hh
  obtain ⟨h1, h2⟩ := geomBox_box { g with coords := cs }
  generalize geomBox { g with coords := cs } = k at h1 h2
  rw [h1]
  exact { typed := hg.typed, element := hg.element, layer := hg.layer, coords := hc, box := h2, dataType := hg.dataType, width := hg.width, pathType := hg.pathType, textType := hg.textType, presentation := hg.presentation, transformation := hg.transformation, magnification := hg.magnification, string := hg.string, refName := hg.refName, rectType := hg.rectType, properties := hg.properties }

theorem theGeom_file (p : PS) (s : Strm) : { p with file := s }.theGeom = p.theGeom := rfl

/-- what a record does to the stream: it only ever consumes, and once at the end nothing changes any more -/
def Consumes (s s1 : Strm) : Prop := s1.rest <:+ s.rest

theorem Consumes.length {s s1 : Strm} (h : Consumes s s1) : s1.rest.length ≤ s.rest.length := List.IsSuffix.length_le h

theorem consumes_rd {α : Type} (f : UInt8 → α) (n : Nat) (old : List α) (s : Strm) : Consumes s (rd f n old s).2 := by
  unfold rd Consumes
  split
  · exact List.suffix_refl _
  · split
    · exact List.nil_suffix
    · exact List.drop_suffix _ _

theorem newGeom_eff {p p1 : PS} (t : GType) (ht : t ≠ .undefined) (h : secNewGeom t p = .ok p1) (hr : t ≠ .reference) : Eff p p1 := by
  unfold secNewGeom at h
  split at h
  · rename_i hl
    cases h
    exact .newGeom t _ hl ht (fun e => by simp [hr])
  · cases h; exact .skip _

theorem dispatch_eff (env : Env) (r : Rec) (p p1 : PS) (h : dispatch env r p = .ok p1) : Eff p p1 := by
  unfold dispatch at h
  split at h
  · -- HEADER
    cases h; exact .skip _
  · -- BGNLIB
    unfold secBgnLib at h
    split at h
    · cases h; exact .skip _
    · rename_i hl
      obtain ⟨s, h1, h⟩ := bind_ok h
      cases h
      exact .newLib s (by simpa using hl)
  · -- LIBNAME
    unfold secLibName at h
    split at h
    · rename_i hl
      cases h
      refine .onLib _ _ hl (fun _ => rfl) (fun l hl => ⟨readString_good _ _, hl.2, hl.3, hl.4⟩)
    · cases h; exact .skip _
  · -- UNITS
    unfold secUnits at h
    split at h
    · rename_i hl
      split at h
      · cases h; exact .skip _
      · split at h
        · obtain ⟨u, h1, h⟩ := bind_ok h
          obtain ⟨v, h2, h⟩ := bind_ok h
          cases h
          exact .onLib _ _ hl (fun _ => rfl) (fun l hl => ⟨hl.1, hl.2, hl.3, hl.4⟩)
        · cases h
    · cases h; exact .skip _
  · -- ENDLIB
    cases h; exact .endLib
  · -- BGNSTR
    unfold secBgnStr at h
    split at h
    · rename_i hl
      obtain ⟨s, h1, h⟩ := bind_ok h
      cases h
      exact .newElem s hl
    · cases h; exact .skip _
  · -- STRNAME
    unfold secStrName at h
    split at h
    · rename_i hl
      cases h
      exact .name _ _ hl (readString_good _ _)
    · cases h; exact .skip _
  · -- ENDSTR
    unfold secEndStr at h
    split at h
    · rename_i hl
      split at h
      · cases h; exact .skip _
      · rename_i a ha
        obtain ⟨e, h1, h⟩ := bind_ok h
        cases h
        exact .endStr a e hl ha h1
    · cases h; exact .skip _
  · exact newGeom_eff _ (by decide) h (by decide)
  · exact newGeom_eff _ (by decide) h (by decide)
  · -- SREF
    unfold secSref at h
    split at h
    · rename_i hl
      cases h
      exact .newGeom .reference _ hl (by decide) (fun e => by simp)
    · cases h; exact .skip _
  · exact newGeom_eff _ (by decide) h (by decide)
  · -- LAYER
    unfold secLayer at h
    split at h
    · rename_i hl
      cases h
      exact .onGeom _ _ hl ⟨rfl, fun hg => { hg with layer := readWord_fits _ _ }⟩
    · cases h; exact .skip _
  · -- DATATYPE
    unfold secDataType at h
    split at h
    · rename_i hl
      cases h
      refine .onGeom _ _ hl ⟨by split <;> rfl, fun hg => ?_⟩
      split
      · rename_i ht
        exact { hg with dataType := ⟨readWord_fits _ _, ht.elim .inl fun h => .inr (.inl h)⟩ }
      · exact hg
    · cases h; exact .skip _
  · -- WIDTH
    unfold secWidth at h
    split at h
    · rename_i hl
      obtain ⟨x, h1, h⟩ := bind_ok h
      cases h
      refine .onGeom _ _ hl ⟨by split <;> rfl, fun hg => ?_⟩
      split
      · rename_i ht
        exact { hg with width := ⟨readDword_fits h1, ht.elim .inl fun h => .inr (.inl h)⟩ }
      · exact hg
    · cases h; exact .skip _
  · -- XY
    unfold secXy at h
    split at h
    · rename_i hl
      have many : (do
          let x ← readCoords (r.length / 8) ⟨0, 0⟩ p.file
          pure ({ p with file := x.2 }.onGeom fun (g : Geometry) => geomBox { g with coords := x.1 })) = Res.ok p1 → Eff p p1 := by
        intro h
        obtain ⟨x, h1, h⟩ := bind_ok h
        cases h
        exact .onGeom _ _ hl ⟨geomBox_type _, fun hg => geomBox_good _ _ hg x.1 (readCoords_fits _ h1) rfl⟩
      have one : (do
          let x ← readCoord ⟨0, 0⟩ p.file
          pure ({ p with file := x.2 }.onGeom fun (g : Geometry) => geomBox { g with coords := g.coords ++ [x.1] })) = Res.ok p1 → Eff p p1 := by
        intro h
        obtain ⟨x, h1, h⟩ := bind_ok h
        cases h
        refine .onGeom _ _ hl ⟨geomBox_type _, fun hg => geomBox_good _ _ hg _ ?_ rfl⟩
        intro c hc
        rcases List.mem_append.1 hc with hc | hc
        · exact hg.coords c hc
        · rw [List.mem_singleton.1 hc]; exact readCoord_fits h1
      split at h
      · exact many h
      · exact many h
      · exact many h
      · exact one h
      · exact one h
      · cases h
        exact .onGeom p.file _ hl ⟨geomBox_type _, fun hg => geomBox_good _ _ hg _ hg.coords rfl⟩
    · cases h; exact .skip _
  · -- ENDEL
    unfold secEndEl at h
    split at h
    · rename_i hl
      cases h
      exact .endGeom hl
    · cases h; exact .skip _
  · -- SNAME
    unfold secSname at h
    split at h
    · rename_i hl
      rw [Bool.and_eq_true, decide_eq_true_iff] at hl
      cases h
      exact .onGeom _ _ hl.1 ⟨rfl, fun hg => { hg with refName := ⟨readString_good _ _, .inl hl.2⟩ }⟩
    · cases h; exact .skip _
  · -- TEXTTYPE
    unfold secTextType at h
    split at h
    · rename_i hl
      rw [Bool.and_eq_true, decide_eq_true_iff] at hl
      obtain ⟨x, h1, h⟩ := bind_ok h
      cases h
      exact .onGeom _ _ hl.1 ⟨rfl, fun hg => { hg with textType := ⟨readWordNew_fits h1, .inl hl.2⟩ }⟩
    · cases h; exact .skip _
  · -- PRESENTATION
    unfold secPresentation at h
    split at h
    · rename_i hl
      rw [Bool.and_eq_true, decide_eq_true_iff] at hl
      obtain ⟨x, h1, h⟩ := bind_ok h
      cases h
      exact .onGeom _ _ hl.1 ⟨rfl, fun hg => { hg with presentation := ⟨readWordNew_fits h1, .inl hl.2⟩ }⟩
    · cases h; exact .skip _
  · -- STRING
    unfold secString at h
    split at h
    · rename_i hl
      rw [Bool.and_eq_true, decide_eq_true_iff] at hl
      cases h
      exact .onGeom _ _ hl.1 ⟨rfl, fun hg => { hg with string := ⟨readString_good _ _, .inl hl.2⟩ }⟩
    · cases h; exact .skip _
  · -- STRANS
    unfold secStrans at h
    split at h
    · rename_i hl
      obtain ⟨x, h1, h⟩ := bind_ok h
      cases h
      refine .onGeom _ _ hl ⟨by split <;> rfl, fun hg => ?_⟩
      split
      · rename_i ht
        exact { hg with transformation := ⟨readWordNew_fits h1, .inl ht⟩ }
      · exact hg
    · cases h; exact .skip _
  · -- MAG
    unfold secMag at h
    split at h
    · rename_i hl
      obtain ⟨m, h1, h⟩ := bind_ok h
      cases h
      refine .onGeom _ _ hl ⟨by split <;> rfl, fun hg => ?_⟩
      split
      · rename_i ht
        exact { hg with magnification := ht.elim (fun h => .inr (.inl h)) .inl }
      · exact hg
    · cases h; exact .skip _
  · -- PATHTYPE
    unfold secPathType at h
    split at h
    · rename_i hl
      obtain ⟨x, h1, h⟩ := bind_ok h
      cases h
      refine .onGeom _ _ hl ⟨by split <;> rfl, fun hg => ?_⟩
      split
      · rename_i ht
        exact { hg with pathType := ⟨readWordNew_fits h1, ht.elim .inl fun h => .inr (.inl h)⟩ }
      · exact hg
    · cases h; exact .skip _
  · -- PROPATTR
    unfold secPropAttr at h
    split at h
    · rename_i hl
      split at h
      · cases h; exact .skip _
      · rename_i hp
        cases h
        refine .onGeom _ _ hl ⟨rfl, fun hg => ?_⟩
        have : p.theGeom.properties = [] := by
          rcases hg.properties with h | ⟨k, _, h⟩
          · exact h
          · exact absurd (by rw [h]; rfl) (hp k)
        exact { hg with properties := .inr ⟨_, readWord_fits 0 p.file, by rw [this]; rfl⟩ }
    · cases h; exact .skip _
  · exact newGeom_eff _ (by decide) h (by decide)
  · -- BOXTYPE
    unfold secBoxType at h
    split at h
    · rename_i hl
      rw [Bool.and_eq_true, decide_eq_true_iff] at hl
      cases h
      exact .onGeom _ _ hl.1 ⟨rfl, fun hg => { hg with rectType := ⟨readWord_fits _ _, .inl hl.2⟩ }⟩
    · cases h; exact .skip _
  · cases h; exact .skip _

/-! ### the invariant of the record loop -/

/-- an element that is being read -/
structure Open (e : Element) : Prop where
  name : 0 ∉ e.name
  geometries : ∃ gs : List Geometry, e.geometries = gs.map some ∧ (∀ g ∈ gs, GoodGeometry g) ∧
    e.isFlat = !(gs.any fun g => g.type = .reference)
  box : e.min = ⟨-1, -1⟩ ∧ e.max = ⟨-1, -1⟩
  nested : e.nested = false

/-- The record loop started with the libraries `base`, the elements `heap0` and the next address `n0`; so far it has made
the libraries `ls`. -/
structure Inv (base : List (Option Library)) (heap0 : Elements) (n0 : Nat) (p : PS) (ls : List Library) : Prop where
  libs : p.libs = base ++ ls.map some
  good : ∀ l ∈ ls, GoodLibrary l
  next : n0 ≤ p.next
  owned : elementsOf ls ++ p.elem.toList = List.range' n0 (p.next - n0)
  closed : ∀ a ∈ elementsOf ls, GoodElement (p.heap a)
  opened : ∀ a, p.elem = some a → Open (p.heap a)
  rest : ∀ a, (a < n0 ∨ p.next ≤ a) → p.heap a = heap0 a
  lib : ∀ i, p.lib = some i → ∃ ls' l, ls = ls' ++ [l] ∧ i = base.length + ls'.length

theorem elementsOf_append (a b : List Library) : elementsOf (a ++ b) = elementsOf a ++ elementsOf b := by
  unfold elementsOf; rw [List.flatMap_append]

theorem modify_app {α : Type} (a b : List α) (x : α) (f : α → α) (i : Nat) (h : i = a.length) :
    (a ++ x :: b).modify i f = a ++ f x :: b := by
  subst h
  induction a with
  | nil => rfl
  | cons y a ih =>
    rw [List.length_cons, List.cons_append, List.modify_succ_cons, ih]
    rfl

section inv
variable {base : List (Option Library)} {heap0 : Elements} {n0 : Nat} {p p1 : PS} {ls : List Library}

theorem Inv.fresh (h : Inv base heap0 n0 p ls) {a : Nat} (ha : p.elem = some a) : a ∉ elementsOf ls ∧ n0 ≤ a ∧ a < p.next := by
  have ho := h.owned
  have hn := h.next
  rw [ha, Option.toList_some] at ho
  have h1 : (List.range' n0 (p.next - n0)).Nodup := List.nodup_range'
  rw [← ho] at h1
  have h2 : a ∈ List.range' n0 (p.next - n0) := by rw [← ho]; simp
  rw [List.mem_range'_1] at h2
  refine ⟨fun hm => ?_, h2.1, by omega⟩
  have := (List.nodup_append.1 h1).2.2 a hm a (by simp)
  exact this rfl

/-- an assignment to the open element -/
theorem Inv.onElem (h : Inv base heap0 n0 p ls) (f : Element → Element) (hl : p1.libs = p.libs) (hn : p1.next = p.next) (hi : p1.lib = p.lib)
    (he : p1.elem = p.elem) (hh : ∀ b, p1.heap b = if p.elem = some b then f (p.heap b) else p.heap b)
    (ho : ∀ a, p.elem = some a → Open (p.heap a) → Open (f (p.heap a))) : Inv base heap0 n0 p1 ls := by
  refine ⟨by rw [hl, h.libs], h.good, by rw [hn]; exact h.next, by rw [he, hn]; exact h.owned, ?_, ?_, ?_, by rw [hi]; exact h.lib⟩
  · intro b hb
    rw [hh, if_neg]
    · exact h.closed b hb
    · intro hc
      exact (h.fresh hc).1 hb
  · intro b hb
    rw [he] at hb
    rw [hh, if_pos hb]
    exact ho b hb (h.opened b hb)
  · intro b hb
    rw [hn] at hb
    rw [hh, if_neg]
    · exact h.rest b hb
    · intro hc
      have := h.fresh hc
      omega

theorem onElem_heap (p : PS) (f : Element → Element) (b : Nat) : (p.onElem f).heap b = if p.elem = some b then f (p.heap b) else p.heap b := by
  unfold PS.onElem
  cases h : p.elem with
  | none => simp
  | some a =>
    dsimp only
    by_cases hb : b = a
    · subst hb; simp
    · rw [if_neg hb, if_neg]
      intro hc
      exact hb (Option.some.inj hc).symm

theorem onElem_rest (p : PS) (f : Element → Element) : (p.onElem f).libs = p.libs ∧ (p.onElem f).next = p.next ∧ (p.onElem f).lib = p.lib ∧
    (p.onElem f).elem = p.elem ∧ (p.onElem f).geom = p.geom ∧ (p.onElem f).file = p.file := by
  unfold PS.onElem
  split
  · exact ⟨rfl, rfl, rfl, rfl, rfl, rfl⟩
  · rename_i h; exact ⟨rfl, rfl, rfl, h.symm ▸ rfl, rfl, rfl⟩

theorem onLib_rest (p : PS) (f : Library → Library) : (p.onLib f).heap = p.heap ∧ (p.onLib f).next = p.next ∧ (p.onLib f).lib = p.lib ∧
    (p.onLib f).elem = p.elem ∧ (p.onLib f).geom = p.geom ∧ (p.onLib f).file = p.file := by
  unfold PS.onLib
  split
  · exact ⟨rfl, rfl, rfl, rfl, rfl, rfl⟩
  · rename_i h; exact ⟨rfl, rfl, h.symm ▸ rfl, rfl, rfl, rfl⟩

theorem onLib_libs (p : PS) (f : Library → Library) (base : List (Option Library)) (ls : List Library) (l : Library)
    (h : p.libs = base ++ (ls ++ [l]).map some) (hi : p.lib = some (base.length + ls.length)) :
    (p.onLib f).libs = base ++ (ls ++ [f l]).map some := by
  unfold PS.onLib
  rw [hi]
  dsimp only
  rw [h, List.map_append, List.map_append, ← List.append_assoc, ← List.append_assoc]
  rw [List.map_cons, List.map_cons, modify_app _ _ _ _ _ (by simp)]
  rfl

/-- an assignment to the active library -/
theorem Inv.onLib (h : Inv base heap0 n0 p ls) (f : Library → Library) (he : ∀ l, (f l).elements = l.elements)
    (hg : ∀ l, GoodLibrary l → GoodLibrary (f l)) : ∃ ls1, Inv base heap0 n0 (p.onLib f) ls1 := by
  cases hl : p.lib with
  | none =>
    have : p.onLib f = p := by unfold PS.onLib; rw [hl]
    exact ⟨ls, by rw [this]; exact h⟩
  | some i =>
    obtain ⟨ls', l, rfl, rfl⟩ := h.lib i hl
    obtain ⟨e1, e2, e3, e4, e5, e6⟩ := onLib_rest p f
    have hE : elementsOf (ls' ++ [f l]) = elementsOf (ls' ++ [l]) := by
      rw [elementsOf_append, elementsOf_append]
      unfold elementsOf
      simp only [List.flatMap_cons, he]
    refine ⟨ls' ++ [f l], onLib_libs p f base ls' l h.libs hl, ?_, by rw [e2]; exact h.next, by rw [hE, e4, e2]; exact h.owned, by rw [hE, e1]; exact h.closed,
      by rw [e4, e1]; exact h.opened, by rw [e2, e1]; exact h.rest, ?_⟩
    · intro x hx
      rcases List.mem_append.1 hx with hx | hx
      · exact h.good x (List.mem_append_left _ hx)
      · rw [List.mem_singleton.1 hx]; exact hg l (h.good l (by simp))
    · intro j hj
      rw [e3] at hj
      exact ⟨ls', f l, rfl, by rw [hl] at hj; exact (Option.some.inj hj).symm⟩

/-- an element is finished -/
theorem Inv.endStr (h : Inv base heap0 n0 p ls) (hl : p.inElem = true) (a : Nat) (ha : p.elem = some a) (e : Element)
    (hb : elemBox (p.heap a) = .ok e) :
    ∃ ls1, Inv base heap0 n0 { (p.onElem fun _ => e).onLib (fun (l : Library) => { l with elements := l.elements ++ [some a] }) with elem := none } ls1 := by
  obtain ⟨e1, e2, e3, e4, e5, e6⟩ := onElem_rest p fun _ => e
  obtain ⟨d1, d2, d3, d4, d5, d6⟩ := onLib_rest (p.onElem fun _ => e) (fun (l : Library) => { l with elements := l.elements ++ [some a] })
  cases hi : p.lib with
  | none => unfold PS.inElem at hl; rw [hi] at hl; simp at hl
  | some i =>
    obtain ⟨ls', l, rfl, rfl⟩ := h.lib i hi
    have hL := onLib_libs (p.onElem fun _ => e) (fun (l : Library) => { l with elements := l.elements ++ [some a] }) base ls' l (by rw [e1]; exact h.libs) (by rw [e3]; exact hi)
    have hE : elementsOf (ls' ++ [{ l with elements := l.elements ++ [some a] }]) = elementsOf (ls' ++ [l]) ++ [a] := by
      rw [elementsOf_append, elementsOf_append]
      simp [elementsOf]
    have hf := h.fresh ha
    refine ⟨_, hL, ?_, ?_, ?_, ?_, ?_, ?_, ?_⟩
    · intro x hx
      rcases List.mem_append.1 hx with hx | hx
      · exact h.good x (List.mem_append_left _ hx)
      · rw [List.mem_singleton.1 hx]
        have := h.good l (by simp)
        exact ⟨this.1, by simp [this.2], this.3, this.4⟩
    · dsimp only; rw [d2, e2]; exact h.next
    · dsimp only
      rw [hE, d2, e2, ← h.owned, ha]
      simp
    · rw [hE]
      intro b hb'
      dsimp only
      rw [d1, onElem_heap]
      rcases List.mem_append.1 hb' with hb' | hb'
      · rw [if_neg]
        · exact h.closed b hb'
        · intro hc
          exact (h.fresh hc).1 hb'
      · rw [List.mem_singleton.1 hb', if_pos ha]
        have ho := h.opened a ha
        obtain ⟨gs, g1, g2, g3⟩ := ho.geometries
        rw [elemBox_eq _ gs g1 ho.box.1 ho.box.2] at hb
        have := Res.ok.inj hb
        subst this
        exact ⟨ho.name, ⟨gs, g1, g2, g3, rfl, rfl⟩, ho.nested⟩
    · intro b hb'; cases hb'
    · intro b hb'
      dsimp only at hb' ⊢
      rw [d2, e2] at hb'
      rw [d1, onElem_heap, if_neg]
      · exact h.rest b hb'
      · intro hc
        rw [ha] at hc
        have := Option.some.inj hc
        subst this
        omega
    · intro j hj
      have hj : ((p.onElem fun _ => e).onLib _).lib = some j := hj
      rw [d3, e3, hi] at hj
      exact ⟨ls', _, rfl, (Option.some.inj hj).symm⟩

theorem open_empty : Open {} := ⟨by simp, ⟨[], rfl, by simp, rfl⟩, ⟨rfl, rfl⟩, rfl⟩

theorem good_start (t : GType) (h : t ≠ .undefined) : GoodGeometry { type := t } where
  typed := h
  element := rfl
  layer := by norm_num [Fits16]
  coords := by simp
  box := fun h => absurd rfl h
  dataType := ⟨by norm_num [Fits16], .inr (.inr rfl)⟩
  width := ⟨by norm_num [Fits32], .inr (.inr rfl)⟩
  pathType := ⟨by norm_num [Fits16], .inr (.inr rfl)⟩
  textType := ⟨by norm_num [Fits16], .inr rfl⟩
  presentation := ⟨by norm_num [Fits16], .inr rfl⟩
  transformation := ⟨by norm_num [Fits16], .inr rfl⟩
  magnification := .inr (.inr rfl)
  string := ⟨by simp, .inr rfl⟩
  refName := ⟨by simp, .inr rfl⟩
  rectType := ⟨by norm_num [Fits16], .inr rfl⟩
  properties := .inl rfl

theorem inv_step (h : Inv base heap0 n0 p ls) (he : Eff p p1) : ∃ ls1, Inv base heap0 n0 p1 ls1 := by
  cases he with
  | skip s => exact ⟨ls, h.libs, h.good, h.next, h.owned, h.closed, h.opened, h.rest, h.lib⟩
  | newLib s hn =>
    have hE : elementsOf (ls ++ [({} : Library)]) = elementsOf ls := by
      rw [elementsOf_append]
      simp [elementsOf]
    refine ⟨ls ++ [({} : Library)], ?_, ?_, h.next, by rw [hE]; exact h.owned, by rw [hE]; exact h.closed, h.opened, h.rest, ?_⟩
    · dsimp only
      rw [h.libs, List.map_append, List.append_assoc]
      rfl
    · intro x hx
      rcases List.mem_append.1 hx with hx | hx
      · exact h.good x hx
      · rw [List.mem_singleton.1 hx]; exact ⟨by simp, by simp, rfl, ⟨rfl, rfl⟩⟩
    · intro i hi
      refine ⟨ls, {}, rfl, ?_⟩
      have := Option.some.inj hi
      rw [← this, h.libs]
      simp
  | onLib s f hl he hg =>
    have h' : Inv base heap0 n0 { p with file := s } ls := ⟨h.libs, h.good, h.next, h.owned, h.closed, h.opened, h.rest, h.lib⟩
    exact h'.onLib f he hg
  | endLib => exact ⟨ls, h.libs, h.good, h.next, h.owned, h.closed, h.opened, h.rest, fun i hi => by cases hi⟩
  | newElem s hl =>
    have hn : p.elem = none := by
      unfold PS.inLib at hl
      cases hx : p.elem with
      | none => rfl
      | some a => rw [hx] at hl; simp at hl
    have hb := h.next
    have ho := h.owned
    rw [hn, Option.toList_none, List.append_nil] at ho
    refine ⟨ls, h.libs, h.good, by dsimp only; omega, ?_, ?_, ?_, ?_, h.lib⟩
    · dsimp only
      have e : p.next + 1 - n0 = (p.next - n0) + 1 := by omega
      rw [e, List.range'_concat, ← ho, Option.toList_some]
      have : n0 + 1 * (p.next - n0) = p.next := by omega
      rw [this]
    · intro a ha
      have hm : a ∈ List.range' n0 (p.next - n0) := by rw [← ho]; exact ha
      rw [List.mem_range'_1] at hm
      dsimp only
      rw [if_neg (by omega)]
      exact h.closed a ha
    · intro a ha
      have : a = p.next := (Option.some.inj ha).symm
      dsimp only
      rw [if_pos this]
      exact open_empty
    · intro a ha
      dsimp only at ha ⊢
      rw [if_neg (by omega)]
      exact h.rest a (by omega)
  | name s n hl hn =>
    obtain ⟨e1, e2, e3, e4, e5, e6⟩ := onElem_rest { p with file := s } fun (e : Element) => { e with name := n }
    exact ⟨ls, h.onElem (fun (e : Element) => { e with name := n }) e1 e2 e3 e4 (onElem_heap { p with file := s } _) (fun a _ ha => ⟨hn, ha.2, ha.3, ha.4⟩)⟩
  | endStr a e hl ha hb => exact h.endStr hl a ha e hb
  | newGeom t f hl ht hf =>
    obtain ⟨e1, e2, e3, e4, e5, e6⟩ := onElem_rest p f
    refine ⟨ls, h.onElem f e1 e2 e3 e4 (onElem_heap _ _) (fun a _ ha => ?_)⟩
    rw [hf]
    obtain ⟨gs, h1, h2, h3⟩ := ha.geometries
    refine ⟨ha.name, ⟨gs ++ [{ type := t }], ?_, ?_, ?_⟩, ha.box, ha.nested⟩
    · dsimp only; rw [h1, List.map_append]; rfl
    · intro g hg
      rcases List.mem_append.1 hg with hg | hg
      · exact h2 g hg
      · rw [List.mem_singleton.1 hg]; exact good_start t ht
    · dsimp only
      rw [h3, List.any_append, Bool.not_or]
      simp
  | onGeom s f hl hk =>
    unfold PS.onGeom
    obtain ⟨e1, e2, e3, e4, e5, e6⟩ := onElem_rest { p with file := s }
      fun (e : Element) => { e with geometries := e.geometries.modify (e.geometries.length - 1) (Option.map f) }
    refine ⟨ls, h.onElem (fun (e : Element) => { e with geometries := e.geometries.modify (e.geometries.length - 1) (Option.map f) })
      e1 e2 e3 e4 (onElem_heap { p with file := s } _) (fun a hp ha => ?_)⟩
    obtain ⟨gs, h1, h2, h3⟩ := ha.geometries
    rcases List.eq_nil_or_concat' gs with rfl | ⟨gs', g, rfl⟩
    · have : (p.heap a).geometries.modify ((p.heap a).geometries.length - 1) (Option.map f) = (p.heap a).geometries := by rw [h1]; rfl
      rw [this]
      exact ha
    · have hg : p.theGeom = g := by
        unfold PS.theGeom
        rw [hp]
        dsimp only
        rw [h1]
        simp
      rw [hg] at hk
      have : (p.heap a).geometries.modify ((p.heap a).geometries.length - 1) (Option.map f) = (gs' ++ [f g]).map some := by
        rw [h1, List.map_append, List.map_append, List.map_cons, List.map_nil, modify_app _ _ _ _ _ (by simp)]
        rfl
      rw [this]
      refine ⟨ha.name, ⟨gs' ++ [f g], rfl, ?_, ?_⟩, ha.box, ha.nested⟩
      · intro x hx
        rcases List.mem_append.1 hx with hx | hx
        · exact h2 x (List.mem_append_left _ hx)
        · rw [List.mem_singleton.1 hx]; exact hk.good (h2 g (by simp))
      · dsimp only
        rw [h3]
        simp [List.any_append, hk.type]
  | endGeom hl => exact ⟨ls, h.libs, h.good, h.next, h.owned, h.closed, h.opened, h.rest, h.lib⟩

theorem readRecords_inv (env : Env) (fuel : Nat) (h : Inv base heap0 n0 p ls) (hr : readRecords env fuel p = .ok p1) :
    ∃ ls1, Inv base heap0 n0 p1 ls1 := by
  induction fuel generalizing p ls with
  | zero => cases hr; exact ⟨ls, h⟩
  | succ fuel ih =>
    rw [readRecords] at hr
    split at hr
    · cases hr; exact ⟨ls, h⟩
    · split at hr
      · obtain ⟨q, h1, hr⟩ := bind_ok hr
        have h' : ∀ s, Inv base heap0 n0 { p with file := s } ls := fun s => ⟨h.libs, h.good, h.next, h.owned, h.closed, h.opened, h.rest, h.lib⟩
        obtain ⟨ls2, h2⟩ := inv_step (h' _) (dispatch_eff _ _ _ _ h1)
        exact ih h2 hr
      · cases hr; exact ⟨ls, h.libs, h.good, h.next, h.owned, h.closed, h.opened, h.rest, h.lib⟩

end inv

/-! ### the stream -/

theorem Consumes.refl (s : Strm) : Consumes s s := List.suffix_refl _

theorem consumes_readCoord {old : Coord} {s : Strm} {x : Coord × Strm} (h : readCoord old s = .ok x) : Consumes s x.2 := by
  unfold readCoord at h
  obtain ⟨a, h1, h⟩ := bind_ok h
  obtain ⟨b, h2, h⟩ := bind_ok h
  cases h
  exact consumes_rd ..

theorem consumes_readCoords (n : Nat) {old : Coord} {s : Strm} {x : List Coord × Strm} (h : readCoords n old s = .ok x) : Consumes s x.2 := by
  induction n generalizing old s x with
  | zero => cases h; exact .refl _
  | succ n ih =>
    rw [readCoords] at h
    obtain ⟨a, h1, h⟩ := bind_ok h
    obtain ⟨b, h2, h⟩ := bind_ok h
    cases h
    exact List.IsSuffix.trans (ih (x := b) h2) (consumes_readCoord h1)

theorem consumes_readWordNew {s : Strm} {x : Int × Strm} (h : readWordNew s = .ok x) : Consumes s x.2 := by
  unfold readWordNew at h
  split at h
  · cases h
  · cases h; exact consumes_rd ..

theorem consumes_readDword {old : Int} {s : Strm} {x : Int × Strm} (h : readDword old s = .ok x) : Consumes s x.2 := by
  unfold readDword at h
  obtain ⟨a, h1, h⟩ := bind_ok h
  cases h
  exact consumes_rd ..

theorem consumes_readDates {s s1 : Strm} (h : readDates s = .ok s1) : Consumes s s1 := by
  unfold readDates at h
  split at h
  · cases h
  · cases h
    exact List.drop_suffix _ _

theorem onGeom_file (p : PS) (f : Geometry → Geometry) : (p.onGeom f).file = p.file := (onElem_rest p _).2.2.2.2.2
theorem onElem_file (p : PS) (f : Element → Element) : (p.onElem f).file = p.file := (onElem_rest p _).2.2.2.2.2
theorem onLib_file (p : PS) (f : Library → Library) : (p.onLib f).file = p.file := (onLib_rest p _).2.2.2.2.2

theorem newGeom_file {p p1 : PS} {t : GType} (h : secNewGeom t p = .ok p1) : Consumes p.file p1.file := by
  unfold secNewGeom at h
  split at h
  · cases h; dsimp only; rw [onElem_file]; exact .refl _
  · cases h; exact .refl _

theorem dispatch_consumes (env : Env) (r : Rec) (p p1 : PS) (h : dispatch env r p = .ok p1) : Consumes p.file p1.file := by
  unfold dispatch at h
  split at h
  · cases h; exact consumes_rd ..
  · unfold secBgnLib at h
    split at h
    · cases h; exact .refl _
    · obtain ⟨s, h1, h⟩ := bind_ok h
      cases h
      exact consumes_readDates h1
  · unfold secLibName at h
    split at h
    · cases h; rw [onLib_file]; exact consumes_rd ..
    · cases h; exact .refl _
  · unfold secUnits at h
    split at h
    · split at h
      · cases h; exact .refl _
      · split at h
        · obtain ⟨u, h1, h⟩ := bind_ok h
          obtain ⟨v, h2, h⟩ := bind_ok h
          cases h
          rw [onLib_file]; exact consumes_rd ..
        · cases h
    · cases h; exact .refl _
  · cases h; exact .refl _
  · unfold secBgnStr at h
    split at h
    · obtain ⟨s, h1, h⟩ := bind_ok h
      cases h
      exact consumes_readDates h1
    · cases h; exact .refl _
  · unfold secStrName at h
    split at h
    · cases h; rw [onElem_file]; exact consumes_rd ..
    · cases h; exact .refl _
  · unfold secEndStr at h
    split at h
    · split at h
      · cases h; exact .refl _
      · obtain ⟨e, h1, h⟩ := bind_ok h
        cases h
        dsimp only
        rw [onLib_file, onElem_file]; exact .refl _
    · cases h; exact .refl _
  · exact newGeom_file h
  · exact newGeom_file h
  · unfold secSref at h
    split at h
    · cases h; dsimp only; rw [onElem_file]; exact .refl _
    · cases h; exact .refl _
  · exact newGeom_file h
  · unfold secLayer at h
    split at h
    · cases h; rw [onGeom_file]; exact consumes_rd ..
    · cases h; exact .refl _
  · unfold secDataType at h
    split at h
    · cases h; rw [onGeom_file]; exact consumes_rd ..
    · cases h; exact .refl _
  · unfold secWidth at h
    split at h
    · obtain ⟨x, h1, h⟩ := bind_ok h
      cases h; rw [onGeom_file]; exact consumes_readDword h1
    · cases h; exact .refl _
  · unfold secXy at h
    split at h
    · split at h
      · obtain ⟨x, h1, h⟩ := bind_ok h
        cases h; rw [onGeom_file]; exact consumes_readCoords _ h1
      · obtain ⟨x, h1, h⟩ := bind_ok h
        cases h; rw [onGeom_file]; exact consumes_readCoords _ h1
      · obtain ⟨x, h1, h⟩ := bind_ok h
        cases h; rw [onGeom_file]; exact consumes_readCoords _ h1
      · obtain ⟨x, h1, h⟩ := bind_ok h
        cases h; rw [onGeom_file]; exact consumes_readCoord h1
      · obtain ⟨x, h1, h⟩ := bind_ok h
        cases h; rw [onGeom_file]; exact consumes_readCoord h1
      · cases h; rw [onGeom_file]; exact .refl _
    · cases h; exact .refl _
  · unfold secEndEl at h
    split at h <;> (cases h; exact .refl _)
  · unfold secSname at h
    split at h
    · cases h; rw [onGeom_file]; exact consumes_rd ..
    · cases h; exact .refl _
  · unfold secTextType at h
    split at h
    · obtain ⟨x, h1, h⟩ := bind_ok h
      cases h; rw [onGeom_file]; exact consumes_readWordNew h1
    · cases h; exact .refl _
  · unfold secPresentation at h
    split at h
    · obtain ⟨x, h1, h⟩ := bind_ok h
      cases h; rw [onGeom_file]; exact consumes_readWordNew h1
    · cases h; exact .refl _
  · unfold secString at h
    split at h
    · cases h; rw [onGeom_file]; exact consumes_rd ..
    · cases h; exact .refl _
  · unfold secStrans at h
    split at h
    · obtain ⟨x, h1, h⟩ := bind_ok h
      cases h; rw [onGeom_file]; exact consumes_readWordNew h1
    · cases h; exact .refl _
  · unfold secMag at h
    split at h
    · obtain ⟨m, h1, h⟩ := bind_ok h
      cases h; rw [onGeom_file]; exact consumes_rd ..
    · cases h; exact .refl _
  · unfold secPathType at h
    split at h
    · obtain ⟨x, h1, h⟩ := bind_ok h
      cases h; rw [onGeom_file]; exact consumes_readWordNew h1
    · cases h; exact .refl _
  · unfold secPropAttr at h
    split at h
    · split at h
      · cases h; exact .refl _
      · cases h; rw [onGeom_file]; exact consumes_rd ..
    · cases h; exact .refl _
  · exact newGeom_file h
  · unfold secBoxType at h
    split at h
    · cases h; rw [onGeom_file]; exact consumes_rd ..
    · cases h; exact .refl _
  · cases h
    exact List.drop_suffix _ _

/-- Every round but the last consumes a record header, so `fuel` beyond the number of bytes makes no difference, -/
theorem readRecords_fuel (env : Env) (fuel fuel' : Nat) (p : PS) (h : p.file.rest.length < fuel) (h' : p.file.rest.length < fuel') :
    readRecords env fuel p = readRecords env fuel' p := by
  induction fuel generalizing fuel' p with
  | zero => omega
  | succ fuel ih =>
    obtain ⟨fuel', rfl⟩ : ∃ k, fuel' = k + 1 := ⟨fuel' - 1, by omega⟩
    rw [readRecords, readRecords]
    split
    · rfl
    · split
      · rename_i b0 b1 t x rest hr
        cases hd : dispatch env ⟨recLength b0 b1, t⟩ { p with file := ⟨rest, false⟩ } with
        | ub => rfl
        | throw e => rfl
        | ok q =>
          have hc := (dispatch_consumes _ _ _ _ hd).length
          have hl := congrArg List.length hr
          simp only [List.length_cons] at hl
          dsimp only at hc
          rw [Res.ok_bind, Res.ok_bind]
          exact ih fuel' q (by omega) (by omega)
      · rfl

/-- and the loop stops at the end of the file. -/
theorem readRecords_eof (env : Env) (fuel : Nat) (p p1 : PS) (h : p.file.rest.length < fuel) (hr : readRecords env fuel p = .ok p1) :
    p1.file.eof = true := by
  induction fuel generalizing p with
  | zero => omega
  | succ fuel ih =>
    rw [readRecords] at hr
    split at hr
    · rename_i he; cases hr; exact he
    · split at hr
      · rename_i b0 b1 t x rest hrest
        obtain ⟨q, h1, hr⟩ := bind_ok hr
        have hc := (dispatch_consumes _ _ _ _ h1).length
        have hl := congrArg List.length hrest
        simp only [List.length_cons] at hl
        dsimp only at hc
        exact ih q (by omega) hr
      · cases hr; rfl

/-! ### no exceptions -/

def NoThrow {α : Type} (x : Res α) : Prop := ∀ e, x ≠ .throw e

theorem NoThrow.ok {α : Type} (a : α) : NoThrow (Res.ok a) := fun e h => by cases h
theorem NoThrow.ub {α : Type} : NoThrow (Res.ub : Res α) := fun e h => by cases h
theorem NoThrow.bind {α β : Type} {x : Res α} {f : α → Res β} (h : NoThrow x) (hf : ∀ a, NoThrow (f a)) : NoThrow (x >>= f) := by
  cases x with
  | ok a => exact hf a
  | throw e => exact absurd rfl (h e)
  | ub => exact .ub

theorem noThrow_dword (v : BitVec 32) : NoThrow (normalizeDword v) := by
  rw [normalizeDword_eq]
  dsimp only
  split
  · exact .ub
  · exact .ok _

theorem noThrow_double (rnd : ℚ → ℚ) (bs : List UInt8) : NoThrow (normalizeDouble rnd bs) := by
  unfold normalizeDouble
  split
  · exact .ok _
  · exact .ub

theorem noThrow_readCoord (old : Coord) (s : Strm) : NoThrow (readCoord old s) :=
  .bind (noThrow_dword _) fun _ => .bind (noThrow_dword _) fun _ => .ok _

theorem noThrow_readCoords (n : Nat) (old : Coord) (s : Strm) : NoThrow (readCoords n old s) := by
  induction n generalizing old s with
  | zero => exact .ok _
  | succ n ih => exact .bind (noThrow_readCoord _ _) fun _ => .bind (ih _ _) fun _ => .ok _

theorem noThrow_readDword (old : Int) (s : Strm) : NoThrow (readDword old s) := .bind (noThrow_dword _) fun _ => .ok _

theorem noThrow_readWordNew (s : Strm) : NoThrow (readWordNew s) := by
  unfold readWordNew
  split
  · exact .ub
  · exact .ok _

theorem noThrow_readDates (s : Strm) : NoThrow (readDates s) := by
  unfold readDates
  split
  · exact .ub
  · exact .ok _

theorem noThrow_foldlM (gs : List (Option Geometry)) (mm : Coord × Coord) : NoThrow (gs.foldlM Msk.joinBox mm) := by
  induction gs generalizing mm with
  | nil => exact .ok _
  | cons g gs ih =>
    rw [List.foldlM_cons]
    refine .bind ?_ fun _ => ih _
    unfold Msk.joinBox
    split
    · exact .ub
    · exact .ok _

theorem noThrow_elemBox (e : Element) : NoThrow (elemBox e) := by
  unfold elemBox
  split
  · exact .ok _
  · exact .ub
  · exact .bind (noThrow_foldlM _ _) fun _ => .ok _

theorem noThrow_ite {α : Type} (c : Prop) [Decidable c] {x y : Res α} (hx : NoThrow x) (hy : NoThrow y) : NoThrow (if c then x else y) := by
  split
  · exact hx
  · exact hy

theorem noThrow_dispatch (env : Env) (r : Rec) (p : PS) : NoThrow (dispatch env r p) := by
  unfold dispatch
  split
  · exact .ok _
  · exact noThrow_ite _ (.ok _) (.bind (noThrow_readDates _) fun _ => .ok _)
  · exact noThrow_ite _ (.ok _) (.ok _)
  · unfold secUnits
    refine noThrow_ite _ ?_ (.ok _)
    split
    · exact .ok _
    · split
      · exact .bind (noThrow_double _ _) fun _ => .bind (noThrow_double _ _) fun _ => .ok _
      · exact .ub
  · exact .ok _
  · exact noThrow_ite _ (.bind (noThrow_readDates _) fun _ => .ok _) (.ok _)
  · exact noThrow_ite _ (.ok _) (.ok _)
  · unfold secEndStr
    refine noThrow_ite _ ?_ (.ok _)
    split
    · exact .ok _
    · exact .bind (noThrow_elemBox _) fun _ => .ok _
  · exact noThrow_ite _ (.ok _) (.ok _)
  · exact noThrow_ite _ (.ok _) (.ok _)
  · exact noThrow_ite _ (.ok _) (.ok _)
  · exact noThrow_ite _ (.ok _) (.ok _)
  · exact noThrow_ite _ (.ok _) (.ok _)
  · exact noThrow_ite _ (.ok _) (.ok _)
  · exact noThrow_ite _ (.bind (noThrow_readDword _ _) fun _ => .ok _) (.ok _)
  · unfold secXy
    refine noThrow_ite _ ?_ (.ok _)
    split
    · exact .bind (noThrow_readCoords _ _ _) fun _ => .ok _
    · exact .bind (noThrow_readCoords _ _ _) fun _ => .ok _
    · exact .bind (noThrow_readCoords _ _ _) fun _ => .ok _
    · exact .bind (noThrow_readCoord _ _) fun _ => .ok _
    · exact .bind (noThrow_readCoord _ _) fun _ => .ok _
    · exact .ok _
  · exact noThrow_ite _ (.ok _) (.ok _)
  · exact noThrow_ite _ (.ok _) (.ok _)
  · exact noThrow_ite _ (.bind (noThrow_readWordNew _) fun _ => .ok _) (.ok _)
  · exact noThrow_ite _ (.bind (noThrow_readWordNew _) fun _ => .ok _) (.ok _)
  · exact noThrow_ite _ (.ok _) (.ok _)
  · exact noThrow_ite _ (.bind (noThrow_readWordNew _) fun _ => .ok _) (.ok _)
  · exact noThrow_ite _ (.bind (noThrow_double _ _) fun _ => .ok _) (.ok _)
  · exact noThrow_ite _ (.bind (noThrow_readWordNew _) fun _ => .ok _) (.ok _)
  · unfold secPropAttr
    refine noThrow_ite _ ?_ (.ok _)
    split
    · exact .ok _
    · exact .ok _
  · exact noThrow_ite _ (.ok _) (.ok _)
  · exact noThrow_ite _ (.ok _) (.ok _)
  · exact .ok _

theorem noThrow_readRecords (env : Env) (fuel : Nat) (p : PS) : NoThrow (readRecords env fuel p) := by
  induction fuel generalizing p with
  | zero => exact .ok _
  | succ fuel ih =>
    rw [readRecords]
    refine noThrow_ite _ (.ok _) ?_
    split
    · exact .bind (noThrow_dispatch _ _ _) fun _ => ih _
    · exact .ok _

end Verif.Gds
