import Verif.Proofs.GdsiiAny

/-! The record loop of the GDSII reader on a file and on a prefix of it. -/

namespace Verif.Gds
open Verif Spec.Gdsii

/-! ### reading from a prefix -/

/-- Reading with `f` from `s` gives the same as from `s ++ t`, or is undefined, or hits the end. -/
def RL {α : Type} (f : Strm → Res (α × Strm)) : Prop :=
  ∀ s t, (∃ v s1, f ⟨s ++ t, false⟩ = .ok (v, ⟨s1 ++ t, false⟩) ∧ f ⟨s, false⟩ = .ok (v, ⟨s1, false⟩)) ∨ f ⟨s, false⟩ = .ub ∨
    ∃ v s1, f ⟨s, false⟩ = .ok (v, s1) ∧ s1.rest = []

theorem rd_local {α : Type} (f : UInt8 → α) (n : Nat) (old : List α) (s t : List UInt8) :
    (∃ v s1, rd f n old ⟨s ++ t, false⟩ = (v, ⟨s1 ++ t, false⟩) ∧ rd f n old ⟨s, false⟩ = (v, ⟨s1, false⟩)) ∨
      (rd f n old ⟨s, false⟩).2 = ⟨[], true⟩ := by
  by_cases h : s.length < n
  · right
    unfold rd
    rw [if_neg (by simp), if_pos h]
  · left
    refine ⟨(s.take n).map f, s.drop n, ?_, ?_⟩
    · unfold rd
      rw [if_neg (by simp), if_neg (by rw [List.length_append]; omega)]
      dsimp only
      rw [List.take_append_of_le_length (by omega), List.drop_append_of_le_length (by omega)]
    · unfold rd
      rw [if_neg (by simp), if_neg h]

theorem rd_eof {α : Type} (f : UInt8 → α) (n : Nat) (old : List α) : rd f n old ⟨[], true⟩ = (old, ⟨[], true⟩) := rfl

/-- a `read` whose bytes go through a total function -/
theorem RL.pure {α β : Type} (c : UInt8 → α) (n : Nat) (old : List α) (g : List α → β) :
    RL fun s => .ok (g (rd c n old s).1, (rd c n old s).2) := by
  intro s t
  dsimp only
  rcases rd_local c n old s t with ⟨v, s1, h1, h2⟩ | h
  · left; exact ⟨g v, s1, by rw [h1], by rw [h2]⟩
  · right; right; exact ⟨_, _, rfl, by rw [h]⟩

/-- a `read` whose bytes go through a function that may be undefined -/
theorem RL.res {α β : Type} (c : UInt8 → α) (n : Nat) (old : List α) (g : List α → Res β) (hg : ∀ l, NoThrow (g l)) :
    RL fun s => (g (rd c n old s).1 >>= fun v => .ok (v, (rd c n old s).2)) := by
  intro s t
  dsimp only
  rcases rd_local c n old s t with ⟨v, s1, h1, h2⟩ | h
  · rw [h1, h2]
    dsimp only
    cases hv : g v with
    | ok w => left; exact ⟨w, s1, rfl, rfl⟩
    | throw e => exact absurd hv (hg v e)
    | ub => right; left; rfl
  · cases hv : g (rd c n old ⟨s, false⟩).1 with
    | ok w => right; right; exact ⟨w, ⟨[], true⟩, by rw [Res.ok_bind, h], rfl⟩
    | throw e => exact absurd hv (hg _ e)
    | ub => right; left; rfl

theorem RL.word (old : Int) : RL fun s => .ok (readWord old s) :=
  RL.pure id 2 _ (fun bs => (normalizeWord (wordOf bs)).toInt)

theorem RL.string (n : Nat) : RL fun s => .ok (readString n s) :=
  RL.pure id n (List.replicate n 0) (fun bs => bs.takeWhile fun c : UInt8 => decide (c ≠ 0))

theorem RL.wordNew : RL readWordNew := by
  intro s t
  unfold readWordNew
  by_cases h : s.length < 2
  · right; left
    rw [if_pos (.inr h)]
  · left
    rw [if_neg (by rw [List.length_append]; simp; omega), if_neg (by simpa using h)]
    have e1 : rd id 2 (wordBytes (BitVec.ofInt 16 0)) ⟨s, false⟩ = ((s.take 2).map id, ⟨s.drop 2, false⟩) := by
      unfold rd
      rw [if_neg (by simp), if_neg h]
    have e2 : rd id 2 (wordBytes (BitVec.ofInt 16 0)) ⟨s ++ t, false⟩ = ((s.take 2).map id, ⟨s.drop 2 ++ t, false⟩) := by
      unfold rd
      rw [if_neg (by simp), if_neg (by rw [List.length_append]; omega)]
      dsimp only
      rw [List.take_append_of_le_length (by omega), List.drop_append_of_le_length (by omega)]
    unfold readWord
    rw [e1, e2]
    exact ⟨_, _, rfl, rfl⟩

theorem RL.dword (old : Int) : RL (readDword old) := by
  have := RL.res id 4 (dwordBytes (BitVec.ofInt 32 old)) (fun bs => normalizeDword (dwordOf bs) >>= fun v => .ok v.toInt)
    (fun l => .bind (noThrow_dword _) fun _ => .ok _)
  intro s t
  have := this s t
  simp only [bind_assoc, Res.ok_bind] at this
  exact this

theorem RL.coord (old : Coord) : RL (readCoord old) := by
  have := RL.res id 8 (dwordBytes (BitVec.ofInt 32 old.x) ++ dwordBytes (BitVec.ofInt 32 old.y))
    (fun bs => normalizeDword (dwordOf (bs.take 4)) >>= fun x => normalizeDword (dwordOf (bs.drop 4)) >>= fun y => .ok (⟨x.toInt, y.toInt⟩ : Coord))
    (fun l => .bind (noThrow_dword _) fun _ => .bind (noThrow_dword _) fun _ => .ok _)
  intro s t
  have := this s t
  simp only [bind_assoc, Res.ok_bind] at this
  exact this

/-- at the end of the file `readCoords` stays there -/
theorem readCoords_nil (n : Nat) (old : Coord) (s : Strm) (h : s.rest = []) : readCoords n old s = .ub ∨ ∃ v s1, readCoords n old s = .ok (v, s1) ∧ s1.rest = [] := by
  induction n generalizing old s with
  | zero => exact .inr ⟨_, _, rfl, h⟩
  | succ n ih =>
    rw [readCoords]
    cases hc : readCoord old s with
    | ub => left; rfl
    | throw e => exact absurd hc (noThrow_readCoord _ _ e)
    | ok x =>
      have h1 : x.2.rest = [] := by
        have := consumes_readCoord hc
        unfold Consumes at this
        rw [h] at this
        simpa using this
      rw [Res.ok_bind]
      dsimp only
      rcases ih x.1 x.2 h1 with h2 | ⟨v, s1, h2, h3⟩
      · left; rw [h2]; rfl
      · right; rw [h2]; exact ⟨_, _, rfl, h3⟩

theorem RL.coords (n : Nat) (old : Coord) : RL (readCoords n old) := by
  induction n generalizing old with
  | zero => intro s t; left; exact ⟨[], s, rfl, rfl⟩
  | succ n ih =>
    intro s t
    rw [readCoords, readCoords]
    rcases RL.coord old s t with ⟨v, s1, h1, h2⟩ | h | ⟨v, s1, h1, h2⟩
    · rw [h1, h2, Res.ok_bind, Res.ok_bind]
      dsimp only
      rcases ih v s1 t with ⟨w, s2, h3, h4⟩ | h | ⟨w, s2, h3, h4⟩
      · left; rw [h3, h4]; exact ⟨_, _, rfl, rfl⟩
      · right; left; rw [h]; rfl
      · right; right; rw [h3]; exact ⟨_, _, rfl, h4⟩
    · right; left; rw [h]; rfl
    · rw [h1, Res.ok_bind]
      dsimp only
      rcases readCoords_nil n v s1 h2 with h3 | ⟨w, s2, h3, h4⟩
      · right; left; rw [h3]; rfl
      · right; right; rw [h3]; exact ⟨_, _, rfl, h4⟩

theorem local_dates (s t : List UInt8) :
    (∃ s1, readDates ⟨s ++ t, false⟩ = .ok ⟨s1 ++ t, false⟩ ∧ readDates ⟨s, false⟩ = .ok ⟨s1, false⟩) ∨ readDates ⟨s, false⟩ = .ub := by
  unfold readDates
  by_cases h : s.length < 24
  · right
    rw [if_pos (.inr h)]
  · left
    rw [if_neg (by rw [List.length_append]; simp; omega), if_neg (by simpa using h)]
    dsimp only
    rw [List.drop_append_of_le_length (by omega)]
    exact ⟨s.drop 24, rfl, rfl⟩

/-! ### one record from a prefix -/

/-- no finished element is touched and none is finished -/
structure Calm (p p1 : PS) : Prop where
  libs : p1.libs.map (Option.map Library.elements) = p.libs.map (Option.map Library.elements)
  heap : ∀ a, p.elem ≠ some a → p1.heap a = p.heap a

/-- The outcome `x` of a record of `s ++ t` and the outcome `y` of the same record of `s` only: the same, or `y` is
undefined, or the prefix ends within the record. -/
inductive Local (t : List UInt8) (q : PS) (x y : Res PS) : Prop
  | same (s1 : List UInt8) (p1 : PS) : x = .ok { p1 with file := ⟨s1 ++ t, false⟩ } → y = .ok { p1 with file := ⟨s1, false⟩ } → Local t q x y
  | ub : y = .ub → Local t q x y
  | cut (q1 : PS) : y = .ok q1 → q1.file.rest = [] → Calm q q1 → Local t q x y

theorem Calm.file {p p1 : PS} (s : Strm) (h : Calm p p1) : Calm { p with file := s } p1 := ⟨h.libs, h.heap⟩

theorem onElem_with (p : PS) (f : Element → Element) (s : Strm) : { p with file := s }.onElem f = { p.onElem f with file := s } := by
  cases p with
  | mk file libs heap next lib elem geom => cases elem <;> rfl

theorem onLib_with (p : PS) (f : Library → Library) (s : Strm) : { p with file := s }.onLib f = { p.onLib f with file := s } := by
  cases p with
  | mk file libs heap next lib elem geom => cases lib <;> rfl

theorem onGeom_with (p : PS) (f : Geometry → Geometry) (s : Strm) : { p with file := s }.onGeom f = { p.onGeom f with file := s } := onElem_with _ _ _

theorem calm_onElem (p : PS) (f : Element → Element) : Calm p (p.onElem f) := by
  refine ⟨by rw [(onElem_rest p f).1], fun a ha => ?_⟩
  rw [onElem_heap, if_neg ha]

theorem calm_onLib (p : PS) (f : Library → Library) (hf : ∀ l, (f l).elements = l.elements) : Calm p (p.onLib f) := by
  refine ⟨?_, fun a ha => by rw [(onLib_rest p f).1]⟩
  unfold PS.onLib
  split
  · rfl
  · dsimp only
    rename_i i _
    clear * - hf
    generalize p.libs = L
    induction L generalizing i with
    | nil => simp
    | cons x L ih =>
      cases i with
      | zero =>
        rw [List.modify_zero_cons, List.map_cons, List.map_cons, Option.map_map]
        congr 1
        cases x with
        | none => rfl
        | some l => simp [hf]
      | succ i => rw [List.modify_succ_cons, List.map_cons, List.map_cons, ih]

section sections
variable {α : Type} {f : Strm → Res (α × Strm)} (hf : RL f) (p : PS) (s t : List UInt8)
include hf

/-- a section that reads with `f` and then makes the calm change `u` -/
theorem local_read (u : α → PS → PS) (hu : ∀ a q r, u a { q with file := r } = { u a q with file := r })
    (hc : ∀ a q, Calm q (u a q)) :
    Local t { p with file := ⟨s, false⟩ } (f ⟨s ++ t, false⟩ >>= fun x => .ok (u x.1 { p with file := x.2 }))
      (f ⟨s, false⟩ >>= fun x => .ok (u x.1 { p with file := x.2 })) := by
  rcases hf s t with ⟨v, s1, h1, h2⟩ | h | ⟨v, s1, h1, h2⟩
  · refine .same s1 (u v p) ?_ ?_
    · rw [h1, Res.ok_bind, hu]
    · rw [h2, Res.ok_bind, hu]
  · exact .ub (by rw [h]; rfl)
  · refine .cut { u v p with file := s1 } (by rw [h1, Res.ok_bind, hu]) h2 ⟨(hc v p).libs, (hc v p).heap⟩

theorem local_geom (u : α → Geometry → Geometry) :
    Local t { p with file := ⟨s, false⟩ } (f ⟨s ++ t, false⟩ >>= fun x => .ok ({ p with file := x.2 }.onGeom (u x.1)))
      (f ⟨s, false⟩ >>= fun x => .ok ({ p with file := x.2 }.onGeom (u x.1))) :=
  local_read hf p s t (fun a q => q.onGeom (u a)) (fun _ _ _ => onGeom_with _ _ _) (fun _ _ => calm_onElem _ _)

theorem local_elem (u : α → Element → Element) :
    Local t { p with file := ⟨s, false⟩ } (f ⟨s ++ t, false⟩ >>= fun x => .ok ({ p with file := x.2 }.onElem (u x.1)))
      (f ⟨s, false⟩ >>= fun x => .ok ({ p with file := x.2 }.onElem (u x.1))) :=
  local_read hf p s t (fun a q => q.onElem (u a)) (fun _ _ _ => onElem_with _ _ _) (fun _ _ => calm_onElem _ _)

theorem local_lib (u : α → Library → Library) (hu : ∀ a l, (u a l).elements = l.elements) :
    Local t { p with file := ⟨s, false⟩ } (f ⟨s ++ t, false⟩ >>= fun x => .ok ({ p with file := x.2 }.onLib (u x.1)))
      (f ⟨s, false⟩ >>= fun x => .ok ({ p with file := x.2 }.onLib (u x.1))) :=
  local_read hf p s t (fun a q => q.onLib (u a)) (fun _ _ _ => onLib_with _ _ _) (fun _ _ => calm_onLib _ _ (hu _))

end sections

theorem local_ite {t : List UInt8} {q : PS} (c : Prop) [Decidable c] {x y x' y' : Res PS} (h1 : c → Local t q x y) (h2 : Local t q x' y') :
    Local t q (if c then x else x') (if c then y else y') := by
  by_cases h : c
  · rw [if_pos h, if_pos h]; exact h1 h
  · rw [if_neg h, if_neg h]; exact h2

/-- a section that only looks at the state -/
theorem local_state (p : PS) (s t : List UInt8) (g : PS → PS) (hg : ∀ q r, g { q with file := r } = { g q with file := r }) :
    Local t { p with file := ⟨s, false⟩ } (.ok (g { p with file := ⟨s ++ t, false⟩ })) (.ok (g { p with file := ⟨s, false⟩ })) :=
  .same s (g p) (by rw [hg]) (by rw [hg])

theorem local_id (p : PS) (s t : List UInt8) :
    Local t { p with file := ⟨s, false⟩ } (.ok { p with file := ⟨s ++ t, false⟩ }) (.ok { p with file := ⟨s, false⟩ }) :=
  .same s p rfl rfl

theorem local_newGeom (g : GType) (p : PS) (s t : List UInt8) :
    Local t { p with file := ⟨s, false⟩ } (secNewGeom g { p with file := ⟨s ++ t, false⟩ }) (secNewGeom g { p with file := ⟨s, false⟩ }) :=
  local_ite _ (fun _ => local_state p s t (fun q => { q.onElem (fun (e : Element) => { e with geometries := e.geometries ++ [some { type := g }] }) with geom := true })
    (fun _ _ => by rw [onElem_with])) (local_id _ _ _)

theorem dispatch_local (env : Env) (r : Rec) (p : PS) (s t : List UInt8) :
    Local t { p with file := ⟨s, false⟩ } (dispatch env r { p with file := ⟨s ++ t, false⟩ }) (dispatch env r { p with file := ⟨s, false⟩ }) := by
  unfold dispatch
  split
  · exact local_read (RL.word 0) p s t (fun _ q => q) (fun _ _ _ => rfl) (fun _ _ => ⟨rfl, fun _ _ => rfl⟩)
  · -- BGNLIB
    refine local_ite _ (fun _ => local_id _ _ _) ?_
    dsimp only
    rcases local_dates s t with ⟨s1, h1, h2⟩ | h
    · rw [h1, h2]
      exact .same s1 { p with libs := p.libs ++ [some ({} : Library)], lib := some p.libs.length } rfl rfl
    · rw [h]; exact .ub rfl
  · exact local_ite _ (fun _ => local_lib (RL.string r.length) p s t (fun x (l : Library) => { l with name := x }) (fun _ _ => rfl)) (local_id _ _ _)
  · -- UNITS
    unfold secUnits
    refine local_ite _ (fun _ => ?_) (local_id _ _ _)
    dsimp only
    split
    · exact local_id _ _ _
    · split
      · rename_i l _
        have h := local_lib (RL.res id 16 (env.mem l.units.1 ++ env.mem l.units.2)
          (fun bs => normalizeDouble env.rnd (bs.take 8) >>= fun u => normalizeDouble env.rnd (bs.drop 8) >>= fun v => .ok (u, v))
          (fun _ => .bind (noThrow_double _ _) fun _ => .bind (noThrow_double _ _) fun _ => .ok _)) p s t
          (fun x (l : Library) => { l with units := x }) (fun _ _ => rfl)
        simp only [bind_assoc, Res.ok_bind] at h
        exact h
      · exact .ub rfl
  · exact local_state p s t (fun q => { q with lib := none }) (fun _ _ => rfl)
  · -- BGNSTR
    refine local_ite _ (fun _ => ?_) (local_id _ _ _)
    dsimp only
    rcases local_dates s t with ⟨s1, h1, h2⟩ | h
    · rw [h1, h2]
      exact .same s1 { p with heap := fun b => if b = p.next then {} else p.heap b, elem := some p.next, next := p.next + 1 } rfl rfl
    · rw [h]; exact .ub rfl
  · exact local_ite _ (fun _ => local_elem (RL.string r.length) p s t (fun x (e : Element) => { e with name := x })) (local_id _ _ _)
  · -- ENDSTR
    unfold secEndStr
    refine local_ite _ (fun _ => ?_) (local_id _ _ _)
    dsimp only
    split
    · exact local_id _ _ _
    · rename_i a _
      cases he : elemBox (p.heap a) with
      | ub => exact .ub rfl
      | throw e => exact absurd he (noThrow_elemBox _ e)
      | ok e =>
        exact local_state p s t (fun q => { (q.onElem fun _ => e).onLib (fun (l : Library) => { l with elements := l.elements ++ [some a] }) with elem := none })
          (fun _ _ => by rw [onElem_with, onLib_with])
  · exact local_newGeom _ _ _ _
  · exact local_newGeom _ _ _ _
  · exact local_ite _ (fun _ => local_state p s t (fun q => { q.onElem (fun (e : Element) => { e with geometries := e.geometries ++ [some { type := .reference }], isFlat := false })
      with geom := true }) (fun _ _ => by rw [onElem_with])) (local_id _ _ _)
  · exact local_newGeom _ _ _ _
  · exact local_ite _ (fun _ => local_geom (RL.word p.theGeom.layer) p s t (fun x (g : Geometry) => { g with layer := x })) (local_id _ _ _)
  · exact local_ite _ (fun _ => local_geom (RL.word 0) p s t
      (fun x (g : Geometry) => if g.type = GType.polygon ∨ g.type = GType.path then { g with dataType := x } else g)) (local_id _ _ _)
  · exact local_ite _ (fun _ => local_geom (RL.dword 0) p s t
      (fun x (g : Geometry) => if g.type = GType.path ∨ g.type = GType.text then { g with width := x } else g)) (local_id _ _ _)
  · -- XY
    unfold secXy
    refine local_ite _ (fun _ => ?_) (local_id _ _ _)
    have many := local_geom (RL.coords (r.length / 8) ⟨0, 0⟩) p s t (fun x (g : Geometry) => geomBox { g with coords := x })
    have one := local_geom (RL.coord ⟨0, 0⟩) p s t (fun x (g : Geometry) => geomBox { g with coords := g.coords ++ [x] })
    have e1 : { p with file := ⟨s ++ t, false⟩ }.theGeom = p.theGeom := rfl
    have e2 : { p with file := ⟨s, false⟩ }.theGeom = p.theGeom := rfl
    rw [e1, e2]
    split
    · exact many
    · exact many
    · exact many
    · exact one
    · exact one
    · exact local_state p s t (fun q => q.onGeom geomBox) (fun _ _ => by rw [onGeom_with])
  · exact local_ite _ (fun _ => local_state p s t (fun q => { q with geom := false }) (fun _ _ => rfl)) (local_id _ _ _)
  · exact local_ite _ (fun _ => local_geom (RL.string r.length) p s t (fun x (g : Geometry) => { g with refName := x })) (local_id _ _ _)
  · exact local_ite _ (fun _ => local_geom RL.wordNew p s t (fun x (g : Geometry) => { g with textType := x })) (local_id _ _ _)
  · exact local_ite _ (fun _ => local_geom RL.wordNew p s t (fun x (g : Geometry) => { g with flagsPresentation := x })) (local_id _ _ _)
  · exact local_ite _ (fun _ => local_geom (RL.string r.length) p s t (fun x (g : Geometry) => { g with stringValue := x })) (local_id _ _ _)
  · exact local_ite _ (fun _ => local_geom RL.wordNew p s t
      (fun x (g : Geometry) => if g.type = GType.text then { g with flagsTransformation := x } else g)) (local_id _ _ _)
  · refine local_ite _ (fun _ => ?_) (local_id _ _ _)
    have h := local_geom (RL.res id 8 (List.replicate 8 0) (normalizeDouble env.rnd) (noThrow_double _)) p s t
      (fun x (g : Geometry) => if g.type = GType.reference ∨ g.type = GType.text then { g with magnification := x } else g)
    simp only [bind_assoc, Res.ok_bind] at h
    exact h
  · exact local_ite _ (fun _ => local_geom RL.wordNew p s t
      (fun x (g : Geometry) => if g.type = GType.path ∨ g.type = GType.text then { g with pathType := x } else g)) (local_id _ _ _)
  · -- PROPATTR
    unfold secPropAttr
    refine local_ite _ (fun _ => ?_) (local_id _ _ _)
    have e1 : { p with file := ⟨s ++ t, false⟩ }.theGeom = p.theGeom := rfl
    have e2 : { p with file := ⟨s, false⟩ }.theGeom = p.theGeom := rfl
    rw [e1, e2]
    split
    · exact local_id _ _ _
    · exact local_geom (RL.word 0) p s t (fun x (g : Geometry) => { g with properties := g.properties ++ [(x, [])] })
  · exact local_newGeom _ _ _ _
  · exact local_ite _ (fun _ => local_geom (RL.word 0) p s t (fun x (g : Geometry) => { g with rectType := x })) (local_id _ _ _)
  · -- skipped
    unfold seek
    dsimp only
    by_cases h : r.length ≤ s.length
    · rw [List.drop_append_of_le_length h]
      exact .same (s.drop r.length) p rfl rfl
    · exact .cut _ rfl (by dsimp only; exact List.drop_eq_nil_of_le (by omega)) ⟨rfl, fun _ _ => rfl⟩

/-! ### finished elements stay -/

/-- The libraries `ls1` with elements `h1` contain all finished elements of `ls` with `h`, in the same places. -/
structure Ahead (ls : List Library) (h : Elements) (ls1 : List Library) (h1 : Elements) : Prop where
  libs : ∃ l1 l2, ls1 = l1 ++ l2 ∧ List.Forall₂ (fun x y => x.elements <+: y.elements) ls l1
  heap : ∀ a ∈ elementsOf ls, h1 a = h a

theorem forall₂_rfl {α : Type} {R : α → α → Prop} (h : ∀ x, R x x) (l : List α) : List.Forall₂ R l l := by
  induction l with
  | nil => exact .nil
  | cons x l ih => exact .cons (h x) ih

theorem prefixes_rfl (ls : List Library) : List.Forall₂ (fun x y => x.elements <+: y.elements) ls ls :=
  forall₂_rfl (fun (_ : Library) => List.prefix_refl _) ls

theorem Ahead.refl (ls : List Library) (h : Elements) : Ahead ls h ls h :=
  ⟨⟨ls, [], by simp, prefixes_rfl _⟩, fun _ _ => rfl⟩

theorem forall₂_mem {ls l1 : List Library} (h : List.Forall₂ (fun x y => x.elements <+: y.elements) ls l1) {a : Nat} (ha : a ∈ elementsOf ls) :
    a ∈ elementsOf l1 := by
  induction h with
  | nil => exact ha
  | @cons x y xs ys hxy _ ih =>
    unfold elementsOf at ha ih ⊢
    rw [List.flatMap_cons, List.mem_append] at ha ⊢
    rcases ha with ha | ha
    · left
      rw [List.mem_filterMap] at ha ⊢
      obtain ⟨z, hz, e⟩ := ha
      exact ⟨z, hxy.subset hz, e⟩
    · right; exact ih ha

theorem Ahead.trans {a b c : List Library} {h h1 h2 : Elements} (x : Ahead a h b h1) (y : Ahead b h1 c h2) : Ahead a h c h2 := by
  obtain ⟨b1, b2, rfl, hb⟩ := x.libs
  obtain ⟨c1, c2, rfl, hc⟩ := y.libs
  obtain ⟨d1, d2, hd1, hd2, rfl⟩ : ∃ d1 d2, List.Forall₂ (fun x y : Library => x.elements <+: y.elements) b1 d1 ∧
      List.Forall₂ (fun x y : Library => x.elements <+: y.elements) b2 d2 ∧ c1 = d1 ++ d2 := by
    refine ⟨c1.take b1.length, c1.drop b1.length, ?_, ?_, (List.take_append_drop _ _).symm⟩
    · have := List.forall₂_take b1.length hc
      rwa [List.take_left] at this
    · have := List.forall₂_drop b1.length hc
      rwa [List.drop_left] at this
  refine ⟨⟨d1, d2 ++ c2, by simp, ?_⟩, fun e he => ?_⟩
  · clear * - hb hd1
    induction hb generalizing d1 with
    | nil => cases hd1; exact .nil
    | cons h1 h2 ih =>
      cases hd1 with
      | cons h3 h4 => exact .cons (h1.trans h3) (ih _ h4)
  · rw [y.heap e, x.heap e he]
    rw [elementsOf_append]
    exact List.mem_append_left _ (forall₂_mem hb he)

theorem map_some_inj {a b : List Library} {base : List (Option Library)} (h : base ++ a.map some = base ++ b.map some) : a = b :=
  (List.map_injective_iff.2 (Option.some_injective _)) (List.append_cancel_left h)

section ahead
variable {base : List (Option Library)} {heap0 : Elements} {n0 : Nat} {p p1 : PS} {ls ls1 : List Library}

theorem Inv.closed_lt (h : Inv base heap0 n0 p ls) {a : Nat} (ha : a ∈ elementsOf ls) : a < p.next ∧ p.elem ≠ some a := by
  have hn := h.next
  have hm : a ∈ List.range' n0 (p.next - n0) := by rw [← h.owned]; exact List.mem_append_left _ ha
  rw [List.mem_range'_1] at hm
  exact ⟨by omega, fun hc => (h.fresh hc).1 ha⟩

/-- a calm step, and where it leads -/
theorem ahead_calm (h : Inv base heap0 n0 p ls) (h1 : Inv base heap0 n0 p1 ls1) (hc : Calm p p1) :
    Ahead ls p.heap ls1 p1.heap ∧ Ahead ls1 p1.heap ls p.heap := by
  have hl := hc.libs
  rw [h.libs, h1.libs, List.map_append, List.map_append] at hl
  have hl := List.append_cancel_left hl
  rw [List.map_map, List.map_map] at hl
  have he : ls1.map Library.elements = ls.map Library.elements := by
    have : Function.Injective (fun x : List (Option Nat) => some x) := Option.some_injective _
    apply (List.map_injective_iff.2 this)
    rw [List.map_map, List.map_map]
    exact hl
  have hE : elementsOf ls1 = elementsOf ls := by
    have : ∀ l : List Library, elementsOf l = (l.map Library.elements).flatMap (fun e => e.filterMap id) := by
      intro l
      unfold elementsOf
      rw [List.flatMap_map]
    rw [this, this, he]
  have hf : ∀ a b : List Library, a.map Library.elements = b.map Library.elements → List.Forall₂ (fun x y => x.elements <+: y.elements) a b := by
    intro a
    induction a with
    | nil => intro b hb; cases b with
      | nil => exact .nil
      | cons => cases hb
    | cons x a ih => intro b hb; cases b with
      | nil => cases hb
      | cons y b =>
        rw [List.map_cons, List.map_cons, List.cons.injEq] at hb
        exact .cons (by rw [hb.1]) (ih b hb.2)
  exact ⟨⟨⟨ls1, [], by simp, hf _ _ he.symm⟩, fun a ha => hc.heap a (h.closed_lt ha).2⟩,
    ⟨⟨ls, [], by simp, hf _ _ he⟩, fun a ha => by rw [hE] at ha; exact (hc.heap a (h.closed_lt ha).2).symm⟩⟩

theorem ahead_step (h : Inv base heap0 n0 p ls) (h1 : Inv base heap0 n0 p1 ls1) (he : Eff p p1) : Ahead ls p.heap ls1 p1.heap := by
  have same : p1.libs = p.libs → (∀ a ∈ elementsOf ls, p1.heap a = p.heap a) → Ahead ls p.heap ls1 p1.heap := by
    intro hl hh
    have := h1.libs
    rw [hl, h.libs] at this
    have := map_some_inj this
    subst this
    exact ⟨(Ahead.refl ls p.heap).libs, hh⟩
  cases he with
  | skip s => exact same rfl fun _ _ => rfl
  | newLib s hn =>
    have := h1.libs
    dsimp only at this
    rw [h.libs, List.append_assoc] at this
    have : ls ++ [({} : Library)] = ls1 := map_some_inj (base := base) (by rw [← this, List.map_append]; rfl)
    subst this
    exact ⟨⟨ls, _, rfl, prefixes_rfl _⟩, fun _ _ => rfl⟩
  | onLib s f hl he hg => exact (ahead_calm h h1 (⟨(calm_onLib { p with file := s } f he).libs, (calm_onLib { p with file := s } f he).heap⟩)).1
  | endLib => exact same rfl fun _ _ => rfl
  | newElem s hl =>
    refine same rfl fun a ha => ?_
    have := (h.closed_lt ha).1
    dsimp only
    rw [if_neg (by omega)]
  | name s n hl hn => exact (ahead_calm h h1 ⟨(calm_onElem { p with file := s } _).libs, (calm_onElem { p with file := s } _).heap⟩).1
  | endStr a e hl ha hb =>
    obtain ⟨e1, e2, e3, e4, e5, e6⟩ := onElem_rest p fun _ => e
    cases hi : p.lib with
    | none => unfold PS.inElem at hl; rw [hi] at hl; simp at hl
    | some i =>
      obtain ⟨ls', l, rfl, rfl⟩ := h.lib i hi
      have hL := onLib_libs (p.onElem fun _ => e) (fun (l : Library) => { l with elements := l.elements ++ [some a] }) base ls' l (by rw [e1]; exact h.libs) (by rw [e3]; exact hi)
      have h1l := h1.libs
      dsimp only at h1l
      rw [hL] at h1l
      have := map_some_inj h1l
      subst this
      refine ⟨⟨_, [], (List.append_nil _).symm, ?_⟩, ?_⟩
      · exact List.rel_append (prefixes_rfl _) (.cons (List.prefix_append _ _) .nil)
      · intro b hb'
        dsimp only
        rw [(onLib_rest _ _).1, onElem_heap, if_neg (h.closed_lt hb').2]
  | newGeom t f hl ht hf =>
    refine same (onElem_rest p f).1 fun a ha => ?_
    dsimp only
    rw [onElem_heap, if_neg (h.closed_lt ha).2]
  | onGeom s f hl hk => exact (ahead_calm h h1 ⟨(calm_onElem { p with file := s } _).libs, (calm_onElem { p with file := s } _).heap⟩).1
  | endGeom hl => exact same rfl fun _ _ => rfl

theorem ahead_run (env : Env) (fuel : Nat) (h : Inv base heap0 n0 p ls) (h1 : Inv base heap0 n0 p1 ls1) (hr : readRecords env fuel p = .ok p1) :
    Ahead ls p.heap ls1 p1.heap := by
  have hsame : ∀ s, Inv base heap0 n0 { p with file := s } ls1 → Ahead ls p.heap ls1 p.heap := by
    intro s hs
    have := hs.libs
    dsimp only at this
    rw [h.libs] at this
    have := map_some_inj this
    subst this
    exact Ahead.refl _ _
  induction fuel generalizing p ls with
  | zero => cases hr; exact hsame _ h1
  | succ fuel ih =>
    rw [readRecords] at hr
    split at hr
    · cases hr; exact hsame _ h1
    · split at hr
      · obtain ⟨q, h2, hr⟩ := bind_ok hr
        have h' : ∀ s, Inv base heap0 n0 { p with file := s } ls := fun s => ⟨h.libs, h.good, h.next, h.owned, h.closed, h.opened, h.rest, h.lib⟩
        have he := dispatch_eff _ _ _ _ h2
        obtain ⟨ls2, h3⟩ := inv_step (h' _) he
        have h4 := ahead_step (h' _) h3 he
        refine h4.trans (ih h3 hr ?_)
        intro s hs
        have := hs.libs
        dsimp only at this
        rw [h3.libs] at this
        have := map_some_inj this
        subst this
        exact Ahead.refl _ _
      · cases hr; exact hsame _ h1

/-- a run that has no more bytes ends at once -/
theorem run_nil (env : Env) (fuel : Nat) (q : PS) (hq : q.file.rest = []) (hf : 0 < fuel) :
    ∃ s, readRecords env fuel q = .ok { q with file := s } := by
  obtain ⟨fuel, rfl⟩ : ∃ k, fuel = k + 1 := ⟨fuel - 1, by omega⟩
  rw [readRecords, hq]
  split
  · exact ⟨q.file, rfl⟩
  · exact ⟨_, rfl⟩

/-- The run on a prefix is undefined, or it finishes a part of the elements. -/
theorem prefix_run (env : Env) (fuel fuel' : Nat) (s t : List UInt8) (hf : s.length < fuel') (h : Inv base heap0 n0 p ls) (h1 : Inv base heap0 n0 p1 ls1)
    (hr : readRecords env fuel { p with file := ⟨s ++ t, false⟩ } = .ok p1) (hfuel : (s ++ t).length < fuel) :
    readRecords env fuel' { p with file := ⟨s, false⟩ } = .ub ∨
    ∃ q1 ls2, readRecords env fuel' { p with file := ⟨s, false⟩ } = .ok q1 ∧ Inv base heap0 n0 q1 ls2 ∧ Ahead ls2 q1.heap ls1 p1.heap := by
  have hfile : ∀ {q : PS} {l : List Library}, Inv base heap0 n0 q l → ∀ s, Inv base heap0 n0 { q with file := s } l :=
    fun h s => ⟨h.libs, h.good, h.next, h.owned, h.closed, h.opened, h.rest, h.lib⟩
  induction fuel generalizing p ls s fuel' with
  | zero => omega
  | succ fuel ih =>
    obtain ⟨fuel', rfl⟩ : ∃ k, fuel' = k + 1 := ⟨fuel' - 1, by omega⟩
    have stop : (∃ st, readRecords env (fuel' + 1) { p with file := ⟨s, false⟩ } = .ok { p with file := st }) → 
        readRecords env (fuel' + 1) { p with file := ⟨s, false⟩ } = .ub ∨
        ∃ q1 ls2, readRecords env (fuel' + 1) { p with file := ⟨s, false⟩ } = .ok q1 ∧ Inv base heap0 n0 q1 ls2 ∧ Ahead ls2 q1.heap ls1 p1.heap := by
      rintro ⟨st, hst⟩
      have a2 := ahead_run env (fuel + 1) (hfile h ⟨s ++ t, false⟩) h1 hr
      exact .inr ⟨_, ls, hst, hfile h _, a2⟩
    match s, stop with
    | [], stop => exact stop ⟨⟨[], true⟩, rfl⟩
    | [_], stop => exact stop ⟨⟨[], true⟩, rfl⟩
    | [_, _], stop => exact stop ⟨⟨[], true⟩, rfl⟩
    | [_, _, _], stop => exact stop ⟨⟨[], true⟩, rfl⟩
    | b0 :: b1 :: ty :: x :: s, _ =>
      simp only [List.length_cons, List.cons_append] at hf hfuel
      have hr' : (dispatch env ⟨recLength b0 b1, ty⟩ { p with file := ⟨s ++ t, false⟩ } >>= readRecords env fuel) = .ok p1 := hr
      have hy : readRecords env (fuel' + 1) { p with file := ⟨b0 :: b1 :: ty :: x :: s, false⟩ } =
        (dispatch env ⟨recLength b0 b1, ty⟩ { p with file := ⟨s, false⟩ } >>= readRecords env fuel') := rfl
      rw [hy]
      obtain ⟨p2, hp2, hr2⟩ := bind_ok hr'
      have he := dispatch_eff _ _ _ _ hp2
      have hc := dispatch_consumes _ _ _ _ hp2
      obtain ⟨ls2, h2⟩ := inv_step (hfile h _) he
      cases dispatch_local env ⟨recLength b0 b1, ty⟩ p s t with
      | same s1 q hx hy =>
        rw [hx] at hp2
        have := Res.ok.inj hp2
        subst this
        have hc := hc.length
        dsimp only at hc
        rw [List.length_append, List.length_append] at hc
        rw [List.length_append] at hfuel
        rw [hy, Res.ok_bind]
        exact ih fuel' s1 (by omega) (hfile h2 q.file) hr2 (by rw [List.length_append]; omega)
      | ub hy => left; rw [hy]; rfl
      | cut q1 hy hn hcalm =>
        right
        rw [hy, Res.ok_bind]
        obtain ⟨st, hst⟩ := run_nil env fuel' q1 hn (by omega)
        rw [hst]
        obtain ⟨ls3, h3⟩ := inv_step (hfile h _) (dispatch_eff _ _ _ _ hy)
        refine ⟨_, ls3, rfl, hfile h3 _, ?_⟩
        have a1 := (ahead_calm (hfile h ⟨s, false⟩) h3 hcalm).2
        have a2 := ahead_run env (fuel + 1) (hfile h ⟨_, false⟩) h1 hr
        exact a1.trans a2

end ahead

end Verif.Gds
