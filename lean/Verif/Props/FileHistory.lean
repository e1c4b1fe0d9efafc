import Verif.Props.LayoutMatrix
import Verif.Spec.FileHistory

/-! Property C64: every history of `FlushFile` and `ReadFile` calls. -/

namespace Verif.Props
open Verif BitMatrix LayoutMatrix
open Verif.Spec.FileHistory

namespace FileHistory

/-- real objects and the real file system -/
structure Real where
  objs : Nat → BitMatrix
  fs : Fs

/-- One call of the library; `none` = undefined behaviour.  Memory suffices. -/
def call (p : Platform) (w : Real) : Op → Option (Obs × Real)
  | .assign o m => some (.done, { w with objs := upd w.objs o m })
  | .flush o name lost =>
    let stored := match encodeHash (w.objs o) with
      | .ok h => h.length - lost
      | _ => 0
    match flushFile (w.objs o) name stored w.fs with
    | .ok r fs' => some (.returned r, { w with fs := fs' })
    | .throw e fs' => some (.threw e, { w with fs := fs' })
    | .ub => none
  | .read o name =>
    match readFile p Alloc.ok w.fs name (w.objs o) with
    | .ok r m => some (.returned r, { w with objs := upd w.objs o m })
    | .throw e m => some (.threw e, { w with objs := upd w.objs o m })
    | .ub => none

/-- a sequence of calls -/
def calls (p : Platform) : Real → List Op → Option (List (Op × Obs) × Real)
  | w, [] => some ([], w)
  | w, op :: ops => do
    let (ob, w1) ← call p w op
    let (h, w2) ← calls p w1 ops
    some ((op, ob) :: h, w2)

/-- matrices within the limits of the format: built through the API, and without cells or below 2³¹ cells, with
dimensions the platform can read back (C30) -/
structure Storable (p : Platform) (m : BitMatrix) : Prop where
  built : Built m
  small : m.isize * m.jsize < 2 ^ 31
  dims : p.charSigned = false ∨ (AsciiDim m.isize ∧ AsciiDim m.jsize)

/-- a real file and what the specification says about it -/
def FileOk (p : Platform) (content : Option (List UInt8)) : Entry → Prop
  | .absent => content = none
  | .damaged => ∃ c, content = some c ∧ decodeHash p Alloc.ok c = .throw .invalidArgument
  | .holds m => ∃ m1 h, SameBits m m1 ∧ Storable p m1 ∧ m1.isize ≠ 0 ∧ m1.jsize ≠ 0 ∧ encodeHash m1 = .ok h ∧ content = some h

/-- the simulation relation -/
structure Sim (p : Platform) (r w : List UInt8 → Bool) (s : World) (x : Real) : Prop where
  objs : ∀ o, SameBits (s.objs o) (x.objs o) ∧ Storable p (x.objs o)
  files : ∀ n, FileOk p (x.fs.files n) (s.disk n)
  canRead : x.fs.readable = r
  canWrite : x.fs.writable = w

theorem sameBits_refl (m : BitMatrix) : SameBits m m := ⟨rfl, rfl, fun _ _ _ _ => rfl⟩

theorem sameBits_trans {a b c : BitMatrix} (h : SameBits a b) (k : SameBits b c) : SameBits a c :=
  ⟨h.1.trans k.1, h.2.1.trans k.2.1, fun i j hi hj => (h.2.2 i j hi hj).trans (k.2.2 i j (h.1 ▸ hi) (h.2.1 ▸ hj))⟩

theorem decode_storable (p : Platform) (hp : p.maskedShift = true) (m : BitMatrix) (hs : Storable p m) (h1 : m.isize ≠ 0)
    (h2 : m.jsize ≠ 0) (h : List UInt8) (he : encodeHash m = .ok h) :
    ∃ m', decodeHash p Alloc.ok h = .ok m' ∧ SameBits m m' ∧ Storable p m' ∧ opNot m' = false := by
  have h1' : 0 < m.isize := by omega
  have h2' : 0 < m.jsize := by omega
  have d1 : m.isize < 2 ^ 32 := by
    have := hs.small
    have := Nat.le_mul_of_pos_right m.isize h2'
    omega
  have d2 : m.jsize < 2 ^ 32 := by
    have := hs.small
    have := Nat.le_mul_of_pos_left m.jsize h1'
    omega
  obtain ⟨m', hd, hb⟩ := C30_roundtrip p hp m hs.built h1' h2' d1 d2 hs.dims h he
  obtain ⟨code, _, hcne, hde⟩ := decode_of_encode p Alloc.ok hs.built h1' h2' he
  rw [Nat.mod_eq_of_lt d1, Nat.mod_eq_of_lt d2] at hde
  have hwf : WF m' := by
    rw [hde] at hd
    cases hz : decodeSz p (szBytes m.isize m.jsize) with
    | ok cr =>
      rw [hz, Res.ok_bind] at hd
      obtain ⟨m2, e2, w2, _⟩ := Rle.decodeMatrix_eq hcne cr.2 cr.1
      simp only [e2] at hd
      injection hd with hd
      exact hd ▸ w2
    | throw e => rw [hz] at hd; simp at hd
    | ub => rw [hz] at hd; simp at hd
  obtain ⟨_, l1, l2⟩ := hs.built.inv
  refine ⟨m', hd, hb, ⟨Built.of_wf hwf (hb.1 ▸ l1) (hb.2.1 ▸ l2), hb.1 ▸ hb.2.1 ▸ hs.small, hb.1 ▸ hb.2.1 ▸ hs.dims⟩, ?_⟩
  rw [opNot_eq hwf, ← hb.1, ← hb.2.1]
  simp [h1, h2]

theorem upd_same {α β : Type} [DecidableEq α] (f : α → β) (a : α) : upd f a (f a) = f := by
  funext x
  unfold upd
  split
  · rename_i h; rw [h]
  · rfl

theorem call_sim (p : Platform) (hp : p.maskedShift = true) (r w : List UInt8 → Bool) (s : World) (x : Real) (hx : Sim p r w s x)
    (op : Op) (hop : ∀ o m, op = .assign o m → Storable p m) :
    ∃ ob x' s', call p x op = some (ob, x') ∧ Step r w s op ob s' ∧ Sim p r w s' x' := by
  cases op with
  | assign o m =>
    refine ⟨_, _, _, rfl, .assign s o m, ?_, hx.files, hx.canRead, hx.canWrite⟩
    intro o'
    simp only [upd]
    split
    · exact ⟨sameBits_refl m, hop o m rfl⟩
    · exact hx.objs o'
  | flush o name lost =>
    by_cases hc : name = [] ∨ w name = false
    · refine ⟨.returned false, x, s, ?_, .flushClosed s o name lost hc, hx⟩
      have : ∀ st, flushFile (x.objs o) name st x.fs = .ok false x.fs := by
        intro st
        unfold flushFile
        rcases hc with hc | hc
        · rw [if_pos hc]
        · split
          · rfl
          · rw [hx.canWrite, if_pos hc]
      simp only [call, this]
    · push Not at hc
      obtain ⟨hn, hw⟩ := hc
      have hw : w name = true := by simpa using hw
      obtain ⟨hb, hst⟩ := hx.objs o
      have hnw : ¬ x.fs.writable name = false := by rw [hx.canWrite, hw]; simp
      -- a file left damaged
      have hdam : ∀ c fs', x.fs.files = fs' → decodeHash p Alloc.ok c = .throw .invalidArgument →
          ∀ n, FileOk p ((fun n => if n = name then some c else fs' n) n) (upd s.disk name .damaged n) := by
        rintro c _ rfl hd n
        simp only [upd]
        split
        · exact ⟨c, rfl, hd⟩
        · exact hx.files n
      by_cases hz : (x.objs o).isize = 0 ∨ (x.objs o).jsize = 0
      · have he := (C30_encode_total _ hst.built).1 hz
        refine ⟨.threw .invalidArgument, { x with fs := { x.fs with files := fun n => if n = name then some [] else x.fs.files n } }, _, ?_, .refused s o name lost .invalidArgument hn hw ?_, ?_⟩
        · simp only [call, flushFile, hn, hnw, if_false, he, Bool.true_eq_false]
        · rw [hb.1, hb.2.1, if_pos hz]
        · exact ⟨hx.objs, hdam [] _ rfl (by simp [decodeHash]), hx.canRead, hx.canWrite⟩
      · push Not at hz
        rcases (C30_encode_total _ hst.built).2 (by omega) (by omega) with he | ⟨h, he⟩ | ⟨h31, _⟩
        · refine ⟨.threw .runtimeError, { x with fs := { x.fs with files := fun n => if n = name then some [] else x.fs.files n } }, _, ?_, .refused s o name lost .runtimeError hn hw ?_, ?_⟩
          · simp only [call, flushFile, hn, hnw, if_false, he, Bool.true_eq_false]
          · rw [hb.1, hb.2.1, if_neg (by tauto)]
          · exact ⟨hx.objs, hdam [] _ rfl (by simp [decodeHash]), hx.canRead, hx.canWrite⟩
        · by_cases hl : lost = 0
          · subst hl
            refine ⟨.returned true, { x with fs := { x.fs with files := fun n => if n = name then some h else x.fs.files n } }, _, ?_, .flushed s o name hn hw (hb.1 ▸ hz.1) (hb.2.1 ▸ hz.2), ?_⟩
            · simp only [call, flushFile, hn, hnw, if_false, he, Bool.true_eq_false, Nat.sub_zero, List.take_length]
            · refine ⟨hx.objs, fun n => ?_, hx.canRead, hx.canWrite⟩
              simp only [upd]
              split
              · exact ⟨x.objs o, h, hb, hst, hz.1, hz.2, he, rfl⟩
              · exact hx.files n
          · refine ⟨.returned true, { x with fs := { x.fs with files := fun n => if n = name then some (h.take (h.length - lost)) else x.fs.files n } }, _, ?_, .torn s o name lost hn hw (by omega) (hb.1 ▸ hz.1) (hb.2.1 ▸ hz.2), ?_⟩
            · simp only [call, flushFile, hn, hnw, if_false, he, Bool.true_eq_false]
            · refine ⟨hx.objs, hdam _ _ rfl ?_, hx.canRead, hx.canWrite⟩
              by_cases hh : h.length = 0
              · have : h = [] := List.eq_nil_of_length_eq_zero hh
                simp [this, decodeHash]
              · exact C31_prefix p Alloc.ok _ hst.built (by omega) (by omega) h he _ (by omega)
        · exact absurd hst.small (by omega)
  | read o name =>
    have hcl : (name = [] ∨ r name = false ∨ s.disk name = .absent) →
        ∃ ob x' s', call p x (.read o name) = some (ob, x') ∧ Step r w s (.read o name) ob s' ∧ Sim p r w s' x' := by
      intro hc
      refine ⟨.returned false, x, s, ?_, .readClosed s o name hc, hx⟩
      have : readFile p Alloc.ok x.fs name (x.objs o) = .ok false (x.objs o) := by
        apply (C32_read_missing p Alloc.ok x.fs name (x.objs o)).1
        rcases hc with hc | hc | hc
        · exact .inl hc
        · exact .inr (.inl (by rw [hx.canRead]; exact hc))
        · have := hx.files name
          rw [hc] at this
          exact .inr (.inr this)
      simp only [call, this, upd_same]
    by_cases hn : name = []
    · exact hcl (.inl hn)
    by_cases hr : r name = false
    · exact hcl (.inr (.inl hr))
    have hr : r name = true := by simpa using hr
    have hnr : ¬ x.fs.readable name = false := by rw [hx.canRead, hr]; simp
    have hf := hx.files name
    cases hd : s.disk name with
    | absent => exact hcl (.inr (.inr hd))
    | damaged =>
      rw [hd] at hf
      obtain ⟨c, h1, h2⟩ := hf
      refine ⟨.threw .invalidArgument, x, s, ?_, .readDamaged s o name hn hr hd, hx⟩
      have : readFile p Alloc.ok x.fs name (x.objs o) = .throw .invalidArgument (x.objs o) := by
        simp only [readFile, hn, hnr, if_false, h1, h2, Bool.true_eq_false]
      simp only [call, this, upd_same]
    | holds m =>
      rw [hd] at hf
      obtain ⟨m1, h, b1, hs1, z1, z2, he, hc⟩ := hf
      obtain ⟨m', e', b', hs', hv⟩ := decode_storable p hp m1 hs1 z1 z2 h he
      refine ⟨.returned true, { x with objs := upd x.objs o m' }, _, ?_, .readHolds s o name m hn hr hd, ?_, hx.files, hx.canRead, hx.canWrite⟩
      · have : readFile p Alloc.ok x.fs name (x.objs o) = .ok true m' := by
          simp only [readFile, hn, hnr, if_false, hc, e', hv, Bool.true_eq_false, Bool.false_eq_true, assignMoveL]
        simp only [call, this]
      · intro o'
        simp only [upd]
        split
        · exact ⟨sameBits_trans b1 b', hs'⟩
        · exact hx.objs o'

end FileHistory

open FileHistory

/-- **C64** Every history: starting in a directory without files, any sequence of `FlushFile` and `ReadFile` calls on any
objects and names, with any other changes of the objects in between, any names that cannot be opened and any writes torn
anywhere, runs without undefined behaviour, and everything the client sees is what the map from names to matrices says:
a read gives the matrix last flushed to that name, throws if that flush was torn or failed, and reports false if there was
none.  At the end all objects have the sizes and bits the map says. -/
theorem C64_history (p : Platform) (hp : p.maskedShift = true) (ops : List Op) (objs : Nat → BitMatrix) (fs : Fs)
    (h0 : ∀ n, fs.files n = none) (hobjs : ∀ o, Storable p (objs o)) (hops : ∀ o m, Op.assign o m ∈ ops → Storable p m) :
    ∃ h x s, calls p ⟨objs, fs⟩ ops = some (h, x) ∧ h.map (·.1) = ops ∧
      Steps fs.readable fs.writable ⟨objs, fun _ => .absent⟩ h s ∧ ∀ o, SameBits (s.objs o) (x.objs o) := by
  have key : ∀ (ops : List Op) (s : World) (x : Real), Sim p fs.readable fs.writable s x →
      (∀ o m, Op.assign o m ∈ ops → Storable p m) →
      ∃ h x' s', calls p x ops = some (h, x') ∧ h.map (·.1) = ops ∧ Steps fs.readable fs.writable s h s' ∧
        ∀ o, SameBits (s'.objs o) (x'.objs o) := by
    intro ops
    induction ops with
    | nil => intro s x hx _; exact ⟨[], x, s, rfl, rfl, .nil s, fun o => (hx.objs o).1⟩
    | cons op ops ih =>
      intro s x hx ha
      obtain ⟨ob, x1, s1, e1, st, hx1⟩ := call_sim p hp _ _ s x hx op (fun o m e => ha o m (by rw [e]; exact List.mem_cons_self))
      obtain ⟨h, x2, s2, e2, em, sts, fin⟩ := ih s1 x1 hx1 (fun o m hm => ha o m (List.mem_cons_of_mem _ hm))
      refine ⟨(op, ob) :: h, x2, s2, ?_, by simp [em], .cons st sts, fin⟩
      simp only [calls, e1, e2, Option.bind_eq_bind, Option.bind_some]
  exact key ops ⟨objs, fun _ => .absent⟩ ⟨objs, fs⟩
    ⟨fun o => ⟨sameBits_refl _, hobjs o⟩, fun n => h0 n, rfl, rfl⟩ hops

/-- the map is a map: a name read right after a complete flush of a matrix with cells can only give that matrix -/
theorem C64_last_flush (canRead canWrite : List UInt8 → Bool) (w w1 w2 : World) (o o' : Nat) (name : List UInt8) (ob : Obs)
    (h1 : Step canRead canWrite w (.flush o name 0) (.returned true) w1) (h2 : Step canRead canWrite w1 (.read o' name) ob w2)
    (hr : canRead name = true) : ob = .returned true ∧ w2.objs o' = w.objs o := by
  cases h1 with
  | flushed _ _ hn hw a b =>
    cases h2 with
    | readClosed _ _ hc =>
      rcases hc with hc | hc | hc
      · exact absurd hc hn
      · rw [hr] at hc; simp at hc
      · simp [upd] at hc
    | readDamaged _ _ _ _ hc => simp [upd] at hc
    | readHolds _ _ m _ _ hc =>
      simp only [upd, if_true, Entry.holds.injEq] at hc
      exact ⟨rfl, by simp [upd, hc]⟩
  | torn _ _ _ _ _ hl => exact absurd hl (by omega)

/-- C64 at work: object 0 (3×5) is flushed, another object reads it back, a torn flush follows, and the next read throws. -/
example : ∃ h x s, calls ⟨true, true⟩ ⟨fun _ => BitMatrix.new Alloc.ok 3 5, ⟨fun _ => none, fun _ => true, fun _ => true⟩⟩
      [.flush 0 [97] 0, .read 1 [97], .flush 0 [97] 7, .read 1 [97]] = some (h, x) ∧
      Steps (fun _ => true) (fun _ => true) ⟨fun _ => BitMatrix.new Alloc.ok 3 5, fun _ => .absent⟩ h s := by
  obtain ⟨h, x, s, e, _, st, _⟩ := C64_history ⟨true, true⟩ rfl [.flush 0 [97] 0, .read 1 [97], .flush 0 [97] 7, .read 1 [97]]
    (fun _ => BitMatrix.new Alloc.ok 3 5) ⟨fun _ => none, fun _ => true, fun _ => true⟩ (fun _ => rfl)
    (fun _ => ⟨.new 3 5 (by decide) (by decide), by decide, .inr ⟨by decide, by decide⟩⟩) (by simp)
  exact ⟨h, x, s, e, st⟩

end Verif.Props
