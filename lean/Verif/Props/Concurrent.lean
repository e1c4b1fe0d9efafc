import Verif.Proofs.ConcurrentOne

/-! Property C81: several programs that write and read matrix files at the same time. -/

namespace Verif.Props
open Verif BitMatrix LayoutMatrix Verif.Concurrent
open Verif.Spec.Concurrent Verif.Spec.FileHistory
open Verif.Props.FileHistory Verif.Proofs.Conc

/-- **C81** Schedules in which no call overlaps with a flush of the same file: any number of calls, cut into operations and
interleaved in any way, some of them never finished, disks that fill up at any moment.  No call is undefined, and the calls that have
ended, in the order in which they ended and each exactly once, are a history of the map from names to matrices (C64), with what the clients saw and the
objects they hold; flushes that never found the disk full are complete in it. -/
theorem C81_exclusive (p : Platform) (hp : p.maskedShift = true) (w : System) (h0 : ∀ i, Waiting (w.jobs i))
    (hf : ∀ n, w.fs.files n = none) (hobj : ∀ i, Storable p (objOf (w.jobs i))) (s : List (Nat × Nat)) (hx : Exclusive p w s) :
    ∃ (h : List (Op × Obs)) (end_ : World),
      Steps w.fs.readable w.fs.writable ⟨fun i => objOf (w.jobs i), fun _ => .absent⟩ h end_ ∧
      (h.map (objectOf ·.1)).Nodup ∧
      (∀ op ob, (op, ob) ∈ h → ∃ i m, CallOf i (w.jobs i) op ∧ Ended ((run p w s).jobs i) ob m) ∧
      (∀ i ob m, Ended ((run p w s).jobs i) ob m →
        SameBits (end_.objs i) m ∧ ∃ op, (op, ob) ∈ h ∧ CallOf i (w.jobs i) op ∧ (NeverFull i s → Complete op)) ∧
      (∀ s1 s2, s = s1 ++ s2 → ∃ h1 h2, h = h1 ++ h2 ∧
        ∀ i, i ∈ h1.map (objectOf ·.1) ↔ ∃ ob m, Ended ((run p w s1).jobs i) ob m) ∧
      ∀ i, (run p w s).jobs i ≠ .undefined := by
  have hist : ∀ ops : List Op, (∀ op ∈ ops, ∀ o m, op ≠ .assign o m) → ∃ h x s',
      calls p ⟨fun i => objOf (w.jobs i), w.fs⟩ ops = some (h, x) ∧ h.map (·.1) = ops ∧
        Steps w.fs.readable w.fs.writable ⟨fun i => objOf (w.jobs i), fun _ => .absent⟩ h s' ∧ ∀ o, SameBits (s'.objs o) (x.objs o) :=
    fun ops ho => C64_history p hp ops _ w.fs hf hobj (fun o m hm => absurd rfl (ho _ hm o m))
  have hs : Safe p w := by
    intro ops ho hn
    obtain ⟨h, x, s', e, _⟩ := hist ops ho
    rw [hn] at e
    cases e
  obtain ⟨h, x, I, hsplit⟩ := Inv.run h0 hs s [] w [] _ (Inv.init h0) hx
  rw [List.nil_append, List.nil_append] at I
  obtain ⟨h', x', s', e', _, hst, hob⟩ := hist (h.map (·.1)) (by
    intro op hop
    obtain ⟨⟨o', ob⟩, hm, rfl⟩ := List.mem_map.1 hop
    obtain ⟨i, m, hc', _⟩ := I.hist o' ob hm
    exact callOf_not_assign hc')
  rw [I.done] at e'
  simp only [Option.some.injEq, Prod.mk.injEq] at e'
  obtain ⟨rfl, rfl⟩ := e'
  refine ⟨h, s', hst, I.nodup, I.hist, ?_, ?_, ?_⟩
  · intro i ob m he
    cases I.jobs i with
    | waiting a1 a2 a3 =>
      obtain ⟨m', nm, e | e⟩ := h0 i <;> rw [a1, e] at he <;> cases he
    | writing m' name text off a1 => rw [a1] at he; cases he
    | reading m' name got c a1 => rw [a1] at he; cases he
    | ended ob' m' op a1 a2 a3 a4 a5 =>
      have : ob' = ob ∧ m' = m := by
        generalize (run p w s).jobs i = t at a1 he
        cases a1 <;> cases he <;> exact ⟨rfl, rfl⟩
      obtain ⟨rfl, rfl⟩ := this
      exact ⟨a2 ▸ hob i, op, a3, a4, a5⟩
  · intro s1 s2 e
    obtain ⟨h1, h2, x1, rfl, J⟩ := hsplit s1 s2 e
    rw [List.nil_append, List.nil_append] at J
    refine ⟨h1, h2, rfl, fun i => ⟨fun hi => ?_, fun ⟨ob, m, hi⟩ => ?_⟩⟩
    · obtain ⟨⟨op, ob⟩, hm, rfl⟩ := List.mem_map.1 hi
      obtain ⟨i, m, hc, he⟩ := J.hist op ob hm
      exact ⟨ob, m, (callOf_object hc).symm ▸ he⟩
    · cases J.jobs i with
      | waiting a1 a2 a3 =>
        obtain ⟨m', nm, e | e⟩ := h0 i <;> rw [a1, e] at hi <;> cases hi
      | writing m' name text off a1 => rw [a1] at hi; cases hi
      | reading m' name got c a1 => rw [a1] at hi; cases hi
      | ended ob' m' op a1 a2 a3 a4 => exact List.mem_map.2 ⟨(op, ob'), a3, callOf_object a4⟩
  · intro i hu
    cases I.jobs i with
    | waiting a1 a2 a3 =>
      obtain ⟨m', nm, e | e⟩ := h0 i <;> rw [a1, e] at hu <;> cases hu
    | writing m' name text off a1 => rw [a1] at hu; cases hu
    | reading m' name got c a1 => rw [a1] at hu; cases hu
    | ended ob' m' op a1 => rw [hu] at a1; cases a1

/-- **C81** Any schedule, also with calls that overlap: every character of a file is a zero byte or the one that some text that was there
or was flushed to it has in that place, and so is every character that `ReadFile` decodes; an object is changed by nothing but the
matrix it returns. -/
theorem C81_bytes (p : Platform) (w : System) (h0 : ∀ i, Waiting (w.jobs i)) (name : List UInt8) (T : List UInt8 → Prop)
    (hf : ∀ c, w.fs.files name = some c → T c) (hT : ∀ i m h, w.jobs i = .flush m name → encodeHash m = .ok h → T h)
    (s : List (Nat × Nat)) :
    (∀ c, (run p w s).fs.files name = some c → MadeOf T c) ∧
    ∀ i m, w.jobs i = .read m name → ReadSaw p (MadeOf T) name m ((run p w s).jobs i) := by
  have I := Mixed.run (p := p) (T := T) (name := name) s w
    (Mixed.init h0 (fun c hc i b hb => .inr ⟨c, hf c hc, hb⟩) hT)
  exact ⟨I.file, I.reads⟩

/-- the text of a matrix with the same bits -/
theorem same_text {p : Platform} {m m' : BitMatrix} (hs : Storable p m) (h1 : m.isize ≠ 0) (h2 : m.jsize ≠ 0) (hb : Built m')
    (he : SameBits m m') : encodeHash m = encodeHash m' := by
  have h1' : 0 < m.isize := by omega
  have h2' : 0 < m.jsize := by omega
  have d1 : m.isize < 2 ^ 32 := by
    have := hs.small
    have := Nat.le_mul_of_pos_right m.isize h2'
    omega
  have d2 : m.jsize < 2 ^ 32 := by
    have := hs.small
    have := Nat.le_mul_of_pos_left m.jsize h1'
    omega
  exact (C30_hash_faithful m m' hs.built hb h1' h2' d1 d2 (he.1 ▸ h1') (he.2.1 ▸ h2') (he.1 ▸ d1) (he.2.1 ▸ d2)).2 he

/-- **C81** Any number of programs flush the same matrix to one file and read it, in any schedule, with disks that fill up: a reader gets
that matrix, or nothing (false, or an exception, with its object unchanged); never another matrix. -/
theorem C81_same (p : Platform) (hp : p.maskedShift = true) (w : System) (h0 : ∀ i, Waiting (w.jobs i)) (name : List UInt8)
    (m : BitMatrix) (hs : Storable p m) (h1 : m.isize ≠ 0) (h2 : m.jsize ≠ 0) (text : List UInt8) (he : encodeHash m = .ok text)
    (hflush : ∀ i m', w.jobs i = .flush m' name → Built m' ∧ SameBits m m')
    (hf : ∀ c, w.fs.files name = some c → c <+: text) (s : List (Nat × Nat)) (i : Nat) (m0 : BitMatrix)
    (hr : w.jobs i = .read m0 name) :
    (run p w s).jobs i = .read m0 name ∨ (∃ g, (run p w s).jobs i = .reading m0 name g) ∨
    (run p w s).jobs i = .returned false m0 ∨ (∃ e, (run p w s).jobs i = .threw e m0) ∨
    ∃ d, (run p w s).jobs i = .returned true d ∧ SameBits m d := by
  have I := Mixed.run (p := p) (T := (· = text)) (name := name) s w (Mixed.init h0 (by
      rintro c hc i b hb
      obtain ⟨z, hz⟩ := hf c hc
      refine .inr ⟨text, rfl, ?_⟩
      rw [← hz, List.getElem?_append_left (List.getElem?_eq_some_iff.1 hb).1]
      exact hb) (by
      intro k m' h hk hh
      obtain ⟨b1, b2⟩ := hflush k m' hk
      rw [← same_text hs h1 h2 b1 b2, he] at hh
      injection hh with hh
      exact hh.symm))
  obtain ⟨m1, hd, hsame, -, hnot⟩ := decode_storable p hp m hs h1 h2 text he
  have key : ∀ g, MadeOf (· = text) g → decodeHash p Alloc.ok g = .ok m1 ∨ ∃ e, decodeHash p Alloc.ok g = .throw e := by
    intro g hg
    rw [← hd]
    refine decode_holed p Alloc.ok hs.built (by omega) (by omega) he ?_
    intro i b hb
    rcases hg i b hb with h | ⟨t, rfl, h⟩
    · exact .inl h
    · exact .inr h
  have R := I.reads i m0 hr
  generalize (run p w s).jobs i = t at R
  cases R with
  | waiting => exact .inl rfl
  | reading g => exact .inr (.inl ⟨g, rfl⟩)
  | closed => exact .inr (.inr (.inl rfl))
  | loaded g d hg hdg _ =>
    rcases key g hg with h | ⟨e, h⟩
    · rw [h] at hdg
      cases hdg
      exact .inr (.inr (.inr (.inr ⟨m1, rfl, hsame⟩)))
    · rw [h] at hdg; cases hdg
  | hollow g d hg hdg hn =>
    rcases key g hg with h | ⟨e, h⟩
    · rw [h] at hdg
      cases hdg
      rw [hnot] at hn; cases hn
    · rw [h] at hdg; cases hdg
  | threw g e hg hdg => exact .inr (.inr (.inr (.inl ⟨e, rfl⟩)))
  | undefined g hg hdg =>
    rcases key g hg with h | ⟨e, h⟩ <;> rw [h] at hdg <;> cases hdg

/-- **C81** If moreover no disk is full: as soon as a flush of the file has begun and none is under way, the file holds exactly the text of
the matrix. -/
theorem C81_same_final (p : Platform) (w : System) (h0 : ∀ i, Waiting (w.jobs i)) (name : List UInt8) (hn : name ≠ [])
    (hw : w.fs.writable name = true) (m : BitMatrix) (hs : Storable p m) (h1 : m.isize ≠ 0) (h2 : m.jsize ≠ 0) (text : List UInt8)
    (he : encodeHash m = .ok text) (hflush : ∀ i m', w.jobs i = .flush m' name → Built m' ∧ SameBits m m')
    (hf : ∀ c, w.fs.files name = some c → c <+: text) (s : List (Nat × Nat)) (hfull : ∀ a ∈ s, a.2 ≠ 0) (i : Nat) (m' : BitMatrix)
    (hi : w.jobs i = .flush m' name) (hbegun : (run p w s).jobs i ≠ .flush m' name)
    (hover : ∀ k, ¬ WritesTo ((run p w s).jobs k) name) : (run p w s).fs.files name = some text := by
  have I := Same.run (p := p) (w0 := w) (text := text) hn s w hfull (by
    refine ⟨fun k => ?_, hw, fun c hc => (hf c hc).length_le, .inl ⟨fun k => ?_, fun k m hm => hm⟩⟩
    · obtain ⟨mk, nm, e | e⟩ := h0 k
      · rw [e]
        intro hnm
        subst hnm
        obtain ⟨b1, b2⟩ := hflush k mk e
        rw [← same_text hs h1 h2 b1 b2, he]
      · rw [e]; trivial
    · obtain ⟨mk, nm, e | e⟩ := h0 k <;> rw [e] <;> exact id)
  rcases I.state with ⟨_, h⟩ | h | ⟨k, m1, off, c, h, _⟩
  · exact absurd (h i m' hi) hbegun
  · exact h
  · exact absurd (by rw [h]; rfl) (hover k)

/-- **C81** One flush and a reader that opens the file when the flush has already opened it, while the flush is still writing or after that:
the reader gets the matrix or throws `std::invalid_argument` with its object unchanged, also if the disk fills up. -/
theorem C81_one_writer (p : Platform) (hp : p.maskedShift = true) (w : System) (h0 : ∀ i, Waiting (w.jobs i)) (name : List UInt8)
    (hn : name ≠ []) (hr : w.fs.readable name = true) (hw : w.fs.writable name = true) (m : BitMatrix) (hs : Storable p m)
    (h1 : m.isize ≠ 0) (h2 : m.jsize ≠ 0) (text : List UInt8) (he : encodeHash m = .ok text) (t r : Nat) (m0 : BitMatrix)
    (ht : w.jobs t = .flush m name) (hrd : w.jobs r = .read m0 name) (hone : ∀ k m', w.jobs k = .flush m' name → k = t)
    (s1 s2 : List (Nat × Nat)) (hbegun : (run p w s1).jobs t ≠ .flush m name) (hwait : (run p w s1).jobs r = .read m0 name) :
    (run p w (s1 ++ s2)).jobs r = .read m0 name ∨ (∃ g, (run p w (s1 ++ s2)).jobs r = .reading m0 name g) ∨
    (run p w (s1 ++ s2)).jobs r = .threw .invalidArgument m0 ∨
    ∃ d, (run p w (s1 ++ s2)).jobs r = .returned true d ∧ SameBits m d := by
  have htr : r ≠ t := by
    intro h
    rw [h, ht] at hrd
    cases hrd
  have I0 : OneWriter m name text t w := by
    refine ⟨fun k hk => ?_, hr, hw, .inl ht⟩
    obtain ⟨mk, nm, e | e⟩ := h0 k
    · rw [e]
      intro hnm
      subst hnm
      exact hk (hone k mk e)
    · rw [e]; trivial
  have I1 : OneWriter m name text t (run p w s1) := run_inv p _ (fun w k n I => I.step hn he k n) s1 w I0
  have I2 : OneReader p m name text t r m0 (run p w (s1 ++ s2)) := by
    rw [run_append]
    exact run_inv p _ (fun w k n I => I.step hn he htr k n) s2 _ ⟨I1, hbegun, .inl hwait⟩
  obtain ⟨m1, hd, hsame, -, hnot⟩ := decode_storable p hp m hs h1 h2 text he
  rcases I2.reader with h | ⟨g, c, h, _⟩ | ⟨g, hg, h⟩
  · exact .inl h
  · exact .inr (.inl ⟨g, h⟩)
  · right; right
    rw [h]
    obtain ⟨z, rfl⟩ := hg
    by_cases hz : z = []
    · subst hz
      rw [List.append_nil] at hd
      refine .inr ⟨m1, ?_, hsame⟩
      unfold atEnd
      rw [hd]
      simp only [hnot, Bool.false_eq_true, if_false]
      rfl
    · left
      have hl : g.length < (g ++ z).length := by
        rw [List.length_append]
        have := List.length_pos_iff.2 hz
        omega
      have := C31_prefix p Alloc.ok m hs.built (by omega) (by omega) _ he g.length hl
      rw [List.take_left] at this
      unfold atEnd
      rw [this]

/-! ### Examples -/

namespace Conc

/-- a bitmap of one row, 50 columns -/
def barsA : BitMatrix := ⟨[[105, 56, 206, 0, 161, 56, 0]], 1, 50⟩
/-- another one -/
def barsB : BitMatrix := ⟨[[107, 49, 31, 79, 231, 24, 0]], 1, 50⟩
/-- a third one, with the first 44 columns of `barsA` -/
def barsC : BitMatrix := ⟨[[105, 56, 206, 0, 161, 24, 0]], 1, 50⟩

deriving instance DecidableEq for Job

theorem storable_bars (p : Platform) : Storable p barsA ∧ Storable p barsB ∧ Storable p barsC := by
  refine ⟨⟨Built.of_wf ?_ (by decide) (by decide), by decide, .inr (by decide)⟩, ⟨Built.of_wf ?_ (by decide) (by decide), by decide, .inr (by decide)⟩,
    ⟨Built.of_wf ?_ (by decide) (by decide), by decide, .inr (by decide)⟩⟩ <;> exact ⟨by decide, by decide⟩

/-- two flushes of one file, one flush of another; everybody else reads the first file -/
def start (b : BitMatrix) : System := ⟨⟨fun _ => none, fun _ => true, fun _ => true⟩,
  fun i => if i = 0 then .flush barsA [65] else if i = 1 then .flush b [65] else if i = 2 then .flush barsC [66] else .read BitMatrix.empty [65]⟩

theorem start_waiting (b : BitMatrix) (i : Nat) : Waiting ((start b).jobs i) := by
  unfold start
  dsimp only
  split_ifs
  · exact ⟨_, _, .inl rfl⟩
  · exact ⟨_, _, .inl rfl⟩
  · exact ⟨_, _, .inl rfl⟩
  · exact ⟨_, _, .inr rfl⟩

theorem start_storable (p : Platform) (b : BitMatrix) (hb : Storable p b) (i : Nat) : Storable p (objOf ((start b).jobs i)) := by
  unfold start
  dsimp only
  split_ifs
  · exact (storable_bars p).1
  · exact hb
  · exact (storable_bars p).2.2
  · exact ⟨Built.of_wf ⟨by decide, by decide⟩ (by decide) (by decide), by decide, .inr (by decide)⟩

end Conc
open Conc

/-- **C81** Two overlapping flushes of different matrices, both complete and reported as successful, after which `ReadFile` succeeds with
a third matrix, which nobody stored; and the same for one `ReadFile` that has begun before a flush: the checksum of the text does not
exclude it.  The library alone does not keep programs that share a file apart. -/
theorem C81_mixed : ∃ (w : System) (a b c : BitMatrix) (name : List UInt8),
    (∀ i, Waiting (w.jobs i)) ∧ (∀ n, w.fs.files n = none) ∧ (∀ p, Storable p a ∧ Storable p b ∧ Storable p c) ∧
    ¬ SameBits a b ∧ ¬ SameBits a c ∧ ¬ SameBits b c ∧
    w.jobs 0 = .flush a name ∧ w.jobs 1 = .flush b name ∧ w.jobs 3 = .read BitMatrix.empty name ∧
    (∀ i m, w.jobs i = .flush m name → i = 0 ∨ i = 1) ∧
    -- two flushes at the same time, then a reader
    (∃ s, (∀ x ∈ s, x.2 ≠ 0) ∧ (run ⟨true, true⟩ w s).jobs 0 = .returned true a ∧ (run ⟨true, true⟩ w s).jobs 1 = .returned true b ∧
      (run ⟨true, true⟩ w s).jobs 3 = .read BitMatrix.empty name ∧
      ∃ t, (∀ x ∈ t, x.1 = 3) ∧ (run ⟨true, true⟩ w (s ++ t)).jobs 3 = .returned true c) ∧
    -- one flush, then a reader during the other flush
    (∃ s t, (∀ x ∈ s ++ t, x.2 ≠ 0) ∧ (run ⟨true, true⟩ w s).jobs 0 = .returned true a ∧ (run ⟨true, true⟩ w s).jobs 1 = .flush b name ∧
      (run ⟨true, true⟩ w s).jobs 3 = .read BitMatrix.empty name ∧ (run ⟨true, true⟩ w (s ++ t)).jobs 1 = .returned true b ∧
      (run ⟨true, true⟩ w (s ++ t)).jobs 3 = .returned true c) := by
  refine ⟨start barsB, barsA, barsB, barsC, [65], start_waiting _, fun _ => rfl, storable_bars, ?_, ?_, ?_, rfl, rfl, rfl, ?_, ?_, ?_⟩
  · rintro ⟨_, _, h⟩
    exact absurd (h 0 6 (by decide) (by decide)) (by decide +kernel)
  · rintro ⟨_, _, h⟩
    exact absurd (h 0 42 (by decide) (by decide)) (by decide +kernel)
  · rintro ⟨_, _, h⟩
    exact absurd (h 0 6 (by decide) (by decide)) (by decide +kernel)
  · intro i m h
    unfold start at h
    dsimp only at h
    split_ifs at h with h1 h2 h3
    · exact .inl h1
    · exact .inr h2
    · cases h
  · refine ⟨[(0, 1), (1, 1), (1, 64), (0, 64), (0, 200), (1, 200), (0, 1), (1, 1)], by decide, by decide +kernel, by decide +kernel,
      by decide +kernel, [(3, 1), (3, 200), (3, 1)], by decide, by decide +kernel⟩
  · refine ⟨[(0, 1), (0, 200), (0, 1)], [(3, 1), (3, 63), (1, 1), (1, 200), (1, 1), (3, 200), (3, 1)], by decide, by decide +kernel, by decide +kernel,
      by decide +kernel, by decide +kernel, by decide +kernel⟩


/-! `Exclusive` for concrete schedules in which only the first `N` calls take part -/
namespace Conc

def writesB : Job → List UInt8 → Bool
  | .writing _ n _ _, name => n = name
  | _, _ => false

def readsB : Job → List UInt8 → Bool
  | .reading _ n _, name => n = name
  | _, _ => false

theorem writesB_false {t : Job} {name : List UInt8} (h : writesB t name = false) : ¬ WritesTo t name := by
  cases t with
  | writing => simpa [writesB, WritesTo] using h
  | _ => exact id

theorem readsB_false {t : Job} {name : List UInt8} (h : readsB t name = false) : ¬ ReadsFrom t name := by
  cases t with
  | reading => simpa [readsB, ReadsFrom] using h
  | _ => exact id

def mayGoB (N : Nat) (w : System) (k : Nat) : Bool :=
  match w.jobs k with
  | .flush _ name => (List.range N).all fun i => i == k || (!writesB (w.jobs i) name && !readsB (w.jobs i) name)
  | .read _ name => (List.range N).all fun i => i == k || !writesB (w.jobs i) name
  | _ => true

def exclusiveB (p : Platform) (N : Nat) : System → List (Nat × Nat) → Bool
  | _, [] => true
  | w, (k, n) :: s => decide (k < N) && mayGoB N w k && exclusiveB p N (step p w k n) s

theorem mayGoB_true {N : Nat} {w : System} {k : Nat} (h0 : ∀ i, N ≤ i → Waiting (w.jobs i)) (h : mayGoB N w k = true) : MayGo w k := by
  have hout : ∀ i name, N ≤ i → ¬ WritesTo (w.jobs i) name ∧ ¬ ReadsFrom (w.jobs i) name := by
    intro i name hi
    obtain ⟨m, nm, e | e⟩ := h0 i hi <;> rw [e] <;> exact ⟨id, id⟩
  unfold mayGoB at h
  unfold MayGo
  split
  · rename_i m name e
    rw [e] at h
    intro i hi
    by_cases hN : N ≤ i
    · exact hout i name hN
    · have := List.all_eq_true.1 h i (List.mem_range.2 (by omega))
      simp only [Bool.or_eq_true, beq_iff_eq, hi, false_or, Bool.and_eq_true, Bool.not_eq_true'] at this
      exact ⟨writesB_false this.1, readsB_false this.2⟩
  · rename_i m name e
    rw [e] at h
    intro i hi
    by_cases hN : N ≤ i
    · exact (hout i name hN).1
    · have := List.all_eq_true.1 h i (List.mem_range.2 (by omega))
      simp only [Bool.or_eq_true, beq_iff_eq, hi, false_or, Bool.not_eq_true'] at this
      exact writesB_false this
  · trivial

theorem exclusiveB_true {p : Platform} {N : Nat} : ∀ (s : List (Nat × Nat)) (w : System), (∀ i, N ≤ i → Waiting (w.jobs i)) →
    exclusiveB p N w s = true → Exclusive p w s := by
  intro s
  induction s with
  | nil => intro w _ _; trivial
  | cons a s ih =>
    obtain ⟨k, n⟩ := a
    intro w h0 h
    simp only [exclusiveB, Bool.and_eq_true, decide_eq_true_eq] at h
    refine ⟨mayGoB_true h0 h.1.2, ih _ (fun i hi => ?_) h.2⟩
    rw [step_jobs, if_neg (by omega)]
    exact h0 i hi

end Conc

/-- `C81_exclusive`: a schedule of flushes of two files in pieces (for one of them the disk is full in the end) and two readers at once; what
they see -/
example : let s := [(0, 1), (2, 1), (0, 50), (2, 70), (0, 200), (2, 0), (0, 1), (3, 1), (4, 1), (3, 9), (4, 200), (3, 200), (3, 1), (4, 1)]
    Exclusive ⟨true, true⟩ (start barsB) s ∧ (∀ i, Waiting ((start barsB).jobs i)) ∧ (∀ i, Storable ⟨true, true⟩ (objOf ((start barsB).jobs i))) ∧
    (run ⟨true, true⟩ (start barsB) s).jobs 2 = .returned true barsC ∧ (run ⟨true, true⟩ (start barsB) s).jobs 4 = .returned true barsA ∧
    (run ⟨true, true⟩ (start barsB) s).jobs 1 = .flush barsB [65] :=
  ⟨exclusiveB_true (N := 5) _ _ (fun i _ => start_waiting _ i) (by decide +kernel), start_waiting _, start_storable _ _ (storable_bars _).2.1,
    by decide +kernel, by decide +kernel, by decide +kernel⟩

/-- `C81_bytes`: the texts of both flushes -/
example : ∃ a b, encodeHash barsA = .ok a ∧ encodeHash barsB = .ok b ∧ ∀ p s c, (run p (start barsB) s).fs.files [65] = some c →
    MadeOf (fun t => t = a ∨ t = b) c := by
  have ok : ∀ m : BitMatrix, (match encodeHash m with | .ok _ => true | _ => false) = true → ∃ h, encodeHash m = .ok h := by
    intro m
    cases encodeHash m with
    | ok h => exact fun _ => ⟨h, rfl⟩
    | throw e => exact fun h => (nomatch h)
    | ub => exact fun h => (nomatch h)
  obtain ⟨a, ha⟩ := ok barsA (by decide +kernel)
  obtain ⟨b, hb⟩ := ok barsB (by decide +kernel)
  refine ⟨a, b, ha, hb, fun p s => (C81_bytes p (start barsB) (start_waiting _) [65] (fun t => t = a ∨ t = b) ?_ ?_ s).1⟩
  · intro c hc; cases hc
  · intro i m h hi hh
    unfold start at hi
    dsimp only at hi
    split_ifs at hi
    · cases hi; rw [ha] at hh; injection hh with hh; exact .inl hh.symm
    · cases hi; rw [hb] at hh; injection hh with hh; exact .inr hh.symm
    · cases hi

/-- `C81_same`, `C81_same_final`: two overlapping flushes of the same matrix; one reader meets a gap of zero bytes and throws, the next one gets
the matrix -/
example : (∀ i m', (start barsA).jobs i = .flush m' [65] → Built m' ∧ SameBits barsA m') ∧
    (∀ c, (start barsA).fs.files [65] = some c → c <+: [1]) ∧
    let s := [(0, 1), (0, 40), (1, 1), (0, 20), (3, 1), (3, 100), (3, 1), (1, 70), (0, 200), (1, 200), (1, 1), (0, 1)]
    (run ⟨true, true⟩ (start barsA) s).jobs 3 = .threw .invalidArgument BitMatrix.empty ∧
    (∀ a ∈ s, a.2 ≠ 0) ∧ (run ⟨true, true⟩ (start barsA) s).jobs 0 ≠ .flush barsA [65] ∧
    (run ⟨true, true⟩ (start barsA) (s ++ [(4, 1), (4, 200), (4, 1)])).jobs 4 = .returned true barsA := by
  refine ⟨?_, fun c hc => (nomatch hc), by decide +kernel, by decide, by decide +kernel, by decide +kernel⟩
  intro i m' h
  unfold start at h
  dsimp only at h
  split_ifs at h
  · cases h; exact ⟨(storable_bars ⟨true, true⟩).1.built, sameBits_refl _⟩
  · cases h; exact ⟨(storable_bars ⟨true, true⟩).1.built, sameBits_refl _⟩
  · cases h

/-- `C81_one_writer`: a reader that is faster than the writer, and one that is slower -/
example : let w : System := ⟨⟨fun _ => none, fun _ => true, fun _ => true⟩, fun i => if i = 0 then .flush barsA [65] else .read barsB [65]⟩
    (run ⟨true, true⟩ w [(0, 1), (0, 50)]).jobs 0 ≠ .flush barsA [65] ∧ (run ⟨true, true⟩ w [(0, 1), (0, 50)]).jobs 1 = .read barsB [65] ∧
    (run ⟨true, true⟩ w ([(0, 1), (0, 50)] ++ [(1, 1), (1, 50), (1, 1), (0, 200), (0, 1)])).jobs 1 = .threw .invalidArgument barsB ∧
    (run ⟨true, true⟩ w ([(0, 1), (0, 50)] ++ [(1, 1), (1, 40), (0, 200), (1, 200), (1, 1)])).jobs 1 = .returned true barsA := by
  decide +kernel

end Verif.Props
