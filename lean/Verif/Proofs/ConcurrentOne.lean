import Verif.Proofs.ConcurrentRead
import Verif.Proofs.Concurrent

/-! Proofs for C81: one flush and its readers; several flushes of the same matrix. -/

namespace Verif.Proofs.Conc
open Verif BitMatrix LayoutMatrix Verif.Concurrent
open Verif.Spec.Concurrent

/-- `ReadFile` after the last character, as in `readPiece` -/
def atEnd (p : Platform) (m : BitMatrix) (got : List UInt8) : Job :=
  match decodeHash p Alloc.ok got with
  | .ub => .undefined
  | .throw e => .threw e m
  | .ok d => if opNot d then .returned false m else .returned true (assignMoveL m d).1

theorem readPiece_eq (p : Platform) (m : BitMatrix) (name got : List UInt8) (n : Nat) (fs : Fs) :
    readPiece p m name got n fs = if ((fs.files name).getD []).drop got.length = [] then atEnd p m got
      else .reading m name (got ++ (((fs.files name).getD []).drop got.length).take (n + 1)) := by
  unfold readPiece atEnd
  split
  · rename_i h; rw [if_pos h]; rfl
  · rename_i c rest h; rw [if_neg (by rw [h]; simp), h]

/-- the job neither writes to `name` nor will -/
def Harmless (name : List UInt8) : Job → Prop
  | .flush _ nm => nm ≠ name
  | .writing _ nm _ _ => nm ≠ name
  | _ => True

theorem Harmless.advance {p : Platform} {name : List UInt8} {n : Nat} {t : Job} {fs : Fs} (h : Harmless name t) :
    Harmless name (advance p n t fs).1 ∧ (advance p n t fs).2.files name = fs.files name := by
  cases t with
  | flush m nm =>
    have hz : (setFile fs nm []).files name = fs.files name := setFile_ne _ _ (Ne.symm h)
    simp only [Concurrent.advance, openWrite]
    split_ifs
    · exact ⟨trivial, rfl⟩
    · exact ⟨trivial, rfl⟩
    · cases encodeHash m with
      | ok x => exact ⟨h, hz⟩
      | throw e => exact ⟨trivial, hz⟩
      | ub => exact ⟨trivial, hz⟩
  | writing m nm text off =>
    simp only [Concurrent.advance, writePiece]
    split_ifs
    · exact ⟨trivial, rfl⟩
    · exact ⟨h, setFile_ne _ _ (Ne.symm h)⟩
  | read m nm =>
    simp only [Concurrent.advance, openRead]
    split_ifs
    · exact ⟨trivial, trivial⟩
    · exact ⟨trivial, trivial⟩
    · cases fs.files nm with
      | none => exact ⟨trivial, trivial⟩
      | some c => exact ⟨trivial, trivial⟩
  | reading m nm got =>
    simp only [Concurrent.advance, readPiece_eq]
    split_ifs
    · refine ⟨?_, trivial⟩
      unfold atEnd
      cases decodeHash p Alloc.ok got with
      | ub => trivial
      | throw e => trivial
      | ok d => dsimp only; split_ifs <;> trivial
    · exact ⟨trivial, trivial⟩
  | returned b m => exact ⟨trivial, rfl⟩
  | threw e m => exact ⟨trivial, rfl⟩
  | undefined => exact ⟨trivial, rfl⟩

theorem advance_flags (p : Platform) (n : Nat) (t : Job) (fs : Fs) :
    (advance p n t fs).2.readable = fs.readable ∧ (advance p n t fs).2.writable = fs.writable := by
  cases t with
  | flush m nm =>
    simp only [Concurrent.advance, openWrite]
    split_ifs
    · exact ⟨rfl, rfl⟩
    · exact ⟨rfl, rfl⟩
    · cases encodeHash m <;> exact ⟨rfl, rfl⟩
  | writing m nm text off =>
    simp only [Concurrent.advance, writePiece]
    split_ifs <;> exact ⟨rfl, rfl⟩
  | _ => exact ⟨rfl, rfl⟩

theorem step_jobs (p : Platform) (w : System) (k n i : Nat) :
    (step p w k n).jobs i = if i = k then (advance p n (w.jobs k) w.fs).1 else w.jobs i := rfl

theorem step_fs (p : Platform) (w : System) (k n : Nat) : (step p w k n).fs = (advance p n (w.jobs k) w.fs).2 := rfl

/-- the writer `t` has opened the file, or nothing has happened yet -/
structure OneWriter (m : BitMatrix) (name text : List UInt8) (t : Nat) (w : System) : Prop where
  other : ∀ k, k ≠ t → Harmless name (w.jobs k)
  canRead : w.fs.readable name = true
  canWrite : w.fs.writable name = true
  writer : w.jobs t = .flush m name ∨ ∃ off, off ≤ text.length ∧ w.fs.files name = some (text.take off) ∧
    (w.jobs t = .writing m name text off ∨ w.jobs t = .returned true m)

theorem OneWriter.step {p : Platform} {m : BitMatrix} {name text : List UInt8} {t : Nat} {w : System} (I : OneWriter m name text t w)
    (hn : name ≠ []) (he : encodeHash m = .ok text) (k n : Nat) : OneWriter m name text t (step p w k n) := by
  refine ⟨?_, ?_, ?_, ?_⟩
  · intro i hi
    rw [step_jobs]
    by_cases hik : i = k
    · rw [if_pos hik, ← hik]; exact (I.other i hi).advance.1
    · rw [if_neg hik]; exact I.other i hi
  · rw [step_fs, (advance_flags p n _ _).1]; exact I.canRead
  · rw [step_fs, (advance_flags p n _ _).2]; exact I.canWrite
  · rw [step_fs, step_jobs]
    by_cases hk : t = k
    · subst hk
      rw [if_pos rfl]
      rcases I.writer with hw | ⟨off, h1, h2, h3 | h3⟩
      · right
        rw [hw]
        simp only [advance, openWrite, if_neg hn, I.canWrite, Bool.true_eq_false, if_false, he]
        exact ⟨0, Nat.zero_le _, by rw [setFile_get]; rfl, .inl rfl⟩
      · right
        rw [h3]
        simp only [advance, writePiece]
        split_ifs with h0
        · exact ⟨off, h1, h2, .inr rfl⟩
        · refine ⟨off + ((text.drop off).take n).length, ?_, ?_, .inl rfl⟩
          · rw [List.length_take, List.length_drop]; omega
          · have hp := overwrite_prefix text off n h1
            rw [setFile_get, h2, Option.getD_some, hp]
      · right
        rw [h3]
        exact ⟨off, h1, h2, .inr rfl⟩
    · rw [if_neg hk]
      have := (I.other k (Ne.symm hk)).advance (p := p) (n := n) (fs := w.fs)
      rw [this.2]
      exact I.writer

/-- a reader that opens the file after that writer -/
structure OneReader (p : Platform) (m : BitMatrix) (name text : List UInt8) (t r : Nat) (m0 : BitMatrix) (w : System) : Prop where
  one : OneWriter m name text t w
  begun : w.jobs t ≠ .flush m name
  reader : w.jobs r = .read m0 name ∨ (∃ got c, w.jobs r = .reading m0 name got ∧ w.fs.files name = some c ∧ got <+: c) ∨
    ∃ g, g <+: text ∧ w.jobs r = atEnd p m0 g

theorem OneReader.step {p : Platform} {m : BitMatrix} {name text : List UInt8} {t r : Nat} {m0 : BitMatrix} {w : System}
    (I : OneReader p m name text t r m0 w) (hn : name ≠ []) (he : encodeHash m = .ok text) (htr : r ≠ t) (k n : Nat) :
    OneReader p m name text t r m0 (step p w k n) := by
  have J := I.one.step (p := p) hn he k n
  obtain ⟨off, h1, h2, h3⟩ : ∃ off, off ≤ text.length ∧ w.fs.files name = some (text.take off) ∧
      (w.jobs t = .writing m name text off ∨ w.jobs t = .returned true m) := by
    rcases I.one.writer with h | h
    · exact absurd h I.begun
    · exact h
  have hbeg : (Concurrent.step p w k n).jobs t ≠ .flush m name := by
    rw [step_jobs]
    by_cases hk : t = k
    · rw [if_pos hk, ← hk]
      rcases h3 with h3 | h3
      · rw [h3]
        simp only [advance, writePiece]
        split_ifs <;> simp
      · rw [h3]; simp [advance]
    · rw [if_neg hk]; exact I.begun
  refine ⟨J, hbeg, ?_⟩
  by_cases hk : r = k
  · subst hk
    have hsame : (Concurrent.step p w r n).fs.files name = w.fs.files name := by
      rw [step_fs]; exact (I.one.other r htr).advance.2
    rw [hsame, step_jobs, if_pos rfl]
    rcases I.reader with hr | ⟨got, c, hr, hc, hg⟩ | ⟨g, hg, hr⟩
    · rw [hr]
      simp only [advance, openRead, if_neg hn, I.one.canRead, Bool.true_eq_false, if_false, h2]
      exact .inr (.inl ⟨[], _, rfl, rfl, List.nil_prefix⟩)
    · rw [hr]
      simp only [advance, readPiece_eq, hc, Option.getD_some]
      obtain ⟨z, rfl⟩ := hg
      rw [List.drop_left]
      split_ifs with hz
      · subst hz
        rw [List.append_nil] at hc
        rw [h2] at hc
        cases hc
        exact .inr (.inr ⟨_, List.take_prefix _ _, rfl⟩)
      · refine .inr (.inl ⟨_, _, rfl, rfl, ?_⟩)
        exact (List.prefix_append_right_inj got).2 (List.take_prefix _ _)
    · right; right
      refine ⟨g, hg, ?_⟩
      rw [hr]
      unfold atEnd
      cases decodeHash p Alloc.ok g with
      | ub => rfl
      | throw e => rfl
      | ok d => dsimp only; split_ifs <;> rfl
  · rw [step_jobs, if_neg hk]
    rcases I.reader with hr | ⟨got, c, hr, hc, hg⟩ | hr
    · exact .inl hr
    · refine .inr (.inl ⟨got, ?_⟩)
      rw [step_fs]
      rw [h2] at hc
      cases hc
      by_cases htk : t = k
      · subst htk
        rcases h3 with h3 | h3
        · rw [h3]
          simp only [advance, writePiece]
          split_ifs with h0
          · exact ⟨_, hr, h2, hg⟩
          · refine ⟨_, hr, setFile_get _ _ _, hg.trans ?_⟩
            rw [h2, Option.getD_some]
            rw [overwrite_prefix text off n h1, List.take_add]
            exact List.prefix_append _ _
        · rw [h3]
          exact ⟨_, hr, h2, hg⟩
      · refine ⟨_, hr, ?_, hg⟩
        rw [(I.one.other k (Ne.symm htk)).advance.2, h2]
    · exact .inr (.inr hr)

/-- all flushes of `name` write `text` -/
def Agrees (name text : List UInt8) : Job → Prop
  | .flush m nm => nm = name → encodeHash m = .ok text
  | .writing _ nm t off => nm = name → t = text ∧ off ≤ text.length
  | _ => True

theorem Agrees.advance {p : Platform} {name text : List UInt8} {n : Nat} {t : Job} {fs : Fs} (h : Agrees name text t) :
    Agrees name text (advance p n t fs).1 := by
  cases t with
  | flush m nm =>
    simp only [Concurrent.advance, openWrite]
    split_ifs
    · trivial
    · trivial
    · cases he : encodeHash m with
      | ok x =>
        intro hn
        rw [h hn] at he
        cases he
        exact ⟨rfl, Nat.zero_le _⟩
      | throw e => trivial
      | ub => trivial
  | writing m nm t off =>
    simp only [Concurrent.advance, writePiece]
    split_ifs
    · trivial
    · intro hn
      obtain ⟨rfl, h1⟩ := h hn
      refine ⟨rfl, ?_⟩
      rw [List.length_take, List.length_drop]; omega
  | read m nm =>
    simp only [Concurrent.advance, openRead]
    split_ifs
    · trivial
    · trivial
    · cases fs.files nm <;> trivial
  | reading m nm got =>
    simp only [Concurrent.advance, readPiece_eq]
    split_ifs
    · unfold atEnd
      cases decodeHash p Alloc.ok got with
      | ub => trivial
      | throw e => trivial
      | ok d => dsimp only; split_ifs <;> trivial
    · trivial
  | returned b m => trivial
  | threw e m => trivial
  | undefined => trivial

structure Same (name text : List UInt8) (w0 w : System) : Prop where
  jobs : ∀ k, Agrees name text (w.jobs k)
  canWrite : w.fs.writable name = true
  size : ∀ c, w.fs.files name = some c → c.length ≤ text.length
  state : ((∀ k, ¬ WritesTo (w.jobs k) name) ∧ ∀ k m, w0.jobs k = .flush m name → w.jobs k = .flush m name) ∨
    w.fs.files name = some text ∨
    ∃ k m off c, w.jobs k = .writing m name text off ∧ w.fs.files name = some c ∧ ∀ i, i < off → c[i]? = text[i]?

theorem overwrite_agree (c text : List UInt8) (off n : Nat) (i : Nat) (h : c[i]? = text[i]?) (hi : i < text.length) :
    (overwrite c off ((text.drop off).take n))[i]? = text[i]? := by
  rw [overwrite_get]
  split_ifs with h1 h2 h3
  · exact h
  · rw [List.getElem?_eq_getElem hi] at h
    obtain ⟨hlt, _⟩ := List.getElem?_eq_some_iff.1 h
    omega
  · exact piece_get text off n i (by omega) h3
  · exact h

theorem Same.step {p : Platform} {name text : List UInt8} {w0 w : System} (I : Same name text w0 w) (hn : name ≠ []) (k n : Nat) (h0 : n ≠ 0) :
    Same name text w0 (step p w k n) := by
  have ha := I.jobs k
  refine ⟨?_, ?_, ?_, ?_⟩
  · intro i
    rw [step_jobs]
    by_cases hik : i = k
    · rw [if_pos hik]; exact ha.advance
    · rw [if_neg hik]; exact I.jobs i
  · rw [step_fs, (advance_flags p n _ _).2]; exact I.canWrite
  · rw [step_fs]
    by_cases hh : Harmless name (w.jobs k)
    · rw [hh.advance.2]; exact I.size
    · generalize w.jobs k = t at ha hh
      cases t with
      | flush m nm =>
        have hnm : nm = name := by simpa [Harmless] using hh
        subst hnm
        simp only [advance, openWrite, if_neg hn, I.canWrite, Bool.true_eq_false, if_false, ha rfl, setFile_get]
        intro c hc
        cases hc
        exact Nat.zero_le _
      | writing m nm t off =>
        have hnm : nm = name := by simpa [Harmless] using hh
        subst hnm
        obtain ⟨rfl, hoff⟩ := ha rfl
        simp only [advance, writePiece]
        split_ifs with h1
        · exact I.size
        · simp only [setFile_get]
          intro c hc
          cases hc
          rw [overwrite_length, List.length_take, List.length_drop]
          have : ((w.fs.files nm).getD []).length ≤ t.length := by
            cases hf : w.fs.files nm with
            | none => exact Nat.zero_le _
            | some c => exact I.size c hf
          omega
      | _ => exact absurd trivial hh
  · by_cases hh : Harmless name (w.jobs k)
    · -- the file is not touched
      have hadv := hh.advance (p := p) (n := n) (fs := w.fs)
      rw [step_fs, hadv.2]
      rcases I.state with ⟨h1, h2⟩ | h1 | ⟨k0, m, off, c, h1, h2, h3⟩
      · left
        refine ⟨fun i => ?_, fun i m hm => ?_⟩
        · rw [step_jobs]
          by_cases hik : i = k
          · rw [if_pos hik]
            have := hadv.1
            generalize (advance p n (w.jobs k) w.fs).1 = t at this
            cases t with
            | writing m' nm' t' off' => exact this
            | _ => exact id
          · rw [if_neg hik]; exact h1 i
        · have := h2 i m hm
          rw [step_jobs]
          by_cases hik : i = k
          · rw [← hik, this] at hh
            exact absurd rfl hh
          · rw [if_neg hik]; exact this
      · exact .inr (.inl h1)
      · refine .inr (.inr ⟨k0, m, off, c, ?_, h2, h3⟩)
        rw [step_jobs]
        by_cases hik : k0 = k
        · rw [← hik, h1] at hh
          exact absurd rfl hh
        · rw [if_neg hik]; exact h1
    · generalize ht : w.jobs k = t at ha hh
      cases t with
      | flush m nm =>
        have hnm : nm = name := by simpa [Harmless] using hh
        subst hnm
        right; right
        refine ⟨k, m, 0, [], ?_, ?_, fun i hi => absurd hi (Nat.not_lt_zero i)⟩
        · rw [step_jobs, if_pos rfl, ht]
          simp only [advance, openWrite, if_neg hn, I.canWrite, Bool.true_eq_false, if_false, ha rfl]
        · rw [step_fs, ht]
          simp only [advance, openWrite, if_neg hn, I.canWrite, Bool.true_eq_false, if_false, ha rfl, setFile_get]
      | writing m nm t off =>
        have hnm : nm = name := by simpa [Harmless] using hh
        subst hnm
        obtain ⟨rfl, hoff⟩ := ha rfl
        rw [step_fs, ht]
        simp only [advance, writePiece]
        rcases I.state with ⟨h1, h2⟩ | h1 | ⟨k0, m0, off0, c, h1, h2, h3⟩
        · exact absurd (by rw [ht]; rfl) (h1 k)
        · right; left
          split_ifs with h4
          · exact h1
          · simp only [setFile_get, h1, Option.getD_some]
            congr 1
            apply List.ext_getElem?
            intro i
            by_cases hi : i < t.length
            · exact overwrite_agree t t off n i rfl hi
            · have hl : (overwrite t off ((t.drop off).take n)).length ≤ t.length := by
                rw [overwrite_length, List.length_take, List.length_drop]; omega
              rw [List.getElem?_eq_none (by omega), List.getElem?_eq_none (by omega)]
        · have hoff0 : off0 ≤ t.length := by
            have := I.jobs k0
            rw [h1] at this
            exact (this rfl).2
          by_cases hk0 : k0 = k
          · subst hk0
            rw [h1] at ht
            cases ht
            split_ifs with h4
            · right; left
              rw [h2]
              congr 1
              apply List.ext_getElem?
              intro i
              by_cases hi : i < t.length
              · exact h3 i (by omega)
              · have := I.size c h2
                rw [List.getElem?_eq_none (by omega), List.getElem?_eq_none (by omega)]
            · right; right
              refine ⟨k0, m, off + ((t.drop off).take n).length, _, ?_, setFile_get _ _ _, ?_⟩
              · rw [step_jobs, if_pos rfl, h1]
                simp only [advance, writePiece, if_neg h4]
              · intro i hi
                rw [h2, Option.getD_some]
                by_cases hio : i < off
                · exact overwrite_agree c t off n i (h3 i hio) (by omega)
                · rw [overwrite_get, if_neg hio, if_pos hi]
                  exact piece_get t off n i (by omega) hi
          · right; right
            refine ⟨k0, m0, off0, ?_⟩
            have hj : (Concurrent.step p w k n).jobs k0 = .writing m0 nm t off0 := by rw [step_jobs, if_neg hk0]; exact h1
            rw [hj]
            split_ifs with h4
            · exact ⟨c, rfl, h2, h3⟩
            · refine ⟨_, rfl, setFile_get _ _ _, fun i hi => ?_⟩
              rw [h2, Option.getD_some]
              exact overwrite_agree c t off n i (h3 i hi) (by omega)
      | _ => exact absurd trivial hh

theorem Same.run {p : Platform} {name text : List UInt8} {w0 : System} (hn : name ≠ []) : ∀ (s : List (Nat × Nat)) (w : System),
    (∀ a ∈ s, a.2 ≠ 0) → Same name text w0 w → Same name text w0 (run p w s) := by
  intro s
  induction s with
  | nil => intro w _ I; exact I
  | cons a s ih =>
    intro w h I
    exact ih _ (fun b hb => h b (List.mem_cons_of_mem _ hb)) (I.step hn a.1 a.2 (h a List.mem_cons_self))

end Verif.Proofs.Conc
