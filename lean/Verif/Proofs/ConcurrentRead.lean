import Verif.Spec.Concurrent
import Verif.Proofs.ConcurrentText

/-! Proofs for C81: what readers get. -/

namespace Verif.Proofs.Conc
open Verif BitMatrix LayoutMatrix Verif.Concurrent
open Verif.Spec.Concurrent

theorem run_inv (p : Platform) (P : System → Prop) (hstep : ∀ w k n, P w → P (step p w k n)) :
    ∀ (s : List (Nat × Nat)) (w : System), P w → P (run p w s) := by
  intro s
  induction s with
  | nil => intro w h; exact h
  | cons a s ih => intro w h; exact ih _ (hstep w a.1 a.2 h)

theorem run_append (p : Platform) : ∀ (s t : List (Nat × Nat)) (w : System), run p w (s ++ t) = run p (run p w s) t := by
  intro s
  induction s with
  | nil => intro t w; rfl
  | cons a s ih => intro t w; exact ih t _

theorem overwrite_get (c : List UInt8) (off : Nat) (piece : List UInt8) (i : Nat) :
    (overwrite c off piece)[i]? =
      if i < off then (if i < c.length then c[i]? else some 0)
      else if i < off + piece.length then piece[i - off]? else c[i]? := by
  have hl : ((c ++ List.replicate (off - c.length) 0).take off).length = off := by
    rw [List.length_take, List.length_append, List.length_replicate]; omega
  unfold overwrite
  rw [List.append_assoc]
  split_ifs with h1 h2 h3
  · rw [List.getElem?_append_left (by omega), List.getElem?_take, if_pos h1, List.getElem?_append_left h2]
  · rw [List.getElem?_append_left (by omega), List.getElem?_take, if_pos h1, List.getElem?_append_right (by omega),
      List.getElem?_replicate, if_pos (by omega)]
  · rw [List.getElem?_append_right (by omega), hl, List.getElem?_append_left (by omega)]
  · rw [List.getElem?_append_right (by omega), hl, List.getElem?_append_right (by omega), List.getElem?_drop]
    congr 1
    omega

theorem overwrite_length (c : List UInt8) (off : Nat) (piece : List UInt8) :
    (overwrite c off piece).length = max c.length (off + piece.length) := by
  unfold overwrite
  simp only [List.length_append, List.length_take, List.length_replicate, List.length_drop]
  omega

theorem piece_get (text : List UInt8) (off n i : Nat) (h1 : off ≤ i) (h2 : i < off + ((text.drop off).take n).length) :
    ((text.drop off).take n)[i - off]? = text[i]? := by
  rw [List.length_take, List.length_drop] at h2
  rw [List.getElem?_take, if_pos (by omega), List.getElem?_drop]
  congr 1
  omega

theorem MadeOf.overwrite {T : List UInt8 → Prop} {c text : List UInt8} (h : MadeOf T c) (ht : T text) (off n : Nat) :
    MadeOf T (overwrite c off ((text.drop off).take n)) := by
  intro i b hb
  rw [overwrite_get] at hb
  split_ifs at hb with h1 h2 h3
  · exact h i b hb
  · left; simpa using hb.symm
  · rw [piece_get text off n i (by omega) h3] at hb
    exact .inr ⟨text, ht, hb⟩
  · exact h i b hb

theorem MadeOf.append {T : List UInt8 → Prop} {c got : List UInt8} (h : MadeOf T c) (hg : MadeOf T got) (n : Nat) :
    MadeOf T (got ++ (c.drop got.length).take n) := by
  intro i b hb
  by_cases hi : i < got.length
  · rw [List.getElem?_append_left hi] at hb
    exact hg i b hb
  · rw [List.getElem?_append_right (by omega), List.getElem?_take] at hb
    split_ifs at hb
    rw [List.getElem?_drop, show got.length + (i - got.length) = i by omega] at hb
    exact h i b hb

theorem madeOf_nil (T : List UInt8 → Prop) : MadeOf T [] := by
  intro i b hb
  simp at hb

/-- the call, as far as it writes to or reads from `name`, deals with characters from `T` -/
def Deals (T : List UInt8 → Prop) (name : List UInt8) : Job → Prop
  | .flush m nm => nm = name → ∀ h, encodeHash m = .ok h → T h
  | .writing _ nm text _ => nm = name → T text
  | .reading _ nm got => nm = name → MadeOf T got
  | _ => True

structure Mixed (p : Platform) (T : List UInt8 → Prop) (name : List UInt8) (w0 w : System) : Prop where
  file : ∀ c, w.fs.files name = some c → MadeOf T c
  jobs : ∀ k, Deals T name (w.jobs k)
  reads : ∀ k m, w0.jobs k = .read m name → ReadSaw p (MadeOf T) name m (w.jobs k)

/-- a property of all calls after one of them has gone on -/
theorem forall_step {P : Nat → Job → Prop} {jobs : Nat → Job} {k : Nat} {t : Job} (h : ∀ i, P i (jobs i)) (hk : P k t) :
    ∀ i, P i (if i = k then t else jobs i) := by
  intro i
  by_cases hi : i = k
  · rw [if_pos hi, hi]; exact hk
  · rw [if_neg hi]; exact h i

theorem setFile_get (fs : Fs) (name c : List UInt8) : (setFile fs name c).files name = some c := by simp [setFile]

theorem setFile_ne (fs : Fs) {name nm : List UInt8} (c : List UInt8) (h : nm ≠ name) : (setFile fs name c).files nm = fs.files nm := by
  simp [setFile, h]

theorem Mixed.step {p : Platform} {T : List UInt8 → Prop} {name : List UInt8} {w0 w : System} (I : Mixed p T name w0 w) (k n : Nat) :
    Mixed p T name w0 (step p w k n) := by
  have hjk := I.jobs k
  have hrk := I.reads k
  suffices H : Deals T name (advance p n (w.jobs k) w.fs).1 ∧
      (∀ m, w0.jobs k = .read m name → ReadSaw p (MadeOf T) name m (advance p n (w.jobs k) w.fs).1) ∧
      ∀ c, (advance p n (w.jobs k) w.fs).2.files name = some c → MadeOf T c from
    ⟨H.2.2, forall_step I.jobs H.1,
      forall_step (P := fun i t => ∀ m, w0.jobs i = .read m name → ReadSaw p (MadeOf T) name m t) I.reads H.2.1⟩
  generalize ht : w.jobs k = t at hjk hrk
  cases t with
  | flush m nm =>
    have hno : ∀ (t : Job) m', w0.jobs k = .read m' name → ReadSaw p (MadeOf T) name m' t := fun t m' e => (nomatch hrk m' e)
    have hz : ∀ c, (setFile w.fs nm []).files name = some c → MadeOf T c := by
      intro c hc
      by_cases hn : name = nm
      · subst hn
        rw [setFile_get] at hc
        cases hc
        exact madeOf_nil T
      · rw [setFile_ne _ _ hn] at hc
        exact I.file c hc
    simp only [advance, openWrite]
    split_ifs with h1 h2
    · exact ⟨trivial, hno _, I.file⟩
    · exact ⟨trivial, hno _, I.file⟩
    · cases he : encodeHash m with
      | ok h => exact ⟨fun hn => hjk hn h he, hno _, hz⟩
      | throw e => exact ⟨trivial, hno _, hz⟩
      | ub => exact ⟨trivial, hno _, hz⟩
  | writing m nm text off =>
    have hno : ∀ (t : Job) m', w0.jobs k = .read m' name → ReadSaw p (MadeOf T) name m' t := fun t m' e => (nomatch hrk m' e)
    simp only [advance, writePiece]
    split_ifs with h1
    · exact ⟨trivial, hno _, I.file⟩
    · refine ⟨hjk, hno _, fun c hc => ?_⟩
      by_cases hn : name = nm
      · subst hn
        rw [setFile_get] at hc
        cases hc
        refine MadeOf.overwrite ?_ (hjk rfl) off n
        cases hf : w.fs.files name with
        | none => exact madeOf_nil T
        | some c => exact I.file c hf
      · rw [setFile_ne _ _ hn] at hc
        exact I.file c hc
  | read m nm =>
    have hsaw : ∀ m', w0.jobs k = .read m' name → m' = m ∧ nm = name := by
      intro m' e
      cases hrk m' e
      exact ⟨rfl, rfl⟩
    simp only [advance, openRead]
    split_ifs with h1 h2
    · exact ⟨trivial, fun m' e => (hsaw m' e).1 ▸ .closed, I.file⟩
    · exact ⟨trivial, fun m' e => (hsaw m' e).1 ▸ .closed, I.file⟩
    · cases hc : w.fs.files nm with
      | none => exact ⟨trivial, fun m' e => (hsaw m' e).1 ▸ .closed, I.file⟩
      | some c =>
        refine ⟨fun _ => madeOf_nil T, fun m' e => ?_, I.file⟩
        rw [(hsaw m' e).1, (hsaw m' e).2]
        exact .reading []
  | reading m nm got =>
    have hsaw : ∀ m', w0.jobs k = .read m' name → m' = m ∧ nm = name := by
      intro m' e
      cases hrk m' e
      exact ⟨rfl, rfl⟩
    simp only [advance, readPiece]
    cases hd : ((w.fs.files nm).getD []).drop got.length with
    | nil =>
      dsimp only
      cases hdec : decodeHash p Alloc.ok got with
      | ub => exact ⟨trivial, fun m' e => .undefined got (hjk (hsaw m' e).2) hdec, I.file⟩
      | throw e => exact ⟨trivial, fun m' e' => (hsaw m' e').1 ▸ .threw got e (hjk (hsaw m' e').2) hdec, I.file⟩
      | ok d =>
        dsimp only
        by_cases hnd : opNot d = true
        · rw [if_pos hnd]
          exact ⟨trivial, fun m' e => (hsaw m' e).1 ▸ .hollow got d (hjk (hsaw m' e).2) hdec hnd, I.file⟩
        · rw [if_neg hnd]
          exact ⟨trivial, fun m' e => .loaded got d (hjk (hsaw m' e).2) hdec (by simpa using hnd), I.file⟩
    | cons b rest =>
      dsimp only
      refine ⟨fun hn => ?_, fun m' e => ?_, I.file⟩
      · rw [← hd]
        refine MadeOf.append ?_ (hjk hn) (n + 1)
        subst hn
        cases hf : w.fs.files nm with
        | none => exact madeOf_nil T
        | some c => exact I.file c hf
      · rw [(hsaw m' e).1, (hsaw m' e).2]
        exact .reading _
  | returned b m => exact ⟨hjk, hrk, I.file⟩
  | threw e m => exact ⟨hjk, hrk, I.file⟩
  | undefined => exact ⟨hjk, hrk, I.file⟩

theorem Mixed.run {p : Platform} {T : List UInt8 → Prop} {name : List UInt8} {w0 : System} (s : List (Nat × Nat)) (w : System)
    (I : Mixed p T name w0 w) : Mixed p T name w0 (run p w s) :=
  run_inv p (Mixed p T name w0) (fun _ k n I => I.step k n) s w I

theorem Mixed.init {p : Platform} {T : List UInt8 → Prop} {name : List UInt8} {w0 : System} (h0 : ∀ i, Waiting (w0.jobs i))
    (hf : ∀ c, w0.fs.files name = some c → MadeOf T c) (hT : ∀ i m h, w0.jobs i = .flush m name → encodeHash m = .ok h → T h) :
    Mixed p T name w0 w0 := by
  refine ⟨hf, fun k => ?_, fun k m e => by rw [e]; exact .waiting⟩
  obtain ⟨m, nm, e | e⟩ := h0 k
  · rw [e]
    intro hn h hh
    subst hn
    exact hT k m h e hh
  · rw [e]; trivial

end Verif.Proofs.Conc
