import Verif.Spec.Concurrent
import Verif.Props.FileHistory

/-! Proofs for C81. -/

namespace Verif.Proofs.Conc
open Verif BitMatrix LayoutMatrix Verif.Concurrent
open Verif.Spec.Concurrent Verif.Spec.FileHistory
open Verif.Props.FileHistory (Real call calls)

theorem overwrite_prefix (text : List UInt8) (off n : Nat) (h : off ≤ text.length) :
    overwrite (text.take off) off ((text.drop off).take n) = text.take (off + ((text.drop off).take n).length) := by
  have h1 : (text.take off).length = off := by simp [h]
  have h2 : (text.take off).drop (off + ((text.drop off).take n).length) = [] := List.drop_eq_nil_of_le (by omega)
  unfold overwrite
  rw [h2, h1, Nat.sub_self, List.replicate_zero, List.append_nil, List.append_nil, List.take_of_length_le (by omega)]
  rw [List.length_take, List.length_drop, List.take_add]
  congr 1
  by_cases hn : n ≤ text.length - off
  · rw [Nat.min_eq_left hn]
  · rw [Nat.min_eq_right (by omega), List.take_of_length_le (by rw [List.length_drop]; omega),
      List.take_of_length_le (by rw [List.length_drop])]

theorem calls_append (p : Platform) (ops : List Op) (op : Op) : ∀ (r x x' : Real) (h : List (Op × Obs)) (ob : Obs),
    calls p r ops = some (h, x) → call p x op = some (ob, x') → calls p r (ops ++ [op]) = some (h ++ [(op, ob)], x') := by
  induction ops with
  | nil =>
    intro r x x' h ob e1 e2
    simp only [calls, Option.some.injEq, Prod.mk.injEq] at e1
    obtain ⟨rfl, rfl⟩ := e1
    simp [calls, e2]
  | cons o ops ih =>
    intro r x x' h ob e1 e2
    simp only [calls, Option.bind_eq_bind] at e1
    cases ec : call p r o with
    | none => simp [ec] at e1
    | some q =>
      obtain ⟨ob1, r1⟩ := q
      simp only [ec, Option.bind_some] at e1
      cases ed : calls p r1 ops with
      | none => simp [ed] at e1
      | some q =>
        obtain ⟨h1, r2⟩ := q
        simp only [ed, Option.bind_some, Option.some.injEq, Prod.mk.injEq] at e1
        obtain ⟨rfl, rfl⟩ := e1
        have := ih r1 r2 x' h1 ob ed e2
        simp only [List.cons_append, calls, ec, Option.bind_eq_bind, Option.bind_some, this]

theorem calls_append_none (p : Platform) (ops : List Op) (op : Op) : ∀ (r x : Real) (h : List (Op × Obs)),
    calls p r ops = some (h, x) → call p x op = none → calls p r (ops ++ [op]) = none := by
  induction ops with
  | nil =>
    intro r x h e1 e2
    simp only [calls, Option.some.injEq, Prod.mk.injEq] at e1
    obtain ⟨rfl, rfl⟩ := e1
    simp [calls, e2]
  | cons o ops ih =>
    intro r x h e1 e2
    simp only [calls, Option.bind_eq_bind] at e1
    cases ec : call p r o with
    | none => simp [ec] at e1
    | some q =>
      obtain ⟨ob1, r1⟩ := q
      simp only [ec, Option.bind_some] at e1
      cases ed : calls p r1 ops with
      | none => simp [ed] at e1
      | some q =>
        obtain ⟨h1, r2⟩ := q
        simp only [ed, Option.bind_some, Option.some.injEq, Prod.mk.injEq] at e1
        obtain ⟨rfl, rfl⟩ := e1
        have := ih r1 r2 h1 ed e2
        simp only [List.cons_append, calls, ec, Option.bind_eq_bind, Option.bind_some, this, Option.bind_none]

/-- where a call is, in relation to the calls of C64 made so far -/
inductive JobOk (w0 : System) (pre : List (Nat × Nat)) (fs : Fs) (t : Job) (h : List (Op × Obs)) (o : BitMatrix) (i : Nat) : Prop
  | waiting : t = w0.jobs i → o = objOf (w0.jobs i) → i ∉ h.map (objectOf ·.1) → JobOk w0 pre fs t h o i
  | writing (m : BitMatrix) (name text : List UInt8) (off : Nat) : t = .writing m name text off → w0.jobs i = .flush m name → o = m →
      name ≠ [] → w0.fs.writable name = true → encodeHash m = .ok text → off ≤ text.length → fs.files name = some (text.take off) →
      i ∉ h.map (objectOf ·.1) → JobOk w0 pre fs t h o i
  | reading (m : BitMatrix) (name got c : List UInt8) : t = .reading m name got → w0.jobs i = .read m name → o = m →
      name ≠ [] → w0.fs.readable name = true → fs.files name = some c → got = c.take got.length →
      i ∉ h.map (objectOf ·.1) → JobOk w0 pre fs t h o i
  | ended (ob : Obs) (m : BitMatrix) (op : Op) : Ended t ob m → o = m → (op, ob) ∈ h → CallOf i (w0.jobs i) op →
      (NeverFull i pre → Complete op) → JobOk w0 pre fs t h o i

structure Inv (p : Platform) (w0 : System) (pre : List (Nat × Nat)) (w : System) (h : List (Op × Obs)) (x : Real) : Prop where
  done : calls p ⟨fun i => objOf (w0.jobs i), w0.fs⟩ (h.map (·.1)) = some (h, x)
  canRead : w.fs.readable = w0.fs.readable ∧ x.fs.readable = w0.fs.readable
  canWrite : w.fs.writable = w0.fs.writable ∧ x.fs.writable = w0.fs.writable
  jobs : ∀ i, JobOk w0 pre w.fs (w.jobs i) h (x.objs i) i
  alone : ∀ i j name, i ≠ j → WritesTo (w.jobs i) name → ¬ WritesTo (w.jobs j) name ∧ ¬ ReadsFrom (w.jobs j) name
  hist : ∀ op ob, (op, ob) ∈ h → ∃ i m, CallOf i (w0.jobs i) op ∧ Ended (w.jobs i) ob m
  nodup : (h.map (objectOf ·.1)).Nodup
  files : ∀ name, (∀ i, ¬ WritesTo (w.jobs i) name) → x.fs.files name = w.fs.files name

theorem callOf_object {i : Nat} {t : Job} {op : Op} (h : CallOf i t op) : objectOf op = i := by
  cases t with
  | flush m name => obtain ⟨l, rfl⟩ := h; rfl
  | read m name => rw [show op = _ from h]; rfl
  | _ => exact h.elim

theorem callOf_not_assign {i : Nat} {t : Job} {op : Op} (h : CallOf i t op) : ∀ o m, op ≠ .assign o m := by
  cases t with
  | flush m name => obtain ⟨l, rfl⟩ := h; intro o m e; cases e
  | read m name => rw [show op = _ from h]; intro o m e; cases e
  | _ => exact h.elim

/-- the state of another call is not disturbed -/
theorem JobOk.frame {w0 : System} {pre : List (Nat × Nat)} {fs fs' : Fs} {t : Job} {h h' : List (Op × Obs)} {o : BitMatrix} {j : Nat}
    (k : JobOk w0 pre fs t h o j) (a : Nat × Nat) (hf : ∀ name, WritesTo t name ∨ ReadsFrom t name → fs'.files name = fs.files name)
    (hsub : ∀ e, e ∈ h → e ∈ h') (hnew : j ∉ h.map (objectOf ·.1) → j ∉ h'.map (objectOf ·.1)) :
    JobOk w0 (pre ++ [a]) fs' t h' o j := by
  cases k with
  | waiting a1 a2 a3 => exact .waiting a1 a2 (hnew a3)
  | writing m name text off a1 a2 a3 a4 a5 a6 a7 a8 a9 =>
    exact .writing m name text off a1 a2 a3 a4 a5 a6 a7 (by rw [hf name (.inl (by rw [a1]; rfl)), a8]) (hnew a9)
  | reading m name got c a1 a2 a3 a4 a5 a6 a7 a8 =>
    exact .reading m name got c a1 a2 a3 a4 a5 (by rw [hf name (.inr (by rw [a1]; rfl)), a6]) a7 (hnew a8)
  | ended ob m op a1 a2 a3 a4 a5 =>
    exact .ended ob m op a1 a2 (hsub _ a3) a4 (fun hn => a5 fun n hm => hn n (List.mem_append_left _ hm))


/-- no sequence of the calls is undefined -/
def Safe (p : Platform) (w0 : System) : Prop :=
  ∀ ops : List Op, (∀ op ∈ ops, ∀ o m, op ≠ .assign o m) → calls p ⟨fun i => objOf (w0.jobs i), w0.fs⟩ ops ≠ none

/-- a call that ends -/
theorem Inv.finish {p : Platform} {w0 w : System} {pre : List (Nat × Nat)} {h : List (Op × Obs)} {x : Real} (I : Inv p w0 pre w h x)
    (k n : Nat) (t : Job) (fs : Fs) (ob : Obs) (m : BitMatrix) (op : Op) (x' : Real)
    (hk : k ∉ h.map (objectOf ·.1)) (he : Ended t ob m) (hc : CallOf k (w0.jobs k) op) (ht : NeverFull k (pre ++ [(k, n)]) → Complete op)
    (hcall : call p x op = some (ob, x')) (hr : fs.readable = w.fs.readable) (hw : fs.writable = w.fs.writable)
    (hxr : x'.fs.readable = x.fs.readable) (hxw : x'.fs.writable = x.fs.writable)
    (ho : x'.objs k = m) (hoth : ∀ j, j ≠ k → x'.objs j = x.objs j)
    (hfs : ∀ j name, j ≠ k → WritesTo (w.jobs j) name ∨ ReadsFrom (w.jobs j) name → fs.files name = w.fs.files name)
    (hfiles : ∀ name, (∀ j, j ≠ k → ¬ WritesTo (w.jobs j) name) → x'.fs.files name = fs.files name) :
    Inv p w0 (pre ++ [(k, n)]) ⟨fs, fun i => if i = k then t else w.jobs i⟩ (h ++ [(op, ob)]) x' := by
  have hop : objectOf op = k := callOf_object hc
  have hopen : ∀ name, ¬ WritesTo t name ∧ ¬ ReadsFrom t name := by
    intro name
    cases he <;> exact ⟨id, id⟩
  refine ⟨?_, ⟨hr.trans I.canRead.1, hxr.trans I.canRead.2⟩, ⟨hw.trans I.canWrite.1, hxw.trans I.canWrite.2⟩, ?_, ?_, ?_, ?_, ?_⟩
  · rw [List.map_append]
    exact calls_append p _ op _ x x' h ob I.done hcall
  · intro i
    by_cases hi : i = k
    · subst hi
      simp only [if_true]
      exact .ended ob m op he ho (by simp) hc ht
    · simp only [if_neg hi, hoth i hi]
      refine (I.jobs i).frame (k, n) (fun name hn => hfs i name hi hn) (fun e he => List.mem_append_left _ he) ?_
      intro hni
      simp only [List.map_append, List.map_cons, List.map_nil, List.mem_append, List.mem_singleton, hop, not_or]
      exact ⟨hni, hi⟩
  · intro i j name hij hwr
    by_cases hi : i = k
    · simp only [hi, if_true] at hwr
      exact absurd hwr (hopen name).1
    · simp only [if_neg hi] at hwr
      by_cases hj : j = k
      · simp only [hj, if_true]; exact hopen name
      · simp only [if_neg hj]; exact I.alone i j name hij hwr
  · intro op' ob' hm
    rcases List.mem_append.1 hm with hm | hm
    · obtain ⟨i, m', hc', he'⟩ := I.hist op' ob' hm
      refine ⟨i, m', hc', ?_⟩
      by_cases hi : i = k
      · refine absurd (List.mem_map.2 ⟨(op', ob'), hm, ?_⟩) hk
        rw [← hi]
        exact callOf_object hc'
      · simp only [if_neg hi]; exact he'
    · simp only [List.mem_singleton, Prod.mk.injEq] at hm
      obtain ⟨rfl, rfl⟩ := hm
      exact ⟨k, m, hc, by simpa using he⟩
  · rw [List.map_append, List.nodup_append]
    refine ⟨I.nodup, by simp, ?_⟩
    intro a ha b hb
    simp only [List.map_cons, List.map_nil, List.mem_singleton] at hb
    rw [hb, hop]
    rintro rfl
    exact hk ha
  · intro name hno
    refine hfiles name fun j hj => ?_
    have := hno j
    simpa only [if_neg hj] using this

/-- a call that goes on -/
theorem Inv.goOn {p : Platform} {w0 w : System} {pre : List (Nat × Nat)} {h : List (Op × Obs)} {x : Real} (I : Inv p w0 pre w h x)
    (k n : Nat) (t : Job) (fs : Fs) (hk : k ∉ h.map (objectOf ·.1)) (hr : fs.readable = w.fs.readable) (hw : fs.writable = w.fs.writable)
    (hok : JobOk w0 (pre ++ [(k, n)]) fs t h (x.objs k) k)
    (hfs : ∀ j name, j ≠ k → WritesTo (w.jobs j) name ∨ ReadsFrom (w.jobs j) name → fs.files name = w.fs.files name)
    (hwt : ∀ j name, j ≠ k → WritesTo t name → ¬ WritesTo (w.jobs j) name ∧ ¬ ReadsFrom (w.jobs j) name)
    (hrd : ∀ j name, j ≠ k → ReadsFrom t name → ¬ WritesTo (w.jobs j) name)
    (hfiles : ∀ name, ¬ WritesTo t name → fs.files name = w.fs.files name ∧ ¬ WritesTo (w.jobs k) name) :
    Inv p w0 (pre ++ [(k, n)]) ⟨fs, fun i => if i = k then t else w.jobs i⟩ (h ++ []) x := by
  rw [List.append_nil]
  refine ⟨I.done, ⟨hr.trans I.canRead.1, I.canRead.2⟩, ⟨hw.trans I.canWrite.1, I.canWrite.2⟩, ?_, ?_, ?_, I.nodup, ?_⟩
  · intro i
    by_cases hi : i = k
    · subst hi
      simp only [if_true]
      exact hok
    · simp only [if_neg hi]
      exact (I.jobs i).frame (k, n) (fun name hn => hfs i name hi hn) (fun e he => he) id
  · intro i j name hij hwr
    by_cases hi : i = k
    · simp only [hi, if_true] at hwr
      have hj : j ≠ k := fun e => hij (hi.trans e.symm)
      simp only [if_neg hj]
      exact hwt j name hj hwr
    · simp only [if_neg hi] at hwr
      by_cases hj : j = k
      · simp only [hj, if_true]
        exact ⟨fun hb => (hwt i name hi hb).1 hwr, fun hb => hrd i name hi hb hwr⟩
      · simp only [if_neg hj]; exact I.alone i j name hij hwr
  · intro op' ob' hm
    obtain ⟨i, m', hc', he'⟩ := I.hist op' ob' hm
    refine ⟨i, m', hc', ?_⟩
    by_cases hi : i = k
    · refine absurd (List.mem_map.2 ⟨(op', ob'), hm, ?_⟩) hk
      rw [← hi]
      exact callOf_object hc'
    · simp only [if_neg hi]; exact he'
  · intro name hno
    have hnt : ¬ WritesTo t name := by simpa using hno k
    obtain ⟨e1, e2⟩ := hfiles name hnt
    rw [e1]
    refine I.files name fun i => ?_
    by_cases hi : i = k
    · exact hi ▸ e2
    · simpa only [if_neg hi] using hno i

theorem Inv.notNone {p : Platform} {w0 w : System} {pre : List (Nat × Nat)} {h : List (Op × Obs)} {x : Real} (I : Inv p w0 pre w h x)
    (hs : Safe p w0) {k : Nat} {op : Op} (hc : CallOf k (w0.jobs k) op) : call p x op ≠ none := by
  intro hn
  refine hs (h.map (·.1) ++ [op]) ?_ (calls_append_none p _ op _ x h I.done hn)
  intro o ho
  rcases List.mem_append.1 ho with ho | ho
  · obtain ⟨⟨o', ob⟩, hm, rfl⟩ := List.mem_map.1 ho
    obtain ⟨i, m, hc', _⟩ := I.hist o' ob hm
    exact callOf_not_assign hc'
  · rw [List.mem_singleton.1 ho]
    exact callOf_not_assign hc

theorem take_eq_self_of {c got : List UInt8} (h : got = c.take got.length) (he : c.drop got.length = []) : got = c := by
  have := List.take_append_drop got.length c
  rw [he, List.append_nil] at this
  exact h.trans this

theorem got_append {c got : List UInt8} (h : got = c.take got.length) (n : Nat) :
    got ++ (c.drop got.length).take n = c.take (got ++ (c.drop got.length).take n).length := by
  have e : (got ++ (c.drop got.length).take n).length = got.length + min n (c.length - got.length) := by
    rw [List.length_append, List.length_take, List.length_drop]
  rw [e, List.take_add, ← h]
  congr 1
  by_cases hl : n ≤ c.length - got.length
  · rw [Nat.min_eq_left hl]
  · rw [Nat.min_eq_right (by omega), List.take_of_length_le (by rw [List.length_drop]; omega),
      List.take_of_length_le (by rw [List.length_drop])]

theorem Inv.step {p : Platform} {w0 w : System} {pre : List (Nat × Nat)} {h : List (Op × Obs)} {x : Real} (I : Inv p w0 pre w h x)
    (h0 : ∀ i, Waiting (w0.jobs i)) (hs : Safe p w0) (k n : Nat) (hg : MayGo w k) :
    ∃ l x', Inv p w0 (pre ++ [(k, n)]) (Concurrent.step p w k n) (h ++ l) x' := by
  have hwr : ∀ name, w.fs.writable name = x.fs.writable name := fun name => by rw [I.canWrite.1, I.canWrite.2]
  have hrd : ∀ name, w.fs.readable name = x.fs.readable name := fun name => by rw [I.canRead.1, I.canRead.2]
  have hxobjs : ∀ (o : BitMatrix), x.objs k = o → ({ x with objs := upd x.objs k o } : Real) = x := by
    intro o ho
    rw [← ho, Verif.Props.FileHistory.upd_same]
  cases I.jobs k with
  | waiting a1 a2 a3 =>
    obtain ⟨m, name, ht | ht⟩ := h0 k
    · -- FlushFile begins
      have htk : w.jobs k = .flush m name := a1.trans ht
      have ho : x.objs k = m := by rw [a2, ht]; rfl
      have hcall : CallOf k (w0.jobs k) (.flush k name 0) := by rw [ht]; exact ⟨0, rfl⟩
      simp only [MayGo, htk] at hg
      simp only [Concurrent.step, htk, advance, openWrite]
      by_cases hn : name = []
      · rw [if_pos hn]
        refine ⟨_, x, I.finish k n _ w.fs (.returned false) m (.flush k name 0) x a3 (.returned false m) hcall
          (fun _ => by rintro _ _ _ e; cases e; rfl) ?_ rfl rfl rfl rfl ho (fun _ _ => rfl) (fun _ _ _ _ => rfl) ?_⟩
        · simp only [call, flushFile, if_pos hn]
        · intro nm hnm
          refine I.files nm fun i => ?_
          by_cases hi : i = k
          · rw [hi, htk]; exact id
          · exact hnm i hi
      rw [if_neg hn]
      by_cases hw : w.fs.writable name = false
      · rw [if_pos hw]
        refine ⟨_, x, I.finish k n _ w.fs (.returned false) m (.flush k name 0) x a3 (.returned false m) hcall
          (fun _ => by rintro _ _ _ e; cases e; rfl) ?_ rfl rfl rfl rfl ho (fun _ _ => rfl) (fun _ _ _ _ => rfl) ?_⟩
        · simp only [call, flushFile, if_neg hn, ← hwr, if_pos hw]
        · intro nm hnm
          refine I.files nm fun i => ?_
          by_cases hi : i = k
          · rw [hi, htk]; exact id
          · exact hnm i hi
      rw [if_neg hw]
      have hset : ∀ j nm, j ≠ k → WritesTo (w.jobs j) nm ∨ ReadsFrom (w.jobs j) nm → (setFile w.fs name []).files nm = w.fs.files nm := by
        intro j nm hj hopen
        have hne : nm ≠ name := by
          rintro rfl
          rcases hopen with hopen | hopen
          · exact (hg j hj).1 hopen
          · exact (hg j hj).2 hopen
        simp only [setFile, if_neg hne]
      cases he : encodeHash m with
      | ok text =>
        refine ⟨[], x, I.goOn k n _ _ a3 rfl rfl ?_ hset ?_ ?_ ?_⟩
        · exact .writing m name text 0 rfl ht ho hn (by rw [← I.canWrite.1]; simpa using hw) he (Nat.zero_le _) (by simp [setFile]) a3
        · intro j nm hj hnm
          have : name = nm := hnm
          exact this ▸ hg j hj
        · intro j nm hj hnm; exact hnm.elim
        · intro nm hnm
          have : nm ≠ name := fun e => hnm e.symm
          exact ⟨by simp only [setFile, if_neg this], by rw [htk]; exact id⟩
      | throw e =>
        refine ⟨_, { x with fs := setFile x.fs name [] }, I.finish k n _ _ (.threw e) m (.flush k name 0) _ a3 (.threw e m) hcall
          (fun _ => by rintro _ _ _ e; cases e; rfl) ?_ rfl rfl rfl rfl ho (fun _ _ => rfl) hset ?_⟩
        · simp only [call, flushFile, if_neg hn, ← hwr, if_neg hw, ho, he, setFile]
        · intro nm hnm
          by_cases hnn : nm = name
          · simp only [setFile, if_pos hnn]
          · simp only [setFile, if_neg hnn]
            refine I.files nm fun i => ?_
            by_cases hi : i = k
            · rw [hi, htk]; exact id
            · exact hnm i hi
      | ub =>
        refine absurd ?_ (I.notNone hs hcall)
        simp only [call, flushFile, if_neg hn, ← hwr, if_neg hw, ho, he]
    · -- ReadFile begins
      have htk : w.jobs k = .read m name := a1.trans ht
      have ho : x.objs k = m := by rw [a2, ht]; rfl
      have hcall : CallOf k (w0.jobs k) (.read k name) := by rw [ht]; exact rfl
      simp only [MayGo, htk] at hg
      have hfile : x.fs.files name = w.fs.files name := by
        refine I.files name fun i => ?_
        by_cases hi : i = k
        · rw [hi, htk]; exact id
        · exact hg i hi
      have hfin : readFile p Alloc.ok x.fs name m = .ok false m →
          ∃ l x', Inv p w0 (pre ++ [(k, n)]) ⟨w.fs, fun i => if i = k then .returned false m else w.jobs i⟩ (h ++ l) x' := by
        intro hrf
        refine ⟨_, x, I.finish k n _ w.fs (.returned false) m (.read k name) x a3 (.returned false m) hcall
          (fun _ => by rintro _ _ _ e; cases e) ?_ rfl rfl rfl rfl ho (fun _ _ => rfl) (fun _ _ _ _ => rfl) ?_⟩
        · simp only [call, ho, hrf]
          rw [hxobjs m ho]
        · intro nm hnm
          refine I.files nm fun i => ?_
          by_cases hi : i = k
          · rw [hi, htk]; exact id
          · exact hnm i hi
      simp only [Concurrent.step, htk, advance, openRead]
      by_cases hn : name = []
      · rw [if_pos hn]
        exact hfin (by simp only [readFile, if_pos hn])
      rw [if_neg hn]
      by_cases hr : w.fs.readable name = false
      · rw [if_pos hr]
        exact hfin (by simp only [readFile, if_neg hn, ← hrd, if_pos hr])
      rw [if_neg hr]
      cases hc : w.fs.files name with
      | none => exact hfin (by simp only [readFile, if_neg hn, ← hrd, if_neg hr, hfile, hc])
      | some c =>
        refine ⟨[], x, I.goOn k n _ _ a3 rfl rfl ?_ (fun _ _ _ _ => rfl) ?_ ?_ ?_⟩
        · exact .reading m name [] c rfl ht ho hn (by rw [← I.canRead.1]; simpa using hr) hc rfl a3
        · intro j nm hj hnm; exact hnm.elim
        · intro j nm hj hnm
          have : name = nm := hnm
          exact this ▸ hg j hj
        · intro nm hnm
          exact ⟨rfl, by rw [htk]; exact id⟩
  | writing m name text off a1 a2 a3 a4 a5 a6 a7 a8 a9 =>
    have hall : ∀ j, j ≠ k → ¬ WritesTo (w.jobs j) name ∧ ¬ ReadsFrom (w.jobs j) name :=
      fun j hj => I.alone k j name (Ne.symm hj) (by rw [a1]; rfl)
    simp only [Concurrent.step, a1, advance, writePiece]
    by_cases hn : n = 0 ∨ text.length ≤ off
    · rw [if_pos hn]
      have hcall : CallOf k (w0.jobs k) (.flush k name (text.length - off)) := by rw [a2]; exact ⟨_, rfl⟩
      refine ⟨_, { x with fs := setFile x.fs name (text.take off) }, I.finish k n _ w.fs (.returned true) m (.flush k name (text.length - off))
        _ a9 (.returned true m) hcall ?_ ?_ rfl rfl rfl rfl a3 (fun _ _ => rfl) (fun _ _ _ _ => rfl) ?_⟩
      · intro hf o nm lost e
        cases e
        have := hf n (by simp)
        omega
      · have hsub : text.length - (text.length - off) = off := by omega
        have hw : x.fs.writable name = true := by rw [I.canWrite.2]; exact a5
        simp only [call, flushFile, if_neg a4, hw, Bool.true_eq_false, if_false, a3, a6, setFile, hsub]
      · intro nm hnm
        by_cases hnn : nm = name
        · subst hnn
          simp only [setFile, if_true, a8]
        · simp only [setFile, if_neg hnn]
          refine I.files nm fun i => ?_
          by_cases hi : i = k
          · rw [hi, a1]; exact fun e => hnn (Eq.symm e)
          · exact hnm i hi
    · rw [if_neg hn]
      rw [a8, Option.getD_some, overwrite_prefix text off n a7]
      refine ⟨[], x, I.goOn k n _ _ a9 rfl rfl ?_ ?_ ?_ ?_ ?_⟩
      · refine .writing m name text _ rfl a2 a3 a4 a5 a6 ?_ (by simp [setFile]) a9
        rw [List.length_take, List.length_drop]; omega
      · intro j nm hj hopen
        have hne : nm ≠ name := by
          rintro rfl
          rcases hopen with hopen | hopen
          · exact (hall j hj).1 hopen
          · exact (hall j hj).2 hopen
        simp only [setFile, if_neg hne]
      · intro j nm hj hnm
        have : name = nm := hnm
        exact this ▸ hall j hj
      · intro j nm hj hnm; exact hnm.elim
      · intro nm hnm
        have : nm ≠ name := fun e => hnm e.symm
        exact ⟨by simp only [setFile, if_neg this], by rw [a1]; exact fun e => this (Eq.symm e)⟩
  | reading m name got c a1 a2 a3 a4 a5 a6 a7 a8 =>
    have hall : ∀ j, j ≠ k → ¬ WritesTo (w.jobs j) name :=
      fun j hj hwj => (I.alone j k name hj hwj).2 (by rw [a1]; rfl)
    have hcall : CallOf k (w0.jobs k) (.read k name) := by rw [a2]; exact rfl
    have hfile : x.fs.files name = some c := by
      rw [← a6]
      refine I.files name fun i => ?_
      by_cases hi : i = k
      · rw [hi, a1]; exact id
      · exact hall i hi
    have hr : x.fs.readable name = true := by rw [I.canRead.2]; exact a5
    have hfil : ∀ nm, (∀ j, j ≠ k → ¬ WritesTo (w.jobs j) nm) → x.fs.files nm = w.fs.files nm := by
      intro nm hnm
      refine I.files nm fun i => ?_
      by_cases hi : i = k
      · rw [hi, a1]; exact id
      · exact hnm i hi
    simp only [Concurrent.step, a1, advance, readPiece, a6, Option.getD_some]
    cases hd : c.drop got.length with
    | nil =>
      have hgc := take_eq_self_of a7 hd
      subst hgc
      dsimp only
      cases hdec : decodeHash p Alloc.ok got with
      | ub =>
        refine absurd ?_ (I.notNone hs hcall)
        simp only [call, readFile, if_neg a4, hr, Bool.true_eq_false, if_false, hfile, hdec]
      | throw e =>
        refine ⟨_, x, I.finish k n _ w.fs (.threw e) m (.read k name) x a8 (.threw e m) hcall
          (fun _ => by rintro _ _ _ e; cases e) ?_ rfl rfl rfl rfl a3 (fun _ _ => rfl) (fun _ _ _ _ => rfl) hfil⟩
        simp only [call, readFile, if_neg a4, hr, Bool.true_eq_false, if_false, hfile, hdec, a3]
        rw [hxobjs m a3]
      | ok d =>
        dsimp only
        by_cases hnd : opNot d = true
        · rw [if_pos hnd]
          refine ⟨_, x, I.finish k n _ w.fs (.returned false) m (.read k name) x a8 (.returned false m) hcall
            (fun _ => by rintro _ _ _ e; cases e) ?_ rfl rfl rfl rfl a3 (fun _ _ => rfl) (fun _ _ _ _ => rfl) hfil⟩
          simp only [call, readFile, if_neg a4, hr, Bool.true_eq_false, if_false, hfile, hdec, a3, hnd, if_true]
          rw [hxobjs m a3]
        · rw [if_neg hnd]
          refine ⟨_, { x with objs := upd x.objs k (assignMoveL m d).1 }, I.finish k n _ w.fs (.returned true) _ (.read k name) _ a8
            (.returned true _) hcall (fun _ => by rintro _ _ _ e; cases e) ?_ rfl rfl rfl rfl (by simp [upd])
            (fun j hj => by simp [upd, hj]) (fun _ _ _ _ => rfl) hfil⟩
          simp only [call, readFile, if_neg a4, hr, Bool.true_eq_false, if_false, hfile, hdec, a3, hnd, Bool.false_eq_true]
    | cons b rest =>
      dsimp only
      refine ⟨[], x, I.goOn k n _ _ a8 rfl rfl ?_ (fun _ _ _ _ => rfl) ?_ ?_ ?_⟩
      · refine .reading m name _ c rfl a2 a3 a4 a5 a6 ?_ a8
        rw [← hd]
        exact got_append a7 (n + 1)
      · intro j nm hj hnm; exact hnm.elim
      · intro j nm hj hnm
        have : name = nm := hnm
        exact this ▸ hall j hj
      · intro nm hnm
        exact ⟨rfl, by rw [a1]; exact id⟩
  | ended ob m op a1 a2 a3 a4 a5 =>
    have hstep : Concurrent.step p w k n = w := by
      have : ∀ t, w.jobs k = t → (fun i => if i = k then t else w.jobs i) = w.jobs := by
        intro t e
        funext i
        by_cases hi : i = k
        · simp only [hi, if_true, e]
        · simp only [if_neg hi]
      generalize ht : w.jobs k = t at a1
      cases a1 with
      | returned b m => simp only [Concurrent.step, ht, advance, this _ ht]
      | threw e m => simp only [Concurrent.step, ht, advance, this _ ht]
    rw [hstep]
    refine ⟨[], x, ?_⟩
    rw [List.append_nil]
    refine ⟨I.done, I.canRead, I.canWrite, fun i => ?_, I.alone, I.hist, I.nodup, I.files⟩
    exact (I.jobs i).frame (k, n) (fun _ _ => rfl) (fun _ he => he) id

theorem Inv.run {p : Platform} {w0 : System} (h0 : ∀ i, Waiting (w0.jobs i)) (hs : Safe p w0) :
    ∀ (s : List (Nat × Nat)) (pre : List (Nat × Nat)) (w : System) (h : List (Op × Obs)) (x : Real), Inv p w0 pre w h x → Exclusive p w s →
      ∃ l x', Inv p w0 (pre ++ s) (run p w s) (h ++ l) x' ∧
        ∀ s1 s2, s = s1 ++ s2 → ∃ l1 l2 x1, l = l1 ++ l2 ∧ Inv p w0 (pre ++ s1) (run p w s1) (h ++ l1) x1 := by
  intro s
  induction s with
  | nil =>
    intro pre w h x I _
    have I' : Inv p w0 (pre ++ []) w (h ++ []) x := by rw [List.append_nil, List.append_nil]; exact I
    refine ⟨[], x, I', fun s1 s2 e => ?_⟩
    obtain ⟨rfl, rfl⟩ := List.append_eq_nil_iff.1 e.symm
    exact ⟨[], [], x, rfl, I'⟩
  | cons a s ih =>
    intro pre w h x I hx
    obtain ⟨k, n⟩ := a
    obtain ⟨l1, x1, I1⟩ := I.step h0 hs k n hx.1
    obtain ⟨l2, x2, I2, hsplit⟩ := ih _ _ _ _ I1 hx.2
    refine ⟨l1 ++ l2, x2, by rw [List.append_assoc, List.append_assoc] at I2; exact I2, fun s1 s2 e => ?_⟩
    cases s1 with
    | nil => exact ⟨[], l1 ++ l2, x, rfl, by rw [List.append_nil, List.append_nil]; exact I⟩
    | cons b s1 =>
      rw [List.cons_append, List.cons.injEq] at e
      obtain ⟨rfl, e⟩ := e
      obtain ⟨a1, a2, x3, rfl, I3⟩ := hsplit s1 s2 e
      refine ⟨l1 ++ a1, a2, x3, by rw [List.append_assoc], ?_⟩
      rw [List.append_assoc, List.append_assoc] at I3
      exact I3

theorem Inv.init {p : Platform} {w0 : System} (h0 : ∀ i, Waiting (w0.jobs i)) :
    Inv p w0 [] w0 [] ⟨fun i => objOf (w0.jobs i), w0.fs⟩ := by
  have hno : ∀ i name, ¬ WritesTo (w0.jobs i) name := by
    intro i name
    obtain ⟨m, nm, h | h⟩ := h0 i <;> rw [h] <;> exact id
  refine ⟨rfl, ⟨rfl, rfl⟩, ⟨rfl, rfl⟩, fun i => .waiting rfl rfl (by simp), fun i j name _ hw => absurd hw (hno i name),
    fun op ob h => (nomatch h), by simp, fun _ _ => rfl⟩

end Verif.Proofs.Conc
