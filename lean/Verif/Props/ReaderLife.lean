import Verif.Spec.ReaderLife
import Verif.Props.Msk

/-!
C75: obtaining and releasing readers.
-/

namespace Verif.Props
open Verif Msk Msk.Life Spec.ReaderLife

theorem obtained_append (h : List (Call × Answer)) (x : Call × Answer) : obtained (h ++ [x]) = obtained h ++ obtained [x] := by
  induction h with
  | nil => rfl
  | cons y h ih =>
    obtain ⟨c, a⟩ := y
    rcases c with _ | _ | _ | _ <;> rcases a with (_ | _) | _ | _ <;> simp [obtained, ih]

theorem released_append (h : List (Call × Answer)) (x : Call × Answer) : released (h ++ [x]) = released h ++ released [x] := by
  induction h with
  | nil => rfl
  | cons y h ih =>
    obtain ⟨c, a⟩ := y
    rcases c with _ | _ | _ | p <;> [skip; skip; skip; rcases p with _ | p] <;> simp [released, ih]

theorem isMyFormat_ok (env : Env) (name : List Nat) (r : Reader) : ∃ b r', isMyFormat env name r = .ok b r' := by
  unfold isMyFormat
  split
  · split
    · exact ⟨_, _, rfl⟩
    · split
      · exact ⟨_, _, rfl⟩
      · split
        · exact ⟨_, _, rfl⟩
        · split <;> exact ⟨_, _, rfl⟩
  · exact ⟨_, _, rfl⟩

theorem read_no_throw (env : Env) (addr : Nat) (null : Bool) (w : World) (e : Exc) (w' : World) :
    Msk.read env addr null w ≠ .throw e w' := by
  unfold Msk.read
  split
  · simp
  · split
    · split <;> simp
    · dsimp only
      split
      · split
        · split <;> simp
        · simp
      · simp

theorem supported_iff (env : Env) (name : List Nat) : Supported env name ↔ ∃ r, isMyFormat env name {} = .ok true r := by
  have h : ∀ r, Msk.getReader env name = some r ↔ isMyFormat env name {} = .ok true r := by
    intro r
    unfold Msk.getReader
    cases isMyFormat env name {} with
    | ok b r' => cases b <;> simp
    | throw => simp
    | ub => simp
  constructor
  · intro hs
    exact ⟨_, (h _).1 ((C50_get_reader env name _).2 ⟨hs, rfl⟩)⟩
  · rintro ⟨r, hr⟩
    exact ((C50_get_reader env name r).1 ((h r).2 hr)).1

theorem call_get_true {i : Impl} {env : Env} {name : List Nat} {r : Reader} (hf : isMyFormat env name {} = .ok true r) (s : State) :
    call i (.get env name) s = some (.pointer (some s.readers.next),
      { s with readers := Readers.put { s.readers with next := s.readers.next + 1 } s.readers.next (some r) }) := by
  simp only [call, Life.getReader, hf]

theorem call_get_false {i : Impl} {env : Env} {name : List Nat} {r : Reader} (hf : isMyFormat env name {} = .ok false r) (s : State) :
    call i (.get env name) s = if i.baseDelete = true then some (.pointer none,
      { s with readers := (Readers.put { s.readers with next := s.readers.next + 1 } s.readers.next (some r)).put s.readers.next none })
      else none := by
  simp only [call, Life.getReader, hf, delete]
  cases i.baseDelete <;> simp [Readers.put]

/-- what holds after a history `h` -/
structure LifeInv (h : List (Call × Answer)) (s : Readers) : Prop where
  once : (obtained h).Nodup
  freedOnce : (released h).Nodup
  sub : ∀ p ∈ released h, p ∈ obtained h
  live : ∀ p, (s.live p).isSome = true ↔ Usable h p
  fresh : ∀ p ∈ obtained h, p < s.next

theorem LifeInv.put {h : List (Call × Answer)} {s : Readers} (hi : LifeInv h s) {a : Nat} {r : Reader} (hl : s.live a = some r)
    (r' : Reader) {x : Call × Answer} (h1 : obtained [x] = []) (h2 : released [x] = []) : LifeInv (h ++ [x]) (s.put a (some r')) := by
  have e1 : obtained (h ++ [x]) = obtained h := by rw [obtained_append, h1, List.append_nil]
  have e2 : released (h ++ [x]) = released h := by rw [released_append, h2, List.append_nil]
  refine ⟨e1 ▸ hi.once, e2 ▸ hi.freedOnce, by rw [e1, e2]; exact hi.sub, fun p => ?_, by rw [e1]; exact hi.fresh⟩
  unfold Usable
  rw [e1, e2]
  have := hi.live p
  unfold Usable at this
  rw [← this]
  unfold Readers.put
  by_cases hp : p = a
  · subst hp; simp [hl]
  · simp [hp]

theorem life_step {h : List (Call × Answer)} {s : State} (hi : LifeInv h s.readers) (i : Impl) (c : Call) {a : Answer} {s' : State}
    (e : call i c s = some (a, s')) : LifeInv (h ++ [(c, a)]) s'.readers := by
  cases c with
  | get env name =>
    obtain ⟨b, r, hf⟩ := isMyFormat_ok env name {}
    cases b with
    | true =>
      rw [call_get_true hf] at e
      simp only [Option.some.injEq, Prod.mk.injEq] at e
      obtain ⟨rfl, rfl⟩ := e
      have e1 : obtained (h ++ [(Call.get env name, Answer.pointer (some s.readers.next))]) = obtained h ++ [s.readers.next] := by
        rw [obtained_append]; rfl
      have e2 : released (h ++ [(Call.get env name, Answer.pointer (some s.readers.next))]) = released h := by
        rw [released_append]; simp [released]
      have hn : s.readers.next ∉ obtained h := fun hm => absurd (hi.fresh _ hm) (lt_irrefl _)
      refine ⟨?_, e2 ▸ hi.freedOnce, ?_, fun p => ?_, ?_⟩
      · rw [e1]
        exact List.nodup_append.2 ⟨hi.once, by simp, by rintro x hx y hy rfl; simp at hy; exact hn (hy ▸ hx)⟩
      · intro p hp
        rw [e2] at hp
        rw [e1]
        exact List.mem_append_left _ (hi.sub p hp)
      · unfold Usable
        rw [e1, e2]
        have := hi.live p
        unfold Usable at this
        unfold Readers.put
        by_cases hp : p = s.readers.next
        · subst hp
          simp only [if_true, Option.isSome_some, List.mem_append, List.mem_singleton, or_true, true_and, true_iff]
          exact fun hm => hn (hi.sub _ hm)
        · simp [hp, this]
      · intro p hp
        rw [e1] at hp
        rcases List.mem_append.1 hp with hp | hp
        · exact Nat.lt_succ_of_lt (hi.fresh p hp)
        · rw [List.mem_singleton] at hp
          subst hp
          exact Nat.lt_succ_self _
    | false =>
      rw [call_get_false hf] at e
      cases hb : i.baseDelete with
      | false => rw [hb] at e; simp at e
      | true =>
        rw [hb] at e
        simp only [Readers.put, if_true, Option.some.injEq, Prod.mk.injEq] at e
        obtain ⟨rfl, rfl⟩ := e
        have e1 : obtained (h ++ [(Call.get env name, Answer.pointer none)]) = obtained h := by
          rw [obtained_append]; simp [obtained]
        have e2 : released (h ++ [(Call.get env name, Answer.pointer none)]) = released h := by
          rw [released_append]; simp [released]
        refine ⟨e1 ▸ hi.once, e2 ▸ hi.freedOnce, by rw [e1, e2]; exact hi.sub, fun p => ?_, ?_⟩
        · unfold Usable
          rw [e1, e2]
          have := hi.live p
          unfold Usable at this
          by_cases hp : p = s.readers.next
          · subst hp
            simp only [if_true, Option.isSome_none, Bool.false_eq_true, false_iff, not_and]
            intro hm
            exact absurd (hi.fresh _ hm) (lt_irrefl _)
          · simp [hp, this]
        · intro p hp
          rw [e1] at hp
          exact Nat.lt_succ_of_lt (hi.fresh p hp)
  | isMyFormat env p name =>
    unfold call at e
    cases p with
    | none => simp at e
    | some q =>
      simp only [Option.bind_some] at e
      cases hl : s.readers.live q with
      | none => rw [hl] at e; simp at e
      | some r =>
        obtain ⟨b, r', hf⟩ := isMyFormat_ok env name r
        rw [hl] at e
        simp only [hf, Option.some.injEq, Prod.mk.injEq] at e
        obtain ⟨rfl, rfl⟩ := e
        exact hi.put hl r' rfl rfl
  | read env addr p layout =>
    unfold call at e
    cases p with
    | none => simp at e
    | some q =>
      simp only [Option.bind_some] at e
      cases hl : s.readers.live q with
      | none => rw [hl] at e; simp at e
      | some r =>
        rw [hl] at e
        dsimp only at e
        cases hr : Msk.read env addr layout.isNone ⟨r, (layout.map s.layouts).getD {}, s.heap⟩ with
        | ub => rw [hr] at e; simp at e
        | throw => rw [hr] at e; simp at e
        | ok b w =>
          rw [hr] at e
          simp only [Option.some.injEq, Prod.mk.injEq] at e
          obtain ⟨rfl, rfl⟩ := e
          exact hi.put hl _ rfl rfl
  | free p =>
    unfold call freeReader at e
    cases p with
    | none =>
      simp only [M.run_pure] at e
      simp only [Option.some.injEq, Prod.mk.injEq] at e
      obtain ⟨rfl, rfl⟩ := e
      have e1 : obtained (h ++ [(Call.free none, Answer.void)]) = obtained h := by
        rw [obtained_append]; simp [obtained]
      have e2 : released (h ++ [(Call.free none, Answer.void)]) = released h := by
        rw [released_append]; simp [released]
      refine ⟨e1 ▸ hi.once, e2 ▸ hi.freedOnce, by rw [e1, e2]; exact hi.sub, fun p => ?_, by rw [e1]; exact hi.fresh⟩
      unfold Usable
      rw [e1, e2]
      exact hi.live p
    | some q =>
      simp only [delete] at e
      cases hb : i.baseDelete with
      | false => rw [hb] at e; simp at e
      | true =>
        rw [hb] at e
        simp only [if_true] at e
        cases hl : s.readers.live q with
        | none => rw [hl] at e; simp at e
        | some r =>
          rw [hl] at e
          simp only [Option.some.injEq, Prod.mk.injEq] at e
          obtain ⟨rfl, rfl⟩ := e
          have hu : Usable h q := (hi.live q).1 (by simp [hl])
          have e1 : obtained (h ++ [(Call.free (some q), Answer.void)]) = obtained h := by
            rw [obtained_append]; simp [obtained]
          have e2 : released (h ++ [(Call.free (some q), Answer.void)]) = released h ++ [q] := by
            rw [released_append]; rfl
          refine ⟨e1 ▸ hi.once, ?_, ?_, fun p => ?_, by rw [e1]; exact hi.fresh⟩
          · rw [e2]
            exact List.nodup_append.2 ⟨hi.freedOnce, by simp, by rintro x hx y hy rfl; simp at hy; exact hu.2 (hy ▸ hx)⟩
          · intro p hp
            rw [e2] at hp
            rw [e1]
            rcases List.mem_append.1 hp with hp | hp
            · exact hi.sub p hp
            · rw [List.mem_singleton] at hp
              subst hp
              exact hu.1
          · unfold Usable
            rw [e1, e2]
            have := hi.live p
            unfold Usable at this
            unfold Readers.put
            by_cases hp : p = q
            · subst hp; simp
            · simp [hp, this]

theorem life_calls (i : Impl) : ∀ (cs : List Call) {h : List (Call × Answer)} {s : State}, LifeInv h s.readers →
    ∀ {h' s'}, calls i cs s = some (h', s') → LifeInv (h ++ h') s'.readers ∧ h'.map (·.1) = cs := by
  intro cs
  induction cs with
  | nil =>
    intro h s hi h' s' e
    simp only [calls, Option.some.injEq, Prod.mk.injEq] at e
    obtain ⟨rfl, rfl⟩ := e
    exact ⟨by simpa using hi, rfl⟩
  | cons c cs ih =>
    intro h s hi h' s' e
    unfold calls at e
    cases hc : call i c s with
    | none => rw [hc] at e; simp at e
    | some x =>
      obtain ⟨a, s1⟩ := x
      rw [hc] at e
      dsimp only at e
      cases hcs : calls i cs s1 with
      | none => rw [hcs] at e; simp at e
      | some y =>
        obtain ⟨h2, s2⟩ := y
        rw [hcs] at e
        simp only [Option.some.injEq, Prod.mk.injEq] at e
        obtain ⟨rfl, rfl⟩ := e
        obtain ⟨k1, k2⟩ := ih (life_step hi i c hc) hcs
        exact ⟨by simpa using k1, by simp [k2]⟩

theorem lifeInv_start (layouts : Nat → LayoutData) (heap : Elements) : LifeInv [] (State.mk {} layouts heap).readers :=
  ⟨List.nodup_nil, List.nodup_nil, by simp [released], by simp [Usable, obtained], by simp [obtained]⟩

/-- **C75** After any sequence of calls without undefined behaviour: `GetReader` never returned a pointer twice, no pointer was
given to `FreeReader` twice or without having been obtained, and the readers that exist are exactly those obtained and not
released: a refused file leaves no reader behind. -/
theorem C75_balance (i : Impl) (cs : List Call) (layouts : Nat → LayoutData) (heap : Elements) (h : List (Call × Answer)) (s : State)
    (e : calls i cs ⟨{}, layouts, heap⟩ = some (h, s)) :
    h.map (·.1) = cs ∧ (obtained h).Nodup ∧ (released h).Nodup ∧ (∀ p ∈ released h, p ∈ obtained h) ∧
      ∀ p, (s.readers.live p).isSome = true ↔ Usable h p := by
  obtain ⟨k, k2⟩ := life_calls i cs (lifeInv_start layouts heap) e
  rw [List.nil_append] at k
  exact ⟨k2, k.once, k.freedOnce, k.sub, k.live⟩

/-- **C75** With a compiler that lets objects be deleted through their base class: which next call is undefined after such a
sequence.  `GetReader` never is; `FreeReader` is for a pointer that is not usable (again, although the function's last
statement looks as if it prevented that), and so are calls through such a pointer or through null; `Read` through a usable
pointer is exactly when the reader object as it is makes it so (C42, C43). -/
theorem C75_next (cs : List Call) (layouts : Nat → LayoutData) (heap : Elements) (h : List (Call × Answer)) (s : State)
    (e : calls ⟨true⟩ cs ⟨{}, layouts, heap⟩ = some (h, s)) :
    (∀ env name, ∃ p s', call ⟨true⟩ (.get env name) s = some (.pointer p, s') ∧ (p.isSome = true ↔ Supported env name) ∧
      ∀ q, p = some q → s'.readers.live q = some { fileName := name }) ∧
    (∀ p, call ⟨true⟩ (.free p) s = none ↔ ∃ q, p = some q ∧ ¬ Usable h q) ∧
    (∀ env p name, call ⟨true⟩ (.isMyFormat env p name) s = none ↔ ∀ q, p = some q → ¬ Usable h q) ∧
    (∀ env addr p layout, call ⟨true⟩ (.read env addr p layout) s = none ↔
      ∀ q, p = some q → Usable h q → ∃ r, s.readers.live q = some r ∧
        Msk.read env addr layout.isNone ⟨r, (layout.map s.layouts).getD {}, s.heap⟩ = .ub) := by
  obtain ⟨k, -⟩ := life_calls ⟨true⟩ cs (lifeInv_start layouts heap) e
  rw [List.nil_append] at k
  refine ⟨fun env name => ?_, fun p => ?_, fun env p name => ?_, fun env addr p layout => ?_⟩
  · rw [supported_iff]
    obtain ⟨b, r, hf⟩ := isMyFormat_ok env name {}
    cases b with
    | true =>
      rw [call_get_true hf]
      refine ⟨_, _, rfl, by simp [hf], ?_⟩
      intro q hq
      cases hq
      have hg : Msk.getReader env name = some r := by unfold Msk.getReader; rw [hf]
      have := ((C50_get_reader env name r).1 hg).2
      subst this
      simp [Readers.put]
    | false =>
      rw [call_get_false hf, if_pos rfl]
      exact ⟨none, _, rfl, by simp [hf], by simp⟩
  · unfold call freeReader
    cases p with
    | none => simp
    | some q =>
      have := k.live q
      simp only [delete, if_true]
      cases hl : s.readers.live q with
      | none => rw [hl] at this; simpa using this
      | some r => rw [hl] at this; simpa using this
  · unfold call
    cases p with
    | none => simp
    | some q =>
      have := k.live q
      simp only [Option.bind_some]
      cases hl : s.readers.live q with
      | none => rw [hl] at this; simpa using this
      | some r =>
        obtain ⟨b, r', hf⟩ := isMyFormat_ok env name r
        rw [hl] at this
        simpa [hf] using this
  · unfold call
    cases p with
    | none => simp
    | some q =>
      have := k.live q
      simp only [Option.bind_some]
      cases hl : s.readers.live q with
      | none =>
        rw [hl] at this
        simp only [Option.isSome_none, Bool.false_eq_true, false_iff] at this
        simp [this]
      | some r =>
        rw [hl] at this
        simp only [Option.isSome_some, true_iff] at this
        dsimp only
        cases hr : Msk.read env addr layout.isNone ⟨r, (layout.map s.layouts).getD {}, s.heap⟩ with
        | ub => simp [hl, hr]
        | throw ex w => exact absurd hr (read_no_throw _ _ _ _ _ _)
        | ok b w => simp [this, hl, hr]

theorem frame_call (i : Impl) (c : Call) (s s' : State) (x : Answer) (e : call i c s = some (x, s')) :
    ((∀ env addr p layout, c ≠ .read env addr p layout) → s'.layouts = s.layouts ∧ s'.heap = s.heap) ∧
    (∀ env addr p layout, c = .read env addr p layout → ∃ q r b w, p = some q ∧ s.readers.live q = some r ∧ x = .bool b ∧
      Msk.read env addr layout.isNone ⟨r, (layout.map s.layouts).getD {}, s.heap⟩ = .ok b w ∧ s'.readers.live q = some w.reader ∧
      s'.heap = w.heap ∧ (∀ l, layout = some l → s'.layouts l = w.data) ∧ ∀ l, layout ≠ some l → s'.layouts l = s.layouts l) ∧
    ∀ q, (s.readers.live q).isSome = true → q < s.readers.next → (∀ env name, c ≠ .isMyFormat env (some q) name) →
      (∀ env addr layout, c ≠ .read env addr (some q) layout) → c ≠ .free (some q) → s'.readers.live q = s.readers.live q := by
  cases c with
  | get env name =>
    simp only [call] at e
    unfold Life.getReader at e
    dsimp only at e
    refine ⟨fun _ => ?_, fun _ _ _ _ h => (by cases h), fun q _ hq _ _ _ => ?_⟩
    · split at e <;> cases e
      exact ⟨rfl, rfl⟩
    · have hne : q ≠ s.readers.next := by omega
      cases hm : isMyFormat env name {} with
      | ub => rw [hm] at e; cases e
      | throw y r => rw [hm] at e; cases e
      | ok b r =>
        rw [hm] at e
        cases b with
        | true => cases e; simp [Readers.put, hne]
        | false =>
          dsimp only at e
          unfold delete at e
          cases hb : i.baseDelete
          · simp [hb] at e
          · simp [hb, Readers.put] at e
            obtain ⟨-, e⟩ := e
            subst e
            simp [hne]
  | isMyFormat env p name =>
    simp only [call] at e
    refine ⟨fun _ => ?_, fun _ _ _ _ h => (by cases h), fun q _ _ h1 _ _ => ?_⟩
    · split at e
      · split at e <;> cases e
        exact ⟨rfl, rfl⟩
      · cases e
    · cases p with
      | none => simp at e
      | some a =>
        have hne : q ≠ a := fun h => h1 env name (by rw [h])
        cases hr : s.readers.live a with
        | none => simp [hr] at e
        | some r =>
          simp only [Option.bind_some, hr] at e
          split at e <;> cases e
          simp [Readers.put, hne]
  | read env addr p layout =>
    simp only [call] at e
    cases p with
    | none => simp at e
    | some a =>
      cases hr : s.readers.live a with
      | none => simp [hr] at e
      | some r =>
        simp only [Option.bind_some, hr] at e
        cases hm : Msk.read env addr layout.isNone ⟨r, (layout.map s.layouts).getD {}, s.heap⟩ with
        | ub => rw [hm] at e; cases e
        | throw y w => rw [hm] at e; cases e
        | ok b w =>
          rw [hm] at e
          cases e
          refine ⟨fun h => absurd rfl (h env addr (some a) layout), fun env' addr' p' layout' h => ?_, fun q _ _ _ h2 _ => ?_⟩
          · cases h
            refine ⟨a, r, b, w, rfl, hr, rfl, hm, by simp [Readers.put], rfl, fun l hl => ?_, fun l hl => ?_⟩
            · simp [hl]
            · have : ¬ some l = layout := fun h => hl h.symm
              simp [this]
          · have hne : q ≠ a := fun h => h2 env addr layout (by rw [h])
            simp [Readers.put, hne]
  | free p =>
    simp only [call] at e
    refine ⟨fun _ => ?_, fun _ _ _ _ h => (by cases h), fun q _ _ _ _ h3 => ?_⟩
    · split at e <;> cases e
      exact ⟨rfl, rfl⟩
    · cases p with
      | none => simp only [freeReader] at e; cases e; rfl
      | some a =>
        have hne : q ≠ a := fun h => h3 (by rw [h])
        simp only [freeReader] at e
        unfold delete at e
        cases hb : i.baseDelete
        · simp [hb] at e
        · cases hl : s.readers.live a with
          | none => simp [hb, hl] at e
          | some r =>
            simp [hb, hl] at e
            obtain ⟨-, e⟩ := e
            subst e
            simp [Readers.put, hne]

/-- **C75** What a call changes: `GetReader`, `IsMyFormat` and `FreeReader` leave the layouts and elements alone; `Read` does to its
reader, to its layout and to the elements what a `Read` of that reader alone does (C42, C43), and answers the same; other layouts
stay, and no call changes a reader it was not given. -/
theorem C75_frame (i : Impl) (cs : List Call) (layouts : Nat → LayoutData) (heap : Elements) (h : List (Call × Answer)) (s : State)
    (e0 : calls i cs ⟨{}, layouts, heap⟩ = some (h, s)) (c : Call) (s' : State) (x : Answer) (e : call i c s = some (x, s')) :
    ((∀ env addr p layout, c ≠ .read env addr p layout) → s'.layouts = s.layouts ∧ s'.heap = s.heap) ∧
    (∀ env addr p layout, c = .read env addr p layout → ∃ q r b w, p = some q ∧ s.readers.live q = some r ∧ x = .bool b ∧
      Msk.read env addr layout.isNone ⟨r, (layout.map s.layouts).getD {}, s.heap⟩ = .ok b w ∧ s'.readers.live q = some w.reader ∧
      s'.heap = w.heap ∧ (∀ l, layout = some l → s'.layouts l = w.data) ∧ ∀ l, layout ≠ some l → s'.layouts l = s.layouts l) ∧
    ∀ q, Usable h q → (∀ env name, c ≠ .isMyFormat env (some q) name) →
      (∀ env addr layout, c ≠ .read env addr (some q) layout) → c ≠ .free (some q) → s'.readers.live q = s.readers.live q := by
  obtain ⟨k, -⟩ := life_calls i cs (lifeInv_start layouts heap) e0
  rw [List.nil_append] at k
  obtain ⟨h1, h2, h3⟩ := frame_call i c s s' x e
  exact ⟨h1, h2, fun q hq => h3 q ((k.live q).2 hq) (k.fresh q hq.1)⟩

/-- **C75** By the letter of the C++ standard every sequence that asks for a file the library does not read, or that releases
a reader at all, is undefined: in a defined one every `GetReader` call succeeded and all readers still exist. -/
theorem C75_standard (cs : List Call) (layouts : Nat → LayoutData) (heap : Elements) :
    (∀ env name, Call.get env name ∈ cs → ¬ Supported env name → calls ⟨false⟩ cs ⟨{}, layouts, heap⟩ = none) ∧
    (∀ p, Call.free (some p) ∈ cs → calls ⟨false⟩ cs ⟨{}, layouts, heap⟩ = none) ∧
    (∀ h s, calls ⟨false⟩ cs ⟨{}, layouts, heap⟩ = some (h, s) →
      calls ⟨true⟩ cs ⟨{}, layouts, heap⟩ = some (h, s) ∧ ∀ p, (s.readers.live p).isSome = true ↔ p ∈ obtained h) := by
  have key : ∀ (c : Call) (s : State), ((∃ env name, c = .get env name ∧ ¬ Supported env name) ∨ ∃ p, c = .free (some p)) →
      call ⟨false⟩ c s = none := by
    rintro c s (⟨env, name, rfl, hn⟩ | ⟨p, rfl⟩)
    · rw [supported_iff] at hn
      obtain ⟨b, r, hf⟩ := isMyFormat_ok env name {}
      cases b with
      | true => exact absurd ⟨r, hf⟩ hn
      | false => rw [call_get_false hf]; simp
    · simp [call, freeReader, delete]
  have key2 : ∀ (cs : List Call) (s : State) (c : Call), c ∈ cs →
      ((∃ env name, c = .get env name ∧ ¬ Supported env name) ∨ ∃ p, c = .free (some p)) → calls ⟨false⟩ cs s = none := by
    intro cs
    induction cs with
    | nil => intro s c hm; cases hm
    | cons d cs ih =>
      intro s c hm hc
      unfold calls
      rcases List.mem_cons.1 hm with rfl | hm
      · rw [key c s hc]
      · cases call ⟨false⟩ d s with
        | none => rfl
        | some x =>
          obtain ⟨a, s1⟩ := x
          dsimp only
          rw [ih s1 c hm hc]
  have same : ∀ (c : Call) (s : State) (x : Answer × State), call ⟨false⟩ c s = some x → call ⟨true⟩ c s = some x := by
    intro c s x hx
    cases c with
    | get env name =>
      obtain ⟨b, r, hf⟩ := isMyFormat_ok env name {}
      cases b with
      | true => rw [call_get_true hf] at hx ⊢; exact hx
      | false => rw [call_get_false hf] at hx; simp at hx
    | isMyFormat env p name => exact hx
    | read env addr p layout => exact hx
    | free p =>
      cases p with
      | none => exact hx
      | some q => simp [call, freeReader, delete] at hx
  have same2 : ∀ (cs : List Call) (s : State) x, calls ⟨false⟩ cs s = some x → calls ⟨true⟩ cs s = some x := by
    intro cs
    induction cs with
    | nil => intro s x hx; exact hx
    | cons c cs ih =>
      intro s x hx
      unfold calls at hx ⊢
      cases hc : call ⟨false⟩ c s with
      | none => rw [hc] at hx; simp at hx
      | some y =>
        obtain ⟨a, s1⟩ := y
        rw [hc] at hx
        rw [same c s _ hc]
        dsimp only at hx ⊢
        cases hcs : calls ⟨false⟩ cs s1 with
        | none => rw [hcs] at hx; simp at hx
        | some z =>
          rw [hcs] at hx
          rw [ih s1 _ hcs]
          exact hx
  refine ⟨fun env name hm hn => key2 cs _ _ hm (Or.inl ⟨env, name, rfl, hn⟩), fun p hm => key2 cs _ _ hm (Or.inr ⟨p, rfl⟩), ?_⟩
  intro h s e
  refine ⟨same2 cs _ _ e, fun p => ?_⟩
  obtain ⟨k1, -, -, -, k5⟩ := C75_balance ⟨false⟩ cs layouts heap h s e
  have hr : released h = [] := by
    by_contra hne
    obtain ⟨q, hq⟩ := List.exists_mem_of_ne_nil _ hne
    have : Call.free (some q) ∈ cs := by
      rw [← k1]
      clear e k1 k5 hne
      induction h with
      | nil => simp [released] at hq
      | cons y h ih =>
        obtain ⟨c, a⟩ := y
        rcases c with _ | _ | _ | p
        · exact List.mem_cons_of_mem _ (ih (by simpa [released] using hq))
        · exact List.mem_cons_of_mem _ (ih (by simpa [released] using hq))
        · exact List.mem_cons_of_mem _ (ih (by simpa [released] using hq))
        · rcases p with _ | p
          · exact List.mem_cons_of_mem _ (ih (by simpa [released] using hq))
          · simp only [released, List.mem_cons] at hq
            rcases hq with rfl | hq
            · simp
            · exact List.mem_cons_of_mem _ (ih hq)
    rw [key2 cs _ _ this (Or.inr ⟨q, rfl⟩)] at e
    cases e
  rw [k5 p]
  simp [Usable, hr]

/-- two files, one supported; the reader of the first is released, then released again -/
example : (calls ⟨true⟩ [.get (exEnv (Spec.Msk.bytes "VERSION 1")) exName, .get (exEnv exText) exName, .free (some 1), .free none]
      ⟨{}, fun _ => {}, fun _ => {}⟩).map (fun x => x.1.map (·.2)) = some [.pointer (some 1), .pointer none, .void, .void] ∧
    (calls ⟨true⟩ [.get (exEnv (Spec.Msk.bytes "VERSION 1")) exName, .free (some 1), .free (some 1)]
      ⟨{}, fun _ => {}, fun _ => {}⟩).isNone = true := by
  decide +kernel

end Verif.Props
