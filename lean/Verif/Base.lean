/-!
# Outcomes of modelled C++ code

`Res` is the outcome of a call that returns a value; `Out`/`M` the outcome of a call on a mutable
object, where an escaping exception also leaves an object state behind.

`ub` is "the C++ abstract machine executes an operation with undefined behaviour": out-of-bounds
`operator[]`, null dereference, integer division by zero, over-wide shift, signed overflow.  It is
absorbing: no `catch` intercepts it.
-/

namespace Verif

/-- C++ exception classes that the code throws itself or lets escape from the standard library. -/
inductive Exc where
  /-- `std::invalid_argument` -/
  | invalidArgument
  /-- `std::runtime_error` -/
  | runtimeError
  /-- `std::out_of_range` (from `std::string::substr`, `map::at`) -/
  | outOfRange
  /-- `std::bad_alloc` / `std::length_error` (allocation failure) -/
  | badAlloc
deriving DecidableEq, Repr

/-- Outcome of a call returning a value. -/
inductive Res (α : Type) where
  | ok (a : α)
  | throw (e : Exc)
  | ub
deriving DecidableEq, Repr

namespace Res

@[simp] protected def bind {α β : Type} : Res α → (α → Res β) → Res β
  | .ok a, f => f a
  | .throw e, _ => .throw e
  | .ub, _ => .ub

instance : Monad Res where
  pure := .ok
  bind := Res.bind

@[simp] theorem pure_eq {α : Type} (a : α) : (pure a : Res α) = .ok a := rfl
@[simp] theorem ok_bind {α β : Type} (a : α) (f : α → Res β) : (Res.ok a >>= f) = f a := rfl
@[simp] theorem throw_bind {α β : Type} (e : Exc) (f : α → Res β) :
    (Res.throw e >>= f) = Res.throw e := rfl
@[simp] theorem ub_bind {α β : Type} (f : α → Res β) : (Res.ub >>= f) = Res.ub := rfl

instance : LawfulMonad Res := LawfulMonad.mk' Res
  (id_map := by intro α x; cases x <;> rfl)
  (pure_bind := by intros; rfl)
  (bind_assoc := by intro α β γ x f g; cases x <;> rfl)

/-- C++ `v[i]` on a `std::vector` / `std::string`: UB outside the bounds. -/
def idx {α : Type} (l : List α) (i : Nat) : Res α :=
  match l[i]? with
  | some a => .ok a
  | none => .ub

theorem idx_of_lt {α : Type} (l : List α) (i : Nat) (h : i < l.length) : idx l i = .ok l[i] := by
  simp [idx, h]

theorem idx_of_ge {α : Type} (l : List α) (i : Nat) (h : l.length ≤ i) : idx l i = .ub := by
  simp [idx, h]

end Res

/-- Outcome of a call on a mutable object of type `σ`. -/
inductive Out (σ α : Type) where
  | ok (a : α) (s : σ)
  | throw (e : Exc) (s : σ)
  | ub
deriving DecidableEq, Repr

/-- The final object of a local computation (a throwing computation drops its locals). -/
@[simp] def Out.toRes {σ α : Type} : Out σ α → Res σ
  | .ok _ s => .ok s
  | .throw e _ => .throw e
  | .ub => .ub

/-- Calls on a mutable object. -/
def M (σ α : Type) := σ → Out σ α

namespace M

variable {σ α β : Type}

def pure' (a : α) : M σ α := fun s => .ok a s

def bind' (x : M σ α) (f : α → M σ β) : M σ β := fun s =>
  match x s with
  | .ok a s' => f a s'
  | .throw e s' => .throw e s'
  | .ub => .ub

instance : Monad (M σ) where
  pure := pure'
  bind := bind'

/-- `throw e;` -/
def raise (e : Exc) : M σ α := fun s => .throw e s
/-- an operation with undefined behaviour -/
def undef : M σ α := fun _ => .ub
def get : M σ σ := fun s => .ok s s
def put (s : σ) : M σ Unit := fun _ => .ok () s
def modify (f : σ → σ) : M σ Unit := fun s => .ok () (f s)
/-- run a value computation that does not touch the object -/
def lift (r : Res α) : M σ α := fun s =>
  match r with
  | .ok a => .ok a s
  | .throw e => .throw e s
  | .ub => .ub

/-- `try { x } catch(const std::exception&) { h }`.  UB is not caught. -/
def tryCatch (x : M σ α) (h : Exc → M σ α) : M σ α := fun s =>
  match x s with
  | .ok a s' => .ok a s'
  | .throw e s' => h e s'
  | .ub => .ub

@[simp] theorem run_pure (a : α) (s : σ) : (pure a : M σ α) s = .ok a s := rfl
@[simp] theorem run_raise (e : Exc) (s : σ) : (raise e : M σ α) s = .throw e s := rfl
@[simp] theorem run_undef (s : σ) : (undef : M σ α) s = .ub := rfl
@[simp] theorem run_get (s : σ) : (get : M σ σ) s = .ok s s := rfl
@[simp] theorem run_put (s t : σ) : (put t : M σ Unit) s = .ok () t := rfl
@[simp] theorem run_modify (f : σ → σ) (s : σ) : (modify f : M σ Unit) s = .ok () (f s) := rfl
@[simp] theorem run_lift_ok (a : α) (s : σ) : (lift (.ok a) : M σ α) s = .ok a s := rfl
@[simp] theorem run_lift_throw (e : Exc) (s : σ) : (lift (.throw e) : M σ α) s = .throw e s := rfl
@[simp] theorem run_lift_ub (s : σ) : (lift .ub : M σ α) s = .ub := rfl
theorem run_bind (x : M σ α) (f : α → M σ β) (s : σ) :
    (x >>= f) s = match x s with
      | .ok a s' => f a s'
      | .throw e s' => .throw e s'
      | .ub => .ub := rfl
theorem run_bind_ok {x : M σ α} {f : α → M σ β} {s s' : σ} {a : α} (h : x s = .ok a s') :
    (x >>= f) s = f a s' := by simp [run_bind, h]
theorem run_bind_throw {x : M σ α} {f : α → M σ β} {s s' : σ} {e : Exc} (h : x s = .throw e s') :
    (x >>= f) s = .throw e s' := by simp [run_bind, h]
theorem run_bind_ub {x : M σ α} {f : α → M σ β} {s : σ} (h : x s = .ub) :
    (x >>= f) s = .ub := by simp [run_bind, h]

/-- `for (size_t i = start; i < start + cnt; ++i) body(i);` -/
def loop (start : Nat) : Nat → (Nat → M σ Unit) → M σ Unit
  | 0, _ => pure ()
  | n + 1, body => do body start; loop (start + 1) n body

/-- Loop rule: an indexed invariant preserved by every iteration holds at the end. -/
theorem loop_inv {body : Nat → M σ Unit} (Inv : Nat → σ → Prop) :
    ∀ (n start : Nat) (s : σ), Inv start s →
      (∀ i t, start ≤ i → i < start + n → Inv i t → ∃ t', body i t = .ok () t' ∧ Inv (i + 1) t') →
      ∃ s', loop start n body s = .ok () s' ∧ Inv (start + n) s' := by
  intro n
  induction n with
  | zero => intro start s h _; exact ⟨s, rfl, h⟩
  | succ n ih =>
    intro start s h step
    obtain ⟨t, ht, hi⟩ := step start s (Nat.le_refl _) (by omega) h
    obtain ⟨s', hs', hi'⟩ := ih (start + 1) t hi
      (fun i u h1 h2 => step i u (by omega) (by omega))
    refine ⟨s', ?_, ?_⟩
    · simp only [loop]; rw [run_bind_ok ht]; exact hs'
    · rw [show start + (n + 1) = start + 1 + n by omega]; exact hi'

end M

/-- `2^64`: number of values of `size_t` (LP64 platforms). -/
def sz64 : Nat := 2 ^ 64

/-- `size_t` subtraction `a - b`, wrapping around below zero (operands are `size_t` values). -/
def subSz (a b : Nat) : Nat := if b ≤ a then a - b else sz64 - (b - a)

/-- `size_t` multiplication, wrapping. -/
def mulSz (a b : Nat) : Nat := (a * b) % sz64

theorem mulSz_eq (a b : Nat) (h : a * b < 2 ^ 64) : mulSz a b = a * b := Nat.mod_eq_of_lt h

theorem subSz_eq (a b : Nat) (h : b ≤ a) (_ha : a < 2 ^ 64) : subSz a b = a - b := by
  simp [subSz, h]

theorem subSz_wrap (a b : Nat) (h : a < b) (_hb : b ≤ 2 ^ 64) : subSz a b = 2 ^ 64 - (b - a) := by
  have : ¬ b ≤ a := by omega
  simp [subSz, this, sz64]

theorem subSz_zero_one_pos : 0 < subSz 0 1 := by decide

-- keep the elaborator from evaluating `2^64` in unary when a subtraction has a symbolic argument
attribute [irreducible] mulSz

end Verif
