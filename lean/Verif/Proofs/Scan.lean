import Verif.Model.Scan
import Verif.Spec.Msk
import Mathlib.Data.List.TakeWhile
import Mathlib.Data.List.Induction
import Mathlib.Tactic.Ring

/-! `sscanf` against the grammar of `Spec/Msk.lean`. -/

namespace Verif.Scan
open Verif Spec.Msk

theorem space_iff (c : UInt8) : isSpace c = true ↔ Blank [c] := by
  have : Blank [c] ↔ (c.toNat = 32 ∨ (9 ≤ c.toNat ∧ c.toNat ≤ 13)) := by
    constructor
    · intro h; exact h c (by simp)
    · intro h d hd; simp at hd; subst hd; exact h
  rw [this]
  simp only [isSpace, Bool.or_eq_true, beq_iff_eq, Bool.and_eq_true, decide_eq_true_eq,
    ← UInt8.toNat_inj, UInt8.le_iff_toNat_le]
  exact Iff.rfl

theorem digit_iff (c : UInt8) : isDigit c = true ↔ IsDig c := by
  simp only [isDigit, IsDig, Bool.and_eq_true, decide_eq_true_eq, UInt8.le_iff_toNat_le]
  exact Iff.rfl

theorem blank_mem {s : List UInt8} (h : Blank s) {c : UInt8} (hc : c ∈ s) : isSpace c = true :=
  (space_iff c).mpr (by intro d hd; simp at hd; subst hd; exact h _ hc)

theorem dropWhile_blank {s : List UInt8} (h : Blank s) : s.dropWhile isSpace = [] :=
  List.dropWhile_eq_nil_iff.mpr fun _ hc => blank_mem h hc

theorem blank_of_dropWhile {s : List UInt8} (h : s.dropWhile isSpace = []) : Blank s := fun c hc =>
  (space_iff c).mp (List.dropWhile_eq_nil_iff.mp h c hc) c (by simp)

theorem dropWhile_skip {p : UInt8 → Bool} {sp r : List UInt8} (h : ∀ c ∈ sp, p c = true) (hr : ∀ c ∈ r.head?, p c = false) :
    (sp ++ r).dropWhile p = r := by
  induction sp with
  | nil =>
    cases r with
    | nil => rfl
    | cons c r =>
      have : p c = false := hr c (by simp)
      simp [this]
  | cons c sp ih =>
    have : p c = true := h c (by simp)
    simp only [List.cons_append, List.dropWhile_cons, this, if_true]
    exact ih fun d hd => h d (List.mem_cons_of_mem _ hd)

theorem takeWhile_skip {p : UInt8 → Bool} {sp r : List UInt8} (h : ∀ c ∈ sp, p c = true) (hr : ∀ c ∈ r.head?, p c = false) :
    (sp ++ r).takeWhile p = sp := by
  induction sp with
  | nil =>
    cases r with
    | nil => rfl
    | cons c r =>
      have : p c = false := hr c (by simp)
      simp [this]
  | cons c sp ih =>
    have : p c = true := h c (by simp)
    simp only [List.cons_append, List.takeWhile_cons, this, if_true]
    rw [ih fun d hd => h d (List.mem_cons_of_mem _ hd)]

theorem head_dropWhile {p : UInt8 → Bool} (s : List UInt8) : ∀ c ∈ (s.dropWhile p).head?, p c = false := by
  induction s with
  | nil => simp
  | cons a s ih =>
    rw [List.dropWhile_cons]
    split
    · exact ih
    · rename_i h; simpa using h

theorem decVal_eq (ds : List UInt8) : decVal ds = value ds := by
  induction ds using List.reverseRecOn with
  | nil => rfl
  | append_singleton ds c ih =>
    unfold decVal at ih ⊢
    rw [List.foldl_append]
    simp only [List.foldl_cons, List.foldl_nil]
    rw [ih]
    unfold value
    rw [List.reverse_append]
    simp only [List.reverse_cons, List.reverse_nil, List.nil_append, List.singleton_append, List.map_cons, Nat.ofDigits_cons]
    push_cast
    ring

theorem isInt_ne {t : List UInt8} {v : Int} (h : IsInt t v) : ∃ c r, t = c :: r ∧ isSpace c = false := by
  have key : ∀ {ds}, Digits ds → ∃ c r, ds = c :: r ∧ isSpace c = false := by
    intro ds h
    cases ds with
    | nil => exact absurd rfl h.1
    | cons c r =>
      refine ⟨c, r, rfl, ?_⟩
      have hd := h.2 c List.mem_cons_self
      cases hs : isSpace c with
      | false => rfl
      | true =>
        have := (space_iff c).mp hs c (by simp)
        unfold IsDig at hd
        omega
  cases h with
  | plain h => exact key h
  | plus h => exact ⟨_, _, rfl, by decide⟩
  | minus h => exact ⟨_, _, rfl, by decide⟩

theorem isDig_of_digits {ds : List UInt8} (h : Digits ds) : ∀ c ∈ ds, isDigit c = true :=
  fun c hc => (digit_iff c).mpr (h.2 c hc)

theorem takeSign_digits {ds r : List UInt8} (h : Digits ds) : takeSign (ds ++ r) = (false, ds ++ r) := by
  cases ds with
  | nil => exact absurd rfl h.1
  | cons c ds =>
    have := h.2 c List.mem_cons_self
    unfold IsDig at this
    simp only [List.cons_append, takeSign]
    have h1 : c ≠ 45 := by rintro rfl; revert this; decide
    have h2 : c ≠ 43 := by rintro rfl; revert this; decide
    rw [if_neg h1, if_neg h2]

/-- `%d` on an integer. -/
theorem scan_field {f : List Piece} {a r : List UInt8} {v : Int} (ha : Field a v) (hr : NoDigit r) :
    scan (.int :: f) (a ++ r) =
      if inI32 v then scan f r >>= fun d => .ok ⟨.int v :: d.vals, d.eof⟩ else .ub := by
  obtain ⟨sp, t, rfl, hb, hi⟩ := ha
  have hdrop : (sp ++ t ++ r).dropWhile isSpace = t ++ r := by
    rw [List.append_assoc]
    apply dropWhile_skip fun c hc => blank_mem hb hc
    obtain ⟨c, t', rfl, hc⟩ := isInt_ne hi
    intro d hd
    simp at hd; subst hd; exact hc
  have hne : t ++ r ≠ [] := by
    obtain ⟨c, t', rfl, hc⟩ := isInt_ne hi
    simp
  have hnd : ∀ c ∈ r.head?, isDigit c = false := by
    intro c hc
    have := hr c hc
    rw [← digit_iff] at this
    simpa using this
  rw [scan]
  simp only [hdrop, if_neg hne]
  cases hi with
  | plain h =>
    rw [takeSign_digits h]
    simp only [takeWhile_skip (isDig_of_digits h) hnd, dropWhile_skip (isDig_of_digits h) hnd, if_neg h.1, decVal_eq]
    rfl
  | @plus ds h =>
    have : takeSign (43 :: ds ++ r) = (false, ds ++ r) := by simp [takeSign]
    rw [this]
    simp only [takeWhile_skip (isDig_of_digits h) hnd, dropWhile_skip (isDig_of_digits h) hnd, if_neg h.1, decVal_eq]
    rfl
  | @minus ds h =>
    have : takeSign (45 :: ds ++ r) = (true, ds ++ r) := by simp [takeSign]
    rw [this]
    simp only [takeWhile_skip (isDig_of_digits h) hnd, dropWhile_skip (isDig_of_digits h) hnd, if_neg h.1, decVal_eq]
    rfl

theorem scan_int_blank {f : List Piece} {u : List UInt8} (h : Blank u) : scan (.int :: f) u = .ok ⟨[], true⟩ := by
  rw [scan]; simp [dropWhile_blank h]

theorem field_of_digits {u : List UInt8} {neg : Bool} {w : List UInt8} (hs : takeSign (u.dropWhile isSpace) = (neg, w))
    (hd : w.takeWhile isDigit ≠ []) : ∃ a v r, u = a ++ r ∧ Field a v ∧ NoDigit r := by
  have hu : u = u.takeWhile isSpace ++ u.dropWhile isSpace := List.takeWhile_append_dropWhile.symm
  have hb : Blank (u.takeWhile isSpace) := by
    intro c hc
    exact (space_iff c).mp (List.mem_takeWhile_imp hc) c (by simp)
  have hD : Digits (w.takeWhile isDigit) := ⟨hd, fun c hc => (digit_iff c).mp (List.mem_takeWhile_imp hc)⟩
  have hN : NoDigit (w.dropWhile isDigit) := by
    intro c hc
    rw [← digit_iff, head_dropWhile w c hc]
    simp
  have hw : w = w.takeWhile isDigit ++ w.dropWhile isDigit := List.takeWhile_append_dropWhile.symm
  have key : ∀ s v, u.dropWhile isSpace = s ++ w → IsInt (s ++ w.takeWhile isDigit) v →
      ∃ a v r, u = a ++ r ∧ Field a v ∧ NoDigit r := by
    intro s v e hi
    refine ⟨u.takeWhile isSpace ++ (s ++ w.takeWhile isDigit), v, w.dropWhile isDigit, ?_, ⟨_, _, rfl, hb, hi⟩, hN⟩
    rw [List.append_assoc, List.append_assoc, ← hw, ← e, ← hu]
  cases hx : u.dropWhile isSpace with
  | nil =>
    rw [hx] at hs
    simp [takeSign] at hs
    obtain ⟨rfl, rfl⟩ := hs
    simp at hd
  | cons c cs =>
    rw [hx] at hs
    simp only [takeSign] at hs
    split at hs
    · rename_i h; subst h
      simp only [Prod.mk.injEq] at hs
      obtain ⟨rfl, rfl⟩ := hs
      exact key [45] _ hx (.minus hD)
    · split at hs
      · rename_i h; subst h
        simp only [Prod.mk.injEq] at hs
        obtain ⟨rfl, rfl⟩ := hs
        exact key [43] _ hx (.plus hD)
      · simp only [Prod.mk.injEq] at hs
        obtain ⟨rfl, rfl⟩ := hs
        exact key [] _ (by rw [hx]; rfl) (.plain hD)

theorem digits_split {ds r : List UInt8} (h : Digits ds) : ∃ ds' r', ds ++ r = ds' ++ r' ∧ Digits ds' ∧ NoDigit r' := by
  refine ⟨(ds ++ r).takeWhile isDigit, (ds ++ r).dropWhile isDigit, List.takeWhile_append_dropWhile.symm, ⟨?_, ?_⟩, ?_⟩
  · cases ds with
    | nil => exact absurd rfl h.1
    | cons c ds =>
      have : isDigit c = true := (digit_iff c).mpr (h.2 c List.mem_cons_self)
      simp [this]
  · exact fun c hc => (digit_iff c).mp (List.mem_takeWhile_imp hc)
  · intro c hc
    rw [← digit_iff, head_dropWhile _ c hc]
    simp

/-- an integer at the beginning can be extended to end where the digits end -/
theorem field_max {a r : List UInt8} {v : Int} (h : Field a v) : ∃ a' v' r', a ++ r = a' ++ r' ∧ Field a' v' ∧ NoDigit r' := by
  obtain ⟨sp, t, rfl, hb, hi⟩ := h
  have key : ∀ s ds, t = s ++ ds → Digits ds → (∀ ds', Digits ds' → ∃ v, IsInt (s ++ ds') v) →
      ∃ a' v' r', sp ++ t ++ r = a' ++ r' ∧ Field a' v' ∧ NoDigit r' := by
    intro s ds e hd hk
    obtain ⟨ds', r', e', hd', hn⟩ := digits_split (r := r) hd
    obtain ⟨v', hv⟩ := hk ds' hd'
    refine ⟨sp ++ (s ++ ds'), v', r', ?_, ⟨_, _, rfl, hb, hv⟩, hn⟩
    rw [e, List.append_assoc, List.append_assoc, e', List.append_assoc, List.append_assoc]
  cases hi with
  | plain h => exact key [] _ rfl h fun ds' h' => ⟨_, .plain h'⟩
  | plus h => exact key [43] _ rfl h fun ds' h' => ⟨_, .plus h'⟩
  | minus h => exact key [45] _ rfl h fun ds' h' => ⟨_, .minus h'⟩

/-- blank, no integer at all, or an integer -/
theorem int_cases (u : List UInt8) :
    (Blank u) ∨ (NoField u ∧ ¬ Blank u) ∨ ∃ a v r, u = a ++ r ∧ Field a v ∧ NoDigit r := by
  by_cases hb : Blank u
  · exact .inl hb
  by_cases hf : ∃ f v r, u = f ++ r ∧ Field f v
  · obtain ⟨f, v, r, rfl, h⟩ := hf
    exact .inr (.inr (field_max h))
  · exact .inr (.inl ⟨hf, hb⟩)

theorem scan_int_none {f : List Piece} {u : List UInt8} (h : NoField u) (hb : ¬ Blank u) :
    scan (.int :: f) u = .ok ⟨[], false⟩ := by
  rw [scan]
  have hne : u.dropWhile isSpace ≠ [] := fun e => hb (blank_of_dropWhile e)
  have hd : (takeSign (u.dropWhile isSpace)).2.takeWhile isDigit = [] := by
    by_contra hd
    obtain ⟨a, v, r, e, hf, _⟩ := field_of_digits (neg := (takeSign (u.dropWhile isSpace)).1) rfl hd
    exact h ⟨a, v, r, e, hf⟩
  simp [hne, hd]

theorem noField_of_blank {u : List UInt8} (h : Blank u) : NoField u := by
  rintro ⟨f, v, r, rfl, sp, t, rfl, _, hi⟩
  obtain ⟨c, t', rfl, hc⟩ := isInt_ne hi
  have := blank_mem h (c := c) (by simp)
  rw [hc] at this; cases this

theorem noField_not {a r : List UInt8} {v : Int} (hf : Field a v) : ¬ NoField (a ++ r) := fun h => h ⟨a, v, r, rfl, hf⟩

/-! ### literals -/

theorem scan_chr_ne {c a : UInt8} {f : List Piece} {r : List UInt8} (h : a ≠ c) :
    scan (.chr c :: f) (a :: r) = .ok ⟨[], false⟩ := by rw [scan]; simp [h]

theorem scan_chr_eq {c : UInt8} {f : List Piece} {r : List UInt8} :
    scan (.chr c :: f) (c :: r) = scan f r := by rw [scan]; simp

theorem scan_chr_nil {c : UInt8} {f : List Piece} : scan (.chr c :: f) [] = .ok ⟨[], true⟩ := by rw [scan]

/-- A keyword in the format. -/
theorem scan_keyword (k : List UInt8) (f : List Piece) (t : List UInt8) :
    (Differs k t ∧ scan (k.map .chr ++ f) t = .ok ⟨[], false⟩) ∨
    (t <+: k ∧ t ≠ k ∧ scan (k.map .chr ++ f) t = .ok ⟨[], true⟩) ∨
    ∃ u, t = k ++ u ∧ scan (k.map .chr ++ f) t = scan f u := by
  induction k generalizing t with
  | nil => exact .inr (.inr ⟨t, rfl, rfl⟩)
  | cons c k ih =>
    cases t with
    | nil => exact .inr (.inl ⟨List.nil_prefix, by simp, scan_chr_nil⟩)
    | cons a t =>
      by_cases h : a = c
      · subst h
        simp only [List.map_cons, List.cons_append, scan_chr_eq]
        rcases ih t with ⟨⟨i, h1, h2, h3⟩, e⟩ | ⟨h1, h2, e⟩ | ⟨u, rfl, e⟩
        · exact .inl ⟨⟨i + 1, by simpa using h1, by simpa using h2, by simpa using h3⟩, e⟩
        · exact .inr (.inl ⟨by simpa using h1, by simpa using h2, e⟩)
        · exact .inr (.inr ⟨u, rfl, e⟩)
      · exact .inl ⟨⟨0, by simp, by simp, by simpa using h⟩, scan_chr_ne h⟩

theorem not_differs_append (k u : List UInt8) : ¬ Differs k (k ++ u) := by
  rintro ⟨i, h1, h2, h3⟩
  rw [List.getElem?_append_left h1] at h3
  exact h3 rfl

theorem not_differs_prefix {k t : List UInt8} (h : t <+: k) : ¬ Differs k t := by
  obtain ⟨r, rfl⟩ := h
  rintro ⟨i, h1, h2, h3⟩
  rw [List.getElem?_append_left h2] at h3
  exact h3 rfl

/-! ### C strings -/

theorem cstr_text (l : List UInt8) : CText l (cstr l) := by
  unfold cstr
  constructor
  · intro h
    have := List.mem_takeWhile_imp h
    simp at this
  · have hl : l = l.takeWhile (· ≠ 0) ++ l.dropWhile (· ≠ 0) := List.takeWhile_append_dropWhile.symm
    cases hd : l.dropWhile (· ≠ 0) with
    | nil => left; rw [hd, List.append_nil] at hl; exact hl
    | cons c r =>
      right
      have hc := head_dropWhile (p := (· ≠ 0)) l c (by rw [hd]; simp)
      simp at hc
      subst hc
      exact ⟨r, by rw [hd] at hl; exact hl⟩

theorem text_cstr {l t : List UInt8} (h : CText l t) : cstr l = t := by
  obtain ⟨h0, h⟩ := h
  have h0' : ∀ c ∈ t, (fun c : UInt8 => decide (c ≠ 0)) c = true := by
    intro c hc
    simp only [decide_eq_true_eq]
    rintro rfl
    exact h0 hc
  unfold cstr
  rcases h with rfl | ⟨r, rfl⟩
  · exact List.takeWhile_eq_self_iff.mpr h0'
  · exact takeWhile_skip (p := fun c => decide (c ≠ 0)) h0' (by simp)

end Verif.Scan
