import Verif.Spec.Sharing
import Verif.Props.Generator

/-! C93: the matrix a generator hands out. -/

namespace Verif.Props
open Verif Sharing BitMatrix Zond Generator

@[simp] theorem upd_same {α : Type} (f : Nat → α) (i : Nat) (a : α) : upd f i a i = a := by simp [upd]
theorem upd_ne {α : Type} (f : Nat → α) {i k : Nat} (a : α) (h : k ≠ i) : upd f i a k = f k := by simp [upd, h]

/-- what a member function of generator `i` can do to the world -/
theorem onGen_cases {α : Type} {w w' : World} {i : Nat} {f : Generator → Option (Out Generator α)}
    (h : onGen w i f = some (.ok () w') ∨ ∃ e, onGen w i f = some (.throw e w')) :
    ∃ o g, w.gens i = some o ∧ w' = store w i o g := by
  unfold onGen at h
  cases hg : w.gens i with
  | none => rw [hg] at h; simp at h
  | some o =>
    rw [hg] at h
    dsimp only at h
    cases hf : f (load w o) with
    | none => rw [hf] at h; simp at h
    | some r =>
      rw [hf] at h
      cases r with
      | ub => simp at h
      | throw e g =>
        simp only [Option.some.injEq, reduceCtorEq, Out.throw.injEq, false_or] at h
        obtain ⟨_, _, rfl⟩ := h
        exact ⟨o, g, rfl, rfl⟩
      | ok a g =>
        simp only [Option.some.injEq, reduceCtorEq, Out.ok.injEq, true_and, exists_false, or_false] at h
        exact ⟨o, g, rfl, h.symm⟩

/-- the effect of each call -/
theorem goes_cases {rnd : ℚ → ℚ} {w w' : World} {c : Call} (h : Goes rnd w c w') :
    (∃ i, c = .create i ∧ w.gens i = none ∧ w' =
      { w with matrix := upd w.matrix w.used BitMatrix.empty, used := w.used + 1
               gens := upd w.gens i (some ⟨Generator.new rnd, w.used⟩) }) ∨
    (∃ i j o, c = .copy i j ∧ w.gens i = some o ∧ w' = { w with gens := upd w.gens j (some o) }) ∨
    (∃ i o, c = .destroy i ∧ w.gens i = some o ∧ w' = { w with gens := upd w.gens i none }) ∨
    (∃ i o g, c.uses i ∧ (∀ k, ¬ c.renews k ∧ ¬ c.points k ∧ ¬ c.spreads k ∧ ¬ c.writes k ∧ (c.uses k → k = i)) ∧
      w.gens i = some o ∧ w' = store w i o g) ∨
    (∃ i k o, c = .get i k ∧ w.gens i = some o ∧ w' = { w with ptrs := upd w.ptrs k (some o.addr) }) ∨
    (∃ k m a, c = .write k m ∧ w.ptrs k = some a ∧ w' = { w with matrix := upd w.matrix a m }) := by
  unfold Goes at h
  cases c with
  | create i =>
    simp only [call] at h
    cases hg : w.gens i with
    | some o => rw [hg] at h; simp at h
    | none =>
      rw [hg] at h
      simp only [Option.some.injEq, reduceCtorEq, Out.ok.injEq, true_and, exists_false, or_false] at h
      exact .inl ⟨i, rfl, hg, h.symm⟩
  | copy i j =>
    simp only [call] at h
    cases hg : w.gens i with
    | none => rw [hg] at h; simp at h
    | some o =>
      rw [hg] at h
      simp only [Option.some.injEq, reduceCtorEq, Out.ok.injEq, true_and, exists_false, or_false] at h
      exact .inr (.inl ⟨i, j, o, rfl, hg, h.symm⟩)
  | destroy i =>
    simp only [call] at h
    cases hg : w.gens i with
    | none => rw [hg] at h; simp at h
    | some o =>
      rw [hg] at h
      simp only [Option.some.injEq, reduceCtorEq, Out.ok.injEq, true_and, exists_false, or_false] at h
      exact .inr (.inr (.inl ⟨i, o, rfl, hg, h.symm⟩))
  | init i data layers mn mx =>
    simp only [call] at h
    obtain ⟨o, g, h1, h2⟩ := onGen_cases h
    exact .inr (.inr (.inr (.inl ⟨i, o, g, rfl, fun k => ⟨id, id, id, id, Eq.symm⟩, h1, h2⟩)))
  | setLayers i layers =>
    simp only [call] at h
    obtain ⟨o, g, h1, h2⟩ := onGen_cases h
    exact .inr (.inr (.inr (.inl ⟨i, o, g, rfl, fun k => ⟨id, id, id, id, Eq.symm⟩, h1, h2⟩)))
  | process i al stale mem depth R C =>
    simp only [call] at h
    obtain ⟨o, g, h1, h2⟩ := onGen_cases h
    exact .inr (.inr (.inr (.inl ⟨i, o, g, rfl, fun k => ⟨id, id, id, id, Eq.symm⟩, h1, h2⟩)))
  | get i k =>
    simp only [call] at h
    cases hg : w.gens i with
    | none => rw [hg] at h; simp at h
    | some o =>
      rw [hg] at h
      simp only [Option.some.injEq, reduceCtorEq, Out.ok.injEq, true_and, exists_false, or_false] at h
      exact .inr (.inr (.inr (.inr (.inl ⟨i, k, o, rfl, hg, h.symm⟩))))
  | write k m =>
    simp only [call] at h
    cases hg : w.ptrs k with
    | none => rw [hg] at h; simp at h
    | some a =>
      rw [hg] at h
      simp only [Option.some.injEq, reduceCtorEq, Out.ok.injEq, true_and, exists_false, or_false] at h
      exact .inr (.inr (.inr (.inr (.inr ⟨k, m, a, rfl, hg, h.symm⟩))))

/-- the address of a generator changes only when it is renewed -/
theorem addr_kept {rnd : ℚ → ℚ} {w w' : World} {c : Call} (h : Goes rnd w c w') {i : Nat} (hc : ¬ c.renews i) :
    (w'.gens i).map Obj.addr = (w.gens i).map Obj.addr := by
  rcases goes_cases h with ⟨k, rfl, hk, rfl⟩ | ⟨k, j, o, rfl, hk, rfl⟩ | ⟨k, o, rfl, hk, rfl⟩ | ⟨k, o, g, -, -, hk, rfl⟩ |
    ⟨k, p, o, rfl, hk, rfl⟩ | ⟨k, m, a, rfl, hk, rfl⟩
  · dsimp only; rw [upd_ne _ _ (fun e => hc e.symm)]
  · dsimp only; rw [upd_ne _ _ (fun e => hc e.symm)]
  · dsimp only; rw [upd_ne _ _ (fun e => hc e.symm)]
  · unfold store
    dsimp only
    by_cases e : i = k
    · subst e; rw [upd_same, hk]; rfl
    · rw [upd_ne _ _ e]
  · rfl
  · rfl

/-- a pointer variable changes only when it is assigned -/
theorem ptr_kept {rnd : ℚ → ℚ} {w w' : World} {c : Call} (h : Goes rnd w c w') {p : Nat} (hc : ¬ c.points p) : w'.ptrs p = w.ptrs p := by
  rcases goes_cases h with ⟨k, rfl, hk, rfl⟩ | ⟨k, j, o, rfl, hk, rfl⟩ | ⟨k, o, rfl, hk, rfl⟩ | ⟨k, o, g, -, -, hk, rfl⟩ |
    ⟨k, q, o, rfl, hk, rfl⟩ | ⟨k, m, a, rfl, hk, rfl⟩
  · rfl
  · rfl
  · rfl
  · rfl
  · dsimp only; rw [upd_ne _ _ (fun e => hc e.symm)]
  · rfl

theorem addr_kept_all {rnd : ℚ → ℚ} {w w' : World} {cs : List Call} (h : Calls rnd w cs w') {i : Nat} (hc : ∀ c ∈ cs, ¬ c.renews i) :
    (w'.gens i).map Obj.addr = (w.gens i).map Obj.addr := by
  induction h with
  | none => rfl
  | next h1 _ ih =>
    rw [ih fun c hc' => hc c (List.mem_cons_of_mem _ hc'), addr_kept h1 (hc _ (List.mem_cons_self ..))]

theorem ptr_kept_all {rnd : ℚ → ℚ} {w w' : World} {cs : List Call} (h : Calls rnd w cs w') {p : Nat} (hc : ∀ c ∈ cs, ¬ c.points p) :
    w'.ptrs p = w.ptrs p := by
  induction h with
  | none => rfl
  | next h1 _ ih =>
    rw [ih fun c hc' => hc c (List.mem_cons_of_mem _ hc'), ptr_kept h1 (hc _ (List.mem_cons_self ..))]

theorem shown_eq (w : World) (i : Nat) : shown w i = ((w.gens i).map Obj.addr).map w.matrix := by
  unfold shown
  cases w.gens i <;> rfl

/-- **C93** `GetMatrix` gives the generator's own matrix, not a picture of it: whatever is called afterwards (as long as the generator is not
destroyed or assigned to and the pointer variable is not assigned), the matrix behind the pointer is the one the generator shows now. -/
theorem C93_pointer (rnd : ℚ → ℚ) (w w1 w2 : World) (i h : Nat) (cs : List Call) (hg : Goes rnd w (.get i h) w1) (hcs : Calls rnd w1 cs w2)
    (hk : ∀ c ∈ cs, ¬ c.renews i ∧ ¬ c.points h) : ∃ m, seen w2 h = some m ∧ shown w2 i = some m := by
  have ha := addr_kept_all hcs fun c hc => (hk c hc).1
  have hp := ptr_kept_all hcs fun c hc => (hk c hc).2
  rcases goes_cases hg with ⟨k, e, -⟩ | ⟨k, j, o, e, -⟩ | ⟨k, o, e, -⟩ | ⟨k, o, g, e, -⟩ | ⟨k, q, o, e, ho, rfl⟩ | ⟨k, m, a, e, -⟩
  · cases e
  · cases e
  · cases e
  · cases e
  · cases e
    dsimp only at ha hp
    rw [upd_same] at hp
    rw [ho] at ha
    refine ⟨w2.matrix o.addr, ?_, ?_⟩
    · unfold seen; rw [hp]; rfl
    · rw [shown_eq, ha]; rfl
  · cases e

/-- `Process` with a size does not look at the old matrix -/
theorem process_old_matrix (rnd : ℚ → ℚ) (al : Alloc) (stale : Res Nat) (mem : Memory) (depth : Nat) {R C : Nat} (hR : R ≠ 0) (hC : C ≠ 0)
    (g : Generator) (m : BitMatrix) :
    Generator.process rnd al stale mem depth R C { g with bitmap := m } = Generator.process rnd al stale mem depth R C g := by
  unfold Generator.process BitMatrix.resize
  simp only [hR, hC, or_self, if_false]

/-- the size of the matrix when `Process` has returned -/
theorem process_size {rnd : ℚ → ℚ} {al : Alloc} {stale : Res Nat} {mem : Memory} {depth R C : Nat} {g g' : Generator} {x : Bool × List UInt8}
    (h : Generator.process rnd al stale mem depth R C g = some (.ok x g')) : g'.bitmap.isize = R ∧ g'.bitmap.jsize = C := by
  unfold Generator.process at h
  by_cases hR : R = 0
  · simp [hR] at h
  by_cases hC : C = 0
  · simp [hR, hC] at h
  have hz : ¬ (R = 0 ∨ C = 0) := by omega
  simp only [if_neg hR, if_neg hC] at h
  cases hr : BitMatrix.resize al R C g.bitmap with
  | ub => rw [hr] at h; simp at h
  | throw e b => rw [hr] at h; simp at h
  | ok u b =>
    have hb : b = blank R C := by
      unfold BitMatrix.resize at hr
      rw [if_neg hz] at hr
      cases ha : al R (bytesPerRow C) with
      | none =>
        simp only [V2.resize, ha, Out.ok.injEq, true_and] at hr
        rw [← hr]; rfl
      | some k =>
        cases k with
        | zero => simp [V2.resize, ha] at hr
        | succ k =>
          by_cases hk : k < R
          · simp [V2.resize, ha, hk] at hr
          · simp only [V2.resize, ha, hk, if_false, Out.ok.injEq, true_and] at hr
            rw [← hr]; rfl
    rw [hr] at h
    simp only at h
    cases hs : setUp rnd stale R C { g with bitmap := b, geoms := [], legacy := [], frags := fragsSetMatrix g.frags } with
    | ub => rw [hs] at h; simp at h
    | throw e => rw [hs] at h; simp at h
    | ok g2 =>
      have h2 : g2.bitmap = b := (setUp_frame hs).2.2.2.2.2
      rw [hs] at h
      simp only at h
      cases hi : initGeometryItems mem depth g2 with
      | none => rw [hi] at h; simp at h
      | some r =>
        rw [hi] at h
        cases r with
        | ub => simp at h
        | throw e => simp at h
        | ok gl =>
          obtain ⟨gs, ls⟩ := gl
          simp only at h
          cases hzm : zondMatrix rnd { g2 with geoms := gs, legacy := ls } with
          | ub => rw [hzm] at h; simp at h
          | throw e g3 => rw [hzm] at h; simp at h
          | ok u g3 =>
            rw [hzm] at h
            simp only at h
            have h3 : Shape R C g3.bitmap := by
              unfold zondMatrix at hzm
              simp only at hzm
              split at hzm
              · split at hzm
                · next hza =>
                  cases hzm
                  have hsh : Shape R C g2.bitmap := by rw [h2, hb]; exact blank_shape R C
                  exact (zondAll_ok hsh hza).2.shape hsh
                · cases hzm
                · cases hzm
              · cases hzm
            cases hp : BitMatrix.print g3.bitmap with
            | ub => rw [hp] at h; simp at h
            | throw e => rw [hp] at h; simp at h
            | ok t =>
              rw [hp] at h
              simp only [Option.some.injEq, Out.ok.injEq] at h
              rw [← h.2]
              exact ⟨h3.2.1, h3.2.2⟩

/-- where `*h` is after `h = i.GetMatrix()` -/
theorem get_addr {rnd : ℚ → ℚ} {w w1 w2 : World} {i h : Nat} {cs : List Call} (hg : Goes rnd w (.get i h) w1) (hcs : Calls rnd w1 cs w2)
    (hk : ∀ c ∈ cs, ¬ c.renews i ∧ ¬ c.points h) : ∃ o, w2.gens i = some o ∧ w2.ptrs h = some o.addr := by
  have ha := addr_kept_all hcs fun c hc => (hk c hc).1
  have hp := ptr_kept_all hcs fun c hc => (hk c hc).2
  rcases goes_cases hg with ⟨k, e, -⟩ | ⟨k, j, o, e, -⟩ | ⟨k, o, e, -⟩ | ⟨k, o, g, e, -⟩ | ⟨k, q, o, e, ho, rfl⟩ | ⟨k, m, a, e, -⟩
  · cases e
  · cases e
  · cases e
  · cases e
  · cases e
    dsimp only at ha hp
    rw [upd_same] at hp
    rw [ho] at ha
    cases hw : w2.gens i with
    | none => rw [hw] at ha; cases ha
    | some o2 =>
      rw [hw] at ha
      simp only [Option.map_some, Option.some.injEq] at ha
      exact ⟨o2, rfl, by rw [hp, ha]⟩
  · cases e

/-- **C93** A matrix handed out earlier is overwritten by the next `Process`: when `Process(R, C)` returns, the matrix behind the pointer has
`R` rows and `C` columns and is the one `GetMatrix` gives now. -/
theorem C93_overwritten (rnd : ℚ → ℚ) (w w1 w2 w3 : World) (i h : Nat) (cs : List Call) (hg : Goes rnd w (.get i h) w1)
    (hcs : Calls rnd w1 cs w2) (hk : ∀ c ∈ cs, ¬ c.renews i ∧ ¬ c.points h) (al : Alloc) (stale : Res Nat) (mem : Memory) (depth R C : Nat)
    (hp : call rnd w2 (.process i al stale mem depth R C) = some (.ok () w3)) :
    ∃ m, seen w3 h = some m ∧ shown w3 i = some m ∧ m.isize = R ∧ m.jsize = C := by
  obtain ⟨o, ho, hptr⟩ := get_addr hg hcs hk
  simp only [call, onGen, ho] at hp
  cases hf : Generator.process rnd al stale mem depth R C (load w2 o) with
  | none => rw [hf] at hp; simp at hp
  | some r =>
    rw [hf] at hp
    cases r with
    | ub => simp at hp
    | throw e g => simp at hp
    | ok x g =>
      simp only [Option.some.injEq, Out.ok.injEq, true_and] at hp
      subst hp
      obtain ⟨h1, h2⟩ := process_size hf
      refine ⟨g.bitmap, ?_, ?_, h1, h2⟩
      · simp [seen, store, hptr]
      · simp [shown, store]

/-- **C93** What a client did to the matrix behind the pointer has no influence on the next `Process` with a size: it does exactly what it would
have done without the change. -/
theorem C93_forgets (rnd : ℚ → ℚ) (w w1 w2 w3 : World) (i h : Nat) (cs : List Call) (hg : Goes rnd w (.get i h) w1)
    (hcs : Calls rnd w1 cs w2) (hk : ∀ c ∈ cs, ¬ c.renews i ∧ ¬ c.points h) (m : BitMatrix) (hw : Goes rnd w2 (.write h m) w3)
    (al : Alloc) (stale : Res Nat) (mem : Memory) (depth R C : Nat) (hR : R ≠ 0) (hC : C ≠ 0) :
    seen w3 h = some m ∧ shown w3 i = some m ∧
      call rnd w3 (.process i al stale mem depth R C) = call rnd w2 (.process i al stale mem depth R C) := by
  obtain ⟨o, ho, hptr⟩ := get_addr hg hcs hk
  have e3 : w3 = { w2 with matrix := upd w2.matrix o.addr m } := by
    rcases hw with hw | ⟨e, hw⟩
    · simp only [call, hptr, Option.some.injEq, Out.ok.injEq, true_and] at hw
      exact hw.symm
    · simp [call, hptr] at hw
  subst e3
  refine ⟨by simp [seen, hptr], by simp [shown, ho], ?_⟩
  have hl : load { w2 with matrix := upd w2.matrix o.addr m } o = { load w2 o with bitmap := m } := by simp [load]
  have hst : ∀ g, store { w2 with matrix := upd w2.matrix o.addr m } i o g = store w2 i o g := fun g => by
    have : upd (upd w2.matrix o.addr m) o.addr g.bitmap = upd w2.matrix o.addr g.bitmap := by
      funext k; unfold upd; split <;> rfl
    simp [store, this]
  simp only [call, onGen, ho, hl, process_old_matrix rnd al stale mem depth hR hC, hst]

/-- **C93** A copy of a generator (copied, assigned or moved) shows the same matrix as the original from then on: whatever either of them
computes appears in both. -/
theorem C93_copy (rnd : ℚ → ℚ) (w w1 w2 : World) (i j : Nat) (cs : List Call) (hg : Goes rnd w (.copy i j) w1) (hcs : Calls rnd w1 cs w2)
    (hk : ∀ c ∈ cs, ¬ c.renews i ∧ ¬ c.renews j) : ∃ m, shown w2 i = some m ∧ shown w2 j = some m := by
  have hi := addr_kept_all hcs fun c hc => (hk c hc).1
  have hj := addr_kept_all hcs fun c hc => (hk c hc).2
  rcases goes_cases hg with ⟨k, e, -⟩ | ⟨k, q, o, e, ho, rfl⟩ | ⟨k, o, e, -⟩ | ⟨k, o, g, e, -⟩ | ⟨k, q, o, e, -⟩ | ⟨k, m, a, e, -⟩
  · cases e
  · cases e
    dsimp only at hi hj
    rw [upd_same] at hj
    refine ⟨w2.matrix o.addr, ?_, ?_⟩
    · rw [shown_eq, hi]
      by_cases e : i = j
      · subst e; rw [upd_same]; rfl
      · rw [upd_ne _ _ e, ho]; rfl
    · rw [shown_eq, hj]; rfl
  · cases e
  · cases e
  · cases e
  · cases e

/-- **C93** The end of a generator's life changes nothing behind the pointers it handed out, nor any other generator. -/
theorem C93_survives (rnd : ℚ → ℚ) (w w1 : World) (i : Nat) (hg : Goes rnd w (.destroy i) w1) :
    (∀ h, seen w1 h = seen w h) ∧ ∀ j, j ≠ i → shown w1 j = shown w j := by
  rcases goes_cases hg with ⟨k, e, -⟩ | ⟨k, q, o, e, -⟩ | ⟨k, o, e, ho, rfl⟩ | ⟨k, o, g, e, -⟩ | ⟨k, q, o, e, -⟩ | ⟨k, m, a, e, -⟩
  · cases e
  · cases e
  · cases e
    refine ⟨fun h => rfl, fun j hj => ?_⟩
    simp only [shown]
    rw [upd_ne _ _ hj]
  · cases e
  · cases e
  · cases e

/-! ### who refers to a matrix -/

/-- every address is allocated -/
structure Alloced (w : World) : Prop where
  gens : ∀ i o, w.gens i = some o → o.addr < w.used
  ptrs : ∀ h a, w.ptrs h = some a → a < w.used

/-- only generators in `P` and pointer variables in `Q` refer to the matrix at `A` -/
structure Only (P Q : Nat → Prop) (A : Nat) (w : World) : Prop where
  gens : ∀ i o, w.gens i = some o → o.addr = A → P i
  ptrs : ∀ h, w.ptrs h = some A → Q h
  used : A < w.used

theorem alloced_goes {rnd : ℚ → ℚ} {w w' : World} {c : Call} (h : Goes rnd w c w') (a : Alloced w) : Alloced w' := by
  rcases goes_cases h with ⟨k, rfl, hk, rfl⟩ | ⟨k, j, o, rfl, hk, rfl⟩ | ⟨k, o, rfl, hk, rfl⟩ | ⟨k, o, g, -, -, hk, rfl⟩ |
    ⟨k, q, o, rfl, hk, rfl⟩ | ⟨k, m, b, rfl, hk, rfl⟩
  · refine ⟨fun i o hi => ?_, fun p b hb => Nat.lt_succ_of_lt (a.ptrs p b hb)⟩
    dsimp only at hi ⊢
    unfold upd at hi
    split at hi
    · cases hi; exact Nat.lt_succ_self _
    · exact Nat.lt_succ_of_lt (a.gens i o hi)
  · refine ⟨fun i o' hi => ?_, a.ptrs⟩
    dsimp only at hi ⊢
    unfold upd at hi
    split at hi
    · cases hi; exact a.gens _ _ hk
    · exact a.gens i o' hi
  · refine ⟨fun i o' hi => ?_, a.ptrs⟩
    dsimp only at hi ⊢
    unfold upd at hi
    split at hi
    · cases hi
    · exact a.gens i o' hi
  · refine ⟨fun i o' hi => ?_, a.ptrs⟩
    dsimp only [store] at hi ⊢
    unfold upd at hi
    split at hi
    · cases hi; exact a.gens _ o hk
    · exact a.gens i o' hi
  · refine ⟨a.gens, fun p b hb => ?_⟩
    dsimp only at hb ⊢
    unfold upd at hb
    split at hb
    · cases hb; exact a.gens _ _ hk
    · exact a.ptrs p b hb
  · exact ⟨a.gens, a.ptrs⟩

theorem only_goes {rnd : ℚ → ℚ} {P Q : Nat → Prop} {A : Nat} {w w' : World} {c : Call} (h : Goes rnd w c w') (a : Only P Q A w)
    (hc : ∀ i, P i → ¬ c.spreads i) : Only P Q A w' := by
  rcases goes_cases h with ⟨k, rfl, hk, rfl⟩ | ⟨k, j, o, rfl, hk, rfl⟩ | ⟨k, o, rfl, hk, rfl⟩ | ⟨k, o, g, -, -, hk, rfl⟩ |
    ⟨k, q, o, rfl, hk, rfl⟩ | ⟨k, m, b, rfl, hk, rfl⟩
  · refine ⟨fun i o hi hA => ?_, a.ptrs, Nat.lt_succ_of_lt a.used⟩
    dsimp only at hi
    unfold upd at hi
    split at hi
    · cases hi; have := a.used; dsimp only at hA; omega
    · exact a.gens i o hi hA
  · refine ⟨fun i o' hi hA => ?_, a.ptrs, a.used⟩
    dsimp only at hi
    unfold upd at hi
    split at hi
    · cases hi; exact absurd rfl (hc k (a.gens k o hk hA))
    · exact a.gens i o' hi hA
  · refine ⟨fun i o' hi hA => ?_, a.ptrs, a.used⟩
    dsimp only at hi
    unfold upd at hi
    split at hi
    · cases hi
    · exact a.gens i o' hi hA
  · refine ⟨fun i o' hi hA => ?_, a.ptrs, a.used⟩
    dsimp only [store] at hi
    unfold upd at hi
    split at hi
    · next e => cases hi; subst e; exact a.gens _ o hk hA
    · exact a.gens i o' hi hA
  · refine ⟨a.gens, fun p hp => ?_, a.used⟩
    dsimp only at hp
    unfold upd at hp
    split at hp
    · injection hp with hp; exact absurd rfl (hc k (a.gens k o hk hp))
    · exact a.ptrs p hp
  · exact ⟨a.gens, a.ptrs, a.used⟩

/-- a matrix changes only through those who refer to it -/
theorem matrix_kept {rnd : ℚ → ℚ} {P Q : Nat → Prop} {A : Nat} {w w' : World} {c : Call} (h : Goes rnd w c w') (a : Only P Q A w)
    (hu : ∀ i, P i → ¬ c.uses i) (hw : ∀ p, Q p → ¬ c.writes p) : w'.matrix A = w.matrix A := by
  rcases goes_cases h with ⟨k, rfl, hk, rfl⟩ | ⟨k, j, o, rfl, hk, rfl⟩ | ⟨k, o, rfl, hk, rfl⟩ | ⟨k, o, g, hk', -, hk, rfl⟩ |
    ⟨k, q, o, rfl, hk, rfl⟩ | ⟨k, m, b, rfl, hk, rfl⟩
  · dsimp only; exact upd_ne _ _ (Nat.ne_of_lt a.used)
  · rfl
  · rfl
  · exact upd_ne _ _ fun e => hu k (a.gens k o hk e.symm) hk'
  · rfl
  · exact upd_ne _ _ fun e => hw k (a.ptrs k (by rw [hk, e])) rfl

theorem alloced_calls {rnd : ℚ → ℚ} {w w' : World} {cs : List Call} (h : Calls rnd w cs w') (a : Alloced w) : Alloced w' := by
  induction h with
  | none => exact a
  | next h1 _ ih => exact ih (alloced_goes h1 a)

theorem only_calls {rnd : ℚ → ℚ} {P Q : Nat → Prop} {A : Nat} {w w' : World} {cs : List Call} (h : Calls rnd w cs w') (a : Only P Q A w)
    (hc : ∀ c ∈ cs, ∀ i, P i → ¬ c.spreads i) : Only P Q A w' := by
  induction h with
  | none => exact a
  | next h1 _ ih =>
    exact ih (only_goes h1 a (hc _ (List.mem_cons_self ..))) fun c hc' => hc c (List.mem_cons_of_mem _ hc')

/-- a new generator's matrix is its own -/
theorem only_create {rnd : ℚ → ℚ} {w w' : World} {i : Nat} (h : Goes rnd w (.create i) w') (a : Alloced w) :
    ∃ o, w'.gens i = some o ∧ Only (· = i) (fun _ => False) o.addr w' := by
  rcases goes_cases h with ⟨k, e, hk, rfl⟩ | ⟨k, q, o, e, -⟩ | ⟨k, o, e, -⟩ | ⟨k, o, g, e, -⟩ | ⟨k, q, o, e, -⟩ | ⟨k, m, a, e, -⟩
  · cases e
    refine ⟨⟨Generator.new rnd, w.used⟩, by simp, fun j o hj hA => ?_, fun p hp => ?_, Nat.lt_succ_self _⟩
    · dsimp only at hj hA
      unfold upd at hj
      split at hj
      · assumption
      · have := a.gens j o hj; omega
    · have := a.ptrs p _ hp
      simp at this
  · cases e
  · cases e
  · cases e
  · cases e
  · cases e

theorem alloced_start : Alloced {} := ⟨fun i o h => by simp at h, fun h a e => by simp at e⟩

/-- the address of a generator that is not renewed -/
theorem addr_of {rnd : ℚ → ℚ} {w w' : World} {cs : List Call} (h : Calls rnd w cs w') {i : Nat} (hc : ∀ c ∈ cs, ¬ c.renews i) {o : Obj}
    (ho : w.gens i = some o) : ∃ o', w'.gens i = some o' ∧ o'.addr = o.addr := by
  have := addr_kept_all h hc
  rw [ho] at this
  cases hw : w'.gens i with
  | none => rw [hw] at this; cases this
  | some o' =>
    rw [hw] at this
    simp only [Option.map_some, Option.some.injEq] at this
    exact ⟨o', rfl, this⟩

/-- **C93** Generators constructed separately do not disturb each other: as long as generator `i` is neither copied nor asked for its matrix,
no call that is not made on `i` changes what it shows, and no call made on `i` changes what another generator shows or what is behind any pointer. -/
theorem C93_separate (rnd : ℚ → ℚ) (pre : List Call) (w0 w1 : World) (hpre : Calls rnd {} pre w0) (i : Nat) (hnew : Goes rnd w0 (.create i) w1)
    (cs : List Call) (w2 : World) (hcs : Calls rnd w1 cs w2) (hk : ∀ c ∈ cs, ¬ c.renews i ∧ ¬ c.spreads i) (c : Call) (w3 : World)
    (hc : Goes rnd w2 c w3) (hkc : ¬ c.renews i) :
    (∃ m, shown w2 i = some m) ∧ (¬ c.uses i → shown w3 i = shown w2 i) ∧
      (c.uses i → (∀ j, j ≠ i → shown w3 j = shown w2 j) ∧ ∀ h, seen w3 h = seen w2 h) := by
  have a0 := alloced_calls hpre alloced_start
  obtain ⟨o, ho, only⟩ := only_create hnew a0
  have only2 := only_calls hcs only fun d hd k hk' => by cases hk'; exact (hk d hd).2
  obtain ⟨o2, ho2, e2⟩ := addr_of hcs (fun d hd => (hk d hd).1) ho
  rw [← e2] at only2
  refine ⟨⟨w2.matrix o2.addr, by simp [shown, ho2]⟩, fun hu => ?_, fun hu => ?_⟩
  · have hm := matrix_kept hc only2 (fun k hk' => by cases hk'; exact hu) (fun p hp => hp.elim)
    have ha := addr_kept hc hkc
    rw [shown_eq, shown_eq, ha, ho2]
    simp [hm]
  · rcases goes_cases hc with ⟨k, rfl, hk, rfl⟩ | ⟨k, j, o, rfl, hk, rfl⟩ | ⟨k, o, rfl, hk, rfl⟩ | ⟨k, o, g, -, hk', hk, rfl⟩ |
      ⟨k, q, o, rfl, hk, rfl⟩ | ⟨k, m, b, rfl, hk, rfl⟩
    · exact hu.elim
    · exact hu.elim
    · exact hu.elim
    · obtain rfl : i = k := (hk' i).2.2.2.2 hu
      rw [ho2] at hk
      cases hk
      refine ⟨fun j hj => ?_, fun p => ?_⟩
      · simp only [shown, store]
        rw [upd_ne _ _ hj]
        cases hg : w2.gens j with
        | none => rfl
        | some oj =>
          simp only [Option.map_some, Option.some.injEq]
          exact upd_ne _ _ fun e => hj (only2.gens j oj hg e)
      · simp only [seen, store]
        cases hg : w2.ptrs p with
        | none => rfl
        | some b =>
          simp only [Option.map_some, Option.some.injEq]
          exact upd_ne _ _ fun e => (only2.ptrs p (by rw [hg, e])).elim
    · exact hu.elim
    · exact hu.elim

/-- **C93** How to keep a result: when the generator, whose matrix was handed out only once, is destroyed or another generator is assigned to it,
the matrix behind the pointer stays what it is, whatever is called afterwards, unless the client changes it through that pointer. -/
theorem C93_keep (rnd : ℚ → ℚ) (pre : List Call) (w0 w1 : World) (hpre : Calls rnd {} pre w0) (i : Nat) (hnew : Goes rnd w0 (.create i) w1)
    (cs : List Call) (w2 : World) (hcs : Calls rnd w1 cs w2) (hk : ∀ c ∈ cs, ¬ c.renews i ∧ ¬ c.spreads i) (h : Nat) (w3 : World)
    (hget : Goes rnd w2 (.get i h) w3) (cs' : List Call) (w4 : World) (hcs' : Calls rnd w3 cs' w4)
    (hk' : ∀ c ∈ cs', ¬ c.renews i ∧ ¬ c.spreads i ∧ ¬ c.points h) (c : Call) (hc : c = .destroy i ∨ ∃ k, k ≠ i ∧ c = .copy k i) (w5 : World)
    (hgo : Goes rnd w4 c w5) (more : List Call) (w6 : World) (hmore : Calls rnd w5 more w6)
    (hkm : ∀ c ∈ more, ¬ c.points h ∧ ¬ c.writes h) :
    ∃ m, seen w4 h = some m ∧ shown w4 i = some m ∧ seen w6 h = some m := by
  have a0 := alloced_calls hpre alloced_start
  obtain ⟨o, ho, only⟩ := only_create hnew a0
  have only2 := only_calls hcs only fun d hd k hk' => by cases hk'; exact (hk d hd).2
  obtain ⟨o2, ho2, e2⟩ := addr_of hcs (fun d hd => (hk d hd).1) ho
  rw [← e2] at only2
  -- after `GetMatrix` the variable `h` points to it too
  obtain rfl : w3 = { w2 with ptrs := upd w2.ptrs h (some o2.addr) } := by
    rcases hget with hget | ⟨e, hget⟩
    · simp only [call, ho2, Option.some.injEq, Out.ok.injEq, true_and] at hget
      exact hget.symm
    · simp [call, ho2] at hget
  have only3 : Only (· = i) (· = h) o2.addr { w2 with ptrs := upd w2.ptrs h (some o2.addr) } := by
    refine ⟨only2.gens, fun p hp => ?_, only2.used⟩
    dsimp only at hp
    unfold upd at hp
    split at hp
    · assumption
    · exact (only2.ptrs p hp).elim
  have only4 := only_calls hcs' only3 fun d hd k hk2 => by cases hk2; exact (hk' d hd).2.1
  obtain ⟨o4, ho4, e4⟩ := addr_of (i := i) hcs' (fun d hd => (hk' d hd).1) (o := o2) ho2
  have hp4 := ptr_kept_all hcs' (p := h) fun d hd => (hk' d hd).2.2
  dsimp only at hp4
  rw [upd_same] at hp4
  -- the generator lets go of it
  have only5 : Only (fun _ => False) (· = h) o2.addr w5 ∧ w5.matrix = w4.matrix ∧ w5.ptrs = w4.ptrs := by
    rcases hc with rfl | ⟨k, hk, rfl⟩
    · obtain rfl : w5 = { w4 with gens := upd w4.gens i none } := by
        rcases hgo with hgo | ⟨e, hgo⟩
        · simp only [call, ho4, Option.some.injEq, Out.ok.injEq, true_and] at hgo
          exact hgo.symm
        · simp [call, ho4] at hgo
      refine ⟨⟨fun j oj hj hA => ?_, only4.ptrs, only4.used⟩, rfl, rfl⟩
      dsimp only at hj
      unfold upd at hj
      split at hj
      · cases hj
      · next hne => exact hne (only4.gens j oj hj hA)
    · rcases goes_cases hgo with ⟨k, e, -⟩ | ⟨k, q, o, e, hok, rfl⟩ | ⟨k, o, e, -⟩ | ⟨k, o, g, e, -⟩ | ⟨k, q, o, e, -⟩ | ⟨k, m, a, e, -⟩
      · cases e
      · cases e
        refine ⟨⟨fun j oj hj hA => ?_, only4.ptrs, only4.used⟩, rfl, rfl⟩
        dsimp only at hj
        unfold upd at hj
        split at hj
        · cases hj; exact hk (only4.gens k _ hok hA)
        · next hne => exact hne (only4.gens j oj hj hA)
      · cases e
      · cases e
      · cases e
      · cases e
  obtain ⟨only5, em, ep⟩ := only5
  refine ⟨w4.matrix o2.addr, by simp [seen, hp4], by simp [shown, ho4, e4], ?_⟩
  have hp6 := ptr_kept_all hmore (p := h) fun d hd => (hkm d hd).1
  rw [ep, hp4] at hp6
  rw [← em]
  have key : w6.matrix o2.addr = w5.matrix o2.addr := by
    clear hp6 em ep hgo
    induction hmore with
    | none => rfl
    | next h1 _ ih =>
      rw [ih (fun d hd => hkm d (List.mem_cons_of_mem _ hd)) (only_goes h1 only5 fun _ hf => hf.elim),
        matrix_kept h1 only5 (fun _ hf => hf.elim) fun p hp => by cases hp; exact (hkm _ (List.mem_cons_self ..)).2]
  simp [seen, hp6, key]

/-- **C93** Assigning a new generator makes a used one as good as new: it shows an empty matrix and `Init` with a layout and a layer succeeds again
exactly when the corners are in order. -/
theorem C93_again (rnd : ℚ → ℚ) (w w1 w2 : World) (i k : Nat) (h1 : Goes rnd w (.create k) w1) (h2 : Goes rnd w1 (.copy k i) w2)
    (a : Nat) (ls : List Int) (hls : ls ≠ []) (mn mx : Coord) :
    shown w2 i = some BitMatrix.empty ∧
    ((∃ w3, call rnd w2 (.init i (some a) ls mn mx) = some (.ok () w3)) ↔ mn.x ≤ mx.x ∧ mn.y ≤ mx.y) := by
  rcases goes_cases h1 with ⟨k', e, hk, rfl⟩ | ⟨k, q, o, e, -⟩ | ⟨k, o, e, -⟩ | ⟨k, o, g, e, -⟩ | ⟨k, q, o, e, -⟩ | ⟨k, m, a, e, -⟩
  · cases e
    obtain rfl : w2 = { w with matrix := upd w.matrix w.used BitMatrix.empty, used := w.used + 1
                               gens := upd (upd w.gens k (some ⟨Generator.new rnd, w.used⟩)) i (some ⟨Generator.new rnd, w.used⟩) } := by
      rcases h2 with h2 | ⟨e, h2⟩
      · simp only [call, upd_same, Option.some.injEq, Out.ok.injEq, true_and] at h2
        exact h2.symm
      · simp [call] at h2
    refine ⟨by simp [shown], ?_⟩
    have hl : ∀ w' : World, w'.matrix w.used = BitMatrix.empty → load w' ⟨Generator.new rnd, w.used⟩ = Generator.new rnd := fun w' e => by
      unfold load; rw [e]; rfl
    simp only [call, onGen, upd_same]
    rw [hl _ (upd_same _ _ _)]
    obtain ⟨g1, g2⟩ := C40_first_init rnd [] (Generator.new rnd) .start (by simp) a ls hls mn mx
    constructor
    · rintro ⟨w3, h3⟩
      by_contra hno
      obtain ⟨g', e⟩ := g2 hno
      simp [e] at h3
    · intro ho
      obtain ⟨g', e⟩ := g1 ho
      simp [e]
  · cases e
  · cases e
  · cases e
  · cases e
  · cases e

/-! ### a session -/

/-- calls that all return -/
def steps (rnd : ℚ → ℚ) : World → List Call → Option World
  | w, [] => some w
  | w, c :: cs =>
    match call rnd w c with
    | some (.ok _ w') => steps rnd w' cs
    | _ => none

theorem steps_calls {rnd : ℚ → ℚ} : ∀ {cs : List Call} {w w' : World}, steps rnd w cs = some w' → Calls rnd w cs w'
  | [], w, w', h => by cases h; exact .none
  | c :: cs, w, w', h => by
    unfold steps at h
    split at h
    · next e => exact .next (.inl e) (steps_calls h)
    · cases h

/-- Generator 0 renders layer 13 on a grid of 5 × 5; its result is kept in variable 5 by assigning a new generator to it; the reused generator
renders layer 23, is copied, and the copy renders layer 13 on 4 × 8: that overwrites what generator 0 shows, but not the kept result. -/
def exSession : List Call :=
  [.create 0, .init 0 (some 7) [13] ⟨0, 0⟩ ⟨100, 100⟩, .get 0 5, .process 0 Alloc.ok (.ok 1) exMem 3 5 5, .create 1, .copy 1 0,
   .init 0 (some 7) [23] ⟨0, 0⟩ ⟨100, 100⟩, .process 0 Alloc.ok (.ok 1) exMem 3 5 5, .copy 0 2, .get 0 6, .setLayers 2 [13],
   .process 2 Alloc.ok (.ok 1) exMem 3 4 8]

example : ((steps id {} exSession).bind fun w => seen w 5) = some ⟨[[0], [64], [0], [0], [0]], 5, 5⟩ ∧
    ((steps id {} exSession).bind fun w => seen w 6) = some ⟨[[0], [56], [56], [0]], 4, 8⟩ ∧
    ((steps id {} exSession).bind fun w => shown w 0) = some ⟨[[0], [56], [56], [0]], 4, 8⟩ := by
  decide +kernel

/-- the hypotheses of the theorems above are met in this session -/
example : ∃ w, Calls id {} exSession w := by
  have h : (steps id {} exSession).isSome = true := by decide +kernel
  obtain ⟨w, hw⟩ := Option.isSome_iff_exists.1 h
  exact ⟨w, steps_calls hw⟩

end Verif.Props
