import Verif.Model.CollectMemory
import Verif.Proofs.Generator2

/-! Collecting within a memory budget against collecting with enough memory. -/

namespace Verif.Generator
open Verif BitMatrix Converter

/-- `x` either ran out of memory or did to the lists `c` what `r` says -/
def Follows (x : Option (Out Lists Nat)) (c : Lists) (r : Run Lists) : Prop :=
  (∃ c', x = some (.throw .badAlloc c')) ∨
  match r with
  | none => x = none
  | some .ub => x = some .ub
  | some (.throw e) => ∃ c', x = some (.throw e c')
  | some (.ok a) => ∃ m, x = some (.ok m (c.1 ++ a.1, c.2 ++ a.2))

/-- with a budget of `n` operations, at most `k` of them used, `x` does to the lists `c` what `r` says -/
def Finishes (k n : Nat) (x : Option (Out Lists Nat)) (c : Lists) (r : Run Lists) : Prop :=
  match r with
  | none => x = none
  | some .ub => x = some .ub
  | some (.throw e) => ∃ c', x = some (.throw e c')
  | some (.ok a) => ∃ m, n ≤ m + k ∧ x = some (.ok m (c.1 ++ a.1, c.2 ++ a.2))

theorem follows_bind {x : Option (Out Lists Nat)} {c : Lists} {r : Run Lists} {f : Nat → Lists → Option (Out Lists Nat)}
    {s : Run Lists} (hx : Follows x c r) (hf : ∀ n c, Follows (f n c) c s) :
    Follows (Collect.bind x f) c (r.bind fun a => s.bind fun b => some (.ok (a.1 ++ b.1, a.2 ++ b.2))) := by
  rcases hx with ⟨c', rfl⟩ | hx
  · exact .inl ⟨c', rfl⟩
  · cases r with
    | none => simp only at hx; subst hx; exact .inr rfl
    | some r =>
      cases r with
      | ub => simp only at hx; subst hx; exact .inr rfl
      | throw e => obtain ⟨c', rfl⟩ := hx; exact .inr ⟨c', rfl⟩
      | ok a =>
        obtain ⟨m, rfl⟩ := hx
        simp only [Collect.bind, Run.bind]
        rcases hf m (c.1 ++ a.1, c.2 ++ a.2) with ⟨c', h⟩ | h
        · exact .inl ⟨c', h⟩
        · cases s with
          | none => exact .inr h
          | some s =>
            cases s with
            | ub => exact .inr h
            | throw e => exact .inr h
            | ok b => obtain ⟨m', h⟩ := h; exact .inr ⟨m', by rw [h]; simp⟩

theorem finishes_bind {k l n : Nat} {x : Option (Out Lists Nat)} {c : Lists} {r : Run Lists}
    {f : Nat → Lists → Option (Out Lists Nat)} {s : Run Lists} (hn : k + l ≤ n) (hx : Finishes k n x c r)
    (hf : ∀ n c, l ≤ n → Finishes l n (f n c) c s) :
    Finishes (k + l) n (Collect.bind x f) c (r.bind fun a => s.bind fun b => some (.ok (a.1 ++ b.1, a.2 ++ b.2))) := by
  cases r with
  | none => simp only [Finishes] at hx; subst hx; rfl
  | some r =>
    cases r with
    | ub => simp only [Finishes] at hx; subst hx; rfl
    | throw e => obtain ⟨c', rfl⟩ := hx; exact ⟨c', rfl⟩
    | ok a =>
      obtain ⟨m, hm, rfl⟩ := hx
      simp only [Collect.bind, Run.bind]
      have h := hf m (c.1 ++ a.1, c.2 ++ a.2) (by omega)
      cases s with
      | none => exact h
      | some s =>
        cases s with
        | ub => exact h
        | throw e => exact h
        | ok b => obtain ⟨m', h1, h⟩ := h; exact ⟨m', by omega, by rw [h]; simp⟩

theorem pushConverted_follows (ws : Workspace) : ∀ (rs : List Geometry) (n : Nat) (c : Lists),
    Follows (pushConverted ws rs n c) c (some (.ok (rs.filter (boxMeets ws), [])))
  | [], n, c => .inr ⟨n, by simp [pushConverted]⟩
  | r :: rs, n, c => by
    unfold pushConverted
    by_cases h : boxMeets ws r = true
    · rw [if_pos h]
      cases n with
      | zero => exact .inl ⟨c, rfl⟩
      | succ n =>
        rcases pushConverted_follows ws rs n (c.1 ++ [r], c.2) with h1 | ⟨m, h1⟩
        · exact .inl h1
        · exact .inr ⟨m, by simp only [h1]; simp [h]⟩
    · rw [if_neg h]
      rcases pushConverted_follows ws rs n c with h1 | ⟨m, h1⟩
      · exact .inl h1
      · exact .inr ⟨m, by rw [h1]; simp [h]⟩

theorem pushConverted_finishes (ws : Workspace) : ∀ (rs : List Geometry) (n : Nat) (c : Lists), rs.length ≤ n →
    Finishes rs.length n (pushConverted ws rs n c) c (some (.ok (rs.filter (boxMeets ws), [])))
  | [], n, c, _ => ⟨n, by simp, by simp [pushConverted]⟩
  | r :: rs, n, c, hn => by
    unfold pushConverted
    simp only [List.length_cons] at hn
    by_cases h : boxMeets ws r = true
    · rw [if_pos h]
      cases n with
      | zero => omega
      | succ n =>
        obtain ⟨m, h0, h1⟩ := pushConverted_finishes ws rs n (c.1 ++ [r], c.2) (by omega)
        exact ⟨m, by simp only [List.length_cons]; omega, by simp only [h1]; simp [h]⟩
    · rw [if_neg h]
      obtain ⟨m, h0, h1⟩ := pushConverted_finishes ws rs n c (by omega)
      exact ⟨m, by simp only [List.length_cons]; omega, by rw [h1]; simp [h]⟩

theorem convertThen_follows (ws : Workspace) (x : Run (List Geometry)) (n : Nat) (c : Lists) :
    Follows (convertThen ws x n c) c (x.bind fun rs => some (.ok (rs.filter (boxMeets ws), []))) := by
  cases n with
  | zero => exact .inl ⟨c, rfl⟩
  | succ n =>
    cases x with
    | none => exact .inr rfl
    | some r =>
      cases r with
      | ub => exact .inr rfl
      | throw e => exact .inr ⟨c, rfl⟩
      | ok rs => exact pushConverted_follows ws rs n c

theorem convertThen_finishes (ws : Workspace) (x : Run (List Geometry)) : ∃ k, ∀ n c, k ≤ n →
    Finishes k n (convertThen ws x n c) c (x.bind fun rs => some (.ok (rs.filter (boxMeets ws), []))) := by
  cases x with
  | none => exact ⟨1, fun n c hn => by obtain ⟨n, rfl⟩ : ∃ m, n = m + 1 := ⟨n - 1, by omega⟩; rfl⟩
  | some r =>
    cases r with
    | ub => exact ⟨1, fun n c hn => by obtain ⟨n, rfl⟩ : ∃ m, n = m + 1 := ⟨n - 1, by omega⟩; rfl⟩
    | throw e => exact ⟨1, fun n c hn => by obtain ⟨n, rfl⟩ : ∃ m, n = m + 1 := ⟨n - 1, by omega⟩; exact ⟨c, rfl⟩⟩
    | ok rs =>
      refine ⟨rs.length + 1, fun n c hn => ?_⟩
      obtain ⟨n, rfl⟩ : ∃ m, n = m + 1 := ⟨n - 1, by omega⟩
      obtain ⟨m, h0, h1⟩ := pushConverted_finishes ws rs n c (by omega)
      exact ⟨m, by omega, h1⟩

theorem collectOne_follows (H : Elements) (depth : Nat) (ws : Workspace) (p : Option Geometry) (n : Nat) (c : Lists) :
    Follows (collectOne H depth ws p n c) c (gatherOne H depth ws p) := by
  unfold collectOne gatherOne
  cases p with
  | none => exact .inr ⟨n, by simp⟩
  | some g =>
    simp only
    split
    · cases g.type with
      | rectangle => cases n with
        | zero => exact .inl ⟨c, rfl⟩
        | succ n => exact .inr ⟨n, by simp⟩
      | polygon => cases n with
        | zero => exact .inl ⟨c, rfl⟩
        | succ n => exact .inr ⟨n, by simp⟩
      | path => exact convertThen_follows ws _ n c
      | reference => exact convertThen_follows ws _ n c
      | text => exact .inr ⟨n, by simp⟩
      | undefined => exact .inr ⟨n, by simp⟩
    · exact .inr ⟨n, by simp⟩

theorem collectOne_finishes (H : Elements) (depth : Nat) (ws : Workspace) (p : Option Geometry) : ∃ k, ∀ n c, k ≤ n →
    Finishes k n (collectOne H depth ws p n c) c (gatherOne H depth ws p) := by
  unfold collectOne gatherOne
  have zero : ∀ n (c : Lists), 0 ≤ n → Finishes 0 n (some (.ok n c)) c (some (.ok ([], []))) := fun n c _ => ⟨n, by simp, by simp⟩
  have one : ∀ g : Geometry, ∃ k, ∀ n (c : Lists), k ≤ n → Finishes k n (match n with
      | 0 => some (.throw .badAlloc c)
      | n + 1 => some (.ok n (c.1, c.2 ++ [g]))) c (some (.ok ([], [g]))) := fun g => ⟨1, fun n c hn => by
    obtain ⟨n, rfl⟩ : ∃ m, n = m + 1 := ⟨n - 1, by omega⟩
    exact ⟨n, by omega, by simp⟩⟩
  cases p with
  | none => exact ⟨0, zero⟩
  | some g =>
    simp only
    split
    · cases g.type with
      | rectangle => exact one g
      | polygon => exact one g
      | path => exact convertThen_finishes ws _
      | reference => exact convertThen_finishes ws _
      | text => exact ⟨0, zero⟩
      | undefined => exact ⟨0, zero⟩
    · exact ⟨0, zero⟩

theorem collectList_follows (H : Elements) (depth : Nat) (ws : Workspace) : ∀ (ps : List (Option Geometry)) (n : Nat) (c : Lists),
    Follows (collectList H depth ws ps n c) c (gatherList H depth ws ps)
  | [], n, c => .inr ⟨n, by simp [collectList]⟩
  | p :: ps, n, c => by
    unfold collectList gatherList
    exact follows_bind (collectOne_follows H depth ws p n c) fun n c => collectList_follows H depth ws ps n c

theorem collectList_finishes (H : Elements) (depth : Nat) (ws : Workspace) : ∀ (ps : List (Option Geometry)), ∃ k, ∀ n c,
    k ≤ n → Finishes k n (collectList H depth ws ps n c) c (gatherList H depth ws ps)
  | [] => ⟨0, fun n c _ => ⟨n, by simp, by simp [collectList]⟩⟩
  | p :: ps => by
    obtain ⟨k, hk⟩ := collectOne_finishes H depth ws p
    obtain ⟨l, hl⟩ := collectList_finishes H depth ws ps
    refine ⟨k + l, fun n c hn => ?_⟩
    unfold collectList gatherList
    exact finishes_bind hn (hk n c (by omega)) hl

theorem collectLayers_follows (H : Elements) (depth : Nat) (ws : Workspace) (req : List Int) : ∀ (ls : List Layer) (n : Nat)
    (c : Lists), Follows (collectLayers H depth ws req ls n c) c (gatherLayers H depth ws req ls)
  | [], n, c => .inr ⟨n, by simp [collectLayers]⟩
  | l :: ls, n, c => by
    unfold collectLayers gatherLayers
    split
    · exact collectList_follows H depth ws _ n c
    · exact collectLayers_follows H depth ws req ls n c

theorem collectLayers_finishes (H : Elements) (depth : Nat) (ws : Workspace) (req : List Int) : ∀ (ls : List Layer), ∃ k, ∀ n c,
    k ≤ n → Finishes k n (collectLayers H depth ws req ls n c) c (gatherLayers H depth ws req ls)
  | [] => ⟨0, fun n c _ => ⟨n, by simp, by simp [collectLayers]⟩⟩
  | l :: ls => by
    unfold collectLayers gatherLayers
    split
    · exact collectList_finishes H depth ws _
    · exact collectLayers_finishes H depth ws req ls

theorem collectLibs_follows (H : Elements) (depth : Nat) (ws : Workspace) (req : List Int) : ∀ (ls : List (Option Library))
    (n : Nat) (c : Lists), Follows (collectLibs H depth ws req ls n c) c (gatherLibs H depth ws req ls)
  | [], n, c => .inr ⟨n, by simp [collectLibs]⟩
  | none :: ls, n, c => .inr rfl
  | some l :: ls, n, c => by
    unfold collectLibs gatherLibs
    exact follows_bind (collectLayers_follows H depth ws req l.layers n c) fun n c => collectLibs_follows H depth ws req ls n c

theorem collectLibs_finishes (H : Elements) (depth : Nat) (ws : Workspace) (req : List Int) : ∀ (ls : List (Option Library)),
    ∃ k, ∀ n c, k ≤ n → Finishes k n (collectLibs H depth ws req ls n c) c (gatherLibs H depth ws req ls)
  | [] => ⟨0, fun n c _ => ⟨n, by simp, by simp [collectLibs]⟩⟩
  | none :: ls => ⟨0, fun n c _ => rfl⟩
  | some l :: ls => by
    obtain ⟨k, hk⟩ := collectLayers_finishes H depth ws req l.layers
    obtain ⟨m, hm⟩ := collectLibs_finishes H depth ws req ls
    refine ⟨k + m, fun n c hn => ?_⟩
    unfold collectLibs gatherLibs
    exact finishes_bind hn (hk n c (by omega)) hm

theorem collectItems_follows (mem : Memory) (depth n : Nat) (g : Generator) (hg : g.geoms = []) (hl : g.legacy = []) :
    Follows (collectItems mem depth n g) ([], []) (initGeometryItems mem depth g) := by
  unfold collectItems initGeometryItems
  rw [hg, hl]
  cases g.data with
  | none => exact .inr rfl
  | some a => exact collectLibs_follows ..

theorem collectItems_finishes (mem : Memory) (depth : Nat) (g : Generator) (hg : g.geoms = []) (hl : g.legacy = []) :
    ∃ k, ∀ n, k ≤ n → Finishes k n (collectItems mem depth n g) ([], []) (initGeometryItems mem depth g) := by
  unfold collectItems initGeometryItems
  rw [hg, hl]
  cases g.data with
  | none => exact ⟨0, fun _ _ => rfl⟩
  | some a =>
    obtain ⟨k, hk⟩ := collectLibs_finishes mem.elements depth g.ws g.layers (mem.layouts a).libraries
    exact ⟨k, fun n hn => hk n _ hn⟩

theorem setUp_lists {rnd : ℚ → ℚ} {stale : Res Nat} {R C : Nat} {g g' : Generator} (h : setUp rnd stale R C g = .ok g') :
    g'.geoms = g.geoms ∧ g'.legacy = g.legacy := by
  unfold setUp at h
  have ok_of : ∀ {α β : Type} {x : Res α} {f : α → Res β} {b : β}, (x >>= f) = .ok b → ∃ a, x = .ok a ∧ f a = .ok b := by
    intro α β x f b h
    cases x with
    | ok a => exact ⟨a, rfl, h⟩
    | throw e => cases h
    | ub => cases h
  obtain ⟨c, _, h⟩ := ok_of h
  obtain ⟨dx, _, h⟩ := ok_of h
  obtain ⟨dy, _, h⟩ := ok_of h
  obtain ⟨cdx, _, h⟩ := ok_of h
  obtain ⟨cdy, _, h⟩ := ok_of h
  obtain ⟨z, hz, h⟩ := ok_of h
  simp only [Res.pure_eq, Res.ok.injEq] at h
  subst h
  exact ⟨rfl, rfl⟩

/-- a call within a budget ends as the call with enough memory, up to the lists -/
theorem processMem_alike (rnd : ℚ → ℚ) (al : Alloc) (stale : Res Nat) (mem : Memory) (depth R C n : Nat) (g : Generator) :
    (∃ g', processMem rnd al stale mem depth R C n g = some (.throw .badAlloc g') ∧
      (R ≠ 0 → C ≠ 0 → BitMatrix.resize al R C g.bitmap = .ok () g'.bitmap)) ∨
    (processMem rnd al stale mem depth R C n g).map (Out.mapS bitmap) =
      (process rnd al stale mem depth R C g).map (Out.mapS bitmap) := by
  unfold processMem process
  by_cases h0 : R = 0
  · exact .inr (by simp [h0])
  by_cases h1 : C = 0
  · exact .inr (by simp [h0, h1])
  simp only [h0, h1, if_false]
  cases hz : BitMatrix.resize al R C g.bitmap with
  | ub => exact .inr rfl
  | throw e b => exact .inr rfl
  | ok u b =>
    simp only
    cases hs : setUp rnd stale R C { g with bitmap := b, geoms := [], legacy := [], frags := fragsSetMatrix g.frags } with
    | ub => exact .inr rfl
    | throw e => exact .inr rfl
    | ok g2 =>
      have hb := (setUp_frame hs).2.2.2.2.2
      simp only at hb ⊢
      rcases collectItems_follows mem depth n g2 (setUp_lists hs).1 (setUp_lists hs).2 with ⟨c', hc⟩ | hc
      · exact .inl ⟨_, by rw [hc], fun _ _ => by rw [hb]⟩
      · cases hi : initGeometryItems mem depth g2 with
        | none => rw [hi] at hc; simp only at hc; rw [hc]; exact .inr rfl
        | some r =>
          rw [hi] at hc
          cases r with
          | ub => simp only at hc; rw [hc]; exact .inr rfl
          | throw e => obtain ⟨c', hc⟩ := hc; rw [hc]; exact .inr rfl
          | ok a => obtain ⟨m, hc⟩ := hc; rw [hc]; exact .inr rfl

/-- some budget is enough -/
theorem processMem_enough (rnd : ℚ → ℚ) (al : Alloc) (stale : Res Nat) (mem : Memory) (depth R C : Nat) (g : Generator) :
    ∃ k, ∀ n, k ≤ n → (processMem rnd al stale mem depth R C n g).map (Out.mapS bitmap) =
      (process rnd al stale mem depth R C g).map (Out.mapS bitmap) := by
  unfold processMem process
  by_cases h0 : R = 0
  · exact ⟨0, fun _ _ => by simp [h0]⟩
  by_cases h1 : C = 0
  · exact ⟨0, fun _ _ => by simp [h0, h1]⟩
  simp only [h0, h1, if_false]
  cases hz : BitMatrix.resize al R C g.bitmap with
  | ub => exact ⟨0, fun _ _ => rfl⟩
  | throw e b => exact ⟨0, fun _ _ => rfl⟩
  | ok u b =>
    simp only
    cases hs : setUp rnd stale R C { g with bitmap := b, geoms := [], legacy := [], frags := fragsSetMatrix g.frags } with
    | ub => exact ⟨0, fun _ _ => rfl⟩
    | throw e => exact ⟨0, fun _ _ => rfl⟩
    | ok g2 =>
      simp only
      obtain ⟨k, hk⟩ := collectItems_finishes mem depth g2 (setUp_lists hs).1 (setUp_lists hs).2
      refine ⟨k, fun n hn => ?_⟩
      have hc := hk n hn
      cases hi : initGeometryItems mem depth g2 with
      | none => rw [hi] at hc; simp only [Finishes] at hc; rw [hc]
      | some r =>
        rw [hi] at hc
        cases r with
        | ub => simp only [Finishes] at hc; rw [hc]
        | throw e => obtain ⟨c', hc⟩ := hc; rw [hc]; rfl
        | ok a => obtain ⟨m, _, hc⟩ := hc; rw [hc]; rfl

/-- a call within a budget that returns is a call with enough memory -/
theorem processMem_returns {rnd : ℚ → ℚ} {al : Alloc} {stale : Res Nat} {mem : Memory} {depth R C n : Nat} {g g' : Generator}
    {r : Bool × List UInt8} (h : processMem rnd al stale mem depth R C n g = some (.ok r g')) :
    process rnd al stale mem depth R C g = some (.ok r g') := by
  unfold processMem at h
  unfold process
  by_cases h0 : R = 0
  · simp [h0] at h
  by_cases h1 : C = 0
  · simp [h0, h1] at h
  simp only [h0, h1, if_false] at h ⊢
  cases hz : BitMatrix.resize al R C g.bitmap with
  | ub => simp [hz] at h
  | throw e b => simp [hz] at h
  | ok u b =>
    simp only [hz] at h ⊢
    cases hs : setUp rnd stale R C { g with bitmap := b, geoms := [], legacy := [], frags := fragsSetMatrix g.frags } with
    | ub => simp [hs] at h
    | throw e => simp [hs] at h
    | ok g2 =>
      simp only [hs] at h ⊢
      rcases collectItems_follows mem depth n g2 (setUp_lists hs).1 (setUp_lists hs).2 with ⟨c', hc⟩ | hc
      · simp [hc] at h
      · cases hi : initGeometryItems mem depth g2 with
        | none => rw [hi] at hc; simp only at hc; simp [hc] at h
        | some r =>
          rw [hi] at hc
          cases r with
          | ub => simp only at hc; simp [hc] at h
          | throw e => obtain ⟨c', hc⟩ := hc; simp [hc] at h
          | ok a => obtain ⟨m, hc⟩ := hc; rw [hc] at h; exact h

/-- a call within a budget that throws leaves what `Process` leaves alone -/
theorem processMem_throw_frame {rnd : ℚ → ℚ} {al : Alloc} {stale : Res Nat} {mem : Memory} {depth R C n : Nat}
    {g g' : Generator} {e : Exc} (h : processMem rnd al stale mem depth R C n g = some (.throw e g')) :
    (g'.frags = g.frags ∨ g'.frags = fragsSetMatrix g.frags) ∧ g'.data = g.data ∧ g'.ws = g.ws ∧
      g'.layers = g.layers ∧ g'.zond.eps = g.zond.eps := by
  unfold processMem at h
  by_cases h0 : R = 0
  · simp only [h0, if_true, Option.some.injEq, Out.throw.injEq] at h
    rw [← h.2]; simp
  by_cases h1 : C = 0
  · simp only [h0, h1, if_true, if_false, Option.some.injEq, Out.throw.injEq] at h
    rw [← h.2]; simp
  simp only [h0, h1, if_false] at h
  cases hz : BitMatrix.resize al R C g.bitmap with
  | ub => simp [hz] at h
  | throw e b =>
    simp only [hz, Option.some.injEq, Out.throw.injEq] at h
    rw [← h.2]; simp
  | ok u b =>
    simp only [hz] at h
    cases hs : setUp rnd stale R C { g with bitmap := b, geoms := [], legacy := [], frags := fragsSetMatrix g.frags } with
    | ub => simp [hs] at h
    | throw e =>
      simp only [hs, Option.some.injEq, Out.throw.injEq] at h
      rw [← h.2]; simp
    | ok g2 =>
      simp only [hs] at h
      obtain ⟨f1, f2, f3, f4, f5, _⟩ := setUp_frame hs
      simp only at f1 f2 f3 f4 f5
      cases hi : collectItems mem depth n g2 with
      | none => simp [hi] at h
      | some r =>
        cases r with
        | ub => simp [hi] at h
        | throw e c =>
          simp only [hi, Option.some.injEq, Out.throw.injEq] at h
          rw [← h.2]; exact ⟨.inr f1, f2, f3, f4, f5⟩
        | ok k c =>
          simp only [hi] at h
          have zf : ∀ {e g3}, zondMatrix rnd { g2 with geoms := c.1, legacy := c.2 } = .throw e g3 →
              g3.frags = g2.frags ∧ g3.data = g2.data ∧ g3.ws = g2.ws ∧ g3.layers = g2.layers ∧ g3.zond.eps = g2.zond.eps := by
            intro e g3 h3
            unfold zondMatrix at h3
            split at h3
            · dsimp only at h3
              split at h3
              · cases h3
              · injection h3 with _ h3; subst h3; simp
              · cases h3
            · cases h3
          have zo : ∀ {g3}, zondMatrix rnd { g2 with geoms := c.1, legacy := c.2 } = .ok () g3 →
              g3.frags = g2.frags ∧ g3.data = g2.data ∧ g3.ws = g2.ws ∧ g3.layers = g2.layers ∧ g3.zond.eps = g2.zond.eps := by
            intro g3 h3
            unfold zondMatrix at h3
            split at h3
            · dsimp only at h3
              split at h3
              · injection h3 with _ h3; subst h3; simp
              · cases h3
              · cases h3
            · cases h3
          cases hzm : zondMatrix rnd { g2 with geoms := c.1, legacy := c.2 } with
          | ub => simp [hzm] at h
          | throw e g3 =>
            simp only [hzm, Option.some.injEq, Out.throw.injEq] at h
            obtain ⟨z1, z2, z3, z4, z5⟩ := zf hzm
            rw [← h.2]
            exact ⟨.inr (z1.trans f1), z2.trans f2, z3.trans f3, z4.trans f4, z5.trans f5⟩
          | ok u g3 =>
            simp only [hzm] at h
            obtain ⟨z1, z2, z3, z4, z5⟩ := zo hzm
            cases hp : BitMatrix.print g3.bitmap with
            | ub => simp [hp] at h
            | throw e =>
              simp only [hp, Option.some.injEq, Out.throw.injEq] at h
              rw [← h.2]
              exact ⟨.inr (z1.trans f1), z2.trans f2, z3.trans f3, z4.trans f4, z5.trans f5⟩
            | ok t => simp [hp] at h

/-- more memory does not turn a return into something else -/
def Mono (f : Nat → Lists → Option (Out Lists Nat)) : Prop :=
  ∀ n c m c', f n c = some (.ok m c') → ∀ d, f (n + d) c = some (.ok (m + d) c')

theorem mono_ok : Mono fun n c => some (.ok n c) := by
  intro n c m c' h d
  simp only [Option.some.injEq, Out.ok.injEq] at h ⊢
  exact ⟨by rw [h.1], h.2⟩

theorem mono_bind {f g : Nat → Lists → Option (Out Lists Nat)} (hf : Mono f) (hg : Mono g) :
    Mono fun n c => Collect.bind (f n c) g := by
  intro n c m c' h d
  simp only at h ⊢
  cases hx : f n c with
  | none => simp [hx, Collect.bind] at h
  | some o =>
    cases o with
    | ub => simp [hx, Collect.bind] at h
    | throw e b => simp [hx, Collect.bind] at h
    | ok m1 c1 =>
      rw [hx] at h
      rw [hf _ _ _ _ hx d]
      exact hg _ _ _ _ h d

theorem pushConverted_mono (ws : Workspace) : ∀ rs, Mono (pushConverted ws rs)
  | [] => mono_ok
  | r :: rs => by
    intro n c m c' h d
    unfold pushConverted at h ⊢
    by_cases hb : boxMeets ws r = true
    · rw [if_pos hb] at h ⊢
      cases n with
      | zero => simp at h
      | succ n =>
        rw [show n + 1 + d = (n + d) + 1 by omega]
        exact pushConverted_mono ws rs _ _ _ _ h d
    · rw [if_neg hb] at h ⊢
      exact pushConverted_mono ws rs _ _ _ _ h d

theorem convertThen_mono (ws : Workspace) (x : Run (List Geometry)) : Mono (convertThen ws x) := by
  intro n c m c' h d
  cases n with
  | zero => simp [convertThen] at h
  | succ n =>
    rw [show n + 1 + d = (n + d) + 1 by omega]
    unfold convertThen at h ⊢
    cases x with
    | none => cases h
    | some r =>
      cases r with
      | ub => cases h
      | throw e => cases h
      | ok rs => exact pushConverted_mono ws rs _ _ _ _ h d

theorem collectOne_mono (H : Elements) (depth : Nat) (ws : Workspace) (p : Option Geometry) :
    Mono (collectOne H depth ws p) := by
  cases p with
  | none => exact mono_ok
  | some g =>
    by_cases hb : boxMeets ws g = true
    · cases ht : g.type with
      | rectangle =>
        intro n c m c' h d
        simp only [collectOne, hb, if_true, ht] at h ⊢
        cases n with
        | zero => cases h
        | succ n =>
          simp only [Option.some.injEq, Out.ok.injEq] at h
          rw [show n + 1 + d = (n + d) + 1 by omega]
          simp only [Option.some.injEq, Out.ok.injEq]
          exact ⟨by rw [h.1], h.2⟩
      | polygon =>
        intro n c m c' h d
        simp only [collectOne, hb, if_true, ht] at h ⊢
        cases n with
        | zero => cases h
        | succ n =>
          simp only [Option.some.injEq, Out.ok.injEq] at h
          rw [show n + 1 + d = (n + d) + 1 by omega]
          simp only [Option.some.injEq, Out.ok.injEq]
          exact ⟨by rw [h.1], h.2⟩
      | path => simpa only [Mono, collectOne, hb, if_true, ht] using convertThen_mono ws (some (pathToRectList (some g)))
      | reference => simpa only [Mono, collectOne, hb, if_true, ht] using convertThen_mono ws (splitSref H depth (some g) ⟨0, 0⟩)
      | text => simpa only [Mono, collectOne, hb, if_true, ht] using mono_ok
      | undefined => simpa only [Mono, collectOne, hb, if_true, ht] using mono_ok
    · simpa only [Mono, collectOne, hb, Bool.false_eq_true, if_false] using mono_ok

theorem collectList_mono (H : Elements) (depth : Nat) (ws : Workspace) : ∀ ps, Mono (collectList H depth ws ps)
  | [] => mono_ok
  | p :: ps => mono_bind (collectOne_mono H depth ws p) (collectList_mono H depth ws ps)

theorem collectLayers_mono (H : Elements) (depth : Nat) (ws : Workspace) (req : List Int) :
    ∀ ls, Mono (collectLayers H depth ws req ls)
  | [] => mono_ok
  | l :: ls => by
    intro n c m c' h d
    unfold collectLayers at h ⊢
    by_cases hl : l.layer ∈ req
    · rw [if_pos hl] at h ⊢
      exact collectList_mono H depth ws _ _ _ _ _ h d
    · rw [if_neg hl] at h ⊢
      exact collectLayers_mono H depth ws req ls _ _ _ _ h d

theorem collectLibs_mono (H : Elements) (depth : Nat) (ws : Workspace) (req : List Int) :
    ∀ ls, Mono (collectLibs H depth ws req ls)
  | [] => mono_ok
  | none :: ls => fun _ _ _ _ h => by cases h
  | some l :: ls => mono_bind (collectLayers_mono H depth ws req l.layers) (collectLibs_mono H depth ws req ls)

theorem processMem_mono {rnd : ℚ → ℚ} {al : Alloc} {stale : Res Nat} {mem : Memory} {depth R C n : Nat} {g g' : Generator}
    {r : Bool × List UInt8} (h : processMem rnd al stale mem depth R C n g = some (.ok r g')) (d : Nat) :
    processMem rnd al stale mem depth R C (n + d) g = some (.ok r g') := by
  unfold processMem at h ⊢
  by_cases h0 : R = 0
  · simp [h0] at h
  by_cases h1 : C = 0
  · simp [h0, h1] at h
  simp only [h0, h1, if_false] at h ⊢
  cases hz : BitMatrix.resize al R C g.bitmap with
  | ub => simp [hz] at h
  | throw e b => simp [hz] at h
  | ok u b =>
    simp only [hz] at h ⊢
    cases hs : setUp rnd stale R C { g with bitmap := b, geoms := [], legacy := [], frags := fragsSetMatrix g.frags } with
    | ub => simp [hs] at h
    | throw e => simp [hs] at h
    | ok g2 =>
      simp only [hs] at h ⊢
      cases hi : collectItems mem depth n g2 with
      | none => simp [hi] at h
      | some o =>
        cases o with
        | ub => simp [hi] at h
        | throw e c => simp [hi] at h
        | ok m c =>
          have hi' : collectItems mem depth (n + d) g2 = some (.ok (m + d) c) := by
            unfold collectItems at hi ⊢
            cases hd : g2.data with
            | none => rw [hd] at hi; cases hi
            | some a => rw [hd] at hi; exact collectLibs_mono _ _ _ _ _ _ _ _ _ hi d
          rw [hi] at h
          rw [hi']
          exact h

/-- a call on a generator with an `Init`, from the outcome of the collection -/
theorem processMem_of_libs {rnd : ℚ → ℚ} (hr : Ieee.Rounding rnd) {al : Alloc} {k R C : Nat} {g : Generator} {a : Nat}
    (mem : Memory) (depth n : Nat) (hd : g.data = some a) (hf : g.frags = []) (hR : 0 < R) (hC : 0 < C)
    (hR2 : R < 4294967296) (hC2 : C < 4294967296) (hal : al R (bytesPerRow C) = none) (hw : WsFits g.ws) (ho : WsOrdered g.ws) :
    (∀ e c, collectLibs mem.elements depth g.ws g.layers (mem.layouts a).libraries n ([], []) = some (.throw e c) →
      ∃ g', processMem rnd al (.ok k) mem depth R C n g = some (.throw e g')) ∧
    (∀ m c, collectLibs mem.elements depth g.ws g.layers (mem.layouts a).libraries n ([], []) = some (.ok m c) →
      processMem rnd al (.ok k) mem depth R C n g = process rnd al (.ok k) mem depth R C g) := by
  have hfol := collectLibs_follows mem.elements depth g.ws g.layers (mem.layouts a).libraries n ([], [])
  obtain ⟨dx, dy, es⟩ := setUp_ok hr (k := k) (R := R) (C := C)
    (g := { g with bitmap := blank R C, geoms := [], legacy := [], frags := fragsSetMatrix g.frags })
    (by simp [hf, fragsSetMatrix]) hR hC hR2 hC2 rfl hw ho
  unfold processMem process
  simp only [hR.ne', hC.ne', if_false, resize_ok hR hC hal]
  rw [es]
  simp only [collectItems, initGeometryItems, hd]
  constructor
  · intro e c h
    rw [h]
    exact ⟨_, rfl⟩
  · intro m c h
    rw [h] at hfol ⊢
    rcases hfol with ⟨c', h'⟩ | hfol
    · cases h'
    · cases hg : gatherLibs mem.elements depth g.ws g.layers (mem.layouts a).libraries with
      | none => rw [hg] at hfol; cases hfol
      | some r =>
        rw [hg] at hfol
        cases r with
        | ub => cases hfol
        | throw e => obtain ⟨_, hfol⟩ := hfol; cases hfol
        | ok b =>
          obtain ⟨m', hfol⟩ := hfol
          simp only [Option.some.injEq, Out.ok.injEq] at hfol
          obtain ⟨-, rfl⟩ := hfol
          rfl

/-- geometries drawn as they are: one `push_back` for each that touches the workspace -/
theorem collectList_direct (H : Elements) (depth : Nat) (ws : Workspace) : ∀ (ps : List Geometry) (n : Nat) (c : Lists),
    (∀ p ∈ ps, p.type = .rectangle ∨ p.type = .polygon) →
    if (ps.filter (boxMeets ws)).length ≤ n then ∃ m c', collectList H depth ws (ps.map some) n c = some (.ok m c')
    else ∃ c', collectList H depth ws (ps.map some) n c = some (.throw .badAlloc c')
  | [], n, c, _ => by simp [collectList]
  | p :: ps, n, c, hp => by
    have ih := fun n c => collectList_direct H depth ws ps n c fun q hq => hp q (List.mem_cons_of_mem _ hq)
    simp only [List.map_cons, collectList]
    by_cases hb : boxMeets ws p = true
    · have e0 : collectOne H depth ws (some p) 0 c = some (.throw .badAlloc c) := by
        rcases hp p (List.mem_cons_self ..) with ht | ht <;> simp [collectOne, hb, ht]
      have e1 : ∀ n, collectOne H depth ws (some p) (n + 1) c = some (.ok n (c.1, c.2 ++ [p])) := by
        intro n
        rcases hp p (List.mem_cons_self ..) with ht | ht <;> simp [collectOne, hb, ht]
      simp only [List.filter_cons, hb, if_true, List.length_cons]
      cases n with
      | zero => simp [e0, Collect.bind]
      | succ n =>
        rw [e1]
        simp only [Collect.bind, Nat.add_le_add_iff_right]
        exact ih n _
    · have e : collectOne H depth ws (some p) n c = some (.ok n c) := by simp [collectOne, hb]
      rw [e]
      simp only [List.filter_cons, hb, Bool.false_eq_true, if_false, Collect.bind]
      exact ih n c

end Verif.Generator
