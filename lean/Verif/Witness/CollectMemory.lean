import Verif.Witness.Flattened
import Verif.Props.CollectMemory

/-! Concrete cases of the hypotheses of the theorems of C104. -/

namespace Verif.Witness
open Verif Props BitMatrix Zond Spec Ieee Generator Converter

def cmMem : Memory := ⟨fun _ => oneLayer 13 [some flBox, some flBox], fun _ => {}⟩

/-- two rectangles and room for one: `bad_alloc`, a dark bitmap, and the next call draws them both -/
example : ∃ g g' g'' txt, Generator.processMem rne Alloc.ok (.ok 1) cmMem 3 10 10 1 g = some (.throw .badAlloc g') ∧
    (∀ i j, ¬ Lit (getMatrix g') i j) ∧
    Generator.process rne Alloc.ok (.ok 1) cmMem 3 10 10 g' = some (.ok (true, txt) g'') ∧
    (∃ g2, Generator.processMem rne Alloc.ok (.ok 1) cmMem 3 10 10 2 g' = some (.ok (true, txt) g2)) := by
  obtain ⟨g, hr⟩ := flReady 7
  have hrm := ReadyMem.of_ready hr
  have key : ∀ g, ReadyMem rne g 7 ⟨0, 0⟩ ⟨100, 100⟩ [13] Alloc.ok 10 10 → ∀ n, _ := fun g h n =>
    C104_need rne g 7 ⟨0, 0⟩ ⟨100, 100⟩ [13] Alloc.ok 10 10 h 1 cmMem 3 n 13 [flBox, flBox] [flBox, flBox] [] rfl (by simp)
      (by intro p hp; simp at hp; subst hp; exact .inl rfl) (by simp)
      (by intro p hp; simp at hp; subst hp; unfold Touches wsOf; decide) (by simp)
  obtain ⟨g', hs⟩ := (key g hrm 1).1 (by decide)
  obtain ⟨hr', hsame⟩ := C104_retry rne g g' g 7 ⟨0, 0⟩ ⟨100, 100⟩ [13] Alloc.ok Alloc.ok 10 10 hrm Alloc.ok (.ok 1) cmMem 3 10 10 1
    _ hs hr 1 1 cmMem 3
  obtain ⟨txt, g1, hp⟩ := process_of_draw hr (mem := cmMem) (n := 3) (by decide +kernel)
  have hdark : ∀ i j, ¬ Lit (getMatrix g') i j := by
    rcases C104_dark_or_alike rne g g 7 ⟨0, 0⟩ ⟨100, 100⟩ [13] Alloc.ok Alloc.ok 10 10 hrm hr 1 1 cmMem 3 1 with ⟨g2, h2, -, -, -, hd⟩ | h
    · rw [hs] at h2
      simp only [Option.some.injEq, Out.throw.injEq, true_and] at h2
      rw [h2]; exact hd
    · rw [hs, hp] at h; cases h
  rw [hp] at hsame
  cases h2 : Generator.process rne Alloc.ok (.ok 1) cmMem 3 10 10 g' with
  | none => rw [h2] at hsame; cases hsame
  | some o =>
    rw [h2] at hsame
    cases o with
    | ub => cases hsame
    | throw e g' => cases hsame
    | ok r g'' =>
      simp only [Option.map_some, Out.mapS, Option.some.injEq, Out.ok.injEq] at hsame
      obtain ⟨rfl, -⟩ := hsame
      exact ⟨g, g', g'', txt, hs, hdark, h2, g'', by rw [(key g' hr' 2).2 (by decide), h2]⟩

/-- the history in which a call ran out of memory, and the refused second `Init` -/
example : ∃ (h : List (GenCall × Bool)) (g : Generator), HistoryMem rne h g ∧ (∃ c ∈ h, c.1.properInit) ∧
    (GenCall.process 10 10, false) ∈ h ∧ Generator.init (some 8) [13] ⟨0, 0⟩ ⟨5, 5⟩ g = .throw .invalidArgument g := by
  obtain ⟨g, hr⟩ := flReady 7
  obtain ⟨g', hs⟩ := (C104_need rne g 7 ⟨0, 0⟩ ⟨100, 100⟩ [13] Alloc.ok 10 10 (.of_ready hr) 1 cmMem 3 1 13 [flBox, flBox] [flBox, flBox] []
      rfl (by simp) (by intro p hp; simp at hp; subst hp; exact .inl rfl) (by simp)
      (by intro p hp; simp at hp; subst hp; unfold Touches wsOf; decide) (by simp)).1 (by decide)
  obtain ⟨h, ls, hh, hm, -⟩ := (ReadyMem.of_ready hr).hist
  have hl : ls ≠ [] := ((historyMem_inv hh).inited _ _ _ _ hm).2.2.1
  have hx : ∃ c ∈ h ++ [(GenCall.process 10 10, false)], c.1.properInit :=
    ⟨_, List.mem_append_left _ hm, ⟨by simp, hl⟩⟩
  exact ⟨_, g', hh.short hs, hx, by simp, C104_init_once rne _ g' (hh.short hs) hx _ _ _ _⟩

end Verif.Witness
