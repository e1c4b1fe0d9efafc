import Verif.Props.Rewrite
import Verif.Witness.Text

/-! Concrete cases of the hypotheses of the theorems about storing a bitmap again. -/

namespace Verif.Witness
open Verif Props BitMatrix Spec Base64 LayoutMatrix HashText

set_option maxRecDepth 8000

theorem read_fsA : readFile ⟨true, true⟩ Alloc.ok fsA [65] BitMatrix.empty = .ok true mA := by decide +kernel

theorem short_fsA : ∀ n h, fsA.files n = some h → h.length < 2 ^ 32 := by
  intro n h hf
  simp only [fsA] at hf
  split_ifs at hf
  cases hf
  decide

/-- the file `[65]` is read and stored as `[66]` -/
example : ∃ fs' text, flushFile mA [66] 160 fsA = .ok true fs' ∧ fs'.files [66] = some text ∧ 33 ≤ 127 * text.length ∧
    ∃ m', readFile ⟨true, true⟩ Alloc.ok fs' [66] BitMatrix.empty = .ok true m' ∧ SameBits mA m' := by
  obtain ⟨fs', e, -⟩ := C33_crash_points mA fsA [66] (by decide) rfl hA enc_mA 160
  obtain ⟨text, h1, h2, h3⟩ := C98_rewrite ⟨true, true⟩ fsA fs' [65] [66] mA BitMatrix.empty BitMatrix.empty 160 read_fsA (short_fsA [65]) (by decide) e
    (fun h e => by rw [enc_mA] at e; cases e; decide)
  obtain ⟨m', e', hs, -⟩ := h3 rfl (.inr ⟨by decide, by decide⟩)
  exact ⟨fs', text, e, h1, h2, m', e', hs⟩

/-- … and, read twice, as `[66]` and `[67]` -/
example : ∃ fs1 fs2, flushFile mA [66] 160 fsA = .ok true fs1 ∧ flushFile mA [67] 160 fs1 = .ok true fs2 ∧ fs2.files [66] = fs2.files [67] := by
  obtain ⟨fs1, e1, -⟩ := C33_crash_points mA fsA [66] (by decide) rfl hA enc_mA 160
  obtain ⟨-, _, -, -, -, hw⟩ := flushFile_inv e1
  obtain ⟨fs2, e2, -⟩ := C33_crash_points mA fs1 [67] (by decide) (by rw [hw]; rfl) hA enc_mA 160
  exact ⟨fs1, fs2, e1, e2, (C98_same_text ⟨true, true⟩ fsA fs1 fs2 [65] [65] [66] [67] mA mA BitMatrix.empty BitMatrix.empty 160 read_fsA read_fsA short_fsA
    e1 e2 (fun h e => by rcases e with e | e <;> (rw [enc_mA] at e; cases e; decide)) (by decide)).1 ⟨rfl, rfl, fun _ _ _ _ => rfl⟩⟩

/-- a million million cells from 160 characters -/
example : ∃ h : List UInt8, h.length = 160 ∧ ∃ m, readFile ⟨false, true⟩ Alloc.ok ⟨fun _ => some h, fun _ => true, fun _ => true⟩ [65] mA = .ok true m := by
  obtain ⟨h, hl, hd⟩ := C98_grows ⟨false, true⟩ rfl 1000000 1000000 (by norm_num) (by norm_num) (by norm_num) (by norm_num) (.inl rfl)
  obtain ⟨m, e, -⟩ := hd ⟨fun _ => some h, fun _ => true, fun _ => true⟩ [65] [66] mA (by decide) (by decide) rfl rfl rfl
  exact ⟨h, hl, m, e⟩

end Verif.Witness
