import Verif.Props.Fragment
import Verif.Props.FragmentExact
import Verif.Props.FragmentPlan
import Verif.Props.Msk
import Verif.Props.ReaderLife
import Verif.Props.Names

/-! Concrete cases of the hypotheses of the theorems about fragments, the fragment plan and the MSK reader. -/

namespace Verif.Witness
open Verif Props BitMatrix Zond Spec Ieee Generator

/-- calls on a fragment -/
def fragCalls : List FragCall := [.setMatrix (some 1), .setWorkspace ⟨⟨0, 20⟩, ⟨10, 0⟩⟩, .setIndicies 0 0 4 3, .pushRaw (some { type := .rectangle })]
theorem frag_some : ∃ f, fragAfter rne fragCalls = some f := ⟨_, rfl⟩
example : True := by
  obtain ⟨f, hf⟩ := frag_some
  have _ := C54_history rne _ f hf
  have _ := C54_process_throws rne_rounding _ f hf (by simp [fragCalls, selBound])
  trivial
example := C54_intersection { angle := ⟨⟨0, 20⟩, ⟨10, 0⟩⟩ } { type := .rectangle, min := ⟨5, 5⟩, max := ⟨15, 6⟩ } (by decide) (by decide)

example := C67_exact twoFrags (by decide)
theorem pushAny1 : PushAny fourFrags { type := .rectangle, coords := [⟨12, 19⟩, ⟨30, 19⟩, ⟨30, 8⟩] } 2 2 ⟨12, 19⟩ ⟨30, 8⟩ := by
  constructor <;> first | decide | rfl | exact ⟨rfl, by simp [fourFrags]⟩ | (unfold DiffsFit inI32; decide)
theorem pushAny2 : PushAny fourFrags { type := .rectangle, coords := [⟨20, 9⟩, ⟨30, 9⟩, ⟨30, 8⟩] } 2 2 ⟨20, 9⟩ ⟨30, 8⟩ := by
  constructor <;> first | decide | rfl | exact ⟨rfl, by simp [fourFrags]⟩ | (unfold DiffsFit inI32; decide)
theorem pushAny3 : PushAny fourFrags { type := .rectangle, coords := [⟨-9, 9⟩, ⟨-3, 9⟩, ⟨-3, 8⟩] } 2 2 ⟨-9, 9⟩ ⟨-3, 8⟩ := by
  constructor <;> first | decide | rfl | exact ⟨rfl, by simp [fourFrags]⟩ | (unfold DiffsFit inI32; decide)
example := C68_sticking_out pushAny1 (by decide) (by decide) (by decide) (by decide)
example := C68_right_of_window pushAny2 (by decide) (by decide)
example := C68_left_of_window pushAny3 (by decide) (by decide) (by decide)
example := C68_no_cell_size id { fourFrags with dx := .fin 0, dy := .fin 0 } { type := .rectangle, coords := [⟨2, 9⟩, ⟨5, 9⟩, ⟨5, 3⟩] } 2 2 ⟨2, 9⟩ ⟨5, 3⟩
  (by decide) (by decide) (by decide) (by decide) ⟨rfl, by simp [fourFrags]⟩ (by unfold inI32; decide) (by unfold inI32; decide) rfl rfl
  (by unfold DiffsFit inI32; decide) rfl rfl
example := C68_shared (g := fourFrags) (r := { type := .rectangle, coords := [⟨1, 9⟩, ⟨2, 9⟩, ⟨2, 8⟩] }) (FR := 2) (FC := 2) (lt := ⟨1, 9⟩) (rb := ⟨2, 8⟩)
  (by constructor <;> first | decide | rfl | exact ⟨rfl, by simp [fourFrags]⟩) (by decide)
example := C68_top_edge (g := fourFrags) (r := { type := .rectangle, coords := [⟨1, 10⟩, ⟨2, 10⟩, ⟨2, 10⟩] }) (FR := 2) (FC := 2) (lt := ⟨1, 10⟩) (rb := ⟨2, 10⟩)
  (by constructor <;> first | decide | rfl | exact ⟨rfl, by simp [fourFrags]⟩) (by decide) (by decide)

/-- 2 × 1 fragments for a bitmap of 7 × 4 -/
def bands : Generator := { frags := [[{}], [{}]], bitmap := { BitMatrix.empty with isize := 7, jsize := 4 } }
theorem bands_grid : FragGrid bands.frags 2 1 := ⟨rfl, by simp [bands]⟩
example := C66_bands (g := bands) (by decide) (by decide) bands_grid (by decide) (by decide) (by decide) (by decide)
theorem bands_ok : ∃ g', initFragmentsIndicies bands = .ok g' := ⟨_, rfl⟩
example : True := by
  obtain ⟨g', h⟩ := bands_ok
  have _ := C66_bands_complete (by decide) (by decide) bands_grid (by decide) (by decide) (by decide) (by decide) h
  trivial
/-- 3 fragment rows for a bitmap of 2 rows -/
def bandsR : Generator := { frags := [[{}], [{}], [{}]], bitmap := { BitMatrix.empty with isize := 2, jsize := 4 } }
def bandsC : Generator := { frags := [[{}, {}, {}]], bitmap := { BitMatrix.empty with isize := 2, jsize := 2 } }
example : ∃ (g' : Generator) (f : Fragment), fragAt g'.frags 1 0 = some f ∧ f.bound.iEnd = 2 ^ 64 - 1 := by
  obtain ⟨g', h, f, hf⟩ : ∃ g', initFragmentsIndicies bandsR = .ok g' ∧ ∃ f, fragAt g'.frags 1 0 = some f := ⟨_, rfl, _, rfl⟩
  exact ⟨g', f, hf, (C66_bands_too_many (FR := 3) (FC := 1) (by decide) ⟨rfl, by simp [bandsR]⟩ (by decide) h 1 0 f hf).2⟩
example : ∃ (g' : Generator) (f : Fragment), fragAt g'.frags 0 1 = some f ∧ f.bound.jEnd = 2 ^ 64 - 1 := by
  obtain ⟨g', h, f, hf⟩ : ∃ g', initFragmentsIndicies bandsC = .ok g' ∧ ∃ f, fragAt g'.frags 0 1 = some f := ⟨_, rfl, _, rfl⟩
  exact ⟨g', f, hf, (C66_bands_too_many_columns (FR := 1) (FC := 3) (by decide) ⟨rfl, by simp [bandsC]⟩ (by decide) h 0 1 f hf).2⟩
example := C66_bands_empty { frags := [] } rfl

theorem four_grid : FragGrid fourFrags.frags 2 2 := ⟨rfl, by simp [fourFrags]⟩
theorem four_dx : calcDelta id fourFrags.ws.leftTop.x fourFrags.ws.rightBot.x 2 = .ok fourFrags.dx := by decide +kernel
theorem four_dy : calcDelta id fourFrags.ws.leftTop.y fourFrags.ws.rightBot.y 2 = .ok fourFrags.dy := by decide +kernel
theorem four_dx' : calcDelta rne fourFrags.ws.leftTop.x fourFrags.ws.rightBot.x 2 = .ok fourFrags.dx := by decide +kernel
theorem four_dy' : calcDelta rne fourFrags.ws.leftTop.y fourFrags.ws.rightBot.y 2 = .ok fourFrags.dy := by decide +kernel
example : ∃ g', initFragmentsWorkspaces rne fourFrags = .ok g' ∧ ∃ p q f, fragAt g'.frags p q = some f ∧ InWindow f.angle 7 3 := by
  obtain ⟨g', _, _, h, _⟩ := C66_workspaces rne_rounding (g := fourFrags) (by decide) (by decide) (by decide) (by decide) four_grid (by unfold inI32; decide) (by unfold inI32; decide)
    (by unfold inI32; decide) (by unfold inI32; decide) (by decide) (by decide) four_dx' four_dy'
  exact ⟨g', h, C66_cover rne_rounding (by decide) (by decide) (by decide) (by decide) four_grid (by unfold inI32; decide) (by unfold inI32; decide)
    (by unfold inI32; decide) (by unfold inI32; decide) (by decide) (by decide) four_dx' four_dy' h 7 3 (by unfold InWindow; decide) (by decide) (by decide)⟩
example : ∃ g', initFragmentsWorkspaces id fourFrags = .ok g' ∧ 0 < getFragmentIntersectionCnt g'.frags (some { type := .rectangle, min := ⟨3, 3⟩, max := ⟨4, 4⟩ }) := by
  obtain ⟨g', _, _, h, _⟩ := C66_workspaces id_rounding (g := fourFrags) (by decide) (by decide) (by decide) (by decide) four_grid (by unfold inI32; decide) (by unfold inI32; decide)
    (by unfold inI32; decide) (by unfold inI32; decide) (by decide) (by decide) four_dx four_dy
  have _ := C66_cover_exact (by decide) (by decide) (by decide) (by decide) four_grid (by unfold inI32; decide) (by unfold inI32; decide)
    (by unfold inI32; decide) (by unfold inI32; decide) (by decide) (by decide) four_dx four_dy h 20 10 (by unfold InWindow; decide)
  exact ⟨g', h, C66_count_positive (by decide) (by decide) (by decide) four_grid (by unfold inI32; decide) (by unfold inI32; decide)
    (by unfold inI32; decide) (by unfold inI32; decide) (by decide) (by decide) four_dx four_dy h _ ⟨3, 3, by decide, by decide, by decide, by decide, by unfold InWindow; decide⟩⟩

theorem two_dist : ∃ g', distributeGeometries twoFrags = .ok g' := ⟨_, rfl⟩
example : True := by
  obtain ⟨g', h⟩ := two_dist
  have _ := C67_distribution twoFrags g' (by decide) h
  trivial
example := C67_small twoFrags (by decide) (by decide +kernel)
example := C67_no_fragments { frags := [], geoms := [{ type := .rectangle }] } rfl
example := C67_last_big { frags := [[{ angle := ⟨⟨0, 10⟩, ⟨10, 0⟩⟩ }, { angle := ⟨⟨10, 10⟩, ⟨20, 0⟩⟩ }, { angle := ⟨⟨20, 10⟩, ⟨30, 0⟩⟩ }]], geoms := [{ type := .rectangle, min := ⟨3, 3⟩, max := ⟨4, 4⟩ }, { type := .rectangle, min := ⟨1, 1⟩, max := ⟨29, 2⟩ }] } (by decide)
  (fun x h => by simp at h; subst h; decide +kernel) (fun x h => by simp at h)

/-! the MSK reader -/

example := C43_missing_file { Props.exEnv Props.exText with fs := fun _ => none } 7 (Props.exWorld [] fun _ => {}) rfl rfl
example := C43_exact (Props.exEnv Props.exText) 7 (Props.exWorld [] fun _ => {}) _ _ _ (ex_ready _ _ _) rfl

example : ∃ content, (disk "d/x.msk").fs (Msk.narrow (Names.wide "d/x.msk")) = some content := by
  obtain ⟨r, h⟩ := disk_found
  obtain ⟨c, hc, _⟩ := C50_reader_ready (disk "d/x.msk") (Names.wide "d/x.msk") r h (Names.utf8 "x") (Names.utf8 "d/x.msk")
    ((congrArg (disk "d/x.msk").utf8 (show Msk.elemName (Names.wide "d/x.msk") = Names.wide "x" by decide +kernel)).trans (conv_wide "x")) (conv_wide "d/x.msk")
  exact ⟨c, hc⟩

example := C84_found (disk "d/x.msk") "d/x.msk" (by unfold Names.Ascii; decide +kernel)

open Msk.Life

/-- a reader obtained, used and released, another one kept -/
def lifeCalls : List Call := [.get (exEnv (Spec.Msk.bytes "VERSION 1")) exName, .get (exEnv exText) exName, .free (some 1), .get (exEnv (Spec.Msk.bytes "VERSION 1")) exName]

theorem life_some : ∃ h s, calls ⟨true⟩ lifeCalls ⟨{}, fun _ => {}, fun _ => {}⟩ = some (h, s) := by
  have h : (calls ⟨true⟩ lifeCalls ⟨{}, fun _ => {}, fun _ => {}⟩).isSome = true := by decide +kernel
  obtain ⟨⟨h, s⟩, e⟩ := Option.isSome_iff_exists.1 h
  exact ⟨h, s, e⟩

example : ∃ (s s' : State), call ⟨true⟩ (.free none) s = some (.void, s') ∧ s'.layouts = s.layouts := by
  obtain ⟨h, s, e⟩ := life_some
  have _ := C75_balance ⟨true⟩ lifeCalls _ _ h s e
  have _ := C75_next lifeCalls _ _ h s e
  obtain ⟨s', e'⟩ : ∃ s', call ⟨true⟩ (.free none) s = some (.void, s') := ⟨_, rfl⟩
  exact ⟨s, s', e', ((C75_frame ⟨true⟩ lifeCalls _ _ h s e (.free none) s' _ e').1 (by simp)).1⟩

end Verif.Witness
