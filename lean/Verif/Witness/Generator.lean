import Verif.Props.Generator
import Verif.Props.Sharing
import Verif.Props.LayoutConverter
import Verif.Props.LayoutDestroy
import Verif.Props.Msk

/-! Concrete cases of the hypotheses of the theorems about the bitmap generator, the shared matrix and the converters. -/

namespace Verif.Witness
open Verif Props BitMatrix Zond Spec Ieee Generator Converter

example := C40_bad_arguments (Generator.new rne) none [13] ⟨0, 0⟩ ⟨100, 100⟩ (.inl rfl)
example := C40_process_zero rne Alloc.ok .ub exMem 3 0 5 (Generator.new rne) (.inl rfl)

/-- a generator after two refused calls -/
theorem hist2 : History rne ([] ++ [(GenCall.process 0 5, false)] ++ [(GenCall.init none [13] ⟨0, 0⟩ ⟨100, 100⟩, false)]) (Generator.new rne) :=
  (History.start.call (.procThrow (C40_process_zero rne Alloc.ok .ub exMem 3 0 5 _ (.inl rfl)))).call
    (.initThrow (C40_bad_arguments _ none [13] ⟨0, 0⟩ ⟨100, 100⟩ (.inl rfl)))

example := C40_first_init rne _ _ hist2 (by simp [GenCall.properInit]) 7 [13] (by decide) ⟨0, 0⟩ ⟨100, 100⟩
example := C40_process_before_init rne rne_rounding _ _ hist2 (by simp) Alloc.ok (.ok 1) (fun _ h => by cases h) exMem 3 5 5 (by decide) (by decide) rfl

theorem exFits : LayoutFits exLayout exMem.elements := by
  constructor
  · intro lib l p h1 h2 h3
    simp only [exLayout, List.mem_cons, Option.some.injEq, List.not_mem_nil, or_false] at h1
    rcases h1 with rfl | rfl
    · simp only [List.mem_cons, List.not_mem_nil, or_false] at h2
      rcases h2 with rfl | rfl | rfl <;> simp at h3
      · subst h3; decide
      · rcases h3 with rfl | rfl <;> decide
      · subst h3; decide
    · simp only [List.mem_cons, List.not_mem_nil, or_false] at h2
      subst h2
      simp at h3
      rcases h3 with rfl | rfl <;> decide
  · intro e p h
    simp [exMem] at h

/-- a generator, ready to render, and what it renders -/
theorem exProcess : ∃ g, Ready rne g 7 ⟨0, 0⟩ ⟨100, 100⟩ [13, 23] Alloc.ok 10 10 ∧
    ∃ txt g', Generator.process rne Alloc.ok (.ok 1) exMem 3 10 10 g = some (.ok (true, txt) g') := by
  obtain ⟨g, hr, hb, hd, hw, hl⟩ := exReady
  refine ⟨g, hr, ?_⟩
  have hobs := ready_obs hr 1 exMem 3
  have hdraw : ∃ txt m, drawOut rne (genRaster rne ⟨0, 0⟩ ⟨100, 100⟩ 10 10) exMem.elements 3 [13, 23] exLayout.libraries 10 10 =
      some (.ok (true, txt) m) := by
    have hb : (match drawOut rne (genRaster rne ⟨0, 0⟩ ⟨100, 100⟩ 10 10) exMem.elements 3 [13, 23] exLayout.libraries 10 10 with
        | some (.ok (true, _) _) => true
        | _ => false) = true := by decide +kernel
    split at hb
    · rename_i txt m heq
      exact ⟨txt, m, heq⟩
    · cases hb
  obtain ⟨txt, m, e⟩ := hdraw
  rw [show (exMem.layouts 7) = exLayout from rfl, e] at hobs
  cases hp : Generator.process rne Alloc.ok (.ok 1) exMem 3 10 10 g with
  | none => rw [hp] at hobs; cases hobs
  | some o =>
    rw [hp] at hobs
    cases o with
    | ub => cases hobs
    | throw e g' => cases hobs
    | ok r g' =>
      simp only [Option.map_some, Out.mapS, Option.some.injEq, Out.ok.injEq] at hobs
      obtain ⟨rfl, hm⟩ := hobs
      exact ⟨txt, g', rfl⟩

/-- the rectangle on layer 13 is selected -/
theorem exSelected : Selected (exMem.layouts 7) exMem.elements (wsOf ⟨0, 0⟩ ⟨100, 100⟩) [13, 23]
    { exRect 20 80 45 60 with min := ⟨20, 60⟩, max := ⟨45, 80⟩ } :=
  ⟨_, ⟨_, _, List.mem_cons_self, ⟨[_], [_], rfl, by simp, by simp⟩, List.mem_cons_self⟩, by unfold Touches wsOf; decide, .direct (.inl rfl)⟩

example : ∃ g g', Lit (getMatrix g') 3 3 ∧ Ready rne g 7 ⟨0, 0⟩ ⟨100, 100⟩ [13, 23] Alloc.ok 10 10 := by
  obtain ⟨g, hr, txt, g', hp⟩ := exProcess
  have _ := C41_bitmap rne g 7 ⟨0, 0⟩ ⟨100, 100⟩ [13, 23] Alloc.ok 10 10 hr 1 exMem 3 exFits true txt g' hp
  have _ := C41_returns_or_throws rne g 7 ⟨0, 0⟩ ⟨100, 100⟩ [13, 23] Alloc.ok 10 10 hr 1 exMem 3 exFits
  have _ := C41_history_independent rne g g 7 ⟨0, 0⟩ ⟨100, 100⟩ [13, 23] Alloc.ok Alloc.ok 10 10 hr hr 1 9 exMem 3
  obtain ⟨hist, _, hh, hm, _⟩ := hr.hist
  have _ := C40_process_strict_ub rne _ _ hh ⟨_, _, _, _, hm⟩ Alloc.ok exMem 3 5 5 (by decide) (by decide) rfl
  refine ⟨g, g', ?_, hr⟩
  refine C41_centres_covered rne g 7 ⟨0, 0⟩ ⟨100, 100⟩ [13, 23] Alloc.ok 10 10 hr (by decide) (by decide) (by decide) (by decide) (by decide) (by decide) 1 exMem 3 exFits true txt g' hp
    _ exSelected ⟨20, 80⟩ ⟨45, 60⟩ ⟨rfl, _, _, rfl⟩ (by unfold DiffsFit inI32; decide) (by decide) (by decide) (by decide) (by decide)
    ?_ ?_ 3 3 (by decide) (by decide) ?_
  · simp only [colOf, wsW, wsOf]; norm_num
  · simp only [rowOf, wsH, wsOf]; norm_num
  · simp only [InRect, centreX, centreY, wsW, wsH, wsOf]; norm_num

/-- the same layout without the layer that is hidden -/
def exMem' : Memory := ⟨fun _ => { libraries := [some { layers := [{ layer := 1, geometries := [some { exRect 0 100 100 0 with min := ⟨0, 0⟩, max := ⟨100, 100⟩ }] },
      { layer := 13, geometries := [some { exRect 20 80 45 60 with min := ⟨20, 60⟩, max := ⟨45, 80⟩ }, none, some { type := .text, min := ⟨0, 0⟩, max := ⟨5, 5⟩ }] }] },
    some { layers := [{ layer := 23, geometries := [some { exRect 0 10 10 0 with min := ⟨0, 0⟩, max := ⟨10, 10⟩ },
      some { exRect 300 10 310 0 with min := ⟨300, 0⟩, max := ⟨310, 10⟩ }] }] }] }, fun _ => {}⟩

example (g : Generator) (hr : Ready rne g 7 ⟨0, 0⟩ ⟨100, 100⟩ [13, 23] Alloc.ok 10 10) :=
  C41_later_layers_ignored rne g 7 ⟨0, 0⟩ ⟨100, 100⟩ [13, 23] Alloc.ok 10 10 hr 1 exMem exMem' 3 [] _ {} [_] [_] []
    { layer := 13, geometries := [some { exRect 20 80 45 60 with min := ⟨20, 60⟩, max := ⟨45, 80⟩ }, none, some { type := .text, min := ⟨0, 0⟩, max := ⟨5, 5⟩ }] }
    (by simp) rfl rfl rfl

/-- a workspace wider than an `int` -/
example : ∃ g, Generator.process rne Alloc.ok (.ok 1) exMem 3 10 10 g = some .ub := by
  have h3 := hist2.call (.initRet (d := some 7) (ls := [13]) (mn := ⟨-2000000000, 0⟩) (mx := ⟨2000000000, 100⟩) (g' := _) rfl)
  exact ⟨_, C41_huge_workspace_ub rne _ _ h3 (some 7) [13] ⟨-2000000000, 0⟩ ⟨2000000000, 100⟩ (by simp) (by unfold inI32; decide) Alloc.ok 1 exMem 3 10 10
    (by decide) (by decide) rfl⟩

/-- a second `Init` -/
example : ∃ g, Generator.init (some 8) [1] ⟨0, 0⟩ ⟨1, 1⟩ g = .throw .invalidArgument g := by
  have h3 := hist2.call (.initRet (d := some 7) (ls := [13]) (mn := ⟨0, 0⟩) (mx := ⟨100, 100⟩) (g' := _) rfl)
  exact ⟨_, C40_init_once rne _ _ h3 ⟨(GenCall.init (some 7) [13] ⟨0, 0⟩ ⟨100, 100⟩, true), by simp, by simp [GenCall.properInit]⟩ (some 8) [1] ⟨0, 0⟩ ⟨1, 1⟩⟩

/-! the converters -/

theorem sample_ok : pathToRectList (some samplePath) = .ok [originRect 7, originRect 7] := by decide

example := C35_result samplePath rfl (by decide) _ sample_ok
example := C35_succeeds samplePath rfl (by decide) (by decide) ⟨by decide, by decide, by decide⟩
example := C35_covers_only_origin samplePath rfl (by decide) _ sample_ok (originRect 7) (by simp) 0 0 (by decide)
example := C35_ignores_points samplePath samplePath rfl rfl (by decide) rfl rfl _ _ sample_ok sample_ok
example := C35_shape samplePath rfl (by decide) _ sample_ok (originRect 7) (by simp)
example := C35_rejects (some { type := .text }) (fun p h => by cases h; decide)
example := C35_empty_path_ub { type := .path } rfl rfl

theorem split_ok : splitSref sampleElements 3 (some { type := .reference, element := some 1 }) ⟨100, 200⟩ =
    some (.ok [{ type := .rectangle, coords := [⟨111, 226⟩, ⟨114, 226⟩, ⟨114, 221⟩, ⟨111, 221⟩, ⟨111, 226⟩], min := ⟨111, 221⟩, max := ⟨114, 226⟩ },
      translate ⟨111, 221⟩ (originRect 7), translate ⟨111, 221⟩ (originRect 7)]) := by decide

theorem sample_sizes : SizesFit sampleElements := by
  intro e g hg
  match e with
  | 0 => simp [sampleElements] at hg; rcases hg with rfl | rfl | rfl <;> decide
  | 1 => simp [sampleElements] at hg; subst hg; decide
  | n + 2 => simp [sampleElements] at hg; subst hg; decide

example := C36_exact sampleElements sample_sizes 3 _ _ _ split_ok
example := C36_only_drawable sampleElements sample_sizes 3 _ _ _ split_ok (translate ⟨111, 221⟩ (originRect 7)) (by simp)
example : True := by
  obtain ⟨e, he, hl⟩ := C36_listing sampleElements sample_sizes 3 _ _ _ split_ok
  have _ := C36_listing_unique sampleElements _ _ _ _ hl hl
  trivial
example := C36_deterministic sampleElements _ _ 3 3 _ _ split_ok split_ok
example := C36_cycle_never_returns sampleElements { type := .reference, element := some 2 } 2 2 rfl (.inl rfl)
  (.one ⟨{ type := .reference, element := some 2 }, by simp [sampleElements], rfl, rfl⟩) ⟨0, 0⟩ 5 []
example := C36_ignores_reference_position sampleElements 3 { type := .reference, element := some 1 } { type := .reference, element := some 1, min := ⟨5, 5⟩ } ⟨0, 0⟩ rfl rfl

/-- the sample without the cycle -/
def sampleTree : Elements := fun e => if e = 1 then sampleElements 1 else sampleElements 0

theorem tree_rank : ∀ e e', RefersTo sampleTree e e' → (fun e => if e = 1 then 1 else 0) e' < (fun e => if e = 1 then 1 else 0) e := by
  rintro e e' ⟨r, hm, ht, he⟩
  unfold sampleTree at hm
  by_cases h : e = 1
  · subst h
    simp [sampleElements] at hm
    subst hm
    simp at he
    subst he
    decide
  · simp [h, sampleElements] at hm
    rcases hm with rfl | rfl | rfl <;> cases ht

example := C36_terminates sampleTree _ tree_rank { type := .reference, element := some 1 } ⟨100, 200⟩

theorem tree_placed {e : Nat} {d : Coord} (h : Placed sampleTree 1 ⟨100, 200⟩ e d) : (e = 1 ∧ d = ⟨101, 201⟩) ∨ (e = 0 ∧ d = ⟨111, 221⟩) := by
  induction h with
  | root => exact .inl ⟨rfl, by decide⟩
  | step _ hr ih =>
    obtain ⟨r, hm, ht, he⟩ := hr
    rcases ih with ⟨rfl, rfl⟩ | ⟨rfl, rfl⟩
    · simp [sampleTree, sampleElements] at hm
      subst hm
      simp at he
      subst he
      exact .inr ⟨rfl, by decide⟩
    · simp [sampleTree, sampleElements] at hm
      rcases hm with rfl | rfl | rfl <;> cases ht

example : ∃ n l, splitSref sampleTree n (some { type := .reference, element := some 1 }) ⟨100, 200⟩ = some (.ok l) := by
  refine C36_succeeds sampleTree _ tree_rank { type := .reference, element := some 1 } ⟨100, 200⟩ 1 rfl rfl ?_ ?_ ?_ ?_
  · intro e d r hp hm ht
    rcases tree_placed hp with ⟨rfl, rfl⟩ | ⟨rfl, rfl⟩ <;> simp [sampleTree, sampleElements] at hm
    · subst hm; simp
    · rcases hm with rfl | rfl | rfl <;> cases ht
  · intro e d hp
    rcases tree_placed hp with ⟨rfl, rfl⟩ | ⟨rfl, rfl⟩ <;> (unfold inI32; decide)
  · intro g hg
    cases hg with
    | shape hp hm ht =>
      rcases tree_placed hp with ⟨rfl, rfl⟩ | ⟨rfl, rfl⟩ <;> simp [sampleTree, sampleElements] at hm
      · subst hm; simp at ht
      · rcases hm with rfl | rfl | rfl
        · unfold GeomInRange inI32; decide
        · simp [samplePath] at ht
        · simp at ht
    | segment hp hm ht h2 =>
      rcases tree_placed hp with ⟨rfl, rfl⟩ | ⟨rfl, rfl⟩ <;> simp [sampleTree, sampleElements] at hm
      · subst hm; simp at ht
      · rcases hm with rfl | rfl | rfl
        · simp at ht
        · unfold GeomInRange inI32; decide
        · simp at ht
  · intro e d g hp hm ht
    rcases tree_placed hp with ⟨rfl, rfl⟩ | ⟨rfl, rfl⟩ <;> simp [sampleTree, sampleElements] at hm
    · subst hm; simp at ht
    · rcases hm with rfl | rfl | rfl
      · simp at ht
      · exact ⟨by decide, by decide, by decide, by decide, by decide⟩
      · simp at ht

/-! the life of a layout -/

example := C58_copy (fun _ => {}) (fun a => decide (a = 5)) _ { libraries := [some { elements := [some 5] }] } (by decide) (by rfl)
example := C58_msk (Props.exEnv Props.exText) 7 (Props.exWorld [] fun _ => {}) _ _ _ (ex_ready _ _ _) _ ex_lines _ ex_gives (by simp) rfl (fun a => decide (a = 7)) rfl

/-! the matrix a generator hands out -/

open Sharing

/-- the world between two parts of a session -/
theorem steps_split {rnd : ℚ → ℚ} : ∀ {a b : List Call} {w w' : World}, steps rnd w (a ++ b) = some w' → ∃ v, steps rnd w a = some v ∧ steps rnd v b = some w'
  | [], _, w, _, h => ⟨w, rfl, h⟩
  | c :: a, b, w, w', h => by
    rw [List.cons_append] at h
    unfold steps at h
    split at h
    · next e =>
      obtain ⟨v, h1, h2⟩ := steps_split h
      refine ⟨v, ?_, h2⟩
      unfold steps
      rw [e]
      exact h1
    · cases h

theorem steps_one {rnd : ℚ → ℚ} {c : Call} {w w' : World} (h : steps rnd w [c] = some w') : call rnd w c = some (.ok () w') := by
  unfold steps at h
  split at h
  · next e => simp only [steps, Option.some.injEq] at h; subst h; exact e
  · cases h

/-- a generator with its arguments -/
def start0 : List Call := [.create 0, .init 0 (some 7) [13] ⟨0, 0⟩ ⟨100, 100⟩]
/-- calls that leave the generator 0 and the pointer variable 5 alone -/
def others : List Call := [.create 1, .get 1 6, .setLayers 0 [23], .copy 0 2]

example : ∃ w3 m, steps id {} (start0 ++ [.get 0 5] ++ others ++ [.process 0 Alloc.ok (.ok 1) exMem 3 5 5]) = some w3 ∧ seen w3 5 = some m ∧ m.isize = 5 := by
  obtain ⟨w3, h⟩ := Option.isSome_iff_exists.1
    (show (steps id {} (start0 ++ [.get 0 5] ++ others ++ [.process 0 Alloc.ok (.ok 1) exMem 3 5 5])).isSome = true by decide +kernel)
  obtain ⟨w2, h2, h3⟩ := steps_split h
  obtain ⟨w1, h1, h2⟩ := steps_split h2
  obtain ⟨w, h0, h1⟩ := steps_split h1
  have hk : ∀ c ∈ others, ¬ c.renews 0 ∧ ¬ c.points 5 := by simp [others, Call.renews, Call.points]
  have _ := C93_pointer id w w1 w2 0 5 others (.inl (steps_one h1)) (steps_calls h2) hk
  obtain ⟨m, e1, _, e2, _⟩ := C93_overwritten id w w1 w2 w3 0 5 others (.inl (steps_one h1)) (steps_calls h2) hk Alloc.ok (.ok 1) exMem 3 5 5 (steps_one h3)
  exact ⟨w3, m, h, e1, e2⟩

example : ∃ w3, steps id {} (start0 ++ [.get 0 5] ++ others ++ [.write 5 ⟨[[255]], 1, 8⟩]) = some w3 ∧ shown w3 0 = some ⟨[[255]], 1, 8⟩ := by
  obtain ⟨w3, h⟩ := Option.isSome_iff_exists.1
    (show (steps id {} (start0 ++ [.get 0 5] ++ others ++ [.write 5 ⟨[[255]], 1, 8⟩])).isSome = true by decide +kernel)
  obtain ⟨w2, h2, h3⟩ := steps_split h
  obtain ⟨w1, h1, h2⟩ := steps_split h2
  obtain ⟨w, h0, h1⟩ := steps_split h1
  exact ⟨w3, h, (C93_forgets id w w1 w2 w3 0 5 others (.inl (steps_one h1)) (steps_calls h2) (by simp [others, Call.renews, Call.points]) _ (.inl (steps_one h3))
    Alloc.ok (.ok 1) exMem 3 5 5 (by decide) (by decide)).2.1⟩

example : ∃ w2 m, steps id {} (start0 ++ [.copy 0 2] ++ [.process 2 Alloc.ok (.ok 1) exMem 3 5 5]) = some w2 ∧ shown w2 0 = some m ∧ shown w2 2 = some m := by
  obtain ⟨w2, h⟩ := Option.isSome_iff_exists.1
    (show (steps id {} (start0 ++ [.copy 0 2] ++ [.process 2 Alloc.ok (.ok 1) exMem 3 5 5])).isSome = true by decide +kernel)
  obtain ⟨w1, h1, h2⟩ := steps_split h
  obtain ⟨w, h0, h1⟩ := steps_split h1
  obtain ⟨m, e1, e2⟩ := C93_copy id w w1 w2 0 2 _ (.inl (steps_one h1)) (steps_calls h2) (by simp [Call.renews])
  exact ⟨w2, m, h, e1, e2⟩

example : ∃ w1, steps id {} (start0 ++ [.copy 0 2, .get 0 5] ++ [.destroy 0]) = some w1 ∧ seen w1 5 = some BitMatrix.empty := by
  obtain ⟨w1, h⟩ := Option.isSome_iff_exists.1
    (show (steps id {} (start0 ++ [.copy 0 2, .get 0 5] ++ [.destroy 0])).isSome = true by decide +kernel)
  obtain ⟨w, h0, h1⟩ := steps_split h
  refine ⟨w1, h, ((C93_survives id w w1 0 (.inl (steps_one h1))).1 5).trans ?_⟩
  have e : (steps id {} (start0 ++ [.copy 0 2, .get 0 5])).bind (fun w => seen w 5) = some BitMatrix.empty := by decide +kernel
  rw [h0] at e
  exact e

example : ∃ w3, steps id {} ([.create 1, .get 1 6] ++ [.create 0] ++ [.init 0 (some 7) [13] ⟨0, 0⟩ ⟨100, 100⟩, .process 0 Alloc.ok (.ok 1) exMem 3 5 5] ++
    [.process 0 Alloc.ok (.ok 1) exMem 3 4 8]) = some w3 ∧ seen w3 6 = some BitMatrix.empty := by
  obtain ⟨w3, h⟩ := Option.isSome_iff_exists.1
    (show (steps id {} ([.create 1, .get 1 6] ++ [.create 0] ++ [.init 0 (some 7) [13] ⟨0, 0⟩ ⟨100, 100⟩, .process 0 Alloc.ok (.ok 1) exMem 3 5 5] ++
      [.process 0 Alloc.ok (.ok 1) exMem 3 4 8])).isSome = true by decide +kernel)
  obtain ⟨w2, h2, h3⟩ := steps_split h
  have e : seen w2 6 = some BitMatrix.empty := by
    have e : (steps id {} ([.create 1, .get 1 6] ++ [.create 0] ++ [.init 0 (some 7) [13] ⟨0, 0⟩ ⟨100, 100⟩, .process 0 Alloc.ok (.ok 1) exMem 3 5 5])).bind (fun w => seen w 6) =
      some BitMatrix.empty := by decide +kernel
    rw [h2] at e
    exact e
  obtain ⟨w1, h1, h2⟩ := steps_split h2
  obtain ⟨w0, h0, h1⟩ := steps_split h1
  refine ⟨w3, h, Eq.trans ?_ e⟩
  exact ((C93_separate id _ w0 w1 (steps_calls h0) 0 (.inl (steps_one h1)) _ w2 (steps_calls h2) (by simp [Call.renews, Call.spreads]) _ w3 (.inl (steps_one h3))
    (by simp [Call.renews])).2.2 rfl).2 6

example : ∃ w6 m, steps id {} ([.create 1] ++ [.create 0] ++ [.init 0 (some 7) [13] ⟨0, 0⟩ ⟨100, 100⟩, .process 0 Alloc.ok (.ok 1) exMem 3 5 5] ++ [.get 0 5] ++ [.setLayers 0 [23]] ++
    [.copy 1 0] ++ [.init 0 (some 7) [23] ⟨0, 0⟩ ⟨100, 100⟩, .process 0 Alloc.ok (.ok 1) exMem 3 4 8]) = some w6 ∧ seen w6 5 = some m := by
  obtain ⟨w6, h⟩ := Option.isSome_iff_exists.1
    (show (steps id {} ([.create 1] ++ [.create 0] ++ [.init 0 (some 7) [13] ⟨0, 0⟩ ⟨100, 100⟩, .process 0 Alloc.ok (.ok 1) exMem 3 5 5] ++ [.get 0 5] ++ [.setLayers 0 [23]] ++
    [.copy 1 0] ++ [.init 0 (some 7) [23] ⟨0, 0⟩ ⟨100, 100⟩, .process 0 Alloc.ok (.ok 1) exMem 3 4 8])).isSome = true by decide +kernel)
  obtain ⟨w5, h5, h6⟩ := steps_split h
  obtain ⟨w4, h4, h5⟩ := steps_split h5
  obtain ⟨w3, h3, h4⟩ := steps_split h4
  obtain ⟨w2, h2, h3⟩ := steps_split h3
  obtain ⟨w1, h1, h2⟩ := steps_split h2
  obtain ⟨w0, h0, h1⟩ := steps_split h1
  obtain ⟨m, _, _, e⟩ := C93_keep id _ w0 w1 (steps_calls h0) 0 (.inl (steps_one h1)) _ w2 (steps_calls h2) (by simp [Call.renews, Call.spreads]) 5 w3
    (.inl (steps_one h3)) _ w4 (steps_calls h4) (by simp [Call.renews, Call.spreads, Call.points]) (.copy 1 0) (.inr ⟨1, by decide, rfl⟩) w5 (.inl (steps_one h5))
    _ w6 (steps_calls h6) (by simp [Call.points, Call.writes])
  exact ⟨w6, m, h, e⟩

example : ∃ w2, steps id {} (start0 ++ [.create 1] ++ [.copy 1 0]) = some w2 ∧ shown w2 0 = some BitMatrix.empty := by
  obtain ⟨w2, h⟩ := Option.isSome_iff_exists.1 (show (steps id {} (start0 ++ [.create 1] ++ [.copy 1 0])).isSome = true by decide +kernel)
  obtain ⟨w1, h1, h2⟩ := steps_split h
  obtain ⟨w, h0, h1⟩ := steps_split h1
  exact ⟨w2, h, (C93_again id w w1 w2 0 1 (.inl (steps_one h1)) (.inl (steps_one h2)) 7 [13] (by decide) ⟨0, 0⟩ ⟨9, 9⟩).1⟩

end Verif.Witness
