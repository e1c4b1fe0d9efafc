import Verif.Proofs.MskMemory
import Verif.Props.Msk

/-!
C83: reading an MSK file when memory runs out.

`fails` says which memory requests of the call fail (`Point` lists them); `ps` says what the lines of the file hold; `s` is the state of
the memory, of the reader and of the caller's layout.  The vocabulary is in `Spec/MskMemory.lean`.
-/

namespace Verif.Props
open Verif Msk Msk.Mem Spec.Msk Spec.MskMem Scan

/-- `Read` up to the loop -/
theorem read83_start {env : Env} {fails : Point → Bool} {s : St} {content ename lname : List UInt8} (hr : Ready env s content ename lname)
    {ls : List (List UInt8)} (hl : Lines content ls) (he : early fails = false) :
    Msk.Mem.read env fails false s =
      M.tryCatch (do
        readLines env fails s.next (s.next + 1) 0 ls
        finish fails s.next (s.next + 1)
        M.modify fun s => { s with stuck := false }
        pure true) (fun _ => do recover; pure false) (started s ename lname) := by
  unfold early at he
  simp only [Bool.or_eq_false_iff] at he
  obtain ⟨⟨⟨⟨⟨⟨h1, h2⟩, h3⟩, h4⟩, h5⟩, h6⟩, h7⟩ := he
  unfold Msk.Mem.read readBody
  rw [if_neg (by simp)]
  unfold M.tryCatch
  have e1 : (do
      let lines ← openFile env fails
      let (lib, el) ← begin env fails
      readLines env fails lib el 0 lines
      finish fails lib el : M St Unit) s = (do
        readLines env fails s.next (s.next + 1) 0 ls
        finish fails s.next (s.next + 1) : M St Unit) (started s ename lname) := by
    rw [M.run_bind_ok (openFile_ok hr hl h1 h2), M.run_bind_ok (begin_ok hr.ename hr.lname h3 h4 h5 h6 h7)]
  rw [M.run_bind, e1, ← M.run_bind (f := fun _ => (do M.modify fun s => { s with stuck := false }; pure true : M St Bool))]
  have assoc : ∀ (a b : M St Unit) (c : M St Bool) (x : St), ((do a; b : M St Unit) >>= fun _ => c) x = (do a; b; c : M St Bool) x := by
    intro a b c x
    simp only [M.run_bind]
    cases a x <;> rfl
  rw [assoc]

/-- **C83** `Read` returns false - and never throws - when one of the requests before the first line fails, when an object for a section
of a line that is reached cannot be made, or when the library cannot list its element.  The caller's layout keeps its libraries (only
the file name may and the format does change), every object that was there before is still there and unchanged, and nothing new stays in
memory but one text for every readable title read before the failure.  The reader can be used again. -/
theorem C83_false (env : Env) (fails : Point → Bool) (s : St) (content ename lname : List UInt8) (hr : Ready env s content ename lname)
    (ls : List (List UInt8)) (hl : Lines content ls) (ps : List Line) (hp : List.Forall₂ Holds ls ps)
    (hf : early fails = true ∨ aborts fails 0 ps = true ∨ fails .listElement = true) :
    ∃ s' T, Msk.Mem.read env fails false s = .ok false s' ∧ s'.data.libraries = s.data.libraries ∧
      s'.data.fileFormat = .undefined ∧ (s'.data.fileName = s.data.fileName ∨ s'.data.fileName = s.fileName) ∧ Untouched s s' ∧
      Grew s s' T ∧ (∀ a ∈ T, (s'.geos a).type = .text) ∧ (T.length = if early fails then 0 else titles fails 0 ps) ∧
      Ready env s' content ename lname := by
  by_cases he : early fails = true
  · -- before the loop
    rw [he]
    unfold Msk.Mem.read readBody
    rw [if_neg (by simp)]
    have open_fail : (fails .pathString || fails .openStream) = true → openFile env fails s = .throw .badAlloc s := by
      intro h
      unfold openFile
      by_cases h1 : fails .pathString = true
      · exact M.run_bind_throw (ask_fail h1 _)
      · have h1' : fails .pathString = false := by simpa using h1
        rw [M.run_bind_ok (ask_ok h1' _), M.run_bind_ok (M.run_get _)]
        simp only [hr.stuck, Bool.false_eq_true, if_false]
        refine M.run_bind_throw (ask_fail ?_ _)
        simpa [h1'] using h
    by_cases ho : (fails .pathString || fails .openStream) = true
    · refine ⟨{ s with stuck := false, data := { s.data with fileFormat := .undefined } }, [], ?_, rfl, rfl, .inl rfl,
        ⟨fun _ _ => rfl, fun _ _ => rfl, fun _ _ => rfl⟩, ⟨by simp, by simp, by simp⟩, by simp, rfl,
        ⟨rfl, hr.file, hr.ename, hr.lname, hr.library, hr.element, hr.fresh⟩⟩
      unfold M.tryCatch
      rw [M.run_bind_throw (M.run_bind_throw (open_fail ho))]
      dsimp only
      rw [M.run_bind_ok (recover_none s hr.library hr.element), M.run_pure]
    · have ho' : fails .pathString = false ∧ fails .openStream = false := by simpa using ho
      have hb : (fails .newLibrary || fails .newElement || fails .layoutName || fails .elementName || fails .libraryName) = true := by
        unfold early at he
        simpa [ho'.1, ho'.2] using he
      obtain ⟨t, et, hd, hold, hfn, hfn2, hnx, hcase⟩ := begin_fail hr.ename hr.lname hr.library hr.element hb
      have hbody : (do
          (do
            let lines ← openFile env fails
            let (lib, el) ← begin env fails
            readLines env fails lib el 0 lines
            finish fails lib el : M St Unit)
          M.modify fun s => { s with stuck := false }
          pure true : M St Bool) s = .throw .badAlloc t := by
        refine M.run_bind_throw ?_
        rw [M.run_bind_ok (openFile_ok hr hl ho'.1 ho'.2)]
        exact M.run_bind_throw et
      unfold M.tryCatch
      rw [hbody]
      dsimp only
      -- the handler removes what was made
      obtain ⟨lv, al, ae, er, hlv⟩ : ∃ lv, ∃ al ae : Option Nat, recover t = .ok () { t with
          stuck := false
          data := { t.data with fileFormat := .undefined }
          live := lv
          activeElement := ae
          activeLibrary := al } ∧ (al = none ∧ ae = none ∧ ∀ b, lv b = s.live b) := by
        rcases hcase with ⟨c1, c2, c3⟩ | ⟨c1, c2, c3, c4⟩ | ⟨c1, c2, c3, c4, c5⟩
        · refine ⟨t.live, t.activeLibrary, t.activeElement, ?_, c1, c2, fun b => by rw [c3]⟩
          rw [recover_none t c1 c2]
        · have h1 : t.live s.next = true := by rw [c4, if_pos rfl]
          refine ⟨_, none, t.activeElement, recover_lib t s.next c1 c2 h1 c3, rfl, c2, fun b => ?_⟩
          split
          · rename_i hb; rw [hb, hr.fresh _ (Nat.le_refl _)]
          · rename_i hb; rw [c4, if_neg hb]
        · have h1 : t.live s.next = true := by rw [c5, if_neg (by omega), if_pos rfl]
          have h2 : t.live (s.next + 1) = true := by rw [c5, if_pos rfl]
          refine ⟨_, none, none, recover_both t s.next (s.next + 1) c1 c2 h1 c3 h2 (by rw [c4]; simp) (by rw [c4]; simp) (by rw [c4]; simp),
            rfl, rfl, fun b => ?_⟩
          rw [c4, c5]
          by_cases hb1 : b = s.next + 1
          · rw [hb1, hr.fresh _ (by omega)]; simp
          · by_cases hb2 : b = s.next
            · rw [hb2, hr.fresh _ (Nat.le_refl _)]; simp
            · simp [hb1, hb2]
      obtain ⟨h1, h2, h3⟩ := hlv
      rw [M.run_bind_ok er, M.run_pure]
      refine ⟨_, [], rfl, hd, rfl, hfn2, ⟨fun b hb => (hold b hb).1, fun b hb => (hold b hb).2.1, fun b hb => (hold b hb).2.2⟩,
        ⟨by simp, by simp, fun a => by simp [h3]⟩, by simp, rfl, ⟨rfl, ?_, ?_, ?_, h1, h2, fun a ha => ?_⟩⟩
      · dsimp only; rw [hfn]; exact hr.file
      · dsimp only; rw [hfn]; exact hr.ename
      · dsimp only; rw [hfn]; exact hr.lname
      · dsimp only at ha ⊢
        rw [h3]
        exact hr.fresh a (Nat.le_trans hnx ha)
  · have he' : early fails = false := by simpa using he
    rw [read83_start hr hl he', he']
    have hf' : aborts fails 0 ps = true ∨ fails .listElement = true := by
      rcases hf with h | h
      · exact absurd h he
      · exact h
    obtain ⟨r1, r2⟩ := lines_run (env := env) (fails := fails) (started_fresh hr.fresh ename lname) hp (lines_nolf hl) 0 _ [] []
      (inv_start s ename lname)
    have hthrow : ∃ t P T, Inv (started s ename lname) s.next (s.next + 1) t P T ∧ T.length = titles fails 0 ps ∧ (do
        readLines env fails s.next (s.next + 1) 0 ls
        finish fails s.next (s.next + 1)
        M.modify fun s => { s with stuck := false }
        pure true : M St Bool) (started s ename lname) = .throw .badAlloc t := by
      cases ha : aborts fails 0 ps with
      | true =>
        obtain ⟨t, e, P, T, hi, hT⟩ := r1 ha
        exact ⟨t, P, [] ++ T, hi, hT, M.run_bind_throw e⟩
      | false =>
        obtain ⟨t, e, P, T, hi, _, hT⟩ := r2 ha
        refine ⟨t, [] ++ P, [] ++ T, hi, hT, ?_⟩
        rw [M.run_bind_ok e]
        refine M.run_bind_throw ?_
        unfold finish
        refine M.run_bind_throw (ask_fail ?_ _)
        rcases hf' with h | h
        · rw [ha] at h; cases h
        · exact h
    obtain ⟨t, P, T, hi, hT, et⟩ := hthrow
    obtain ⟨s', es, hd, hu, hg, htx, k1, k2, k3, k4, k5⟩ := inv_recover hi hr.fresh
    unfold M.tryCatch
    rw [et]
    dsimp only
    rw [M.run_bind_ok es, M.run_pure]
    refine ⟨s', T, rfl, by rw [hd], by rw [hd], .inr (by rw [hd]), hu, hg, htx, hT, ⟨k1, ?_, ?_, ?_, k3, k4, k5⟩⟩
    · rw [k2]; exact hr.file
    · rw [k2]; exact hr.ename
    · rw [k2]; exact hr.lname

/-- what is there behind the loop and the two `push_back` -/
theorem finish83 {env : Env} {fails : Point → Bool} {s : St} {content ename lname : List UInt8} (hr : Ready env s content ename lname)
    {ls : List (List UInt8)} (hl : Lines content ls) {ps : List Line} (hp : List.Forall₂ Holds ls ps) (he : early fails = false)
    (ha : aborts fails 0 ps = false) (h1 : fails .listElement = false) :
    ∃ t P T, Inv (started s ename lname) s.next (s.next + 1) t P T ∧ P.map Prod.snd = boxes fails 0 ps ∧ T.length = titles fails 0 ps ∧
      (fails .listLibrary = true → Msk.Mem.read env fails false s = .ub) ∧
      (fails .listLibrary = false → Msk.Mem.read env fails false s =
        M.tryCatch (do
          fixBox
          M.modify fun s => { s with stuck := false }
          pure true) (fun _ => do recover; pure false) { t with
            libs := fun b => if b = s.next then { t.libs s.next with elements := [s.next + 1] } else t.libs b
            data := { fileName := s.fileName, fileFormat := .msk, libraries := s.data.libraries ++ [s.next] } }) := by
  obtain ⟨_, r2⟩ := lines_run (env := env) (fails := fails) (started_fresh hr.fresh ename lname) hp (lines_nolf hl) 0 _ [] []
    (inv_start s ename lname)
  obtain ⟨t, e, P, T, hi, hP, hT⟩ := r2 ha
  refine ⟨t, [] ++ P, [] ++ T, hi, hP, hT, fun h2 => ?_, fun h2 => ?_⟩
  · rw [read83_start hr hl he]
    unfold M.tryCatch
    rw [M.run_bind_ok e]
    have hfin : finish fails s.next (s.next + 1) t = .throw .badAlloc { t with
        libs := fun b => if b = s.next then { t.libs s.next with elements := (t.libs s.next).elements ++ [s.next + 1] } else t.libs b } := by
      unfold finish
      rw [M.run_bind_ok (ask_ok h1 _), M.run_bind_ok (M.run_modify _ _)]
      exact M.run_bind_throw (ask_fail h2 _)
    rw [M.run_bind_throw hfin]
    dsimp only
    refine M.run_bind_ub (recover_twice _ s.next (s.next + 1) ?_ ?_ ?_)
    · have := congrArg St.activeLibrary hi.frame
      exact this
    · have := congrArg St.activeElement hi.frame
      exact this
    · simp
  · rw [read83_start hr hl he]
    unfold M.tryCatch
    rw [M.run_bind_ok e]
    have hfin : finish fails s.next (s.next + 1) t = fixBox { t with
            libs := fun b => if b = s.next then { t.libs s.next with elements := [s.next + 1] } else t.libs b
            data := { fileName := s.fileName, fileFormat := .msk, libraries := s.data.libraries ++ [s.next] } } := by
      unfold finish
      rw [M.run_bind_ok (ask_ok h1 _), M.run_bind_ok (M.run_modify _ _), M.run_bind_ok (ask_ok h2 _), M.run_bind_ok (M.run_modify _ _),
        M.run_bind_ok (M.run_modify _ _)]
      have hd := inv_data hi
      have hL : (t.libs s.next).elements = [] := by rw [inv_libs hi]
      have hfn : t.fileName = s.fileName := by
        have := congrArg St.fileName hi.frame
        exact this
      simp only [hd, hL, hfn, List.nil_append]
    rw [M.run_bind, hfin, ← M.run_bind (f := fun _ => (do M.modify fun s => { s with stuck := false }; pure true : M St Bool))]

/-- **C83** If everything succeeds up to the last `push_back` and that one fails, the handler deletes the element and then the library that
already lists it: undefined behaviour. -/
theorem C83_double_delete (env : Env) (fails : Point → Bool) (s : St) (content ename lname : List UInt8)
    (hr : Ready env s content ename lname) (ls : List (List UInt8)) (hl : Lines content ls) (ps : List Line)
    (hp : List.Forall₂ Holds ls ps) (he : early fails = false) (ha : aborts fails 0 ps = false) (h1 : fails .listElement = false)
    (h2 : fails .listLibrary = true) : Msk.Mem.read env fails false s = .ub := by
  obtain ⟨_, _, _, _, _, _, h, _⟩ := finish83 hr hl hp he ha h1
  exact h h2

theorem kept_map (P : List (Nat × Item × Bool)) :
    ((P.filter fun p => p.2.2).map fun p => p.2.1) = ((P.map Prod.snd).filter Prod.snd).map Prod.fst := by
  induction P with
  | nil => rfl
  | cons p P ih =>
    cases h : p.2.2 <;> simp [h] <;> simpa using ih

/-- **C83** If nothing breaks reading off but memory failures leave no box for the element (or the file has none), reading into an empty
layout is undefined. -/
theorem C83_nothing (env : Env) (fails : Point → Bool) (s : St) (content ename lname : List UInt8) (hr : Ready env s content ename lname)
    (ls : List (List UInt8)) (hl : Lines content ls) (ps : List Line) (hp : List.Forall₂ Holds ls ps) (he : early fails = false)
    (ha : aborts fails 0 ps = false) (h1 : fails .listElement = false) (h2 : fails .listLibrary = false)
    (hempty : s.data.libraries = []) (hnone : delivered fails ps = []) : Msk.Mem.read env fails false s = .ub := by
  obtain ⟨t, P, T, hi, hP, _, _, h⟩ := finish83 hr hl hp he ha h1
  rw [h h2]
  have hG : (P.filter fun p => p.2.2) = [] := by
    have := kept_map P
    rw [hP] at this
    unfold delivered at hnone
    rw [hnone] at this
    exact List.map_eq_nil_iff.mp this
  have hE : (t.elems (s.next + 1)).geometries = [] := by rw [inv_elems hi, hG]; rfl
  unfold M.tryCatch
  rw [M.run_bind_ub]
  unfold Mem.fixBox
  rw [hempty]
  dsimp only [List.nil_append]
  simp only [if_true, hE]
  split <;> first | rfl | (split <;> rfl)

/-- **C83** In all other cases `Read` into an empty layout returns true: the layout has one library with one element; the boxes of the
lines read, in file order, are in the layers of their numbers and in the element, unless a failure inside their line prevented it (`boxes`
says what becomes of each); the element's box is the smallest around the boxes it lists; the memory holds what the layout owns, and
besides one text per title (`titles`); the layers also list the boxes that were deleted because the element could not list them. -/
theorem C83_true (env : Env) (fails : Point → Bool) (s : St) (content ename lname : List UInt8) (hr : Ready env s content ename lname)
    (ls : List (List UInt8)) (hl : Lines content ls) (ps : List Line) (hp : List.Forall₂ Holds ls ps) (he : early fails = false)
    (ha : aborts fails 0 ps = false) (h1 : fails .listElement = false) (h2 : fails .listLibrary = false)
    (hempty : s.data.libraries = []) (hsome : delivered fails ps ≠ []) :
    ∃ s' lib el P T, Msk.Mem.read env fails false s = .ok true s' ∧ Outcome s s' ename lname lib el P T ∧ Untouched s s' ∧
      P.map Prod.snd = boxes fails 0 ps ∧ T.length = titles fails 0 ps ∧
      Encloses (s'.elems el).min (s'.elems el).max ((delivered fails ps).map Item.box) ∧
      s'.activeLibrary = some lib ∧ s'.activeElement = some el ∧ s'.stuck = false ∧ s'.fileName = s.fileName ∧
      ∀ a, s'.next ≤ a → s'.live a = false := by
  obtain ⟨t, P, T, hi, hP, hT, _, h⟩ := finish83 hr hl hp he ha h1
  have hk := kept_map P
  rw [hP] at hk
  have hk' : ((P.filter fun p => p.2.2).map fun p => p.2.1) = delivered fails ps := hk
  have hE := inv_elems hi
  obtain ⟨g, gs, hg⟩ : ∃ g gs, (P.filter fun p => p.2.2).map Prod.fst = g :: gs := by
    cases hc : (P.filter fun p => p.2.2) with
    | nil => rw [hc] at hk'; exact absurd hk'.symm hsome
    | cons p ps => exact ⟨_, _, List.map_cons⟩
  have hlive := inv_live hi
  have hn := inv_nodup hi
  obtain ⟨mn, mx, henc, hfix⟩ := fixBox_run (s := { t with
      libs := fun b => if b = s.next then { t.libs s.next with elements := [s.next + 1] } else t.libs b
      data := { fileName := s.fileName, fileFormat := .msk, libraries := s.data.libraries ++ [s.next] } })
    (l := s.next) (e := s.next + 1) (g := g) (gs := gs) (more := []) (els := []) (by rw [hempty]; rfl)
    ((hlive _).mpr (.inr (by simp))) (by simp) ((hlive _).mpr (.inr (by simp))) (by dsimp only; rw [hE]; exact hg)
    (by
      rw [← hg]
      intro x hx
      exact (hlive _).mpr (.inr (List.mem_cons_of_mem _ (List.mem_cons_of_mem _ (List.mem_append_left _ hx)))))
  rw [h h2]
  unfold M.tryCatch
  rw [M.run_bind_ok hfix, M.run_bind_ok (M.run_modify _ _), M.run_pure]
  have hne : ∀ b, b < s.next → b ≠ s.next ∧ b ≠ s.next + 1 := fun b hb => ⟨by omega, by omega⟩
  have hu := inv_untouched hi
  have hgeo : (g :: gs).map t.geos = (delivered fails ps).map Item.box := by
    rw [← hg, ← hk', List.map_map, List.map_map]
    apply List.map_congr_left
    intro p hp
    exact hi.boxes p (List.mem_filter.mp hp).1
  refine ⟨_, s.next, s.next + 1, P, T, rfl,
    { fileName := rfl, fileFormat := rfl, libraries := rfl
      libName := ?_, elements := ?_, elName := ?_, nodup := hi.nodup, boxes := hi.boxes, geometries := ?_, layers := ?_, text := hi.text
      memory := ⟨hn, ?_, hlive⟩, dangling := ?_ }, ⟨fun b hb => ?_, fun b hb => ?_, hu.geos⟩, hP, hT, ?_, ?_, ?_, rfl, ?_, ?_⟩
  · simp only [if_true]; rw [inv_libs hi]
  · simp only [if_true]
  · simp only [if_true]; rw [hE]
  · simp only [if_true]; rw [hE]
  · intro n
    have := hi.layers n
    unfold layerPointers at this ⊢
    simp only [if_true]
    exact this
  · intro a hm
    simp only [List.mem_cons, List.mem_append] at hm
    rcases hm with hm | hm | hm | hm
    · omega
    · omega
    · have : s.next + 2 ≤ a := (hi.range a (List.mem_append_left _ ((kept_sub P).subset hm))).1
      omega
    · have : s.next + 2 ≤ a := (hi.range a (List.mem_append_right _ hm)).1
      omega
  · intro p hp hf
    dsimp only
    have hra : s.next + 2 ≤ p.1 := (hi.range p.1 (List.mem_append_left _ (List.mem_map_of_mem hp))).1
    cases hl : t.live p.1 with
    | false => rfl
    | true =>
      exfalso
      rcases (hlive _).mp hl with h | h
      · rw [hr.fresh _ (by omega)] at h; cases h
      · simp only [List.mem_cons, List.mem_append] at h
        rcases h with h | h | h | h
        · omega
        · omega
        · obtain ⟨q, hq, hqp⟩ := List.mem_map.mp h
          have hq' := List.mem_filter.mp hq
          have hinj := List.inj_on_of_nodup_map (List.nodup_append.mp hi.nodup).1
          have := hinj hq'.1 hp hqp
          rw [this, hf] at hq'
          exact absurd hq'.2 (by simp)
        · exact (List.nodup_append.mp hi.nodup).2.2 p.1 (List.mem_map_of_mem hp) p.1 h rfl
  · simp only [if_neg (hne b hb).1]
    exact hu.libs b hb
  · simp only [if_neg (hne b hb).2]
    exact hu.elems b hb
  · simp only [if_true]
    rw [← hgeo]
    exact henc
  · have := congrArg St.activeLibrary hi.frame
    exact this
  · have := congrArg St.activeElement hi.frame
    exact this
  · have := congrArg St.fileName hi.frame
    exact this
  · intro a hna
    have ha' : t.next ≤ a := hna
    have hle : s.next + 2 ≤ t.next := hi.next_le
    dsimp only
    cases hl : t.live a with
    | false => rfl
    | true =>
      exfalso
      rcases (hlive a).mp hl with h1 | h1
      · rw [hr.fresh a (by omega)] at h1; cases h1
      · simp only [List.mem_cons, List.mem_append] at h1
        rcases h1 with h1 | h1 | h1 | h1
        · omega
        · omega
        · have := (hi.range a (List.mem_append_left _ ((kept_sub P).subset h1))).2; omega
        · have := (hi.range a (List.mem_append_right _ h1)).2; omega

/-- the outcome, whatever boxes the last step puts in elements -/
theorem outcome83 {s t s' : St} {ename lname : List UInt8} {P : List (Nat × Item × Bool)} {T : List Nat}
    (hi : Inv (started s ename lname) s.next (s.next + 1) t P T) (hfresh : ∀ a, s.next ≤ a → s.live a = false)
    (h1 : s'.live = t.live) (h2 : s'.geos = t.geos) (h3 : s'.libs s.next = { t.libs s.next with elements := [s.next + 1] })
    (h4 : s'.data = { fileName := s.fileName, fileFormat := .msk, libraries := s.data.libraries ++ [s.next] })
    (h5 : (s'.elems (s.next + 1)).name = (t.elems (s.next + 1)).name)
    (h6 : (s'.elems (s.next + 1)).geometries = (t.elems (s.next + 1)).geometries) :
    Outcome s s' ename lname s.next (s.next + 1) P T := by
  have hE := inv_elems hi
  have hlive := inv_live hi
  refine { fileName := by rw [h4], fileFormat := by rw [h4], libraries := by rw [h4]
           libName := ?_, elements := ?_, elName := ?_, nodup := hi.nodup, boxes := ?_, geometries := ?_, layers := ?_, text := ?_
           memory := ⟨inv_nodup hi, ?_, ?_⟩, dangling := ?_ }
  · rw [h3, inv_libs hi]
  · rw [h3]
  · rw [h5, hE]
  · rw [h2]; exact hi.boxes
  · rw [h6, hE]
  · intro n
    have := hi.layers n
    unfold layerPointers at this ⊢
    rw [h3]
    exact this
  · rw [h2]; exact hi.text
  · intro a hm
    simp only [List.mem_cons, List.mem_append] at hm
    rcases hm with hm | hm | hm | hm
    · omega
    · omega
    · have : s.next + 2 ≤ a := (hi.range a (List.mem_append_left _ ((kept_sub P).subset hm))).1
      omega
    · have : s.next + 2 ≤ a := (hi.range a (List.mem_append_right _ hm)).1
      omega
  · rw [h1]; exact hlive
  · intro p hp hf
    rw [h1]
    have hra : s.next + 2 ≤ p.1 := (hi.range p.1 (List.mem_append_left _ (List.mem_map_of_mem hp))).1
    cases hl : t.live p.1 with
    | false => rfl
    | true =>
      exfalso
      rcases (hlive _).mp hl with h | h
      · rw [hfresh _ (by omega)] at h; cases h
      · simp only [List.mem_cons, List.mem_append] at h
        rcases h with h | h | h | h
        · omega
        · omega
        · obtain ⟨q, hq, hqp⟩ := List.mem_map.mp h
          have hq' := List.mem_filter.mp hq
          have hinj := List.inj_on_of_nodup_map (List.nodup_append.mp hi.nodup).1
          have := hinj hq'.1 hp hqp
          rw [this, hf] at hq'
          exact absurd hq'.2 (by simp)
        · exact (List.nodup_append.mp hi.nodup).2.2 p.1 (List.mem_map_of_mem hp) p.1 h rfl

/-- **C83** Reading into a layout that already has libraries, in the cases of C83_true: the library is added at the end in the same way,
but the box that is computed is that of the first element of the first library, from its own geometries; the new element keeps the box
(-1,-1),(-1,-1) - even if it has no box at all, which is undefined behaviour with an empty layout.  Nothing else that was there changes. -/
theorem C83_second (env : Env) (fails : Point → Bool) (s : St) (content ename lname : List UInt8) (hr : Ready env s content ename lname)
    (ls : List (List UInt8)) (hl : Lines content ls) (ps : List Line) (hp : List.Forall₂ Holds ls ps) (he : early fails = false)
    (ha : aborts fails 0 ps = false) (h1 : fails .listElement = false) (h2 : fails .listLibrary = false)
    (l e g : Nat) (more els gs : List Nat) (d1 : s.data.libraries = l :: more) (d2 : (s.libs l).elements = e :: els)
    (d3 : (s.elems e).geometries = g :: gs) (v1 : s.live l = true) (v2 : s.live e = true) (v3 : ∀ x ∈ g :: gs, s.live x = true) :
    ∃ s' lib el P T, Msk.Mem.read env fails false s = .ok true s' ∧ Outcome s s' ename lname lib el P T ∧
      P.map Prod.snd = boxes fails 0 ps ∧ T.length = titles fails 0 ps ∧
      (s'.elems el).min = ⟨-1, -1⟩ ∧ (s'.elems el).max = ⟨-1, -1⟩ ∧
      Encloses (s'.elems e).min (s'.elems e).max ((g :: gs).map s.geos) ∧
      (s'.elems e).name = (s.elems e).name ∧ (s'.elems e).geometries = g :: gs ∧
      (∀ b, b < s.next → s'.libs b = s.libs b ∧ s'.geos b = s.geos b ∧ (b ≠ e → s'.elems b = s.elems b)) := by
  obtain ⟨t, P, T, hi, hP, hT, _, h⟩ := finish83 hr hl hp he ha h1
  have old : ∀ a, s.live a = true → a < s.next := by
    intro a h
    by_contra hc
    rw [hr.fresh a (by omega)] at h
    cases h
  have hlive : ∀ a, s.live a = true → t.live a = true := fun a h => (inv_live hi a).mpr (.inl h)
  have hu := inv_untouched hi
  have el := old l v1
  have ee := old e v2
  obtain ⟨mn, mx, henc, hfix⟩ := fixBox_run (s := { t with
      libs := fun b => if b = s.next then { t.libs s.next with elements := [s.next + 1] } else t.libs b
      data := { fileName := s.fileName, fileFormat := .msk, libraries := s.data.libraries ++ [s.next] } })
    (l := l) (e := e) (g := g) (gs := gs) (more := more ++ [s.next]) (els := els) (by rw [d1]; rfl)
    (hlive _ v1) (by simp only [if_neg (Nat.ne_of_lt el)]; rw [hu.libs l el, d2]) (hlive _ v2) (by dsimp only; rw [hu.elems e ee, d3])
    (fun x hx => hlive x (v3 x hx))
  rw [h h2]
  unfold M.tryCatch
  rw [M.run_bind_ok hfix, M.run_bind_ok (M.run_modify _ _), M.run_pure]
  have hne : s.next + 1 ≠ e := by omega
  refine ⟨_, s.next, s.next + 1, P, T, rfl, outcome83 hi hr.fresh rfl rfl (by simp only [if_true]) rfl (by simp only [if_neg hne])
    (by simp only [if_neg hne]), hP, hT, ?_, ?_, ?_, ?_, ?_, fun b hb => ⟨?_, hu.geos b hb, fun hbe => ?_⟩⟩
  · simp only [if_neg hne]; rw [inv_elems hi]
  · simp only [if_neg hne]; rw [inv_elems hi]
  · simp only [if_true]
    have : (g :: gs).map s.geos = (g :: gs).map t.geos := by
      apply List.map_congr_left
      intro x hx
      exact (hu.geos x (old x (v3 x hx))).symm
    rw [this]
    exact henc
  · simp only [if_true]; rw [hu.elems e ee]
  · simp only [if_true]; rw [hu.elems e ee, d3]
  · simp only [if_neg (Nat.ne_of_lt hb)]; exact hu.libs b hb
  · simp only [if_neg hbe]; exact hu.elems b hb

/-- **C83** The layout of a successful `Read` can be destroyed, and then only what was there before and the texts of the titles are
left: they leak. -/
theorem C83_destroy (s s' : St) (ename lname : List UInt8) (lib el : Nat) (P : List (Nat × Item × Bool)) (T : List Nat)
    (h : Outcome s s' ename lname lib el P T) (hempty : s.data.libraries = []) (hfresh : ∀ a, s.next ≤ a → s.live a = false) :
    ∃ s'', destroy s' = .ok () s'' ∧ Grew s s'' T := by
  obtain ⟨m1, m2, m3⟩ := h.memory
  have hlib : s'.data.libraries = [lib] := by rw [h.libraries, hempty]; rfl
  have e1 : deleteLibrary lib s' = .ok () _ := deleteLibrary_one lib el s' ((m3 _).mpr (.inr (by simp))) h.elements
    ((m3 _).mpr (.inr (by simp)))
    (by rw [h.geometries]; exact (List.nodup_append.mp (List.nodup_cons.mp (List.nodup_cons.mp m1).2).2).1)
    (by
      rw [h.geometries]
      intro b hb
      exact (m3 _).mpr (.inr (List.mem_cons_of_mem _ (List.mem_cons_of_mem _ (List.mem_append_left _ hb)))))
  have e2 : destroy s' = .ok () { s' with live := fun b => s'.live b && !decide (b ∈ lib :: el :: (s'.elems el).geometries) } := by
    unfold destroy
    rw [hlib]
    unfold deleteLibraries
    rw [M.run_bind_ok e1]
    rfl
  refine ⟨_, e2, (List.nodup_append.mp (List.nodup_cons.mp (List.nodup_cons.mp m1).2).2).2.1, fun a ha => m2 a (by simp [ha]), fun a => ?_⟩
  dsimp only
  rw [Bool.and_eq_true, m3, h.geometries, Bool.not_eq_true', decide_eq_false_iff_not]
  have hcons : ∀ x, (x ∈ lib :: el :: ((P.filter fun p => p.2.2).map Prod.fst ++ T)) ↔
      x ∈ lib :: el :: (P.filter fun p => p.2.2).map Prod.fst ∨ x ∈ T := by
    intro x
    simp only [List.mem_cons, List.mem_append, or_assoc]
  rw [hcons]
  have hdis : ∀ x ∈ lib :: el :: (P.filter fun p => p.2.2).map Prod.fst, x ∉ T := by
    have : (lib :: el :: (P.filter fun p => p.2.2).map Prod.fst ++ T).Nodup := m1
    intro x hx hT
    exact (List.nodup_append.mp this).2.2 x hx x hT rfl
  constructor
  · rintro ⟨h1 | h1 | h1, h2⟩
    · exact .inl h1
    · exact absurd h1 h2
    · exact .inr h1
  · rintro (h1 | h1)
    · refine ⟨.inl h1, fun hm => ?_⟩
      rw [hfresh a (m2 a ((hcons a).mpr (.inl hm)))] at h1
      cases h1
    · exact ⟨.inr (.inr h1), fun hm => hdis a hm h1⟩

/-- **C83** A box that was put in its layer but that the element could not list is deleted, and the layer keeps pointing to it; apart
from such boxes, every pointer of every layer leads to a box that is there, of that layer, and that the element lists. -/
theorem C83_dangling (s s' : St) (ename lname : List UInt8) (lib el : Nat) (P : List (Nat × Item × Bool)) (T : List Nat)
    (h : Outcome s s' ename lname lib el P T) :
    (∀ i, (i, false) ∈ P.map Prod.snd → ∃ a ∈ layerPointers (s'.libs lib) i.box.layer, s'.live a = false) ∧
    ((∀ i, (i, false) ∉ P.map Prod.snd) → ∀ n, ∀ a ∈ layerPointers (s'.libs lib) n,
      s'.live a = true ∧ (s'.geos a).layer = n ∧ a ∈ (s'.elems el).geometries) := by
  constructor
  · intro i hi
    obtain ⟨p, hp, hpi⟩ := List.mem_map.mp hi
    refine ⟨p.1, ?_, h.dangling p hp (by rw [hpi])⟩
    refine (h.layers _).mem_iff.mpr (List.mem_map_of_mem (List.mem_filter.mpr ⟨hp, ?_⟩))
    rw [hpi]
    simp
  · intro hall n a ha
    obtain ⟨p, hp, hpa⟩ := List.mem_map.mp ((h.layers n).mem_iff.mp ha)
    obtain ⟨hp1, hp2⟩ := List.mem_filter.mp hp
    have hk : p.2.2 = true := by
      cases hc : p.2.2 with
      | true => rfl
      | false =>
        refine absurd ?_ (hall p.2.1)
        exact List.mem_map.mpr ⟨p, hp1, Prod.ext rfl hc⟩
    have hin : a ∈ (P.filter fun p => p.2.2).map Prod.fst := List.mem_map.mpr ⟨p, List.mem_filter.mpr ⟨hp1, by simp [hk]⟩, hpa⟩
    refine ⟨(h.memory.2.2 a).mpr (.inr (List.mem_cons_of_mem _ (List.mem_cons_of_mem _ (List.mem_append_left _ hin)))), ?_, ?_⟩
    · rw [← hpa, h.boxes p hp1]
      simpa using hp2
    · rw [h.geometries]
      exact hin

/-- the boxes of a line without failures -/
theorem boxIn_ok {fails : Point → Bool} {k : Nat} {part : Part} {o : Option Item} (h1 : fails (.fill k part) = false)
    (h2 : fails (.layer k part) = false) (h3 : fails (.element k part) = false) : boxIn fails k part o = o.toList.map fun i => (i, true) := by
  cases o with
  | none => rfl
  | some i => simp [boxIn, h1, h2, h3]

/-- **C83** A failure while a line is fetched ends reading silently: if that is the only failure, `Read` returns true with exactly the
boxes of the lines before it, all listed in their layers and in the element (provided there is one). -/
theorem C83_lost_lines (env : Env) (fails : Point → Bool) (s : St) (content ename lname : List UInt8) (hr : Ready env s content ename lname)
    (ls : List (List UInt8)) (hl : Lines content ls) (ps : List Line) (hp : List.Forall₂ Holds ls ps) (k : Nat)
    (hf : ∀ p, fails p = true ↔ p = .getline k) (hempty : s.data.libraries = [])
    (hsome : (ps.take k).flatMap (fun p => p.bb.toList ++ p.rect.toList) ≠ []) :
    ∃ s' lib el P T, Msk.Mem.read env fails false s = .ok true s' ∧ Outcome s s' ename lname lib el P T ∧
      P.map Prod.snd = ((ps.take k).flatMap fun p => p.bb.toList ++ p.rect.toList).map (fun i => (i, true)) ∧
      T.length = ((ps.take k).filter Line.title).length := by
  have hno : ∀ p, p ≠ .getline k → fails p = false := by
    intro p hp
    cases hc : fails p with
    | false => rfl
    | true => exact absurd ((hf p).mp hc) hp
  have hyes : fails (.getline k) = true := (hf _).mpr rfl
  have he : early fails = false := by
    unfold early
    simp [hno]
  have hst : ∀ j p, stops fails j p = false := by intro j p; simp [stops, hno]
  have key : ∀ (ps : List Line) (j : Nat), j ≤ k → aborts fails j ps = false ∧
      boxes fails j ps = ((ps.take (k - j)).flatMap fun p => p.bb.toList ++ p.rect.toList).map (fun i => (i, true)) ∧
      titles fails j ps = ((ps.take (k - j)).filter Line.title).length := by
    intro ps
    induction ps with
    | nil => intro j _; simp [aborts, boxes, titles]
    | cons p ps ih =>
      intro j hj
      unfold aborts boxes titles
      by_cases hjk : j = k
      · subst hjk
        simp [hyes]
      · have h1 : fails (.getline j) = false := hno _ (by simp [hjk])
        have hlt : k - j = (k - (j + 1)) + 1 := by omega
        obtain ⟨i1, i2, i3⟩ := ih (j + 1) (by omega)
        rw [h1, hst, i1, i2, i3, hlt, boxIn_ok (hno _ (by simp)) (hno _ (by simp)) (hno _ (by simp)),
          boxIn_ok (hno _ (by simp)) (hno _ (by simp)) (hno _ (by simp)), hno (.fill j .title) (by simp)]
        refine ⟨by simp, by simp, ?_⟩
        rw [List.take_succ_cons]
        cases hc : p.title <;> simp [hc, Nat.add_comm]
  obtain ⟨k1, k2, k3⟩ := key ps 0 (Nat.zero_le _)
  rw [Nat.sub_zero] at k2 k3
  obtain ⟨s', lib, el, P, T, e, ho, _, hP, hT, _⟩ := C83_true env fails s content ename lname hr ls hl ps hp he k1 (hno _ (by simp))
    (hno _ (by simp)) hempty (by
      unfold delivered
      rw [k2]
      simpa [List.filter_map, Function.comp_def] using hsome)
  exact ⟨s', lib, el, P, T, e, ho, by rw [hP, k2], by rw [hT, k3]⟩

/-- **C83** Without any failure every box of the file is in its layer and in the element, and one text is left over for every readable
title of the file. -/
theorem C83_no_failure (env : Env) (fails : Point → Bool) (s : St) (content ename lname : List UInt8) (hr : Ready env s content ename lname)
    (ls : List (List UInt8)) (hl : Lines content ls) (ps : List Line) (hp : List.Forall₂ Holds ls ps)
    (hf : ∀ p, fails p = false) (hempty : s.data.libraries = []) (hsome : ps.flatMap (fun p => p.bb.toList ++ p.rect.toList) ≠ []) :
    ∃ s' lib el P T, Msk.Mem.read env fails false s = .ok true s' ∧ Outcome s s' ename lname lib el P T ∧
      P.map Prod.snd = (ps.flatMap fun p => p.bb.toList ++ p.rect.toList).map (fun i => (i, true)) ∧
      T.length = (ps.filter Line.title).length := by
  have key : ∀ (ps : List Line) (j : Nat), aborts fails j ps = false ∧
      boxes fails j ps = (ps.flatMap fun p => p.bb.toList ++ p.rect.toList).map (fun i => (i, true)) ∧
      titles fails j ps = (ps.filter Line.title).length := by
    intro ps
    induction ps with
    | nil => intro j; simp [aborts, boxes, titles]
    | cons p ps ih =>
      intro j
      unfold aborts boxes titles
      obtain ⟨i1, i2, i3⟩ := ih (j + 1)
      rw [i1, i2, i3, boxIn_ok (hf _) (hf _) (hf _), boxIn_ok (hf _) (hf _) (hf _)]
      refine ⟨by simp [hf, stops], by simp [hf], ?_⟩
      cases hc : p.title <;> simp [hc, hf, stops, Nat.add_comm]
  obtain ⟨k1, k2, k3⟩ := key ps 0
  obtain ⟨s', lib, el, P, T, e, ho, _, hP, hT, _⟩ := C83_true env fails s content ename lname hr ls hl ps hp (by simp [early, hf]) k1 (hf _)
    (hf _) hempty (by
      unfold delivered
      rw [k2]
      simpa [List.filter_map, Function.comp_def] using hsome)
  exact ⟨s', lib, el, P, T, e, ho, by rw [hP, k2], by rw [hT, k3]⟩

/-- **C83** No exception leaves `Read`, whatever the files, the failures and the state. -/
theorem C83_no_throw (env : Env) (fails : Point → Bool) (null : Bool) (s : St) :
    ∀ x s', Msk.Mem.read env fails null s ≠ .throw x s' := by
  have dg : ∀ (gs : List Nat) (t : St) x t', deleteGeometries gs t ≠ .throw x t' := by
    intro gs
    induction gs with
    | nil => intro t x t' h; cases h
    | cons g gs ih =>
      intro t x t' h
      unfold deleteGeometries at h
      rw [M.run_bind] at h
      cases hd : deleteGeometry g t with
      | ub => rw [hd] at h; cases h
      | throw y u =>
        unfold deleteGeometry kill at hd
        split at hd <;> cases hd
      | ok y u => rw [hd] at h; exact ih _ _ _ h
  have de : ∀ (a : Nat) (t : St) x t', deleteElement a t ≠ .throw x t' := by
    intro a t x t' h
    unfold deleteElement at h
    split at h
    · rw [M.run_bind] at h
      cases hd : deleteGeometries (t.elems a).geometries t with
      | ub => rw [hd] at h; cases h
      | throw y u => exact dg _ _ _ _ hd
      | ok y u => rw [hd] at h; cases h
    · cases h
  have des : ∀ (as : List Nat) (t : St) x t', deleteElements as t ≠ .throw x t' := by
    intro as
    induction as with
    | nil => intro t x t' h; cases h
    | cons a as ih =>
      intro t x t' h
      unfold deleteElements at h
      rw [M.run_bind] at h
      cases hd : deleteElement a t with
      | ub => rw [hd] at h; cases h
      | throw y u => exact de _ _ _ _ hd
      | ok y u => rw [hd] at h; exact ih _ _ _ h
  have dl : ∀ (a : Nat) (t : St) x t', deleteLibrary a t ≠ .throw x t' := by
    intro a t x t' h
    unfold deleteLibrary at h
    split at h
    · rw [M.run_bind] at h
      cases hd : deleteElements (t.libs a).elements t with
      | ub => rw [hd] at h; cases h
      | throw y u => exact des _ _ _ _ hd
      | ok y u => rw [hd] at h; cases h
    · cases h
  have re : ∀ (o : Option Nat) (t : St) x t', dropElement o t ≠ .throw x t' := by
    intro o t x t' h
    cases o with
    | none => cases h
    | some e =>
      unfold dropElement at h
      dsimp only at h
      rw [M.run_bind] at h
      cases hd : deleteElement e t with
      | ub => rw [hd] at h; cases h
      | throw y u => exact de _ _ _ _ hd
      | ok y u => rw [hd] at h; cases h
  have rl : ∀ (o : Option Nat) (t : St) x t', dropLibrary o t ≠ .throw x t' := by
    intro o t x t' h
    cases o with
    | none => cases h
    | some e =>
      unfold dropLibrary at h
      dsimp only at h
      rw [M.run_bind] at h
      cases hd : deleteLibrary e t with
      | ub => rw [hd] at h; cases h
      | throw y u => exact dl _ _ _ _ hd
      | ok y u => rw [hd] at h; cases h
  intro x s' h
  unfold Msk.Mem.read at h
  split at h
  · cases h
  · unfold M.tryCatch at h
    split at h
    · cases h
    · rename_i t _
      dsimp only at h
      rw [M.run_bind] at h
      cases hd : recover t with
      | ub => rw [hd] at h; cases h
      | ok y u => rw [hd] at h; cases h
      | throw y u =>
        rw [recover_step t rfl rfl, M.run_bind] at hd
        cases he : dropElement t.activeElement { t with stuck := false, data := { t.data with fileFormat := .undefined } } with
        | ub => rw [he] at hd; cases hd
        | throw y u => exact re _ _ _ _ he
        | ok y u => rw [he] at hd; exact rl _ _ _ _ hd
    · cases h

/-- **C83** After a successful `Read` the reader still points to the library and the element of that layout.  If then a call (for any file
and any layout) runs out of memory while it opens the file or makes its library, it deletes that element twice; if it runs out of memory
when it makes its element, it returns false and has deleted the element of the first layout, which cannot be destroyed any more. -/
theorem C83_reuse (s s' : St) (ename lname : List UInt8) (lib el : Nat) (P : List (Nat × Item × Bool)) (T : List Nat)
    (h : Outcome s s' ename lname lib el P T) (hempty : s.data.libraries = []) (hl : s'.activeLibrary = some lib)
    (he : s'.activeElement = some el) (hs : s'.stuck = false) (hfresh : ∀ a, s'.next ≤ a → s'.live a = false) (env : Env)
    (fails : Point → Bool) (d : LayoutObj) :
    ((fails .pathString || fails .openStream) = true → Msk.Mem.read env fails false { s' with data := d } = .ub) ∧
    (∀ content, env.fs (narrow s'.fileName) = some content → (fails .pathString || fails .openStream) = false →
      (fails .newLibrary = true → Msk.Mem.read env fails false { s' with data := d } = .ub) ∧
      (fails .newLibrary = false → fails .newElement = true → ∃ s'', Msk.Mem.read env fails false { s' with data := d } = .ok false s'' ∧
        s''.live el = false ∧ (∀ a ∈ (s'.elems el).geometries, s''.live a = false) ∧ destroy { s'' with data := s'.data } = .ub)) := by
  have hub : ∀ t : St, t.activeLibrary = some lib → t.activeElement = some el → t.libs = s'.libs → recover t = .ub := by
    intro t h1 h2 h3
    exact recover_twice t lib el h1 h2 (by rw [h3, h.elements]; simp)
  constructor
  · intro hf
    unfold Msk.Mem.read readBody
    rw [if_neg (by simp)]
    have hopen : openFile env fails { s' with data := d } = .throw .badAlloc { s' with data := d } := by
      unfold openFile
      by_cases h1 : fails .pathString = true
      · exact M.run_bind_throw (ask_fail h1 _)
      · have h1' : fails .pathString = false := by simpa using h1
        rw [M.run_bind_ok (ask_ok h1' _), M.run_bind_ok (M.run_get _)]
        simp only [hs, Bool.false_eq_true, if_false]
        refine M.run_bind_throw (ask_fail ?_ _)
        simpa [h1'] using hf
    unfold M.tryCatch
    rw [M.run_bind_throw (M.run_bind_throw hopen)]
    exact M.run_bind_ub (hub _ hl he rfl)
  · intro content hfile hopen
    have ho : fails .pathString = false ∧ fails .openStream = false := by simpa using hopen
    have hof : openFile env fails { s' with data := d } = .ok (fileLines content) { s' with data := d } := by
      unfold openFile
      rw [M.run_bind_ok (ask_ok ho.1 _), M.run_bind_ok (M.run_get _)]
      simp only [hs, Bool.false_eq_true, if_false]
      rw [M.run_bind_ok (ask_ok ho.2 _), hfile]
      rfl
    refine ⟨fun h1 => ?_, fun h1 h2 => ?_⟩
    · unfold Msk.Mem.read readBody
      rw [if_neg (by simp)]
      have hb : begin env fails { s' with data := d } = .throw .badAlloc { s' with data := d } := by
        unfold begin
        exact M.run_bind_throw (alloc_fail h1 _)
      unfold M.tryCatch
      rw [M.run_bind_throw ((M.run_bind_ok hof).trans (M.run_bind_throw hb))]
      exact M.run_bind_ub (hub _ hl he rfl)
    · obtain ⟨m1, m2, m3⟩ := h.memory
      obtain ⟨t, ht⟩ : ∃ t : St, t = { s' with
        data := d
        next := s'.next + 1
        live := fun b => if b = s'.next then true else s'.live b
        activeLibrary := some s'.next
        libs := fun b => if b = s'.next then {} else s'.libs b } := ⟨_, rfl⟩
      have hb : begin env fails { s' with data := d } = .throw .badAlloc t := by
        rw [ht]
        unfold begin
        rw [M.run_bind_ok (alloc_ok h1 _), M.run_bind_ok (M.run_modify _ _)]
        exact M.run_bind_throw (alloc_fail h2 _)
      have hlive : ∀ a ∈ el :: (s'.elems el).geometries, s'.live a = true := by
        intro a ha
        rw [h.geometries] at ha
        refine (m3 a).mpr (.inr ?_)
        rcases List.mem_cons.mp ha with ha | ha
        · simp [ha]
        · exact List.mem_cons_of_mem _ (List.mem_cons_of_mem _ (List.mem_append_left _ ha))
      have hne : ∀ a ∈ el :: (s'.elems el).geometries, a ≠ s'.next := by
        intro a ha hc
        have := hlive a ha
        rw [hfresh a (by omega)] at this
        cases this
      have hlib : lib ≠ s'.next := by
        intro hc
        have : s'.live lib = true := (m3 lib).mpr (.inr (by simp))
        rw [hfresh lib (by omega)] at this
        cases this
      have hrec := recover_both t s'.next el (by rw [ht]) (by rw [ht]; exact he) (by rw [ht]; exact if_pos rfl)
        (by rw [ht]; exact congrArg LibObj.elements (if_pos rfl))
        (by rw [ht]; dsimp only; rw [if_neg (hne el (by simp))]; exact hlive el (by simp))
        (by rw [ht]; dsimp only; rw [h.geometries]; exact (List.nodup_append.mp (List.nodup_cons.mp (List.nodup_cons.mp m1).2).2).1)
        (by
          rw [ht]
          intro b hb
          have hb' := List.mem_cons_of_mem el hb
          dsimp only
          rw [if_neg (hne b hb')]
          exact hlive b hb')
        (by rw [ht]; exact fun hm => hne _ hm rfl)
      refine ⟨{ t with
        stuck := false
        data := { t.data with fileFormat := .undefined }
        live := fun b => t.live b && !decide (b ∈ s'.next :: el :: (t.elems el).geometries)
        activeElement := none
        activeLibrary := none }, ?_, ?_, ?_, ?_⟩
      · unfold Msk.Mem.read readBody
        rw [if_neg (by simp)]
        unfold M.tryCatch
        rw [M.run_bind_throw ((M.run_bind_ok hof).trans (M.run_bind_throw hb))]
        exact (M.run_bind_ok hrec).trans rfl
      · simp
      · intro a ha
        have : a ∈ (t.elems el).geometries := by rw [ht]; exact ha
        simp [this]
      · unfold destroy
        have : s'.data.libraries = [lib] := by rw [h.libraries, hempty]; rfl
        dsimp only
        rw [this]
        unfold deleteLibraries
        refine M.run_bind_ub (deleteLibrary_ub lib el _ ?_ ?_)
        · rw [ht]
          dsimp only
          rw [if_neg hlib, h.elements]
          simp
        · simp

/-! ### examples -/

theorem ex83_keywords {l : List UInt8} {p : Line} (o : List Item) (h : LineGives l o) (ho : o = p.bb.toList ++ p.rect.toList)
    (hb : p.hasBB = decide (bytes "BB" <:+: strip l)) (hr : p.hasRec = decide (bytes "REC" <:+: strip l))
    (ht : p.hasTitle = decide (bytes "TITLE" <:+: strip l)) (hbr : p.hasBB = false ∨ p.hasRec = false) (hn : p.hasBB = true → p.rect = none)
    (hn' : p.hasBB = false → p.bb = none)
    (hti : p.title = true ↔ p.hasTitle = true ∧ ∀ t, CText (strip l) t → ¬ Unreadable (bytes "TITLE") t) : Holds l p := by
  obtain ⟨o1, o2, h1, h2, h3, h4⟩ := h
  subst h4
  have hb' : p.hasBB = true ↔ bytes "BB" <:+: strip l := by rw [hb]; simp
  have hr' : p.hasRec = true ↔ bytes "REC" <:+: strip l := by rw [hr]; simp
  have e : o1 = p.bb ∧ o2 = p.rect := by
    cases hc : p.hasBB with
    | false =>
      have : o1 = none := by
        refine bb_none h1 ?_
        intro hx
        rw [hb'.mpr hx] at hc
        cases hc
      rw [this, hn' hc] at ho
      rw [this, hn' hc]
      refine ⟨rfl, ?_⟩
      cases o2 <;> cases hp : p.rect <;> simp_all
    | true =>
      have : o2 = none := by
        refine rec_none h2 ?_
        intro hx
        rcases hbr with hbr | hbr
        · rw [hc] at hbr; cases hbr
        · rw [hr'.mpr hx] at hbr; cases hbr
      rw [this, hn hc] at ho
      rw [this, hn hc]
      refine ⟨?_, rfl⟩
      cases o1 <;> cases hp : p.bb <;> simp_all
  exact ⟨e.1 ▸ h1, e.2 ▸ h2, h3, hb', hr', by rw [ht]; simp, hti⟩

/-- the text of the examples: a title, a `BB` line and a rectangle -/
def ex83Text : List UInt8 := bytes "TITLE 1 2 #T\nBB(0, 0,9,8)\nREC(1,2,3,4,ME)"

theorem ex83_lines : Lines ex83Text [bytes "TITLE 1 2 #T", bytes "BB(0, 0,9,8)", bytes "REC(1,2,3,4,ME)"] := by
  have : fileLines ex83Text = [bytes "TITLE 1 2 #T", bytes "BB(0, 0,9,8)", bytes "REC(1,2,3,4,ME)"] := by decide +kernel
  rw [← this]
  exact lines_total _

/-- what the lines hold -/
def ex83Line1 : Line := { hasTitle := true, title := true }
def ex83Line2 : Line := { bb := some ⟨true, bytes "BB", boxOf 0 0 9 8 (-5)⟩, hasBB := true }
def ex83Line3 : Line := { rect := some ⟨false, bytes "ME", boxOf 1 2 4 6 23⟩, hasRec := true }

theorem ex83_scan : ∃ d, scan titleFormat (cstr (strip (bytes "TITLE 1 2 #T"))) = .ok d ∧ d.isZero = false := by
  cases h : scan titleFormat (cstr (strip (bytes "TITLE 1 2 #T"))) with
  | ok d =>
    refine ⟨d, rfl, ?_⟩
    have : (match scan titleFormat (cstr (strip (bytes "TITLE 1 2 #T"))) with | .ok d => d.isZero | _ => true) = false := by decide +kernel
    rw [h] at this
    exact this
  | throw e =>
    have : (match scan titleFormat (cstr (strip (bytes "TITLE 1 2 #T"))) with | .ok _ => true | _ => false) = true := by decide +kernel
    rw [h] at this
    cases this
  | ub =>
    have : (match scan titleFormat (cstr (strip (bytes "TITLE 1 2 #T"))) with | .ok _ => true | _ => false) = true := by decide +kernel
    rw [h] at this
    cases this

theorem ex83_title : LineGives (bytes "TITLE 1 2 #T") [] ∧
    ∀ t, CText (strip (bytes "TITLE 1 2 #T")) t → ¬ Unreadable (bytes "TITLE") t := by
  obtain ⟨d, hd, hz⟩ := ex83_scan
  refine ⟨⟨none, none, .absent (by decide +kernel), .absent (by decide +kernel), fun _ t ht ho => ?_, rfl⟩, fun t ht hu => ?_⟩
  · rw [← text_cstr ht] at ho
    rw [title_sound ho] at hd
    cases hd
  · rw [← text_cstr ht] at hu
    rw [(title_zero hd).mpr hu] at hz
    cases hz

theorem ex83_holds : List.Forall₂ Holds [bytes "TITLE 1 2 #T", bytes "BB(0, 0,9,8)", bytes "REC(1,2,3,4,ME)"]
    [ex83Line1, ex83Line2, ex83Line3] := by
  refine .cons ?_ (.cons ?_ (.cons ?_ .nil))
  · exact ex83_keywords _ ex83_title.1 rfl (by decide +kernel) (by decide +kernel) (by decide +kernel) (.inl rfl) (fun h => by cases h)
      (fun _ => rfl) ⟨fun _ => ⟨rfl, ex83_title.2⟩, fun _ => rfl⟩
  · exact ex83_keywords _ ex_bb rfl (by decide +kernel) (by decide +kernel) (by decide +kernel) (.inr rfl) (fun _ => rfl)
      (fun h => by cases h) ⟨fun h => (by cases h), fun h => (by cases h.1)⟩
  · exact ex83_keywords _ (rect_gives ⟨1, 2, 3, 4, "ME"⟩ 23 .me (by unfold RectFits inI32; decide) _ (by decide +kernel)) rfl
      (by decide +kernel) (by decide +kernel) (by decide +kernel) (.inl rfl) (fun h => by cases h) (fun _ => rfl)
      ⟨fun h => (by cases h), fun h => (by cases h.1)⟩

/-- an empty memory with an object of the caller at address 3 -/
def ex83St : St where
  next := 4
  live := fun a => a = 3
  libs := fun _ => {}
  elems := fun _ => {}
  geos := fun _ => { type := .text }
  fileName := exName
  data := {}

theorem ex83_ready : Ready (exEnv ex83Text) ex83St ex83Text (lit "x") (lit "d/x.msk") where
  stuck := rfl
  file := (ex_ready ex83Text [] fun _ => {}).file
  ename := (ex_ready ex83Text [] fun _ => {}).ename
  lname := (ex_ready ex83Text [] fun _ => {}).lname
  library := rfl
  element := rfl
  fresh := by
    intro a ha
    have ha' : 4 ≤ a := ha
    simp only [ex83St, decide_eq_false_iff_not]
    omega

/-- `Point` as a test -/
def only (p : Point) : Point → Bool := fun q => q = p

/-- C83_false at work: the rectangle object cannot be made; the title's text stays. -/
example : ∃ s' T, Msk.Mem.read (exEnv ex83Text) (only (.newObject 2 .rect)) false ex83St = .ok false s' ∧ s'.data.libraries = [] ∧
    T.length = 1 ∧ Grew ex83St s' T := by
  obtain ⟨s', T, h1, h2, _, _, _, h3, _, h4, _⟩ := C83_false (exEnv ex83Text) (only (.newObject 2 .rect)) ex83St _ _ _ ex83_ready _ ex83_lines _
    ex83_holds (.inr (.inl (by decide +kernel)))
  exact ⟨s', T, h1, h2, h4.trans (by decide +kernel), h3⟩

/-- C83_double_delete at work. -/
example : Msk.Mem.read (exEnv ex83Text) (only .listLibrary) false ex83St = .ub :=
  C83_double_delete _ _ _ _ _ _ ex83_ready _ ex83_lines _ ex83_holds (by decide +kernel) (by decide +kernel) (by decide +kernel)
    (by decide +kernel)

/-- C83_nothing at work: the second line cannot be fetched, so there is no box. -/
example : Msk.Mem.read (exEnv ex83Text) (only (.getline 1)) false ex83St = .ub :=
  C83_nothing _ _ _ _ _ _ ex83_ready _ ex83_lines _ ex83_holds (by decide +kernel) (by decide +kernel) (by decide +kernel)
    (by decide +kernel) rfl (by decide +kernel)

/-- C83_true, C83_dangling, C83_destroy and C83_reuse at work: the element cannot list the rectangle. -/
example : ∃ s' lib el P T, Msk.Mem.read (exEnv ex83Text) (only (.element 2 .rect)) false ex83St = .ok true s' ∧
    Outcome ex83St s' (lit "x") (lit "d/x.msk") lib el P T ∧
    (s'.elems el).geometries.length = 1 ∧ (∃ a ∈ layerPointers (s'.libs lib) 23, s'.live a = false) ∧
    (∃ s'', destroy s' = .ok () s'' ∧ Grew ex83St s'' T) ∧
    Msk.Mem.read (exEnv ex83Text) (only .newLibrary) false { s' with data := {} } = .ub := by
  obtain ⟨s', lib, el, P, T, h1, h2, _, h3, _, _, h4, h5, h6, h7, h8⟩ := C83_true (exEnv ex83Text) (only (.element 2 .rect)) ex83St _ _ _
    ex83_ready _ ex83_lines _ ex83_holds (by decide +kernel) (by decide +kernel) (by decide +kernel) (by decide +kernel) rfl
    (by decide +kernel)
  have hb : boxes (only (.element 2 .rect)) 0 [ex83Line1, ex83Line2, ex83Line3] =
      [(⟨true, bytes "BB", boxOf 0 0 9 8 (-5)⟩, true), (⟨false, bytes "ME", boxOf 1 2 4 6 23⟩, false)] := by decide +kernel
  refine ⟨s', lib, el, P, T, h1, h2, ?_, ?_, C83_destroy _ _ _ _ _ _ _ _ h2 rfl ex83_ready.fresh, ?_⟩
  · have hk := congrArg List.length (kept_map P)
    rw [h3, hb] at hk
    rw [h2.geometries, List.length_map]
    simpa using hk
  · exact (C83_dangling _ _ _ _ _ _ _ _ h2).1 ⟨false, bytes "ME", boxOf 1 2 4 6 23⟩ (by rw [h3, hb]; simp)
  · refine ((C83_reuse _ _ _ _ _ _ _ _ h2 rfl h4 h5 h6 h8 (exEnv ex83Text) (only .newLibrary) {}).2 ex83Text ?_ (by decide +kernel)).1
      (by decide +kernel)
    rw [h7]
    exact ex83_ready.file

/-- C83_lost_lines at work: the third line cannot be fetched; `Read` returns true without the rectangle. -/
example : ∃ s' lib el P T, Msk.Mem.read (exEnv ex83Text) (only (.getline 2)) false ex83St = .ok true s' ∧
    Outcome ex83St s' (lit "x") (lit "d/x.msk") lib el P T ∧ P.length = 1 ∧ T.length = 1 := by
  obtain ⟨s', lib, el, P, T, h1, h2, h3, h4⟩ := C83_lost_lines (exEnv ex83Text) (only (.getline 2)) ex83St _ _ _
    ex83_ready _ ex83_lines _ ex83_holds 2 (by intro p; simp [only]) rfl (by decide +kernel)
  refine ⟨s', lib, el, P, T, h1, h2, ?_, h4.trans (by decide +kernel)⟩
  have := congrArg List.length h3
  rw [List.length_map] at this
  exact this.trans (by decide +kernel)

/-- C83_no_failure at work. -/
example : ∃ s' lib el P T, Msk.Mem.read (exEnv ex83Text) (fun _ => false) false ex83St = .ok true s' ∧
    Outcome ex83St s' (lit "x") (lit "d/x.msk") lib el P T ∧ P.length = 2 ∧ T.length = 1 := by
  obtain ⟨s', lib, el, P, T, h1, h2, h3, h4⟩ := C83_no_failure (exEnv ex83Text) (fun _ => false) ex83St _ _ _
    ex83_ready _ ex83_lines _ ex83_holds (fun _ => rfl) rfl (by decide +kernel)
  refine ⟨s', lib, el, P, T, h1, h2, ?_, h4.trans (by decide +kernel)⟩
  have := congrArg List.length h3
  rw [List.length_map] at this
  exact this.trans (by decide +kernel)

/-- **C83** Without a layout `Read` returns false and does nothing but close the stream, also when memory is short and when a layout was read
before. -/
theorem C83_null (env : Env) (fails : Point → Bool) (s : St) :
    Msk.Mem.read env fails true s = .ok false { s with stuck := false } := by
  unfold Msk.Mem.read
  rw [if_pos rfl]
  rfl

/-- **C83** A stream left open by `IsMyFormat` (an empty file was offered, C50): `Read` sees no line of the file that was meant, whatever is in
it, and with enough memory and an empty layout it is undefined. -/
theorem C83_open_stream (env : Env) (fails : Point → Bool) (s : St) (ename lname : List UInt8) (hs : s.stuck = true)
    (hen : env.utf8 (elemName s.fileName) = some ename) (hln : env.utf8 s.fileName = some lname) (hempty : s.data.libraries = [])
    (hf : ∀ p, fails p = true → p = .openStream ∨ ∃ k, p = .getline k) : Msk.Mem.read env fails false s = .ub := by
  have hno : ∀ p, p ≠ .openStream → (∀ k, p ≠ .getline k) → fails p = false := by
    intro p h1 h2
    cases hc : fails p with
    | false => rfl
    | true => rcases hf p hc with h | ⟨k, h⟩ <;> simp_all
  unfold Msk.Mem.read readBody
  rw [if_neg (by simp)]
  unfold M.tryCatch
  have e1 : openFile env fails s = .ok [] s := by
    unfold openFile
    rw [M.run_bind_ok (ask_ok (hno _ (by simp) (by simp)) _), M.run_bind_ok (M.run_get _), if_pos hs, M.run_pure]
  have e2 := begin_ok (fails := fails) hen hln (hno _ (by simp) (by simp)) (hno _ (by simp) (by simp)) (hno _ (by simp) (by simp))
    (hno _ (by simp) (by simp)) (hno _ (by simp) (by simp))
  have e3 : finish fails s.next (s.next + 1) (started s ename lname) = .ub := by
    unfold finish
    rw [M.run_bind_ok (ask_ok (hno _ (by simp) (by simp)) _), M.run_bind_ok (M.run_modify _ _),
      M.run_bind_ok (ask_ok (hno _ (by simp) (by simp)) _), M.run_bind_ok (M.run_modify _ _), M.run_bind_ok (M.run_modify _ _)]
    unfold Mem.fixBox started
    simp [hempty]
  have e4 : (do
      let lines ← openFile env fails
      let (lib, el) ← begin env fails
      readLines env fails lib el 0 lines
      finish fails lib el : M St Unit) s = .ub := by
    rw [M.run_bind_ok e1, M.run_bind_ok e2]
    dsimp only
    unfold Mem.readLines
    rw [M.run_bind_ok (M.run_pure _ _)]
    exact e3
  rw [M.run_bind_ub e4]

/-- a layout that already has a library (0) with an element (1) with a box (2) -/
def ex83Old : St where
  next := 4
  live := fun a => a < 4
  libs := fun _ => { elements := [1] }
  elems := fun _ => { geometries := [2] }
  geos := fun _ => boxOf 1 2 3 4 7
  fileName := exName
  data := { libraries := [0] }

/-- C83_second at work: the second line cannot be fetched, so the new element has no box; with an empty layout this is undefined. -/
example : ∃ s' lib el P T, Msk.Mem.read (exEnv ex83Text) (only (.getline 1)) false ex83Old = .ok true s' ∧
    Outcome ex83Old s' (lit "x") (lit "d/x.msk") lib el P T ∧ P = [] ∧ (s'.elems el).min = ⟨-1, -1⟩ ∧ s'.data.libraries = [0, lib] := by
  have hr : Ready (exEnv ex83Text) ex83Old ex83Text (lit "x") (lit "d/x.msk") :=
    ⟨rfl, ex83_ready.file, ex83_ready.ename, ex83_ready.lname, rfl, rfl, fun a ha => by
      have ha' : 4 ≤ a := ha
      simp only [ex83Old, decide_eq_false_iff_not]
      omega⟩
  obtain ⟨s', lib, el, P, T, h1, h2, h3, _, h4, _⟩ := C83_second (exEnv ex83Text) (only (.getline 1)) ex83Old _ _ _ hr _ ex83_lines _ ex83_holds
    (by decide +kernel) (by decide +kernel) (by decide +kernel) (by decide +kernel) 0 1 2 [] [] [] rfl rfl rfl rfl rfl
    (by intro x hx; simp at hx; subst hx; rfl)
  refine ⟨s', lib, el, P, T, h1, h2, ?_, h4, h2.libraries⟩
  have : boxes (only (.getline 1)) 0 [ex83Line1, ex83Line2, ex83Line3] = [] := by decide +kernel
  rw [this] at h3
  exact List.map_eq_nil_iff.mp h3

/-- C83_open_stream at work: the file holds boxes, but the stream is still open on another one. -/
example : Msk.Mem.read (exEnv ex83Text) (fun _ => false) false { ex83St with stuck := true } = .ub :=
  C83_open_stream _ _ _ _ _ rfl ex83_ready.ename ex83_ready.lname rfl (fun _ h => absurd h (by simp))

end Verif.Props
