import Verif.Proofs.Msk2
import Verif.Spec.MskMemory

/-! The MSK reader with memory requests that fail: proofs for C83. -/

namespace Verif.Msk.Mem
open Verif Msk Scan Spec.Msk Spec.MskMem

/-! ### deleting -/

theorem deleteGeometries_ok : ∀ (as : List Nat) (s : St), as.Nodup → (∀ a ∈ as, s.live a = true) →
    deleteGeometries as s = .ok () { s with live := fun b => s.live b && !decide (b ∈ as) }
  | [], s, _, _ => by simp [deleteGeometries]
  | a :: as, s, hn, hl => by
    have h1 : deleteGeometry a s = .ok () { s with live := fun b => if b = a then false else s.live b } := by
      unfold deleteGeometry kill
      rw [if_pos (hl a List.mem_cons_self)]
    unfold deleteGeometries
    rw [M.run_bind_ok h1, deleteGeometries_ok as _ (List.nodup_cons.mp hn).2 (fun b hb => by
      have : b ≠ a := fun e => (List.nodup_cons.mp hn).1 (e ▸ hb)
      simp [this, hl b (List.mem_cons_of_mem _ hb)])]
    congr 2
    funext b
    by_cases hb : b = a <;> simp [hb]

theorem deleteGeometries_ub : ∀ (as : List Nat) (s : St) (a : Nat), a ∈ as → s.live a = false → deleteGeometries as s = .ub
  | [], _, _, h, _ => by simp at h
  | b :: as, s, a, h, hl => by
    unfold deleteGeometries
    by_cases hb : s.live b = true
    · have h1 : deleteGeometry b s = .ok () { s with live := fun c => if c = b then false else s.live c } := by
        unfold deleteGeometry kill
        rw [if_pos hb]
      rw [M.run_bind_ok h1]
      have hab : a ≠ b := fun e => by rw [e, hb] at hl; cases hl
      rcases List.mem_cons.mp h with e | h
      · exact absurd e hab
      · exact deleteGeometries_ub as _ a h (by simp [hab, hl])
    · refine M.run_bind_ub ?_
      unfold deleteGeometry
      rw [if_neg hb]

theorem deleteElement_ok (a : Nat) (s : St) (hl : s.live a = true) (hn : (s.elems a).geometries.Nodup)
    (hg : ∀ b ∈ (s.elems a).geometries, s.live b = true) :
    deleteElement a s = .ok () { s with live := fun b => s.live b && !decide (b ∈ a :: (s.elems a).geometries) } := by
  unfold deleteElement
  rw [if_pos hl, M.run_bind_ok (deleteGeometries_ok _ s hn hg)]
  unfold kill
  congr 2
  funext b
  by_cases hb : b = a <;> simp [hb]

theorem deleteElement_ub (a : Nat) (s : St) (hl : s.live a = false) : deleteElement a s = .ub := by
  unfold deleteElement
  rw [if_neg (by simp [hl])]

theorem deleteLibrary_nil (a : Nat) (s : St) (hl : s.live a = true) (he : (s.libs a).elements = []) :
    deleteLibrary a s = .ok () { s with live := fun b => if b = a then false else s.live b } := by
  unfold deleteLibrary
  rw [if_pos hl, he]
  rfl

theorem deleteLibrary_one (a e : Nat) (s : St) (hl : s.live a = true) (hel : (s.libs a).elements = [e]) (hle : s.live e = true)
    (hn : (s.elems e).geometries.Nodup) (hg : ∀ b ∈ (s.elems e).geometries, s.live b = true) :
    deleteLibrary a s = .ok () { s with live := fun b => s.live b && !decide (b ∈ a :: e :: (s.elems e).geometries) } := by
  unfold deleteLibrary
  rw [if_pos hl, hel]
  unfold deleteElements
  have : (do deleteElement e; deleteElements [] : M St Unit) s = _ := M.run_bind_ok (deleteElement_ok e s hle hn hg)
  rw [M.run_bind_ok (this.trans rfl)]
  unfold kill
  congr 2
  funext b
  by_cases hb : b = a <;> simp [hb]

theorem deleteLibrary_ub (a e : Nat) (s : St) (hel : e ∈ (s.libs a).elements) (hle : s.live e = false) :
    deleteLibrary a s = .ub := by
  have key : ∀ (es : List Nat) (s : St), e ∈ es → s.live e = false → deleteElements es s = .ub := by
    intro es
    induction es with
    | nil => intro s h; simp at h
    | cons b es ih =>
      intro s h hl
      unfold deleteElements
      by_cases hb : b = e
      · subst hb
        exact M.run_bind_ub (deleteElement_ub b s hl)
      · have h : e ∈ es := by
          rcases List.mem_cons.mp h with h | h
          · exact absurd h.symm hb
          · exact h
        cases hd : deleteElement b s with
        | ub => exact M.run_bind_ub hd
        | throw x s' =>
          exfalso
          revert hd
          unfold deleteElement
          split
          · rename_i hlb
            have : ∀ (gs : List Nat) (t : St), ¬ ∃ x t', deleteGeometries gs t = .throw x t' := by
              intro gs
              induction gs with
              | nil => rintro t ⟨x, t', h⟩; cases h
              | cons g gs ihg =>
                rintro t ⟨x, t', h⟩
                unfold deleteGeometries at h
                by_cases hg : t.live g = true
                · have h1 : deleteGeometry g t = .ok () { t with live := fun c => if c = g then false else t.live c } := by
                    unfold deleteGeometry kill
                    rw [if_pos hg]
                  rw [M.run_bind_ok h1] at h
                  exact ihg _ ⟨_, _, h⟩
                · rw [M.run_bind_ub (by unfold deleteGeometry; rw [if_neg hg])] at h
                  cases h
            intro hd
            cases hgs : deleteGeometries (s.elems b).geometries s with
            | ub => rw [M.run_bind_ub hgs] at hd; cases hd
            | throw x t => exact this _ _ ⟨_, _, hgs⟩
            | ok u t => rw [M.run_bind_ok hgs] at hd; unfold kill at hd; cases hd
          · intro hd; cases hd
        | ok u s' =>
          rw [M.run_bind_ok hd]
          apply ih _ h
          -- nothing comes back to life
          have dead : ∀ (gs : List Nat) (t t' : St) u, t.live e = false → deleteGeometries gs t = .ok u t' → t'.live e = false := by
            intro gs
            induction gs with
            | nil => intro t t' u h0 h; injection h with _ h; rw [← h]; exact h0
            | cons g gs ihg =>
              intro t t' u h0 h
              unfold deleteGeometries at h
              by_cases hg : t.live g = true
              · have h1 : deleteGeometry g t = .ok () { t with live := fun c => if c = g then false else t.live c } := by
                  unfold deleteGeometry kill
                  rw [if_pos hg]
                rw [M.run_bind_ok h1] at h
                refine ihg _ _ _ ?_ h
                dsimp only
                split
                · rfl
                · exact h0
              · rw [M.run_bind_ub (by unfold deleteGeometry; rw [if_neg hg])] at h
                cases h
          revert hd
          unfold deleteElement
          split
          · intro hd
            cases hgs : deleteGeometries (s.elems b).geometries s with
            | ub => rw [M.run_bind_ub hgs] at hd; cases hd
            | throw x t => rw [M.run_bind_throw hgs] at hd; cases hd
            | ok u t =>
              rw [M.run_bind_ok hgs] at hd
              unfold kill at hd
              injection hd with _ hd
              rw [← hd]
              dsimp only
              split
              · rfl
              · exact dead _ _ _ _ hl hgs
          · intro hd; cases hd
  unfold deleteLibrary
  split
  · exact M.run_bind_ub (key _ _ hel hle)
  · rfl

/-! ### what a section is told -/

/-- the effect of an item on the list of layers -/
def listIn (junk : Int) (i : Item) (a : Nat) (ls : List LayerObj) : List LayerObj :=
  if i.isBB then ls ++ [{ layer := i.box.layer, dataType := junk, name := i.name, geometries := [a] }]
  else addPtr junk i.box.layer i.name a ls

/-- the body of a box section once its text is understood -/
def boxBody (junk : Int) (fails : Point → Bool) (lib el k : Nat) (part : Part) (o : Option Item) (a : Nat) : M St Unit :=
  match o with
  | none => M.raise .runtimeError
  | some i => do
    ask fails (.fill k part)
    setGeo a i.box
    ask fails (.layer k part)
    setLayers lib (listIn junk i a)
    ask fails (.element k part)
    pushGeometry el a

theorem bb_body {env : Env} {fails : Point → Bool} {lib el k : Nat} {l : List UInt8} {o : Option Item} (h : BBGives l o)
    (hc : bytes "BB" <:+: l) (a : Nat) :
    boundingBoxBody env fails lib el k l a = boxBody env.junk fails lib el k .bb o a := by
  have hs := bb_sound (env := env) {} h hc
  unfold readBoundingBox at hs
  unfold boundingBoxBody
  cases hd : scan bbFormat (cstr l) with
  | throw e => rw [hd] at hs; cases hs
  | ub => rw [hd] at hs; cases hs
  | ok d =>
    rw [hd, Res.ok_bind] at hs
    funext s
    rw [M.run_bind_ok (M.run_lift_ok _ _)]
    by_cases hz : d.isZero = true
    · rw [if_pos hz] at hs ⊢
      cases o with
      | none => rfl
      | some i => injection hs with hs; exact absurd (congrArg (fun x => x.geoms.length) hs) (by simp [addItems, addItem])
    · rw [if_neg hz] at hs ⊢
      cases hf : fillBox ⟨d.intAt 0 0, d.intAt 1 0⟩ ⟨d.intAt 2 0, d.intAt 3 0⟩ (layerNum (lit "BB")) with
      | throw e => rw [hf] at hs; cases hs
      | ub => rw [hf] at hs; cases hs
      | ok box =>
        rw [hf, Res.ok_bind] at hs
        rw [M.run_bind_ok (M.run_lift_ok _ _)]
        cases o with
        | none => injection hs with hs; exact absurd (congrArg (fun x => x.geoms.length) hs) (by simp [addItems])
        | some i =>
          injection hs with hs
          have hg := congrArg Acc.geoms hs
          have hl := congrArg Acc.layers hs
          have hb : i.isBB = true := by cases h <;> rfl
          simp only [addItems, Option.toList_some, List.foldl_cons, List.foldl_nil, addItem, hb, if_true, List.nil_append,
            List.cons.injEq, Option.some.injEq, and_true, Layer.mk.injEq, true_and] at hg hl
          subst hg
          unfold boxBody listIn
          simp only [hb, if_true, ← hl.1, ← hl.2.1]

theorem rec_body {env : Env} {fails : Point → Bool} {lib el k : Nat} {l : List UInt8} {o : Option Item} (h : RecGives l o)
    (hc : bytes "REC" <:+: l) (a : Nat) :
    rectangleBody env fails lib el k l a = boxBody env.junk fails lib el k .rect o a := by
  have hs := rec_sound (env := env) {} h hc
  unfold readRectangle at hs
  unfold rectangleBody
  cases hd : parseRecLine l with
  | throw e => rw [hd] at hs; cases hs
  | ub => rw [hd] at hs; cases hs
  | ok d =>
    rw [hd, Res.ok_bind] at hs
    funext s
    rw [M.run_bind_ok (M.run_lift_ok _ _)]
    match d with
    | none =>
      cases o with
      | none => rfl
      | some i => injection hs with hs; exact absurd (congrArg (fun x => x.geoms.length) hs) (by simp [addItems, addItem])
    | some (lb, rt, name) =>
      dsimp only at hs ⊢
      by_cases hu : layerNum name = undefinedLayerNum
      · rw [if_pos hu] at hs ⊢
        cases o with
        | none => rfl
        | some i => injection hs with hs; exact absurd (congrArg (fun x => x.geoms.length) hs) (by simp [addItems, addItem])
      · rw [if_neg hu] at hs ⊢
        cases hf : fillBox lb rt (layerNum name) with
        | throw e => rw [hf] at hs; cases hs
        | ub => rw [hf] at hs; cases hs
        | ok box =>
          rw [hf, Res.ok_bind] at hs
          rw [M.run_bind_ok (M.run_lift_ok _ _)]
          cases o with
          | none => injection hs with hs; exact absurd (congrArg (fun x => x.geoms.length) hs) (by simp [addItems])
          | some i =>
            injection hs with hs
            have hg := congrArg Acc.geoms hs
            have hl := congrArg Acc.layers hs
            have hb : i.isBB = false := by cases h; rfl
            simp only [addItems, Option.toList_some, List.foldl_cons, List.foldl_nil, addItem, hb, Bool.false_eq_true, if_false,
              List.nil_append, List.cons.injEq, Option.some.injEq, and_true, addToLayer, Layer.mk.injEq, true_and] at hg hl
            subst hg
            unfold boxBody listIn
            simp only [hb, Bool.false_eq_true, if_false, ← hl.1, ← hl.2.1]

theorem title_zero {t : List UInt8} {d : Done} (h : scan titleFormat t = .ok d) : d.isZero = true ↔ Unreadable (bytes "TITLE") t := by
  rw [title_format] at h
  rcases scan_keyword (bytes "TITLE") [.ws, .int, .ws, .int, .ws, .chr 35, .str 64] t with ⟨hd, e⟩ | ⟨hp, hne, e⟩ | ⟨u, rfl, e⟩
  · rw [e] at h; injection h with h; subst h
    exact ⟨fun _ => .inl hd, fun _ => rfl⟩
  · rw [e] at h; injection h with h; subst h
    refine ⟨fun h => (by cases h), ?_⟩
    rintro (hd | ⟨u, hu, _⟩)
    · exact absurd hd (not_differs_prefix hp)
    · exfalso
      have := hp.length_le
      rw [hu] at this
      have : u = [] := by simpa using this
      subst this
      exact hne (by simpa using hu)
  · rw [e, scan_ws_int] at h
    rcases int_step u with ⟨hn, b, hb, hs⟩ | ⟨a, v, r, rfl, ha, hr⟩
    · rw [hs] at h; injection h with h; subst h
      constructor
      · intro hz
        have : b = false := by simpa [Done.isZero] using hz
        refine .inr ⟨u, rfl, hn, fun hbl => ?_⟩
        rw [hb.mpr hbl] at this
        cases this
      · rintro (hd | ⟨u', hu, _, hnb⟩)
        · exact absurd hd (not_differs_append _ _)
        · have : u = u' := by simpa using hu
          subst this
          have : b = false := by
            cases b
            · rfl
            · exact absurd (hb.mp rfl) hnb
          simp [Done.isZero, this]
    · rw [scan_field ha hr] at h
      split at h
      · constructor
        · intro hz
          exfalso
          cases hf : scan [.ws, .int, .ws, .chr 35, .str 64] r with
          | ok d' => rw [hf] at h; injection h with h; subst h; simp [Done.isZero] at hz
          | throw x => rw [hf] at h; cases h
          | ub => rw [hf] at h; cases h
        · rintro (hd | ⟨u', hu, hn, _⟩)
          · exact absurd hd (not_differs_append _ _)
          · have : a ++ r = u' := by simpa using hu
            subst this
            exact absurd hn (noField_not ha)
      · cases h

/-! ### the loop -/

/-- What is known during the loop, begun in `s0`: `P` are the boxes that reached their layer, with their addresses and whether the element
has them, `T` the texts. -/
structure Inv (s0 : St) (lib el : Nat) (s : St) (P : List (Nat × Item × Bool)) (T : List Nat) : Prop where
  frame : s = { s0 with
    next := s.next, live := s.live, geos := s.geos
    libs := fun b => if b = lib then { s0.libs lib with layers := (s.libs lib).layers } else s0.libs b
    elems := fun b => if b = el then { s0.elems el with geometries := (s.elems el).geometries } else s0.elems b }
  next_le : s0.next ≤ s.next
  nodup : (P.map Prod.fst ++ T).Nodup
  range : ∀ a ∈ P.map Prod.fst ++ T, s0.next ≤ a ∧ a < s.next
  live : ∀ a, s.live a = true ↔ s0.live a = true ∨ a ∈ (P.filter fun p => p.2.2).map Prod.fst ∨ a ∈ T
  boxes : ∀ p ∈ P, s.geos p.1 = p.2.1.box
  text : ∀ a ∈ T, (s.geos a).type = .text
  old : ∀ a, a < s0.next → s.geos a = s0.geos a
  layers : ∀ n, (layerPointers (s.libs lib) n).Perm (((P.filter fun p => p.2.1.box.layer = n)).map Prod.fst)
  elem : (s.elems el).geometries = (P.filter fun p => p.2.2).map Prod.fst

theorem addPtr_perm (junk num : Int) (name : List UInt8) (a : Nat) (n : Int) (ls : List LayerObj) :
    (((addPtr junk num name a ls).filter fun y => y.layer = n).flatMap LayerObj.geometries).Perm
      (((ls.filter fun y => y.layer = n).flatMap LayerObj.geometries) ++ if num = n then [a] else []) := by
  induction ls with
  | nil =>
    unfold addPtr
    by_cases h : num = n <;> simp [h]
  | cons l ls ih =>
    unfold addPtr
    split
    · rename_i h
      by_cases hn : l.layer = n
      · have hnum : num = n := h.trans hn
        simp only [List.filter_cons, hn, decide_true, if_true, List.flatMap_cons, hnum]
        rw [List.append_assoc, List.append_assoc]
        exact List.Perm.append_left _ List.perm_append_comm
      · have hnum : num ≠ n := fun e => hn (h ▸ e)
        simp [hn, hnum]
    · rename_i h
      by_cases hn : l.layer = n
      · have hnum : num ≠ n := fun e => h (e.trans hn.symm)
        simp only [List.filter_cons, hn, decide_true, if_true, List.flatMap_cons, if_neg hnum, List.append_nil]
        simp only [if_neg hnum, List.append_nil] at ih
        exact List.Perm.append_left _ ih
      · simpa [hn] using ih

theorem listIn_perm (junk : Int) (i : Item) (a : Nat) (n : Int) (ls : List LayerObj) :
    (((listIn junk i a ls).filter fun y => y.layer = n).flatMap LayerObj.geometries).Perm
      (((ls.filter fun y => y.layer = n).flatMap LayerObj.geometries) ++ if i.box.layer = n then [a] else []) := by
  unfold listIn
  split
  · rw [List.filter_append, List.flatMap_append]
    apply List.Perm.append_left
    by_cases h : i.box.layer = n <;> simp [h]
  · exact addPtr_perm _ _ _ _ _ _

theorem Inv.dead {s0 s : St} {lib el : Nat} {P : List (Nat × Item × Bool)} {T : List Nat} (h : Inv s0 lib el s P T)
    (h0 : ∀ a, s0.next ≤ a → s0.live a = false) : s.live s.next = false := by
  cases hl : s.live s.next with
  | false => rfl
  | true =>
    rcases (h.live s.next).mp hl with h1 | h1 | h1
    · rw [h0 _ h.next_le] at h1; cases h1
    · have := (h.range s.next (List.mem_append_left _ (by
        obtain ⟨p, hp, e⟩ := List.mem_map.mp h1
        exact e ▸ List.mem_map_of_mem (List.mem_filter.mp hp).1))).2
      omega
    · have := (h.range s.next (List.mem_append_right _ h1)).2
      omega

/-- `s'` differs from `s` only in what the loop changes -/
def Step (lib el : Nat) (s s' : St) : Prop := s' = { s with
    next := s'.next, live := s'.live, geos := s'.geos
    libs := fun b => if b = lib then { s.libs lib with layers := (s'.libs lib).layers } else s.libs b
    elems := fun b => if b = el then { s.elems el with geometries := (s'.elems el).geometries } else s.elems b }

theorem step_frame {s0 s s' : St} {lib el : Nat} (h : Step lib el s0 s) (h' : Step lib el s s') : Step lib el s0 s' := by
  unfold Step at *
  rw [h']
  conv_lhs => rw [h]
  simp only [St.mk.injEq, true_and]
  refine ⟨?_, ?_⟩
  · funext b
    by_cases hb : b = lib <;> simp [hb]
  · refine ⟨?_, trivial⟩
    funext b
    by_cases hb : b = el <;> simp [hb]

theorem step_refl (lib el : Nat) (s : St) : Step lib el s s := by
  unfold Step
  cases s
  simp only [St.mk.injEq, true_and]
  refine ⟨?_, ?_, trivial⟩ <;>
  · funext b
    split
    · rename_i h; subst h; rfl
    · rfl

/-- an address was used and given back, or used for something nobody lists -/
theorem Inv.skip {s0 s s' : St} {lib el : Nat} {P : List (Nat × Item × Bool)} {T : List Nat} (h : Inv s0 lib el s P T)
    (hst : Step lib el s s') (hn : s'.next = s.next + 1) (hl : ∀ b, s'.live b = s.live b) (hg : ∀ b, b ≠ s.next → s'.geos b = s.geos b)
    (hly : (s'.libs lib).layers = (s.libs lib).layers) (hel : (s'.elems el).geometries = (s.elems el).geometries) :
    Inv s0 lib el s' P T where
  frame := step_frame h.frame hst
  next_le := by rw [hn]; exact Nat.le_succ_of_le h.next_le
  nodup := h.nodup
  range := fun a ha => ⟨(h.range a ha).1, by rw [hn]; exact Nat.lt_succ_of_lt (h.range a ha).2⟩
  live := fun a => by rw [hl]; exact h.live a
  boxes := fun p hp => by
    rw [hg _ (by
      have := (h.range p.1 (List.mem_append_left _ (List.mem_map_of_mem hp))).2
      omega)]
    exact h.boxes p hp
  text := fun a ha => by
    rw [hg _ (by
      have := (h.range a (List.mem_append_right _ ha)).2
      omega)]
    exact h.text a ha
  old := fun a ha => by
    rw [hg _ (by have := h.next_le; omega)]
    exact h.old a ha
  layers := fun n => by unfold layerPointers; rw [hly]; exact h.layers n
  elem := by rw [hel]; exact h.elem

theorem Inv.fresh {s0 s : St} {lib el : Nat} {P : List (Nat × Item × Bool)} {T : List Nat} (h : Inv s0 lib el s P T) :
    s.next ∉ P.map Prod.fst ++ T := fun hm => by have := (h.range _ hm).2; omega

/-- a box was listed in its layer, and in the element if `keep` -/
theorem Inv.box {s0 s s' : St} {lib el : Nat} {P : List (Nat × Item × Bool)} {T : List Nat} (h : Inv s0 lib el s P T) (junk : Int) (i : Item)
    (keep : Bool) (hd : s.live s.next = false)
    (hst : Step lib el s s') (hn : s'.next = s.next + 1) (hl : ∀ b, s'.live b = if b = s.next then keep else s.live b)
    (hg : ∀ b, s'.geos b = if b = s.next then i.box else s.geos b)
    (hly : (s'.libs lib).layers = listIn junk i s.next (s.libs lib).layers)
    (hel : (s'.elems el).geometries = (s.elems el).geometries ++ if keep then [s.next] else []) :
    Inv s0 lib el s' (P ++ [(s.next, i, keep)]) T where
  frame := step_frame h.frame hst
  next_le := by rw [hn]; exact Nat.le_succ_of_le h.next_le
  nodup := by
    have h1 := h.fresh
    rw [List.map_append, List.append_assoc, List.map_cons, List.map_nil, List.singleton_append, List.nodup_middle]
    exact List.nodup_cons.mpr ⟨h1, h.nodup⟩
  range := fun a ha => by
    rw [hn]
    have hx : a ∈ P.map Prod.fst ++ T ∨ a = s.next := by
      simp only [List.map_append, List.map_cons, List.map_nil, List.mem_append, List.mem_singleton] at ha ⊢
      tauto
    rcases hx with hx | rfl
    · exact ⟨(h.range a hx).1, Nat.lt_succ_of_lt (h.range a hx).2⟩
    · exact ⟨h.next_le, Nat.lt_succ_self _⟩
  live := fun a => by
    rw [hl, List.filter_append, List.map_append, List.mem_append]
    by_cases ha : a = s.next
    · subst ha
      have h2 : ¬ (s0.live s.next = true ∨ s.next ∈ (P.filter fun p => p.2.2).map Prod.fst ∨ s.next ∈ T) :=
        fun hc => by rw [(h.live _).mpr hc] at hd; cases hd
      rw [if_pos rfl]
      cases keep
      · simp only [Bool.false_eq_true, false_iff]
        simpa using h2
      · simp
    · rw [if_neg ha, h.live a]
      have : a ∉ (List.filter (fun p : Nat × Item × Bool => p.2.2) [(s.next, i, keep)]).map Prod.fst := by
        cases keep <;> simp [ha]
      tauto
  boxes := fun p hp => by
    rcases List.mem_append.mp hp with hp | hp
    · have := (h.range p.1 (List.mem_append_left _ (List.mem_map_of_mem hp))).2
      rw [hg, if_neg (by omega)]
      exact h.boxes p hp
    · rw [List.mem_singleton] at hp
      subst hp
      rw [hg, if_pos rfl]
  text := fun a ha => by
    have := (h.range a (List.mem_append_right _ ha)).2
    rw [hg, if_neg (by omega)]
    exact h.text a ha
  old := fun a ha => by
    rw [hg, if_neg (by have := h.next_le; omega)]
    exact h.old a ha
  layers := fun n => by
    unfold layerPointers
    rw [hly, List.filter_append, List.map_append]
    refine (listIn_perm junk i s.next n _).trans (List.Perm.append (h.layers n) ?_)
    by_cases hn : i.box.layer = n <;> simp [hn]
  elem := by
    rw [hel, h.elem, List.filter_append, List.map_append]
    cases keep <;> simp

theorem setGeo_run (a : Nat) (g : Geometry) (s : St) :
    setGeo a g s = .ok () { s with geos := fun b => if b = a then g else s.geos b } := rfl

theorem setLayers_run (lib : Nat) (f : List LayerObj → List LayerObj) (s : St) : setLayers lib f s =
    .ok () { s with libs := fun b => if b = lib then { s.libs lib with layers := f (s.libs lib).layers } else s.libs b } := rfl

/-- a box section -/
theorem sect_box {junk : Int} {fails : Point → Bool} {s0 s : St} {lib el k : Nat} {part : Part} {o : Option Item}
    {P : List (Nat × Item × Bool)} {T : List Nat} (h : Inv s0 lib el s P T) (h0 : ∀ a, s0.next ≤ a → s0.live a = false)
    (hf : fails (.newObject k part) = false) :
    ∃ s', sect fails k part { type := .rectangle } (boxBody junk fails lib el k part o) s = .ok () s' ∧
      ∃ P', Inv s0 lib el s' (P ++ P') T ∧ P'.map Prod.snd = boxIn fails k part o := by
  have hd := h.dead h0
  have e1 : alloc fails (.newObject k part) s =
      .ok s.next { s with next := s.next + 1, live := fun b => if b = s.next then true else s.live b } := by
    unfold alloc; rw [hf]; rfl
  unfold sect
  rw [M.run_bind_ok e1]
  rw [M.run_bind_ok (setGeo_run _ _ _)]
  have hst : ∀ (L : Nat → Bool) (G : Nat → Geometry), Step lib el s { s with next := s.next + 1, live := L, geos := G } := by
    intro L G
    have := step_refl lib el s
    unfold Step at this ⊢
    cases s
    simp only [St.mk.injEq, true_and] at this ⊢
    exact this
  cases o with
  | none =>
    refine ⟨_, by
      unfold M.tryCatch boxBody deleteGeometry kill
      dsimp only [M.run_raise]
      rw [if_pos (by simp)], [], ?_, rfl⟩
    rw [List.append_nil]
    refine h.skip (hst _ _) rfl (fun b => ?_) (fun b hb => by simp [hb]) rfl rfl
    by_cases hb : b = s.next <;> simp [hb, hd]
  | some i =>
    by_cases hfill : fails (.fill k part) = true
    · refine ⟨_, by
        unfold M.tryCatch boxBody
        dsimp only
        rw [M.run_bind_throw (by unfold ask; rw [if_pos hfill])]
        dsimp only
        unfold deleteGeometry kill
        rw [if_pos (by simp)], [], ?_, by unfold boxIn; simp [hfill]⟩
      rw [List.append_nil]
      refine h.skip (hst _ _) rfl (fun b => ?_) (fun b hb => by simp [hb]) rfl rfl
      by_cases hb : b = s.next <;> simp [hb, hd]
    have a1 : ∀ t, ask fails (.fill k part) t = .ok () t := fun t => by unfold ask; rw [if_neg hfill]
    by_cases hlay : fails (.layer k part) = true
    · refine ⟨_, by
        unfold M.tryCatch boxBody
        dsimp only
        rw [M.run_bind_ok (a1 _)]
        rw [M.run_bind_ok (setGeo_run _ _ _), M.run_bind_throw (by unfold ask; rw [if_pos hlay])]
        dsimp only
        unfold deleteGeometry kill
        rw [if_pos (by simp)], [], ?_, by unfold boxIn; simp [hlay]⟩
      rw [List.append_nil]
      refine h.skip (hst _ _) rfl (fun b => ?_) (fun b hb => by simp [hb]) rfl rfl
      by_cases hb : b = s.next <;> simp [hb, hd]
    have a2 : ∀ t, ask fails (.layer k part) t = .ok () t := fun t => by unfold ask; rw [if_neg hlay]
    have hst2 : ∀ (L : Nat → Bool) (G : Nat → Geometry), Step lib el s { s with
        next := s.next + 1, live := L, geos := G
        libs := fun b => if b = lib then { s.libs lib with layers := listIn junk i s.next (s.libs lib).layers } else s.libs b } := by
      intro L G
      have := hst L G
      unfold Step at this ⊢
      cases s
      simp only [St.mk.injEq, true_and] at this ⊢
      refine ⟨?_, this.2⟩
      funext b
      by_cases hb : b = lib <;> simp [hb]
    by_cases hele : fails (.element k part) = true
    · refine ⟨_, by
        unfold M.tryCatch boxBody
        dsimp only
        rw [M.run_bind_ok (a1 _)]
        rw [M.run_bind_ok (setGeo_run _ _ _), M.run_bind_ok (a2 _)]
        rw [M.run_bind_ok (setLayers_run _ _ _), M.run_bind_throw (by unfold ask; rw [if_pos hele])]
        dsimp only
        unfold deleteGeometry kill
        rw [if_pos (by simp)], [(s.next, i, false)], ?_, by unfold boxIn; simp [hfill, hlay, hele]⟩
      refine h.box junk i false hd (hst2 _ _) rfl (fun b => ?_) (fun b => ?_) (by simp) (by simp)
      · by_cases hb : b = s.next <;> simp [hb]
      · by_cases hb : b = s.next <;> simp [hb]
    have a3 : ∀ t, ask fails (.element k part) t = .ok () t := fun t => by unfold ask; rw [if_neg hele]
    refine ⟨_, by
      unfold M.tryCatch boxBody
      dsimp only
      rw [M.run_bind_ok (a1 _)]
      rw [M.run_bind_ok (setGeo_run _ _ _), M.run_bind_ok (a2 _)]
      rw [M.run_bind_ok (setLayers_run _ _ _), M.run_bind_ok (a3 _)]
      unfold pushGeometry
      dsimp only, [(s.next, i, true)], ?_, by unfold boxIn; simp [hfill, hlay, hele]⟩
    refine h.box junk i true hd ?_ rfl (fun b => ?_) (fun b => ?_) (by simp) (by simp)
    · have := hst2 s.live s.geos
      unfold Step at this ⊢
      cases s
      simp only [St.mk.injEq, true_and] at this ⊢
      refine ⟨this.1, ?_, trivial⟩
      funext b
      by_cases hb : b = el <;> simp [hb]
    · by_cases hb : b = s.next <;> simp [hb]
    · by_cases hb : b = s.next <;> simp [hb]

/-- a text was made -/
theorem Inv.addText {s0 s s' : St} {lib el : Nat} {P : List (Nat × Item × Bool)} {T : List Nat} (h : Inv s0 lib el s P T)
    (hst : Step lib el s s') (hn : s'.next = s.next + 1) (hl : ∀ b, s'.live b = if b = s.next then true else s.live b)
    (hg : ∀ b, s'.geos b = if b = s.next then { type := .text } else s.geos b)
    (hly : (s'.libs lib).layers = (s.libs lib).layers) (hel : (s'.elems el).geometries = (s.elems el).geometries) :
    Inv s0 lib el s' P (T ++ [s.next]) where
  frame := step_frame h.frame hst
  next_le := by rw [hn]; exact Nat.le_succ_of_le h.next_le
  nodup := by
    rw [← List.append_assoc]
    refine List.nodup_append.mpr ⟨h.nodup, by simp, ?_⟩
    intro a ha b hb e
    rw [List.mem_singleton] at hb
    subst hb
    exact h.fresh (e ▸ ha)
  range := fun a ha => by
    rw [hn]
    rw [← List.append_assoc, List.mem_append, List.mem_singleton] at ha
    rcases ha with hx | rfl
    · exact ⟨(h.range a hx).1, Nat.lt_succ_of_lt (h.range a hx).2⟩
    · exact ⟨h.next_le, Nat.lt_succ_self _⟩
  live := fun a => by
    rw [hl, List.mem_append, List.mem_singleton]
    by_cases ha : a = s.next
    · simp [ha]
    · rw [if_neg ha, h.live a]
      tauto
  boxes := fun p hp => by
    have := (h.range p.1 (List.mem_append_left _ (List.mem_map_of_mem hp))).2
    rw [hg, if_neg (by omega)]
    exact h.boxes p hp
  text := fun a ha => by
    rcases List.mem_append.mp ha with ha | ha
    · have := (h.range a (List.mem_append_right _ ha)).2
      rw [hg, if_neg (by omega)]
      exact h.text a ha
    · rw [List.mem_singleton] at ha
      rw [hg, if_pos ha]
  old := fun a ha => by
    rw [hg, if_neg (by have := h.next_le; omega)]
    exact h.old a ha
  layers := fun n => by unfold layerPointers; rw [hly]; exact h.layers n
  elem := by rw [hel]; exact h.elem

/-- a title section -/
theorem sect_title {fails : Point → Bool} {s0 s : St} {lib el k : Nat} {l : List UInt8} {d : Done}
    {P : List (Nat × Item × Bool)} {T : List Nat} (h : Inv s0 lib el s P T) (h0 : ∀ a, s0.next ≤ a → s0.live a = false)
    (hf : fails (.newObject k .title) = false) (hd : scan titleFormat (cstr l) = .ok d) :
    ∃ s', sect fails k .title { type := .text } (fun _ => titleBody fails k l) s = .ok () s' ∧
      ∃ T', Inv s0 lib el s' P (T ++ T') ∧ T'.length = if !d.isZero && !fails (.fill k .title) then 1 else 0 := by
  have hdead := h.dead h0
  have e1 : alloc fails (.newObject k .title) s =
      .ok s.next { s with next := s.next + 1, live := fun b => if b = s.next then true else s.live b } := by
    unfold alloc; rw [hf]; rfl
  unfold sect
  rw [M.run_bind_ok e1, M.run_bind_ok (setGeo_run _ _ _)]
  have hst : ∀ (L : Nat → Bool) (G : Nat → Geometry), Step lib el s { s with next := s.next + 1, live := L, geos := G } := by
    intro L G
    have := step_refl lib el s
    unfold Step at this ⊢
    cases s
    simp only [St.mk.injEq, true_and] at this ⊢
    exact this
  by_cases hz : d.isZero = true
  · refine ⟨_, by
      unfold M.tryCatch titleBody
      dsimp only
      rw [hd, M.run_bind_ok (M.run_lift_ok _ _), if_pos hz]
      dsimp only [M.run_raise]
      unfold deleteGeometry kill
      rw [if_pos (by simp)], [], ?_, by simp [hz]⟩
    rw [List.append_nil]
    refine h.skip (hst _ _) rfl (fun b => ?_) (fun b hb => by simp [hb]) rfl rfl
    by_cases hb : b = s.next <;> simp [hb, hdead]
  · by_cases hfill : fails (.fill k .title) = true
    · refine ⟨_, by
        unfold M.tryCatch titleBody
        dsimp only
        rw [hd, M.run_bind_ok (M.run_lift_ok _ _), if_neg hz]
        unfold ask
        rw [if_pos hfill]
        dsimp only
        unfold deleteGeometry kill
        rw [if_pos (by simp)], [], ?_, by simp [hfill]⟩
      rw [List.append_nil]
      refine h.skip (hst _ _) rfl (fun b => ?_) (fun b hb => by simp [hb]) rfl rfl
      by_cases hb : b = s.next <;> simp [hb, hdead]
    · refine ⟨_, by
        unfold M.tryCatch titleBody
        dsimp only
        rw [hd, M.run_bind_ok (M.run_lift_ok _ _), if_neg hz]
        unfold ask
        rw [if_neg hfill], [s.next], ?_, by simp [hz, hfill]⟩
      exact h.addText (hst _ _) rfl (fun b => rfl) (fun b => rfl) rfl rfl

theorem sect_throw {fails : Point → Bool} {k : Nat} {part : Part} {g : Geometry} {body : Nat → M St Unit} (s : St)
    (hf : fails (.newObject k part) = true) : sect fails k part g body s = .throw .badAlloc s := by
  unfold sect
  exact M.run_bind_throw (by unfold alloc; rw [if_pos hf])

theorem when_false {k l : List UInt8} (h : ¬ k <:+: l) (x : M St Unit) (s : St) : onlyIf (occurs k l) x s = .ok () s := by
  unfold onlyIf occurs
  rw [if_neg (by simpa using h)]; rfl

theorem when_true {k l : List UInt8} (h : k <:+: l) (x : M St Unit) : onlyIf (occurs k l) x = x := by
  unfold onlyIf occurs
  rw [if_pos (by simpa using h)]

theorem bb_none {l : List UInt8} {o : Option Item} (h : BBGives l o) (hc : ¬ bytes "BB" <:+: l) : o = none := by
  cases h with
  | absent => rfl
  | unreadable => rfl
  | cut h => exact absurd h hc
  | read h => exact absurd h hc

theorem rec_none {l : List UInt8} {o : Option Item} (h : RecGives l o) (hc : ¬ bytes "REC" <:+: l) : o = none := by
  cases h with
  | absent => rfl
  | unreadable => rfl
  | unknown => rfl
  | known h => exact absurd h hc

/-- a line -/
theorem line_run {env : Env} {fails : Point → Bool} {s0 s : St} {lib el k : Nat} {l : List UInt8} {p : Line}
    {P : List (Nat × Item × Bool)} {T : List Nat} (h : Inv s0 lib el s P T) (h0 : ∀ a, s0.next ≤ a → s0.live a = false)
    (hl : 10 ∉ l) (hp : Holds l p) :
    (stops fails k p = true → ∃ s', readLine env fails lib el k l s = .throw .badAlloc s' ∧ ∃ P', Inv s0 lib el s' P' T) ∧
    (stops fails k p = false → ∃ s', readLine env fails lib el k l s = .ok () s' ∧ ∃ P' T', Inv s0 lib el s' (P ++ P') (T ++ T') ∧
      P'.map Prod.snd = boxIn fails k .bb p.bb ++ boxIn fails k .rect p.rect ∧
      T'.length = if p.title && !fails (.fill k .title) then 1 else 0) := by
  unfold readLine
  generalize hm : (l.filter (· ≠ 13)).filter (· ≠ 10) = m
  rw [strip_eq l hl] at hm
  subst hm
  -- BB
  have s1 : (p.hasBB && fails (.newObject k .bb)) = true ∧
        onlyIf (occurs (lit "BB") (strip l)) (sect fails k .bb { type := .rectangle } (boundingBoxBody env fails lib el k (strip l))) s =
          .throw .badAlloc s ∨
      (p.hasBB && fails (.newObject k .bb)) = false ∧ ∃ s',
        onlyIf (occurs (lit "BB") (strip l)) (sect fails k .bb { type := .rectangle } (boundingBoxBody env fails lib el k (strip l))) s =
          .ok () s' ∧ ∃ P', Inv s0 lib el s' (P ++ P') T ∧ P'.map Prod.snd = boxIn fails k .bb p.bb := by
    by_cases hc : bytes "BB" <:+: strip l
    · have hc' : lit "BB" <:+: strip l := hc
      rw [when_true hc', hp.hasBB.mpr hc]
      by_cases hf : fails (.newObject k .bb) = true
      · exact .inl ⟨by simp [hf], sect_throw s hf⟩
      · right
        refine ⟨by simpa using hf, ?_⟩
        have : boundingBoxBody env fails lib el k (strip l) = boxBody env.junk fails lib el k .bb p.bb :=
          funext fun a => bb_body hp.bb hc a
        rw [this]
        exact sect_box h h0 (by simpa using hf)
    · have hb : p.hasBB = false := by
        cases hx : p.hasBB with
        | false => rfl
        | true => exact absurd (hp.hasBB.mp hx) hc
      refine .inr ⟨by rw [hb]; rfl, s, when_false hc _ _, [], by rwa [List.append_nil], ?_⟩
      rw [bb_none hp.bb hc]; rfl
  rcases s1 with ⟨hf, e1⟩ | ⟨hf1, t1, e1, P1, i1, q1⟩
  · refine ⟨fun _ => ⟨s, M.run_bind_throw e1, P, h⟩, fun hs => ?_⟩
    unfold stops at hs
    rw [hf] at hs
    cases hs
  rw [M.run_bind_ok e1]
  -- REC
  have s2 : (p.hasRec && fails (.newObject k .rect)) = true ∧
        onlyIf (occurs (lit "REC") (strip l)) (sect fails k .rect { type := .rectangle } (rectangleBody env fails lib el k (strip l))) t1 =
          .throw .badAlloc t1 ∨
      (p.hasRec && fails (.newObject k .rect)) = false ∧ ∃ s',
        onlyIf (occurs (lit "REC") (strip l)) (sect fails k .rect { type := .rectangle } (rectangleBody env fails lib el k (strip l))) t1 =
          .ok () s' ∧ ∃ P', Inv s0 lib el s' (P ++ P1 ++ P') T ∧ P'.map Prod.snd = boxIn fails k .rect p.rect := by
    by_cases hc : bytes "REC" <:+: strip l
    · have hc' : lit "REC" <:+: strip l := hc
      rw [when_true hc', hp.hasRec.mpr hc]
      by_cases hf : fails (.newObject k .rect) = true
      · exact .inl ⟨by simp [hf], sect_throw t1 hf⟩
      · right
        refine ⟨by simpa using hf, ?_⟩
        have : rectangleBody env fails lib el k (strip l) = boxBody env.junk fails lib el k .rect p.rect :=
          funext fun a => rec_body hp.rect hc a
        rw [this]
        exact sect_box i1 h0 (by simpa using hf)
    · have hb : p.hasRec = false := by
        cases hx : p.hasRec with
        | false => rfl
        | true => exact absurd (hp.hasRec.mp hx) hc
      refine .inr ⟨by rw [hb]; rfl, t1, when_false hc _ _, [], by rwa [List.append_nil], ?_⟩
      rw [rec_none hp.rect hc]; rfl
  rcases s2 with ⟨hf, e2⟩ | ⟨hf2, t2, e2, P2, i2, q2⟩
  · refine ⟨fun _ => ⟨t1, M.run_bind_throw e2, _, i1⟩, fun hs => ?_⟩
    unfold stops at hs
    rw [hf1, hf] at hs
    cases hs
  rw [M.run_bind_ok e2]
  -- TITLE
  by_cases hc : bytes "TITLE" <:+: strip l
  · have hc' : lit "TITLE" <:+: strip l := hc
    rw [when_true hc']
    have hb := hp.hasTitle.mpr hc
    by_cases hf : fails (.newObject k .title) = true
    · refine ⟨fun _ => ⟨t2, sect_throw t2 hf, _, i2⟩, fun hs => ?_⟩
      unfold stops at hs
      rw [hf1, hf2, hb, hf] at hs
      cases hs
    · refine ⟨fun hs => ?_, fun _ => ?_⟩
      · exfalso
        unfold stops at hs
        rw [hf1, hf2, hb] at hs
        exact hf (by simpa using hs)
      rcases title_complete (cstr (strip l)) with ⟨d, hd⟩ | hbad
      swap
      · exact absurd hbad (hp.fine hc _ (cstr_text _))
      obtain ⟨s', e3, T', i3, q3⟩ := sect_title i2 h0 (by simpa using hf) hd
      refine ⟨s', e3, P1 ++ P2, T', by rw [← List.append_assoc]; exact i3, by rw [List.map_append, q1, q2], ?_⟩
      rw [q3]
      have : p.title = !d.isZero := by
        have h1 := title_zero hd
        have h2 := hp.title
        rw [hb] at h2
        cases hz : d.isZero with
        | true =>
          cases ht : p.title with
          | false => rfl
          | true => exact absurd (h1.mp hz) ((h2.mp ht).2 _ (cstr_text _))
        | false =>
          rw [Bool.not_false]
          refine h2.mpr ⟨rfl, fun t ht hu => ?_⟩
          rw [← text_cstr ht] at hu
          rw [h1.mpr hu] at hz
          cases hz
      rw [this]
  · have hb : p.hasTitle = false := by
      cases hx : p.hasTitle with
      | false => rfl
      | true => exact absurd (hp.hasTitle.mp hx) hc
    refine ⟨fun hs => ?_, fun _ => ?_⟩
    · exfalso
      unfold stops at hs
      rw [hf1, hf2, hb] at hs
      cases hs
    · refine ⟨t2, when_false hc _ _, P1 ++ P2, [], by rw [← List.append_assoc, List.append_nil]; exact i2, by rw [List.map_append, q1, q2], ?_⟩
      have : p.title = false := by
        cases hx : p.title with
        | false => rfl
        | true => exact absurd (hp.title.mp hx).1 (by simp [hb])
      rw [this]
      rfl

/-- the loop -/
theorem lines_run {env : Env} {fails : Point → Bool} {s0 : St} {lib el : Nat} (h0 : ∀ a, s0.next ≤ a → s0.live a = false)
    {ls : List (List UInt8)} {ps : List Line} (hp : List.Forall₂ Holds ls ps) (hl : ∀ l ∈ ls, 10 ∉ l) :
    ∀ (k : Nat) (s : St) (P : List (Nat × Item × Bool)) (T : List Nat), Inv s0 lib el s P T →
    (aborts fails k ps = true → ∃ s', readLines env fails lib el k ls s = .throw .badAlloc s' ∧
      ∃ P' T', Inv s0 lib el s' P' (T ++ T') ∧ T'.length = titles fails k ps) ∧
    (aborts fails k ps = false → ∃ s', readLines env fails lib el k ls s = .ok () s' ∧ ∃ P' T', Inv s0 lib el s' (P ++ P') (T ++ T') ∧
      P'.map Prod.snd = boxes fails k ps ∧ T'.length = titles fails k ps) := by
  induction hp with
  | nil =>
    intro k s P T h
    exact ⟨fun h => (by cases h), fun _ => ⟨s, rfl, [], [], by simpa using h, rfl, rfl⟩⟩
  | @cons l p ls ps hlp _ ih =>
    intro k s P T h
    have hl1 := hl l List.mem_cons_self
    unfold readLines aborts titles Spec.MskMem.boxes
    by_cases hg : fails (.getline k) = true
    · rw [if_pos hg, hg]
      exact ⟨fun h => (by cases h), fun _ => ⟨s, rfl, [], [], by simpa using h, rfl, rfl⟩⟩
    · have hg' : fails (.getline k) = false := by simpa using hg
      rw [if_neg hg]
      simp only [hg', Bool.not_false, Bool.true_and, Bool.false_or, Bool.false_eq_true, if_false]
      obtain ⟨l1, l2⟩ := line_run (env := env) (fails := fails) (k := k) h h0 hl1 hlp
      cases hs : stops fails k p with
      | true =>
        obtain ⟨s', e, P', i⟩ := l1 hs
        refine ⟨fun _ => ⟨s', M.run_bind_throw e, P', [], by rwa [List.append_nil], by simp⟩, fun h => (by simp at h)⟩
      | false =>
        obtain ⟨t, e, P1, T1, i, q1, q2⟩ := l2 hs
        rw [M.run_bind_ok e]
        obtain ⟨r1, r2⟩ := ih (fun x hx => hl x (List.mem_cons_of_mem _ hx)) (k + 1) t _ _ i
        simp only [Bool.false_or, Bool.false_eq_true, if_false]
        constructor
        · intro ha
          obtain ⟨s', e', P', T', i', q⟩ := r1 ha
          exact ⟨s', e', P', T1 ++ T', by rw [← List.append_assoc]; exact i', by rw [List.length_append, q2, q]⟩
        · intro ha
          obtain ⟨s', e', P', T', i', q, q'⟩ := r2 ha
          refine ⟨s', e', P1 ++ P', T1 ++ T', by rw [← List.append_assoc, ← List.append_assoc]; exact i', ?_, by
            rw [List.length_append, q2, q']⟩
          rw [List.map_append, q1, q]

/-! ### before and after the loop -/

theorem ask_ok {fails : Point → Bool} {p : Point} (h : fails p = false) (s : St) : ask fails p s = .ok () s := by
  unfold ask; rw [h]; rfl

theorem ask_fail {fails : Point → Bool} {p : Point} (h : fails p = true) (s : St) : ask fails p s = .throw .badAlloc s := by
  unfold ask; rw [h]; rfl

theorem alloc_ok {fails : Point → Bool} {p : Point} (h : fails p = false) (s : St) : alloc fails p s =
    .ok s.next { s with next := s.next + 1, live := fun b => if b = s.next then true else s.live b } := by
  unfold alloc; rw [h]; rfl

theorem alloc_fail {fails : Point → Bool} {p : Point} (h : fails p = true) (s : St) : alloc fails p s = .throw .badAlloc s := by
  unfold alloc; rw [h]; rfl

theorem toUtf8_ok {env : Env} {w : List Nat} {n : List UInt8} (h : env.utf8 w = some n) (s : St) : toUtf8 env w s = .ok n s := by
  unfold toUtf8; rw [h]; rfl

/-- the state in which the loop begins -/
def started (s : St) (ename lname : List UInt8) : St :=
  { s with
    next := s.next + 2
    live := fun b => if b = s.next + 1 then true else if b = s.next then true else s.live b
    libs := fun b => if b = s.next then { name := lname } else s.libs b
    elems := fun b => if b = s.next + 1 then { name := ename } else s.elems b
    activeLibrary := some s.next
    activeElement := some (s.next + 1)
    data := { s.data with fileName := s.fileName } }

theorem begin_ok {env : Env} {fails : Point → Bool} {s : St} {ename lname : List UInt8} (he : env.utf8 (elemName s.fileName) = some ename)
    (hl : env.utf8 s.fileName = some lname) (h1 : fails .newLibrary = false) (h2 : fails .newElement = false)
    (h3 : fails .layoutName = false) (h4 : fails .elementName = false) (h5 : fails .libraryName = false) :
    begin env fails s = .ok (s.next, s.next + 1) (started s ename lname) := by
  unfold begin
  rw [M.run_bind_ok (alloc_ok h1 _), M.run_bind_ok (M.run_modify _ _), M.run_bind_ok (alloc_ok h2 _), M.run_bind_ok (M.run_modify _ _),
    M.run_bind_ok (ask_ok h3 _), M.run_bind_ok (M.run_modify _ _), M.run_bind_ok (M.run_get _), M.run_bind_ok (toUtf8_ok he _),
    M.run_bind_ok (ask_ok h4 _), M.run_bind_ok (M.run_modify _ _), M.run_bind_ok (toUtf8_ok hl _),
    M.run_bind_ok (ask_ok h5 _), M.run_bind_ok (M.run_modify _ _), M.run_pure]
  unfold started
  congr 2
  · funext b
    by_cases hb : b = s.next <;> simp [hb]
  · funext b
    by_cases hb : b = s.next + 1 <;> simp [hb]

/-- a failure at the beginning: what may have been made -/
theorem begin_fail {env : Env} {fails : Point → Bool} {s : St} {ename lname : List UInt8} (he : env.utf8 (elemName s.fileName) = some ename)
    (hl : env.utf8 s.fileName = some lname) (hn1 : s.activeLibrary = none) (hn2 : s.activeElement = none)
    (hf : (fails .newLibrary || fails .newElement || fails .layoutName || fails .elementName || fails .libraryName) = true) :
    ∃ t, begin env fails s = .throw .badAlloc t ∧ t.data.libraries = s.data.libraries ∧
      (∀ b, b < s.next → t.libs b = s.libs b ∧ t.elems b = s.elems b ∧ t.geos b = s.geos b) ∧ t.fileName = s.fileName ∧
      (t.data.fileName = s.data.fileName ∨ t.data.fileName = s.fileName) ∧ s.next ≤ t.next ∧
      ((t.activeLibrary = none ∧ t.activeElement = none ∧ t.live = s.live) ∨
       (t.activeLibrary = some s.next ∧ t.activeElement = none ∧ (t.libs s.next).elements = [] ∧
        ∀ b, t.live b = if b = s.next then true else s.live b) ∨
       (t.activeLibrary = some s.next ∧ t.activeElement = some (s.next + 1) ∧ (t.libs s.next).elements = [] ∧
        (t.elems (s.next + 1)).geometries = [] ∧
        ∀ b, t.live b = if b = s.next + 1 then true else if b = s.next then true else s.live b)) := by
  unfold begin
  by_cases h1 : fails .newLibrary = true
  · exact ⟨s, M.run_bind_throw (alloc_fail h1 _), rfl, fun b _ => ⟨rfl, rfl, rfl⟩, rfl, .inl rfl, Nat.le_refl _, .inl ⟨hn1, hn2, rfl⟩⟩
  replace h1 : fails .newLibrary = false := by simpa using h1
  rw [M.run_bind_ok (alloc_ok h1 _), M.run_bind_ok (M.run_modify _ _)]
  by_cases h2 : fails .newElement = true
  · refine ⟨_, M.run_bind_throw (alloc_fail h2 _), rfl, fun b hb => ⟨?_, rfl, rfl⟩, rfl, .inl rfl, (by dsimp only; omega), .inr (.inl ⟨rfl, hn2, ?_, fun b => rfl⟩)⟩
    · exact if_neg (Nat.ne_of_lt hb)
    · exact congrArg LibObj.elements (if_pos rfl)
  replace h2 : fails .newElement = false := by simpa using h2
  rw [M.run_bind_ok (alloc_ok h2 _), M.run_bind_ok (M.run_modify _ _)]
  by_cases h3 : fails .layoutName = true
  · refine ⟨_, M.run_bind_throw (ask_fail h3 _), rfl, fun b hb => ⟨?_, ?_, rfl⟩, rfl, .inl rfl, (by dsimp only; omega), .inr (.inr ⟨rfl, rfl, ?_, ?_, fun b => rfl⟩)⟩
    · exact if_neg (Nat.ne_of_lt hb)
    · exact if_neg (Nat.ne_of_lt (Nat.lt_succ_of_lt hb))
    · exact congrArg LibObj.elements (if_pos rfl)
    · exact congrArg ElemObj.geometries (if_pos rfl)
  replace h3 : fails .layoutName = false := by simpa using h3
  rw [M.run_bind_ok (ask_ok h3 _), M.run_bind_ok (M.run_modify _ _), M.run_bind_ok (M.run_get _), M.run_bind_ok (toUtf8_ok he _)]
  by_cases h4 : fails .elementName = true
  · refine ⟨_, M.run_bind_throw (ask_fail h4 _), rfl, fun b hb => ⟨?_, ?_, rfl⟩, rfl, .inr rfl, (by dsimp only; omega), .inr (.inr ⟨rfl, rfl, ?_, ?_, fun b => rfl⟩)⟩
    · exact if_neg (Nat.ne_of_lt hb)
    · exact if_neg (Nat.ne_of_lt (Nat.lt_succ_of_lt hb))
    · exact congrArg LibObj.elements (if_pos rfl)
    · exact congrArg ElemObj.geometries (if_pos rfl)
  replace h4 : fails .elementName = false := by simpa using h4
  have h5 : fails .libraryName = true := by simpa [h1, h2, h3, h4] using hf
  rw [M.run_bind_ok (ask_ok h4 _), M.run_bind_ok (M.run_modify _ _), M.run_bind_ok (toUtf8_ok hl _)]
  refine ⟨_, M.run_bind_throw (ask_fail h5 _), rfl, fun b hb => ⟨?_, ?_, rfl⟩, rfl, .inr rfl, (by dsimp only; omega), .inr (.inr ⟨rfl, rfl, ?_, ?_, fun b => rfl⟩)⟩
  · exact if_neg (Nat.ne_of_lt hb)
  · have := Nat.ne_of_lt (Nat.lt_succ_of_lt hb)
    simp [this]
  · exact congrArg LibObj.elements (if_pos rfl)
  · simp

theorem dropElement_some {e : Nat} {s : St} (h1 : s.live e = true) (h2 : (s.elems e).geometries.Nodup)
    (h3 : ∀ b ∈ (s.elems e).geometries, s.live b = true) :
    dropElement (some e) s =
      .ok () { s with live := fun b => s.live b && !decide (b ∈ e :: (s.elems e).geometries), activeElement := none } := by
  unfold dropElement
  dsimp only
  rw [M.run_bind_ok (deleteElement_ok e s h1 h2 h3), M.run_modify]

theorem dropLibrary_some {l : Nat} {s : St} (h1 : s.live l = true) (h2 : (s.libs l).elements = []) :
    dropLibrary (some l) s = .ok () { s with live := fun b => if b = l then false else s.live b, activeLibrary := none } := by
  unfold dropLibrary
  dsimp only
  rw [M.run_bind_ok (deleteLibrary_nil l s h1 h2), M.run_modify]

theorem recover_step (t : St) {oe ol : Option Nat} (he : t.activeElement = oe) (hl : t.activeLibrary = ol) :
    recover t = (do dropElement oe; dropLibrary ol : M St Unit) { t with stuck := false, data := { t.data with fileFormat := .undefined } } := by
  subst he hl
  rfl

/-- the handler of `Read` when nothing was made -/
theorem recover_none (t : St) (hl : t.activeLibrary = none) (he : t.activeElement = none) :
    recover t = .ok () { t with stuck := false, data := { t.data with fileFormat := .undefined } } := by
  rw [recover_step t he hl]
  rfl

/-- the handler of `Read` when the library was made -/
theorem recover_lib (t : St) (l : Nat) (hl : t.activeLibrary = some l) (he : t.activeElement = none) (h1 : t.live l = true)
    (h2 : (t.libs l).elements = []) :
    recover t = .ok () { t with
      stuck := false
      data := { t.data with fileFormat := .undefined }
      live := fun b => if b = l then false else t.live b
      activeLibrary := none } := by
  rw [recover_step t he hl]
  exact dropLibrary_some h1 h2

/-- the handler of `Read` when the library and the element were made and the library does not list the element -/
theorem recover_both (t : St) (l e : Nat) (hl : t.activeLibrary = some l) (he : t.activeElement = some e) (h1 : t.live l = true)
    (h2 : (t.libs l).elements = []) (g1 : t.live e = true) (g2 : (t.elems e).geometries.Nodup)
    (g3 : ∀ b ∈ (t.elems e).geometries, t.live b = true) (hne : l ∉ e :: (t.elems e).geometries) :
    recover t = .ok () { t with
      stuck := false
      data := { t.data with fileFormat := .undefined }
      live := fun b => t.live b && !decide (b ∈ l :: e :: (t.elems e).geometries)
      activeElement := none
      activeLibrary := none } := by
  rw [recover_step t he hl, M.run_bind_ok (dropElement_some (s := { t with stuck := false, data := { t.data with fileFormat := .undefined } }) g1 g2 g3),
    dropLibrary_some]
  · congr 2
    funext b
    by_cases hb : b = l <;> simp [hb]
  · simp only [h1, Bool.true_and, Bool.not_eq_true', decide_eq_false_iff_not]
    exact hne
  · exact h2

/-- the handler of `Read` when the library already lists the element: it is deleted twice -/
theorem recover_twice (t : St) (l e : Nat) (hl : t.activeLibrary = some l) (he : t.activeElement = some e)
    (h2 : e ∈ (t.libs l).elements) : recover t = .ub := by
  rw [recover_step t he hl]
  have hthrow : ∀ (gs : List Nat) (t : St), ¬ ∃ x t', deleteGeometries gs t = .throw x t' := by
    intro gs
    induction gs with
    | nil => rintro t ⟨x, t', h⟩; cases h
    | cons g gs ihg =>
      rintro t ⟨x, t', h⟩
      unfold deleteGeometries at h
      by_cases hg : t.live g = true
      · have h1 : deleteGeometry g t = .ok () { t with live := fun c => if c = g then false else t.live c } := by
          unfold deleteGeometry kill
          rw [if_pos hg]
        rw [M.run_bind_ok h1] at h
        exact ihg _ ⟨_, _, h⟩
      · rw [M.run_bind_ub (by unfold deleteGeometry; rw [if_neg hg])] at h
        cases h
  have hkeep : ∀ (gs : List Nat) (t t' : St) u, deleteGeometries gs t = .ok u t' → t'.libs = t.libs := by
    intro gs
    induction gs with
    | nil => intro t t' u h; injection h with _ h; rw [← h]
    | cons g gs ihg =>
      intro t t' u h
      unfold deleteGeometries at h
      by_cases hg : t.live g = true
      · have h1 : deleteGeometry g t = .ok () { t with live := fun c => if c = g then false else t.live c } := by
          unfold deleteGeometry kill
          rw [if_pos hg]
        rw [M.run_bind_ok h1] at h
        exact (ihg _ _ _ h :)
      · rw [M.run_bind_ub (by unfold deleteGeometry; rw [if_neg hg])] at h
        cases h
  generalize hs : ({ t with stuck := false, data := { t.data with fileFormat := .undefined } } : St) = s
  have hsl : s.libs = t.libs := by rw [← hs]
  by_cases hle : s.live e = true
  · cases hg : deleteGeometries (s.elems e).geometries s with
    | ub =>
      refine M.run_bind_ub ?_
      unfold dropElement
      dsimp only
      refine M.run_bind_ub ?_
      unfold deleteElement
      rw [if_pos hle]
      exact M.run_bind_ub hg
    | throw x t' => exact absurd ⟨_, _, hg⟩ (hthrow _ _)
    | ok u s' =>
      have hd : deleteElement e s = .ok () { s' with live := fun b => if b = e then false else s'.live b } := by
        unfold deleteElement
        rw [if_pos hle, M.run_bind_ok hg]
        rfl
      have hd2 : dropElement (some e) s = .ok () { s' with live := fun b => if b = e then false else s'.live b, activeElement := none } := by
        unfold dropElement
        dsimp only
        rw [M.run_bind_ok hd, M.run_modify]
      rw [M.run_bind_ok hd2]
      unfold dropLibrary
      dsimp only
      refine M.run_bind_ub (deleteLibrary_ub l e _ ?_ ?_)
      · dsimp only
        rw [hkeep _ _ _ _ hg, hsl]
        exact h2
      · exact if_pos rfl
  · refine M.run_bind_ub ?_
    unfold dropElement
    dsimp only
    refine M.run_bind_ub (deleteElement_ub e s ?_)
    simpa using hle

/-! ### the whole of `Read` -/

theorem openFile_ok {env : Env} {fails : Point → Bool} {s : St} {content ename lname : List UInt8} {ls : List (List UInt8)}
    (hr : Ready env s content ename lname) (hl : Lines content ls) (h1 : fails .pathString = false) (h2 : fails .openStream = false) :
    openFile env fails s = .ok ls s := by
  unfold openFile
  rw [M.run_bind_ok (ask_ok h1 _), M.run_bind_ok (M.run_get _)]
  simp only [hr.stuck, Bool.false_eq_true, if_false]
  rw [M.run_bind_ok (ask_ok h2 _), hr.file, ← lines_eq hl]
  rfl

theorem inv_start (s : St) (ename lname : List UInt8) :
    Inv (started s ename lname) s.next (s.next + 1) (started s ename lname) [] [] where
  frame := by
    unfold started
    congr 1
    · funext b
      by_cases hb : b = s.next <;> simp [hb]
    · funext b
      by_cases hb : b = s.next + 1 <;> simp [hb]
  next_le := Nat.le_refl _
  nodup := by simp
  range := by simp
  live := by simp
  boxes := by simp
  text := by simp
  old := fun _ _ => rfl
  layers := by intro n; simp [layerPointers, started]
  elem := by simp [started]

theorem started_fresh {s : St} (hf : ∀ a, s.next ≤ a → s.live a = false) (ename lname : List UInt8) :
    ∀ a, (started s ename lname).next ≤ a → (started s ename lname).live a = false := by
  intro a ha
  have ha' : s.next + 2 ≤ a := ha
  unfold started
  dsimp only
  rw [if_neg (by omega), if_neg (by omega)]
  exact hf a (by omega)

section
variable {s t : St} {ename lname : List UInt8} {P : List (Nat × Item × Bool)} {T : List Nat}

theorem inv_libs (h : Inv (started s ename lname) s.next (s.next + 1) t P T) :
    t.libs s.next = { name := lname, layers := (t.libs s.next).layers } := by
  have := congrArg (fun x => x.libs s.next) h.frame
  simpa [started] using this

theorem inv_elems (h : Inv (started s ename lname) s.next (s.next + 1) t P T) :
    t.elems (s.next + 1) = { name := ename, geometries := (P.filter fun p => p.2.2).map Prod.fst } := by
  have := congrArg (fun x => x.elems (s.next + 1)) h.frame
  rw [h.elem] at this
  simpa [started] using this

theorem inv_data (h : Inv (started s ename lname) s.next (s.next + 1) t P T) : t.data = { s.data with fileName := s.fileName } := by
  have := congrArg St.data h.frame
  exact this

theorem inv_live (h : Inv (started s ename lname) s.next (s.next + 1) t P T) (a : Nat) : t.live a = true ↔
    s.live a = true ∨ a ∈ s.next :: (s.next + 1) :: ((P.filter fun p => p.2.2).map Prod.fst ++ T) := by
  rw [h.live]
  unfold started
  dsimp only
  by_cases h1 : a = s.next + 1
  · simp [h1]
  · by_cases h2 : a = s.next
    · simp [h2]
    · simp [h1, h2]

theorem kept_sub (P : List (Nat × Item × Bool)) : ((P.filter fun p => p.2.2).map Prod.fst).Sublist (P.map Prod.fst) :=
  List.filter_sublist.map _

theorem inv_nodup (h : Inv (started s ename lname) s.next (s.next + 1) t P T) :
    (s.next :: (s.next + 1) :: ((P.filter fun p => p.2.2).map Prod.fst ++ T)).Nodup := by
  have hsub : ((P.filter fun p => p.2.2).map Prod.fst ++ T).Sublist (P.map Prod.fst ++ T) := (kept_sub P).append (List.Sublist.refl _)
  have hr : ∀ a ∈ (P.filter fun p => p.2.2).map Prod.fst ++ T, s.next + 2 ≤ a := fun a ha => (h.range a (hsub.subset ha)).1
  refine List.nodup_cons.mpr ⟨?_, List.nodup_cons.mpr ⟨fun hm => ?_, hsub.nodup h.nodup⟩⟩
  · intro hm
    rcases List.mem_cons.mp hm with hm | hm
    · omega
    · have := hr _ hm; omega
  · have := hr _ hm; omega

theorem inv_untouched (h : Inv (started s ename lname) s.next (s.next + 1) t P T) : Untouched s t where
  libs := by
    intro b hb
    have := congrArg (fun x => x.libs b) h.frame
    have hne : b ≠ s.next := by omega
    simpa [started, hne] using this
  elems := by
    intro b hb
    have := congrArg (fun x => x.elems b) h.frame
    have hne : b ≠ s.next + 1 := by omega
    simpa [started, hne] using this
  geos := by
    intro b hb
    exact h.old b (by unfold started; dsimp only; omega)

/-- the handler after a failure in the loop or right behind it -/
theorem inv_recover (h : Inv (started s ename lname) s.next (s.next + 1) t P T) (hf : ∀ a, s.next ≤ a → s.live a = false) :
    ∃ s', recover t = .ok () s' ∧ s'.data = { s.data with fileName := s.fileName, fileFormat := .undefined } ∧ Untouched s s' ∧ Grew s s' T ∧
      (∀ a ∈ T, (s'.geos a).type = .text) ∧
      s'.stuck = false ∧ s'.fileName = s.fileName ∧ s'.activeLibrary = none ∧ s'.activeElement = none ∧
      ∀ a, s'.next ≤ a → s'.live a = false := by
  have hn := inv_nodup h
  have hL : (t.libs s.next).elements = [] := by rw [inv_libs h]
  have hE : (t.elems (s.next + 1)).geometries = (P.filter fun p => p.2.2).map Prod.fst := by rw [inv_elems h]
  have hal : t.activeLibrary = some s.next := by
    have := congrArg St.activeLibrary h.frame
    exact this
  have hae : t.activeElement = some (s.next + 1) := by
    have := congrArg St.activeElement h.frame
    exact this
  have hfn : t.fileName = s.fileName := by
    have := congrArg St.fileName h.frame
    exact this
  have e := recover_both t s.next (s.next + 1) hal hae ((inv_live h _).mpr (.inr (by simp))) hL ((inv_live h _).mpr (.inr (by simp)))
    (by rw [hE]; exact (List.nodup_append.mp (List.nodup_cons.mp (List.nodup_cons.mp hn).2).2).1)
    (by rw [hE]; intro b hb; exact (inv_live h _).mpr (.inr (by simp only [List.mem_cons, List.mem_append]; exact .inr (.inr (.inl hb)))))
    (by
      rw [hE]
      intro hm
      apply (List.nodup_cons.mp hn).1
      rcases List.mem_cons.mp hm with hm | hm
      · exact List.mem_cons.mpr (.inl hm)
      · exact List.mem_cons_of_mem _ (List.mem_append_left _ hm))
  refine ⟨_, e, ?_, ⟨(inv_untouched h).libs, (inv_untouched h).elems, (inv_untouched h).geos⟩, ⟨?_, ?_, ?_⟩, h.text, rfl, hfn, rfl, rfl, ?_⟩
  · dsimp only; rw [inv_data h]
  · exact (List.nodup_append.mp h.nodup).2.1
  · intro a ha
    have : s.next + 2 ≤ a := (h.range a (List.mem_append_right _ ha)).1
    omega
  · intro a
    dsimp only
    rw [Bool.and_eq_true, inv_live h, hE, Bool.not_eq_true', decide_eq_false_iff_not]
    constructor
    · rintro ⟨h1 | h1, h2⟩
      · exact .inl h1
      · refine .inr ?_
        simp only [List.mem_cons, List.mem_append, not_or] at h1 h2
        rcases h1 with h1 | h1 | h1 | h1
        · exact absurd h1 h2.1
        · exact absurd h1 h2.2.1
        · exact absurd h1 h2.2.2
        · exact h1
    · rintro (h1 | h1)
      · refine ⟨.inl h1, fun hm => ?_⟩
        have : s.next ≤ a := by
          simp only [List.mem_cons] at hm
          rcases hm with hm | hm | hm
          · omega
          · omega
          · have : s.next + 2 ≤ a := (h.range a (List.mem_append_left _ ((kept_sub P).subset hm))).1
            omega
        rw [hf a this] at h1
        cases h1
      · refine ⟨.inr (by simp [h1]), fun hm => ?_⟩
        simp only [List.mem_cons] at hm
        have hra : s.next + 2 ≤ a := (h.range a (List.mem_append_right _ h1)).1
        rcases hm with hm | hm | hm
        · omega
        · omega
        · exact (List.nodup_append.mp h.nodup).2.2 a ((kept_sub P).subset hm) a h1 rfl
  · intro a ha
    have ha' : t.next ≤ a := ha
    dsimp only
    cases hl : t.live a with
    | false => rfl
    | true =>
      have hle : s.next + 2 ≤ t.next := h.next_le
      rcases (inv_live h a).mp hl with h1 | h1
      · rw [hf a (by omega)] at h1; cases h1
      · simp only [List.mem_cons, List.mem_append] at h1
        rcases h1 with h1 | h1 | h1 | h1
        · omega
        · omega
        · have := (h.range a (List.mem_append_left _ ((kept_sub P).subset h1))).2; omega
        · have := (h.range a (List.mem_append_right _ h1)).2; omega

end

theorem fixBox_run {s : St} {l e g : Nat} {more els gs : List Nat} (h1 : s.data.libraries = l :: more) (hl : s.live l = true)
    (h2 : (s.libs l).elements = e :: els) (he : s.live e = true) (h3 : (s.elems e).geometries = g :: gs)
    (hg : ∀ x ∈ g :: gs, s.live x = true) :
    ∃ mn mx, Encloses mn mx ((g :: gs).map s.geos) ∧
      fixBox s = .ok () { s with elems := fun b => if b = e then { s.elems e with min := mn, max := mx } else s.elems b } := by
  obtain ⟨r, er, hr⟩ := foldBox (gs := gs.map s.geos) (mm := ((s.geos g).min, (s.geos g).max)) (encloses_single (s.geos g))
  refine ⟨r.1, r.2, by simpa using hr, ?_⟩
  have key : ∀ (xs : List Nat) (mm : Coord × Coord), (∀ x ∈ xs, s.live x = true) →
      xs.foldlM (joinPtr s) mm = ((xs.map s.geos).map some).foldlM joinBox mm := by
    intro xs
    induction xs with
    | nil => intros; rfl
    | cons x xs ih =>
      intro mm hx
      rw [List.foldlM_cons, List.map_cons, List.map_cons, List.foldlM_cons]
      have : joinPtr s mm x = joinBox mm (some (s.geos x)) := if_pos (hx x List.mem_cons_self)
      rw [this, joinBox_ok, Res.ok_bind, Res.ok_bind, ih _ fun y hy => hx y (List.mem_cons_of_mem _ hy)]
  unfold fixBox
  rw [h1]
  dsimp only
  rw [if_pos hl, h2]
  dsimp only
  rw [if_pos he, h3]
  dsimp only
  rw [if_pos (hg g List.mem_cons_self), key gs _ (fun x hx => hg x (List.mem_cons_of_mem _ hx)), er]

end Verif.Msk.Mem
