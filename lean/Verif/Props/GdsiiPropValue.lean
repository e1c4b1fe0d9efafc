import Verif.Model.GdsiiPropValue
import Verif.Props.GdsiiAny

/-!
C69: `ReadSection_PROPVALUE` could not store a value even if the reader called it.
-/

namespace Verif.Props
open Verif Spec.Gdsii

/-- in the states of the record loop, PROPVALUE changes nothing or is undefined -/
theorem propValue_inv {base : List (Option Library)} {heap0 : Elements} {n0 : Nat} {p : Gds.PS} {ls : List Library}
    (h : Gds.Inv base heap0 n0 p ls) (r : Gds.Rec) :
    Gds.secPropValue r p = .ok p ∨ (Gds.secPropValue r p = .ub ∧ p.inGeom = true ∧ p.theGeom.properties = []) := by
  unfold Gds.secPropValue
  by_cases hg : p.inGeom = true
  · rw [if_pos hg]
    have key : p.theGeom.properties = [] ∨ ∃ k, p.theGeom.properties = [(k, [])] := by
      unfold Gds.PS.theGeom
      cases he : p.elem with
      | none => exact .inl rfl
      | some a =>
        dsimp only
        obtain ⟨gs, h1, h2, -⟩ := (h.opened a he).geometries
        rw [h1, List.getLast?_map]
        cases hl : gs.getLast? with
        | none => exact .inl rfl
        | some g =>
          dsimp only [Option.map]
          rcases (h2 g (List.mem_of_getLast? hl)).properties with h3 | ⟨k, -, h3⟩
          · exact .inl h3
          · exact .inr ⟨k, h3⟩
    rcases key with h0 | ⟨k, hk⟩
    · right; rw [h0]; exact ⟨rfl, hg, rfl⟩
    · left; rw [hk]; rfl
  · rw [if_neg hg]; exact .inl rfl

/-- **C69** With PROPVALUE dispatched, C57 would hold unchanged for every file: whatever is defined leaves good geometries only, so every
property that is kept has an empty value. -/
theorem C69_never_stored (env : Gds.Env) (content : List UInt8) (libs : List (Option Library)) (heap : Elements) (next fuel : Nat)
    (p : Gds.PS) (h : Gds.readRecordsPV env fuel { file := ⟨content, false⟩, libs := libs, heap := heap, next := next } = .ok p) :
    ∃ new : List Library, p.libs = libs ++ new.map some ∧ (∀ l ∈ new, GoodLibrary l) ∧
      ∀ a ∈ elementsOf new, GoodElement (p.heap a) ∧
        ∀ g ∈ (p.heap a).geometries, ∀ g', g = some g' → ∀ kv ∈ g'.properties, kv.2 = [] := by
  have key : ∀ (fuel : Nat) (q : Gds.PS) (ls : List Library), Gds.Inv libs heap next q ls →
      Gds.readRecordsPV env fuel q = .ok p → ∃ ls1, Gds.Inv libs heap next p ls1 := by
    intro fuel
    induction fuel with
    | zero => intro q ls hi hr; cases hr; exact ⟨ls, hi⟩
    | succ fuel ih =>
      intro q ls hi hr
      rw [Gds.readRecordsPV] at hr
      split at hr
      · cases hr; exact ⟨ls, hi⟩
      · split at hr
        · obtain ⟨q', h1, hr⟩ := Gds.bind_ok hr
          have h' : ∀ s, Gds.Inv libs heap next { q with file := s } ls :=
            fun s => ⟨hi.libs, hi.good, hi.next, hi.owned, hi.closed, hi.opened, hi.rest, hi.lib⟩
          unfold Gds.dispatchPV at h1
          split at h1
          · rcases propValue_inv (h' _) _ with h2 | ⟨h2, -⟩
            · rw [h2] at h1
              cases h1
              exact ih _ ls (h' _) hr
            · rw [h2] at h1; cases h1
          · obtain ⟨ls2, h2⟩ := Gds.inv_step (h' _) (Gds.dispatch_eff _ _ _ _ h1)
            exact ih _ ls2 h2 hr
        · cases hr; exact ⟨ls, hi.libs, hi.good, hi.next, hi.owned, hi.closed, hi.opened, hi.rest, hi.lib⟩
  obtain ⟨new, hi⟩ := key fuel _ [] (inv_start libs heap next ⟨content, false⟩) h
  refine ⟨new, hi.libs, hi.good, fun a ha => ⟨hi.closed a ha, ?_⟩⟩
  obtain ⟨gs, h1, h2, -⟩ := (hi.closed a ha).geometries
  intro g hg g' hgg kv hkv
  subst hgg
  rw [h1] at hg
  simp only [List.mem_map, Option.some.injEq, exists_eq_right] at hg
  rcases (h2 g' hg).properties with h3 | ⟨k, -, h3⟩
  · rw [h3] at hkv; cases hkv
  · rw [h3] at hkv
    simp only [List.mem_singleton] at hkv
    rw [hkv]

/-- **C69** A PROPVALUE record behind its PROPATTR record would be left in the stream: the value is taken for records. -/
theorem C69_out_of_step (env : Gds.Env) (p : Gds.PS) (hg : p.inGeom = true) (k : Int) (d : UInt8) (value rest : List UInt8) (fuel : Nat)
    (hp : p.theGeom.properties.getLast? = some (k, [])) :
    Gds.readRecordsPV env (fuel + 1) { p with file := ⟨record 0x2C d value ++ rest, false⟩ } =
      Gds.readRecordsPV env fuel { p with file := ⟨value ++ rest, false⟩ } := by
  rw [Gds.readRecordsPV]
  have e : record 0x2C d value ++ rest = UInt8.ofNat (((value.length + 4 : Int) % 65536).toNat / 256) ::
      UInt8.ofNat (((value.length + 4 : Int) % 65536).toNat % 256) :: 0x2C :: d :: (value ++ rest) := rfl
  rw [e]
  dsimp only
  have : Gds.dispatchPV env ⟨Gds.recLength (UInt8.ofNat (((value.length + 4 : Int) % 65536).toNat / 256))
      (UInt8.ofNat (((value.length + 4 : Int) % 65536).toNat % 256)), 0x2C⟩ { p with file := ⟨value ++ rest, false⟩ } =
      .ok { p with file := ⟨value ++ rest, false⟩ } := by
    unfold Gds.dispatchPV
    rw [if_pos rfl]
    unfold Gds.secPropValue
    have h1 : { p with file := ⟨value ++ rest, false⟩ }.inGeom = true := hg
    have h2 : { p with file := ⟨value ++ rest, false⟩ }.theGeom.properties.getLast? = some (k, []) := hp
    rw [if_pos h1, h2]
  rw [if_neg (by simp), this, Res.ok_bind]

/-- **C69** A PROPVALUE record in a figure without PROPATTR record would write before the beginning of the vector. -/
theorem C69_without_attr (env : Gds.Env) (p : Gds.PS) (hg : p.inGeom = true) (r : Gds.Rec) (hr : r.recordType = 0x2C)
    (hp : p.theGeom.properties = []) : Gds.dispatchPV env r p = .ub := by
  unfold Gds.dispatchPV Gds.secPropValue
  rw [if_pos hr, if_pos hg, hp]
  rfl

/-- a file with one figure and one property with the four-byte value `00 04 11 00` — which is an ENDEL record -/
def valued : List UInt8 :=
  record 0x01 2 (List.replicate 24 0) ++ record 0x05 2 (List.replicate 24 0) ++ record 0x08 0 [] ++
    record 0x2B 2 [0, 9] ++ record 0x2C 6 [0, 4, 0x11, 0] ++ record 0x07 0 [] ++ record 0x04 0 []

/-- C69 at work: the value ends the figure -/
example : ∃ p, Gds.readRecordsPV emptyEnv 200 { file := ⟨valued, false⟩, libs := [], heap := fun _ => {}, next := 0 } = .ok p ∧
    p.libs = [some { elements := [some 0] }] ∧ (p.heap 0).geometries.map (·.map Geometry.properties) = [some [(9, [])]] := by
  refine ⟨_, rfl, ?_, ?_⟩
  · rfl
  · rfl

/-- … and in a figure without property the same record is undefined -/
example : Gds.readRecordsPV emptyEnv 200 { file := ⟨record 0x01 2 (List.replicate 24 0) ++ record 0x05 2 (List.replicate 24 0) ++
    record 0x08 0 [] ++ record 0x2C 6 [65, 66], false⟩, libs := [], heap := fun _ => {}, next := 0 } = .ub := rfl

end Verif.Props
