import Verif.Spec.Converter
import Verif.Spec.Zond
import Verif.Model.LayoutData

/-! Specification vocabulary for C40 and C41: which geometries of a layout the generator should draw. -/

namespace Verif.Spec

/-- `l` is the first layer of the library whose number is requested -/
def FirstRequested (lib : Library) (req : List Int) (l : Layer) : Prop :=
  ∃ before after, lib.layers = before ++ l :: after ∧ l.layer ∈ req ∧ ∀ l' ∈ before, l'.layer ∉ req

/-- `p` is a geometry of the first requested layer of some library -/
def Candidate (L : LayoutData) (req : List Int) (p : Geometry) : Prop :=
  ∃ lib l, some lib ∈ L.libraries ∧ FirstRequested lib req l ∧ some p ∈ l.geometries

/-- the closed bounding box of `g` and the closed workspace have a point in common -/
def Touches (ws : Workspace) (g : Geometry) : Prop :=
  g.min.x ≤ ws.rightBot.x ∧ ws.leftTop.x ≤ g.max.x ∧ g.min.y ≤ ws.leftTop.y ∧ ws.rightBot.y ≤ g.max.y

/-- what one touching geometry contributes: itself, the rectangles of its path segments, or the geometries of
the referenced element -/
inductive Contributes (H : Elements) (ws : Workspace) (p : Geometry) : Geometry → Prop
  | direct : (p.type = .rectangle ∨ p.type = .polygon) → Contributes H ws p p
  | segment : p.type = .path → 2 ≤ p.coords.length → Touches ws (originRect p.layer) →
      Contributes H ws p (originRect p.layer)
  | placed {e : Nat} {g : Geometry} : p.type = .reference → p.element = some e → Drawn H e ⟨0, 0⟩ g → Touches ws g →
      Contributes H ws p g

/-- the geometries to draw -/
def Selected (L : LayoutData) (H : Elements) (ws : Workspace) (req : List Int) (g : Geometry) : Prop :=
  ∃ p, Candidate L req p ∧ Touches ws p ∧ Contributes H ws p g

/-- a rasteriser for an `R`×`C` bitmap of the whole workspace -/
def rasteriser (rnd : ℚ → ℚ) (ws : Workspace) (R C : Nat) (eps : Fl) : Zond :=
  { bound := ⟨0, R - 1, 0, C - 1⟩, ws := ws, dx := .fin (rnd ((wsW ws : ℚ) / C)), dy := .fin (rnd ((wsH ws : ℚ) / R)),
    eps := eps }

/-- the vector sizes are machine integers -/
def LayoutFits (L : LayoutData) (H : Elements) : Prop :=
  (∀ lib l p, some lib ∈ L.libraries → l ∈ lib.layers → some p ∈ l.geometries → p.coords.length < 2 ^ 64) ∧
  (∀ e g, some g ∈ (H e).geometries → g.coords.length < 2 ^ 64)

end Verif.Spec

namespace Verif.Spec

/-- A public call on a generator.  `edit` is the caller changing the matrix through the pointer that
`GetMatrix` returned. -/
inductive GenCall where
  | init (data : Option Nat) (layers : List Int) (mn mx : Coord)
  | setLayers (layers : List Int)
  | process (R C : Nat)
  | edit (m : BitMatrix)

/-- an `Init` with a layout and at least one layer -/
def GenCall.properInit : GenCall → Prop
  | .init d ls _ _ => d ≠ none ∧ ls ≠ []
  | _ => False

/-- the layers a call requests: an `Init` that returned, or `SetLayerArray` -/
def setsLayers : GenCall × Bool → Option (List Int)
  | (.init _ ls _ _, true) => some ls
  | (.setLayers ls, _) => some ls
  | _ => none

/-- the layers requested last -/
def lastLayers : List (GenCall × Bool) → Option (List Int)
  | [] => none
  | c :: rest => match lastLayers rest with
    | some l => some l
    | none => setsLayers c

end Verif.Spec
