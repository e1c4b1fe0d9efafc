import Verif.Model.GeneratorFragments

/-!
How the work is meant to be divided among fragments: a grid of `FR × FC` fragments.
-/

namespace Verif.Spec
open Verif

/-- the fragments form a grid of `FR` rows and `FC` columns -/
def FragGrid (fs : V2 Fragment) (FR FC : Nat) : Prop := fs.length = FR ∧ ∀ row ∈ fs, row.length = FC

/-- the fragment in row `p` and column `q` -/
def fragAt (fs : V2 Fragment) (p q : Nat) : Option Fragment := fs[p]?.bind fun row => row[q]?

/-- bitmap cell `(i, j)` belongs to these (inclusive) bounds -/
def InBand (b : Indicies) (i j : Nat) : Prop := b.iBegin ≤ i ∧ i ≤ b.iEnd ∧ b.jBegin ≤ j ∧ j ≤ b.jEnd

/-- point `(x, y)` lies in the closed rectangle -/
def InWindow (ws : Workspace) (x y : Int) : Prop :=
  ws.leftTop.x ≤ x ∧ x ≤ ws.rightBot.x ∧ ws.rightBot.y ≤ y ∧ y ≤ ws.leftTop.y

/-- the half-open cell in row `p`, column `q` of the rectangle `ws` cut into `FR × FC` equal parts, `y` growing upwards -/
def InPart (ws : Workspace) (FR FC p q : Nat) (c : Coord) : Prop :=
  (ws.leftTop.x + q * ((ws.rightBot.x - ws.leftTop.x : ℚ) / FC) ≤ c.x ∧
    c.x < ws.leftTop.x + (q + 1) * ((ws.rightBot.x - ws.leftTop.x : ℚ) / FC)) ∧
  (ws.leftTop.y - (p + 1) * ((ws.leftTop.y - ws.rightBot.y : ℚ) / FR) < c.y ∧
    c.y ≤ ws.leftTop.y - p * ((ws.leftTop.y - ws.rightBot.y : ℚ) / FR))

/-- the closed bounding box of `g` and the closed rectangle share a point (if the box is not inverted) -/
def Meets (ws : Workspace) (g : Geometry) : Prop :=
  g.min.x ≤ ws.rightBot.x ∧ ws.leftTop.x ≤ g.max.x ∧ ws.rightBot.y ≤ g.max.y ∧ g.min.y ≤ ws.leftTop.y

instance (ws : Workspace) (g : Geometry) : Decidable (Meets ws g) := by unfold Meets; infer_instance

/-- the number of fragments the box of `g` meets -/
def fragmentsMet (fs : V2 Fragment) (g : Geometry) : Nat := (fs.flatten.filter fun f => Meets f.angle g).length

/-- every second entry: positions 0, 2, 4, … -/
def evens {α : Type} (l : List α) : List α := (List.range ((l.length + 1) / 2)).filterMap fun k => l[2 * k]?

/-- every second entry: positions 1, 3, 5, … -/
def odds {α : Type} (l : List α) : List α := (List.range (l.length / 2)).filterMap fun k => l[2 * k + 1]?

/-- which positions of `l` are given away: those with a small geometry whose predecessor is not given away -/
def givenAway (small : Geometry → Prop) [DecidablePred small] (l : List Geometry) : Nat → Bool
  | 0 => l[0]?.any fun g => small g
  | i + 1 => !givenAway small l i && l[i + 1]?.any fun g => small g

/-- the entries of `l` at the positions that satisfy `p`, in order -/
def pick {α : Type} (l : List α) (p : Nat → Bool) : List α :=
  (List.range l.length).filterMap fun i => if p i then l[i]? else none

/-- the axis from `0` on is cut into `F` parts of length `d`; positions before the first belong to the first and positions
behind the last to the last -/
def AxisPart (F : Nat) (d : ℚ) (t : Int) (q : Nat) : Prop :=
  q < F ∧ (q = 0 ∨ (q : ℚ) * d ≤ t) ∧ (q + 1 = F ∨ (t : ℚ) < (q + 1) * d)

/-- the part of the grid of fragments a point lies in, or is nearest to if it is outside -/
def NearestPart (ws : Workspace) (FR FC p q : Nat) (c : Coord) : Prop :=
  AxisPart FC ((ws.rightBot.x - ws.leftTop.x : ℚ) / FC) (c.x - ws.leftTop.x) q ∧
  AxisPart FR ((ws.leftTop.y - ws.rightBot.y : ℚ) / FR) (ws.leftTop.y - c.y) p

end Verif.Spec
