import Verif.Spec.Zond

/-! Vocabulary for C85. -/

namespace Verif.Spec
open Verif

/-- the rectangle with corners `lt`, `rb` covers the workspace rectangle `ws` (y grows upwards) -/
def CoversWs (ws : Workspace) (lt rb : Coord) : Prop :=
  lt.x ≤ ws.leftTop.x ∧ ws.rightBot.x ≤ rb.x ∧ ws.leftTop.y ≤ lt.y ∧ rb.y ≤ ws.rightBot.y

/-- all four coordinates of the workspace, and the corners, are `int` values -/
def IntCorners (ws : Workspace) (lt rb : Coord) : Prop :=
  inI32 ws.leftTop.x ∧ inI32 ws.leftTop.y ∧ inI32 ws.rightBot.x ∧ inI32 ws.rightBot.y ∧
    inI32 lt.x ∧ inI32 lt.y ∧ inI32 rb.x ∧ inI32 rb.y

end Verif.Spec
