import Verif.Model.LayoutMatrix

/-!
Copying the storage of a bitmap when memory may run out: `data = Rhs.data` of Impl/Vector2D/Vector2D.cpp:37-43 and its users in
Impl/BitMatrix/BitMatrix.cpp and Impl/LayoutMatrix/LayoutMatrix.cpp.
-/

namespace Verif.AssignMemory

/-- Room in the vector that is assigned to: capacity of the outer vector, capacities of its rows, and the number of
allocations that still succeed. -/
structure Room where
  outer : Nat
  rows : List Nat
  allocs : Nat

/-- an outcome with `r` put before the rows -/
def prepend (r : List UInt8) : Out (V2 UInt8) Unit → Out (V2 UInt8) Unit
  | .ok _ d => .ok () (r :: d)
  | .throw e d => .throw e (r :: d)
  | .ub => .ub

/-- how many of these rows need memory of their own -/
def needed (d : V2 UInt8) : Nat := (d.filter fun r => decide (r ≠ [])).length

/-- `std::vector<std::vector<uint8_t>>::operator=(const&)` into existing storage (libstdc++, `bits/vector.tcc`): the rows that are
there are assigned one after the other, each allocating only if its capacity is too small; then further rows are constructed (and
destroyed again if one of them fails) or surplus rows destroyed. -/
def assignRows : List Nat → Nat → V2 UInt8 → V2 UInt8 → Out (V2 UInt8) Unit
  | _, b, [], rest => if needed rest ≤ b then .ok () rest else .throw .badAlloc []
  | _, _, _ :: _, [] => .ok () []
  | caps, b, l :: ls, r :: rs =>
    if r.length ≤ caps.headD 0 then prepend r (assignRows caps.tail b ls rs)
    else
      match b with
      | 0 => .throw .badAlloc (l :: ls)
      | b + 1 => prepend r (assignRows caps.tail b ls rs)

/-- `Vector2D::operator=(const Vector2D&)`, Vector2D.cpp:37-43.  If the outer vector is too small, everything is copied to new
storage first. -/
def assignData (room : Room) (lhs rhs : V2 UInt8) : Out (V2 UInt8) Unit :=
  if room.outer < rhs.length then
    if 1 + needed rhs ≤ room.allocs then .ok () rhs else .throw .badAlloc lhs
  else assignRows room.rows room.allocs lhs rhs

/-- `BitMatrix::operator=(const BitMatrix&)`, BitMatrix.cpp:71-82, distinct objects: the dimensions are assigned last. -/
def assign (room : Room) (rhs : BitMatrix) : M BitMatrix Unit := fun lhs =>
  match assignData room lhs.bitmap rhs.bitmap with
  | .ok _ d => .ok () ⟨d, rhs.isize, rhs.jsize⟩
  | .throw e d => .throw e { lhs with bitmap := d }
  | .ub => .ub

/-- `LayoutMatrix::operator=(const BitMatrix&)` and `operator=(const LayoutMatrix&)`, LayoutMatrix.cpp:80-109, distinct objects:
`Reset()` first, the dimensions before the storage. -/
def assignL (room : Room) (rhs : BitMatrix) : M BitMatrix Unit := fun _ =>
  match assignData room [] rhs.bitmap with
  | .ok _ d => .ok () ⟨d, rhs.isize, rhs.jsize⟩
  | .throw e d => .throw e ⟨d, rhs.isize, rhs.jsize⟩
  | .ub => .ub

/-- `LayoutMatrix(LayoutMatrix&&) noexcept`, LayoutMatrix.cpp:62-68, which copies.  `none`: the exception leaves a `noexcept`
function, `std::terminate`. -/
def moveNewL (allocs : Nat) (rhs : BitMatrix) : Option BitMatrix :=
  match assignData ⟨0, [], allocs⟩ [] rhs.bitmap with
  | .ok _ d => some ⟨d, rhs.isize, rhs.jsize⟩
  | _ => none

/-- `LayoutMatrix(BitMatrix&&) noexcept`, LayoutMatrix.cpp:70-75: the same without `Jsize`. -/
def moveNewB (allocs : Nat) (rhs : BitMatrix) : Option BitMatrix :=
  match assignData ⟨0, [], allocs⟩ [] rhs.bitmap with
  | .ok _ d => some ⟨d, rhs.isize, 0⟩
  | _ => none

/-- `LayoutMatrix::operator=(BitMatrix&&) noexcept`, LayoutMatrix.cpp:111-122, distinct objects: `Reset()`, copies, and moves the
source's storage to itself.  Target and source afterwards. -/
def assignMoveB (room : Room) (rhs : BitMatrix) : Option (BitMatrix × BitMatrix) :=
  match assignData room [] rhs.bitmap with
  | .ok _ d => some (⟨d, rhs.isize, rhs.jsize⟩, { rhs with bitmap := [] })
  | _ => none

end Verif.AssignMemory
