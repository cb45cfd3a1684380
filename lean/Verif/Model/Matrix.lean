import Verif.Model.Bvh
import Mathlib.Algebra.Field.Defs

/-!
# Crate `matrix`: `GenericMatrix` (external; its evident definition)

A dense matrix stored by rows.  `get`/`set` return `Err` out of range, which every caller in /repo/src/colour_matrix.rs unwraps.
-/

namespace Rendering

/-- `GenericMatrix<T>`. -/
structure Mat (α : Type) where
  nrows : Nat
  ncols : Nat
  data : List α
deriving DecidableEq, Repr

namespace Mat
variable {α β : Type}

/-- As many elements as the shape says. -/
def WF (m : Mat α) : Prop := m.data.length = m.nrows * m.ncols

/-- `GenericMatrix::new(v, nrows, ncols)`. -/
def new (v : α) (nrows ncols : Nat) : Mat α := ⟨nrows, ncols, List.replicate (nrows * ncols) v⟩

/-- `GenericMatrix::get`. -/
def get? (m : Mat α) (r c : Nat) : Option α :=
  if r < m.nrows ∧ c < m.ncols then m.data[r * m.ncols + c]? else none

/-- `GenericMatrix::set(r, c, v).unwrap()`. -/
def set (m : Mat α) (r c : Nat) (v : α) : Res (Mat α) :=
  if r < m.nrows ∧ c < m.ncols then .ok { m with data := m.data.set (r * m.ncols + c) v } else .panic

/-- The product of two entries (0 when one is out of range, which cannot happen in `mul`). -/
def term [Field α] (a b : Mat α) (i j k : Nat) : α :=
  match a.get? i k, b.get? k j with
  | some x, some y => x * y
  | _, _ => 0

/-- `&a * &b`: the matrix product (shapes must agree, otherwise the crate returns an error that is unwrapped). -/
def mul [Field α] (a b : Mat α) : Res (Mat α) :=
  if a.ncols ≠ b.nrows then .panic
  else .ok ⟨a.nrows, b.ncols, (List.range a.nrows).flatMap (fun i => (List.range b.ncols).map (fun j =>
    ((List.range a.ncols).map (term a b i j)).sum))⟩

end Mat
end Rendering
