import Verif.Base
/-!
# Outcomes of C++ code

`ub` is undefined behaviour (out-of-bounds access, null dereference, division by zero, double free, ...),
`exn` is an escaping C++ exception (`std::map::at` on a missing key). Both abort the computation.
-/
namespace CCGL

inductive Out (α : Type) where
  | ok (a : α)
  | ub
  | exn
deriving Repr, DecidableEq

namespace Out
variable {α β : Type}

def bind (x : Out α) (f : α → Out β) : Out β :=
  match x with
  | ok a => f a
  | ub => ub
  | exn => exn

instance : Monad Out where
  pure := ok
  bind := bind

@[simp] theorem pure_eq (a : α) : (pure a : Out α) = ok a := rfl
@[simp] theorem ok_bind (a : α) (f : α → Out β) : ((ok a : Out α) >>= f) = f a := rfl
@[simp] theorem ub_bind (f : α → Out β) : ((ub : Out α) >>= f) = ub := rfl
@[simp] theorem exn_bind (f : α → Out β) : ((exn : Out α) >>= f) = exn := rfl

theorem bind_ok {x : Out α} {f : α → Out β} {b : β} (h : (x >>= f) = ok b) : ∃ a, x = ok a ∧ f a = ok b := by
  cases x with
  | ok a => exact ⟨a, rfl, h⟩
  | ub => simp at h
  | exn => simp at h

instance : LawfulMonad Out := LawfulMonad.mk'
  (id_map := by intro α x; cases x <;> rfl)
  (pure_bind := by intros; rfl)
  (bind_assoc := by intro α β γ x f g; cases x <;> rfl)

end Out

/-- A C++ array pointer: `none` is `nullptr`, `some l` an allocated block with contents `l`. -/
abbrev Ptr (α : Type) := Option (List α)

/-- `p[i]`: undefined for null and for an index outside of the block. -/
def readAt {α : Type} (p : Ptr α) (i : Int) : Out α :=
  match p with
  | none => .ub
  | some l => if 0 ≤ i then (match l[i.toNat]? with | some a => .ok a | none => .ub) else .ub

/-- `p[i] = v`. -/
def writeAt {α : Type} (p : Ptr α) (i : Int) (v : α) : Out (Ptr α) :=
  match p with
  | none => .ub
  | some l => if 0 ≤ i ∧ i < l.length then .ok (some (l.set i.toNat v)) else .ub

/-- utils_array.h:330-355 `Initialize1DArray(row, data, init)` on a null pointer: stays null for
`row ≤ 0`. Memory exhaustion is not modelled. -/
def alloc1 {α : Type} (n : Int) (v : α) : Ptr α :=
  if n ≤ 0 then none else some (List.replicate n.toNat v)

/-- utils_array.h:380-411 `Initialize2DArray(row, col, data, init)` on a null pointer. Note that `row = 0`
yields a non-null pointer to zero rows. Negative sizes (`new(nothrow)` then returns null or the pool is
missing) are represented by the null pointer. -/
def alloc2 {α : Type} (r c : Int) (v : α) : Ptr (List α) :=
  if r < 0 ∨ c < 0 then none else some (List.replicate r.toNat (List.replicate c.toNat v))

end CCGL
