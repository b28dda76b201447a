/-!
# Go run-time conventions

Shared by every model file; see DESIGN.md.
-/
namespace Jxl

/-- Outcome of a Go call: a value, a returned `error`, or a run-time panic. -/
inductive Res (α : Type) where
  | ok (a : α)
  | err
  | panic
  deriving Repr, DecidableEq

namespace Res
def bind {α β : Type} (r : Res α) (f : α → Res β) : Res β :=
  match r with
  | ok a => f a
  | err => err
  | panic => panic
instance : Monad Res where
  pure := ok
  bind := bind
@[simp] theorem pure_eq {α : Type} (a : α) : (pure a : Res α) = ok a := rfl
@[simp] theorem bind_ok {α β : Type} (a : α) (f : α → Res β) : (ok a >>= f) = f a := rfl
@[simp] theorem bind_err {α β : Type} (f : α → Res β) : ((err : Res α) >>= f) = err := rfl
@[simp] theorem bind_panic {α β : Type} (f : α → Res β) : ((panic : Res α) >>= f) = panic := rfl
end Res

/-- Go conversion to `uint8`. -/
def u8 (n : Nat) : Nat := n % 256
/-- Go conversion to `uint32`. -/
def u32 (n : Nat) : Nat := n % 4294967296
/-- Go conversion to `uint64`. -/
def u64 (n : Nat) : Nat := n % 18446744073709551616
/-- Go conversion to `int32` (two's complement wrap). -/
def i32 (z : Int) : Int := (z + 2147483648) % 4294967296 - 2147483648
/-- Go conversion to `int64` (two's complement wrap). -/
def i64 (z : Int) : Int := (z + 9223372036854775808) % 18446744073709551616 - 9223372036854775808
/-- Go conversion of a signed value to `uint32`. -/
def toU32 (z : Int) : Nat := (z % 4294967296).toNat

/-- Go slice indexing `l[i]` with a (possibly negative) index: panics out of range. -/
def idx {α : Type} (l : List α) (i : Int) : Res α :=
  if i < 0 then .panic else
    match l[i.toNat]? with
    | some a => .ok a
    | none => .panic

/-- Go slice assignment `l[i] = a`: panics out of range. -/
def setAt {α : Type} (l : List α) (i : Int) (a : α) : Res (List α) :=
  if i < 0 then .panic
  else if i.toNat < l.length then .ok (l.set i.toNat a)
  else .panic

end Jxl
