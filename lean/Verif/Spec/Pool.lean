import Verif.Model.Pool
/-!
# Specification: disciplined use of the matrix pools (C42)
-/
namespace Jxl


/-- A matrix with `h` rows of `w` elements. -/
def HasDims (h w : Nat) (m : Mat) : Prop := m.length = h ∧ ∀ row ∈ m, row.length = w

/-- What the clients together may do: return or write only matrices they hold, and return only rectangular ones, each
part once. `owned` is the list of references the clients hold. -/
def Allowed (s : PoolSt) (owned : List Nat) : PoolOp → Prop
  | .put3 m => (∀ r ∈ m, r ∈ owned) ∧ m.Nodup ∧ ∃ h w, ∀ r ∈ m, ∃ x, s.heap[r]? = some x ∧ HasDims h w x
  | .put2 r => r ∈ owned ∧ ∃ h w, ∃ x, s.heap[r]? = some x ∧ HasDims h w x
  | .write r _ => r ∈ owned
  | _ => True

/-- The references held after an operation that handed out `out`. -/
def ownedAfter (owned out : List Nat) : PoolOp → List Nat
  | .put3 m => owned.filter (· ∉ m)
  | .put2 r => owned.filter (· ≠ r)
  | _ => out ++ owned

/-- States reachable by disciplined use. -/
inductive PoolReach : PoolSt → List Nat → Prop where
  | init : PoolReach {} []
  | step {s owned} (op : PoolOp) : PoolReach s owned → Allowed s owned op →
      PoolReach (poolStep s op).1 (ownedAfter owned (poolStep s op).2 op)

/-- The references lying in the pools. -/
def poolRefs (s : PoolSt) : List Nat := s.items3.flatMap (·.2) ++ s.items2.map (·.2)

/-- What Get promises: `d` matrices of `h × w` zeros that nobody else holds and that are no longer in a pool. -/
def Fresh (owned : List Nat) (s' : PoolSt) (out : List Nat) (d h w : Nat) : Prop :=
  out.length = d ∧ out.Nodup ∧ (∀ r ∈ out, r ∉ owned ∧ r ∉ poolRefs s' ∧ s'.heap[r]? = some (zeroMat h w))

end Jxl
