import Verif.Spec.Success
import Verif.Spec.Tally
/-! # Failing on the bus, or succeeding -/

namespace W5500.Spec
open W5500
variable {E σ ε α : Type}

/-- From state `s`, the call ends in one of two ways: it returns `a` and leaves the state `s'`; or it returns a bus error (`find` finds it in the result),
that of one of the transfers the call made. -/
def SucceedsUnless (faults : Nat → Option (E × Nat)) (chip : σ → Chip) (find : Res ε α → Option E) (call : Nat → M σ ε α) (s : σ) (a : α) (s' : σ) : Prop :=
  ∃ N, ∀ fuel, N ≤ fuel → call fuel s = (.ok a, s') ∨
    ∃ e i k, find (call fuel s).1 = some e ∧ (chip s).txn ≤ i ∧ i < (chip (call fuel s).2).txn ∧ faults i = some (e, k)

end W5500.Spec
