import Verif.Spec.Either
/-! # Making a call again and again -/

namespace W5500.Spec
open W5500
variable {E σ ε α : Type}

/-- `Tries call find chip m k s s'`: from state `s` the call is made `k` times, each time it returns a bus error after at most `m s1` transfers (`s1` being
the state in which it is made), and `s'` is the state at the end. -/
inductive Tries (call : Nat → M σ ε α) (find : Res ε α → Option E) (chip : σ → Chip) (m : σ → Nat) : Nat → σ → σ → Prop where
  | none {s : σ} : Tries call find chip m 0 s s
  | again {k : Nat} {s s1 s2 : σ} {r : Res ε α} (fuel : Nat) (e : E) : Tries call find chip m k s s1 → call fuel s1 = (r, s2) → find r = some e →
      (chip s2).txn ≤ (chip s1).txn + m s1 → Tries call find chip m (k + 1) s s2

end W5500.Spec
