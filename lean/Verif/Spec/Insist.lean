import Verif.Spec.Either
/-! # Sending data piece by piece, in spite of bus errors -/

namespace W5500.Spec
open W5500
variable {E σ ε α X : Type}

/-- `Insists send find chip m data k j s s'`: a program sends `data`. It always offers what has not been taken yet. Of its calls `k` returned a bus error, after
at most `m` transfers each; the others returned `Ok`, and took `j` bytes together. -/
inductive Insists (send : Nat → List U8 → M σ ε Nat) (find : Res ε Nat → Option E) (chip : σ → Chip) (m : Nat) (data : List U8) :
    Nat → Nat → σ → σ → Prop where
  | start {s : σ} : Insists send find chip m data 0 0 s s
  | took {k j : Nat} {s s1 s2 : σ} (fuel i : Nat) : Insists send find chip m data k j s s1 → send fuel (data.drop j) s1 = (.ok i, s2) →
      Insists send find chip m data k (j + i) s s2
  | failed {k j : Nat} {s s1 s2 : σ} {r : Res ε Nat} (fuel : Nat) (e : E) : Insists send find chip m data k j s s1 →
      send fuel (data.drop j) s1 = (r, s2) → find r = some e → (chip s2).txn ≤ (chip s1).txn + m → Insists send find chip m data (k + 1) j s s2

/-- `Delivers call find chip m xs k j s s'`: a program makes a call for each of `xs`, in order, and makes it again when it returned a bus error. Of its calls
`k` returned a bus error, after at most `m` transfers each; the others returned `Ok`, `j` of them. -/
inductive Delivers (call : Nat → X → M σ ε α) (find : Res ε α → Option E) (chip : σ → Chip) (m : Nat) (xs : List X) : Nat → Nat → σ → σ → Prop where
  | start {s : σ} : Delivers call find chip m xs 0 0 s s
  | done {k j : Nat} {s s1 s2 : σ} (fuel : Nat) (x : X) (a : α) : Delivers call find chip m xs k j s s1 → xs[j]? = some x →
      call fuel x s1 = (.ok a, s2) → Delivers call find chip m xs k (j + 1) s s2
  | failed {k j : Nat} {s s1 s2 : σ} {r : Res ε α} (fuel : Nat) (x : X) (e : E) : Delivers call find chip m xs k j s s1 → xs[j]? = some x →
      call fuel x s1 = (r, s2) → find r = some e → (chip s2).txn ≤ (chip s1).txn + m → Delivers call find chip m xs (k + 1) j s s2

end W5500.Spec
