import Verif.Spec.Either
/-! # Receiving again and again, in spite of bus errors -/

namespace W5500.Spec
open W5500
variable {E σ ε α : Type}

/-- `Collects recv find chip m k got s s'`: a program calls `recv` again and again, each time with a buffer of its choice. `k` calls returned a bus error, and
some may have returned another error (such as `WouldBlock`), after at most `m` transfers each; the others returned `Ok`. These are listed in `got`: the buffer
before, the value returned, and the buffer afterwards. -/
inductive Collects (recv : Nat → M (List U8 × σ) ε α) (find : Res ε α → Option E) (chip : σ → Chip) (m : Nat) :
    Nat → List (List U8 × α × List U8) → σ → σ → Prop where
  | start {s : σ} : Collects recv find chip m 0 [] s s
  | got {k : Nat} {l : List (List U8 × α × List U8)} {s s1 s2 : σ} (fuel : Nat) (buf buf' : List U8) (a : α) : Collects recv find chip m k l s s1 →
      recv fuel (buf, s1) = (.ok a, (buf', s2)) → Collects recv find chip m k (l ++ [(buf, a, buf')]) s s2
  | nothing {k : Nat} {l : List (List U8 × α × List U8)} {s s1 s2 : σ} {r : Res ε α} (fuel : Nat) (buf buf' : List U8) : Collects recv find chip m k l s s1 →
      recv fuel (buf, s1) = (r, (buf', s2)) → (∀ a, r ≠ .ok a) → find r = none → (chip s2).txn ≤ (chip s1).txn + m → Collects recv find chip m k l s s2
  | failed {k : Nat} {l : List (List U8 × α × List U8)} {s s1 s2 : σ} {r : Res ε α} (fuel : Nat) (buf buf' : List U8) (e : E) :
      Collects recv find chip m k l s s1 → recv fuel (buf, s1) = (r, (buf', s2)) → find r = some e → (chip s2).txn ≤ (chip s1).txn + m →
      Collects recv find chip m (k + 1) l s s2

end W5500.Spec
