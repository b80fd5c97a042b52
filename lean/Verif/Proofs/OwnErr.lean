import Verif.Proofs.UdpHistory
import Verif.Proofs.TcpHistory
import Verif.Proofs.ErrIn
import Verif.Proofs.NoPanic
/-! # Errors that do not come from the bus

`HoareE P m Q R`: from a state with `P`, if `m` returns `Ok a` then `Q a` holds of the final state, and if it returns the
error `e` then `R e` does. -/

namespace W5500
variable {σ S ε ε' α β : Type}

def Res.postE (Q : α → σ → Prop) (R : ε → σ → Prop) : Res ε α × σ → Prop
  | (.ok a, s) => Q a s
  | (.err e, s) => R e s
  | _ => True

structure HoareE (P : σ → Prop) (m : M σ ε α) (Q : α → σ → Prop) (R : ε → σ → Prop) : Prop where
  run : ∀ s, P s → Res.postE Q R (m s)

namespace HoareE
variable {P P' : σ → Prop} {Q Q' : α → σ → Prop} {R R' : ε → σ → Prop}

theorem err {m : M σ ε α} (h : HoareE P m Q R) {s s' : σ} {e : ε} (hp : P s) (he : m s = (.err e, s')) : R e s' := by
  have := h.run s hp
  rwa [he] at this

theorem conseq {m : M σ ε α} (h : HoareE P m Q R) (hp : ∀ s, P' s → P s) (hq : ∀ a s, Q a s → Q' a s)
    (hr : ∀ e s, R e s → R' e s) : HoareE P' m Q' R' := by
  constructor
  intro s hs
  have := h.run s (hp s hs)
  generalize m s = r at this
  obtain ⟨_ | _ | _ | _, t⟩ := r
  · exact hq _ _ this
  · exact hr _ _ this
  · trivial
  · trivial

theorem pre {m : M σ ε α} (h : HoareE P m Q R) (hp : ∀ s, P' s → P s) : HoareE P' m Q R :=
  h.conseq hp (fun _ _ h => h) (fun _ _ h => h)

theorem exc {m : M σ ε α} (h : HoareE P m Q R) (hr : ∀ e s, R e s → R' e s) : HoareE P m Q R' :=
  h.conseq (fun _ h => h) (fun _ _ h => h) hr

/-- From an ordinary triple. -/
theorem of {m : M σ ε α} {T : σ → Prop} (h : Hoare P m Q T) (hr : ∀ e s, T s → R e s) : HoareE P m Q R := by
  constructor
  intro s hs
  have := h.run s hs
  generalize m s = r at this
  obtain ⟨_ | _ | _ | _, t⟩ := r
  · exact this
  · exact hr _ _ this
  · trivial
  · trivial

/-- From an ordinary triple and the errors there are. -/
theorem ofErr {m : M σ ε α} {T : σ → Prop} {p : ε → Prop} (h : Hoare P m Q T) (he : ErrIn p m)
    (hr : ∀ e s, p e → R e s) : HoareE P m Q R := by
  constructor
  intro s hs
  have := h.run s hs
  have h2 := he.run s
  generalize m s = r at this h2
  obtain ⟨_ | _ | _ | _, t⟩ := r
  · exact this
  · exact hr _ _ (h2 _ rfl)
  · trivial
  · trivial

/-- An operation all of whose errors are mapped to errors that do not count. -/
theorem mapped {m : M σ ε' α} {f : ε' → ε} {T : σ → Prop} (h : Hoare P m Q T) (hr : ∀ e s, R (f e) s) :
    HoareE P (M.mapErr f m) Q R := by
  constructor
  intro s hs
  have := h.run s hs
  rw [M.mapErr_def]
  generalize m s = r at this
  obtain ⟨_ | _ | _ | _, t⟩ := r
  · exact this
  · exact hr _ _
  · trivial
  · trivial

theorem pure {a : α} (h : ∀ s, P s → Q a s) : HoareE P (Pure.pure a : M σ ε α) Q R := ⟨h⟩
theorem throw {e : ε} (h : ∀ s, P s → R e s) : HoareE P (M.throw e : M σ ε α) Q R := ⟨h⟩
theorem outOfFuel : HoareE P (M.outOfFuel : M σ ε α) Q R := ⟨fun _ _ => trivial⟩

theorem bind {m : M σ ε α} {f : α → M σ ε β} {Q' : β → σ → Prop} (h : HoareE P m Q R)
    (hf : ∀ a, HoareE (Q a) (f a) Q' R) : HoareE P (m >>= f) Q' R := by
  constructor
  intro s hs
  have := h.run s hs
  rw [M.bind_def]
  generalize m s = r at this
  obtain ⟨_ | _ | _ | _, t⟩ := r
  · exact (hf _).run _ this
  · exact this
  · trivial
  · trivial

theorem onSnd' {P : σ → Prop} {m : M σ ε α} {Q : α → σ → Prop} {R : ε → σ → Prop} (b : S) (h : HoareE P m Q R) :
    HoareE (fun s : S × σ => s.1 = b ∧ P s.2) (M.onSnd m) (fun a s => s.1 = b ∧ Q a s.2)
      (fun e s => s.1 = b ∧ R e s.2) := by
  constructor
  intro s hs
  have := h.run s.2 hs.2
  rw [M.onSnd_apply]
  generalize m s.2 = r at this
  obtain ⟨_ | _ | _ | _, t⟩ := r
  · exact ⟨hs.1, this⟩
  · exact ⟨hs.1, this⟩
  · trivial
  · trivial

theorem ite {c : Prop} [Decidable c] {m m' : M σ ε α} (h : c → HoareE P m Q R) (h' : ¬ c → HoareE P m' Q R) :
    HoareE P (if c then m else m') Q R := by
  split
  · exact h ‹_›
  · exact h' ‹_›

theorem fact {p : Prop} {m : M σ ε α} (h : p → HoareE P m Q R) : HoareE (fun s => p ∧ P s) m Q R :=
  ⟨fun s hs => (h hs.1).run s hs.2⟩

theorem fact' {p : Prop} {m : M σ ε α} (h : p → HoareE P m Q R) : HoareE (fun s => P s ∧ p) m Q R :=
  ⟨fun s hs => (h hs.2).run s hs.1⟩

end HoareE
end W5500
