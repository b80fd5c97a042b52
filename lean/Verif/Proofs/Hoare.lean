import Verif.Proofs.Monad
/-! # Hoare triples for the driver monad

`Hoare P m Q R`: from a state with `P`, if `m` returns `Ok a` then `Q a` holds of the final state, and if it ends
in any other way (error, panic, fuel) then `R` does. -/

namespace W5500
variable {σ τ S ε ε' α β : Type}

/-- Postcondition selection. -/
def Res.post (Q : α → σ → Prop) (R : σ → Prop) : Res ε α × σ → Prop
  | (.ok a, s) => Q a s
  | (_, s) => R s

structure Hoare (P : σ → Prop) (m : M σ ε α) (Q : α → σ → Prop) (R : σ → Prop) : Prop where
  run : ∀ s, P s → Res.post Q R (m s)

namespace Hoare
variable {P P' : σ → Prop} {Q Q' : α → σ → Prop} {R R' : σ → Prop}

theorem ok {m : M σ ε α} (h : Hoare P m Q R) {s s' : σ} {a : α} (hp : P s) (he : m s = (.ok a, s')) : Q a s' := by
  have := h.run s hp
  rwa [he] at this

theorem err {m : M σ ε α} (h : Hoare P m Q R) {s s' : σ} {e : ε} (hp : P s) (he : m s = (.err e, s')) : R s' := by
  have := h.run s hp
  rwa [he] at this

theorem both {m : M σ ε α} (h : Hoare P m (fun _ => R) R) {s : σ} (hp : P s) : R (m s).2 := by
  have := h.run s hp
  generalize m s = r at this
  obtain ⟨_ | _ | _ | _, t⟩ := r <;> exact this

theorem post_mono {r : Res ε α × σ} (hq : ∀ a s, Q a s → Q' a s) (hr : ∀ s, R s → R' s)
    (h : Res.post Q R r) : Res.post Q' R' r := by
  obtain ⟨_ | _ | _ | _, s⟩ := r
  · exact hq _ _ h
  · exact hr _ h
  · exact hr _ h
  · exact hr _ h

theorem conseq {m : M σ ε α} (h : Hoare P m Q R) (hp : ∀ s, P' s → P s) (hq : ∀ a s, Q a s → Q' a s)
    (hr : ∀ s, R s → R' s) : Hoare P' m Q' R' :=
  ⟨fun s hs => post_mono hq hr (h.run s (hp s hs))⟩

theorem pre {m : M σ ε α} (h : Hoare P m Q R) (hp : ∀ s, P' s → P s) : Hoare P' m Q R :=
  h.conseq hp (fun _ _ h => h) (fun _ h => h)

theorem post {m : M σ ε α} (h : Hoare P m Q R) (hq : ∀ a s, Q a s → Q' a s) : Hoare P m Q' R :=
  h.conseq (fun _ h => h) hq (fun _ h => h)

theorem exc {m : M σ ε α} (h : Hoare P m Q R) (hr : ∀ s, R s → R' s) : Hoare P m Q R' :=
  h.conseq (fun _ h => h) (fun _ _ h => h) hr

theorem pure {a : α} (h : ∀ s, P s → Q a s) : Hoare P (Pure.pure a : M σ ε α) Q R := ⟨h⟩

theorem bind {m : M σ ε α} {f : α → M σ ε β} {Q' : β → σ → Prop} (h : Hoare P m Q R)
    (hf : ∀ a, Hoare (Q a) (f a) Q' R) : Hoare P (m >>= f) Q' R := by
  constructor
  intro s hs
  have := h.run s hs
  rw [M.bind_def]
  generalize m s = r at this
  obtain ⟨_ | _ | _ | _, t⟩ := r
  · exact (hf _).run _ this
  · exact this
  · exact this
  · exact this

theorem throw {e : ε} (h : ∀ s, P s → R s) : Hoare P (M.throw e : M σ ε α) Q R := ⟨h⟩
theorem panic (h : ∀ s, P s → R s) : Hoare P (M.panic : M σ ε α) Q R := ⟨h⟩
theorem outOfFuel (h : ∀ s, P s → R s) : Hoare P (M.outOfFuel : M σ ε α) Q R := ⟨h⟩

theorem get {Q : σ → σ → Prop} (h : ∀ s, P s → Q s s) : Hoare P (M.get : M σ ε σ) Q R := ⟨h⟩
theorem modify {f : σ → σ} {Q : Unit → σ → Prop} (h : ∀ s, P s → Q () (f s)) :
    Hoare P (M.modify f : M σ ε Unit) Q R := ⟨h⟩

theorem mapErr {m : M σ ε α} {f : ε → ε'} (h : Hoare P m Q R) : Hoare P (M.mapErr f m) Q R := by
  constructor
  intro s hs
  have := h.run s hs
  rw [M.mapErr_def]
  generalize m s = r at this
  obtain ⟨_ | _ | _ | _, t⟩ := r <;> exact this

theorem onSnd {P : S × σ → Prop} {m : M σ ε α} {Q : α → S × σ → Prop} {R : S × σ → Prop}
    (h : ∀ x, Hoare (fun s => P (x, s)) m (fun a s => Q a (x, s)) (fun s => R (x, s))) :
    Hoare P (M.onSnd m) Q R := by
  constructor
  intro s hs
  have := (h s.1).run s.2 hs
  rw [M.onSnd_apply]
  generalize m s.2 = r at this
  obtain ⟨_ | _ | _ | _, t⟩ := r <;> exact this

/-- With the first component fixed. -/
theorem onSnd' {P : σ → Prop} {m : M σ ε α} {Q : α → σ → Prop} {R : σ → Prop} (b : S) (h : Hoare P m Q R) :
    Hoare (fun s : S × σ => s.1 = b ∧ P s.2) (M.onSnd m) (fun a s => s.1 = b ∧ Q a s.2)
      (fun s => s.1 = b ∧ R s.2) := by
  refine .onSnd fun x => ?_
  constructor
  intro s hs
  exact post_mono (fun _ _ h => ⟨hs.1, h⟩) (fun _ h => ⟨hs.1, h⟩) (h.run s hs.2)

theorem zoom {P : σ → Prop} {m : M τ ε α} {get : σ → τ} {put : τ → σ → σ} {Q : α → σ → Prop} {R : σ → Prop}
    (h : ∀ s, P s → Hoare (fun t => t = get s) m (fun a t => Q a (put t s)) (fun t => R (put t s))) :
    Hoare P (M.zoom get put m) Q R := by
  constructor
  intro s hs
  have := (h s hs).run (get s) rfl
  unfold M.zoom
  generalize m (get s) = r at this
  obtain ⟨_ | _ | _ | _, t⟩ := r <;> exact this

theorem ite {c : Prop} [Decidable c] {m m' : M σ ε α} (h : c → Hoare P m Q R) (h' : ¬ c → Hoare P m' Q R) :
    Hoare P (if c then m else m') Q R := by
  split
  · exact h ‹_›
  · exact h' ‹_›

/-- A pure fact in the precondition can be moved to the context. -/
theorem fact {p : Prop} {m : M σ ε α} (h : p → Hoare P m Q R) : Hoare (fun s => p ∧ P s) m Q R :=
  ⟨fun s hs => (h hs.1).run s hs.2⟩

theorem fact' {p : Prop} {m : M σ ε α} (h : p → Hoare P m Q R) : Hoare (fun s => P s ∧ p) m Q R :=
  ⟨fun s hs => (h hs.2).run s hs.1⟩

theorem exists_pre {ι : Type} {P : ι → σ → Prop} {m : M σ ε α} (h : ∀ i, Hoare (P i) m Q R) :
    Hoare (fun s => ∃ i, P i s) m Q R :=
  ⟨fun s ⟨i, hs⟩ => (h i).run s hs⟩

theorem and {P1 P2 : σ → Prop} {Q1 Q2 : α → σ → Prop} {R1 R2 : σ → Prop} {m : M σ ε α} (h1 : Hoare P1 m Q1 R1)
    (h2 : Hoare P2 m Q2 R2) : Hoare (fun s => P1 s ∧ P2 s) m (fun a s => Q1 a s ∧ Q2 a s) (fun s => R1 s ∧ R2 s) := by
  constructor
  intro s hs
  have a := h1.run s hs.1
  have b := h2.run s hs.2
  generalize m s = r at a b
  obtain ⟨_ | _ | _ | _, t⟩ := r <;> exact ⟨a, b⟩

/-- Fixed initial state. -/
theorem of_state {m : M σ ε α} (h : ∀ s, P s → Hoare (fun t => t = s) m Q R) : Hoare P m Q R :=
  ⟨fun s hs => (h s hs).run s rfl⟩

end Hoare
end W5500

namespace W5500.Hoare
open W5500
variable {σ ε α : Type}

theorem withPrefix {P : List U8 × σ → Prop} {Q : α → List U8 × σ → Prop} {R : List U8 × σ → Prop} {k : Nat}
    {m : M (List U8 × σ) ε α}
    (h : ∀ buf, k ≤ buf.length → Hoare (fun s => s.1 = buf.take k ∧ P (buf, s.2)) m
      (fun a s => Q a (s.1 ++ buf.drop k, s.2)) (fun s => R (s.1 ++ buf.drop k, s.2)))
    (hp : ∀ s, P s → s.1.length < k → R s) : Hoare P (M.withPrefix k m) Q R := by
  constructor
  rintro ⟨buf, w⟩ hs
  unfold M.withPrefix
  by_cases hk : k ≤ buf.length
  · rw [if_pos hk]
    have := (h buf hk).run (buf.take k, w) ⟨rfl, hs⟩
    dsimp only
    generalize m (buf.take k, w) = r at this
    obtain ⟨_ | _ | _ | _, t⟩ := r <;> exact this
  · rw [if_neg hk]
    exact hp _ hs (by simpa using hk)

end W5500.Hoare
