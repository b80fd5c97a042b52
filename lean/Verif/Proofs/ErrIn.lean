import Verif.Proofs.Monad
/-! # Which errors an operation can return -/

namespace W5500
variable {W σ τ E ε ε' α β S H : Type}

/-- `m` returns only errors with `p`. -/
structure ErrIn (p : ε → Prop) (m : M σ ε α) : Prop where
  run : ∀ s e, (m s).1 = .err e → p e

namespace ErrIn
variable {p : ε → Prop}

theorem pure (a : α) : ErrIn p (Pure.pure a : M σ ε α) := ⟨fun _ _ h => nomatch h⟩
theorem panic : ErrIn p (M.panic : M σ ε α) := ⟨fun _ _ h => nomatch h⟩
theorem outOfFuel : ErrIn p (M.outOfFuel : M σ ε α) := ⟨fun _ _ h => nomatch h⟩
theorem get : ErrIn p (M.get : M σ ε σ) := ⟨fun _ _ h => nomatch h⟩
theorem modify (f : σ → σ) : ErrIn p (M.modify f : M σ ε Unit) := ⟨fun _ _ h => nomatch h⟩
theorem throw {e : ε} (h : p e) : ErrIn p (M.throw e : M σ ε α) :=
  ⟨fun _ _ h' => by cases h'; exact h⟩

theorem sliceTo (b : List U8) (n : Nat) : ErrIn p (M.sliceTo b n : M σ ε _) := by
  unfold M.sliceTo; split
  · exact .pure _
  · exact .panic
theorem sliceFrom (b : List U8) (n : Nat) : ErrIn p (M.sliceFrom b n : M σ ε _) := by
  unfold M.sliceFrom; split
  · exact .pure _
  · exact .panic

theorem bind {m : M σ ε α} {f : α → M σ ε β} (h : ErrIn p m) (hf : ∀ a, ErrIn p (f a)) : ErrIn p (m >>= f) := by
  constructor
  intro s e he
  rw [M.bind_def] at he
  have hm := h.run s
  generalize m s = r at he hm
  obtain ⟨_ | _ | _ | _, t⟩ := r
  · exact (hf _).run _ _ he
  · cases he; exact hm _ rfl
  · exact nomatch he
  · exact nomatch he

theorem mapErr {f : ε' → ε} (m : M σ ε' α) (h : ∀ e, p (f e)) : ErrIn p (M.mapErr f m) := by
  constructor
  intro s e he
  rw [M.mapErr_def] at he
  generalize m s = r at he
  obtain ⟨_ | _ | _ | _, t⟩ := r
  · exact nomatch he
  · cases he; exact h _
  · exact nomatch he
  · exact nomatch he

theorem mapErr' {f : ε' → ε} {m : M σ ε' α} (h : ErrIn (fun e => p (f e)) m) : ErrIn p (M.mapErr f m) := by
  constructor
  intro s e he
  rw [M.mapErr_def] at he
  have hm := h.run s
  generalize m s = r at he hm
  obtain ⟨_ | _ | _ | _, t⟩ := r
  · exact nomatch he
  · cases he; exact hm _ rfl
  · exact nomatch he
  · exact nomatch he

theorem zoom {get : σ → τ} {put : τ → σ → σ} {m : M τ ε α} (h : ErrIn p m) : ErrIn p (M.zoom get put m) :=
  ⟨fun s e he => h.run (get s) e he⟩

theorem onSnd {m : M σ ε α} (h : ErrIn p m) : ErrIn p (M.onSnd m : M (S × σ) ε α) := zoom h

theorem withPrefix {k : Nat} {m : M (List U8 × σ) ε α} (h : ErrIn p m) : ErrIn p (M.withPrefix k m) := by
  constructor
  intro s e he
  unfold M.withPrefix at he
  split at he
  · exact h.run _ e he
  · exact nomatch he

theorem ite {c : Prop} [Decidable c] {m m' : M σ ε α} (h : c → ErrIn p m) (h' : ¬ c → ErrIn p m') :
    ErrIn p (if c then m else m') := by
  split
  · exact h ‹_›
  · exact h' ‹_›

end ErrIn

/-! ## One-byte reads, outcome by outcome -/

section
variable {B : Bus W E} {w w' : W} {b : U8} {a : U16}

theorem read1_ok {x : U8} (h : B.readFrame w b a [0] = (.ok (), [x], w')) : B.read1 b a w = (.ok x, w') := by
  unfold Bus.read1
  rw [M.bind_def]
  unfold Bus.readBuf
  rw [h]
  rfl

theorem read1_err {d : List U8} {e : E} (h : B.readFrame w b a [0] = (.err e, d, w')) :
    B.read1 b a w = (.err e, w') := by
  unfold Bus.read1
  rw [M.bind_def]
  unfold Bus.readBuf
  rw [h]

theorem read1_panic {d : List U8} (h : B.readFrame w b a [0] = (.panic, d, w')) :
    B.read1 b a w = (.panic, w') := by
  unfold Bus.read1
  rw [M.bind_def]
  unfold Bus.readBuf
  rw [h]

theorem read1_fuel {d : List U8} (h : B.readFrame w b a [0] = (.fuel, d, w')) :
    B.read1 b a w = (.fuel, w') := by
  unfold Bus.read1
  rw [M.bind_def]
  unfold Bus.readBuf
  rw [h]

/-- What a one-byte read can do. -/
theorem readFrame1_cases (B : Bus W E) (w : W) (b : U8) (a : U16) :
    (∃ x w', B.readFrame w b a [0] = (.ok (), [x], w')) ∨ (∃ e d w', B.readFrame w b a [0] = (.err e, d, w')) ∨
    (∃ d w', B.readFrame w b a [0] = (.panic, d, w')) ∨ (∃ d w', B.readFrame w b a [0] = (.fuel, d, w')) := by
  have hl := B.read_length w b a [0]
  rcases h : B.readFrame w b a [0] with ⟨r, d, w'⟩
  rw [h] at hl
  cases r with
  | ok u =>
    match d, hl with
    | [x], _ => exact .inl ⟨x, w', rfl⟩
  | err e => exact .inr (.inl ⟨e, d, w', rfl⟩)
  | panic => exact .inr (.inr (.inl ⟨d, w', rfl⟩))
  | fuel => exact .inr (.inr (.inr ⟨d, w', rfl⟩))

end
end W5500

/-- Decompose an operation; `mapErr` of a wrapping constructor is closed by `simp`. -/
macro "errin" : tactic => `(tactic|
  repeat' first
    | exact W5500.ErrIn.pure _ | exact W5500.ErrIn.panic | exact W5500.ErrIn.outOfFuel | exact W5500.ErrIn.get
    | exact W5500.ErrIn.modify _ | exact W5500.ErrIn.sliceTo _ _ | exact W5500.ErrIn.sliceFrom _ _
    | (refine W5500.ErrIn.throw ?_; simp; done)
    | (refine W5500.ErrIn.mapErr _ ?_; simp; done)
    | refine W5500.ErrIn.onSnd ?_ | refine W5500.ErrIn.withPrefix ?_
    | refine W5500.ErrIn.bind ?_ (fun _ => ?_)
    | dsimp only
    | split)
