import Verif.Proofs.ErrIn
/-! # Runs that end with `ok`, step by step -/

namespace W5500
variable {W σ τ E ε ε' α β S H : Type}

namespace M

theorem bind_eq_ok {m : M σ ε α} {f : α → M σ ε β} {s s2 : σ} {b : β} :
    (m >>= f) s = (.ok b, s2) ↔ ∃ a s1, m s = (.ok a, s1) ∧ f a s1 = (.ok b, s2) := by
  rw [bind_def]
  rcases m s with ⟨_ | _ | _ | _, t⟩
  · exact ⟨fun h => ⟨_, _, rfl, h⟩, fun ⟨_, _, h, h'⟩ => by cases h; exact h'⟩
  all_goals simp

theorem pure_eq_ok {s s2 : σ} {a b : α} : (pure a : M σ ε α) s = (.ok b, s2) ↔ a = b ∧ s = s2 := by
  rw [pure_def]; simp

theorem mapErr_eq_ok {f : ε → ε'} {m : M σ ε α} {s s2 : σ} {b : α} :
    mapErr f m s = (.ok b, s2) ↔ m s = (.ok b, s2) := by
  rw [mapErr_def]
  rcases m s with ⟨_ | _ | _ | _, t⟩ <;> simp

theorem throw_eq_ok {s s2 : σ} {e : ε} {b : α} : (throw e : M σ ε α) s = (.ok b, s2) ↔ False := by
  simp [throw]
theorem panic_eq_ok {s s2 : σ} {b : α} : (panic : M σ ε α) s = (.ok b, s2) ↔ False := by
  simp [panic]
theorem outOfFuel_eq_ok {s s2 : σ} {b : α} : (outOfFuel : M σ ε α) s = (.ok b, s2) ↔ False := by
  simp [outOfFuel]
theorem get_eq_ok {s s2 : σ} {b : σ} : (get : M σ ε σ) s = (.ok b, s2) ↔ s = b ∧ s = s2 := by
  simp [get]

theorem onSnd_eq_ok {m : M σ ε α} {s s2 : S × σ} {b : α} :
    (onSnd m : M (S × σ) ε α) s = (.ok b, s2) ↔ m s.2 = (.ok b, s2.2) ∧ s.1 = s2.1 := by
  obtain ⟨x, s⟩ := s
  obtain ⟨y, t⟩ := s2
  rw [onSnd_apply]
  rcases m s with ⟨r, t'⟩
  simp only [Prod.mk.injEq]
  exact ⟨fun ⟨a, b, c⟩ => ⟨⟨a, c⟩, b⟩, fun ⟨⟨a, c⟩, b⟩ => ⟨a, b, c⟩⟩

theorem sliceTo_eq_ok {b c : List U8} {n : Nat} {s s2 : σ} :
    (sliceTo b n : M σ ε (List U8)) s = (.ok c, s2) ↔ n ≤ b.length ∧ c = b.take n ∧ s = s2 := by
  unfold sliceTo
  split
  · rw [pure_eq_ok]
    exact ⟨fun ⟨a, h⟩ => ⟨‹_›, a.symm, h⟩, fun ⟨_, a, h⟩ => ⟨a.symm, h⟩⟩
  · rw [panic_eq_ok]
    simp [*]

theorem sliceFrom_eq_ok {b c : List U8} {n : Nat} {s s2 : σ} :
    (sliceFrom b n : M σ ε (List U8)) s = (.ok c, s2) ↔ n ≤ b.length ∧ c = b.drop n ∧ s = s2 := by
  unfold sliceFrom
  split
  · rw [pure_eq_ok]
    exact ⟨fun ⟨a, h⟩ => ⟨‹_›, a.symm, h⟩, fun ⟨_, a, h⟩ => ⟨a.symm, h⟩⟩
  · rw [panic_eq_ok]
    simp [*]

theorem withPrefix_eq_ok {n : Nat} {m : M (List U8 × σ) ε α} {s s2 : List U8 × σ} {a : α} :
    withPrefix n m s = (.ok a, s2) ↔
      n ≤ s.1.length ∧ ∃ p, m (s.1.take n, s.2) = (.ok a, (p, s2.2)) ∧ s2.1 = p ++ s.1.drop n := by
  unfold withPrefix
  split
  · rename_i hn
    generalize m (s.1.take n, s.2) = r
    obtain ⟨r, p, t⟩ := r
    obtain ⟨b, t2⟩ := s2
    simp only [Prod.mk.injEq, hn, true_and]
    constructor
    · rintro ⟨rfl, rfl, rfl⟩; exact ⟨p, ⟨rfl, rfl, rfl⟩, rfl⟩
    · rintro ⟨_, ⟨rfl, rfl, rfl⟩, rfl⟩; exact ⟨rfl, rfl, rfl⟩
  · simp [*]

end M

theorem Bus.readSlice_length {B : Bus W E} {b : U8} {a : U16} {s s2 : List U8 × W} {r : Res E Unit}
    (h : B.readSlice b a s = (r, s2)) : s2.1.length = s.1.length := by
  have := B.read_length s.2 b a s.1
  unfold Bus.readSlice at h
  rw [h] at this
  exact this

theorem Bus.read1_eq_ok {B : Bus W E} {b : U8} {a : U16} {w w' : W} {x : U8} :
    B.read1 b a w = (.ok x, w') ↔ B.readFrame w b a [0] = (.ok (), [x], w') := by
  refine ⟨fun h => ?_, read1_ok⟩
  rcases readFrame1_cases B w b a with ⟨x, w', h'⟩ | ⟨e, d, w', h'⟩ | ⟨d, w', h'⟩ | ⟨d, w', h'⟩
  · rw [read1_ok h'] at h
    cases h
    exact h'
  · rw [read1_err h'] at h; cases h
  · rw [read1_panic h'] at h; cases h
  · rw [read1_fuel h'] at h; cases h

theorem Bus.read2_eq_ok {B : Bus W E} {b : U8} {a : U16} {w w' : W} {x : U16} :
    B.read2 b a w = (.ok x, w') ↔
      ∃ hi lo, B.readFrame w b a [0, 0] = (.ok (), [hi, lo], w') ∧ x = fromBeBytes hi lo := by
  have hl := B.read_length w b a [0, 0]
  unfold Bus.read2
  rw [M.bind_def]
  unfold Bus.readBuf
  rcases h : B.readFrame w b a [0, 0] with ⟨r, d, w1⟩
  rw [h] at hl
  cases r with
  | ok u =>
    match d, hl with
    | [hi, lo], _ =>
      dsimp only
      rw [M.pure_eq_ok]
      constructor
      · rintro ⟨rfl, rfl⟩; exact ⟨hi, lo, rfl, rfl⟩
      · rintro ⟨hi', lo', h1, rfl⟩; cases h1; exact ⟨rfl, rfl⟩
  | err e => simp
  | panic => simp
  | fuel => simp

theorem Bus.write_apply (B : Bus W E) (b : U8) (a : U16) (d : List U8) (w : W) :
    B.write b a d w = B.writeFrame w b a d := rfl

end W5500
