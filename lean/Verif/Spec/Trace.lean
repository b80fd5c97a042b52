import Verif.Model.Tcp
/-! # Observing the bus traffic of an operation

`traced B` is the bus `B` with a log of all transfers attached. It is itself a `Bus`, so every operation
of the crate can be run on it; the log is what an observer on the wire sees. -/

namespace W5500

/-- One bus transfer: direction, block, address, bytes (for a read: the bytes stored into the caller's
slice), and the outcome. -/
inductive Ev (E : Type) where
  | rd (block : U8) (addr : U16) (data : List U8) (res : Res E Unit)
  | wr (block : U8) (addr : U16) (data : List U8) (res : Res E Unit)
deriving DecidableEq, Repr

namespace Ev
variable {E : Type}
def block : Ev E → U8
  | rd b _ _ _ => b
  | wr b _ _ _ => b
def addr : Ev E → U16
  | rd _ a _ _ => a
  | wr _ a _ _ => a
def data : Ev E → List U8
  | rd _ _ d _ => d
  | wr _ _ d _ => d
def res : Ev E → Res E Unit
  | rd _ _ _ r => r
  | wr _ _ _ r => r
def isWrite : Ev E → Bool
  | rd .. => false
  | wr .. => true
end Ev

/-- Bus state with the log of the transfers made so far, oldest first. -/
structure TW (W E : Type) where
  w : W
  log : List (Ev E)

/-- `B`, observed. -/
def traced {W E : Type} (B : Bus W E) : Bus (TW W E) E where
  readFrame t b a d :=
    let r := B.readFrame t.w b a d
    (r.1, r.2.1, ⟨r.2.2, t.log ++ [.rd b a r.2.1 r.1]⟩)
  writeFrame t b a d :=
    let r := B.writeFrame t.w b a d
    (r.1, ⟨r.2, t.log ++ [.wr b a d r.1]⟩)
  read_length := fun t b a d => B.read_length t.w b a d

/-- States that contain an observed bus. -/
class HasLog (σ : Type) (E : outParam Type) where
  log : σ → List (Ev E)

instance {W E : Type} : HasLog (TW W E) E := ⟨TW.log⟩
instance {S σ E : Type} [HasLog σ E] : HasLog (S × σ) E := ⟨fun s => HasLog.log s.2⟩
instance {σ H E : Type} [HasLog σ E] : HasLog (Device σ H) E := ⟨fun d => HasLog.log d.bus⟩

/-- A property of bus traffic that holds of a concatenation if it holds of both parts. -/
structure Lang (E : Type) where
  mem : List (Ev E) → Prop
  nil : mem []
  app : ∀ {a b}, mem a → mem b → mem (a ++ b)

/-- Every transfer satisfies `P`. -/
def Lang.all {E : Type} (P : Ev E → Prop) : Lang E where
  mem evs := ∀ e ∈ evs, P e
  nil := by simp
  app := by
    intro a b ha hb e he
    rcases List.mem_append.mp he with h | h
    · exact ha e h
    · exact hb e h

/-- All traffic of `m`, from whatever state it starts and however it ends, is in `L`. -/
structure Emits {σ E ε α : Type} [HasLog σ E] (L : Lang E) (m : M σ ε α) : Prop where
  run : ∀ s, ∃ evs, HasLog.log (m s).2 = HasLog.log s ++ evs ∧ L.mem evs

/-- The outcome `r` of an operation with traffic `evs` respects fail-stop, with error conversion `conv`:
either all transfers succeeded and `r` is not a bus error, or only the last transfer failed and `r` is exactly
its (converted) failure. -/
def StopsAt {E ε α : Type} (conv : E → ε) (evs : List (Ev E)) (r : Res ε α) : Prop :=
  ((∀ e ∈ evs, e.res = .ok ()) ∧ (∀ x, r ≠ .err (conv x))) ∨
  ∃ pre last, evs = pre ++ [last] ∧ (∀ e ∈ pre, e.res = .ok ()) ∧
    match last.res with
    | .ok _ => False
    | .err x => r = .err (conv x)
    | .panic => r = .panic
    | .fuel => r = .fuel

/-- `m` is fail-stop from every state. -/
structure FailStop {σ E ε α : Type} [HasLog σ E] (conv : E → ε) (m : M σ ε α) : Prop where
  run : ∀ s, ∃ evs, HasLog.log (m s).2 = HasLog.log s ++ evs ∧ StopsAt conv evs (m s).1

end W5500
