import Verif.Spec.RawHistory
/-! # A program that reads frames again and again -/

namespace W5500.Spec
open W5500
variable {W E : Type}

/-- The frame, if one is received. -/
def Act.frame? : Act → Option (List U8)
  | .frame f => some f
  | _ => none

/-- The frames among these events that are for socket `n`. -/
def framesOf (n : Nat) (l : List (Nat × Act)) : List (List U8) := l.filterMap fun e => if e.1 = n then e.2.frame? else none

/-- The frames that come to socket `n` during the `g` SPI bytes from time `T` on. -/
def flow (sched : Nat → List (Nat × Act)) (n T : Nat) : Nat → List (List U8)
  | 0 => []
  | g + 1 => flow sched n T g ++ framesOf n (sched (T + g))

/-- From time `T` on, frames come to socket `n` on average at most once in `P` SPI bytes, in bursts of at most `k` more; each takes at most `s` bytes
of the RX buffer. -/
structure Paced (sched : Nat → List (Nat × Act)) (n P k s T : Nat) : Prop where
  rate : ∀ t g, T ≤ t → (flow sched n t g).length ≤ g / P + k
  fit : ∀ g, ∀ f ∈ flow sched n T g, f.length + 2 ≤ s

/-- What a program may do in the meantime: send frames, control interrupts, read anything, and write what does not concern socket 0. -/
inductive RawMeantime {E : Type} (sched : Nat → List (Nat × Act)) (faults : Nat → Option (E × Nat)) (r : RawDevice) : Chip → Chip → Prop where
  | writeFrame {c c' : Chip} (fuel : Nat) (frame : List U8) (k : Nat) :
      r.writeFrame (Chip.dev sched faults).bus fuel frame c = (.ok k, c') → RawMeantime sched faults r c c'
  | enable {c c' : Chip} (which : U8) (x : Res E Unit) :
      r.enableInterrupts (Chip.dev sched faults).bus which c = (x, c') → RawMeantime sched faults r c c'
  | clear {c c' : Chip} (x : Res E Unit) :
      r.clearInterrupts (Chip.dev sched faults).bus c = (x, c') → RawMeantime sched faults r c c'
  | disable {c c' : Chip} (x : Res E Unit) :
      r.disableInterrupts (Chip.dev sched faults).bus c = (x, c') → RawMeantime sched faults r c c'
  | read (c : Chip) (block : U8) (addr : U16) (data : List U8) :
      RawMeantime sched faults r c ((Chip.dev sched faults).bus.readFrame c block addr data).2.2
  | write (c : Chip) (block : U8) (addr : U16) (data : List U8) : Foreign 0 block addr data →
      RawMeantime sched faults r c ((Chip.dev sched faults).bus.writeFrame c block addr data).2

/-- `Reads sched faults r P c0 got t c`: from `c0` a program that calls `read_frame` again and again gets to `c`. The calls returned `got`. The
last one ended at time `t` (or the program began then); every one ends at most `P` SPI bytes after the one before. -/
inductive Reads {E : Type} (sched : Nat → List (Nat × Act)) (faults : Nat → Option (E × Nat)) (r : RawDevice) (P : Nat) (c0 : Chip) :
    List RawGot → Nat → Chip → Prop where
  | start : Reads sched faults r P c0 [] c0.clock c0
  | readFrame {got : List RawGot} {t : Nat} {c c' : Chip} (fuel : Nat) (buf buf' : List U8) (k : Nat) : Reads sched faults r P c0 got t c →
      r.readFrame (Chip.dev sched faults).bus fuel (buf, c) = (.ok k, (buf', c')) → c'.clock ≤ t + P →
      Reads sched faults r P c0 (got ++ [⟨buf, k, buf'⟩]) c'.clock c'
  | meantime {got : List RawGot} {t : Nat} {c c' : Chip} : Reads sched faults r P c0 got t c → RawMeantime sched faults r c c' →
      Reads sched faults r P c0 got t c'

/-- A program reads frames, again and again, each time into a fresh copy of the buffer, and returns what each call brought. -/
def collect (B : Bus W E) (r : RawDevice) (buf : List U8) : Nat → Nat → M W E (List RawGot)
  | 0, _ => pure []
  | rounds + 1, fuel => do
    let (k, buf') ← M.withLocal buf (r.readFrame B fuel)
    let rest ← collect B r buf rounds fuel
    pure (⟨buf, k, buf'⟩ :: rest)

end W5500.Spec
