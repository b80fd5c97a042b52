import Verif.Spec.RawHistory
import Verif.Spec.Wakeup
/-! # Programs that sleep until the chip interrupts -/

namespace W5500.Spec
open W5500

/-- The interrupt pin INTn is asserted because of a socket: SIMR (0x18) lets socket `n` through, and one of its interrupts
(Sn_IR) is enabled in Sn_IMR (0x2C). Datasheet: SIR, SIMR, Sn_IMR. -/
def Chip.Interrupting (c : Chip) : Prop :=
  ∃ n, n < 8 ∧ (c.cmem 0x18).getLsbD n = true ∧ ∃ i, i < 8 ∧ (c.socks n).ir.getLsbD i = true ∧ ((c.socks n).mem 0x2C).getLsbD i = true

/-- `Attends sched faults r c0 asleep c`: from `c0`, the program on the MACRAW device `r` and the chip get to `c`. `asleep`: since the
last `clear_interrupts`, a `read_frame` into a buffer that is not empty returned 0, so the program has nothing to do until the
next interrupt. (It may do other things: transmit, read again.) The calls may fail as in `RawRun`; the interrupt masks are left alone (`read`, `write` are other traffic). Real frames are not empty: the chip does not store frames without a single byte (constructor `nothing`). -/
inductive Attends {E : Type} (sched : Nat → List (Nat × Act)) (faults : Nat → Option (E × Nat)) (r : RawDevice) (c0 : Chip) :
    Bool → Chip → Prop where
  | start : Attends sched faults r c0 false c0
  | clear {b : Bool} {c c' : Chip} (x : Res E Unit) : Attends sched faults r c0 b c →
      r.clearInterrupts (Chip.dev sched faults).bus c = (x, c') → Attends sched faults r c0 false c'
  | nothing {b : Bool} {c c' : Chip} (fuel : Nat) (buf buf' : List U8) : Attends sched faults r c0 b c →
      r.readFrame (Chip.dev sched faults).bus fuel (buf, c) = (.ok 0, (buf', c')) → buf ≠ [] →
      (∀ fs, (c.socks 0).Frames fs → [] ∉ fs) → Attends sched faults r c0 true c'
  | readFrame {b : Bool} {c c' : Chip} (fuel : Nat) (buf buf' : List U8) (k : Nat) : Attends sched faults r c0 b c →
      r.readFrame (Chip.dev sched faults).bus fuel (buf, c) = (.ok k, (buf', c')) → Attends sched faults r c0 b c'
  | failedRead {b : Bool} {c c' : Chip} (fuel : Nat) (buf buf' : List U8) (x : Res E Nat) : Attends sched faults r c0 b c →
      r.readFrame (Chip.dev sched faults).bus fuel (buf, c) = (x, (buf', c')) → (∀ k, x ≠ .ok k) →
      (c'.socks 0).rxRdReg = (c.socks 0).rxRdReg → Attends sched faults r c0 b c'
  | writeFrame {b : Bool} {c c' : Chip} (fuel : Nat) (frame : List U8) (k : Nat) : Attends sched faults r c0 b c →
      r.writeFrame (Chip.dev sched faults).bus fuel frame c = (.ok k, c') → Attends sched faults r c0 b c'
  | failedWrite {b : Bool} {c c' : Chip} (fuel : Nat) (frame : List U8) (x : Res E Nat) : Attends sched faults r c0 b c →
      r.writeFrame (Chip.dev sched faults).bus fuel frame c = (x, c') → (∀ k, x ≠ .ok k) → Quiet 0 c' → Attends sched faults r c0 b c'
  | read {b : Bool} {c : Chip} (block : U8) (addr : U16) (data : List U8) : Attends sched faults r c0 b c →
      Attends sched faults r c0 b ((Chip.dev sched faults).bus.readFrame c block addr data).2.2
  | write {b : Bool} {c : Chip} (block : U8) (addr : U16) (data : List U8) : Attends sched faults r c0 b c →
      Foreign 0 block addr data → ((block.setWidth 5 : BitVec 5) = 0 → ∀ i, i < data.length → addr + BitVec.ofNat 16 i ≠ 0x18) →
      Attends sched faults r c0 b ((Chip.dev sched faults).bus.writeFrame c block addr data).2
  | pass {b : Bool} {c c' : Chip} : Attends sched faults r c0 b c → Passes c c' → Attends sched faults r c0 b c'

end W5500.Spec
