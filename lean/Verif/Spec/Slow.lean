import Verif.Spec.Chip
import Verif.Spec.Strategy
import Verif.Spec.Refusals
import Verif.Model.Raw
/-! # A slower W5500 in an adaptive environment

`Spec/Chip.lean` executes a command while Sn_CR is written, and everything that happens on the network is fixed before
the run (for all possibilities). Here commands stay pending for any time, but not beyond the next access to a block of
the same socket; and the environment looks at everything that has happened before it chooses events, the moment when a
command is taken up, and failing transactions. -/

namespace W5500.Spec
open W5500

/-- A chip with commands that were given but not taken up. -/
structure Slow where
  chip : Chip
  /-- the command in Sn_CR, by socket -/
  busy : Nat → Option U8

/-- What happens on a socket before a byte is transferred. -/
inductive Happening where
  /-- something that is not caused by the host -/
  | act (a : Act)
  /-- the pending command is taken up, if there is one -/
  | accept

namespace Slow

/-- The pending command of socket `n` is executed. -/
def accept (s : Slow) (n : Nat) : Slow :=
  match s.busy n with
  | none => s
  | some x =>
    { chip := s.chip.setSock n ((s.chip.socks n).command x)
      busy := fun m => if m = n then none else s.busy m }

def happen (s : Slow) (e : Nat × Happening) : Slow :=
  match e.2 with
  | .act a => { s with chip := s.chip.event (e.1, a) }
  | .accept => s.accept e.1

/-- An access to block `b` finds no pending command on the socket `b` belongs to. -/
def access (s : Slow) (b : BitVec 5) : Slow := if b = 0 then s else s.accept (b.toNat / 4)

/-- Before each byte: what happens, then the access; the byte is counted. -/
def turn (s : Slow) (l : List (Nat × Happening)) (b : BitVec 5) : Slow :=
  let t := (l.foldl happen s).access b
  { t with chip := { t.chip with clock := t.chip.clock + 1 } }

/-- Writing a byte. A write to Sn_CR (offset 1 of the register block 4n+1) leaves the command pending, a reset of the chip
(bit 7 of MR) discards all pending commands. -/
def poke (s : Slow) (b : BitVec 5) (a : U16) (x : U8) : Slow :=
  if b.toNat % 4 = 1 ∧ a = 0x01 then { s with busy := fun m => if m = b.toNat / 4 then some x else s.busy m }
  else if b = 0 ∧ a = 0x00 ∧ x.getLsbD 7 then { chip := s.chip.poke b a x, busy := fun _ => none }
  else { s with chip := s.chip.poke b a x }

/-- The chip when all pending commands have been taken up. -/
def settled (s : Slow) : Chip :=
  { s.chip with
    socks := fun n =>
      match s.busy n with
      | none => s.chip.socks n
      | some x => (s.chip.socks n).command x }

/-- A chip without pending commands. -/
def idle (c : Chip) : Slow := ⟨c, fun _ => none⟩

end Slow

/-- An environment with memory `X`. It sees the state of the chip and the next access: block, address, and the byte if it
is a write. -/
structure Env (X E : Type) where
  before : X → Slow → BitVec 5 → U16 → Option U8 → List (Nat × Happening) × X
  fault : X → Slow → Option (E × Nat) × X

/-- The slow chip in an environment, as a byte-accessed device. -/
def Env.dev {X E : Type} (v : Env X E) : ByteDev (X × Slow) E where
  readByte s b a :=
    let h := v.before s.1 s.2 b a none
    let t := s.2.turn h.1 b
    (t.chip.peek b a, h.2, t)
  writeByte s b a x :=
    let h := v.before s.1 s.2 b a (some x)
    (h.2, (s.2.turn h.1 b).poke b a x)
  fault s :=
    let f := v.fault s.1 s.2
    (f.1, f.2, { s.2 with chip := { s.2.chip with txn := s.2.chip.txn + 1 } })

/-- Kinds of events and of failures. -/
structure Kinds (E : Type) where
  event : Nat → Act → Prop
  fault : E × Nat → Prop

/-- The environment only does such things. -/
structure Env.Only {X E : Type} (v : Env X E) (K : Kinds E) : Prop where
  event : ∀ x s b a w n e, (n, .act e) ∈ (v.before x s b a w).1 → K.event n e
  fault : ∀ x s f, (v.fault x s).1 = some f → K.fault f

/-- A schedule of events and a plan of failing transactions. -/
structure Plan (E : Type) where
  sched : Nat → List (Nat × Act)
  faults : Nat → Option (E × Nat)

/-- The plan only contains such things. -/
structure Plan.Only {E : Type} (p : Plan E) (K : Kinds E) : Prop where
  event : ∀ t, ∀ e ∈ p.sched t, K.event e.1 e.2
  fault : ∀ t f, p.faults t = some f → K.fault f

/-- The chip of `Spec/Chip.lean` with such a plan. -/
def Plan.bus {E : Type} (p : Plan E) : Bus Chip E := (Chip.dev p.sched p.faults).bus

/-! ## A chip that is not forced -/

/-- As `Env.dev`, but accesses do not wait for commands: only the environment decides when a command is taken up, and Sn_CR
reads as the command until then, as the datasheet says. -/
def Env.lazyDev {X E : Type} (v : Env X E) : ByteDev (X × Slow) E where
  readByte s b a :=
    let h := v.before s.1 s.2 b a none
    let t := s.2.turn h.1 0
    (if b.toNat % 4 = 1 ∧ a = 0x01 then (t.busy (b.toNat / 4)).getD 0 else t.chip.peek b a, h.2, t)
  writeByte s b a x :=
    let h := v.before s.1 s.2 b a (some x)
    (h.2, (s.2.turn h.1 0).poke b a x)
  fault s :=
    let f := v.fault s.1 s.2
    (f.1, f.2, { s.2 with chip := { s.2.chip with txn := s.2.chip.txn + 1 } })

/-! ## Programs with one TCP connection -/

inductive TcpIo where
  | send (data : List U8)
  | receive (buffer : List U8)

/-- The call, on the first socket of the program. -/
def TcpIo.op : TcpIo → Op Unit
  | .send d => .tcpSend 0 d
  | .receive b => .tcpReceive 0 b

/-- A program that takes a TCP socket, connects it, and uses it. -/
def tcpProgram (fuel fuel' : Nat) (remote : SockAddr) (io : List (Nat × TcpIo)) : List (Nat × Op Unit) :=
  (fuel, .tcpSocket) :: (fuel', .tcpConnect 0 remote) :: io.map fun o => (o.1, o.2.op)

/-- The call returned, and not with a bus error. -/
def Seen.Sound {E : Type} : Seen E → Prop
  | .tcpSent r => TcpSound r
  | .tcpReceived r _ => TcpSound r
  | _ => True

/-- The bytes accepted by the sends among the calls `io` that showed `outs`. -/
def sentBytes {E : Type} : List (Nat × TcpIo) → List (Seen E) → List U8
  | (_, .send d) :: io, .tcpSent r :: outs => accepted d r ++ sentBytes io outs
  | _ :: io, _ :: outs => sentBytes io outs
  | _, _ => []

/-- The bytes delivered by the receives. -/
def gotBytes {E : Type} : List (Seen E) → List U8
  | [] => []
  | .tcpReceived r b :: outs => accepted b r ++ gotBytes outs
  | _ :: outs => gotBytes outs

/-! ## Programs that start with the initialisation -/

/-- Initialisation, then calls if it succeeded. -/
def bootProgram {W E H : Type} (B : Bus W E) (init : M W (InitializeError E) (DeviceState H)) (ops : List (Nat × Op Unit)) (w : W) :
    (Res (InitializeError E) (DeviceState H) × List (Seen E)) × W :=
  match init w with
  | (.ok st, w) =>
    ((.ok st, Client.outputs B ⟨⟨w, st⟩, [], []⟩ (onBusType W ops)), (Client.after B ⟨⟨w, st⟩, [], []⟩ (onBusType W ops)).dev.bus)
  | (r, w) => ((r, []), w)

/-! ## Programs with raw frames -/

inductive RawCall where
  | read (buffer : List U8)
  | write (frame : List U8)
  | enable (which : U8)
  | clear
  | disable

inductive RawSeen (E : Type) where
  | read (r : Res E Nat) (buffer : List U8)
  | written (r : Res E Nat)
  | unit (r : Res E Unit)

variable {W E : Type}

def RawCall.run (B : Bus W E) (fuel : Nat) (d : RawDevice) (w : W) : RawCall → RawSeen E × W
  | .read b => (.read (d.readFrame B fuel (b, w)).1 (d.readFrame B fuel (b, w)).2.1, (d.readFrame B fuel (b, w)).2.2)
  | .write f => (.written (d.writeFrame B fuel f w).1, (d.writeFrame B fuel f w).2)
  | .enable x => (.unit (d.enableInterrupts B x w).1, (d.enableInterrupts B x w).2)
  | .clear => (.unit (d.clearInterrupts B w).1, (d.clearInterrupts B w).2)
  | .disable => (.unit (d.disableInterrupts B w).1, (d.disableInterrupts B w).2)

/-- Calls one after the other, each with its own number of rounds of polling. -/
def rawCalls (B : Bus W E) (d : RawDevice) : List (Nat × RawCall) → W → List (RawSeen E) × W
  | [], w => ([], w)
  | (fuel, o) :: os, w =>
    let r := o.run B fuel d w
    let s := rawCalls B d os r.2
    (r.1 :: s.1, s.2)

/-- `initialize_macraw`, then calls if it succeeded. -/
def rawProgram (B : Bus W E) (mac : Mac) (os : List (Nat × RawCall)) (w : W) :
    (Res (InitializeError E) RawDevice × List (RawSeen E)) × W :=
  match Uninit.initializeMacraw B mac w with
  | (.ok d, w) => ((.ok d, (rawCalls B d os w).1), (rawCalls B d os w).2)
  | (r, w) => ((r, []), w)

end W5500.Spec
