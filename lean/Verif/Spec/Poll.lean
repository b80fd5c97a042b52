import Verif.Spec.Pace
import Verif.Spec.TcpHistory
/-! # A program that looks for bytes on a TCP connection again and again -/

namespace W5500.Spec
open W5500
variable {W E H : Type}

/-- The bytes, if some are received. -/
def Act.bytes : Act → List U8
  | .arrive bs => bs
  | _ => []

/-- The bytes that come to socket `n` during the `g` SPI bytes from time `T` on. -/
def arrivals (sched : Nat → List (Nat × Act)) (n T : Nat) : Nat → List U8
  | 0 => []
  | g + 1 => arrivals sched n T g ++ (news n (sched (T + g))).flatMap Act.bytes

/-- From time `T` on, nothing comes to socket `n` but pieces of 1 to `l` bytes, at least `gap` SPI bytes apart. -/
def Apart (sched : Nat → List (Nat × Act)) (n gap T l : Nat) : Prop :=
  ∀ k, T ≤ k → news n (sched k) ≠ [] → (∃ bs, news n (sched k) = [.arrive bs] ∧ bs ≠ [] ∧ bs.length ≤ l) ∧
    ∀ j, k < j → j < k + gap → news n (sched j) = []

/-- What a program may do in the meantime: send, read anything, and write what does not concern the socket. -/
inductive TcpMeantime {E : Type} (sched : Nat → List (Nat × Act)) (faults : Nat → Option (E × Nat)) (n : Nat) : Chip → Chip → Prop where
  | send {H : Type} {d d' : Device Chip H} (fuel : Nat) (data : List U8) (k : Nat) :
      Device.tcpSend (Chip.dev sched faults).bus fuel ⟨Socket.new (BitVec.ofNat 8 n)⟩ data d = (.ok k, d') → TcpMeantime sched faults n d.bus d'.bus
  | read (c : Chip) (block : U8) (addr : U16) (data : List U8) :
      TcpMeantime sched faults n c ((Chip.dev sched faults).bus.readFrame c block addr data).2.2
  | write (c : Chip) (block : U8) (addr : U16) (data : List U8) : Foreign n block addr data →
      TcpMeantime sched faults n c ((Chip.dev sched faults).bus.writeFrame c block addr data).2

/-- `TcpPolls sched faults n m G c0 got t c`: from `c0` a program that calls `receive` again and again, with buffers of at least `m` bytes, gets
to `c`. All calls returned `Ok`, and together they brought the bytes `got`. The last one ended at time `t` (or the program began then); every one
begins at most `G` SPI bytes after the one before has ended. -/
inductive TcpPolls {E : Type} (sched : Nat → List (Nat × Act)) (faults : Nat → Option (E × Nat)) (n m G : Nat) (c0 : Chip) :
    List U8 → Nat → Chip → Prop where
  | start : TcpPolls sched faults n m G c0 [] c0.clock c0
  | receive {H : Type} {got : List U8} {t : Nat} {d d' : Device Chip H} (fuel : Nat) (buf buf' : List U8) (k : Nat) :
      TcpPolls sched faults n m G c0 got t d.bus → d.bus.clock ≤ t + G → m ≤ buf.length →
      Device.tcpReceive (Chip.dev sched faults).bus fuel ⟨Socket.new (BitVec.ofNat 8 n)⟩ (buf, d) = (.ok k, (buf', d')) →
      TcpPolls sched faults n m G c0 (got ++ buf'.take k) d'.bus.clock d'.bus
  | meantime {got : List U8} {t : Nat} {c c' : Chip} : TcpPolls sched faults n m G c0 got t c → TcpMeantime sched faults n c c' →
      TcpPolls sched faults n m G c0 got t c'

/-- A program that does nothing but receive:

    for _ in 0..rounds {
        let k = stack.receive(&mut socket, &mut buf)?;
        got.extend(&buf[..k]);
    } -/
def gather (B : Bus W E) (t : TcpSocket) (buf : List U8) : Nat → Nat → M (Device W H) (TcpSocketError E) (List U8)
  | 0, _ => pure []
  | rounds + 1, fuel => do
    let (k, buf') ← M.withLocal buf (Device.tcpReceive B fuel t)
    let rest ← gather B t buf rounds fuel
    pure (buf'.take k ++ rest)

end W5500.Spec
