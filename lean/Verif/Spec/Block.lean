import Verif.Spec.Success
import Verif.Spec.Wakeup
import Verif.Model.Raw
/-! # Waiting until something arrives

The UDP `receive` returns `WouldBlock` if there is nothing to deliver, the MACRAW `read_frame` returns 0. A program that waits
for the next packet calls them again. -/

namespace W5500.Spec
open W5500

/-- The macro `nb::block!` of the crate `nb`, for any call that may return `WouldBlock`:

    loop {
        match call() {
            Err(nb::Error::Other(e)) => break Err(e),
            Err(nb::Error::WouldBlock) => {}
            Ok(x) => break Ok(x),
        }
    }

The argument bounds the number of rounds. -/
def nbBlock {σ ε α : Type} (call : M σ (NbError ε) α) : Nat → M σ ε α
  | 0 => M.outOfFuel
  | rounds + 1 => fun s =>
    match call s with
    | (.ok a, t) => (.ok a, t)
    | (.err .wouldBlock, t) => nbBlock call rounds t
    | (.err (.other e), t) => (.err e, t)
    | (.panic, t) => (.panic, t)
    | (.fuel, t) => (.fuel, t)

/-- A call that returns a number, repeated until this is not 0:

    loop {
        let k = call()?;
        if k > 0 { break Ok(k) }
    }
-/
def untilSome {σ ε : Type} (call : M σ ε Nat) : Nat → M σ ε Nat
  | 0 => M.outOfFuel
  | rounds + 1 => do
    let k ← call
    if k = 0 then untilSome call rounds else pure k

/-- Datagrams that take at most `m` bytes of RX memory keep coming to socket `n`; each is stored if there is room. -/
def Offered (sched : Nat → List (Nat × Act)) (n m : Nat) : Prop :=
  ∀ k, ∃ l, k ≤ l ∧ ∃ dg : Dgram, dg.Wf ∧ dg.encode.length ≤ m ∧ (n, .datagram dg) ∈ sched l

/-- Frames that take at most `m` bytes of RX memory keep coming to socket `n`; each is stored if there is room. -/
def FramesOffered (sched : Nat → List (Nat × Act)) (n m : Nat) : Prop :=
  ∀ k, ∃ l, k ≤ l ∧ ∃ f : List U8, f.length + 2 ≤ m ∧ (n, .frame f) ∈ sched l

/-- RECV is raised on socket `n` only for packets that arrive. -/
def OnlyForPackets (sched : Nat → List (Nat × Act)) (n : Nat) : Prop :=
  ∀ k bits, (n, .raise bits) ∈ sched k → bits.getLsbD 2 = false

/-- What waits on the UDP socket is not announced, and no datagram that comes from time `t` on fits into the rest of the RX
buffer. -/
def Sock.Shut (sched : Nat → List (Nat × Act)) (n t : Nat) (s : Sock) : Prop :=
  ¬ s.Announced ∧ ∀ k dg, t ≤ k → (n, .datagram dg) ∈ sched k → dg.Wf → s.rxSize < s.rsr.toNat + dg.encode.length

/-- Something waits on the UDP socket and is announced, or a datagram comes, at time `t` or later, that fits beside what waits. -/
def Sock.Wakes (sched : Nat → List (Nat × Act)) (n t : Nat) (s : Sock) : Prop :=
  (s.Announced ∧ s.queue ≠ []) ∨
  ∃ k dg, t ≤ k ∧ (n, .datagram dg) ∈ sched k ∧ dg.Wf ∧ s.rsr.toNat + dg.encode.length ≤ s.rxSize

end W5500.Spec
