import Verif.Props.Success
import Verif.Proofs.Sendok
/-! # What `Ok` of a TCP send means

C78 When a TCP `send` returns `Ok`, the bytes it accepted have been transmitted. -/

namespace W5500.Props
open W5500.Spec Sock
variable {W E H : Type} {sched : Nat → List (Nat × Act)} {faults : Nat → Option (E × Nat)}

/-- C78, partial: on a chip that raises SENDOK when everything is transmitted, and not before SEND is given, this holds for
every call that finds SENDOK clear. Missing: a SENDOK left over from an earlier call that failed; see `C78_refuted`. -/
theorem C78_partial (n : Nat) (hn : n < 8) (fuel fuel' : Nat) (remote : SockAddr) (d d1 d2 d3 : Device Chip H)
    (hz : Sock.SizesOk (d.bus.socks n).mem)
    (hconn : Device.tcpConnect (Chip.dev sched faults).bus fuel ⟨Socket.new (BitVec.ofNat 8 n)⟩ remote d = (.ok (), d1))
    (acc del : List U8) (hrun : TcpRun sched faults n d1.bus acc del d2.bus) (ht : SendOkSincere sched n) (data : List U8)
    (hq : SendOkQuiet sched n d2.bus.clock (d2.bus.clock + 8 + data.length)) (hs : ¬ (d2.bus.socks n).SendOk) (k : Nat)
    (h : Device.tcpSend (Chip.dev sched faults).bus fuel' ⟨Socket.new (BitVec.ofNat 8 n)⟩ data d2 = (.ok k, d3)) :
    (d3.bus.socks n).pending = [] ∧ (d3.bus.socks n).stream = (d1.bus.socks n).stream ++ acc ++ data.take k := by
  obtain ⟨_, _, ⟨S, A, hf⟩, _⟩ := tcpConnect_idle hn hz hconn
  have h0 := tcpRun_idle hn hrun hf.1
  have h1 := (tcp_send_spent (sched := sched) (faults := faults) hn ht d2.bus.clock fuel' data hq).run d2.bus
    ⟨rfl, h0.tx.tcp, by rw [← Bool.not_eq_true]; exact hs⟩
  rw [onBus_run h] at h1
  have h2 : (d3.bus.socks n).pending = [] := by
    unfold pending
    rw [show (d3.bus.socks n).txRd = (d3.bus.socks n).txLimit from h1.2, BitVec.sub_self]
    rfl
  have h3 := C45 n hn fuel remote d d1 hz hconn _ _ _ (.send fuel' data k hrun h)
  rw [h2, List.append_nil, ← List.append_assoc] at h3
  exact ⟨h2, h3⟩

/-- C78: every `send` that returned `Ok` leaves SENDOK clear for the next. -/
theorem C78_cleared (n : Nat) (hn : n < 8) (fuel : Nat) (data : List U8) (d d' : Device Chip H) (k : Nat)
    (h : Device.tcpSend (Chip.dev sched faults).bus fuel ⟨Socket.new (BitVec.ofNat 8 n)⟩ data d = (.ok k, d')) :
    ¬ (d'.bus.socks n).SendOk := by
  have h1 := (tcp_send_clears (sched := sched) (faults := faults) hn fuel data).run d.bus trivial
  rw [onBus_run h] at h1
  have h1 : (d'.bus.socks n).ir.getLsbD 4 = false := h1
  unfold SendOk
  rw [h1]
  exact nofun

/-- A chip that connects, and once transmits what it has and raises SENDOK. -/
def onceSched (k : Nat) : List (Nat × Act) :=
  if k < 16 then [] else if k = 30 then [(0, .transmit 65535), (0, .raise 0x10)] else [(0, .status 0x17)]

theorem once_sincere : SendOkSincere onceSched 0 := by
  intro k pre post bits h hb
  unfold onceSched at h
  split at h
  · simp at h
  split at h
  · rcases pre with _ | ⟨e, _ | ⟨e', pre⟩⟩
    · simp at h
    · simp only [List.cons_append, List.nil_append, List.cons.injEq] at h
      exact ⟨65535, Nat.le_refl _, by rw [← h.1]; exact List.mem_cons_self ..⟩
    · simp at h
  · rcases pre with _ | ⟨e, pre⟩ <;> simp at h

def onceConnected (faults : Nat → Option (Unit × Nat)) : Device Chip Unit :=
  (Device.tcpConnect (Chip.dev onceSched faults).bus 100 demoSocket demoRemote demoDevice).2

/-- After `send` of one byte. -/
def onceSent : Device Chip Unit :=
  (Device.tcpSend (Chip.dev onceSched noFaults).bus 9 demoSocket [1] (onceConnected noFaults)).2

/-- C78_partial is not vacuous. -/
example : (onceSent.bus.socks 0).pending = [] ∧
    (onceSent.bus.socks 0).stream = ((onceConnected noFaults).bus.socks 0).stream ++ [] ++ List.take 1 [1] := by
  refine C78_partial (n := 0) (sched := onceSched) (faults := noFaults) (by decide) 100 9 demoRemote demoDevice
    (onceConnected noFaults) (onceConnected noFaults) onceSent powerUp_sizes (run_eq ?_) [] [] .start once_sincere [1] ?_ ?_ 1
    ?_
  · decide +kernel
  · intro k h1 h2 bits hb
    rw [show (onceConnected noFaults).bus.clock = 17 by decide +kernel] at h1 h2
    have h2 : k < 17 + 8 + 1 := h2
    unfold onceSched at hb
    rw [if_neg (by omega), if_neg (by omega)] at hb
    simp at hb
  · decide +kernel
  · rw [onceSent]
    exact run_eq (by decide +kernel)

/-- C78 is false: the acknowledgement of SENDOK fails on the bus, so the first `send` returns an error and SENDOK stays set.
The second `send` takes it for its own: it returns `Ok` at once, and its byte is not transmitted. -/
theorem C78_refuted :
    let B := (Chip.dev onceSched (faultAt 23)).bus
    let r1 := Device.tcpSend B 9 demoSocket [1] (onceConnected (faultAt 23))
    let r2 := Device.tcpSend B 9 demoSocket [2] r1.2
    SendOkSincere onceSched 0 ∧ r1.1 = .err (.other ()) ∧ (r1.2.bus.socks 0).SendOk ∧ r2.1 = .ok 1 ∧
      (r2.2.bus.socks 0).stream = [1] ∧ (r2.2.bus.socks 0).pending = [2] :=
  ⟨once_sincere, by decide +kernel⟩

end W5500.Props
