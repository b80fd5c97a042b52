import Verif.Props.Sendok
import Verif.Props.Lifecycle
import Verif.Props.Bus
/-! # Closing a TCP connection

C89 A program that sends data successfully and then closes the connection has the data transmitted, and tells the peer that
the connection ends (DISCON). -/

namespace W5500.Props
open W5500.Spec Sock
variable {W E H : Type} {sched : Nat → List (Nat × Act)} {faults : Nat → Option (E × Nat)}

/-- The DISCON command on any socket: 0x08 written to Sn_CR. -/
def isDiscon {E : Type} : Ev E → Prop
  | .wr b a d _ => b.toNat % 4 = 1 ∧ a = 0x01 ∧ d = [0x08]
  | .rd .. => False

/-- C89 is false: whatever a program does, the peer is never told that a connection ends. -/
theorem C89_refuted (B : Bus W E) (fuel : Nat) (w : W) (host : H) (ops : List (Op (TW W E)))
    (hr : ∀ g, Op.reactivate g ∈ ops → g = id) :
    ∀ e ∈ (Client.run (traced B) fuel (Client.initial ⟨w, []⟩ host) ops).dev.bus.log, ¬ isDiscon e := by
  intro e he hd
  have h := C71_history B fuel w host ops hr e he
  cases e with
  | rd => exact hd
  | wr b a d r =>
    obtain ⟨hb, rfl, rfl⟩ := hd
    exact (C71_commands _ h b _ r hb rfl).2.1 rfl

/-- A history that closes a TCP socket: the mode is set to 0, and CLOSE is given. -/
example :
    (Client.run (traced (failsAfter 100)) 5 (Client.initial ⟨0, []⟩ ()) [.tcpSocket, .tcpClose 0]).dev.bus.log =
      [.wr 1 0x00 [0x00] (.ok ()), .wr 1 0x01 [0x10] (.ok ())] := by decide +kernel

theorem stable_drained (S : List U8) : StableS (fun s => s.txRd = s.txLimit ∧ s.stream = S) := by
  intro s a ⟨h, hs⟩
  cases a with
  | transmit k =>
    unfold act
    dsimp only
    split
    · rw [h, BitVec.sub_self]
      refine ⟨?_, ?_⟩
      · show s.txLimit + _ = s.txLimit
        simp
      · show s.stream ++ _ = S
        rw [hs]
        simp [ring]
    · exact ⟨h, hs⟩
  | arrive | datagram | frame =>
    dsimp only [act]
    split
    · unfold push
      split <;> exact ⟨h, hs⟩
    · exact ⟨h, hs⟩
  | ack => dsimp only [act]; split <;> exact ⟨h, hs⟩
  | emit => dsimp only [act]; split <;> first | exact ⟨h, hs⟩ | exact ⟨rfl, hs⟩
  | raise | status => exact ⟨h, hs⟩

/-- C89, partial: under the conditions of `C78_partial`, closing the connection after a `send` that returned `Ok` loses nothing
of what was ever accepted. Missing: the peer is not told (`C89_refuted`), and data are lost after a SENDOK left over
(`C89_lost`). -/
theorem C89_partial (n : Nat) (hn : n < 8) (fuel fuel' : Nat) (remote : SockAddr) (d d1 d2 d3 d4 : Device Chip H)
    (hz : Sock.SizesOk (d.bus.socks n).mem)
    (hconn : Device.tcpConnect (Chip.dev sched faults).bus fuel ⟨Socket.new (BitVec.ofNat 8 n)⟩ remote d = (.ok (), d1))
    (acc del : List U8) (hrun : TcpRun sched faults n d1.bus acc del d2.bus) (ht : SendOkSincere sched n) (data : List U8)
    (hq : SendOkQuiet sched n d2.bus.clock (d2.bus.clock + 8 + data.length)) (hs : ¬ (d2.bus.socks n).SendOk) (k : Nat)
    (h : Device.tcpSend (Chip.dev sched faults).bus fuel' ⟨Socket.new (BitVec.ofNat 8 n)⟩ data d2 = (.ok k, d3))
    (hc : Device.tcpClose (Chip.dev sched faults).bus ⟨Socket.new (BitVec.ofNat 8 n)⟩ d3 = (.ok (), d4)) :
    (d4.bus.socks n).stream = (d1.bus.socks n).stream ++ acc ++ data.take k ∧ (d4.bus.socks n).sr = 0 := by
  obtain ⟨_, _, ⟨S, A, hf⟩, _⟩ := tcpConnect_idle hn hz hconn
  have h0 := tcpRun_idle hn hrun hf.1
  have h1 := (tcp_send_spent (sched := sched) (faults := faults) hn ht d2.bus.clock fuel' data hq).run d2.bus
    ⟨rfl, h0.tx.tcp, by rw [← Bool.not_eq_true]; exact hs⟩
  rw [onBus_run h] at h1
  have h2 := (C78_partial n hn fuel fuel' remote d d1 d2 d3 hz hconn acc del hrun ht data hq hs k h).2
  obtain ⟨h3, _, _, ⟨s1, he, hst, _⟩, _⟩ := C64_closed (E := E) hn ⟨Socket.new (BitVec.ofNat 8 n), none, 0⟩ ⟨Socket.new (BitVec.ofNat 8 n)⟩
    rfl rfl d3 d4 (.inr hc)
  have h4 := (stable_drained _).evolves he ⟨h1.2, h2⟩
  exact ⟨hst.trans h4.2, h3⟩

/-- `onceSent`, closed. -/
def onceClosed : Device Chip Unit := (Device.tcpClose (Chip.dev onceSched noFaults).bus demoSocket onceSent).2

/-- C89_partial is not vacuous. -/
example : (onceClosed.bus.socks 0).stream = ((onceConnected noFaults).bus.socks 0).stream ++ [] ++ List.take 1 [1] ∧
    (onceClosed.bus.socks 0).sr = 0 := by
  refine C89_partial (n := 0) (sched := onceSched) (faults := noFaults) (by decide) 100 9 demoRemote demoDevice
    (onceConnected noFaults) (onceConnected noFaults) onceSent onceClosed powerUp_sizes (run_eq ?_) [] [] .start once_sincere [1]
    ?_ ?_ 1 ?_ ?_
  · decide +kernel
  · intro k h1 h2 bits hb
    rw [show (onceConnected noFaults).bus.clock = 17 by decide +kernel] at h1 h2
    have h2 : k < 17 + 8 + 1 := h2
    unfold onceSched at hb
    rw [if_neg (by omega), if_neg (by omega)] at hb
    simp at hb
  · decide +kernel
  · rw [onceSent]
    exact run_eq (by decide +kernel)
  · rw [onceClosed]
    exact run_eq (by decide +kernel)

/-- C89 is false of the data, too: after the run of `C78_refuted`, `close` returns `Ok`, and the byte accepted with `Ok` is
never transmitted (by C64 nothing is, after `close`). -/
theorem C89_lost :
    let B := (Chip.dev onceSched (faultAt 23)).bus
    let r1 := Device.tcpSend B 9 demoSocket [1] (onceConnected (faultAt 23))
    let r2 := Device.tcpSend B 9 demoSocket [2] r1.2
    let r3 := Device.tcpClose B demoSocket r2.2
    SendOkSincere onceSched 0 ∧ r2.1 = .ok 1 ∧ r3.1 = .ok () ∧ (r3.2.bus.socks 0).stream = [1] ∧ (r3.2.bus.socks 0).sr = 0 :=
  ⟨once_sincere, by decide +kernel⟩

end W5500.Props
