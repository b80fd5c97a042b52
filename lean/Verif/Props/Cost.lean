import Verif.Proofs.Cost
import Verif.Props.Returns
import Verif.Props.Success
/-! # Bus work

C80 Every call makes a bounded number of transfers of a bounded number of bytes. -/

namespace W5500.Props
open W5500.Spec
variable {W E H : Type} {g : Meter W} {B : Bus W E}

/-! ## C80 -/

/-- C80, what the bounds are about: any meter connected to the bus. An observer on the wire is one, and the chip's own counters
are one; both count failed transfers too. -/
theorem C80_meters (B : Bus W E) (sched : Nat → List (Nat × Act)) (faults : Nat → Option (E × Nat)) :
    (Meter.log (W := W)).On (traced B) ∧ Meter.chip.On (Chip.dev sched faults).bus :=
  ⟨Meter.log_on B, Meter.chip_on sched faults⟩

/-- C80, TCP: however the call ends and whatever the bus answers. `fuel` is the number of times the waiting loop is allowed to
turn; beside the waiting, the cost is a constant and the data once. -/
theorem C80_tcp (hB : g.On B) (fuel : Nat) (t : TcpSocket) (remote : SockAddr) (data buf : List U8) (d : Device W H) :
    g.dev.Spent d (Device.tcpConnect B fuel t remote d).2 (fuel + 24) (fuel + 29) ∧
    g.dev.Spent d (Device.tcpSend B fuel t data d).2 (fuel + 7) (fuel + data.length + 9) ∧
    g.dev.Spent d (Device.tcpReceive B fuel t (buf, d)).2.2 (2 * fuel + 7) (4 * fuel + buf.length + 8) ∧
    g.dev.Spent d (Device.tcpClose B t d).2 2 2 := by
  refine ⟨?_, ?_, ?_, ?_⟩
  · cases remote with
    | v6 a p => exact .refl _ d _ _
    | v4 a =>
      exact (Costs.onBus (Costs.le (.bind (co_tcpOpen hB t _) fun _ => co_socketConnect hB t fuel a) (by omega) (by omega))).run d
  · exact (Costs.onBus (co_tcpSend hB t fuel data)).run d
  · exact ((CostsB.onSockBus (co_tcpReceive hB t fuel buf.length)).run (buf, d) (Nat.le_refl _)).1
  · exact (Costs.bind (Costs.onBus (co_tcpClose hB t)) fun _ => co_release g _).run d

/-- C80, UDP. A send of more than fits into the chip's buffer is made in rounds, each with its own waiting; the data is still
transferred only once. -/
theorem C80_udp (hB : g.On B) (fuel : Nat) (u : UdpSocket) (remote : SockAddr) (p : U16) (data buf : List U8) (d : Device W H) :
    g.dev.Spent d (Device.udpConnect B remote (u, d)).2.2 8 13 ∧
    g.dev.Spent d (Device.udpBind B p (u, d)).2.2 7 9 ∧
    g.dev.Spent d (Device.udpSend B fuel u data d).2 (fuel * (2 * fuel + 10) + 2) (fuel * (4 * fuel + 13) + data.length + 3) ∧
    g.dev.Spent d (Device.udpSendTo B fuel remote data (u, d)).2.2 (fuel * (2 * fuel + 10) + 4)
      (fuel * (4 * fuel + 13) + data.length + 9) ∧
    g.dev.Spent d (Device.udpReceive B fuel u (buf, d)).2.2 (2 * fuel + 8) (4 * fuel + buf.length + 16) ∧
    g.dev.Spent d (Device.udpClose B u d).2 2 2 := by
  refine ⟨?_, ?_, ?_, ?_, ?_, ?_⟩
  · cases remote with
    | v6 a q => exact .refl _ d _ _
    | v4 a =>
      exact (Costs.onSockBus (Costs.le (.bind .get fun s => .bind (.mapErr (.onSnd (co_udpOpen hB s.1))) fun _ => co_setDestination hB a)
        (by omega) (by omega))).run (u, d)
  · exact (Costs.onSockBus (Costs.le (.bind (co_setPort hB p) fun _ => .bind .get fun s => .mapErr (.onSnd (co_udpOpen hB s.1)))
      (by omega) (by omega))).run (u, d)
  · exact (Costs.onBus (co_udpSendAll hB u fuel data)).run d
  · cases remote with
    | v6 a q => exact .refl _ d _ _
    | v4 a => exact (Costs.onSockBus (co_udpSendTo hB fuel a data)).run (u, d)
  · exact ((CostsB.onSockBus (CostsB.le (.bind (co_udpReceive hB u fuel buf.length) fun x => .pure _) (by omega) (by omega))).run (buf, d)
      (Nat.le_refl _)).1
  · exact (Costs.bind (Costs.onBus (co_udpClose hB u)) fun _ => co_release g _).run d

/-- C80, MACRAW. -/
theorem C80_raw (hB : g.On B) (fuel : Nat) (r : RawDevice) (frame buf : List U8) (x : U8) (w : W) :
    g.Spent w (RawDevice.new B w).2 18 18 ∧
    g.Spent w (r.readFrame B fuel (buf, w)).2.2 (2 * fuel + 5) (4 * fuel + buf.length + 7) ∧
    g.Spent w (r.writeFrame B fuel frame w).2 (fuel + 6) (fuel + frame.length + 8) ∧
    g.Spent w (r.enableInterrupts B x w).2 2 2 ∧ g.Spent w (r.disableInterrupts B w).2 2 2 ∧ g.Spent w (r.clearInterrupts B w).2 1 1 :=
  ⟨(co_rawNew hB).run w, ((co_rawRead hB r fuel buf.length).run (buf, w) (Nat.le_refl _)).1, (co_rawWrite hB r fuel frame).run w,
    (co_rawEnable hB r x).run w, (co_rawDisable hB r).run w, (co_rawClear hB r).run w⟩

/-- C80, initialisation: DHCP, static settings, MACRAW. -/
theorem C80_init (hB : g.On B) (a : Bool) (mac : Mac) (ip gateway subnet : Ipv4) (mode : Mode) (w : W) :
    g.Spent w (Uninit.initialize a B mac mode w).2 3 3 ∧
    g.Spent w (Uninit.initializeManual a B mac ip mode w).2 7 21 ∧
    g.Spent w (Uninit.initializeAdvanced a B mac ip gateway subnet mode w).2 7 21 ∧
    g.Spent w (Uninit.initializeMacraw B mac w).2 20 25 :=
  ⟨(co_init hB (t := 0) (b := 0) (.pure ()) a _ mode).run w, (co_init hB (co_refresh hB) a _ mode).run w,
    (co_init hB (co_refresh hB) a _ mode).run w, (co_initMacraw hB mac).run w⟩

/-- C80, the register accessors: one transfer each. -/
theorem C80_plain (hB : g.On B) (mode : Mode) (t : RetryTime) (n : U8) (w : W) :
    g.Spent w (Device.gateway B w).2 1 4 ∧ g.Spent w (Device.subnetMask B w).2 1 4 ∧ g.Spent w (Device.ip B w).2 1 4 ∧
    g.Spent w (Device.mac B w).2 1 6 ∧ g.Spent w (Device.phyConfig B w).2 1 1 ∧ g.Spent w (version B w).2 1 1 ∧
    g.Spent w (resetChip B w).2 1 1 ∧ g.Spent w (setMode B mode w).2 1 1 ∧ g.Spent w (setRetryTimeout B t w).2 1 2 ∧
    g.Spent w (currentRetryTimeout B w).2 1 2 ∧ g.Spent w (setRetryCount B n w).2 1 1 ∧ g.Spent w (currentRetryCount B w).2 1 1 :=
  ⟨(co_readIp hB _).run w, (co_readIp hB _).run w, (co_readIp hB _).run w, (co_mac hB).run w,
    (Costs.bind (co_read1 hB _ _) fun _ => .pure _).run w, (co_read1 hB _ _).run w, (co_write hB _ _ [_]).run w,
    (co_write hB _ _ [_]).run w, (co_write hB _ _ [_, _]).run w, (co_retry hB).run w, (co_write hB _ _ [_]).run w,
    (co_read1 hB _ _).run w⟩

/-- C80, receiving on the chip: whatever arrives meanwhile and whichever transactions fail, and however long the caller is
prepared to wait, a receive call is over after this many transfers (a constant and two for each byte the RX buffer can hold). -/
theorem C80_receive {n : Nat} (hn : n < 8) {sched : Nat → List (Nat × Act)} {faults : Nat → Option (E × Nat)} (fuel : Nat)
    (t : TcpSocket) (ht : t.socket = Socket.new (BitVec.ofNat 8 n)) (u : UdpSocket) (hu : u.socket = Socket.new (BitVec.ofNat 8 n))
    (r : RawDevice) (hr : r.rawSocket = Socket.new (BitVec.ofNat 8 n)) (buf : List U8) (d : Device Chip H)
    (hz : (d.bus.socks n).rxSize < 65536) :
    Meter.chip.dev.Spent d (Device.tcpReceive (Chip.dev sched faults).bus fuel t (buf, d)).2.2
      (2 * (d.bus.socks n).rxSize + 9) (4 * (d.bus.socks n).rxSize + buf.length + 12) ∧
    Meter.chip.dev.Spent d (Device.udpReceive (Chip.dev sched faults).bus fuel u (buf, d)).2.2
      (2 * (d.bus.socks n).rxSize + 10) (4 * (d.bus.socks n).rxSize + buf.length + 20) ∧
    Meter.chip.Spent d.bus (r.readFrame (Chip.dev sched faults).bus fuel (buf, d.bus)).2.2
      (2 * (d.bus.socks n).rxSize + 7) (4 * (d.bus.socks n).rxSize + buf.length + 11) := by
  have hB := Meter.chip_on sched faults
  refine ⟨?_, ?_, ?_⟩
  · obtain rfl : t = ⟨Socket.new (BitVec.ofNat 8 n)⟩ := by cases t; cases ht; rfl
    rcases Nat.le_total fuel ((d.bus.socks n).rxSize + 1) with h | h
    · exact ((C80_tcp hB fuel _ (.v6 [] 0) [] buf d).2.2.1).le (by omega) (by omega)
    · rw [(C67_rounds _ h _ u r (.v6 [] 0) [] d.bus d buf).2.2.1 ((C67_tcp hn d hz buf).1 _ (Nat.lt_succ_self _))]
      exact ((C80_tcp hB _ _ (.v6 [] 0) [] buf d).2.2.1).le (by omega) (by omega)
  · rcases Nat.le_total fuel ((d.bus.socks n).rxSize + 1) with h | h
    · exact ((C80_udp hB fuel u (.v6 [] 0) 0 [] buf d).2.2.2.2.1).le (by omega) (by omega)
    · rw [(C67_rounds _ h t u r (.v6 [] 0) [] d.bus d buf).2.2.2.2.2.1 ((C67_udp hn u hu d hz buf).1 _ (Nat.lt_succ_self _))]
      exact ((C80_udp hB _ u (.v6 [] 0) 0 [] buf d).2.2.2.2.1).le (by omega) (by omega)
  · rcases Nat.le_total fuel ((d.bus.socks n).rxSize + 1) with h | h
    · exact ((C80_raw hB fuel r [] buf 0 d.bus).2.1).le (by omega) (by omega)
    · rw [(C67_rounds _ h t u r (.v6 [] 0) [] d.bus d buf).2.2.2.2.2.2.2 ((C67_raw hn r hr d.bus hz buf).1 _ (Nat.lt_succ_self _))]
      exact ((C80_raw hB _ r [] buf 0 d.bus).2.1).le (by omega) (by omega)

/-- Transactions and bytes between two states of a chip. -/
def used (c c' : Chip) : Nat × Nat := (c'.txn - c.txn, c'.clock - c.clock)

/-- C80: the bounds are attained. A TCP receive that looks at the size once, a UDP receive, a MACRAW receive, an initialisation
with four settings to write: as many transfers and bytes as the theorems allow. -/
example : used demoArrived.bus (Device.tcpReceive (Chip.dev demoSched noFaults).bus 1 demoSocket ([0, 0], demoArrived)).2.2.bus =
      (2 * 1 + 7, 4 * 1 + 2 + 8) ∧
    used arrived.bus (Device.udpReceive (Chip.dev (arriveSched [dgramA, dgramB]) noFaults).bus 1 (arriveBound [dgramA, dgramB]).1 ([0, 0, 0], arrived)).2.2.bus =
      (2 * 1 + 8, 4 * 1 + 3 + 16) ∧
    used rawArrived (rawDemo.readFrame (Chip.dev frameSched noFaults).bus 1 ([0, 0], rawArrived)).2.2 = (2 * 1 + 5, 4 * 1 + 2 + 7) ∧
    used .powerUp (Uninit.initializeManual true (Chip.dev demoSched noFaults).bus ⟨2, 0, 0, 0, 0, 1⟩ ⟨10, 0, 0, 7⟩ .default .powerUp).2 =
      (7, 21) := by
  refine ⟨?_, ?_, ?_, ?_⟩ <;> decide +kernel

end W5500.Props
