import Verif.Props.Success
import Verif.Proofs.Wakeup
/-! # No lost wake-ups

C77 Data that has arrived is reported by one of the following receive calls: what waits when a receive call returns is
announced by the RECV interrupt, which the next receive call looks at.

MACRAW reads do not look at the interrupt, so the question arises for UDP and TCP only. -/

namespace W5500.Props
open W5500.Spec Sock
variable {W E H : Type} {sched : Nat → List (Nat × Act)} {faults : Nat → Option (E × Nat)}
  {sched0 : Nat → List (Nat × Act)} {faults0 : Nat → Option (E × Nat)}

/-- C77, what the code does: after a UDP `receive` that returned `Ok`, nothing is announced, whatever waits. -/
theorem C77_udp_unannounced {n : Nat} (hn : n < 8) (u : UdpSocket) (hu : u.socket = Socket.new (BitVec.ofNat 8 n)) (fuel : Nat)
    (buf buf' : List U8) (d d' : Device Chip H) (x : Nat × SockAddr)
    (h : Device.udpReceive (Chip.dev sched faults).bus fuel u (buf, d) = (.ok x, (buf', d'))) :
    ¬ (d'.bus.socks n).Announced := by
  rw [unannounced_iff]
  have h1 := (Hoare.bind (udp_receive_clears (sched := sched) (faults := faults) hn u hu fuel)
    (f := fun x => pure (x.1, SockAddr.v4 x.2.origin)) (Q' := fun _ s => At n Unannounced s.2) fun x => .pure fun _ h => h).run
    (buf, d.bus) trivial
  have h2 := onSockBus_run h
  rw [h2] at h1
  exact h1

/-- The same for TCP. -/
theorem C77_tcp_unannounced {n : Nat} (hn : n < 8) (fuel : Nat) (buf buf' : List U8) (d d' : Device Chip H) (k : Nat)
    (h : Device.tcpReceive (Chip.dev sched faults).bus fuel ⟨Socket.new (BitVec.ofNat 8 n)⟩ (buf, d) = (.ok k, (buf', d'))) :
    ¬ (d'.bus.socks n).Announced := by
  rw [unannounced_iff]
  have h1 := (tcp_receive_clears (sched := sched) (faults := faults) hn fuel).run (buf, d.bus) trivial
  rw [onSockBus_run h] at h1
  exact h1

/-- C77, the consequence: what waits unannounced is not delivered by any number of further UDP `receive` calls, whatever
buffers they are given, and stays where it is, until something else arrives. -/
theorem C77_udp_deaf {n : Nat} (hn : n < 8) (u : UdpSocket) (hu : u.socket = Socket.new (BitVec.ofNat 8 n))
    (polls : List (Nat × List U8)) (d : Device Chip H) (hq : NoNews sched n d.bus.clock)
    (hd : ¬ (d.bus.socks n).Announced) :
    let r := udpPolls (Chip.dev sched faults).bus u polls d
    (∀ x, .ok x ∉ r.1) ∧ (r.2.bus.socks n).queue = (d.bus.socks n).queue := by
  have := udp_polls_unheard (faults := faults) hn (deaf_ticks _ hq) (fun c h => h.2.1) u hu polls d
    ⟨Nat.le_refl _, unannounced_iff.mp hd, rfl⟩
  exact ⟨this.1, this.2.2.2⟩

/-- The same for TCP: no further call brings a byte. -/
theorem C77_tcp_deaf {n : Nat} (hn : n < 8) (polls : List (Nat × List U8)) (d : Device Chip H)
    (hq : NoNews sched n d.bus.clock) (hd : ¬ (d.bus.socks n).Announced) :
    let r := tcpPolls (Chip.dev sched faults).bus ⟨Socket.new (BitVec.ofNat 8 n)⟩ polls d
    (∀ k, .ok k ∈ r.1 → k = 0) ∧ (r.2.bus.socks n).queue = (d.bus.socks n).queue := by
  have := tcp_polls_unheard (faults := faults) hn (deaf_ticks _ hq) (fun c h => h.2.1) polls d
    ⟨Nat.le_refl _, unannounced_iff.mp hd, rfl⟩
  exact ⟨this.1, this.2.2.2⟩

/-- C77, partial, UDP: if nothing arrives during a `receive` that returns `Ok`, nothing waits afterwards. Missing: a
datagram that arrives during the call; see `C77_refuted`. -/
theorem C77_udp_partial {n : Nat} (hn : n < 8) {u0 u : UdpSocket} {c0 : Chip} {log : List UdpSent} {got : List UdpGot}
    {d d' : Device Chip H} (ho : UdpOpened sched0 faults0 n u0 c0) (hr : UdpRun sched faults n u0 c0 log got u d.bus)
    (fuel : Nat) (buf buf' : List U8) (x : Nat × SockAddr)
    (h : Device.udpReceive (Chip.dev sched faults).bus fuel u (buf, d) = (.ok x, (buf', d')))
    (ha : (d'.bus.socks n).arrived = (d.bus.socks n).arrived) : (d'.bus.socks n).Noticed := by
  obtain ⟨more, h1⟩ := C42_all_removed hn ho hr fuel buf buf' x h
  rw [ha] at h1
  have := congrArg List.length h1
  simp only [List.length_append] at this
  exact fun hq => absurd (List.length_eq_zero_iff.mp (by omega)) hq

/-- C77, partial, TCP: if RECV was pending, the buffer was not filled, and nothing arrives during a `receive` that returns
`Ok`, nothing waits afterwards. Missing: bytes that arrive during the call, and bytes for which the buffer was too short;
see `C47_refuted`, `C77_tcp_refuted`. -/
theorem C77_tcp_partial (n : Nat) (hn : n < 8) (fuel fuel' : Nat) (remote : SockAddr) (d d1 d2 d3 : Device Chip H)
    (hz : Sock.SizesOk (d.bus.socks n).mem)
    (hconn : Device.tcpConnect (Chip.dev sched faults).bus fuel ⟨Socket.new (BitVec.ofNat 8 n)⟩ remote d = (.ok (), d1))
    (acc del : List U8) (hrun : TcpRun sched faults n d1.bus acc del d2.bus) (hpend : (d2.bus.socks n).Announced)
    (buf buf' : List U8) (k : Nat)
    (h : Device.tcpReceive (Chip.dev sched faults).bus fuel' ⟨Socket.new (BitVec.ofNat 8 n)⟩ (buf, d2) = (.ok k, (buf', d3)))
    (hk : k < buf.length) (ha : (d3.bus.socks n).arrived = (d2.bus.socks n).arrived) : (d3.bus.socks n).Noticed := by
  obtain ⟨_, _, ⟨S, A, hf⟩, _⟩ := tcpConnect_idle hn hz hconn
  have h0 := tcpRun_idle hn hrun hf.1
  have hp : (d2.bus.socks n).ir &&& 4 ≠ 0 := by
    intro e
    have := congrArg (fun x : U8 => x.getLsbD 2) e
    rw [BitVec.getLsbD_and, show (d2.bus.socks n).ir.getLsbD 2 = true from hpend] at this
    exact nomatch this
  obtain ⟨bs, h2, h3, h4, h5, h6⟩ := (tcp_receive hn (S ++ acc) (A ++ del) _ True _ fuel' buf).ok
    (s := (buf, d2.bus)) ⟨rfl, h0, Nat.le_refl _, fun _ => hp, rfl⟩ (onSockBus_run h)
  have e1 := h0.rx.core.arrived
  have e2 := h5.rx.core.arrived
  have h6 : min buf.length (d2.bus.socks n).rsr.toNat ≤ k := h6 trivial
  rw [e1, e2] at ha
  have := congrArg List.length ha
  simp only [List.length_append, Sock.queue_length] at this
  refine fun hq => absurd (List.length_eq_zero_iff.mp ?_) hq
  rw [Sock.queue_length]
  omega

/-- Datagram A arrives at once, datagram B while A is being read. -/
def lateArrival (k : Nat) : List (Nat × Act) :=
  (if k = 9 then [(0, .datagram dgramA)] else []) ++ if k = 20 then [(0, .datagram dgramB)] else []

def lateBound : UdpSocket × Device Chip Unit :=
  (Device.udpBind (Chip.dev lateArrival noFaults).bus 5000 (demoUdp, demoDevice)).2

def lateReceived : Device Chip Unit :=
  (Device.udpReceive (Chip.dev lateArrival noFaults).bus 9 lateBound.1 ([0, 0], lateBound.2)).2.2

theorem late_noNews : NoNews lateArrival 0 31 := by
  intro k hk a ha
  unfold lateArrival at ha
  rw [if_neg (by omega), if_neg (by omega)] at ha
  exact nomatch ha

/-- C77 is false: datagram B arrives while `receive` delivers A. It is stored, but its announcement is cleared along with
that of A, and no number of later calls, with whatever buffers, delivers it. -/
theorem C77_refuted :
    (Device.udpReceive (Chip.dev lateArrival noFaults).bus 9 lateBound.1 ([0, 0], lateBound.2)).1 =
      .ok (2, .v4 ⟨⟨10, 0, 0, 1⟩, 53⟩) ∧ (lateReceived.bus.socks 0).queue = dgramB.encode ∧
    ∀ polls, let r := udpPolls (Chip.dev lateArrival noFaults).bus lateBound.1 polls lateReceived
      (∀ x, .ok x ∉ r.1) ∧ (r.2.bus.socks 0).queue = dgramB.encode := by
  have hq : (lateReceived.bus.socks 0).queue = dgramB.encode := by decide +kernel
  refine ⟨by decide +kernel, hq, fun polls => ?_⟩
  have := C77_udp_deaf (n := 0) (sched := lateArrival) (faults := noFaults) (by decide) lateBound.1 (by decide +kernel) polls
    lateReceived (by rw [show lateReceived.bus.clock = 31 by decide +kernel]; exact late_noNews) (by decide +kernel)
  exact ⟨this.1, this.2.trans hq⟩

/-- Three bytes arrive at the start, none afterwards. -/
theorem demo_noNews : NoNews demoSched 0 19 := by
  intro k hk a ha
  unfold demoSched at ha
  rw [if_neg (by omega), if_neg (by omega)] at ha
  simp only [List.append_nil, List.mem_cons, Prod.mk.injEq, List.not_mem_nil, or_false, true_and] at ha
  rcases ha with rfl | rfl
  · exact ⟨fun _ => nofun, fun _ => nofun, fun _ => nofun, fun _ => nofun⟩
  · refine ⟨fun _ => nofun, fun _ => nofun, fun _ => nofun, fun b h => ?_⟩
    cases h
    decide

def demoPart : Device Chip Unit :=
  (Device.tcpReceive (Chip.dev demoSched noFaults).bus 9 demoSocket ([0, 0], demoConnected)).2.2

/-- C77 is false of TCP: three bytes have arrived, the first `receive` takes two of them; no number of later calls brings
the third, although the connection stays established. -/
theorem C77_tcp_refuted :
    (Device.tcpReceive (Chip.dev demoSched noFaults).bus 9 demoSocket ([0, 0], demoConnected)).1 = .ok 2 ∧
    (demoPart.bus.socks 0).queue = [3] ∧
    ∀ polls, let r := tcpPolls (Chip.dev demoSched noFaults).bus demoSocket polls demoPart
      (∀ k, .ok k ∈ r.1 → k = 0) ∧ (r.2.bus.socks 0).queue = [3] := by
  have hq : (demoPart.bus.socks 0).queue = [3] := by decide +kernel
  refine ⟨by decide +kernel, hq, fun polls => ?_⟩
  have := C77_tcp_deaf (n := 0) (sched := demoSched) (faults := noFaults) (by decide) polls demoPart
    (fun k hk => demo_noNews k (Nat.le_trans (by decide +kernel) hk)) (by decide +kernel)
  exact ⟨this.1, this.2.trans hq⟩

/-- C77_udp_partial is not vacuous: one datagram has arrived, it is delivered, and nothing arrives meanwhile. -/
example :
    let b := arriveBound [dgramA]
    let r := Device.udpReceive (Chip.dev (arriveSched [dgramA]) noFaults).bus 9 b.1 ([0, 0], b.2)
    r.1 = .ok (2, .v4 ⟨⟨10, 0, 0, 1⟩, 53⟩) ∧ (r.2.2.bus.socks 0).arrived = dgramA.encode := by
  decide +kernel

/-- C77_tcp_partial is not vacuous: the three bytes, and a buffer of four. -/
example :
    let r := Device.tcpReceive (Chip.dev demoSched noFaults).bus 9 demoSocket ([0, 0, 0, 0], demoArrived)
    (demoArrived.bus.socks 0).Announced ∧ r.1 = .ok 3 ∧
      (r.2.2.bus.socks 0).arrived = (demoArrived.bus.socks 0).arrived := by
  decide +kernel

end W5500.Props
