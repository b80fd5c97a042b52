import Verif.Props.Persist
/-! # C137: opening a socket again and again

At most `N` transfers ever fail, anywhere. A program that opens a socket (`bind` or `connect`), and does so again whenever the call returned a bus error, opens it with
at most `N + 1` calls. Here failures need not be early: opening a socket sets everything up anew. -/

namespace W5500.Props
open W5500.Spec Sock
variable {E H : Type} {sched : Nat → List (Nat × Act)} {faults : Nat → Option (E × Nat)}


/-- Attempts do not change which socket the object is. -/
theorem tries_socket {ε α : Type} {call : Nat → M (UdpSocket × Device Chip H) ε α} {find : Res ε α → Option E} {chip : UdpSocket × Device Chip H → Chip}
    {m : UdpSocket × Device Chip H → Nat} {k : Nat} {s s' : UdpSocket × Device Chip H} (hc : ∀ fuel, Keeps (call fuel)) (ht : Tries call find chip m k s s') :
    s'.1.socket = s.1.socket := by
  induction ht with
  | none => rfl
  | again fuel e _ h _ _ ih =>
    exact (congrArg (·.2.1.socket) h).symm.trans ((hc fuel _).1.trans ih)

/-- C137, TCP `connect`: from any state of the chip. The attempts may fail in any of their transfers (`m` is any bound). -/
theorem C137_tcp_connect {n : Nat} (hn : n < 8) (remote : SockAddr4) {m : Device Chip H → Nat} {d d' : Device Chip H} {N k : Nat} (hN : AtMost N faults)
    (ht : Tries (fun fuel => Device.tcpConnect (Chip.dev sched faults).bus fuel ⟨Socket.new (BitVec.ofNat 8 n)⟩ (.v4 remote)) inTcp Device.bus m k d d')
    (hs : StatusFrom sched n TcpState d'.bus) (ha : Answering sched n) :
    k ≤ N ∧ ∃ d'' : Device Chip H,
      SucceedsUnless faults Device.bus inTcp
        (fun fuel => Device.tcpConnect (Chip.dev sched faults).bus fuel ⟨Socket.new (BitVec.ofNat 8 n)⟩ (.v4 remote)) d' () d'' ∧
      (k = N → Succeeds (fun fuel => Device.tcpConnect (Chip.dev sched faults).bus fuel ⟨Socket.new (BitVec.ofNat 8 n)⟩ (.v4 remote)) d' () d'') := by
  let p : Plan E := ⟨sched, faults⟩
  obtain ⟨d'', h1⟩ := C76_tcp_connect (sched := (p.calm d'.bus).sched) (faults := (p.calm d'.bus).faults) hn (fun _ => rfl) hs.since ha.since remote d'
  have hm : ∀ fuel, PlayDev (H := H) (fun _ (B : Bus _ E) => Device.tcpConnect B fuel ⟨Socket.new (BitVec.ofNat 8 n)⟩ (.v4 remote)) := fun fuel =>
    .onBus (.bind (play_tcpOpen _ _) fun _ => play_tcpConnect _ fuel remote)
  have h2 := unless_dev p hm (fun fuel p => FailStop.tcp (fs_tcpConnect fuel (.v4 remote))) h1
  have key := persist hN (fun fuel => tally_dev p (hm fuel) (fun p => FailStop.tcp (fs_tcpConnect fuel (.v4 remote)))) ht h2
  exact ⟨key.1, d'', h2, key.2⟩

/-- C137, UDP `connect`: unless the chip used the socket for TCP before, or a timeout is still due. -/
theorem C137_udp_connect {n : Nat} (hn : n < 8) (remote : SockAddr4) {m : UdpSocket × Device Chip H → Nat} {u u' : UdpSocket} {d d' : Device Chip H}
    {N k : Nat} (hN : AtMost N faults)
    (ht : Tries (fun _ => Device.udpConnect (Chip.dev sched faults).bus (.v4 remote)) inUdp (fun s => s.2.bus) m k (u, d) (u', d'))
    (hu : u.socket = Socket.new (BitVec.ofNat 8 n)) (hs : StatusFrom sched n (· = 0x22) d'.bus) (hl : LosslessFrom sched n d'.bus)
    (hp : (d'.bus.socks n).proto ≠ 1) (ho : (d'.bus.socks n).owed.getLsbD 3 = false) :
    k ≤ N ∧ ∃ d'' : Device Chip H,
      SucceedsUnless faults (fun s => s.2.bus) inUdp (fun _ => Device.udpConnect (Chip.dev sched faults).bus (.v4 remote)) (u', d') ()
        ({ u' with destination := some remote }, d'') ∧
      (k = N → Device.udpConnect (Chip.dev sched faults).bus (.v4 remote) (u', d') = (.ok (), ({ u' with destination := some remote }, d''))) ∧
      (d''.bus.socks n).sr = 0x22 ∧ (d''.bus.socks n).NoTimeout := by
  replace hu : u'.socket = _ := (tries_socket (fun _ => keeps_udpConnect (.v4 remote)) ht).trans hu
  let p : Plan E := ⟨sched, faults⟩
  obtain ⟨d'', h1, h3⟩ := C76_udp_connect (sched := (p.calm d'.bus).sched) (faults := (p.calm d'.bus).faults) hn (fun _ => rfl) hs.since hl.since u' hu d'
    hp ho remote
  have hm : ∀ u, PlayWith (H := H) u (fun _ (B : Bus _ E) => Device.udpConnect B (.v4 remote)) := fun u => .onSockBus (play_udpConnect u remote)
  have h2 := unless_with p (m := fun _ _ B => Device.udpConnect B (.v4 remote)) (fun _ => hm u') (fun _ p => FailStop.udp (fs_udpConnect (.v4 remote)))
    ⟨nofun, 0, fun _ _ => h1⟩
  have key := persist hN (fun _ => tally_with p hm (fun p => FailStop.udp (fs_udpConnect (.v4 remote)))) ht h2
  refine ⟨key.1, d'', h2, fun hk => ?_, h3⟩
  obtain ⟨_, M, h4⟩ := key.2 hk
  exact h4 M (Nat.le_refl _)

/-- C137, UDP `bind`. -/
theorem C137_udp_bind {n : Nat} (hn : n < 8) (port : U16) {m : UdpSocket × Device Chip H → Nat} {u u' : UdpSocket} {d d' : Device Chip H}
    {N k : Nat} (hN : AtMost N faults)
    (ht : Tries (fun _ => Device.udpBind (Chip.dev sched faults).bus port) inUdp (fun s => s.2.bus) m k (u, d) (u', d'))
    (hu : u.socket = Socket.new (BitVec.ofNat 8 n)) (hl : LosslessFrom sched n d'.bus)
    (hp : (d'.bus.socks n).proto ≠ 1) (ho : (d'.bus.socks n).owed.getLsbD 3 = false) :
    k ≤ N ∧ ∃ d'' : Device Chip H,
      SucceedsUnless faults (fun s => s.2.bus) inUdp (fun _ => Device.udpBind (Chip.dev sched faults).bus port) (u', d') () ({ u' with port := port }, d'') ∧
      (k = N → Device.udpBind (Chip.dev sched faults).bus port (u', d') = (.ok (), ({ u' with port := port }, d''))) ∧
      (d''.bus.socks n).sr = 0x22 ∧ (d''.bus.socks n).NoTimeout := by
  replace hu : u'.socket = _ := (tries_socket (fun _ => keeps_udpBind port) ht).trans hu
  let p : Plan E := ⟨sched, faults⟩
  obtain ⟨d'', h1, h3⟩ := C76_udp_bind (sched := (p.calm d'.bus).sched) (faults := (p.calm d'.bus).faults) hn (fun _ => rfl) hl.since u' hu d' hp ho port
  have hm : ∀ u, PlayWith (H := H) u (fun _ (B : Bus _ E) => Device.udpBind B port) := fun u => .onSockBus (play_udpBind u port)
  have h2 := unless_with p (m := fun _ _ B => Device.udpBind B port) (fun _ => hm u') (fun _ p => FailStop.udp (fs_udpBind port))
    ⟨nofun, 0, fun _ _ => h1⟩
  have key := persist hN (fun _ => tally_with p hm (fun p => FailStop.udp (fs_udpBind port))) ht h2
  refine ⟨key.1, d'', h2, fun hk => ?_, h3⟩
  obtain ⟨_, M, h4⟩ := key.2 hk
  exact h4 M (Nat.le_refl _)

/-! ## Concrete cases: the first attempt failed in one of its transfers. -/

theorem failed_connect : Device.tcpConnect (Chip.dev drainSched (faultAt 4)).bus 100 ⟨Socket.new (BitVec.ofNat 8 0)⟩ (.v4 addrA) demoDevice =
    (.err (.other ()), (Device.tcpConnect (Chip.dev drainSched (faultAt 4)).bus 100 ⟨Socket.new (BitVec.ofNat 8 0)⟩ (.v4 addrA) demoDevice).2) :=
  run_eq (by decide +kernel)

example : ∃ d' : Device Chip Unit, Succeeds (fun fuel => Device.tcpConnect (Chip.dev drainSched (faultAt 4)).bus fuel
    ⟨Socket.new (BitVec.ofNat 8 0)⟩ (.v4 addrA))
    (Device.tcpConnect (Chip.dev drainSched (faultAt 4)).bus 100 ⟨Socket.new (BitVec.ofNat 8 0)⟩ (.v4 addrA) demoDevice).2 () d' := by
  obtain ⟨_, d', _, h⟩ := C137_tcp_connect (n := 0) (by decide) addrA (m := fun _ => 5) (d := demoDevice) (faultAt_once 4)
    (.again 100 () .none failed_connect rfl (by decide +kernel)) (fun k x _ h => by rw [drain_status k x h]; decide) drain_answering
  exact ⟨d', h rfl⟩

theorem failed_open : Device.udpConnect (Chip.dev emitSched (faultAt 1)).bus (.v4 addrA) (demoUdp, demoDevice) =
    (.err (.other ()), (failedOpen.1, failedOpen.2)) := run_eta (by decide +kernel)

example : ∃ d' : Device Chip Unit, Device.udpConnect (Chip.dev emitSched (faultAt 1)).bus (.v4 addrA) (failedOpen.1, failedOpen.2) =
    (.ok (), ({ failedOpen.1 with destination := some addrA }, d')) := by
  obtain ⟨_, d', _, h, _⟩ := C137_udp_connect (n := 0) (by decide) addrA (m := fun _ => 2) (faultAt_once 1)
    (.again 0 () .none failed_open rfl (by decide +kernel)) (by decide +kernel) (fun k x _ h => emit_status (p := (· = 0x22)) k x h)
    (fun k _ => emit_lossless k) (by decide +kernel) (by decide +kernel)
  exact ⟨d', h rfl⟩

def failedBind : UdpSocket × Device Chip Unit := (Device.udpBind (Chip.dev emitSched (faultAt 3)).bus 68 (demoUdp, demoDevice)).2
theorem failed_bind : Device.udpBind (Chip.dev emitSched (faultAt 3)).bus 68 (demoUdp, demoDevice) =
    (.err (.other ()), (failedBind.1, failedBind.2)) := run_eta (by decide +kernel)

example : ∃ d' : Device Chip Unit, Device.udpBind (Chip.dev emitSched (faultAt 3)).bus 68 (failedBind.1, failedBind.2) =
    (.ok (), ({ failedBind.1 with port := 68 }, d')) := by
  obtain ⟨_, d', _, h, _⟩ := C137_udp_bind (n := 0) (by decide) 68 (m := fun _ => 4) (faultAt_once 3)
    (.again 0 () .none failed_bind rfl (by decide +kernel)) (by decide +kernel) (fun k _ => emit_lossless k) (by decide +kernel) (by decide +kernel)
  exact ⟨d', h rfl⟩

end W5500.Props
