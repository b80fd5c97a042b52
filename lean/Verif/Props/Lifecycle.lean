import Verif.Props.System
import Verif.Props.Alloc
/-! # The end of a socket's life -/

namespace W5500.Props
open W5500 Spec Sock
variable {W E H : Type} {sched : Nat → List (Nat × Act)} {faults : Nat → Option (E × Nat)}

/-! ## C64 A closed socket is silent -/

/-- A socket without protocol, with the given history. -/
structure Silent (S : List U8) (P : List Packet) (A : List U8) (s : Sock) : Prop where
  mode : s.mem 0x00 = 0
  stream : s.stream = S
  packets : s.packets = P
  arrived : s.arrived = A

theorem Silent.proto {S : List U8} {P : List Packet} {A : List U8} {s : Sock} (h : Silent S P A s) : s.proto = 0 := by
  unfold Sock.proto
  rw [h.mode]
  rfl

theorem stable_silent (S : List U8) (P : List Packet) (A : List U8) : StableS (Silent S P A) := by
  intro s a h
  have hp := h.proto
  cases a with
  | raise b => exact ⟨h.1, h.2, h.3, h.4⟩
  | status b => exact ⟨h.1, h.2, h.3, h.4⟩
  | _ => simpa [Sock.act, hp] using h

/-- The two writes of `close` on the chip: `s1` is the socket, only time having passed. -/
theorem close_chip {n : Nat} (hn : n < 8) {c c' : Chip}
    (h : closeWrites (Chip.dev sched faults).bus n c = (.ok (), c')) :
    (c'.socks n).sr = 0 ∧ (∃ s1, (c.socks n).Evolves s1 ∧ Silent s1.stream s1.packets s1.arrived (c'.socks n)) ∧
    c'.cmem = c.cmem ∧ (∀ m, m ≠ n → (c.socks m).Evolves (c'.socks m)) := by
  have hr : BitVec.ofNat 8 (4 * n + 1) = (sockOf n).register := (new_register hn).symm
  unfold closeWrites at h
  rw [hr] at h
  split at h
  · rename_i c1 h1
    obtain ⟨x, hx, rfl⟩ := Chip.write1_ok (sched := sched) (faults := faults) (block := (sockOf n).register) (a := 0x00) (x := 0x00) h1
    rw [Chip.poke_reg hn] at h
    obtain ⟨y, hy, rfl⟩ := Chip.write1_ok (sched := sched) (faults := faults) (block := (sockOf n).register) (a := 0x01) (x := 0x10) h
    rw [Chip.poke_reg hn]
    have hy' := hy.socks n
    rw [Chip.setSock_self] at hy' ⊢
    have h0 : Silent (x.socks n).stream (x.socks n).packets (x.socks n).arrived ((x.socks n).pokeReg 0x00 0x00) :=
      ⟨rfl, rfl, rfl, rfl⟩
    have h2 := (stable_silent _ _ _).evolves hy' h0
    refine ⟨rfl, ⟨x.socks n, hx.socks n, ⟨h2.1, h2.2, h2.3, h2.4⟩⟩, hy.cmem.trans hx.cmem, fun m hm => ?_⟩
    have := hy.socks m
    rw [Chip.setSock_other _ _ _ _ hm] at this ⊢
    exact (hx.socks m).trans this
  · rename_i hne
    exact (hne _ _ h).elim

/-- C64, one call: after a successful `close` of socket `n`, which may have been anything, its status is CLOSED, it has no
protocol, its slot is free, and its history is what it was when the call began, plus what happened by itself meanwhile (the
environment may still have acted on the open socket). The common registers and the other sockets are not affected. -/
theorem C64_closed {n : Nat} (hn : n < 8) (u : UdpSocket) (t : TcpSocket) (hu : u.socket = Socket.new (BitVec.ofNat 8 n))
    (ht : t.socket = Socket.new (BitVec.ofNat 8 n)) (d d' : Device Chip H)
    (h : Device.udpClose (Chip.dev sched faults).bus u d = (.ok (), d') ∨
      Device.tcpClose (Chip.dev sched faults).bus t d = (.ok (), d')) :
    (d'.bus.socks n).sr = 0 ∧ (d'.bus.socks n).mem 0x00 = 0 ∧ d'.state.sockets.getLsbD n = true ∧
    (∃ s1, (d.bus.socks n).Evolves s1 ∧ (d'.bus.socks n).stream = s1.stream ∧ (d'.bus.socks n).packets = s1.packets ∧
      (d'.bus.socks n).arrived = s1.arrived) ∧
    d'.bus.cmem = d.bus.cmem ∧ ∀ m, m ≠ n → (d.bus.socks m).Evolves (d'.bus.socks m) := by
  have key := close_result (Chip.dev sched faults).bus d n hn u t hu ht
  generalize hw : closeWrites (Chip.dev sched faults).bus n d.bus = r at key
  obtain ⟨_ | e | _ | _, w⟩ := r
  · dsimp only at key
    have e : d' = { bus := w, state := { d.state with sockets := setBit d.state.sockets n true } } := by
      rcases h with h | h
      · exact (Prod.mk.inj (h.symm.trans key.1)).2
      · exact (Prod.mk.inj (h.symm.trans key.2)).2
    subst e
    obtain ⟨h1, ⟨s1, h2, h3⟩, h4, h5⟩ := close_chip hn hw
    exact ⟨h1, h3.mode, by rw [getLsbD_setBit _ _ _ _ hn hn]; simp, ⟨s1, h2, h3.stream, h3.packets, h3.arrived⟩, h4, h5⟩
  all_goals
    dsimp only at key
    rcases h with h | h
    · cases h.symm.trans key.1
    · cases h.symm.trans key.2

theorem aside_silent {n : Nat} {c0 c : Client Chip H} (hi : AllocInv c0) (h : AsideRun sched faults n c0 c)
    {S : List U8} {P : List Packet} {A : List U8} (hs : Silent S P A (c0.dev.bus.socks n)) :
    AllocInv c ∧ Silent S P A (c.dev.bus.socks n) := by
  induction h with
  | start => exact ⟨hi, hs⟩
  | step fuel o _ ho ih =>
    refine ⟨ih.1.step fuel o, ?_⟩
    have hst := stable_silent S P A
    rcases elsewhere_reach (sched := sched) (faults := faults) ih.1 ho fuel with hr | hp
    · exact hr.induct (I := At n (Silent S P A)) (fun w b a d => (hst.at n) _ _ (Chip.readFrame_evolves w b a d))
        (fun w _ _ _ hf hi => foreign_keep hst hf w hi) ih.2
    · exact hst.evolves (hp.evolves.socks n) ih.2

theorem clientRun_alloc {c0 c : Client Chip H} (hi : AllocInv c0) (h : ClientRun sched faults c0 c) : AllocInv c := by
  induction h with
  | start => exact hi
  | step fuel o _ _ ih => exact ih.step fuel o

/-- C64. In every client program: after a successful close of a UDP or TCP socket, and whatever the client does with the other
sockets, no byte and no packet leaves through it and nothing arrives on it, whatever the network does. In particular data
that was still waiting for transmission never leaves. -/
theorem C64 {w : Chip} {host : H} {c1 c : Client Chip H} (h1 : ClientRun sched faults (Client.initial w host) c1) {i n : Nat}
    {hd : Handle} (hg : c1.live[i]? = some hd) (hraw : ∀ s, hd ≠ .raw s) (hn : hd.index = n) (fuel : Nat)
    (hok : (closeWrites (Chip.dev sched faults).bus n c1.dev.bus).1 = .ok ())
    (h2 : AsideRun sched faults n (c1.step (Chip.dev sched faults).bus fuel (closeOp Chip hd i)) c) :
    let s0 := (c1.step (Chip.dev sched faults).bus fuel (closeOp Chip hd i)).dev.bus.socks n
    let s := c.dev.bus.socks n
    s0.sr = 0 ∧ s.stream = s0.stream ∧ s.packets = s0.packets ∧ s.arrived = s0.arrived := by
  have hi := clientRun_alloc (allocInv_initial w host) h1
  have h8 : n < 8 := hn ▸ hi.bound _ (List.mem_append_left _ (List.mem_map_of_mem (List.mem_of_getElem? hg)))
  have hcan := hi.canonical hd (List.mem_of_getElem? hg)
  rw [hn] at hcan
  have hb : (c1.step (Chip.dev sched faults).bus fuel (closeOp Chip hd i)).dev.bus =
      (closeWrites (Chip.dev sched faults).bus n c1.dev.bus).2 := by
    cases hd with
    | raw s => exact absurd rfl (hraw s)
    | udp u =>
      have key := close_result (Chip.dev sched faults).bus c1.dev n h8 u ⟨u.socket⟩ hcan hcan
      show (Client.step _ fuel c1 (.udpClose i)).dev.bus = _
      simp only [Client.step, hg, Client.consume]
      generalize closeWrites (Chip.dev sched faults).bus n c1.dev.bus = r at key ⊢
      obtain ⟨_ | _ | _ | _, w'⟩ := r <;> simp only at key <;> rw [key.1]
    | tcp t =>
      have key := close_result (Chip.dev sched faults).bus c1.dev n h8 (UdpSocket.new t.socket) t hcan hcan
      show (Client.step _ fuel c1 (.tcpClose i)).dev.bus = _
      simp only [Client.step, hg, Client.consume]
      generalize closeWrites (Chip.dev sched faults).bus n c1.dev.bus = r at key ⊢
      obtain ⟨_ | _ | _ | _, w'⟩ := r <;> simp only at key <;> rw [key.2]
  obtain ⟨a1, ⟨s1, _, a3⟩, _⟩ := close_chip h8 (Prod.ext hok hb.symm)
  have a4 : Silent ((c1.step (Chip.dev sched faults).bus fuel (closeOp Chip hd i)).dev.bus.socks n).stream
      ((c1.step (Chip.dev sched faults).bus fuel (closeOp Chip hd i)).dev.bus.socks n).packets
      ((c1.step (Chip.dev sched faults).bus fuel (closeOp Chip hd i)).dev.bus.socks n).arrived
      ((c1.step (Chip.dev sched faults).bus fuel (closeOp Chip hd i)).dev.bus.socks n) := ⟨a3.mode, rfl, rfl, rfl⟩
  have := (aside_silent (hi.step fuel _) h2 a4).2
  exact ⟨a1, this.stream, this.packets, this.arrived⟩

theorem clientRun_run {c0 c : Client Chip H} (fuel : Nat) (ops : List (Op Chip)) (ho : ∀ g, .reactivate g ∉ ops)
    (h : ClientRun sched faults c0 c) : ClientRun sched faults c0 (c.run (Chip.dev sched faults).bus fuel ops) := by
  induction ops generalizing c with
  | nil => exact h
  | cons o ops ih =>
    exact ih (fun g hg => ho g (List.mem_cons_of_mem _ hg)) (.step fuel o h fun g e => absurd (e ▸ List.mem_cons_self) (ho g))

/-- After byte 32 the network takes and delivers data on socket 0. -/
def lateSched (t : Nat) : List (Nat × Act) :=
  demoSched t ++ if 32 ≤ t then [(0, .transmit 9), (0, .arrive [5])] else []

/-- A client with a TCP socket, which accepted three bytes, and a UDP socket. -/
def lateClient : Client Chip Unit := (Client.initial Chip.powerUp ()).run (Chip.dev lateSched noFaults).bus 99
  [.tcpSocket, .udpSocket, .tcpConnect 0 demoRemote, .tcpSend 0 [7, 8, 9]]

/-- C64 is not vacuous: the TCP socket is closed while the three bytes wait for transmission, and the client goes on with the
other socket while the network has room for them. They are not transmitted. -/
example : ClientRun lateSched noFaults (Client.initial Chip.powerUp ()) lateClient ∧
    lateClient.live[0]? = some (.tcp demoSocket) ∧ (closeWrites (Chip.dev lateSched noFaults).bus 0 lateClient.dev.bus).1 = .ok () ∧
    ∃ c, AsideRun lateSched noFaults 0 (lateClient.step (Chip.dev lateSched noFaults).bus 9 (.tcpClose 0)) c ∧
      (lateClient.dev.bus.socks 0).pending = [7, 8, 9] ∧ (c.dev.bus.socks 0).stream = [] ∧ 40 < c.dev.bus.clock := by
  refine ⟨clientRun_run 99 _ (by simp) .start, by decide +kernel,
    by decide +kernel, _, .step 9 (.udpBind 0 99) .start (fun i h hi hh => ?_), by decide +kernel, by decide +kernel,
    by decide +kernel⟩
  cases hi
  have : some h = some (.udp (UdpSocket.new (Socket.new 1))) := by rw [← hh]; decide +kernel
  cases this
  decide

/-! ## C65 reset_device and open sockets -/

theorem reset_regs {c c' : Chip} (h : resetChip (Chip.dev sched faults).bus c = (.ok (), c')) (n : Nat) :
    (c'.socks n).mem = socketReset := by
  obtain ⟨a1, _, rfl⟩ := Chip.write1_ok (show (Chip.dev sched faults).bus.write 0 0 [0x80] c = _ from h)
  rfl

/-- C65 is false, for every UDP socket that has a destination: after `reset_device`, `connect` to that destination returns
`Ok` and the socket object holds it, but the chip's destination is 0.0.0.0:0. -/
theorem C65_refuted {n : Nat} (hn : n < 8) (u u' : UdpSocket) (hu : u.socket = Socket.new (BitVec.ofNat 8 n)) (a : SockAddr4)
    (ha : u.destination = some a) (d d' : Device Chip H) (c : Chip)
    (h : resetChip (Chip.dev sched faults).bus d.bus = (.ok (), c))
    (h' : Device.udpConnect (Chip.dev sched faults).bus (.v4 a) (u, { d with bus := c }) = (.ok (), (u', d'))) :
    u'.destination = some a ∧ (d'.bus.socks n).dest = ([0, 0, 0, 0], [0, 0]) := by
  obtain ⟨_, _, _, _, h5, h6⟩ := C31_connect_partial hn a u u' hu _ d' h'
  have hr := reset_regs h n
  have hz : ∀ x : U16, 0x0C ≤ x.toNat → x.toNat ≤ 0x11 → socketReset x = 0 → (d'.bus.socks n).mem x = 0 := fun x h1 h2 h3 => by
    rw [h5 ha x h1 h2]
    show (c.socks n).mem x = 0
    rw [hr, h3]
  refine ⟨by rw [h6], ?_⟩
  unfold Sock.dest
  rw [hz 0x0C (by decide) (by decide) rfl, hz 0x0D (by decide) (by decide) rfl, hz 0x0E (by decide) (by decide) rfl,
    hz 0x0F (by decide) (by decide) rfl, hz 0x10 (by decide) (by decide) rfl, hz 0x11 (by decide) (by decide) rfl]

/-- C65, partial: it is true if the socket object holds no destination or another one, in particular for every new socket. -/
theorem C65_partial {n : Nat} (hn : n < 8) (u u' : UdpSocket) (hu : u.socket = Socket.new (BitVec.ofNat 8 n)) (a : SockAddr4)
    (ha : u.destination ≠ some a) (d d' : Device Chip H) (c : Chip)
    (_h : resetChip (Chip.dev sched faults).bus d.bus = (.ok (), c))
    (h' : Device.udpConnect (Chip.dev sched faults).bus (.v4 a) (u, { d with bus := c }) = (.ok (), (u', d'))) :
    u'.destination = some a ∧ (d'.bus.socks n).dest = ([a.ip.a, a.ip.b, a.ip.c, a.ip.d], be a.port.toNat) := by
  obtain ⟨_, _, _, h4, _, h6⟩ := C31_connect_partial hn a u u' hu _ d' h'
  obtain ⟨e1, e2⟩ := h4 ha
  exact ⟨by rw [h6], Prod.ext e1 e2⟩

/-- What that means: `connect`, `reset_device`, `connect`, `send` all succeed, and the datagram goes to 0.0.0.0:0. -/
theorem C65_example :
    let B := (Chip.dev emitSched noFaults).bus
    let c := resetChip B (udpConnected noFaults).2.bus
    let r := Device.udpConnect B (.v4 addrA) ((udpConnected noFaults).1, { (udpConnected noFaults).2 with bus := c.2 })
    let s := Device.udpSend B 9 r.2.1 [1, 2, 3] r.2.2
    c.1 = .ok () ∧ r.1 = .ok () ∧ s.1 = .ok () ∧ (s.2.bus.socks 0).packets = [⟨[0, 0, 0, 0], [0, 0], [1, 2, 3], true⟩] := by
  decide +kernel

/-- C65_partial is not vacuous: after the reset, `connect` to another address. -/
example :
    let B := (Chip.dev emitSched noFaults).bus
    let c := resetChip B (udpConnected noFaults).2.bus
    let r := Device.udpConnect B (.v4 addrB) ((udpConnected noFaults).1, { (udpConnected noFaults).2 with bus := c.2 })
    c.1 = .ok () ∧ r.1 = .ok () ∧ (r.2.2.bus.socks 0).dest = ([10, 9, 9, 9], [0, 99]) := by
  decide +kernel

end W5500.Props
