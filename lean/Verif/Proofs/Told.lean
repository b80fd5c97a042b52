import Verif.Spec.Told
import Verif.Props.Refusals
/-! # Addresses a UDP socket was told -/

namespace W5500.Spec
open W5500 W5500.Props socketn
variable {E H : Type} {sched : Nat → List (Nat × Act)} {faults : Nat → Option (E × Nat)}

namespace Sock

theorem push_sources (s : Sock) (bs : List U8) : (s.push bs).sources = s.sources := by unfold push; split <;> rfl

/-- Packets and their source ports change together. -/
theorem act_left (s : Sock) (a : Act) : ((s.act a).packets = s.packets ∧ (s.act a).sources = s.sources) ∨
    (s.txRd ≠ s.txLimit ∧ ∃ p : Packet, (p.ip, p.port) = s.dest ∧ (s.act a).packets = s.packets ++ [p] ∧
      (s.act a).sources = s.sources ++ [s.srcPort]) := by
  cases a with
  | arrive bs => left; simp only [act]; split <;> first | exact ⟨push_packets _ _, push_sources _ _⟩ | exact ⟨rfl, rfl⟩
  | datagram dg => left; simp only [act]; split <;> first | exact ⟨push_packets _ _, push_sources _ _⟩ | exact ⟨rfl, rfl⟩
  | frame f => left; simp only [act]; split <;> first | exact ⟨push_packets _ _, push_sources _ _⟩ | exact ⟨rfl, rfl⟩
  | transmit k => left; simp only [act]; split <;> exact ⟨rfl, rfl⟩
  | ack k => left; simp only [act]; split <;> exact ⟨rfl, rfl⟩
  | emit b =>
    simp only [act]
    split
    · rename_i h
      exact .inr ⟨h.2, _, rfl, rfl, rfl⟩
    · exact .inl ⟨rfl, rfl⟩
  | raise b => exact .inl ⟨rfl, rfl⟩
  | status x => exact .inl ⟨rfl, rfl⟩

theorem act_srcPort (s : Sock) (a : Act) : (s.act a).srcPort = s.srcPort := by unfold srcPort; rw [act_mem]

/-- Since `K`, `L`, everything went to `w` from `q`. -/
structure LeftAs (w : List U8 × List U8) (q : List U8) (K : List Packet) (L : List (List U8)) (s : Sock) : Prop where
  dst : s.dest = w
  src : s.srcPort = q
  out : ∃ ps, s.packets = K ++ ps ∧ (∀ p ∈ ps, (p.ip, p.port) = w) ∧ s.sources = L ++ List.replicate ps.length q

theorem stable_leftAs (w : List U8 × List U8) (q : List U8) (K : List Packet) (L : List (List U8)) :
    StableS (LeftAs w q K L) := by
  intro s a ⟨h1, h2, ps, h3, h4, h5⟩
  refine ⟨by rw [act_dest]; exact h1, by rw [act_srcPort]; exact h2, ?_⟩
  rcases act_left s a with ⟨e1, e2⟩ | ⟨_, p, e0, e1, e2⟩
  · exact ⟨ps, by rw [e1]; exact h3, h4, by rw [e2]; exact h5⟩
  · refine ⟨ps ++ [p], by rw [e1, h3, List.append_assoc], ?_, ?_⟩
    · intro x hx
      rcases List.mem_append.mp hx with hx | hx
      · exact h4 x hx
      · rw [List.mem_singleton.mp hx, e0, h1]
    · rw [e2, h5, h2, List.append_assoc, List.length_append, List.length_singleton, List.replicate_succ']

theorem leftAs_same {w : List U8 × List U8} {q : List U8} {K : List Packet} {L : List (List U8)} {s s' : Sock}
    (h : LeftAs w q K L s) (hd : s'.dest = s.dest) (hs : s'.srcPort = s.srcPort) (hp : s'.packets = s.packets)
    (hq : s'.sources = s.sources) : LeftAs w q K L s' :=
  ⟨hd.trans h.dst, hs.trans h.src, by rw [hp, hq]; exact h.out⟩

/-- Nothing is waiting, and nothing has left since `K`, `L`. -/
structure LeftNone (q : List U8) (K : List Packet) (L : List (List U8)) (s : Sock) : Prop where
  mode : s.proto ≠ 1
  rd : s.txRd = s.txLimit
  src : s.srcPort = q
  packets : s.packets = K
  sources : s.sources = L

theorem stable_leftNone (q : List U8) (K : List Packet) (L : List (List U8)) : StableS (LeftNone q K L) := by
  intro s a ⟨h1, h2, h3, h4, h5⟩
  refine ⟨by rw [act_proto]; exact h1, by rw [(act_idle h1 h2 a).1, act_txLimit]; exact h2,
    by rw [act_srcPort]; exact h3, ?_, ?_⟩ <;> rcases act_left s a with ⟨e1, e2⟩ | ⟨e, _⟩
  · exact e1.trans h4
  · exact absurd h2 e
  · exact e2.trans h5
  · exact absurd h2 e

end Sock

open Sock

/-- Sending leaves addresses alone, so everything that leaves meanwhile carries them. -/
theorem send_leftAs {n : Nat} (hn : n < 8) {w : List U8 × List U8} {q : List U8} {K : List Packet} {L : List (List U8)}
    {c c' : Chip} (h : Reach (Chip.dev sched faults).bus (SendFrames (sockOf n)) c c') (hc : LeftAs w q K L (c.socks n)) :
    LeftAs w q K L (c'.socks n) := by
  refine reach_send hn (stable_leftAs w q K L) ?_ ?_ ?_ ?_ h hc
  · exact fun s a x h => leftAs_same h rfl rfl rfl rfl
  · intro s a x ha h
    rw [pokeWr_eq s x ha]
    rcases ha with rfl | rfl <;> exact leftAs_same h rfl rfl rfl rfl
  · exact fun s i h => leftAs_same h rfl rfl rfl rfl
  · exact fun s h => leftAs_same h rfl rfl rfl rfl

theorem sendAll_leftAs {n : Nat} (hn : n < 8) {w : List U8 × List U8} {q : List U8} {K : List Packet} {L : List (List U8)}
    (u : UdpSocket) (hu : u.socket = sockOf n) (fuel : Nat) (data : List U8) :
    Hoare (At n (LeftAs w q K L)) (u.socketSendAll (Chip.dev sched faults).bus fuel data)
      (fun _ => At n (LeftAs w q K L)) (At n (LeftAs w q K L)) :=
  (moves_sendAll u fuel data).hoare fun c c' h => send_leftAs hn (by rw [← hu]; exact h)

/-- The registers `receive` writes: Sn_CR, Sn_IR, Sn_RX_RD. -/
def recvRegs : List (U16 × Nat) := [(0x01, 1), (0x02, 1), (0x28, 2)]

theorem moves_receiveFew {W : Type} {B : Bus W E} (u : UdpSocket) (fuel : Nat) :
    MovesOn B (SockFrames u.socket recvRegs) (fun s => s.2) (u.socketReceive B fuel) := by
  have h1 := moves_checkStatus (B := B) (SockFrames u.socket recvRegs) u
  have h2 := moves_receiveSize (B := B) (SockFrames u.socket recvRegs) u.socket fuel
  unfold UdpSocket.socketReceive Socket.hasInterrupt Socket.getRxReadPointer Socket.setRxReadPointer Socket.command
    Socket.resetInterrupt
  moves

theorem srcPort_congr {s s' : Sock} (h : ∀ a, a = 0x04 ∨ a = 0x05 → s'.mem a = s.mem a) : s'.srcPort = s.srcPort := by
  unfold Sock.srcPort
  rw [h _ (.inl rfl), h _ (.inr rfl)]

theorem receive_srcPort {n : Nat} (hn : n < 8) {u : UdpSocket} (hu : u.socket = sockOf n) {fuel : Nat} {buf buf' : List U8}
    {d d' : Device Chip H} {r : Res (NbError (UdpSocketError E)) (Nat × SockAddr)}
    (h : Device.udpReceive (Chip.dev sched faults).bus fuel u (buf, d) = (r, (buf', d'))) :
    (d'.bus.socks n).srcPort = (d.bus.socks n).srcPort := by
  have hm : MovesOn (Chip.dev sched faults).bus (SockFrames (sockOf n) recvRegs) (fun s => s.2.bus)
      (Device.udpReceive (Chip.dev sched faults).bus fuel u : M (List U8 × Device Chip H) _ _) := by
    have h2 := moves_receiveFew (B := (Chip.dev sched faults).bus) u fuel
    rw [hu] at h2
    unfold Device.udpReceive
    moves
  have := hm.run (buf, d)
  rw [h] at this
  exact srcPort_congr (reach_regs hn (fun a => a = 0x04 ∨ a = 0x05) (by decide) (by decide) this)

/-- `set_port`. -/
theorem setPort_srcPort {n : Nat} (hn : n < 8) {u u' : UdpSocket} (hu : u.socket = sockOf n) {port : U16} {d d' : Device Chip H}
    (h : Device.onSockBus (UdpSocket.setPort (Chip.dev sched faults).bus port) (u, d) = (.ok (), (u', d'))) :
    (d'.bus.socks n).srcPort = be port.toNat := by
  have hrun := onSockBus_run h
  have h1 : UdpSocket.setPort (Chip.dev sched faults).bus port (u, d.bus) =
      let r := M.mapErr UdpSocketError.other ((Chip.dev sched faults).bus.write u.socket.register 0x04 (toBeBytes port)) d.bus
      (r.1, ({ u with port := port }, r.2)) := onSnd_mapErr _ _ _ _
  rw [h1] at hrun
  obtain ⟨h2, h3⟩ := Prod.mk.inj hrun
  have hw := (M.mapErr_eq_ok (f := UdpSocketError.other)).mp (Prod.ext h2 (Prod.mk.inj h3).2)
  rw [hu, ← writeAll_one] at hw
  have hm := script_mem hn [(0x04, toBeBytes port)] hw
  show [unptr (d'.bus.socks n).mem 4, unptr (d'.bus.socks n).mem 5] = _
  rw [hm, toBeBytes_eq_be]
  rfl

end W5500.Spec
