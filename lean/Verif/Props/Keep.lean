import Verif.Props.Serve
import Verif.Proofs.ChipMoves
import Verif.Proofs.Load
/-! # A server over UDP that never stops

C114 As long as requests come that fit into the RX buffer, a UDP server goes on: every round ends with an answer. It does not: while one
request is read, another is stored, and its announcement is cleared with that of the first; if none that comes fits beside it, then the
server waits for ever. -/

namespace W5500.Props
open W5500.Spec Sock
variable {E H : Type} {sched : Nat → List (Nat × Act)} {faults : Nat → Option (E × Nat)}
  {sched0 : Nat → List (Nat × Act)} {faults0 : Nat → Option (E × Nat)}

theorem moves_nbBlock {σ W ε α : Type} {B : Bus W E} {F : U8 → U16 → List U8 → Prop} {get : σ → W} {call : M σ (NbError ε) α}
    (h : MovesOn B F get call) (r : Nat) : MovesOn B F get (nbBlock call r) := by
  induction r with
  | zero => exact ⟨fun s => .refl _⟩
  | succ r ih =>
    constructor
    intro s
    have hs := h.run s
    unfold nbBlock
    generalize call s = x at hs ⊢
    obtain ⟨a | (e | _) | _ | _, t⟩ := x
    · exact hs
    · exact hs
    · exact hs.trans (ih.run t)
    · exact hs
    · exact hs

/-- A round leaves the size of the RX buffer as it is. -/
theorem serve_rxSize {n : Nat} (hn : n < 8) {answer : SockAddr → List U8 → List U8} {fuel : Nat} {buf buf' : List U8}
    {u u' : UdpSocket} (hu : u.socket = sockOf n) {d d' : Device Chip H} {x : Nat × SockAddr}
    (h : serve (Chip.dev sched faults).bus answer fuel (buf, u, d) = (.ok x, (buf', u', d'))) :
    (d'.bus.socks n).rxSize = (d.bus.socks n).rxSize := by
  obtain ⟨d1, h1, _, h2⟩ := serve_ok.mp h
  have h2 := nbBlock_once (nw_sendTo _ _ _ _) h2
  have m1 := (moves_nbBlock (moves_deviceUdpReceive (B := (Chip.dev sched faults).bus) (H := H) fuel u) fuel).run (buf, d)
  have m2 := moves_udpSendTo (B := (Chip.dev sched faults).bus) fuel x.2 (answer x.2 (buf'.take x.1)) u d1
  rw [show nbBlock (Device.udpReceive (Chip.dev sched faults).bus fuel u) fuel (buf, d) = _ from h1, hu] at m1
  rw [show Device.udpSendTo (Chip.dev sched faults).bus fuel x.2 (answer x.2 (buf'.take x.1)) (u, d1) = _ from h2, hu] at m2
  have e1 := reach_regs hn (fun a => a = 0x1E) (by decide) (by decide) m1 0x1E rfl
  have e2 := reach_regs hn (fun a => a = 0x1E) (by decide) (by decide) m2 0x1E rfl
  unfold Sock.rxSize
  dsimp only at e1 e2
  rw [e2, e1]

/-- If nothing is announced and nothing comes that fits, then no round returns `Ok`. -/
theorem serve_asleep {n : Nat} (hn : n < 8) (hp : OnlyForPackets sched n) {u0 u : UdpSocket} {c0 : Chip} {log : List UdpSent}
    {got : List UdpGot} {d : Device Chip H} (ho : UdpOpened sched0 faults0 n u0 c0) (hr : UdpRun sched faults n u0 c0 log got u d.bus)
    (hw : ¬ (d.bus.socks n).Wakes sched n d.bus.clock) (answer : SockAddr → List U8 → List U8) (fuel : Nat) (buf : List U8)
    (x : Nat × SockAddr) (s' : List U8 × UdpSocket × Device Chip H) :
    serve (Chip.dev sched faults).bus answer fuel (buf, u, d) ≠ (.ok x, s') := fun h => by
  obtain ⟨b', u', d'⟩ := s'
  obtain ⟨d1, h1, _⟩ := serve_ok.mp h
  exact udp_asleep hn hp ho hr hw fuel buf x (b', d1) h1

/-- C114, one round, exactly: after any calls on a socket that was opened, on a chip whose transfers do not fail, on which the socket
stays open, what is sent leaves, and RECV is raised for packets only, and with a buffer large enough for the datagrams: the next round returns `Ok` if and only if something waits and is
announced, or a datagram comes that fits beside what waits. -/
theorem C114_round {n : Nat} (hn : n < 8) (hf : ∀ i, faults i = none) (hs : StatusIn sched n (· = 0x22)) (he : Emitting sched n)
    (hl : Lossless sched n) (hp : OnlyForPackets sched n) {u0 u : UdpSocket} {c0 : Chip} {log : List UdpSent} {got : List UdpGot}
    {d : Device Chip H} (ho : UdpOpened sched0 faults0 n u0 c0) (hr : UdpRun sched faults n u0 c0 log got u d.bus)
    (hsr : (d.bus.socks n).sr = 0x22) (hto : (d.bus.socks n).NoTimeout) (buf : List U8) (hb : d.bus.Ample sched n buf.length)
    (answer : SockAddr → List U8 → List U8) :
    (∃ x s', Succeeds (serve (Chip.dev sched faults).bus answer) (buf, u, d) x s') ↔ (d.bus.socks n).Wakes sched n d.bus.clock := by
  constructor
  · rintro ⟨x, s', _, N, hN⟩
    exact Classical.byContradiction fun hw => serve_asleep hn hp ho hr hw answer N buf x s' (hN N (Nat.le_refl _))
  · intro hw
    obtain ⟨qs, hq⟩ := queued_always hn ho hr
    obtain ⟨k, dst, b, d', _, _, _, g, _⟩ := C111_served hn hf hs he hl ho hr hsr hto hw qs hq buf hb answer
    exact ⟨_, _, g⟩

theorem server_append {W : Type} {B : Bus W E} {answer : SockAddr → List U8 → List U8} {x : Nat × SockAddr}
    {s s1 s2 : List U8 × UdpSocket × Device W H} {rounds : Nat} (h1 : Succeeds (serve B answer) s x s1)
    (h2 : Succeeds (server B answer rounds) s1 () s2) : Succeeds (server B answer (rounds + 1)) s () s2 := by
  obtain ⟨_, N1, h1⟩ := h1
  obtain ⟨_, N2, h2⟩ := h2
  refine ⟨nofun, max N1 N2, fun f hf => ?_⟩
  unfold server
  exact (M.bind_ok (h1 f (by omega))).trans (h2 f (by omega))

/-- C114, partial: after any calls on a socket that was opened, on a chip whose transfers do not fail, on which the socket stays open,
what is sent leaves, RECV is raised for packets only, and datagrams of at most `m` bytes keep coming, where `m` is at most the size of the
RX buffer, and with a buffer large enough for the datagrams: any number of rounds return `Ok`; or after some of them, in which `more` is
what was received, something waits, is not announced, and nothing that comes fits beside it: then no round ever returns `Ok`, whatever
the buffer. Missing: that the latter does not happen; see `C114_refuted`. -/
theorem C114_partial {n : Nat} (hn : n < 8) (hf : ∀ i, faults i = none) (hs : StatusIn sched n (· = 0x22)) (he : Emitting sched n)
    (hl : Lossless sched n) (hp : OnlyForPackets sched n) {m : Nat} (hoff : Offered sched n m) (answer : SockAddr → List U8 → List U8)
    {u0 u : UdpSocket} {c0 : Chip} {got : List UdpGot} {d : Device Chip H} (ho : UdpOpened sched0 faults0 n u0 c0)
    (hr : Serving sched faults n answer u0 c0 got u d.bus) (hsr : (d.bus.socks n).sr = 0x22) (hto : (d.bus.socks n).NoTimeout)
    (hm : m ≤ (d.bus.socks n).rxSize) (buf : List U8) (hb : d.bus.Ample sched n buf.length) (rounds : Nat) :
    (∃ s', Succeeds (server (Chip.dev sched faults).bus answer rounds) (buf, u, d) () s') ∨
    ∃ j buf' u' d' more, j < rounds ∧ Succeeds (server (Chip.dev sched faults).bus answer j) (buf, u, d) () (buf', u', d') ∧
      Serving sched faults n answer u0 c0 (got ++ more) u' d'.bus ∧ more.length = j ∧
      (d'.bus.socks n).queue ≠ [] ∧ (d'.bus.socks n).Shut sched n d'.bus.clock ∧
      ∀ fuel b x s', serve (Chip.dev sched faults).bus answer fuel (b, u', d') ≠ (.ok x, s') := by
  induction rounds generalizing got u d buf with
  | zero => exact .inl ⟨_, nofun, 0, fun _ _ => rfl⟩
  | succ rounds ih =>
    obtain ⟨log, _, hr'⟩ := serving_run hn ho hr
    by_cases hw : (d.bus.socks n).Wakes sched n d.bus.clock
    · obtain ⟨qs, hq⟩ := queued_always hn ho hr'
      obtain ⟨k, dst, b, d', _, _, _, g, _, gb, _, g1, g2, _, hb'⟩ := served hn hf hs he hl ho hr' hsr hto hw qs hq buf hb answer
      have g' := g
      obtain ⟨_, N, hN⟩ := g'
      have hround := hN N (Nat.le_refl _)
      obtain ⟨A, h0⟩ := opened_inv hn ho
      obtain ⟨hu, _⟩ := udpRun_inv hn h0 hr'
      have hz := serve_rxSize hn hu hround
      rcases ih (.round N buf b (k, .v4 dst) hr hround) g1 g2 (by rw [hz]; exact hm) b hb' with
        ⟨s', h⟩ | ⟨j, b', u', d2, more, h1, h2, h3, h4, h5⟩
      · exact .inl ⟨s', server_append g h⟩
      · refine .inr ⟨j + 1, b', u', d2, ⟨buf, k, .v4 dst, b⟩ :: more, by omega, server_append g h2, ?_, by rw [List.length_cons, h4], h5⟩
        rw [List.append_assoc] at h3
        exact h3
    · have hz : ¬ (d.bus.socks n).rsr.toNat + m ≤ (d.bus.socks n).rxSize := fun h => by
        obtain ⟨l, h1, dg, h2, h3, h4⟩ := hoff d.bus.clock
        exact hw (.inr ⟨l, dg, h1, h4, h2, by omega⟩)
      have hne : (d.bus.socks n).queue ≠ [] := fun e => by
        have := Sock.queue_length (d.bus.socks n)
        rw [e, List.length_nil] at this
        omega
      refine .inr ⟨0, buf, u, d, [], by omega, ⟨nofun, 0, fun _ _ => rfl⟩, by rw [List.append_nil]; exact hr, rfl, hne,
        ⟨fun h => hw (.inl ⟨h, hne⟩), fun k dg h1 h2 h3 => Nat.lt_of_not_le fun h4 => hw (.inr ⟨k, dg, h1, h2, h3, h4⟩)⟩,
        fun fuel b x s' => serve_asleep hn hp ho hr' hw answer fuel b x s'⟩

/-- C114, when requests do not come too fast: as in `C114_partial`, and from now on, in any stretch of `buf.length + 18` SPI bytes come datagrams of at
most `r` bytes together, which leave room for `m` bytes in the RX buffer; at first, something waits and is announced, or there is room
for `m` bytes. Then any number of rounds return `Ok`. -/
theorem C114_paced {n : Nat} (hn : n < 8) (hf : ∀ i, faults i = none) (hs : StatusIn sched n (· = 0x22)) (he : Emitting sched n)
    (hl : Lossless sched n) {m r : Nat} (hoff : Offered sched n m) (answer : SockAddr → List U8 → List U8)
    {u0 u : UdpSocket} {c0 : Chip} {got : List UdpGot} {d : Device Chip H} (ho : UdpOpened sched0 faults0 n u0 c0)
    (hr : Serving sched faults n answer u0 c0 got u d.bus) (hsr : (d.bus.socks n).sr = 0x22) (hto : (d.bus.socks n).NoTimeout)
    (hroom : ((d.bus.socks n).Announced ∧ (d.bus.socks n).queue ≠ []) ∨ (d.bus.socks n).rsr.toNat + m ≤ (d.bus.socks n).rxSize)
    (buf : List U8) (hb : d.bus.Ample sched n buf.length) (hload : ∀ t, d.bus.clock ≤ t → load sched n t (buf.length + 18) ≤ r)
    (hm : r + m ≤ (d.bus.socks n).rxSize) (rounds : Nat) :
    ∃ buf' u' d' more, Succeeds (server (Chip.dev sched faults).bus answer rounds) (buf, u, d) () (buf', u', d') ∧
      Serving sched faults n answer u0 c0 (got ++ more) u' d'.bus ∧ more.length = rounds := by
  induction rounds generalizing got u d buf with
  | zero => exact ⟨buf, u, d, [], ⟨nofun, 0, fun _ _ => rfl⟩, by rw [List.append_nil]; exact hr, rfl⟩
  | succ rounds ih =>
    obtain ⟨log, _, hr'⟩ := serving_run hn ho hr
    obtain ⟨qs, hq⟩ := queued_always hn ho hr'
    have hw : (d.bus.socks n).Wakes sched n d.bus.clock := hroom.imp_right fun h => by
      obtain ⟨l, h1, dg, h2, h3, h4⟩ := hoff d.bus.clock
      exact ⟨l, dg, h1, h4, h2, by omega⟩
    obtain ⟨k, dst, b, d', _, _, _, g, _, gb, _, g1, g2, _, hb'⟩ := served hn hf hs he hl ho hr' hsr hto hw qs hq buf hb answer
    have g' := g
    obtain ⟨_, N, hN⟩ := g'
    have hround := hN N (Nat.le_refl _)
    obtain ⟨A, h0⟩ := opened_inv hn ho
    obtain ⟨hu, _⟩ := udpRun_inv hn h0 hr'
    have hz := serve_rxSize hn hu hround
    have hkeep := gb.keeps
    dsimp only at hkeep
    obtain ⟨d1, h1, _, h2⟩ := serve_ok.mp hround
    have h2 := nbBlock_once (nw_sendTo _ _ _ _) h2
    obtain ⟨d0, hr0, hlast, _, hk0⟩ := last_receive hn ho N N hr' h1
    obtain ⟨_, _, _, _, _, _, hi0⟩ := udpRun_inv hn h0 hr0
    obtain ⟨t, hk1, hk2, ht1, ht2⟩ := receive_leaves hn hf hu hi0 hlast
    have ht := Nat.le_trans ht2 (load_mono (sched := sched) (n := n) (t := t) (show _ ≤ buf.length + 18 by omega))
    obtain ⟨_, _, _, _, _, _, hi1⟩ := udpRun_inv hn h0 (UdpRun.receive N buf b k (.v4 dst) hr0 hlast)
    have hz1 : (d1.bus.socks n).rxSize = (d.bus.socks n).rxSize := by
      have m1 := (moves_nbBlock (moves_deviceUdpReceive (B := (Chip.dev sched faults).bus) (H := H) N u) N).run (buf, d)
      rw [show nbBlock (Device.udpReceive (Chip.dev sched faults).bus N u) N (buf, d) = _ from h1, hu] at m1
      have e1 := reach_regs hn (fun a => a = 0x1E) (by decide) (by decide) m1 0x1E rfl
      unfold Sock.rxSize
      dsimp only at e1
      rw [e1]
    have hwaits : Waits m (d'.bus.socks n) := sendTo_waits hn hf hu h2
      ⟨hi1.idle.base.mode, hi1.idle.rx.core.rxFits, .inr (by have := hload t (by omega); rw [hz1]; omega)⟩
    have hk3 : d1.bus.clock ≤ d'.bus.clock := sendTo_clock hf h2
    obtain ⟨b', u', d2, more, i1, i2, i3⟩ := ih (.round N buf b (k, .v4 dst) hr hround) g1 g2
      (hwaits.room.imp_left fun h => ⟨h.1, fun e => by
        have := Sock.queue_length (d'.bus.socks n)
        have := h.2
        rw [e, List.length_nil] at *
        omega⟩) b hb' (fun t ht => by rw [hkeep]; exact hload t (by omega)) (by rw [hz]; exact hm)
    refine ⟨b', u', d2, ⟨buf, k, .v4 dst, b⟩ :: more, server_append g i1, ?_, by rw [List.length_cons, i3]⟩
    rw [List.append_assoc] at i2
    exact i2

/-! ## Concrete cases -/

/-- Client A sends a request once the socket is open; a large one comes while it is read, and then again and again, but not often.
Whatever is sent leaves. -/
def delugeSched (k : Nat) : List (Nat × Act) :=
  if k = 9 then [(0, .datagram dgramA)]
  else if k = 25 ∨ k % 4096 = 0 ∧ k ≠ 0 then [(0, .datagram wideDgram)] else if k % 8 = 7 then [(0, .emit true)] else []

theorem deluge_mem {k : Nat} {a : Act} (h : (0, a) ∈ delugeSched k) :
    k = 9 ∧ a = .datagram dgramA ∨ a = .datagram wideDgram ∨ a = .emit true := by
  unfold delugeSched at h
  repeat' split at h
  · exact .inl ⟨‹_›, by simpa using h⟩
  · exact .inr (.inl (by simpa using h))
  · exact .inr (.inr (by simpa using h))
  · exact nomatch h

theorem deluge_status : StatusIn delugeSched 0 (· = 0x22) := fun k x h => by
  rcases deluge_mem h with ⟨_, h⟩ | h | h <;> exact nomatch h

theorem deluge_packets : OnlyForPackets delugeSched 0 := fun k x h => by
  rcases deluge_mem h with ⟨_, h⟩ | h | h <;> exact nomatch h

theorem deluge_lossless : Lossless delugeSched 0 := fun k h => by
  rcases deluge_mem h with ⟨_, h⟩ | h | h <;> cases h

theorem deluge_emits : Emitting delugeSched 0 := fun k =>
  ⟨8 * k + 95, by omega, true, by
    unfold delugeSched
    rw [if_neg (by omega), if_neg (by omega), if_pos (by omega)]
    exact List.mem_cons_self ..⟩

theorem deluge_offered : Offered delugeSched 0 1028 := fun k =>
  ⟨4096 * (k + 1), by omega, wideDgram, wide_wf, Nat.le_of_eq wide_length, by
    unfold delugeSched
    rw [if_neg (by omega), if_pos (.inr (by omega))]
    exact List.mem_cons_self ..⟩

def delugeBound : UdpSocket × Device Chip Unit :=
  (Device.udpBind (Chip.dev delugeSched noFaults).bus 5000 (demoUdp, demoDevice)).2

theorem deluge_opened : UdpOpened delugeSched noFaults 0 delugeBound.1 delugeBound.2.bus :=
  .bind (H := Unit) (u := demoUdp) (d := demoDevice) 5000 (.new _ powerUp_sizes) (run_eq (by decide +kernel))

theorem deluge_bound : (delugeBound.2.bus.socks 0).sr = 0x22 ∧ (delugeBound.2.bus.socks 0).ir = 0 ∧ (delugeBound.2.bus.socks 0).owed = 0 ∧
    (delugeBound.2.bus.socks 0).rxSize = 2048 ∧ delugeBound.2.bus.clock ≤ 9 ∧ (delugeBound.2.bus.socks 0).rsr = 0 := by
  decide +kernel

/-- After the first round. -/
def delugeServed : List U8 × UdpSocket × Device Chip Unit :=
  (serve (Chip.dev delugeSched noFaults).bus shopAnswer 9 (quizBuffer, delugeBound)).2

theorem deluge_served : serve (Chip.dev delugeSched noFaults).bus shopAnswer 9 (quizBuffer, delugeBound) =
    (.ok (10, .v4 addrA), delugeServed) := by
  have h : (serve (Chip.dev delugeSched noFaults).bus shopAnswer 9 (quizBuffer, delugeBound)).1 = .ok (10, .v4 addrA) := by
    decide +kernel
  exact Prod.ext h (by rw [delugeServed])

theorem deluge_left : (delugeServed.2.2.bus.socks 0).ir = 0 ∧ (delugeServed.2.2.bus.socks 0).rsr = 1028 ∧
    (delugeServed.2.2.bus.socks 0).rxSize = 2048 ∧ 9 < delugeServed.2.2.bus.clock := by
  decide +kernel

attribute [irreducible] delugeBound delugeServed

theorem deluge_run : Serving delugeSched noFaults 0 shopAnswer delugeBound.1 delugeBound.2.bus
    [⟨quizBuffer, 10, .v4 addrA, delugeServed.1⟩] delugeServed.2.1 delugeServed.2.2.bus :=
  .round (H := Unit) (u := delugeBound.1) (d := delugeBound.2) (u' := delugeServed.2.1) (d' := delugeServed.2.2) 9 quizBuffer delugeServed.1
    (10, .v4 addrA) .start deluge_served

theorem deluge_asleep : ¬ (delugeServed.2.2.bus.socks 0).Wakes delugeSched 0 delugeServed.2.2.bus.clock := by
  obtain ⟨h1, h2, h3, h4⟩ := deluge_left
  rintro (⟨h, _⟩ | ⟨k, dg, hk, h, _, hle⟩)
  · unfold Announced at h
    rw [h1] at h
    exact absurd h (by decide)
  · rcases deluge_mem h with ⟨h, _⟩ | h | h
    · omega
    · cases h
      rw [h2, h3, wide_length] at hle
      exact absurd hle (by decide)
    · cases h

/-- C114 is false: requests that fit into the RX buffer keep coming, 4096 SPI bytes apart, more than enough to read and answer one. While
the server reads its first request, another one comes, and is stored. The server answers the first, and then waits for ever, whatever
the buffer, with a request in the RX buffer. -/
theorem C114_refuted :
    StatusIn delugeSched 0 (· = 0x22) ∧ Emitting delugeSched 0 ∧ Lossless delugeSched 0 ∧ OnlyForPackets delugeSched 0 ∧
    Offered delugeSched 0 1028 ∧ UdpOpened delugeSched noFaults 0 delugeBound.1 delugeBound.2.bus ∧
    (delugeBound.2.bus.socks 0).rxSize = 2048 ∧ quizBuffer.length = 2048 ∧
    serve (Chip.dev delugeSched noFaults).bus shopAnswer 9 (quizBuffer, delugeBound) = (.ok (10, .v4 addrA), delugeServed) ∧
    (delugeServed.2.2.bus.socks 0).queue ≠ [] ∧
    ∀ fuel b x s', serve (Chip.dev delugeSched noFaults).bus shopAnswer fuel (b, delugeServed.2) ≠ (.ok x, s') := by
  obtain ⟨log, _, hr⟩ := serving_run (by decide) deluge_opened deluge_run
  refine ⟨deluge_status, deluge_emits, deluge_lossless, deluge_packets, deluge_offered, deluge_opened, deluge_bound.2.2.2.1,
    by rw [quizBuffer, List.length_replicate], deluge_served, fun h => ?_, fun fuel b x s' =>
      serve_asleep (n := 0) (by decide) deluge_packets deluge_opened (u := delugeServed.2.1) (d := delugeServed.2.2) hr deluge_asleep
        shopAnswer fuel b x s'⟩
  have := Sock.queue_length (delugeServed.2.2.bus.socks 0)
  rw [h, deluge_left.2.1] at this
  exact absurd this (by decide)

/-- C114_round is not vacuous, in both directions: the first round returns `Ok`, the second does not. -/
example : (∃ x s', Succeeds (serve (Chip.dev delugeSched noFaults).bus shopAnswer) (quizBuffer, delugeBound) x s') ∧
    ¬ ∃ x s', Succeeds (serve (Chip.dev delugeSched noFaults).bus shopAnswer) (quizBuffer, delugeServed.2) x s' := by
  obtain ⟨h1, h2, h3, h4, h5, h6⟩ := deluge_bound
  refine ⟨(C114_round (n := 0) (by decide) (fun _ => rfl) deluge_status deluge_emits deluge_lossless deluge_packets deluge_opened
    (d := delugeBound.2) .start h1 (by unfold Sock.NoTimeout; rw [h2, h3]; decide) quizBuffer
    (ample_size (faults := noFaults) (by decide) deluge_opened .start (by rw [h4, quizBuffer, List.length_replicate]; decide)) shopAnswer).mpr
    (.inr ⟨9, dgramA, h5, List.mem_cons_self .., by decide, by rw [h6, h4]; decide⟩), ?_⟩
  rintro ⟨x, s', _, N, hN⟩
  exact C114_refuted.2.2.2.2.2.2.2.2.2.2 N quizBuffer x s' (hN N (Nat.le_refl _))

/-- A request comes before every 4096th SPI byte. -/
def steadySched (k : Nat) : List (Nat × Act) :=
  if k % 4096 = 9 then [(0, .datagram dgramA)] else if k % 8 = 7 then [(0, .emit true)] else []

theorem steady_mem {k : Nat} {a : Act} (h : (0, a) ∈ steadySched k) : a = .datagram dgramA ∨ a = .emit true := by
  unfold steadySched at h
  repeat' split at h
  · exact .inl (by simpa using h)
  · exact .inr (by simpa using h)
  · exact nomatch h

def steadyBound : UdpSocket × Device Chip Unit :=
  (Device.udpBind (Chip.dev steadySched noFaults).bus 5000 (demoUdp, demoDevice)).2

theorem steady_opened : UdpOpened steadySched noFaults 0 steadyBound.1 steadyBound.2.bus :=
  .bind (H := Unit) (u := demoUdp) (d := demoDevice) 5000 (.new _ powerUp_sizes) (run_eq (by decide +kernel))

theorem steady_bound : (steadyBound.2.bus.socks 0).sr = 0x22 ∧ (steadyBound.2.bus.socks 0).ir = 0 ∧
    (steadyBound.2.bus.socks 0).owed = 0 ∧ (steadyBound.2.bus.socks 0).rxSize = 2048 ∧ (steadyBound.2.bus.socks 0).rsr = 0 := by
  decide +kernel

attribute [irreducible] steadyBound

theorem steady_status : StatusIn steadySched 0 (· = 0x22) := fun k x h => by rcases steady_mem h with h | h <;> cases h

theorem steady_lossless : Lossless steadySched 0 := fun k h => by rcases steady_mem h with h | h <;> cases h

theorem steady_emits : Emitting steadySched 0 := fun k => ⟨8 * (k + 1) + 7, by omega, true, by
  unfold steadySched
  rw [if_neg (by omega), if_pos (by omega)]
  exact List.mem_cons_self ..⟩

theorem steady_offered : Offered steadySched 0 10 := fun k => ⟨4096 * k + 9, by omega, dgramA, by decide, by decide, by
  unfold steadySched
  rw [if_pos (by omega)]
  exact List.mem_cons_self ..⟩

theorem steady_load (t g : Nat) : load steadySched 0 t g ≤ 10 * ((t + g + 4086) / 4096 - (t + 4086) / 4096) := by
  induction g with
  | zero => exact Nat.zero_le _
  | succ g ih =>
    have h : need 0 (steadySched (t + g)) ≤ if (t + g) % 4096 = 9 then 10 else 0 := by
      unfold steadySched
      split
      · exact by decide
      · split <;> exact Nat.le_refl _
    unfold load
    split at h <;> omega

/-- Two bytes are enough for these requests. -/
theorem steady_ample : steadyBound.2.bus.Ample steadySched 0 2 :=
  ample_empty (List.length_eq_zero_iff.mp (by rw [Sock.queue_length, steady_bound.2.2.2.2]; rfl)) (by decide) fun k dg _ h _ _ => by
    rcases steady_mem h with h | h <;> cases h
    decide

/-- C114_partial is not vacuous: such a server, for any number of rounds. -/
example (rounds : Nat) :
    (∃ s', Succeeds (server (Chip.dev steadySched noFaults).bus shopAnswer rounds) ([0, 0], steadyBound) () s') ∨
    ∃ j buf' u' d' more, j < rounds ∧
      Succeeds (server (Chip.dev steadySched noFaults).bus shopAnswer j) ([0, 0], steadyBound) () (buf', u', d') ∧
      Serving steadySched noFaults 0 shopAnswer steadyBound.1 steadyBound.2.bus ([] ++ more) u' d'.bus ∧ more.length = j ∧
      (d'.bus.socks 0).queue ≠ [] ∧ (d'.bus.socks 0).Shut steadySched 0 d'.bus.clock ∧
      ∀ fuel b x s', serve (Chip.dev steadySched noFaults).bus shopAnswer fuel (b, u', d') ≠ (.ok x, s') := by
  obtain ⟨h1, h2, h3, h4, _⟩ := steady_bound
  exact C114_partial (n := 0) (m := 10) (by decide) (fun _ => rfl) steady_status steady_emits steady_lossless
    (fun k x h => by rcases steady_mem h with h | h <;> cases h) steady_offered shopAnswer steady_opened (d := steadyBound.2) .start h1
    (by unfold Sock.NoTimeout; rw [h2, h3]; decide) (by rw [h4]; decide) [0, 0] steady_ample rounds

/-- C114_paced is not vacuous: such a server never stops. -/
example (rounds : Nat) : ∃ s', Succeeds (server (Chip.dev steadySched noFaults).bus shopAnswer rounds) ([0, 0], steadyBound) () s' := by
  obtain ⟨h1, h2, h3, h4, h5⟩ := steady_bound
  obtain ⟨b, u, d, _, h, _⟩ := C114_paced (n := 0) (m := 10) (r := 10) (by decide) (fun _ => rfl) steady_status steady_emits
    steady_lossless steady_offered shopAnswer steady_opened (d := steadyBound.2) .start h1
    (by unfold Sock.NoTimeout; rw [h2, h3]; decide) (.inr (by rw [h4, h5]; decide)) [0, 0] steady_ample
    (fun t _ => by have := steady_load t (2 + 18); show load _ _ _ (2 + 18) ≤ _; omega) (by rw [h4]; decide) rounds
  exact ⟨_, h⟩

end W5500.Props
