import Verif.Props.Pace
import Verif.Props.Swift
import Verif.Spec.Prompt
/-! # A server that has time for its answers

C119 A UDP server answers every request, each one once and in order, if each comes some time after the one before. -/

namespace W5500.Props
open W5500.Spec Sock
variable {E H : Type} {sched : Nat → List (Nat × Act)} {faults : Nat → Option (E × Nat)}
  {sched0 : Nat → List (Nat × Act)} {faults0 : Nat → Option (E × Nat)}

/-- Until time `q`, nothing waits and nothing is announced. -/
structure Idle (n a q : Nat) (c : Chip) : Prop where
  late : a < c.clock
  none : c.clock ≤ q → (c.socks n).rsr = 0 ∧ ¬ (c.socks n).Announced

theorem idle_ticks {n a q : Nat} (h : ∀ k, a < k → k < q → news n (sched k) = []) : Chip.Ticks sched (Idle n a q) := by
  refine ⟨fun c hc => ⟨by rw [Chip.tick_clock]; exact Nat.lt_succ_of_lt hc.late, fun hq => ?_⟩, fun c i hc => ⟨hc.late, hc.none⟩⟩
  rw [Chip.tick_clock] at hq
  have e := lull_events (h _ hc.late (by omega)) c
  obtain ⟨e1, e2⟩ := hc.none (by omega)
  exact ⟨e.rsr.trans e1, fun h => e2 (e.announced.mp h)⟩

/-- C119, one request: after any calls on a socket that was opened, with nothing waiting or announced, on a chip whose transfers do not
fail, on which the socket stays open and what is sent leaves within `L` SPI bytes. Nothing comes until time `a`, then a request that fits
into the RX buffer and whose payload fits into the buffer, and then nothing for the time a round takes. By then, the round is over, the
answer has been sent to where the request came from, and nothing waits or is announced. -/
theorem C119_round {n L m : Nat} (hn : n < 8) (hf : ∀ i, faults i = none) (hs : StatusIn sched n (· = 0x22)) (he : EmittingIn L sched n)
    (hl : Lossless sched n) {u0 u : UdpSocket} {c0 : Chip} {log : List UdpSent} {got : List UdpGot} {d : Device Chip H}
    (ho : UdpOpened sched0 faults0 n u0 c0) (hr : UdpRun sched faults n u0 c0 log got u d.bus) (hsr : (d.bus.socks n).sr = 0x22)
    (hto : (d.bus.socks n).NoTimeout) (hq : (d.bus.socks n).queue = []) (hir : ¬ (d.bus.socks n).Announced) (buf : List U8) (hb : buf ≠ [])
    (answer : SockAddr → List U8 → List U8) (hm : ∀ o r, r.length ≤ buf.length → (answer o r).length ≤ m) {gap : Nat}
    (hgap : roundTime L (d.bus.socks n).txSize buf.length m ≤ gap)
    {a : Nat} {dg : Dgram} (ha : d.bus.clock ≤ a) (h1 : ∀ k, d.bus.clock ≤ k → k < a → news n (sched k) = [])
    (h2 : news n (sched a) = [.datagram dg]) (hw : dg.Wf) (hfit : dg.encode.length ≤ (d.bus.socks n).rxSize)
    (hpay : dg.payload.length ≤ buf.length) (h3 : ∀ k, a < k → k < a + gap → news n (sched k) = []) :
    ∃ (k : Nat) (dst : SockAddr4) (buf' : List U8) (d' : Device Chip H),
      Succeeds (serve (Chip.dev sched faults).bus answer) (buf, u, d) (k, .v4 dst) (buf', { u with destination := some dst }, d') ∧
      UdpGot.Brings ⟨buf, k, .v4 dst, buf'⟩ dg ∧
      (d'.bus.socks n).packets = (d.bus.socks n).packets ++ replies (d.bus.socks n).txSize answer [⟨buf, k, .v4 dst, buf'⟩] [dg] ∧
      (∃ log', UdpRun sched faults n u0 c0 log' (got ++ [⟨buf, k, .v4 dst, buf'⟩]) { u with destination := some dst } d'.bus) ∧
      (d'.bus.socks n).sr = 0x22 ∧ (d'.bus.socks n).NoTimeout ∧ (d'.bus.socks n).queue = [] ∧ ¬ (d'.bus.socks n).Announced ∧
      (d'.bus.socks n).txSize = (d.bus.socks n).txSize ∧ a < d'.bus.clock ∧ d'.bus.clock ≤ a + gap := by
  unfold roundTime at hgap
  obtain ⟨A, h0⟩ := opened_inv hn ho
  obtain ⟨_, _, sent, ds, _, _, hi⟩ := udpRun_inv hn h0 hr
  obtain ⟨k, o, buf', d1, g1, g3, g5, g6, g7, g8, g9, g10, g11⟩ :=
    datagram_one hn hf (firm_steady hs hl (d.bus.socks n).packets) (fun _ h => h.sr) ho hr
      ⟨hsr, hi.idle.base.mode, noTimeout_iff.mp hto, [], (List.append_nil _).symm, nofun⟩ hq hir buf hb ha h1 h2 hw hfit hpay
      (fun k q1 q2 => h3 k q1 (by omega))
  obtain ⟨dst, e1, e2⟩ := g3.origin
  dsimp only at e1
  subst e1
  obtain ⟨d', s1, s2, s3, s4⟩ := C76_udp_send_to hn hf hs he.emitting hl ho g5 g6.sr (noTimeout_iff.mpr g6.quiet) dst
    (answer (.v4 dst) (buf'.take k))
  obtain ⟨hu1, _, sent1, _, _, _, hi1⟩ := udpRun_inv hn h0 g5
  obtain ⟨_, N1, hN1⟩ := g1
  obtain ⟨_, N2, hN2⟩ := s1
  have hz : (d1.bus.socks n).txSize = (d.bus.socks n).txSize := hi1.size.trans hi.size.symm
  have hk : k ≤ buf'.length := by
    obtain ⟨d0, hr0, hlast, _⟩ := last_receive hn ho N1 N1 hr (hN1 N1 (Nat.le_refl _))
    obtain ⟨qs0, hq0⟩ := queued_always hn ho hr0
    obtain ⟨_, _, _, _, _, hdel, _⟩ := received hn ho hr0 N1 buf buf' k _ hlast qs0 hq0
    rw [hdel.count, hdel.keeps]
    exact Nat.min_le_left _ _
  have hsend := hN2 N2 (Nat.le_refl _)
  have hrun : UdpRun sched faults n u0 c0 _ (got ++ [⟨buf, k, .v4 dst, buf'⟩]) { u with destination := some dst } d'.bus :=
    .sendTo N2 dst _ g5 hsend
  obtain ⟨_, _, _, _, _, _, hi2⟩ := udpRun_inv hn h0 hrun
  -- the time it takes
  have htime := C118_udp_send_to hn he ho g5 (.v4 dst) (answer (.v4 dst) (buf'.take k)) N2
  rw [show Device.udpSendTo (Chip.dev sched faults).bus N2 (.v4 dst) (answer (.v4 dst) (buf'.take k)) (u, d1) = _ from hsend, hz] at htime
  have hlen : (answer (.v4 dst) (buf'.take k)).length ≤ m := hm _ _ (by
    rw [List.length_take]
    exact Nat.le_trans (Nat.min_le_right _ _) (Nat.le_of_eq g3.keeps))
  have hmono : ((answer (.v4 dst) (buf'.take k)).length + (d.bus.socks n).txSize - 1) / (d.bus.socks n).txSize * (L + 20) ≤
      (m + (d.bus.socks n).txSize - 1) / (d.bus.socks n).txSize * (L + 20) :=
    Nat.mul_le_mul_right _ (Nat.div_le_div_right (by omega))
  dsimp only at htime
  have hend : d'.bus.clock ≤ a + gap := by omega
  -- nothing comes meanwhile
  have hmv := moves_sendTo (B := (Chip.dev sched faults).bus) u N2 (.v4 dst) (answer (.v4 dst) (buf'.take k)) d1
  rw [show Device.udpSendTo (Chip.dev sched faults).bus N2 (.v4 dst) (answer (.v4 dst) (buf'.take k)) (u, d1) = _ from hsend, hu1] at hmv
  have hidle : Idle n a (a + gap) d'.bus := reach_ticks hf (idle_ticks h3) (fun b ad x hfr i hi c hc => by
    have e := toFrames_sameRx hn hfr i hi c
    refine ⟨by rw [Chip.poke_clock]; exact hc.late, fun hq => ?_⟩
    rw [Chip.poke_clock] at hq
    obtain ⟨e1, e2⟩ := hc.none hq
    exact ⟨e.rsr.trans e1, fun h => e2 (e.announced.mpr h)⟩) hmv
    ⟨g10, fun _ => ⟨BitVec.eq_of_toNat_eq (by rw [← Sock.queue_length, g8]; rfl), g9⟩⟩
  obtain ⟨i1, i2⟩ := hidle.none hend
  refine ⟨k, dst, buf', d', ⟨nofun, max N1 N2 + 1, fun f hf => serve_ok.mpr ⟨d1, hN1 f (by omega), hk, ?_⟩⟩, g3, ?_,
    ⟨_, hrun⟩, s3, s4, List.length_eq_zero_iff.mp (by rw [Sock.queue_length, i1]; rfl), i2, hi2.size.trans hi.size.symm, hidle.late, hend⟩
  · obtain ⟨f', rfl⟩ : ∃ f', f = f' + 1 := ⟨f - 1, by omega⟩
    unfold nbBlock
    rw [show Device.udpSendTo (Chip.dev sched faults).bus (f' + 1) (.v4 dst) (answer (.v4 dst) (buf'.take k)) (u, d1) = _ from
      hN2 (f' + 1) (by omega)]
  · rw [s2, g7, e2, hz]
    simp only [replies, List.append_nil]

theorem replies_cons (z : Nat) (answer : SockAddr → List U8 → List U8) (g : UdpGot) (got : List UdpGot) (d : Dgram) (ds : List Dgram) :
    replies z answer (g :: got) (d :: ds) = replies z answer [g] [d] ++ replies z answer got ds := by
  simp only [replies, List.append_nil]

/-- C119: after any calls on a socket that was opened, with nothing waiting or announced, on a chip whose transfers do not fail, on which
the socket stays open and what is sent leaves within `L` SPI bytes, and with a buffer that is not empty: if requests that fit into the RX
buffer, and whose payloads fit into the buffer, come at least as far apart as a round takes, and nothing else, then the server answers all
of them, each one once and in order, to where it came from. -/
theorem C119 {n L m : Nat} (hn : n < 8) (hf : ∀ i, faults i = none) (hs : StatusIn sched n (· = 0x22)) (he : EmittingIn L sched n)
    (hl : Lossless sched n) {u0 u : UdpSocket} {c0 : Chip} {log : List UdpSent} {got : List UdpGot} {d : Device Chip H}
    (ho : UdpOpened sched0 faults0 n u0 c0) (hr : UdpRun sched faults n u0 c0 log got u d.bus) (hsr : (d.bus.socks n).sr = 0x22)
    (hto : (d.bus.socks n).NoTimeout) (hq : (d.bus.socks n).queue = []) (hir : ¬ (d.bus.socks n).Announced) (buf : List U8) (hb : buf ≠ [])
    (answer : SockAddr → List U8 → List U8) (hm : ∀ o r, r.length ≤ buf.length → (answer o r).length ≤ m) {gap : Nat}
    (hgap : roundTime L (d.bus.socks n).txSize buf.length m ≤ gap) {ds : List (Nat × Dgram)}
    (ht : Timetable sched n gap d.bus.clock (ds.map fun x => (x.1, .datagram x.2)))
    (hds : ∀ x ∈ ds, x.2.Wf ∧ x.2.encode.length ≤ (d.bus.socks n).rxSize ∧ x.2.payload.length ≤ buf.length) :
    ∃ (results : List UdpGot) (buf' : List U8) (u' : UdpSocket) (d' : Device Chip H),
      Succeeds (server (Chip.dev sched faults).bus answer ds.length) (buf, u, d) () (buf', u', d') ∧
      UdpGot.All results (ds.map Prod.snd) ∧
      (d'.bus.socks n).packets = (d.bus.socks n).packets ++ replies (d.bus.socks n).txSize answer results (ds.map Prod.snd) ∧
      (∃ log', UdpRun sched faults n u0 c0 log' (got ++ results) u' d'.bus) ∧
      (d'.bus.socks n).sr = 0x22 ∧ (d'.bus.socks n).NoTimeout ∧ (d'.bus.socks n).queue = [] ∧ ¬ (d'.bus.socks n).Announced := by
  suffices H : ∀ t, d.bus.clock ≤ t → (∀ k, d.bus.clock ≤ k → k < t → news n (sched k) = []) →
      Timetable sched n gap t (ds.map fun x => (x.1, .datagram x.2)) →
      ∃ (results : List UdpGot) (buf' : List U8) (u' : UdpSocket) (d' : Device Chip H),
        Succeeds (server (Chip.dev sched faults).bus answer ds.length) (buf, u, d) () (buf', u', d') ∧
        UdpGot.All results (ds.map Prod.snd) ∧
        (d'.bus.socks n).packets = (d.bus.socks n).packets ++ replies (d.bus.socks n).txSize answer results (ds.map Prod.snd) ∧
        (∃ log', UdpRun sched faults n u0 c0 log' (got ++ results) u' d'.bus) ∧
        (d'.bus.socks n).sr = 0x22 ∧ (d'.bus.socks n).NoTimeout ∧ (d'.bus.socks n).queue = [] ∧ ¬ (d'.bus.socks n).Announced from
    H _ (Nat.le_refl _) (fun k h1 h2 => by omega) ht
  clear ht
  induction ds generalizing got d buf u log with
  | nil =>
    exact fun t _ _ _ => ⟨[], buf, u, d, ⟨nofun, 0, fun _ _ => rfl⟩, .nil, (List.append_nil _).symm, ⟨log, by rw [List.append_nil]; exact hr⟩,
      hsr, hto, hq, hir⟩
  | cons x ds ih =>
    intro t h1 h2 ht
    obtain ⟨a, dg⟩ := x
    cases ht with
    | cons k1 k2 k3 k4 k5 =>
    obtain ⟨hw, hfit, hpay⟩ := hds _ (List.mem_cons_self ..)
    obtain ⟨k, dst, b, d1, g1, g2, g3, ⟨log', g4⟩, g5, g6, g7, g8, g9, g10, g11⟩ := C119_round hn hf hs he hl ho hr hsr hto hq hir buf hb
      answer hm hgap (Nat.le_trans h1 k1) (fun k q1 q2 => (Nat.lt_or_ge k t).elim (h2 k q1) fun q3 => k2 k q3 q2) k3 hw hfit hpay k4
    have hlb : b.length = buf.length := g2.keeps
    obtain ⟨A, h0⟩ := opened_inv hn ho
    obtain ⟨hu, _⟩ := udpRun_inv hn h0 hr
    have hz : (d1.bus.socks n).rxSize = (d.bus.socks n).rxSize := by
      obtain ⟨_, N, hN⟩ := g1
      exact serve_rxSize hn hu (hN N (Nat.le_refl _))
    obtain ⟨results, b', u', d', i1, i2, i3, i4, i5⟩ := ih g4 g5 g6 g7 g8 b
      (fun e => hb (List.length_eq_zero_iff.mp (by rw [← hlb, e]; rfl))) (by rw [hlb]; exact hm) (by rw [hlb, g9]; exact hgap)
      (fun x hx => by rw [hz, hlb]; exact hds x (List.mem_cons_of_mem _ hx)) (a + gap) (by omega)
      (fun k q1 q2 => k4 k (by omega) q2) k5
    refine ⟨⟨buf, k, .v4 dst, b⟩ :: results, b', u', d', server_append g1 i1, .cons g2 i2, ?_, ?_, i5⟩
    · rw [i3, g3, g9, List.append_assoc, List.map_cons, replies_cons _ _ _ results]
    · obtain ⟨l, hl⟩ := i4
      exact ⟨l, by rw [List.append_assoc] at hl; exact hl⟩

/-! ## A concrete case -/

theorem steady_emittingIn : EmittingIn 8 steadySched 0 := fun k => ⟨k + (15 - k % 8) % 8, by omega, by omega, true, by
  unfold steadySched
  rw [if_neg (by omega), if_pos (by omega)]
  exact List.mem_cons_self ..⟩

/-- C119 is not vacuous: a request comes before every 4096th SPI byte, what is sent leaves within 8 bytes, and the server sends back any number
of them. -/
example (rounds : Nat) : ∃ results s', Succeeds (server (Chip.dev steadySched noFaults).bus echo rounds) ([0, 0], steadyBound) () s' ∧
    UdpGot.All results (List.replicate rounds dgramA) ∧ (s'.2.2.bus.socks 0).packets = (steadyBound.2.bus.socks 0).packets ++
      replies (steadyBound.2.bus.socks 0).txSize echo results (List.replicate rounds dgramA) := by
  obtain ⟨h1, h2, h3, h4, h5⟩ := steady_bound
  have hz : (steadyBound.2.bus.socks 0).txSize = 2048 := by
    unfold steadyBound
    decide +kernel
  obtain ⟨results, b, u, d, g1, g2, g3, _⟩ := C119 (n := 0) (L := 8) (m := 2) (by decide) (fun _ => rfl) steady_status steady_emittingIn
    steady_lossless steady_opened (d := steadyBound.2) .start h1 (by unfold Sock.NoTimeout; rw [h2, h3]; decide)
    (List.length_eq_zero_iff.mp (by rw [Sock.queue_length, h5]; rfl)) (by unfold Announced; rw [h2]; decide) [0, 0]
    (by decide) echo (fun _ _ h => h) (gap := 2100) (by rw [hz]; decide) (ds := (List.range' 0 rounds).map fun j => (4096 * j + 9, dgramA))
    (by rw [List.map_map]; exact steady_table rounds 0 _ (by omega) (by have := steady_start; omega))
    (fun x hx => by
      obtain ⟨j, _, rfl⟩ := List.mem_map.mp hx
      exact ⟨(by decide : dgramA.Wf), by rw [h4]; exact (by decide : dgramA.encode.length ≤ 2048), (by decide : dgramA.payload.length ≤ 2)⟩)
  rw [List.length_map, List.length_range'] at g1
  have e : (List.range' 0 rounds).map (Prod.snd ∘ fun j => (4096 * j + 9, dgramA)) = List.replicate rounds dgramA := by
    rw [show (Prod.snd ∘ fun j => (4096 * j + 9, dgramA)) = fun _ => dgramA from rfl, List.map_const', List.length_range']
  rw [List.map_map, e] at g2 g3
  exact ⟨results, _, g1, g2, g3⟩

end W5500.Props
