import Verif.Props.Exchange
import Verif.Proofs.Serve
/-! # A server over UDP

C111 A server that waits for a datagram and sends its answer to the origin it is told answers every request to the client the
request came from.

C112 A server that sends back what it receives sends every datagram back unchanged. It does not: `receive` reports more bytes than
the datagram has, and stores them. They are sent along, and may be what others have sent. -/

namespace W5500.Props
open W5500.Spec Sock
variable {E H : Type} {sched : Nat → List (Nat × Act)} {faults : Nat → Option (E × Nat)}
  {sched0 : Nat → List (Nat × Act)} {faults0 : Nat → Option (E × Nat)}

/-- The call of `receive` that ends the loop. -/
theorem last_receive {n : Nat} (hn : n < 8) {u0 u : UdpSocket} {c0 : Chip} {log : List UdpSent} {got : List UdpGot}
    (ho : UdpOpened sched0 faults0 n u0 c0) (fuel : Nat) {buf buf' : List U8} {x : Nat × SockAddr} {d' : Device Chip H} (r : Nat)
    {d : Device Chip H} (hr : UdpRun sched faults n u0 c0 log got u d.bus)
    (h : nbBlock (Device.udpReceive (Chip.dev sched faults).bus fuel u) r (buf, d) = (.ok x, (buf', d'))) :
    ∃ d1 : Device Chip H, UdpRun sched faults n u0 c0 log got u d1.bus ∧
      Device.udpReceive (Chip.dev sched faults).bus fuel u (buf, d1) = (.ok x, (buf', d')) ∧
      (d1.bus.socks n).packets = (d.bus.socks n).packets ∧ d.bus.clock ≤ d1.bus.clock := by
  obtain ⟨A, h0⟩ := opened_inv hn ho
  induction r generalizing d with
  | zero => cases h
  | succ r ih =>
    unfold nbBlock at h
    rcases hc : Device.udpReceive (Chip.dev sched faults).bus fuel u (buf, d) with ⟨y | (e | _) | _ | _, ⟨b2, d2⟩⟩
    · rw [hc] at h
      cases h
      exact ⟨d, hr, hc, rfl, Nat.le_refl _⟩
    · rw [hc] at h; cases h
    · rw [hc] at h
      obtain ⟨hs, _, sent, ds, _, _, hi⟩ := udpRun_inv hn h0 hr
      have hst : StableS fun s => UdpIdle ((c0.socks n).packets ++ sent) (A ++ encAll ds) (c0.socks n).txSize [] s ∧
          s.rxRdReg = (d.bus.socks n).rxRdReg := fun s a h => ⟨stable_udpIdle _ _ _ _ s a h.1, (act_rxRdReg s a).trans h.2⟩
      obtain ⟨rfl, ⟨h1, h2⟩, h3, _⟩ := would_block_reads hn (hst.stays.ticks (n := n)) hs ⟨hi, rfl⟩ hc
      obtain ⟨d1, g1, g2, g3, g4⟩ := ih (.failedReceive fuel _ _ _ hr hc (fun _ => nofun) h2) h
      exact ⟨d1, g1, g2, by rw [g3, h1.idle.base.out, hi.idle.base.out], by omega⟩
    · rw [hc] at h; cases h
    · rw [hc] at h; cases h

/-- The sends `log` are the answers to what was received, `got`. -/
inductive Pairs (answer : SockAddr → List U8 → List U8) : List UdpSent → List UdpGot → Prop where
  | nil : Pairs answer [] []
  | snoc {log : List UdpSent} {got : List UdpGot} {g : UdpGot} {a : SockAddr4} : Pairs answer log got → g.origin = .v4 a →
      Pairs answer (log ++ [⟨a, answer g.origin (g.buf.take g.len), true⟩]) (got ++ [g])

theorem serving_run {n : Nat} (hn : n < 8) {answer : SockAddr → List U8 → List U8} {u0 u : UdpSocket} {c0 c : Chip} {got : List UdpGot}
    (ho : UdpOpened sched0 faults0 n u0 c0) (h : Serving sched faults n answer u0 c0 got u c) :
    ∃ log, Pairs answer log got ∧ UdpRun sched faults n u0 c0 log got u c := by
  induction h with
  | start => exact ⟨[], .nil, .start⟩
  | @round H got u u' d d' fuel buf buf' x _ hs ih =>
    obtain ⟨log, hp, hr⟩ := ih
    obtain ⟨d1, h1, h2, h3⟩ := serve_ok.mp hs
    obtain ⟨d0, hr0, h1, _⟩ := last_receive hn ho fuel fuel hr h1
    obtain ⟨_, _, _, _, _, _, ⟨a, ha, _⟩, _⟩ := C39 hn ho hr0 fuel buf buf' x.1 x.2 h1
    have hr1 := UdpRun.receive fuel buf buf' x.1 x.2 hr0 h1
    have h3 := nbBlock_once (nw_sendTo _ _ _ _) h3
    refine ⟨_, .snoc hp (g := ⟨buf, x.1, x.2, buf'⟩) ha, ?_⟩
    rw [show x.2 = _ from ha] at h3 hr1 ⊢
    exact .sendTo fuel a _ hr1 h3
  | read block addr data _ ih =>
    obtain ⟨log, hp, hr⟩ := ih
    exact ⟨log, hp, .read block addr data hr⟩
  | write block addr data _ hf ih =>
    obtain ⟨log, hp, hr⟩ := ih
    exact ⟨log, hp, .write block addr data hr hf⟩
  | pass _ hps ih =>
    obtain ⟨log, hp, hr⟩ := ih
    exact ⟨log, hp, .pass hr hps⟩

theorem all_snoc {z : Nat} {l : List UdpSent} {ps : List Packet} (h : UdpSent.All z l ps) {log : List UdpSent} {e : UdpSent}
    (hl : l = log ++ [e]) : ∃ p1 p2, ps = p1 ++ p2 ∧ UdpSent.All z log p1 ∧ e.By z p2 := by
  cases h with
  | nil => exact absurd hl.symm (by simp)
  | snoc h1 h2 =>
    obtain ⟨rfl, h⟩ := List.append_inj' hl rfl
    cases h
    exact ⟨_, _, rfl, h1, h2⟩

theorem pairs_snoc {answer : SockAddr → List U8 → List U8} {l : List UdpSent} {gs : List UdpGot} (h : Pairs answer l gs)
    {got : List UdpGot} {g : UdpGot} (hg : gs = got ++ [g]) :
    ∃ log a, l = log ++ [⟨a, answer g.origin (g.buf.take g.len), true⟩] ∧ g.origin = .v4 a ∧ Pairs answer log got := by
  cases h with
  | nil => exact absurd hg.symm (by simp)
  | snoc h1 h2 =>
    obtain ⟨rfl, h⟩ := List.append_inj' hg rfl
    cases h
    exact ⟨_, _, rfl, h2, h1⟩

theorem pairs_answered {z : Nat} {answer : SockAddr → List U8 → List U8} {got : List UdpGot} {ds : List Dgram}
    (h : UdpGot.Among got ds) : ∀ {log : List UdpSent} {ps : List Packet}, Pairs answer log got → UdpSent.All z log ps →
      Answered z answer got ds ps := by
  induction h with
  | nil =>
    intro log ps hp ha
    have e1 : log = [] := by
      generalize hg : ([] : List UdpGot) = gs at hp
      cases hp with
      | nil => rfl
      | snoc _ _ => exact absurd hg (by simp)
    subst e1
    have e2 : ps = [] := by
      generalize hg : ([] : List UdpSent) = l at ha
      cases ha with
      | nil => rfl
      | snoc _ _ => exact absurd hg (by simp)
    exact e2 ▸ .none
  | lost d _ ih => exact fun hp ha => .lost d (ih hp ha)
  | got _ hb ih =>
    intro log ps hp ha
    obtain ⟨log, a, rfl, h1, h2⟩ := pairs_snoc hp rfl
    obtain ⟨p1, p2, rfl, h3, x, _, hx, hcarry⟩ := all_snoc ha rfl
    cases hx rfl
    obtain ⟨a', e1, e2⟩ := hb.origin
    rw [h1] at e1
    cases e1
    exact .answered (ih h2 h3) hb (e2 ▸ hcarry)

/-- C111: whatever happens on the bus and to the chip, the rounds that returned `Ok` answered different datagrams, in the order in
which they arrived, and what the socket has transmitted since it was opened is these answers and nothing else: each one goes to the
address and port its request came from. -/
theorem C111 {n : Nat} (hn : n < 8) {answer : SockAddr → List U8 → List U8} {u0 u : UdpSocket} {c0 c : Chip} {got : List UdpGot}
    (ho : UdpOpened sched0 faults0 n u0 c0) (h : Serving sched faults n answer u0 c0 got u c) :
    ∃ A ds qs ps, (c0.socks n).arrived = A ++ (c0.socks n).queue ∧ (c.socks n).arrived = A ++ encAll (ds ++ qs) ∧
      (c.socks n).queue = encAll qs ∧ (∀ d ∈ ds ++ qs, d.Wf) ∧ (c.socks n).packets = (c0.socks n).packets ++ ps ∧
      Answered (c0.socks n).txSize answer got ds ps := by
  obtain ⟨log, hp, hr⟩ := serving_run hn ho h
  obtain ⟨sent, hall, hsent⟩ := C36_history hn ho hr
  obtain ⟨A, ds, qs, h0, h1, h2, hwf, hamong⟩ := C42_partial hn ho hr
  exact ⟨A, ds, qs, sent, h0, h1, h2, hwf, hsent, pairs_answered hamong hp hall⟩

/-- One round. -/
theorem served {n : Nat} (hn : n < 8) (hf : ∀ i, faults i = none) (hs : StatusIn sched n (· = 0x22)) (he : Emitting sched n)
    (hl : Lossless sched n) {u0 u : UdpSocket} {c0 : Chip} {log : List UdpSent} {got : List UdpGot} {d : Device Chip H}
    (ho : UdpOpened sched0 faults0 n u0 c0) (hr : UdpRun sched faults n u0 c0 log got u d.bus) (hsr : (d.bus.socks n).sr = 0x22)
    (hto : (d.bus.socks n).NoTimeout) (hw : (d.bus.socks n).Wakes sched n d.bus.clock)
    (qs : List Dgram) (hq : (d.bus.socks n).Queued qs) (buf : List U8) (hb : d.bus.Ample sched n buf.length)
    (answer : SockAddr → List U8 → List U8) :
    ∃ (k : Nat) (dst : SockAddr4) (buf' : List U8) (d' : Device Chip H) (dg : Dgram) (rest more : List Dgram),
      Succeeds (serve (Chip.dev sched faults).bus answer) (buf, u, d) (k, .v4 dst) (buf', { u with destination := some dst }, d') ∧
      dg :: rest = qs ++ more ∧ UdpGot.Brings ⟨buf, k, .v4 dst, buf'⟩ dg ∧
      (d'.bus.socks n).packets = (d.bus.socks n).packets ++
        (pieces (d.bus.socks n).txSize (answer (.v4 dst) (buf'.take k))).map (fun p => ⟨dg.ip, dg.port, p, true⟩) ∧
      (d'.bus.socks n).sr = 0x22 ∧ (d'.bus.socks n).NoTimeout ∧
      (∃ log', UdpRun sched faults n u0 c0 log' (got ++ [⟨buf, k, .v4 dst, buf'⟩]) { u with destination := some dst } d'.bus) ∧
      d'.bus.Ample sched n buf'.length := by
  obtain ⟨A, h0⟩ := opened_inv hn ho
  obtain ⟨_, _, sent, ds, _, _, hi⟩ := udpRun_inv hn h0 hr
  obtain ⟨k, o, buf', d1, dg, rest, more, g1, g2, g3, _, g5, g6, g7, _, g8⟩ :=
    udp_waken hn hf (firm_steady hs hl (d.bus.socks n).packets) (fun _ h => h.sr) ho hr
      ⟨hsr, hi.idle.base.mode, noTimeout_iff.mp hto, [], (List.append_nil _).symm, nofun⟩ hw qs hq buf hb
  obtain ⟨dst, e1, e2⟩ := g3.origin
  dsimp only at e1
  subst e1
  obtain ⟨d', h1, h2, h3, h4⟩ := C76_udp_send_to hn hf hs he hl ho g5 g6.sr (noTimeout_iff.mpr g6.quiet) dst
    (answer (.v4 dst) (buf'.take k))
  obtain ⟨_, _, sent1, _, _, _, hi1⟩ := udpRun_inv hn h0 g5
  obtain ⟨_, N1, hN1⟩ := g1
  obtain ⟨_, N2, hN2⟩ := h1
  have hk : k ≤ buf'.length := by
    obtain ⟨d0, hr0, hlast, _⟩ := last_receive hn ho N1 N1 hr (hN1 N1 (Nat.le_refl _))
    obtain ⟨qs0, hq0⟩ := queued_always hn ho hr0
    obtain ⟨_, _, _, _, _, hdel, _⟩ := received hn ho hr0 N1 buf buf' k _ hlast qs0 hq0
    rw [hdel.count, hdel.keeps]
    exact Nat.min_le_left _ _
  refine ⟨k, dst, buf', d', dg, rest, more, ⟨nofun, max N1 N2 + 1, fun f hf => serve_ok.mpr ⟨d1, hN1 f (by omega), hk, ?_⟩⟩, g2, g3, ?_,
    h3, h4, ⟨_, .sendTo N2 dst _ g5 (hN2 N2 (Nat.le_refl _))⟩, ?_⟩
  · obtain ⟨f', rfl⟩ : ∃ f', f = f' + 1 := ⟨f - 1, by omega⟩
    unfold nbBlock
    rw [show Device.udpSendTo (Chip.dev sched faults).bus (f' + 1) (.v4 dst) (answer (.v4 dst) (buf'.take k)) (u, d1) = _ from
      hN2 (f' + 1) (by omega)]
  · rw [h2, g7, e2, hi1.size, hi.size]
  · have hsend := hN2 N2 (Nat.le_refl _)
    obtain ⟨hu1, _⟩ := udpRun_inv hn h0 g5
    obtain ⟨qs1, hq1⟩ := queued_always hn ho g5
    have hmv := moves_sendTo (B := (Chip.dev sched faults).bus) u N2 (.v4 dst) (answer (.v4 dst) (buf'.take k)) d1
    rw [show Device.udpSendTo (Chip.dev sched faults).bus N2 (.v4 dst) (answer (.v4 dst) (buf'.take k)) (u, d1) = _ from hsend, hu1] at hmv
    rw [← g3.keeps] at g8
    refine ample_later g8 (comes_to hn hf (comes_ticks g8.coming) hmv ⟨Nat.le_refl _, hi1.idle.base.mode, rfl, qs1,
      by rw [← hq1.2]; exact hi1.idle.rx.core.arrived, fun x hx => ⟨hq1.1 x hx, g8.waiting qs1 hq1 x hx⟩⟩) (gone := []) nofun ?_
    rw [show encAll [] = [] from rfl, List.append_nil]
    exact (core_to hn hf hmv hi1.idle.rx.core).arrived

/-- C111, the server goes on: after any calls on a socket that was opened, on a chip whose transfers do not fail, on which the socket
stays open and what is sent leaves, and with a buffer large enough for the datagrams: if something waits and is announced, or a datagram comes that fits beside what waits, then the next
round returns `Ok`. It answers the datagram that has waited longest, or else the first that comes. -/
theorem C111_served {n : Nat} (hn : n < 8) (hf : ∀ i, faults i = none) (hs : StatusIn sched n (· = 0x22)) (he : Emitting sched n)
    (hl : Lossless sched n) {u0 u : UdpSocket} {c0 : Chip} {log : List UdpSent} {got : List UdpGot} {d : Device Chip H}
    (ho : UdpOpened sched0 faults0 n u0 c0) (hr : UdpRun sched faults n u0 c0 log got u d.bus) (hsr : (d.bus.socks n).sr = 0x22)
    (hto : (d.bus.socks n).NoTimeout) (hw : (d.bus.socks n).Wakes sched n d.bus.clock)
    (qs : List Dgram) (hq : (d.bus.socks n).Queued qs) (buf : List U8) (hb : d.bus.Ample sched n buf.length)
    (answer : SockAddr → List U8 → List U8) :
    ∃ (k : Nat) (dst : SockAddr4) (buf' : List U8) (d' : Device Chip H) (dg : Dgram) (rest more : List Dgram),
      Succeeds (serve (Chip.dev sched faults).bus answer) (buf, u, d) (k, .v4 dst) (buf', { u with destination := some dst }, d') ∧
      dg :: rest = qs ++ more ∧ UdpGot.Brings ⟨buf, k, .v4 dst, buf'⟩ dg ∧
      (d'.bus.socks n).packets = (d.bus.socks n).packets ++
        (pieces (d.bus.socks n).txSize (answer (.v4 dst) (buf'.take k))).map (fun p => ⟨dg.ip, dg.port, p, true⟩) ∧
      (d'.bus.socks n).sr = 0x22 ∧ (d'.bus.socks n).NoTimeout ∧
      ∃ log', UdpRun sched faults n u0 c0 log' (got ++ [⟨buf, k, .v4 dst, buf'⟩]) { u with destination := some dst } d'.bus := by
  obtain ⟨k, dst, b, d', dg, rest, more, g1, g2, g3, g4, g5, g6, g7, _⟩ := served hn hf hs he hl ho hr hsr hto hw qs hq buf hb answer
  exact ⟨k, dst, b, d', dg, rest, more, g1, g2, g3, g4, g5, g6, g7⟩

/-- C112, partial: what an echo server sends back, to where it came from, is the payload of the datagram and `extra` bytes behind it.
There are none iff the buffer is exactly as long as the payload. Missing: that there are none; see `C112_refuted`. -/
theorem C112_partial {n : Nat} (hn : n < 8) {u0 u u' : UdpSocket} {c0 : Chip} {got : List UdpGot} {d d' : Device Chip H}
    (ho : UdpOpened sched0 faults0 n u0 c0) (h : Serving sched faults n echo u0 c0 got u d.bus) (fuel : Nat) (buf buf' : List U8)
    (x : Nat × SockAddr) (hs : serve (Chip.dev sched faults).bus echo fuel (buf, u, d) = (.ok x, (buf', u', d'))) :
    ∃ dg ps extra, UdpGot.Brings ⟨buf, x.1, x.2, buf'⟩ dg ∧ (d'.bus.socks n).packets = (d.bus.socks n).packets ++ ps ∧
      Carry (dg.ip, dg.port) (pieces (d.bus.socks n).txSize (dg.payload ++ extra)) ps ∧
      (extra = [] ↔ buf.length = dg.payload.length) := by
  obtain ⟨A, h0⟩ := opened_inv hn ho
  obtain ⟨log, _, hr⟩ := serving_run hn ho h
  obtain ⟨_, _, sent, ds, _, _, hi⟩ := udpRun_inv hn h0 hr
  obtain ⟨d1, h1, h2, h3⟩ := serve_ok.mp hs
  obtain ⟨d0, hr0, h1, hsame, _⟩ := last_receive hn ho fuel fuel hr h1
  obtain ⟨hu0, _, sent0, ds0, _, _, hi0⟩ := udpRun_inv hn h0 hr0
  obtain ⟨qs, hq⟩ := queued_always hn ho hr0
  obtain ⟨hdr, dg, rest, more, e1, e2, e3, _⟩ := received hn ho hr0 fuel buf buf' x.1 x.2 h1 qs hq
  have hr1 := UdpRun.receive fuel buf buf' x.1 x.2 hr0 h1
  obtain ⟨_, _, sent1, _, _, _, hi1⟩ := udpRun_inv hn h0 hr1
  have h3 := nbBlock_once (nw_sendTo _ _ _ _) h3
  rw [e3] at h3
  obtain ⟨ps, g1, g2⟩ := C36_send_to hn ho hr1 fuel hdr.origin _ h3
  have hout : (d1.bus.socks n).packets = (d0.bus.socks n).packets := by
    have := (udp_receiveFrom (sched := sched) (faults := faults) hn u hu0 _ _ _ [] _ fuel buf).run (buf, d0.bus) ⟨rfl, hi0, rfl⟩
    rw [onSockBus_run h1] at this
    obtain ⟨_, _, _, _, _, _, _, h4⟩ := this
    rw [h4.idle.base.out, hi0.idle.base.out]
  have hlen : dg.payload.length + 8 ≤ (encAll (dg :: rest)).length := by
    rw [encAll_cons, List.length_append, encode_length (e2.wf dg List.mem_cons_self)]; omega
  have hk : dg.payload.length ≤ x.1 := by have := e2.count; have := e2.fits; omega
  refine ⟨dg, ps, (buf'.take x.1).drop dg.payload.length, ⟨⟨hdr.origin, e3, e2.origin⟩, e2.payload, e2.fits, e2.keeps⟩, ?_, ?_, ?_⟩
  · rw [g1, hout, hsame]
  · rw [e2.origin, hi1.size] at g2
    rw [hi.size]
    have : echo (.v4 hdr.origin) (buf'.take x.1) = dg.payload ++ (buf'.take x.1).drop dg.payload.length := by
      have := List.take_append_drop dg.payload.length (buf'.take x.1)
      rw [List.take_take, Nat.min_eq_left hk, e2.payload] at this
      exact this.symm
    rw [← this]
    exact g2
  · rw [List.drop_eq_nil_iff, List.length_take]
    have := e2.count
    have := e2.keeps
    have := e2.fits
    omega

/-! ## Concrete cases -/

/-- Client A sends a request, and then client B, at once or later. Whatever is sent leaves. -/
def shopSched (atOnce : Bool) (k : Nat) : List (Nat × Act) :=
  if k = 9 then (0, .datagram dgramA) :: (if atOnce then [(0, .datagram dgramB)] else [])
  else if k = 70 then (if atOnce then [] else [(0, .datagram dgramB)]) else if k % 8 = 7 then [(0, .emit true)] else []

def shopBound (atOnce : Bool) : UdpSocket × Device Chip Unit :=
  (Device.udpBind (Chip.dev (shopSched atOnce) noFaults).bus 5000 (demoUdp, demoDevice)).2

theorem shop_opened (atOnce : Bool) : UdpOpened (shopSched atOnce) noFaults 0 (shopBound atOnce).1 (shopBound atOnce).2.bus :=
  .bind (H := Unit) (u := demoUdp) (d := demoDevice) 5000 (.new _ powerUp_sizes) (run_eq (by cases atOnce <;> decide +kernel))

theorem shop_mem {atOnce : Bool} {k : Nat} {a : Act} (h : (0, a) ∈ shopSched atOnce k) :
    a = .datagram dgramA ∨ a = .datagram dgramB ∨ a = .emit true := by
  unfold shopSched at h
  cases atOnce <;> repeat' split at h
  all_goals simp_all
  exact h.imp_right .inl

/-- C112 is false: two requests come. What the server sends back to client A is not the two bytes A has sent: it is
nineteen bytes, and among them are the address, port and data of client B. -/
theorem C112_refuted :
    UdpOpened (shopSched true) noFaults 0 (shopBound true).1 (shopBound true).2.bus ∧
    dgramA.payload = [7, 8] ∧
    let r := serve (Chip.dev (shopSched true) noFaults).bus echo 9 (List.replicate 64 0, shopBound true)
    (r.2.2.2.bus.socks 0).arrived = dgramA.encode ++ dgramB.encode ∧ r.1 = .ok (19, .v4 addrA) ∧ (r.2.2.2.bus.socks 0).packets =
      [⟨dgramA.ip, dgramA.port, [7, 8] ++ dgramB.ip ++ dgramB.port ++ [0, 1, 9] ++ List.replicate 8 0, true⟩] := by
  exact ⟨shop_opened true, rfl, by decide +kernel⟩

/-- C112_partial is not vacuous: with a buffer of two bytes, A gets back its two bytes. -/
example :
    let r := serve (Chip.dev (shopSched false) noFaults).bus echo 9 ([0, 0], shopBound false)
    r.1 = .ok (2, .v4 addrA) ∧ r.2.1 = [7, 8] ∧ (r.2.2.2.bus.socks 0).packets = [⟨dgramA.ip, dgramA.port, [7, 8], true⟩] := by
  decide +kernel

/-- A server that answers with the first byte of the request. -/
def shopAnswer : SockAddr → List U8 → List U8 := fun _ request => request.take 1

def shopB : SockAddr4 := ⟨⟨10, 0, 0, 2⟩, 54⟩

/-- After the first round, and after the second. -/
def shopFirst : List U8 × UdpSocket × Device Chip Unit :=
  (serve (Chip.dev (shopSched false) noFaults).bus shopAnswer 9 ([0, 0], shopBound false)).2
def shopSecond : List U8 × UdpSocket × Device Chip Unit :=
  (serve (Chip.dev (shopSched false) noFaults).bus shopAnswer 9 ([0, 0], shopFirst.2)).2

theorem shop_first : serve (Chip.dev (shopSched false) noFaults).bus shopAnswer 9 ([0, 0], shopBound false) =
    (.ok (2, .v4 addrA), shopFirst) := by
  have h : (serve (Chip.dev (shopSched false) noFaults).bus shopAnswer 9 ([0, 0], shopBound false)).1 = .ok (2, .v4 addrA) := by
    decide +kernel
  exact Prod.ext h (by rw [shopFirst])

theorem shop_second : serve (Chip.dev (shopSched false) noFaults).bus shopAnswer 9 ([0, 0], shopFirst.2) =
    (.ok (2, .v4 shopB), shopSecond) := by
  have h : (serve (Chip.dev (shopSched false) noFaults).bus shopAnswer 9 ([0, 0], shopFirst.2)).1 = .ok (2, .v4 shopB) := by
    decide +kernel
  exact Prod.ext h (by rw [shopSecond])

theorem shop_sent : (shopSecond.2.2.bus.socks 0).packets =
    [⟨dgramA.ip, dgramA.port, [7], true⟩, ⟨dgramB.ip, dgramB.port, [9], true⟩] := by
  decide +kernel

theorem shop_bound : ((shopBound false).2.bus.socks 0).sr = 0x22 ∧ ((shopBound false).2.bus.socks 0).ir = 0 ∧
    ((shopBound false).2.bus.socks 0).owed = 0 ∧ (shopBound false).2.bus.clock ≤ 9 ∧
    ((shopBound false).2.bus.socks 0).queue = [] ∧ ((shopBound false).2.bus.socks 0).rsr = 0 ∧
    ((shopBound false).2.bus.socks 0).rxSize = 2048 := by
  decide +kernel

attribute [irreducible] shopBound shopFirst shopSecond

/-- C111 is not vacuous: two rounds, one for each client. -/
example : Serving (shopSched false) noFaults 0 shopAnswer (shopBound false).1 (shopBound false).2.bus
      [⟨[0, 0], 2, .v4 addrA, shopFirst.1⟩, ⟨[0, 0], 2, .v4 shopB, shopSecond.1⟩] shopSecond.2.1 shopSecond.2.2.bus ∧
    (shopSecond.2.2.bus.socks 0).packets =
      [⟨dgramA.ip, dgramA.port, [7], true⟩, ⟨dgramB.ip, dgramB.port, [9], true⟩] := by
  have r1 := Serving.round (sched := shopSched false) (faults := noFaults) (n := 0) (answer := shopAnswer) (u0 := (shopBound false).1)
    (c0 := (shopBound false).2.bus) 9 [0, 0] shopFirst.1 (2, .v4 addrA) .start (u' := shopFirst.2.1) (d' := shopFirst.2.2)
    (d := (shopBound false).2) shop_first
  exact ⟨Serving.round 9 [0, 0] shopSecond.1 (2, .v4 shopB) r1 (u' := shopSecond.2.1) (d' := shopSecond.2.2) (d := shopFirst.2.2)
    shop_second, shop_sent⟩

theorem shop_emits : Emitting (shopSched false) 0 := fun k =>
  ⟨8 * k + 95, by omega, true, by
    unfold shopSched
    rw [if_neg (by omega), if_neg (by omega), if_pos (by omega)]
    exact List.mem_cons_self ..⟩

/-- C111_served is not vacuous: the first round, with a buffer of two bytes. -/
example : ∃ k dst buf' d', Succeeds (serve (Chip.dev (shopSched false) noFaults).bus shopAnswer)
    ([0, 0], (shopBound false).1, (shopBound false).2) (k, .v4 dst) (buf', { (shopBound false).1 with destination := some dst }, d') := by
  obtain ⟨h1, h2, h3, h4, h5, h6, h7⟩ := shop_bound
  obtain ⟨k, dst, b, d', _, _, _, g, _⟩ := C111_served (n := 0) (sched := shopSched false) (faults := noFaults) (by decide) (fun _ => rfl)
    (fun k x h => by rcases shop_mem h with h | h | h <;> cases h) shop_emits (fun k h => by rcases shop_mem h with h | h | h <;> cases h)
    (shop_opened false) (d := (shopBound false).2) .start h1
    (by unfold Sock.NoTimeout; rw [h2, h3]; decide)
    (.inr ⟨9, dgramA, h4, List.mem_cons_self .., by decide, by rw [h6, h7]; decide⟩) [] ⟨nofun, h5⟩ [0, 0]
    (ample_empty h5 (by decide) fun k dg _ h _ _ => by rcases shop_mem h with h | h | h <;> cases h <;> decide) shopAnswer
  exact ⟨k, dst, b, d', g⟩

end W5500.Props
