import Verif.Props.Block
import Verif.Proofs.Exchange
/-! # Questions and answers over UDP

C109 A client that connects a UDP socket, and then sends questions and waits for the next datagram after each, gets the
answer to every question, if every question is answered.

It holds as long as nothing but the answers comes. It is false if a further datagram comes, for instance an answer that comes
twice: if it comes while `receive` is busy with the first, it is stored, but not announced; the next round returns it instead of
the answer, and the answer is discarded. -/

namespace W5500.Props
open W5500.Spec Sock
variable {E H : Type} {sched : Nat → List (Nat × Act)} {faults : Nat → Option (E × Nat)}
  {sched0 : Nat → List (Nat × Act)} {faults0 : Nat → Option (E × Nat)}

theorem succeeds_unique {σ ε α : Type} {call : Nat → M σ ε α} {s : σ} {a a' : α} {t t' : σ} (h : Succeeds call s a t)
    (h' : Succeeds call s a' t') : a = a' ∧ t = t' := by
  obtain ⟨_, N, h⟩ := h
  obtain ⟨_, N', h'⟩ := h'
  have := (h (max N N') (Nat.le_max_left _ _)).symm.trans (h' (max N N') (Nat.le_max_right _ _))
  cases this
  exact ⟨rfl, rfl⟩

/-- What holds between two rounds. -/
structure Between (sched : Nat → List (Nat × Act)) (faults : Nat → Option (E × Nat)) (n : Nat) (u : UdpSocket) (c0 c : Chip) : Prop where
  run : ∃ log got, UdpRun sched faults n u c0 log got u c
  sr : (c.socks n).sr = 0x22
  quiet : (c.socks n).NoTimeout
  noticed : (c.socks n).Noticed

/-- One round. -/
theorem asked {n : Nat} (hn : n < 8) (hf : ∀ i, faults i = none) (hs : StatusIn sched n (· = 0x22)) (he : Emitting sched n)
    (hl : Lossless sched n) {u : UdpSocket} {c0 : Chip} (ho : UdpOpened sched0 faults0 n u c0) (dst : SockAddr4)
    (hd : u.destination = some dst) {d : Device Chip H} (hB : Between sched faults n u c0 d.bus) (question : List U8) {a : Dgram}
    {l : Nat} (hw : a.Wf) (hm : a.encode.length ≤ (d.bus.socks n).rxSize) (hlt : d.bus.clock ≤ l) (ha : (n, .datagram a) ∈ sched l)
    (qs : List Dgram) (hq : (d.bus.socks n).Queued qs) (buf : List U8) (hb : d.bus.Ample sched n buf.length) :
    ∃ (k : Nat) (origin : SockAddr) (buf' : List U8) (d' : Device Chip H) (dg : Dgram) (rest more : List Dgram),
      Succeeds (ask (Chip.dev sched faults).bus u question) (buf, d) (k, origin) (buf', d') ∧
      dg :: rest = qs ++ more ∧ (∀ x ∈ dg :: rest, x.Wf) ∧ UdpGot.Brings ⟨buf, k, origin, buf'⟩ dg ∧
      (d'.bus.socks n).arrived = (d.bus.socks n).arrived ++ encAll more ++ (d'.bus.socks n).queue ∧
      (d'.bus.socks n).packets = (d.bus.socks n).packets ++
        (pieces (d.bus.socks n).txSize question).map (fun p => ⟨(wire dst).1, (wire dst).2, p, true⟩) ∧
      (∃ log got, UdpRun sched faults n u c0 log got u d'.bus) ∧ (d'.bus.socks n).sr = 0x22 ∧ (d'.bus.socks n).NoTimeout := by
  obtain ⟨⟨log, got, hr⟩, hsr, hto, hnot⟩ := hB
  obtain ⟨A, h0⟩ := opened_inv hn ho
  obtain ⟨hu, hc, sent, ds, _, _, hi⟩ := udpRun_inv hn h0 hr
  obtain ⟨d1, h1, h2, h3, h4⟩ := C76_udp_send hn hf hs he hl ho hr hsr hto dst hd question
  have ⟨_, N, hN⟩ := h1
  have hrun := hN N (Nat.le_refl _)
  have hmv : Reach (Chip.dev sched faults).bus (SendFrames (sockOf n)) d.bus d1.bus := by
    have := (moves_sendAll (B := (Chip.dev sched faults).bus) u N question).run d.bus
    rw [onBus_run hrun, hu] at this
    exact this
  -- what has arrived meanwhile
  have hi : UdpIdle ((c0.socks n).packets ++ sent) (A ++ encAll ds) (c0.socks n).txSize qs (d.bus.socks n) :=
    ⟨hi.idle, hi.size, [], by rw [List.append_nil]; exact hq⟩
  have hsent := (udp_sendIdle (sched := sched) (faults := faults) hn u hu (wire dst) _ _ _ qs N question).run d.bus ⟨hi, hc dst hd⟩
  rw [onBus_run hrun] at hsent
  obtain ⟨ps, _, hi1⟩ := hsent
  obtain ⟨m1, hq1⟩ := hi1.queue
  have hb1 : d1.bus.Ample sched n buf.length := by
    refine ample_later hb (comes_to hn hf (comes_ticks hb.coming) (hmv.mono fun _ _ _ => .send) ⟨Nat.le_refl _, hi.idle.base.mode, rfl, qs,
      by rw [← hq.2]; exact hi.idle.rx.core.arrived, fun x hx => ⟨hq.1 x hx, hb.waiting qs hq x hx⟩⟩) (gone := []) nofun ?_
    rw [show encAll [] = [] from rfl, List.append_nil]
    exact hi1.idle.rx.core.arrived
  have hroom : Ripe (d.bus.socks n) ∨ (d.bus.socks n).rsr.toNat + a.encode.length ≤ (d.bus.socks n).rxSize := by
    by_cases h : (d.bus.socks n).rsr = 0
    · right
      rw [h]
      show 0 + _ ≤ _
      omega
    · exact .inl ⟨noticed_iff.mp hnot h, Nat.pos_of_ne_zero fun e => h (BitVec.eq_of_toNat_eq e)⟩
  have hI := send_waits hn hf hw (Nat.le_refl _) ha hmv ⟨⟨hi.idle.base.mode, hi.idle.rx.core.rxFits, hroom⟩, fun h => by omega⟩
  -- wait
  obtain ⟨k, o, buf', d', dg, rest, more, g1, g2, g3, g4, g5, g6, g7, g8, _⟩ :=
    udp_wait hn hf (firm_steady hs hl (d1.bus.socks n).packets) (fun _ h => h.sr) hw (Nat.le_refl _) ha ho
      (.send N question dst hr hrun hd) ⟨h3, hi1.idle.base.mode, noTimeout_iff.mp h4, [], (List.append_nil _).symm, nofun⟩ hI _ hq1 buf hb1
  obtain ⟨_, N', hN'⟩ := g1
  refine ⟨k, o, buf', d', dg, rest, m1 ++ more, ⟨nofun, max N N' + 1, fun f hf => ?_⟩, by rw [g2, List.append_assoc], g8, g3, ?_,
    by rw [g7, h2], ⟨_, _, g5⟩, g6.sr, noTimeout_iff.mpr g6.quiet⟩
  · unfold ask
    refine M.bind_eq_ok.mpr ⟨(), (buf, d1), M.onSnd_eq_ok.mpr ⟨?_, rfl⟩, hN' f (by omega)⟩
    obtain ⟨f', rfl⟩ : ∃ f', f = f' + 1 := ⟨f - 1, by omega⟩
    unfold nbBlock
    rw [show Device.udpSend (Chip.dev sched faults).bus (f' + 1) u question (buf, d).2 = _ from hN (f' + 1) (by omega)]
  · rw [g4, hi1.idle.rx.core.arrived, hq1.2, hi.idle.rx.core.arrived, hq.2, encAll_append, encAll_append]
    simp only [List.append_assoc]

/-- C109, partial. A UDP socket that was not used for TCP before is connected, on a chip whose transfers do not fail, on which the
socket stays open and packets leave. `connect` returns `Ok`. After any number of rounds after which nothing was left over: if a
datagram comes that fits into the RX buffer, the next round returns `Ok`; the question has left for the address, and the oldest
datagram that waited, or else the first that came, is delivered. So if nothing waited and exactly one datagram, the answer, came, it
is delivered, and nothing is left over. Missing: further datagrams; see `C109_refuted`. -/
theorem C109_partial {n : Nat} (hn : n < 8) (hf : ∀ i, faults i = none) (hs : StatusIn sched n (· = 0x22)) (he : Emitting sched n)
    (hl : Lossless sched n) {u : UdpSocket} {d0 : Device Chip H} (h : UdpCalls sched0 faults0 n u d0.bus)
    (hp : (d0.bus.socks n).proto ≠ 1) (hd : (d0.bus.socks n).owed.getLsbD 3 = false) (dst : SockAddr4) :
    ∃ d1 : Device Chip H, Device.udpConnect (Chip.dev sched faults).bus (.v4 dst) (u, d0) =
        (.ok (), ({ u with destination := some dst }, d1)) ∧
      ∀ d : Device Chip H, Talk sched faults n { u with destination := some dst } d1 d →
      ∀ (question : List U8) (a : Dgram) (l : Nat), a.Wf → a.encode.length ≤ (d.bus.socks n).rxSize → d.bus.clock ≤ l →
        (n, .datagram a) ∈ sched l →
      ∀ qs, (d.bus.socks n).Queued qs → ∀ buf : List U8, d.bus.Ample sched n buf.length →
      ∃ (k : Nat) (origin : SockAddr) (buf' : List U8) (d' : Device Chip H) (dg : Dgram) (rest more : List Dgram),
        Succeeds (ask (Chip.dev sched faults).bus { u with destination := some dst } question) (buf, d) (k, origin) (buf', d') ∧
        (d'.bus.socks n).packets = (d.bus.socks n).packets ++
          (pieces (d.bus.socks n).txSize question).map (fun p => ⟨(wire dst).1, (wire dst).2, p, true⟩) ∧
        dg :: rest = qs ++ more ∧ UdpGot.Brings ⟨buf, k, origin, buf'⟩ dg ∧
        (d'.bus.socks n).arrived = (d.bus.socks n).arrived ++ encAll more ++ (d'.bus.socks n).queue ∧
        (qs = [] → ∀ b : Dgram, b.Wf → (d'.bus.socks n).arrived = (d.bus.socks n).arrived ++ b.encode →
          UdpGot.Brings ⟨buf, k, origin, buf'⟩ b ∧ (d'.bus.socks n).queue = []) := by
  have hu := (udpCalls_object hn h).sock
  obtain ⟨d1, h1, h2, h3⟩ := C76_udp_connect (faults := faults) hn hf hs hl u hu d0 hp hd dst
  refine ⟨d1, h1, fun d ht => ?_⟩
  have ho : UdpOpened sched faults n { u with destination := some dst } d1.bus :=
    .anew (.v4 dst) hu (udpCalls_object hn h).sizes (udpCalls_object hn h).coherent h1
  have h4 : (d1.bus.socks n).Noticed := (noticed_connect (faults := faults) hn hf u hu dst).ok (s := (u, d0.bus))
    (s' := (_, d1.bus)) rfl (onSockBus_run h1)
  have hB : Between sched faults n { u with destination := some dst } d1.bus d.bus := by
    induction ht with
    | start => exact ⟨⟨_, _, .start⟩, h2, h3, h4⟩
    | @round d d' question a l buf buf' x _ hw hm hlt ha hb hsucc hq ih =>
      obtain ⟨_, _, hr⟩ := ih.run
      obtain ⟨qs, hqs⟩ := queued_always hn ho hr
      obtain ⟨k, o, b, d2, dg, rest, more, g1, _, _, _, _, _, g2, g3, g4⟩ :=
        asked hn hf hs he hl ho dst rfl ih question hw hm hlt ha qs hqs buf hb
      obtain ⟨_, e⟩ := succeeds_unique hsucc g1
      cases e
      exact ⟨g2, g3, g4, fun h => absurd hq h⟩
  intro question a l hw hm hlt ha qs hqs buf hb
  obtain ⟨k, o, b, d2, dg, rest, more, g1, g2, g3, g4, g5, g6, _⟩ :=
    asked hn hf hs he hl ho dst rfl hB question hw hm hlt ha qs hqs buf hb
  refine ⟨k, o, b, d2, dg, rest, more, g1, g6, g2, g4, g5, fun e x hx harr => ?_⟩
  subst e
  rw [List.nil_append] at g2
  rw [g5, ← g2, List.append_assoc] at harr
  have harr := List.append_cancel_left harr
  rw [encAll_cons, List.append_assoc] at harr
  obtain ⟨rfl, e⟩ := encode_inj (g3 dg (List.mem_cons_self ..)) hx (harr.trans (List.append_nil _).symm)
  exact ⟨g4, (List.append_eq_nil_iff.mp e).2⟩

/-! ## Concrete cases -/

/-- A server answers the first question with A, and the second with B. If `twice`, the first answer comes twice. Whatever is sent
leaves. -/
def quizSched (twice : Bool) (k : Nat) : List (Nat × Act) :=
  if k = 20 then [(0, .datagram dgramA)] else if k = 60 then (if twice then [(0, .datagram dgramA)] else [])
  else if k = 90 then [(0, .datagram dgramB)] else if k % 8 = 7 then [(0, .emit true)] else []

theorem quiz_mem {twice : Bool} {k : Nat} {a : Act} (h : (0, a) ∈ quizSched twice k) :
    k ≤ 90 ∧ (a = .datagram dgramA ∨ a = .datagram dgramB) ∨ a = .emit true := by
  unfold quizSched at h
  repeat' split at h
  · exact .inl ⟨by omega, .inl (by simpa using h)⟩
  · exact .inl ⟨by omega, .inl (by simpa using h)⟩
  · exact nomatch h
  · exact .inl ⟨by omega, .inr (by simpa using h)⟩
  · exact .inr (by simpa using h)
  · exact nomatch h

theorem quiz_status (twice : Bool) : StatusIn (quizSched twice) 0 (· = 0x22) := fun k x h => by
  rcases quiz_mem h with ⟨_, h | h⟩ | h <;> exact nomatch h

theorem quiz_lossless (twice : Bool) : Lossless (quizSched twice) 0 := fun k h => by
  rcases quiz_mem h with ⟨_, h | h⟩ | h <;> exact nomatch h

theorem quiz_emits (twice : Bool) : Emitting (quizSched twice) 0 := fun k =>
  ⟨8 * k + 95, by omega, true, by
    unfold quizSched
    rw [if_neg (by omega), if_neg (by omega), if_neg (by omega), if_pos (by omega)]
    exact List.mem_cons_self ..⟩

def quizUdp : UdpSocket := { demoUdp with destination := some addrA }

def quizConnected (twice : Bool) : Device Chip Unit :=
  (Device.udpConnect (Chip.dev (quizSched twice) noFaults).bus (.v4 addrA) (demoUdp, demoDevice)).2.2

theorem quiz_connected (twice : Bool) : Device.udpConnect (Chip.dev (quizSched twice) noFaults).bus (.v4 addrA) (demoUdp, demoDevice) =
    (.ok (), (quizUdp, quizConnected twice)) := by
  have h : (Device.udpConnect (Chip.dev (quizSched twice) noFaults).bus (.v4 addrA) (demoUdp, demoDevice)).1 = .ok () ∧
    (Device.udpConnect (Chip.dev (quizSched twice) noFaults).bus (.v4 addrA) (demoUdp, demoDevice)).2.1 = quizUdp := by
    cases twice <;> decide +kernel
  exact Prod.ext h.1 (Prod.ext h.2 rfl)

def quizBuffer : List U8 := List.replicate 2048 0

/-- After the first question, and after the second. -/
def quizFirst (twice : Bool) : List U8 × Device Chip Unit :=
  (ask (Chip.dev (quizSched twice) noFaults).bus quizUdp [1] 3 (quizBuffer, quizConnected twice)).2
def quizSecond (twice : Bool) : List U8 × Device Chip Unit :=
  (ask (Chip.dev (quizSched twice) noFaults).bus quizUdp [2] 3 (quizBuffer, (quizFirst twice).2)).2

theorem quiz_first (twice : Bool) : ask (Chip.dev (quizSched twice) noFaults).bus quizUdp [1] 3 (quizBuffer, quizConnected twice) =
    (.ok (10, .v4 addrA), quizFirst twice) := by
  have h : (ask (Chip.dev (quizSched twice) noFaults).bus quizUdp [1] 3 (quizBuffer, quizConnected twice)).1 =
    .ok (10, .v4 addrA) := by cases twice <;> decide +kernel
  exact Prod.ext h rfl

theorem quiz_second : ask (Chip.dev (quizSched true) noFaults).bus quizUdp [2] 3 (quizBuffer, (quizFirst true).2) =
    (.ok (19, .v4 addrA), quizSecond true) := by
  have h : (ask (Chip.dev (quizSched true) noFaults).bus quizUdp [2] 3 (quizBuffer, (quizFirst true).2)).1 =
    .ok (19, .v4 addrA) := by decide +kernel
  exact Prod.ext h (by rw [quizSecond])

attribute [irreducible] quizConnected quizFirst quizSecond quizBuffer

/-- C109 is false: the first answer comes a second time while `receive` delivers it. The second round returns it again instead of the
second answer, although that has been stored in the meantime. The second answer is discarded, and no number of further calls, with
whatever buffers, delivers it. -/
theorem C109_refuted :
    StatusIn (quizSched true) 0 (· = 0x22) ∧ Emitting (quizSched true) 0 ∧ Lossless (quizSched true) 0 ∧
    Device.udpConnect (Chip.dev (quizSched true) noFaults).bus (.v4 addrA) (demoUdp, demoDevice) = (.ok (), (quizUdp, quizConnected true)) ∧
    Succeeds (ask (Chip.dev (quizSched true) noFaults).bus quizUdp [1]) (quizBuffer, quizConnected true) (10, .v4 addrA) (quizFirst true) ∧
    (quizFirst true).1.take 2 = dgramA.payload ∧
    Succeeds (ask (Chip.dev (quizSched true) noFaults).bus quizUdp [2]) (quizBuffer, (quizFirst true).2) (19, .v4 addrA) (quizSecond true) ∧
    (quizSecond true).1.take 2 = dgramA.payload ∧
    ((quizSecond true).2.bus.socks 0).arrived = dgramA.encode ++ dgramA.encode ++ dgramB.encode ∧
    ∀ polls x, .ok x ∉ (udpPolls (Chip.dev (quizSched true) noFaults).bus quizUdp polls (quizSecond true).2).1 := by
  refine ⟨quiz_status _, quiz_emits _, quiz_lossless _, quiz_connected _, ask_succeeds (quiz_first true), by decide +kernel,
    ask_succeeds quiz_second, by decide +kernel, by decide +kernel, fun polls => ?_⟩
  have hq : NoNews (quizSched true) 0 (quizSecond true).2.bus.clock := by
    rw [show (quizSecond true).2.bus.clock = 134 by decide +kernel]
    intro k hk a ha
    rcases quiz_mem ha with ⟨h, _⟩ | rfl
    · omega
    · exact ⟨fun _ => nofun, fun _ => nofun, fun _ => nofun, fun _ => nofun⟩
  exact (C77_udp_deaf (n := 0) (sched := quizSched true) (faults := noFaults) (by decide) quizUdp rfl polls (quizSecond true).2 hq
    (by decide +kernel)).1

theorem quiz_left : ((quizConnected false).bus.socks 0).rxSize = 2048 ∧ (quizConnected false).bus.clock = 13 ∧
    ((quizFirst false).2.bus.socks 0).rxSize = 2048 ∧ (quizFirst false).2.bus.clock = 71 ∧
    ((quizFirst false).2.bus.socks 0).queue = [] := by
  decide +kernel

/-- Two bytes are enough for these answers. -/
theorem quiz_ample {c : Chip} (hq : (c.socks 0).queue = []) {m : Nat} (hm : 2 ≤ m) : c.Ample (quizSched false) 0 m :=
  ample_empty hq (by omega) fun k dg _ h _ _ => by
    rcases quiz_mem h with ⟨_, h | h⟩ | h <;> cases h
    · exact hm
    · exact Nat.le_trans (by decide) hm

/-- C109_partial is not vacuous: the second round, after a first one, with a server that answers once. -/
example : ∃ k origin buf' d', Succeeds (ask (Chip.dev (quizSched false) noFaults).bus quizUdp [2]) (quizBuffer, (quizFirst false).2)
    (k, origin) (buf', d') := by
  obtain ⟨h1, h2, h3, h4, h5⟩ := quiz_left
  obtain ⟨d1, g1, g2⟩ := C109_partial (sched0 := quizSched false) (faults0 := noFaults) (n := 0)
    (sched := quizSched false) (faults := noFaults) (by decide) (fun _ => rfl) (quiz_status _)
    (quiz_emits _) (quiz_lossless _) (u := demoUdp) (d0 := demoDevice) (.new _ powerUp_sizes) (by decide +kernel) (by decide +kernel) addrA
  obtain rfl : quizConnected false = d1 := congrArg (·.2.2) ((quiz_connected false).symm.trans g1)
  have hb : quizBuffer.length = 2048 := by rw [quizBuffer, List.length_replicate]
  have hn0 : ((quizConnected false).bus.socks 0).queue = [] := by decide +kernel
  obtain ⟨k, o, b, d, _, _, _, h, _⟩ := g2 (quizFirst false).2
    (.round [1] dgramA 20 quizBuffer (quizFirst false).1 (10, .v4 addrA) .start (by decide) (by rw [h1]; decide) (by rw [h2]; decide)
      (List.mem_cons_self ..) (quiz_ample hn0 (by rw [hb]; decide)) (ask_succeeds (quiz_first false)) h5)
    [2] dgramB 90 (by decide) (by rw [h3]; decide) (by rw [h4]; decide) (List.mem_cons_self ..) [] ⟨nofun, h5⟩ quizBuffer
    (quiz_ample h5 (by rw [hb]; decide))
  exact ⟨k, o, b, d, h⟩

end W5500.Props
