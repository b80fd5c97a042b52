import Verif.Props.Pieces
import Verif.Proofs.Poll
/-! # A program that looks for bytes on a TCP connection again and again

C124 A program that looks for bytes on a TCP connection often enough, whatever else it does, gets every one, in order: when a call has returned,
it has got exactly what has come. -/

namespace W5500.Props
open W5500.Spec Sock
variable {E H : Type} {sched : Nat → List (Nat × Act)} {faults : Nat → Option (E × Nat)}
  {sched0 : Nat → List (Nat × Act)} {faults0 : Nat → Option (E × Nat)}

/-- Where a program stands that looks for bytes. -/
structure InTime {E : Type} (sched : Nat → List (Nat × Act)) (faults : Nat → Option (E × Nat)) (n z l T : Nat) (k0 : Chip) (del0 got : List U8)
    (t : Nat) (c : Chip) : Prop where
  run : ∃ acc, TcpRun sched faults n k0 acc (del0 ++ got) c
  sr : (c.socks n).sr = 0x17
  since : T ≤ t
  all : got = arrivals sched n T (t - T)
  next : ∃ X, ∀ a q bs, PieceAgenda sched n t a q l bs → Timed n 1 t a q z X bs c

/-- When nothing waits or is announced. -/
theorem inTime_now {n z l T : Nat} (hn : n < 8) {k0 c : Chip} {S A acc del0 got : List U8} (h0 : At n (TcpIdle S A) k0)
    (hr : TcpRun sched faults n k0 acc (del0 ++ got) c) (hsr : (c.socks n).sr = 0x17) (hz : (c.socks n).rxSize = z)
    (hq : (c.socks n).queue = []) (hir : ¬ (c.socks n).Announced) (hT : T ≤ c.clock) (hall : got = arrivals sched n T (c.clock - T)) :
    InTime sched faults n z l T k0 del0 got c.clock c := by
  have hi := tcpRun_idle hn hr h0
  exact ⟨⟨acc, hr⟩, hsr, hT, hall, (c.socks n).arrived, fun a q bs hag => ⟨Nat.le_refl _, hi.tx.tcp, hz, hi.rx.core.rxFits,
    fun _ => ⟨rfl, by rw [← Sock.queue_length, hq]; rfl, hir⟩, fun h => absurd hag.1 (by omega)⟩⟩

/-- A call of a program that has kept in time. -/
theorem inTime_call {n z l T G gap : Nat} (hn : n < 8) (hf : ∀ i, faults i = none) (hs : StatusIn sched n (· = 0x17)) (hlz : l ≤ z)
    {k0 : Chip} {S A del0 got : List U8} (h0 : At n (TcpIdle S A) k0) {t : Nat} {d d' : Device Chip H}
    (hsp : Apart sched n gap T l) (hgap : G + (l + 12) ≤ gap) (hG : d.bus.clock ≤ t + G)
    (h : InTime sched faults n z l T k0 del0 got t d.bus) {buf buf' : List U8} (hl : l ≤ buf.length) {fuel k : Nat}
    (hcall : Device.tcpReceive (Chip.dev sched faults).bus fuel ⟨Socket.new (BitVec.ofNat 8 n)⟩ (buf, d) = (.ok k, (buf', d'))) :
    d.bus.clock + 2 ≤ d'.bus.clock ∧ d'.bus.clock ≤ d.bus.clock + (l + 12) ∧
      InTime sched faults n z l T k0 del0 (got ++ buf'.take k) d'.bus.clock d'.bus := by
  obtain ⟨⟨acc, hr⟩, hsr, hT, hall, X, hnext⟩ := h
  obtain ⟨a, q, bs, hag, hq⟩ := pieceAgenda hsp hT hgap
  have hd := hnext a q bs hag
  have hst := hd.start
  have htick := pieceAgenda_ticks (X := X) hlz hag
  have hbl := hag.2.1
  have h3 : ∀ k, a < k → k < q → news n (sched k) = [] := by
    rcases hag.2.2.2 with h | ⟨_, _, h⟩
    · exact fun k _ _ => by omega
    · exact h
  have hr' := TcpRun.receive fuel buf buf' k hr hcall
  rw [List.append_assoc] at hr'
  have hsr' : (d'.bus.socks n).sr = 0x17 :=
    (firm_tcpReceive (sched := sched) (faults := faults) (firm_sr hs) hn hf (fun _ h => h) fuel).ok (s := (buf, d.bus)) (s' := (buf', d'.bus))
      hsr (onSockBus_run hcall)
  have hz' := (tcpReceive_rxSize hn hcall).trans hd.size
  have hun := C77_tcp_unannounced hn fuel buf buf' d d' k hcall
  have hi' := tcpRun_idle hn hr' h0
  have hb := C46_buffer _ fuel _ buf buf' d d' k hcall
  rcases due_tcp hn hf htick h3 hd (by omega) hcall with ⟨rfl, g1, g2, g3⟩ | ⟨g0, g1, g2, g3, g4⟩
  · obtain ⟨b1, b2, b3⟩ := g1.before g3
    have hq0 : (d'.bus.socks n).queue = [] := List.length_eq_zero_iff.mp (by rw [Sock.queue_length, b2])
    refine ⟨by omega, by omega, inTime_now hn h0 hr' hsr' hz' hq0 hun (by omega) ?_⟩
    obtain ⟨more, e1, e2, _⟩ := arrivals_more (sched := sched) (n := n) hT (show t ≤ d'.bus.clock by omega)
    rw [e1, e2 fun k q1 q2 => hag.2.2.1 k q1 (by omega), List.take_zero, hall]
  · obtain ⟨hne, hnews, _⟩ := hag.2.2.2.resolve_left (by omega)
    have hi := tcpRun_idle hn hr h0
    rw [Nat.min_eq_right (by omega)] at g0
    subst g0
    have hX : X = A ++ (del0 ++ got) := by
      rcases Nat.lt_or_ge a d.bus.clock with hlt | hge
      · obtain ⟨k1, k2, _⟩ := hd.after hlt (by omega)
        have e : X ++ bs = (A ++ (del0 ++ got)) ++ (d.bus.socks n).queue := k1.symm.trans hi.rx.core.arrived
        exact (List.append_inj' e (by rw [Sock.queue_length, k2])).1
      · obtain ⟨k1, k2, _⟩ := hd.before hge
        have hq0 : (d.bus.socks n).queue = [] := List.length_eq_zero_iff.mp (by rw [Sock.queue_length, k2])
        rw [← k1, hi.rx.core.arrived, hq0, List.append_nil]
    have hlen : (buf'.take bs.length).length = bs.length := by rw [List.length_take]; omega
    have harr := hi'.rx.core.arrived
    have harr : (A ++ (del0 ++ got)) ++ bs = (A ++ (del0 ++ got)) ++ (buf'.take bs.length ++ (d'.bus.socks n).queue) := by
      rw [← hX, ← g1, harr, hX]
      simp only [List.append_assoc]
    obtain ⟨e3, e4⟩ := List.append_inj ((List.append_nil bs).trans (List.append_cancel_left harr)) hlen.symm
    refine ⟨by omega, by omega, inTime_now hn h0 hr' hsr' hz' e4.symm hun (by omega) ?_⟩
    obtain ⟨more, e5, _, e6⟩ := arrivals_more (sched := sched) (n := n) hT (show t ≤ d'.bus.clock by omega)
    rw [e5, e6 a bs hag.1 g2 (fun k q1 q2 q3 => (Nat.lt_or_ge k a).elim (hag.2.2.1 k q1) fun q4 => h3 k (by omega) (by omega)) hnews, ← e3, hall]

theorem inTime_meantime {n z l T : Nat} (hn : n < 8) (hf : ∀ i, faults i = none) (hs : StatusIn sched n (· = 0x17)) (hlz : l ≤ z)
    {k0 : Chip} {del0 got : List U8} {t : Nat} {c c' : Chip} (h : InTime sched faults n z l T k0 del0 got t c) (hw : TcpMeantime sched faults n c c') :
    InTime sched faults n z l T k0 del0 got t c' := by
  obtain ⟨⟨acc, hr⟩, hsr, hT, hall, X, hnext⟩ := h
  refine ⟨?_, tcpMeantime_keeps (I := fun c => (c.socks n).sr = 0x17) hn hf (stays_sr hs).ticks (fun _ _ e _ h => e.sr.trans h) hw hsr, hT, hall, X,
    fun a q bs hag => tcpMeantime_keeps hn hf (pieceAgenda_ticks hlz hag) (fun _ _ e hk h => e.timed hk h) hw (hnext a q bs hag)⟩
  cases hw with
  | send fuel data k h => exact ⟨_, .send fuel data k hr h⟩
  | read c b a d => exact ⟨_, .read b a d hr⟩
  | write c b a d hfo => exact ⟨_, .write b a d hr hfo⟩

theorem polls_inTime {n l G gap : Nat} (hn : n < 8) (hf : ∀ i, faults i = none) (hs : StatusIn sched n (· = 0x17))
    {k0 c0 : Chip} {S A acc del0 got : List U8} (h0 : At n (TcpIdle S A) k0) (hr : TcpRun sched faults n k0 acc del0 c0)
    (hsr : (c0.socks n).sr = 0x17) (hq : (c0.socks n).queue = []) (hir : ¬ (c0.socks n).Announced) (hlz : l ≤ (c0.socks n).rxSize)
    (hsp : Apart sched n gap c0.clock l) (hgap : G + (l + 12) ≤ gap) {t : Nat} {c : Chip} (h : TcpPolls sched faults n l G c0 got t c) :
    InTime sched faults n (c0.socks n).rxSize l c0.clock k0 del0 got t c := by
  induction h with
  | start => exact inTime_now hn h0 (by rw [List.append_nil]; exact hr) hsr rfl hq hir (Nat.le_refl _) (by rw [Nat.sub_self]; rfl)
  | receive fuel buf buf' k _ hG hl hcall ih => exact (inTime_call hn hf hs hlz h0 hsp hgap hG ih hl hcall).2.2
  | meantime _ hw ih => exact inTime_meantime hn hf hs hlz ih hw

/-- C124: after a `connect` and any calls, with nothing waiting or announced, on a chip whose transfers do not fail and with a connection that
stays. A program calls `receive` again and again, with buffers of at least `l` bytes, each time at most `G` SPI bytes after the call before, and in
the meantime sends, and does anything that does not concern the socket. If nothing comes but pieces of at most `l` bytes, which fit into the
RX buffer, at least `G + l + 12` SPI bytes apart, then the program has got exactly the bytes that came until the last call ended (time `t`), in
order; and the next call, if not too late, returns `Ok` within `l + 12` SPI bytes. -/
theorem C124 {n l G gap : Nat} (hn : n < 8) (hf : ∀ i, faults i = none) (hs : StatusIn sched n (· = 0x17)) (fuel : Nat) (remote : SockAddr)
    (d0 d1 : Device Chip H) (hz : SizesOk (d0.bus.socks n).mem)
    (hconn : Device.tcpConnect (Chip.dev sched0 faults0).bus fuel ⟨Socket.new (BitVec.ofNat 8 n)⟩ remote d0 = (.ok (), d1))
    {c0 : Chip} {acc del : List U8} (hrun : TcpRun sched faults n d1.bus acc del c0) (hsr : (c0.socks n).sr = 0x17)
    (hq : (c0.socks n).queue = []) (hir : ¬ (c0.socks n).Announced) (hl : l ≤ (c0.socks n).rxSize) (hsp : Apart sched n gap c0.clock l)
    (hgap : G + (l + 12) ≤ gap) {got : List U8} {t : Nat} {d : Device Chip H} (h : TcpPolls sched faults n l G c0 got t d.bus) :
    got = arrivals sched n c0.clock (t - c0.clock) ∧
    (d.bus.clock ≤ t + G → ∀ buf : List U8, l ≤ buf.length → ∃ (k : Nat) (buf' : List U8) (d' : Device Chip H),
      Succeeds (fun fuel => Device.tcpReceive (Chip.dev sched faults).bus fuel ⟨Socket.new (BitVec.ofNat 8 n)⟩) (buf, d) k (buf', d') ∧
      d.bus.clock + 2 ≤ d'.bus.clock ∧ d'.bus.clock ≤ d.bus.clock + (l + 12) ∧
      TcpPolls sched faults n l G c0 (got ++ buf'.take k) d'.bus.clock d'.bus) := by
  obtain ⟨_, _, ⟨S, A, hfr⟩, _⟩ := tcpConnect_idle hn hz hconn
  have ha := polls_inTime hn hf hs hfr.1 hrun hsr hq hir hl hsp hgap h
  refine ⟨ha.all, fun hG buf hb => ?_⟩
  obtain ⟨acc', hr⟩ := ha.run
  obtain ⟨k, buf', d', ⟨h1, N, h2⟩, _⟩ := C76_tcp_receive hn hf hs fuel remote d0 d1 d hz hconn acc' _ hr ha.sr buf
  have hcall := h2 N (Nat.le_refl _)
  obtain ⟨k1, k2, _⟩ := inTime_call hn hf hs hl hfr.1 hsp hgap hG ha hb hcall
  exact ⟨k, buf', d', ⟨h1, N, h2⟩, k1, k2, .receive N buf buf' k h hG hb hcall⟩

/-- C124, a whole program that does nothing but receive, any number of times. -/
theorem C124_gather {n l gap : Nat} (hn : n < 8) (hf : ∀ i, faults i = none) (hs : StatusIn sched n (· = 0x17)) (fuel : Nat) (remote : SockAddr)
    (d0 d1 d : Device Chip H) (hz : SizesOk (d0.bus.socks n).mem)
    (hconn : Device.tcpConnect (Chip.dev sched0 faults0).bus fuel ⟨Socket.new (BitVec.ofNat 8 n)⟩ remote d0 = (.ok (), d1))
    {acc del : List U8} (hrun : TcpRun sched faults n d1.bus acc del d.bus) (hsr : (d.bus.socks n).sr = 0x17)
    (hq : (d.bus.socks n).queue = []) (hir : ¬ (d.bus.socks n).Announced) (hl : l ≤ (d.bus.socks n).rxSize)
    (hsp : Apart sched n gap d.bus.clock l) (hgap : l + 12 ≤ gap) (buf : List U8) (hb : l ≤ buf.length) (rounds : Nat) :
    ∃ d' : Device Chip H,
      Succeeds (gather (Chip.dev sched faults).bus ⟨Socket.new (BitVec.ofNat 8 n)⟩ buf rounds) d
        (arrivals sched n d.bus.clock (d'.bus.clock - d.bus.clock)) d' ∧
      d.bus.clock + 2 * rounds ≤ d'.bus.clock ∧ d'.bus.clock ≤ d.bus.clock + (l + 12) * rounds := by
  suffices H : ∀ (got : List U8) (e : Device Chip H), TcpPolls sched faults n l 0 d.bus got e.bus.clock e.bus →
      ∃ (more : List U8) (d' : Device Chip H), Succeeds (gather (Chip.dev sched faults).bus ⟨Socket.new (BitVec.ofNat 8 n)⟩ buf rounds) e more d' ∧
        e.bus.clock + 2 * rounds ≤ d'.bus.clock ∧ d'.bus.clock ≤ e.bus.clock + (l + 12) * rounds ∧
        TcpPolls sched faults n l 0 d.bus (got ++ more) d'.bus.clock d'.bus by
    obtain ⟨more, d', h1, h2, h3, h4⟩ := H [] d .start
    obtain ⟨h5, _⟩ := C124 hn hf hs fuel remote d0 d1 hz hconn hrun hsr hq hir hl hsp (by omega) h4
    rw [List.nil_append] at h5
    subst h5
    exact ⟨d', h1, h2, h3⟩
  induction rounds with
  | zero => exact fun got e h => ⟨[], e, ⟨nofun, 0, fun _ _ => rfl⟩, by omega, by omega, by rw [List.append_nil]; exact h⟩
  | succ rounds ih =>
    intro got e h
    obtain ⟨k, buf', e', ⟨_, N, h1⟩, h2, h3, h4⟩ := (C124 hn hf hs fuel remote d0 d1 hz hconn hrun hsr hq hir hl hsp (by omega) h).2
      (Nat.le_refl _) buf hb
    obtain ⟨more, d', ⟨_, N', i1⟩, i2, i3, i4⟩ := ih _ e' h4
    refine ⟨buf'.take k ++ more, d', ⟨nofun, max N N', fun f hf => ?_⟩, by omega, ?_, by rw [← List.append_assoc]; exact i4⟩
    · unfold gather
      have e1 : M.withLocal buf (Device.tcpReceive (Chip.dev sched faults).bus f ⟨Socket.new (BitVec.ofNat 8 n)⟩) e = (.ok (k, buf'), e') :=
        M.withLocal_eq_ok.mpr (h1 f (by omega))
      rw [M.bind_ok e1]
      dsimp only
      rw [M.bind_ok (i1 f (by omega))]
      rfl
    · rw [Nat.mul_succ]
      omega

theorem apart_apart : Apart (replySched apart) 0 40 17 2 := fun k hk h => by
  by_cases h1 : k = 24
  · subst h1
    exact ⟨⟨[7, 8], apart_news (by omega), nofun, by decide⟩, fun j _ _ => apart_silent (by omega) (by omega) (by omega)⟩
  by_cases h2 : k = 64
  · subst h2
    exact ⟨⟨[9], apart_news (by omega), nofun, by decide⟩, fun j _ _ => apart_silent (by omega) (by omega) (by omega)⟩
  · exact absurd (apart_silent (by omega) h1 h2) h

theorem apart_arrivals {g : Nat} (h : 48 ≤ g) : arrivals (replySched apart) 0 17 g = [7, 8, 9] := by
  obtain ⟨more, e1, e2, _⟩ := arrivals_more (sched := replySched apart) (n := 0) (T := 17) (t := 65) (t' := 17 + g) (by omega) (by omega)
  rw [e2 fun k _ _ => apart_silent (by omega) (by omega) (by omega), List.append_nil, show 17 + g - 17 = g by omega] at e1
  rw [e1]
  decide +kernel

/-- C124 is not vacuous: a program that looks for bytes again within 26 SPI bytes. -/
example {got : List U8} {t : Nat} {d : Device Chip Unit}
    (h : TcpPolls (replySched apart) noFaults 0 2 26 (replyConnected apart).bus got t d.bus) :
    got = arrivals (replySched apart) 0 17 (t - 17) := by
  obtain ⟨h1, h2, h3, h4, h5⟩ := apart_left
  have := (C124 (n := 0) (by decide) (fun _ => rfl) (reply_status apart) 100 demoRemote demoDevice (replyConnected apart) powerUp_sizes
    apart_connect .start h1 h2 h3 (by rw [h5]; decide) (by rw [h4]; exact apart_apart) (by decide) h).1
  rw [h4] at this
  exact this

def pollFirst : List U8 × Device Chip Unit :=
  (Device.tcpReceive (Chip.dev (replySched apart) noFaults).bus 10 demoSocket ([0, 0], replyConnected apart)).2
def pollSent : Device Chip Unit := (Device.tcpSend (Chip.dev (replySched apart) noFaults).bus 100 demoSocket [1] pollFirst.2).2
def pollSecond : List U8 × Device Chip Unit :=
  (Device.tcpReceive (Chip.dev (replySched apart) noFaults).bus 10 demoSocket ([0, 0], pollSent)).2

/-- Such a program: the first call brings nothing; it sends a byte, and the next call brings the bytes that came meanwhile. -/
theorem poll_polls : TcpPolls (replySched apart) noFaults 0 2 26 (replyConnected apart).bus ([] ++ pollFirst.1.take 0 ++ pollSecond.1.take 2)
    pollSecond.2.bus.clock pollSecond.2.bus := by
  refine .receive (d := pollSent) 10 [0, 0] pollSecond.1 2
    (.meantime (.receive (d := replyConnected apart) (d' := pollFirst.2) 10 [0, 0] pollFirst.1 0 .start (by omega) (by decide) ?_)
      (.send (d := pollFirst.2) (d' := pollSent) 100 [1] 1 ?_)) ?_ (by decide) ?_
  · exact run_eq (r := Device.tcpReceive (Chip.dev (replySched apart) noFaults).bus 10 demoSocket ([0, 0], replyConnected apart))
      (by decide +kernel)
  · exact run_eq (r := Device.tcpSend (Chip.dev (replySched apart) noFaults).bus 100 demoSocket [1] pollFirst.2)
      (by unfold pollFirst; decide +kernel)
  · unfold pollSent pollFirst
    decide +kernel
  · exact run_eq (r := Device.tcpReceive (Chip.dev (replySched apart) noFaults).bus 10 demoSocket ([0, 0], pollSent))
      (by unfold pollSent pollFirst; decide +kernel)

theorem poll_got : pollSecond.1.take 2 = [7, 8] := by
  unfold pollSecond pollSent pollFirst
  decide +kernel

/-- A whole program: after 24 calls or more it has the bytes 7, 8 and 9. -/
example {rounds : Nat} (h : 24 ≤ rounds) : ∃ d' : Device Chip Unit,
    Succeeds (gather (Chip.dev (replySched apart) noFaults).bus demoSocket [0, 0] rounds) (replyConnected apart) [7, 8, 9] d' := by
  obtain ⟨h1, h2, h3, h4, h5⟩ := apart_left
  obtain ⟨d', k1, k2, _⟩ := C124_gather (n := 0) (l := 2) (gap := 40) (by decide) (fun _ => rfl) (reply_status apart) 100 demoRemote demoDevice
    (replyConnected apart) (replyConnected apart) powerUp_sizes apart_connect .start h1 h2 h3 (by rw [h5]; decide) (by rw [h4]; exact apart_apart)
    (by decide) [0, 0] (by decide) rounds
  rw [h4] at k1 k2
  rw [apart_arrivals (by omega)] at k1
  exact ⟨d', k1⟩

end W5500.Props
