import Verif.Props.Wakeup
import Verif.Props.Success
import Verif.Proofs.Block
import Verif.Proofs.Ample
/-! # Waiting until something arrives

C97 A program that repeats the UDP `receive` while it returns `WouldBlock` (`nb::block!`), or the MACRAW `read_frame` while it
returns 0, gets the next packet after finitely many calls, if packets that fit into the RX buffer keep coming.

True of MACRAW. False of UDP: `receive` looks at nothing but the RECV interrupt, which it clears after it has made room. If a
datagram is stored in between, and those that come afterwards do not fit beside it, RECV is never raised again. -/

namespace W5500.Props
open W5500.Spec Sock
variable {W E H : Type} {sched : Nat → List (Nat × Act)} {faults : Nat → Option (E × Nat)}
  {sched0 : Nat → List (Nat × Act)} {faults0 : Nat → Option (E × Nat)}

/-- C97, MACRAW: after `RawDevice::new` and any calls, on a chip whose transfers do not fail, with frames coming that fit into the
RX buffer, none of them empty: the loop ends with the oldest frame, in as far as the buffer holds it; if none was queued, with
the first that arrives. The calls before brought nothing. What else arrived meanwhile is queued. Nothing was sent. -/
theorem C97_raw (hf : ∀ i, faults i = none) {r : RawDevice} {c0 c : Chip} {log : List RawSent} {got : List RawGot}
    (ho : RawOpened sched0 faults0 r c0) (hr : RawRun sched faults r c0 log got c) (m : Nat) (hm : m ≤ (c.socks 0).rxSize)
    (hoff : FramesOffered sched 0 m) (hne : ∀ k, (0, .frame []) ∉ sched k) (queued : List (List U8))
    (hq : (c.socks 0).Frames queued) (hq0 : [] ∉ queued) (buf : List U8) (hb : buf ≠ []) :
    ∃ k buf' c' f rest more, Succeeds (fun fuel => untilSome (r.readFrame (Chip.dev sched faults).bus fuel) fuel) (buf, c) k (buf', c') ∧
      0 < k ∧ f :: rest = queued ++ more ∧ RawGot.Brings ⟨buf, k, buf'⟩ f ∧ f.length + 2 < 65536 ∧ (c'.socks 0).packets = (c.socks 0).packets ∧
      (∃ later, (c'.socks 0).Frames (rest ++ later) ∧ (c'.socks 0).arrived = (c.socks 0).arrived ++ encFrames (more ++ later)) ∧
      ∃ vain, (∀ g ∈ vain, g.Nothing) ∧ RawRun sched faults r c0 log (got ++ vain ++ [⟨buf, k, buf'⟩]) c' := by
  let call := fun f => r.readFrame (Chip.dev sched faults).bus f
  let G : List RawGot → List (List U8) → Chip → Prop := fun got queued c =>
    ∃ k buf' c' f rest more N, (∀ f r', N ≤ f → N ≤ r' → untilSome (call f) r' (buf, c) = (.ok k, (buf', c'))) ∧
      0 < k ∧ f :: rest = queued ++ more ∧ RawGot.Brings ⟨buf, k, buf'⟩ f ∧ f.length + 2 < 65536 ∧ (c'.socks 0).packets = (c.socks 0).packets ∧
      (∃ later, (c'.socks 0).Frames (rest ++ later) ∧ (c'.socks 0).arrived = (c.socks 0).arrived ++ encFrames (more ++ later)) ∧
      ∃ vain, (∀ g ∈ vain, g.Nothing) ∧ RawRun sched faults r c0 log (got ++ vain ++ [⟨buf, k, buf'⟩]) c'
  suffices key : G got queued c by
    obtain ⟨k, buf', c', f, rest, more, N, h1, h2⟩ := key
    exact ⟨k, buf', c', f, rest, more, ⟨nofun, N, fun f hf => h1 f f hf hf⟩, h2⟩
  have hsolid : At 0 Solid c := by
    obtain ⟨_, _, _, _, _, _, _, h4⟩ := raw_inv ho hr
    exact ⟨h4.busy.base.mode, h4.busy.core.rxFits, queued, hq, hq0⟩
  -- one call
  have step : ∀ got (c : Chip) queued, RawRun sched faults r c0 log got c → (c.socks 0).Frames queued → At 0 Solid c →
      (∀ c2 got2 queued2, queued = [] → ReadsOnly (Chip.dev sched faults).bus c c2 → c.clock + 2 ≤ c2.clock →
        RawRun sched faults r c0 log got2 c2 → (c2.socks 0).Frames queued2 → G got2 queued2 c2) → G got queued c := by
    intro got c queued hr hq hs hrest
    obtain ⟨k, buf', c', ⟨_, N, hN⟩, _⟩ := C76_raw_read hf ho hr queued hq buf
    have hcall : r.readFrame (Chip.dev sched faults).bus N (buf, c) = (.ok k, (buf', c')) := hN N (Nat.le_refl _)
    by_cases hk : k = 0
    · subst hk
      obtain ⟨h1, A, h2, ps, fs, _, h3, h4⟩ := raw_inv ho hr
      have hi : RawIdle ((c0.socks 0).packets ++ ps) (A ++ encFrames fs) 16384 queued (c.socks 0) := by
        obtain ⟨⟨b1, b2, b3, b4, b5, _, b7⟩, g⟩ := h4
        exact ⟨⟨b1, b2, b3, b4, b5, ⟨[], by rw [List.append_nil]; exact hq⟩, b7⟩, g⟩
      obtain ⟨rfl, rfl, h7, h8⟩ := raw_zero (by decide) hne (by rw [h1]) hb hi hs hcall
      have hr2 := RawRun.readFrame N buf' buf' 0 hr hcall
      obtain ⟨_, _, _, _, _, _, _, h9⟩ := raw_inv ho hr2
      obtain ⟨queued2, hq2⟩ := h9.busy.queue
      rw [List.nil_append] at hq2
      have ha : (c'.socks 0).arrived = (c.socks 0).arrived ++ encFrames queued2 := by
        have := ((stable_rxCore (A ++ encFrames fs)).stays (n := 0) (sched := sched)).ticks.readsOnly h7 hi.busy.core
        rw [this.arrived, hi.busy.core.arrived, hq.2, hq2.2, show encFrames [] = [] from rfl, List.append_nil]
      have hp : (c'.socks 0).packets = (c.socks 0).packets := by
        have := ((stable_rawIdle _ _ _ _).stays (n := 0) (sched := sched)).ticks.readsOnly h7 hi
        rw [this.busy.base.out, hi.busy.base.out]
      obtain ⟨k, b2, c3, f, rest, more, N', g1, g2, g3, g4, g9, g10, ⟨later, g5, g8⟩, vain, g6, g7⟩ := hrest c' _ queued2 rfl h7 h8 hr2 hq2
      refine ⟨k, b2, c3, f, rest, queued2 ++ more, max N N' + 1, fun f r' hf hr' => ?_, g2, g3, g4, g9, g10.trans hp,
        ⟨later, g5, by rw [g8, ha, List.append_assoc queued2, encFrames_append queued2, List.append_assoc]⟩,
        ⟨buf', 0, buf'⟩ :: vain, fun g hg => ?_, by rw [List.append_assoc got] at g7; exact g7⟩
      · obtain ⟨r'', rfl⟩ : ∃ r'', r' = r'' + 1 := ⟨r' - 1, by omega⟩
        unfold untilSome
        refine M.bind_eq_ok.mpr ⟨0, _, hN f (by omega), ?_⟩
        exact g1 f r'' (by omega) (by omega)
      · rcases List.mem_cons.mp hg with rfl | hg
        · exact ⟨rfl, rfl⟩
        · exact g6 g hg
    · rcases C55_call ho hr queued hq N buf buf' k hcall with ⟨_, h⟩ | ⟨f, rest, more, h1, h2, h4, h5, h3⟩
      · exact absurd h.len hk
      · refine ⟨k, buf', c', f, rest, more, N + 1, fun f r' hf hr' => ?_, by omega, h1, h2, h4, h5, h3, [], nofun, ?_⟩
        · obtain ⟨r'', rfl⟩ : ∃ r'', r' = r'' + 1 := ⟨r' - 1, by omega⟩
          unfold untilSome
          refine M.bind_eq_ok.mpr ⟨k, _, hN f (by omega), ?_⟩
          rw [if_neg hk]
          rfl
        · rw [List.append_nil]
          exact .readFrame N buf buf' k hr hcall
  -- wait for the next frame
  obtain ⟨l, hl, f, hf1, hf2⟩ := hoff c.clock
  have hsz : (c.socks 0).rxSize ≤ 16384 := GoodSize.le hsolid.fits.size
  have hT := frame_ticks (n := 0) (sched := sched) (by omega) hf1 hf2
  have wait : ∀ t got (c : Chip) queued, RawRun sched faults r c0 log got c → (c.socks 0).Frames queued → At 0 Solid c →
      ((c.socks 0).proto = 4 ∧ RxFits (c.socks 0) ∧ m ≤ (c.socks 0).rxSize ∧ (l < c.clock → 1 ≤ (c.socks 0).rsr.toNat)) →
      l + 1 - c.clock ≤ t → G got queued c := by
    intro t
    induction t with
    | zero =>
      intro got c queued hr hq hs hI ht
      refine step got c queued hr hq hs fun c2 _ _ h0 _ _ _ _ => ?_
      have := hI.2.2.2 (by omega)
      rw [← Sock.queue_length, hq.2, h0] at this
      exact absurd this (by decide)
    | succ t ih =>
      intro got c queued hr hq hs hI ht
      refine step got c queued hr hq hs fun c2 got2 queued2 h0 h1 h2 hr2 hq2 => ?_
      exact ih _ c2 queued2 hr2 hq2 ((solid_stays hne).ticks.readsOnly h1 hs) (hT.readsOnly h1 hI) (by omega)
  exact wait _ got c queued hr hq hsolid ⟨hsolid.raw, hsolid.fits, hm, fun h => by omega⟩ (Nat.le_refl _)

/-- C97, the trap: what waits on a UDP socket is not announced, and no datagram that comes fits beside it. No number of
`receive` calls, with whatever buffers, delivers anything, and the loop does not end. -/
theorem C97_jam {n : Nat} (hn : n < 8) (hb : OnlyForPackets sched n) {u0 u : UdpSocket} {c0 : Chip} {log : List UdpSent}
    {got : List UdpGot} {d : Device Chip H} (ho : UdpOpened sched0 faults0 n u0 c0)
    (hr : UdpRun sched faults n u0 c0 log got u d.bus) (hs : (d.bus.socks n).Shut sched n d.bus.clock) :
    (∀ polls, let r := udpPolls (Chip.dev sched faults).bus u polls d
      (∀ x, .ok x ∉ r.1) ∧ (r.2.bus.socks n).queue = (d.bus.socks n).queue) ∧
    ∀ f r buf x s', nbBlock (Device.udpReceive (Chip.dev sched faults).bus f u) r (buf, d) ≠ (.ok x, s') := by
  obtain ⟨A, h0⟩ := opened_inv hn ho
  obtain ⟨hu, _, sent, ds, _, _, hi⟩ := udpRun_inv hn h0 hr
  have hT := walled_ticks (t := d.bus.clock) hb (d.bus.socks n).queue
  have hW : d.bus.clock ≤ d.bus.clock ∧ At n (Walled sched n d.bus.clock (d.bus.socks n).queue) d.bus :=
    ⟨Nat.le_refl _, hi.idle.base.mode, hi.idle.rx.core.rxFits, hs, rfl⟩
  have hI : ∀ c, d.bus.clock ≤ c.clock ∧ At n (Walled sched n d.bus.clock (d.bus.socks n).queue) c →
    (c.socks n).ir.getLsbD 2 = false := fun c h => unannounced_iff.mp h.2.2.2.1.1
  refine ⟨fun polls => ?_, fun f r buf x s' => udp_block_unheard hn hT hI u hu f r buf d hW x s'⟩
  have := udp_polls_unheard (faults := faults) hn hT hI u hu polls d hW
  exact ⟨this.1, this.2.2.2.2.2⟩

/-- Waiting for a datagram: `I` holds whenever a call begins, and in the end `R` holds; if `I` holds, then nothing panics, and after time
`l` something waits and is announced. -/
theorem udp_polling {n : Nat} (hn : n < 8) (hf : ∀ i, faults i = none) {P : Sock → Prop} (hP : Firm sched n P)
    (hsr : ∀ s, P s → s.sr = 0x22) {u0 u : UdpSocket} {c0 : Chip} {log : List UdpSent} {got : List UdpGot}
    (ho : UdpOpened sched0 faults0 n u0 c0) {buf : List U8} (hne : buf ≠ []) {I R : Chip → Prop} {l : Nat}
    (hwb : ∀ (N : Nat) (b : List U8) (d d' : Device Chip H), I d.bus →
      Device.udpReceive (Chip.dev sched faults).bus N u (buf, d) = (.err .wouldBlock, (b, d')) → I d'.bus)
    (hok : ∀ (N : Nat) (b : List U8) (x : Nat × SockAddr) (d d' : Device Chip H), I d.bus →
      Device.udpReceive (Chip.dev sched faults).bus N u (buf, d) = (.ok x, (b, d')) → R d'.bus)
    (hpn : ∀ (N : Nat) (b : List U8) (d d' : Device Chip H), UdpRun sched faults n u0 c0 log got u d.bus → I d.bus →
      Device.udpReceive (Chip.dev sched faults).bus N u (buf, d) ≠ (.panic, (b, d')))
    (hI1 : ∀ c, I c → RxFits (c.socks n)) (hI2 : ∀ c, I c → l < c.clock → Ripe (c.socks n))
    {d : Device Chip H} (hr : UdpRun sched faults n u0 c0 log got u d.bus) (hPd : P (d.bus.socks n)) (hI : I d.bus)
    (qs : List Dgram) (hq : (d.bus.socks n).Queued qs) :
    ∃ (k : Nat) (origin : SockAddr) (buf' : List U8) (d' : Device Chip H) (dg : Dgram) (rest more : List Dgram),
      Succeeds (fun fuel => nbBlock (Device.udpReceive (Chip.dev sched faults).bus fuel u) fuel) (buf, d) (k, origin) (buf', d') ∧
      dg :: rest = qs ++ more ∧ UdpGot.Brings ⟨buf, k, origin, buf'⟩ dg ∧
      (d'.bus.socks n).arrived = (d.bus.socks n).arrived ++ encAll more ++ (d'.bus.socks n).queue ∧
      UdpRun sched faults n u0 c0 log (got ++ [⟨buf, k, origin, buf'⟩]) u d'.bus ∧ P (d'.bus.socks n) ∧
      (d'.bus.socks n).packets = (d.bus.socks n).packets ∧ (∀ x ∈ dg :: rest, x.Wf) ∧ R d'.bus := by
  obtain ⟨A, h0⟩ := opened_inv hn ho
  have inv := fun {d : Device Chip H} (h : UdpRun sched faults n u0 c0 log got u d.bus) => udpRun_inv hn h0 h
  have hu : u.socket = Socket.new (BitVec.ofNat 8 n) := (inv hr).1
  let call := fun f => (Device.udpReceive (Chip.dev sched faults).bus f u :
    M (List U8 × Device Chip H) (NbError (UdpSocketError E)) (Nat × SockAddr))
  let G : Device Chip H → List Dgram → Prop := fun d qs =>
    ∃ (k : Nat) (origin : SockAddr) (buf' : List U8) (d' : Device Chip H) (dg : Dgram) (rest more : List Dgram) (N : Nat),
      (∀ f r, N ≤ f → N ≤ r → nbBlock (call f) r (buf, d) = (.ok (k, origin), (buf', d'))) ∧
      dg :: rest = qs ++ more ∧ UdpGot.Brings ⟨buf, k, origin, buf'⟩ dg ∧
      (d'.bus.socks n).arrived = (d.bus.socks n).arrived ++ encAll more ++ (d'.bus.socks n).queue ∧
      UdpRun sched faults n u0 c0 log (got ++ [⟨buf, k, origin, buf'⟩]) u d'.bus ∧ P (d'.bus.socks n) ∧
      (d'.bus.socks n).packets = (d.bus.socks n).packets ∧ (∀ x ∈ dg :: rest, x.Wf) ∧ R d'.bus
  suffices key : G d qs by
    obtain ⟨k, o, buf', d', dg, rest, more, N, h1, h2⟩ := key
    exact ⟨k, o, buf', d', dg, rest, more, ⟨nofun, N, fun f hf => h1 f f hf hf⟩, h2⟩
  -- one call
  have step : ∀ (d : Device Chip H) qs, UdpRun sched faults n u0 c0 log got u d.bus → P (d.bus.socks n) →
      I d.bus → (d.bus.socks n).Queued qs →
      (∀ (d2 : Device Chip H) (qs2 : List Dgram) (N : Nat), call N (buf, d) = (.err .wouldBlock, (buf, d2)) →
        UdpRun sched faults n u0 c0 log got u d2.bus → P (d2.bus.socks n) → I d2.bus →
        (d2.bus.socks n).Queued qs2 → G d2 qs2) → G d qs := by
    intro d qs hr hp hb hq hrest
    obtain ⟨_, _, sent, ds, _, _, hi⟩ := inv hr
    have hi : UdpIdle ((c0.socks n).packets ++ sent) (A ++ encAll ds) (c0.socks n).txSize qs (d.bus.socks n) :=
      ⟨hi.idle, hi.size, [], by rw [List.append_nil]; exact hq⟩
    have hz : (d.bus.socks n).rxSize < 65536 := Nat.lt_of_le_of_lt (GoodSize.le hi.idle.rx.core.size) (by decide)
    obtain ⟨⟨x, buf', d2⟩, hx, N, hN⟩ := (C67_udp (sched := sched) (faults := faults) hn u hu d hz buf).2
    have hcall : Device.udpReceive (Chip.dev sched faults).bus N u (buf, d) = (x, (buf', d2)) := hN N (Nat.le_refl _)
    have key := HoareE.bind (firm_udpCall (sched := sched) (faults := faults) hP hn hf hsr u hu N buf hne)
      (f := fun x => pure (x.1, SockAddr.v4 x.2.origin)) (Q' := fun _ s => At n P s.2)
      fun x => .pure fun _ h => h
    rcases x with ⟨k, origin⟩ | e | _ | _
    · obtain ⟨hdr, dg, rest, more, e1, e2, e3, e4⟩ := received hn ho hr N buf buf' k origin hcall qs hq
      refine ⟨k, origin, buf', d2, dg, rest, more, N + 1, fun f r hf hr => ?_, e1,
        ⟨⟨hdr.origin, e3, e2.origin⟩, e2.payload, e2.fits, e2.keeps⟩, e4, .receive N buf buf' k origin hr hcall,
        key.ok (s := (buf, d.bus)) (s' := (buf', d2.bus)) ⟨rfl, hp⟩ (onSockBus_run hcall), ?_, e2.wf, hok N _ _ _ _ hb hcall⟩
      rotate_left
      · have := (udp_receiveFrom (sched := sched) (faults := faults) hn u hu _ _ _ qs _ N buf).run (buf, d.bus) ⟨rfl, hi, rfl⟩
        rw [onSockBus_run hcall] at this
        obtain ⟨_, _, _, _, _, _, _, h4⟩ := this
        rw [h4.idle.base.out, hi.idle.base.out]
      obtain ⟨r', rfl⟩ : ∃ r', r = r' + 1 := ⟨r - 1, by omega⟩
      unfold nbBlock
      rw [show call f (buf, d) = _ from hN f (by omega)]
    · obtain ⟨rfl, hsr2⟩ := key.err (s := (buf, d.bus)) (s' := (buf', d2.bus)) ⟨rfl, hp⟩ (onSockBus_run hcall)
      have hst : StableS fun s => UdpIdle ((c0.socks n).packets ++ sent) (A ++ encAll ds) (c0.socks n).txSize qs s ∧
          s.rxRdReg = (d.bus.socks n).rxRdReg := fun s a h => ⟨stable_udpIdle _ _ _ _ s a h.1, (act_rxRdReg s a).trans h.2⟩
      obtain ⟨rfl, ⟨h1, h3⟩, _⟩ := would_block_reads hn (hst.stays.ticks (n := n)) hu ⟨hi, rfl⟩ hcall
      obtain ⟨m1, hq2⟩ := h1.queue
      obtain ⟨k, o, b2, d3, dg, rest, more, N', g1, g2, g3, g4, g5, g6, g7, g8⟩ := hrest d2 (qs ++ m1) N hcall
        (.failedReceive N _ _ _ hr hcall (fun _ => nofun) h3) hsr2 (hwb N _ _ _ hb hcall) hq2
      refine ⟨k, o, b2, d3, dg, rest, m1 ++ more, max N N' + 1, fun f r hf hr => ?_, by rw [g2, List.append_assoc], g3, ?_, g5, g6, ?_, g8⟩
      · obtain ⟨r', rfl⟩ : ∃ r', r = r' + 1 := ⟨r - 1, by omega⟩
        unfold nbBlock
        rw [show call f (_, d) = _ from hN f (by omega)]
        exact g1 f r' (by omega) (by omega)
      · rw [g4, h1.idle.rx.core.arrived, hq2.2, hi.idle.rx.core.arrived, hq.2, encAll_append, encAll_append]
        simp only [List.append_assoc]
      · rw [g7, h1.idle.base.out, hi.idle.base.out]
    · exact absurd hcall (hpn N _ _ _ hr hb)
    · exact absurd rfl hx
  -- wait for the next datagram
  have hT : Chip.Ticks sched (fun _ => True) := ⟨fun _ _ => trivial, fun _ _ _ => trivial⟩
  have wait : ∀ t (d : Device Chip H) qs, UdpRun sched faults n u0 c0 log got u d.bus → P (d.bus.socks n) →
      (d.bus.socks n).Queued qs → I d.bus → l + 1 - d.bus.clock ≤ t → G d qs := by
    intro t
    induction t with
    | zero =>
      intro d qs hr hp hq hI ht
      refine step d qs hr hp hI hq fun d2 qs2 N hcall _ _ _ _ => ?_
      exact absurd (hI2 _ hI (by omega)) ((would_block_reads hn hT hu trivial hcall).2.2.2 (hI1 _ hI))
    | succ t ih =>
      intro d qs hr hp hq hI ht
      refine step d qs hr hp hI hq fun d2 qs2 N hcall hr2 hsr2 hb2 hq2 => ?_
      have := (would_block_reads hn hT hu trivial hcall).2.2.1
      exact ih d2 qs2 hr2 hsr2 hq2 hb2 (by omega)
  exact wait _ d qs hr hPd hq hI (Nat.le_refl _)

/-- A buffer as large as the RX buffer is large enough. -/
theorem ample_size {n : Nat} (hn : n < 8) {u0 u : UdpSocket} {c0 c : Chip} {log : List UdpSent} {got : List UdpGot}
    (ho : UdpOpened sched0 faults0 n u0 c0) (hr : UdpRun sched faults n u0 c0 log got u c) {m : Nat} (h : (c.socks n).rxSize ≤ m) :
    c.Ample sched n m := by
  obtain ⟨A, h0⟩ := opened_inv hn ho
  obtain ⟨_, _, sent, ds, _, _, hi⟩ := udpRun_inv hn h0 hr
  have hfit := hi.idle.rx.core.rxFits
  refine ⟨by have := GoodSize.pos hfit.size; omega, fun qs hq dg hd => ?_, fun k dg _ _ hw hl => ?_⟩
  · have h1 : (c.socks n).rsr.toNat ≤ (c.socks n).rxSize := hfit.fits
    obtain ⟨l1, l2, rfl⟩ := List.append_of_mem hd
    rw [← Sock.queue_length, hq.2, encAll_append, encAll_cons, List.length_append, List.length_append, encode_length (hq.1 dg hd)] at h1
    omega
  · rw [encode_length hw] at hl
    omega

/-- If nothing waits, then it has to be large enough for what comes. -/
theorem ample_empty {n m : Nat} {c : Chip} (hq : (c.socks n).queue = []) (hm : 0 < m) (h : ∀ k dg, c.clock ≤ k →
    (n, .datagram dg) ∈ sched k → dg.Wf → dg.encode.length ≤ (c.socks n).rxSize → dg.payload.length ≤ m) : c.Ample sched n m := by
  refine ⟨hm, fun qs hqs dg hd => ?_, h⟩
  have h1 := congrArg List.length (hq.symm.trans hqs.2)
  obtain ⟨l1, l2, rfl⟩ := List.append_of_mem hd
  rw [encAll_append, encAll_cons, List.length_append, List.length_append, encode_length (hqs.1 dg hd), List.length_nil] at h1
  omega

/-- A buffer that is large enough stays so. -/
theorem ample_later {n m : Nat} {A : List U8} {c c' : Chip} (h : c.Ample sched n m) (hc : Comes n c.clock (c.socks n).rxSize m A c')
    {gone : List Dgram} (hg : ∀ x ∈ gone, x.Wf) (ha : (c'.socks n).arrived = A ++ encAll gone ++ (c'.socks n).queue) :
    c'.Ample sched n m := by
  refine ⟨h.some, fun qs hq dg hd => ?_, fun k dg hk => by rw [hc.size]; exact h.coming k dg (Nat.le_trans hc.start hk)⟩
  obtain ⟨l, h1, h2⟩ := hc.list
  rw [ha, hq.2, List.append_assoc, ← encAll_append] at h1
  have := encAll_inj (fun x hx => (List.mem_append.mp hx).elim (hg x) (hq.1 x)) (fun x hx => (h2 x hx).1) (List.append_cancel_left h1)
  exact (h2 dg (this ▸ List.mem_append_right _ hd)).2

/-- Waiting for a datagram with a buffer that is large enough: `I` holds whatever happens meanwhile, and after time `l` something waits and
is announced. -/
theorem udp_await {n : Nat} (hn : n < 8) (hf : ∀ i, faults i = none) {P : Sock → Prop} (hP : Firm sched n P)
    (hsr : ∀ s, P s → s.sr = 0x22) {I : Chip → Prop} (hT : Chip.Ticks sched I) {l : Nat}
    (hI1 : ∀ c, I c → RxFits (c.socks n)) (hI2 : ∀ c, I c → l < c.clock → Ripe (c.socks n))
    {u0 u : UdpSocket} {c0 : Chip} {log : List UdpSent} {got : List UdpGot} {d : Device Chip H}
    (ho : UdpOpened sched0 faults0 n u0 c0) (hr : UdpRun sched faults n u0 c0 log got u d.bus) (hPd : P (d.bus.socks n))
    (hI : I d.bus)
    (qs : List Dgram) (hq : (d.bus.socks n).Queued qs) (buf : List U8) (hb : d.bus.Ample sched n buf.length) :
    ∃ (k : Nat) (origin : SockAddr) (buf' : List U8) (d' : Device Chip H) (dg : Dgram) (rest more : List Dgram),
      Succeeds (fun fuel => nbBlock (Device.udpReceive (Chip.dev sched faults).bus fuel u) fuel) (buf, d) (k, origin) (buf', d') ∧
      dg :: rest = qs ++ more ∧ UdpGot.Brings ⟨buf, k, origin, buf'⟩ dg ∧
      (d'.bus.socks n).arrived = (d.bus.socks n).arrived ++ encAll more ++ (d'.bus.socks n).queue ∧
      UdpRun sched faults n u0 c0 log (got ++ [⟨buf, k, origin, buf'⟩]) u d'.bus ∧ P (d'.bus.socks n) ∧
      (d'.bus.socks n).packets = (d.bus.socks n).packets ∧ (∀ x ∈ dg :: rest, x.Wf) ∧ d'.bus.Ample sched n buf.length := by
  obtain ⟨A, h0⟩ := opened_inv hn ho
  obtain ⟨hu, _, sent, ds, _, _, hi⟩ := udpRun_inv hn h0 hr
  have hi : UdpIdle ((c0.socks n).packets ++ sent) (A ++ encAll ds) (c0.socks n).txSize qs (d.bus.socks n) :=
    ⟨hi.idle, hi.size, [], by rw [List.append_nil]; exact hq⟩
  have hC : Chip.Ticks sched (Comes n d.bus.clock (d.bus.socks n).rxSize buf.length (A ++ encAll ds)) := comes_ticks hb.coming
  let J : Chip → Prop := fun c => I c ∧ Comes n d.bus.clock (d.bus.socks n).rxSize buf.length (A ++ encAll ds) c ∧
    At n (UdpIdle ((c0.socks n).packets ++ sent) (A ++ encAll ds) (c0.socks n).txSize qs) c
  have hJ : Chip.Ticks sched J := ticks_and hT (ticks_and hC (stable_udpIdle _ _ _ _).stays.ticks)
  have hpn : ∀ (N : Nat) (b : List U8) (d d' : Device Chip H), UdpRun sched faults n u0 c0 log got u d.bus → J d.bus →
      Device.udpReceive (Chip.dev sched faults).bus N u (buf, d) ≠ (.panic, (b, d')) := by
    intro N b d d' hr h hc
    obtain ⟨qs, hq⟩ := queued_always hn ho hr
    obtain ⟨dg, rest, more, e1, _, e3, later, e4⟩ := (C41_chip_partial hn ho hr N buf b .panic hc qs hq).1 rfl
    obtain ⟨y, w, g1, g2, g3⟩ := (receive_panic (calm_bus _)).mp hc
    have hm := (moves_recvHead (Chip.dev sched faults).bus N buf.length u).run d.bus
    rw [g1] at hm
    cases g3
    obtain ⟨_, k1, k2⟩ : J w := hJ.readsOnly hm h
    obtain ⟨l, f1, f2⟩ := k1.list
    rw [k2.idle.rx.core.arrived, show Sock.queue (w.socks n) = _ from e4.2] at f1
    have := encAll_inj e4.1 (fun x hx => (f2 x hx).1) (List.append_cancel_left f1)
    have := (f2 dg (this ▸ by simp)).2
    omega
  obtain ⟨k, o, b, d', dg, rest, more, g1, g2, g3, g4, g5, g6, g7, g8, g9⟩ := udp_polling hn hf hP hsr ho (buf := buf)
    (fun e => absurd hb.some (by rw [e]; exact Nat.lt_irrefl 0)) (I := J)
    (fun N b d d' h hc => (would_block_reads hn hJ hu h hc).2.1) (fun N b x d d' h hc => comes_receive hn hf hC hu hc h.2.1)
    hpn (fun c h => hI1 c h.1) (fun c h => hI2 c h.1) hr hPd
    ⟨hI, ⟨Nat.le_refl _, hi.idle.base.mode, rfl, qs, by rw [← hq.2]; exact hi.idle.rx.core.arrived,
      fun x hx => ⟨hq.1 x hx, hb.waiting qs hq x hx⟩⟩, hi⟩ qs hq
  refine ⟨k, o, b, d', dg, rest, more, g1, g2, g3, g4, g5, g6, g7, g8, ample_later hb g9 (gone := dg :: rest) g8 ?_⟩
  rw [g4, g2, encAll_append, hi.idle.rx.core.arrived, hq.2]
  simp only [List.append_assoc]

/-- Waiting for one datagram: it comes at time `l`, takes at most `m` bytes, and either something waits and is announced, or
there is room for `m` bytes. -/
theorem udp_wait {n : Nat} (hn : n < 8) (hf : ∀ i, faults i = none) {P : Sock → Prop} (hP : Firm sched n P)
    (hsr : ∀ s, P s → s.sr = 0x22) {m l : Nat} {dg : Dgram}
    (hw : dg.Wf) (hm : dg.encode.length ≤ m) (hd : (n, .datagram dg) ∈ sched l)
    {u0 u : UdpSocket} {c0 : Chip} {log : List UdpSent} {got : List UdpGot} {d : Device Chip H}
    (ho : UdpOpened sched0 faults0 n u0 c0) (hr : UdpRun sched faults n u0 c0 log got u d.bus) (hPd : P (d.bus.socks n))
    (hI : Waits m (d.bus.socks n) ∧ (l < d.bus.clock → Ripe (d.bus.socks n)))
    (qs : List Dgram) (hq : (d.bus.socks n).Queued qs) (buf : List U8) (hb : d.bus.Ample sched n buf.length) :
    ∃ (k : Nat) (origin : SockAddr) (buf' : List U8) (d' : Device Chip H) (dg : Dgram) (rest more : List Dgram),
      Succeeds (fun fuel => nbBlock (Device.udpReceive (Chip.dev sched faults).bus fuel u) fuel) (buf, d) (k, origin) (buf', d') ∧
      dg :: rest = qs ++ more ∧ UdpGot.Brings ⟨buf, k, origin, buf'⟩ dg ∧
      (d'.bus.socks n).arrived = (d.bus.socks n).arrived ++ encAll more ++ (d'.bus.socks n).queue ∧
      UdpRun sched faults n u0 c0 log (got ++ [⟨buf, k, origin, buf'⟩]) u d'.bus ∧ P (d'.bus.socks n) ∧
      (d'.bus.socks n).packets = (d.bus.socks n).packets ∧ (∀ x ∈ dg :: rest, x.Wf) ∧
      d'.bus.Ample sched n buf.length :=
  udp_await hn hf hP hsr (waits_ticks hw hm hd) (fun _ h => h.1.fits) (fun _ h => h.2) ho hr hPd hI qs hq buf hb

/-- Waiting for a datagram, if something waits and is announced, or a datagram comes that fits beside what waits. -/
theorem udp_waken {n : Nat} (hn : n < 8) (hf : ∀ i, faults i = none) {P : Sock → Prop} (hP : Firm sched n P)
    (hsr : ∀ s, P s → s.sr = 0x22)
    {u0 u : UdpSocket} {c0 : Chip} {log : List UdpSent} {got : List UdpGot} {d : Device Chip H}
    (ho : UdpOpened sched0 faults0 n u0 c0) (hr : UdpRun sched faults n u0 c0 log got u d.bus) (hPd : P (d.bus.socks n))
    (hw : (d.bus.socks n).Wakes sched n d.bus.clock)
    (qs : List Dgram) (hq : (d.bus.socks n).Queued qs) (buf : List U8) (hb : d.bus.Ample sched n buf.length) :
    ∃ (k : Nat) (origin : SockAddr) (buf' : List U8) (d' : Device Chip H) (dg : Dgram) (rest more : List Dgram),
      Succeeds (fun fuel => nbBlock (Device.udpReceive (Chip.dev sched faults).bus fuel u) fuel) (buf, d) (k, origin) (buf', d') ∧
      dg :: rest = qs ++ more ∧ UdpGot.Brings ⟨buf, k, origin, buf'⟩ dg ∧
      (d'.bus.socks n).arrived = (d.bus.socks n).arrived ++ encAll more ++ (d'.bus.socks n).queue ∧
      UdpRun sched faults n u0 c0 log (got ++ [⟨buf, k, origin, buf'⟩]) u d'.bus ∧ P (d'.bus.socks n) ∧
      (d'.bus.socks n).packets = (d.bus.socks n).packets ∧ (∀ x ∈ dg :: rest, x.Wf) ∧
      d'.bus.Ample sched n buf.length := by
  obtain ⟨A, h0⟩ := opened_inv hn ho
  obtain ⟨_, _, sent, ds, _, _, hi⟩ := udpRun_inv hn h0 hr
  have hfit := hi.idle.rx.core.rxFits
  rcases hw with ⟨h1, h2⟩ | ⟨k, dg, h1, h2, h3, h4⟩
  · have hst : StableS (fun s => RxFits s ∧ Ripe s) := fun s a h => ⟨(act_rxFits h.1 a).1, ripe_act h.1 h.2 a⟩
    exact udp_await hn hf hP hsr (hst.stays (n := n)).ticks (l := 0) (fun _ h => h.1) (fun _ h _ => h.2) ho hr hPd ⟨hfit, h1, by
      rw [← Sock.queue_length]
      exact Nat.pos_of_ne_zero fun e => h2 (List.length_eq_zero_iff.mp e)⟩ qs hq buf hb
  · exact udp_wait hn hf hP hsr h3 (Nat.le_refl _) h2 ho hr hPd
      ⟨⟨hi.idle.base.mode, hfit, .inr h4⟩, fun h => by omega⟩ qs hq buf hb

/-- C97, UDP, partial. After a `bind` or `connect` and any calls, on a chip whose transfers do not fail, with the socket open,
datagrams of at most `m` bytes coming, and a buffer that is large enough for their payloads: if something waits and is announced, or the RX buffer has
room for `m` bytes, the loop ends with the oldest datagram; if none was queued, with the first that arrives. Missing: the case that
something waits, is not announced, and leaves no room for `m` bytes; see `C97_refuted`. -/
theorem C97_udp_partial {n : Nat} (hn : n < 8) (hf : ∀ i, faults i = none) (hs : StatusIn sched n (· = 0x22)) (m : Nat)
    (hoff : Offered sched n m) {u0 u : UdpSocket} {c0 : Chip} {log : List UdpSent} {got : List UdpGot} {d : Device Chip H}
    (ho : UdpOpened sched0 faults0 n u0 c0) (hr : UdpRun sched faults n u0 c0 log got u d.bus) (hsr : (d.bus.socks n).sr = 0x22)
    (hroom : ((d.bus.socks n).Announced ∧ (d.bus.socks n).queue ≠ []) ∨ (d.bus.socks n).rsr.toNat + m ≤ (d.bus.socks n).rxSize)
    (qs : List Dgram) (hq : (d.bus.socks n).Queued qs) (buf : List U8) (hb : d.bus.Ample sched n buf.length) :
    ∃ (k : Nat) (origin : SockAddr) (buf' : List U8) (d' : Device Chip H) (dg : Dgram) (rest more : List Dgram),
      Succeeds (fun fuel => nbBlock (Device.udpReceive (Chip.dev sched faults).bus fuel u) fuel) (buf, d) (k, origin) (buf', d') ∧
      dg :: rest = qs ++ more ∧ UdpGot.Brings ⟨buf, k, origin, buf'⟩ dg ∧
      (d'.bus.socks n).arrived = (d.bus.socks n).arrived ++ encAll more ++ (d'.bus.socks n).queue ∧
      UdpRun sched faults n u0 c0 log (got ++ [⟨buf, k, origin, buf'⟩]) u d'.bus ∧ (d'.bus.socks n).sr = 0x22 := by
  obtain ⟨A, h0⟩ := opened_inv hn ho
  obtain ⟨_, _, sent, ds, _, _, hi⟩ := udpRun_inv hn h0 hr
  obtain ⟨l, hl, dg, hw, hm, hd⟩ := hoff d.bus.clock
  have hroom : Ripe (d.bus.socks n) ∨ (d.bus.socks n).rsr.toNat + m ≤ (d.bus.socks n).rxSize := hroom.imp_left fun h => ⟨h.1, by
    rw [← Sock.queue_length]
    exact Nat.pos_of_ne_zero fun e => h.2 (List.length_eq_zero_iff.mp e)⟩
  obtain ⟨k, o, b, d', dg', rest, more, g1, g2, g3, g4, g5, g6, _⟩ := udp_wait hn hf (firm_sr hs) (fun _ h => h) hw hm hd ho hr hsr
    ⟨⟨hi.idle.base.mode, hi.idle.rx.core.rxFits, hroom⟩, fun h => by omega⟩ qs hq buf hb
  exact ⟨k, o, b, d', dg', rest, more, g1, g2, g3, g4, g5, g6⟩

/-- If neither is the case, the loop does not end with a datagram. -/
theorem udp_asleep {n : Nat} (hn : n < 8) (hp : OnlyForPackets sched n) {u0 u : UdpSocket} {c0 : Chip} {log : List UdpSent}
    {got : List UdpGot} {d : Device Chip H} (ho : UdpOpened sched0 faults0 n u0 c0) (hr : UdpRun sched faults n u0 c0 log got u d.bus)
    (hw : ¬ (d.bus.socks n).Wakes sched n d.bus.clock) (f : Nat) (buf : List U8) (x : Nat × SockAddr) (s' : List U8 × Device Chip H) :
    nbBlock (Device.udpReceive (Chip.dev sched faults).bus f u) f (buf, d) ≠ (.ok x, s') := by
  obtain ⟨A, h0⟩ := opened_inv hn ho
  obtain ⟨hu, _, sent, ds, _, _, hi⟩ := udpRun_inv hn h0 hr
  have hfit := hi.idle.rx.core.rxFits
  unfold Wakes at hw
  have hshut : ∀ k dg, d.bus.clock ≤ k → (n, .datagram dg) ∈ sched k → dg.Wf →
      (d.bus.socks n).rxSize < (d.bus.socks n).rsr.toNat + dg.encode.length := fun k dg h1 h2 h3 =>
    Nat.lt_of_not_le fun h4 => hw (.inr ⟨k, dg, h1, h2, h3, h4⟩)
  by_cases he : (d.bus.socks n).queue = []
  · have hz : (d.bus.socks n).rsr.toNat = 0 := by rw [← Sock.queue_length, he]; rfl
    refine udp_block_barren (faults := faults) hn u hu f f buf d (Nat.le_refl _)
      ⟨hi.idle.base.mode, hfit, fun k dg h1 h2 h3 => ?_, hz⟩ hi x s'
    have := hshut k dg h1 h2 h3
    omega
  · exact (C97_jam hn hp ho hr ⟨fun h => hw (.inl ⟨h, he⟩), hshut⟩).2 f f buf x s'

/-- C97, UDP, exactly. In such a state, with RECV raised for packets only: the loop ends if and only if something waits and is
announced, or a datagram comes that fits beside what waits. -/
theorem C97_udp_exact {n : Nat} (hn : n < 8) (hf : ∀ i, faults i = none) (hs : StatusIn sched n (· = 0x22))
    (hp : OnlyForPackets sched n) {u0 u : UdpSocket} {c0 : Chip} {log : List UdpSent} {got : List UdpGot} {d : Device Chip H}
    (ho : UdpOpened sched0 faults0 n u0 c0) (hr : UdpRun sched faults n u0 c0 log got u d.bus) (hsr : (d.bus.socks n).sr = 0x22)
    (buf : List U8) (hb : d.bus.Ample sched n buf.length) :
    (∃ x s', Succeeds (fun fuel => nbBlock (Device.udpReceive (Chip.dev sched faults).bus fuel u) fuel) (buf, d) x s') ↔
      (d.bus.socks n).Wakes sched n d.bus.clock := by
  constructor
  · intro ⟨x, s', _, N, hN⟩
    exact Classical.byContradiction fun hw => udp_asleep hn hp ho hr hw N buf x s' (hN N (Nat.le_refl _))
  · intro hw
    obtain ⟨qs, hq⟩ := queued_always hn ho hr
    obtain ⟨k, o, b, d', _, _, _, g, _⟩ := udp_waken hn hf (firm_sr hs) (fun _ h => h) ho hr hsr hw qs hq buf hb
    exact ⟨_, _, g⟩

/-! ## Concrete cases -/

/-- A datagram that takes more than half of an RX buffer of 2 KiB. -/
def wideBytes : List U8 := List.replicate 1020 7
def wideDgram : Dgram := ⟨[10, 0, 0, 1], [0, 53], wideBytes⟩

/-- Datagram A comes once the socket is open, the large one before every SPI byte from the time on when A is being read. -/
def wideSched (k : Nat) : List (Nat × Act) :=
  if k = 9 then [(0, .datagram dgramA)] else if 20 ≤ k then [(0, .datagram wideDgram)] else []

theorem wide_mem {k : Nat} {a : Act} (h : (0, a) ∈ wideSched k) : k = 9 ∧ a = .datagram dgramA ∨ a = .datagram wideDgram := by
  unfold wideSched at h
  repeat' split at h
  · exact .inl ⟨‹_›, by simpa using h⟩
  · exact .inr (by simpa using h)
  · exact nomatch h

theorem wide_wf : wideDgram.Wf := ⟨rfl, rfl, by rw [wideDgram, wideBytes, List.length_replicate]; decide⟩

theorem wide_length : wideDgram.encode.length = 1028 := by
  rw [encode_length wide_wf, wideDgram, wideBytes, List.length_replicate]

def wideBound : UdpSocket × Device Chip Unit :=
  (Device.udpBind (Chip.dev wideSched noFaults).bus 5000 (demoUdp, demoDevice)).2

theorem wide_opened : UdpOpened wideSched noFaults 0 wideBound.1 wideBound.2.bus :=
  .bind (H := Unit) (u := demoUdp) (d := demoDevice) 5000 (.new _ powerUp_sizes) (run_eq (by decide +kernel))

def wideRead : Device Chip Unit :=
  (Device.udpReceive (Chip.dev wideSched noFaults).bus 9 wideBound.1 ([0, 0], wideBound.2)).2.2

theorem wide_read : Device.udpReceive (Chip.dev wideSched noFaults).bus 9 wideBound.1 ([0, 0], wideBound.2) =
    (.ok (2, .v4 addrA), ([7, 8], wideRead)) := by
  have h : (Device.udpReceive (Chip.dev wideSched noFaults).bus 9 wideBound.1 ([0, 0], wideBound.2)).1 = .ok (2, .v4 addrA) ∧
    (Device.udpReceive (Chip.dev wideSched noFaults).bus 9 wideBound.1 ([0, 0], wideBound.2)).2.1 = [7, 8] := by decide +kernel
  exact Prod.ext h.1 (Prod.ext h.2 rfl)

theorem wide_left : (wideRead.bus.socks 0).ir = 0 ∧ (wideRead.bus.socks 0).rsr = 1028 ∧ (wideRead.bus.socks 0).rxSize = 2048 ∧
    wideRead.bus.clock = 31 := by
  decide +kernel

theorem wide_offered : Offered wideSched 0 1028 := fun k =>
  ⟨k + 20, by omega, wideDgram, wide_wf, Nat.le_of_eq wide_length, by
    unfold wideSched; rw [if_neg (by omega), if_pos (by omega)]; simp⟩

theorem wide_packets : OnlyForPackets wideSched 0 := fun _ _ h => by rcases wide_mem h with ⟨_, h⟩ | h <;> exact nomatch h

theorem wide_shut : (wideRead.bus.socks 0).Shut wideSched 0 31 := by
  obtain ⟨h1, h2, h3, _⟩ := wide_left
  refine ⟨?_, fun k dg hk h _ => ?_⟩
  · unfold Announced
    rw [h1]
    decide
  · rcases wide_mem h with ⟨h, _⟩ | h
    · omega
    · cases h
      rw [h2, h3, wide_length]
      decide

/-- C97 is false of UDP: while the datagram A is delivered, a large one is stored, and its announcement cleared with that of A.
Another one like it comes before every SPI byte, and would fit into the RX buffer if that were empty, but not beside this one:
neither any number of further `receive` calls nor the loop delivers anything, whatever the buffers. -/
theorem C97_refuted :
    StatusIn wideSched 0 (· = 0x22) ∧ Offered wideSched 0 1028 ∧ OnlyForPackets wideSched 0 ∧
    UdpOpened wideSched noFaults 0 wideBound.1 wideBound.2.bus ∧
    Device.udpReceive (Chip.dev wideSched noFaults).bus 9 wideBound.1 ([0, 0], wideBound.2) = (.ok (2, .v4 addrA), ([7, 8], wideRead)) ∧
    (wideRead.bus.socks 0).rxSize = 2048 ∧ (wideRead.bus.socks 0).queue ≠ [] ∧
    (∀ polls x, .ok x ∉ (udpPolls (Chip.dev wideSched noFaults).bus wideBound.1 polls wideRead).1) ∧
    ∀ f r buf x s', nbBlock (Device.udpReceive (Chip.dev wideSched noFaults).bus f wideBound.1) r (buf, wideRead) ≠ (.ok x, s') := by
  have := C97_jam (n := 0) (by decide) wide_packets wide_opened (.receive 9 [0, 0] [7, 8] 2 (.v4 addrA) .start wide_read)
    (by rw [wide_left.2.2.2]; exact wide_shut)
  refine ⟨fun k x h => ?_, wide_offered, wide_packets, wide_opened, wide_read, wide_left.2.2.1, fun h => ?_,
    fun polls => (this.1 polls).1, this.2⟩
  · rcases wide_mem h with ⟨_, h⟩ | h <;> exact nomatch h
  · have := congrArg List.length h
    rw [Sock.queue_length, wide_left.2.1] at this
    exact absurd this (by decide)

/-- A datagram and a frame come before every fiftieth SPI byte. -/
def trickleSched (k : Nat) : List (Nat × Act) := if k % 50 = 0 then [(0, .datagram dgramA), (0, .frame [1, 2, 3])] else []

theorem trickle_mem {k : Nat} {a : Act} (h : (0, a) ∈ trickleSched k) : a = .datagram dgramA ∨ a = .frame [1, 2, 3] := by
  unfold trickleSched at h
  split at h
  · simpa using h
  · exact nomatch h

def trickleBound : UdpSocket × Device Chip Unit :=
  (Device.udpBind (Chip.dev trickleSched noFaults).bus 5000 (demoUdp, demoDevice)).2

theorem trickle_opened : UdpOpened trickleSched noFaults 0 trickleBound.1 trickleBound.2.bus :=
  .bind (H := Unit) (u := demoUdp) (d := demoDevice) 5000 (.new _ powerUp_sizes) (run_eq (by decide +kernel))

theorem trickle_bound : (trickleBound.2.bus.socks 0).ir = 0 ∧ (trickleBound.2.bus.socks 0).rsr = 0 ∧
    (trickleBound.2.bus.socks 0).rxSize = 2048 ∧ (trickleBound.2.bus.socks 0).sr = 0x22 := by
  decide +kernel

/-- Two bytes are enough for these datagrams. -/
theorem trickle_ample : trickleBound.2.bus.Ample trickleSched 0 2 :=
  ample_empty (List.length_eq_zero_iff.mp (by rw [Sock.queue_length, trickle_bound.2.1]; rfl)) (by decide) fun k dg _ h _ _ => by
    rcases trickle_mem h with h | h <;> cases h
    decide

/-- C97_udp_partial: nothing is there at first; the loop delivers a datagram. -/
example : ∃ k origin buf' d', Succeeds (fun fuel =>
    nbBlock (Device.udpReceive (Chip.dev trickleSched noFaults).bus fuel trickleBound.1) fuel) ([0, 0], trickleBound.2)
    (k, origin) (buf', d') := by
  obtain ⟨h1, h2, h3, h4⟩ := trickle_bound
  obtain ⟨qs, hq⟩ := queued_always (sched := trickleSched) (faults := noFaults) (by decide) trickle_opened .start
  obtain ⟨k, o, b, d, _, _, _, h, _⟩ := C97_udp_partial (n := 0) (by decide) (fun _ => rfl) (fun k x h => by
      rcases trickle_mem h with h | h <;> exact nomatch h) 10
    (fun k => ⟨50 * (k + 1), by omega, dgramA, by decide, by decide, by unfold trickleSched; rw [if_pos (by omega)]; simp⟩)
    trickle_opened .start h4 (.inr (by rw [h2, h3]; decide)) qs hq [0, 0] trickle_ample
  exact ⟨k, o, b, d, h⟩

/-- C97_udp_exact: the loop ends here ... -/
example : ∃ x s', Succeeds (fun fuel =>
    nbBlock (Device.udpReceive (Chip.dev trickleSched noFaults).bus fuel trickleBound.1) fuel) ([0, 0], trickleBound.2)
    x s' := by
  obtain ⟨h1, h2, h3, h4⟩ := trickle_bound
  exact (C97_udp_exact (n := 0) (by decide) (fun _ => rfl) (fun k x h => by rcases trickle_mem h with h | h <;> exact nomatch h)
    (fun k x h => by rcases trickle_mem h with h | h <;> exact nomatch h) trickle_opened .start h4 [0, 0]
    trickle_ample).mpr
    (.inr ⟨50 * (trickleBound.2.bus.clock + 1), dgramA, by omega, by unfold trickleSched; rw [if_pos (by omega)]; simp, by decide,
      by rw [h2, h3]; decide⟩)

/-- ... and not after the call in `C97_refuted`. -/
example : ¬ ∃ x s', Succeeds (fun fuel =>
    nbBlock (Device.udpReceive (Chip.dev wideSched noFaults).bus fuel wideBound.1) fuel) (List.replicate 2048 0, wideRead) x s' := by
  have hs := wide_shut
  intro h
  rcases (C97_udp_exact (n := 0) (by decide) (fun _ => rfl) (fun k x h => by rcases wide_mem h with ⟨_, h⟩ | h <;> exact nomatch h)
    wide_packets wide_opened (.receive 9 [0, 0] [7, 8] 2 (.v4 addrA) .start wide_read) (by decide +kernel) (List.replicate 2048 0)
    (ample_size (by decide) wide_opened (.receive 9 [0, 0] [7, 8] 2 (.v4 addrA) .start wide_read)
      (by rw [wide_left.2.2.1, List.length_replicate]; decide))).mp h with h | ⟨k, dg, h1, h2, h3, h4⟩
  · exact hs.1 h.1
  · rw [wide_left.2.2.2] at h1
    have := hs.2 k dg h1 h2 h3
    omega

/-- The first call of this loop returns `WouldBlock`. -/
example : (Device.udpReceive (Chip.dev trickleSched noFaults).bus 9 trickleBound.1 ([0, 0], trickleBound.2)).1 = .err .wouldBlock := by
  decide +kernel

def trickleChip : Chip := (RawDevice.new (Chip.dev trickleSched noFaults).bus Chip.powerUp).2

theorem trickle_raw : RawOpened trickleSched noFaults rawDemo trickleChip := .new (run_eq (by decide +kernel))

theorem trickle_chip : (trickleChip.socks 0).rsr = 0 ∧ (trickleChip.socks 0).rxSize = 16384 := by decide +kernel

/-- C97_raw: nothing is there at first; the loop delivers a frame. -/
example : ∃ k buf' c', Succeeds (fun fuel => untilSome (rawDemo.readFrame (Chip.dev trickleSched noFaults).bus fuel) fuel)
    ([0, 0], trickleChip) k (buf', c') := by
  obtain ⟨h1, h2⟩ := trickle_chip
  obtain ⟨k, b, c, _, _, _, h, _⟩ := C97_raw (sched := trickleSched) (faults := noFaults) (fun _ => rfl) trickle_raw .start 5 (by rw [h2]; decide)
    (fun k => ⟨50 * (k + 1), by omega, [1, 2, 3], by decide, by unfold trickleSched; rw [if_pos (by omega)]; simp⟩)
    (fun k h => by rcases trickle_mem h with h | h <;> exact nomatch h) [] ⟨nofun, by unfold Sock.queue; rw [h1]; rfl⟩ nofun [0, 0] nofun
  exact ⟨k, b, c, h⟩

/-- The first call of this loop brings nothing. -/
example : (rawDemo.readFrame (Chip.dev trickleSched noFaults).bus 9 ([0, 0], trickleChip)).1 = .ok 0 := by decide +kernel

end W5500.Props
