import Verif.Props.Pace
import Verif.Proofs.System
import Verif.Proofs.Watch
/-! # A program that looks for datagrams again and again

C120 A program that looks for datagrams on a UDP socket often enough, whatever else it does, gets every one, once and in order: when a call
has returned, it has got exactly what has come. In particular a program that looks at several sockets in turn gets all that comes to any of
them. -/

namespace W5500.Props
open W5500.Spec Sock
variable {E H : Type} {sched : Nat → List (Nat × Act)} {faults : Nat → Option (E × Nat)}
  {sched0 : Nat → List (Nat × Act)} {faults0 : Nat → Option (E × Nat)}

theorem got_snoc {got : List UdpGot} {ds : List Dgram} {g : UdpGot} {dg : Dgram} (h : UdpGot.All got ds) (hg : g.Brings dg) :
    UdpGot.All (got ++ [g]) (ds ++ [dg]) := by
  induction h with
  | nil => exact .cons hg .nil
  | cons h1 _ ih => exact .cons h1 ih

/-- What can be received: well formed, and it fits into the RX buffer of `z` and the program's of `m` bytes. -/
def Handy (z m : Nat) (dg : Dgram) : Prop := dg.Wf ∧ dg.encode.length ≤ z ∧ dg.payload.length ≤ m

theorem handy_fits {z m : Nat} (dg : Dgram) (h : Handy z m dg) : dg.Wf ∧ dg.encode.length ≤ z := ⟨h.1, h.2.1⟩

/-- Once something has come, exactly that waits. -/
theorem timed_queue {n : Nat} {t a q z : Nat} {X Y bs : List U8} {c : Chip} (h : Timed n 2 t a q z X bs c) (h1 : a < c.clock)
    (h2 : c.clock ≤ q) (hc : RxCore Y (c.socks n)) : (c.socks n).queue = bs ∧ X = Y := by
  obtain ⟨k1, k2, _⟩ := h.after h1 h2
  have e : X ++ bs = Y ++ (c.socks n).queue := k1.symm.trans hc.arrived
  have hl : bs.length = (c.socks n).queue.length := by rw [Sock.queue_length, k2]
  obtain ⟨e1, e2⟩ := List.append_inj' e hl
  exact ⟨e2.symm, e1⟩

/-- A call that returns `Ok`: what had come is delivered, and nothing waits or is announced. -/
theorem call_ok {n : Nat} (hn : n < 8) (hf : ∀ i, faults i = none) {u0 u : UdpSocket} {c0 : Chip} {log : List UdpSent} {got : List UdpGot}
    {d d' : Device Chip H} (ho : UdpOpened sched0 faults0 n u0 c0) (hr : UdpRun sched faults n u0 c0 log got u d.bus) {buf buf' : List U8}
    {t a q z : Nat} {X bs : List U8} (hag : Agenda sched n t a q (Handy z buf.length) bs) (hd : Timed n 2 t a q z X bs d.bus)
    (hk : d.bus.clock + (buf.length + 20) ≤ q) {fuel k : Nat} {origin : SockAddr}
    (h : Device.udpReceive (Chip.dev sched faults).bus fuel u (buf, d) = (.ok (k, origin), (buf', d'))) :
    (∃ dg, news n (sched a) = [.datagram dg] ∧ UdpGot.Brings ⟨buf, k, origin, buf'⟩ dg) ∧ (d'.bus.socks n).queue = [] ∧
      ¬ (d'.bus.socks n).Announced ∧ a < d'.bus.clock ∧ d'.bus.clock ≤ d.bus.clock + (buf.length + 20) ∧
      d.bus.clock + 2 ≤ d'.bus.clock ∧ ∀ k, a < k → k < d'.bus.clock → news n (sched k) = [] := by
  obtain ⟨A, h0⟩ := opened_inv hn ho
  obtain ⟨hu, _, sent, ds, _, _, hi⟩ := udpRun_inv hn h0 hr
  have hT := agenda_ticks (X := X) handy_fits hag
  obtain ⟨_, _, h2⟩ := hag
  have h3 : ∀ k, a < k → k < q → news n (sched k) = [] := by
    rcases h2 with h2 | ⟨dg, _, _, _, h⟩
    · exact fun k _ _ => by omega
    · exact h
  obtain ⟨k1, k2, k3, k4⟩ := due_receive hn hf hu hT h3 hd hk h
  obtain ⟨dg, rfl, hfit, hnews, _⟩ := h2.resolve_left (by omega)
  obtain ⟨qs, hq⟩ := queued_always hn ho hr
  obtain ⟨hdr, dg', rest, more, e1, e2, e3, e4⟩ := received hn ho hr fuel buf buf' k origin h qs hq
  have hb : UdpGot.Brings ⟨buf, k, origin, buf'⟩ dg' := ⟨⟨hdr.origin, e3, e2.origin⟩, e2.payload, e2.fits, e2.keeps⟩
  have key : dg' = dg ∧ (d'.bus.socks n).queue = [] := by
    rcases Nat.lt_or_ge a d.bus.clock with hlt | hge
    · obtain ⟨g1, g2⟩ := timed_queue hd hlt (by omega) hi.idle.rx.core
      rw [k1, (hd.after hlt (by omega)).1, List.append_assoc] at e4
      have e5 := List.append_cancel_left ((List.append_nil _).trans e4)
      obtain ⟨e6, e7⟩ := List.append_eq_nil_iff.mp e5.symm
      have hm : more = [] := by
        cases more with
        | nil => rfl
        | cons x xs =>
          have := encode_length (e2.wf x (e1 ▸ List.mem_append_right _ (List.mem_cons_self ..)))
          rw [encAll_cons] at e6
          have := congrArg List.length e6
          rw [List.length_append, List.length_nil] at this
          omega
      rw [hm, List.append_nil] at e1
      have e8 := hq.2
      rw [g1, ← e1, encAll_cons] at e8
      exact ⟨(encode_inj (s := []) hfit.1 (e2.wf _ (List.mem_cons_self ..)) ((List.append_nil _).trans e8)).1.symm, e7⟩
    · obtain ⟨g1, g2, _⟩ := hd.before hge
      have hq0 : (d.bus.socks n).queue = [] := List.length_eq_zero_iff.mp (by rw [Sock.queue_length, g2])
      have hqs : qs = [] := by
        cases qs with
        | nil => rfl
        | cons x xs =>
          have := encode_length (hq.1 x (List.mem_cons_self ..))
          have e := congrArg List.length hq.2
          rw [hq0, encAll_cons, List.length_append, List.length_nil] at e
          omega
      subst hqs
      rw [List.nil_append] at e1
      rw [k1, g1, ← e1, List.append_assoc, encAll_cons, List.append_assoc] at e4
      have e4 := List.append_cancel_left e4
      obtain ⟨rfl, e5⟩ := encode_inj (s := []) hfit.1 (e2.wf _ (List.mem_cons_self ..)) ((List.append_nil _).trans e4)
      exact ⟨rfl, (List.append_eq_nil_iff.mp e5.symm).2⟩
  exact ⟨⟨dg, hnews, key.1 ▸ hb⟩, key.2, C77_udp_unannounced hn u hu fuel buf buf' d d' _ h, k2, k3, by omega, fun k q1 q2 => h3 k q1 (by omega)⟩

/-- A call ends, with `Ok` or `WouldBlock`. -/
theorem call_ends {n : Nat} (hn : n < 8) (hf : ∀ i, faults i = none) (hs : StatusIn sched n (· = 0x22)) {u0 u : UdpSocket} {c0 : Chip}
    {log : List UdpSent} {got : List UdpGot} {d : Device Chip H} (ho : UdpOpened sched0 faults0 n u0 c0)
    (hr : UdpRun sched faults n u0 c0 log got u d.bus) (hsr : (d.bus.socks n).sr = 0x22) {buf : List U8} (hb : buf ≠ [])
    {t a q z : Nat} {X bs : List U8} (hag : Agenda sched n t a q (Handy z buf.length) bs) (hd : Timed n 2 t a q z X bs d.bus)
    (hk : d.bus.clock + (buf.length + 20) ≤ q) :
    ∃ x buf' d' N, (∀ fuel, N ≤ fuel → Device.udpReceive (Chip.dev sched faults).bus fuel u (buf, d) = (x, (buf', d'))) ∧
      (x = .err .wouldBlock ∨ ∃ y, x = .ok y) ∧ (d'.bus.socks n).sr = 0x22 := by
  obtain ⟨A, h0⟩ := opened_inv hn ho
  obtain ⟨hu, _, sent, ds, _, _, hi⟩ := udpRun_inv hn h0 hr
  have hz : (d.bus.socks n).rxSize < 65536 := Nat.lt_of_le_of_lt (GoodSize.le hi.idle.rx.core.size) (by decide)
  obtain ⟨⟨x, buf', d2⟩, hx, N, hN⟩ := (C67_udp (sched := sched) (faults := faults) hn u hu d hz buf).2
  have hcall : Device.udpReceive (Chip.dev sched faults).bus N u (buf, d) = (x, (buf', d2)) := hN N (Nat.le_refl _)
  have key := HoareE.bind (firm_udpCall (sched := sched) (faults := faults) (firm_sr hs) hn hf (fun _ h => h) u hu N buf hb)
    (f := fun x => pure (x.1, SockAddr.v4 x.2.origin)) (Q' := fun _ s => At n (fun s => s.sr = 0x22) s.2)
    fun x => .pure fun _ h => h
  refine ⟨x, buf', d2, N, hN, ?_⟩
  rcases x with y | e | _ | _
  · exact ⟨.inr ⟨y, rfl⟩, key.ok (s := (buf, d.bus)) (s' := (buf', d2.bus)) ⟨rfl, hsr⟩ (onSockBus_run hcall)⟩
  · obtain ⟨rfl, h⟩ := key.err (s := (buf, d.bus)) (s' := (buf', d2.bus)) ⟨rfl, hsr⟩ (onSockBus_run hcall)
    exact ⟨.inl rfl, h⟩
  · exfalso
    obtain ⟨qs, hq⟩ := queued_always hn ho hr
    obtain ⟨dg', rest, more, e1, _, e3, later, e4⟩ := (C41_chip_partial hn ho hr N buf buf' .panic hcall qs hq).1 rfl
    obtain ⟨y, w, g1, g2, g3⟩ := (receive_panic (calm_bus _)).mp hcall
    have hm := (moves_recvHead (Chip.dev sched faults).bus N buf.length u).run d.bus
    rw [g1] at hm
    cases g3
    obtain ⟨k1, k2, k3⟩ := due_recvHead hn (agenda_ticks (X := X) handy_fits hag) hu hd (by omega) g1
    obtain ⟨dg, rfl, hfit, _⟩ := hag.2.2.resolve_left (by omega)
    have hC : Chip.Ticks sched (At n (RxCore (A ++ encAll ds))) := (stable_rxCore _).stays.ticks
    have k4 : RxCore _ (w.socks n) := hC.readsOnly hm hi.idle.rx.core
    have k5 := (timed_queue k1 k2 (by omega) k4).1
    rw [show Sock.queue (w.socks n) = _ from e4.2, List.cons_append, encAll_cons] at k5
    obtain ⟨rfl, _⟩ := encode_inj (t := []) (e4.1 _ (List.mem_cons_self ..)) hfit.1 (k5.trans (List.append_nil _).symm)
    have := hfit.2.2
    omega
  · exact absurd rfl hx

/-- Where a program stands that looks for datagrams. -/
structure Abreast {E : Type} (sched : Nat → List (Nat × Act)) (faults : Nat → Option (E × Nat)) (n z m T : Nat) (v0 : UdpSocket) (k0 : Chip)
    (got0 got : List UdpGot) (u : UdpSocket) (t : Nat) (c : Chip) : Prop where
  run : ∃ log, UdpRun sched faults n v0 k0 log (got0 ++ got) u c
  sr : (c.socks n).sr = 0x22
  since : T ≤ t
  all : UdpGot.All got (came sched n T (t - T))
  next : ∃ X, ∀ a q bs, Agenda sched n t a q (Handy z m) bs → Timed n 2 t a q z X bs c

/-- When nothing waits or is announced. -/
theorem abreast_now {n z m T : Nat} (hn : n < 8) {v0 u : UdpSocket} {k0 c : Chip} {log : List UdpSent} {got0 got : List UdpGot}
    (ho : UdpOpened sched0 faults0 n v0 k0) (hr : UdpRun sched faults n v0 k0 log (got0 ++ got) u c) (hsr : (c.socks n).sr = 0x22)
    (hz : (c.socks n).rxSize = z) (hq : (c.socks n).queue = []) (hir : ¬ (c.socks n).Announced) (hT : T ≤ c.clock)
    (hall : UdpGot.All got (came sched n T (c.clock - T))) : Abreast sched faults n z m T v0 k0 got0 got u c.clock c := by
  obtain ⟨A, h0⟩ := opened_inv hn ho
  obtain ⟨hu, _, sent, ds, _, _, hi⟩ := udpRun_inv hn h0 hr
  refine ⟨⟨log, hr⟩, hsr, hT, hall, (c.socks n).arrived, fun a q bs hag => ⟨Nat.le_refl _, hi.idle.base.mode, hz, hi.idle.rx.core.rxFits,
    fun _ => ⟨rfl, by rw [← Sock.queue_length, hq]; rfl, hir⟩, fun h => absurd hag.1 (by omega)⟩⟩

/-- A call of a program that has kept abreast: it ends in time, ... -/
theorem abreast_ends {n z m T G gap : Nat} (hn : n < 8) (hf : ∀ i, faults i = none) (hs : StatusIn sched n (· = 0x22)) (hm : 0 < m)
    {v0 u : UdpSocket} {k0 : Chip} {got0 got : List UdpGot} {t : Nat} {d : Device Chip H} (ho : UdpOpened sched0 faults0 n v0 k0)
    (hsp : Spaced sched n gap T (Handy z m)) (hgap : G + (m + 20) ≤ gap) (hG : d.bus.clock ≤ t + G)
    (h : Abreast sched faults n z m T v0 k0 got0 got u t d.bus) {buf : List U8} (hl : buf.length = m) :
    ∃ x buf' d' N, (∀ fuel, N ≤ fuel → Device.udpReceive (Chip.dev sched faults).bus fuel u (buf, d) = (x, (buf', d'))) ∧
      (x = .err .wouldBlock ∨ ∃ y, x = .ok y) := by
  obtain ⟨⟨log, hr⟩, hsr, hT, hall, X, hnext⟩ := h
  obtain ⟨a, q, bs, hag, hq⟩ := agenda hsp hT hgap
  subst hl
  obtain ⟨x, buf', d', N, h1, h2, _⟩ := call_ends hn hf hs ho hr hsr (fun e => by rw [e] at hm; exact absurd hm (by decide)) hag
    (hnext a q bs hag) (by omega)
  exact ⟨x, buf', d', N, h1, h2⟩

/-- ... and it still does, if the call returns `WouldBlock`, ... -/
theorem abreast_none {n z m T G gap : Nat} (hn : n < 8) (hs : StatusIn sched n (· = 0x22)) (hm : 0 < m)
    {v0 u : UdpSocket} {k0 : Chip} {got0 got : List UdpGot} {t : Nat} {d d' : Device Chip H} (ho : UdpOpened sched0 faults0 n v0 k0)
    (hsp : Spaced sched n gap T (Handy z m)) (hgap : G + (m + 20) ≤ gap) (hG : d.bus.clock ≤ t + G)
    (h : Abreast sched faults n z m T v0 k0 got0 got u t d.bus) {buf buf' : List U8} (hl : buf.length = m) {fuel : Nat}
    (hcall : Device.udpReceive (Chip.dev sched faults).bus fuel u (buf, d) = (.err .wouldBlock, (buf', d'))) :
    d'.bus.clock = d.bus.clock + 2 ∧ Abreast sched faults n z m T v0 k0 got0 got u d'.bus.clock d'.bus := by
  obtain ⟨⟨log, hr⟩, hsr, hT, hall, X, hnext⟩ := h
  obtain ⟨a, q, bs, hag, hq⟩ := agenda hsp hT hgap
  have hd := hnext a q bs hag
  have hst := hd.start
  subst hl
  obtain ⟨A, h0⟩ := opened_inv hn ho
  obtain ⟨hu, _⟩ := udpRun_inv hn h0 hr
  have hbs : q ≤ a ∨ bs ≠ [] := hag.2.2.imp_right fun ⟨dg, e, hw, _⟩ => fun e' => by
    have := encode_length hw.1
    rw [← e, e', List.length_nil] at this
    omega
  obtain ⟨rfl, k1, k2, k3⟩ := due_polls hn (agenda_ticks (X := X) handy_fits hag) hbs hu hd (by omega) hcall
  have hrd : StableS fun s => s.rxRdReg = (d.bus.socks n).rxRdReg := fun s a h => (act_rxRdReg s a).trans h
  obtain ⟨_, hrd, _⟩ := would_block_reads hn (hrd.stays.ticks (n := n)) hu rfl hcall
  obtain ⟨_, hsr', _⟩ := would_block_reads (I := fun c => (c.socks n).sr = 0x22) hn (stays_sr hs).ticks hu hsr hcall
  refine ⟨k3, ⟨log, .failedReceive fuel _ _ _ hr hcall (fun _ => nofun) hrd⟩, hsr', by omega, ?_, X, fun a' q' bs' hag' => ?_⟩
  · obtain ⟨more, e1, e2, _⟩ := came_more (sched := sched) (n := n) hT (show t ≤ d'.bus.clock by omega)
    rw [e1, e2 fun k q1 q2 => hag.2.1 k q1 (by omega), List.append_nil]
    exact hall
  · obtain ⟨b1, b2, b3⟩ := k1.before k2
    exact ⟨Nat.le_refl _, k1.proto, k1.size, k1.fits, fun _ => ⟨b1, b2, b3⟩, fun h => absurd hag'.1 (by omega)⟩

/-- ... or `Ok`. -/
theorem abreast_some {n z m T G gap : Nat} (hn : n < 8) (hf : ∀ i, faults i = none) (hs : StatusIn sched n (· = 0x22)) (hm : 0 < m)
    {v0 u : UdpSocket} {k0 : Chip} {got0 got : List UdpGot} {t : Nat} {d d' : Device Chip H} (ho : UdpOpened sched0 faults0 n v0 k0)
    (hsp : Spaced sched n gap T (Handy z m)) (hgap : G + (m + 20) ≤ gap) (hG : d.bus.clock ≤ t + G)
    (h : Abreast sched faults n z m T v0 k0 got0 got u t d.bus) {buf buf' : List U8} (hl : buf.length = m) {fuel k : Nat} {origin : SockAddr}
    (hcall : Device.udpReceive (Chip.dev sched faults).bus fuel u (buf, d) = (.ok (k, origin), (buf', d'))) :
    d.bus.clock + 2 ≤ d'.bus.clock ∧ d'.bus.clock ≤ d.bus.clock + (m + 20) ∧
      Abreast sched faults n z m T v0 k0 got0 (got ++ [⟨buf, k, origin, buf'⟩]) u d'.bus.clock d'.bus := by
  obtain ⟨⟨log, hr⟩, hsr, hT, hall, X, hnext⟩ := h
  obtain ⟨a, q, bs, hag, hq⟩ := agenda hsp hT hgap
  have hd := hnext a q bs hag
  have hat := hag.1
  subst hl
  obtain ⟨A, h0⟩ := opened_inv hn ho
  obtain ⟨hu, _⟩ := udpRun_inv hn h0 hr
  obtain ⟨⟨dg, g1, g2⟩, g3, g4, g5, g6, hlo, g7⟩ := call_ok hn hf ho hr hag hd (by omega) hcall
  have hmv := (moves_deviceUdpReceive (B := (Chip.dev sched faults).bus) (H := H) fuel u).run (buf, d)
  rw [hcall, hu] at hmv
  have hz : (d'.bus.socks n).rxSize = z := by
    have e1 := reach_regs hn (fun a => a = 0x1E) (by decide) (by decide) hmv 0x1E rfl
    rw [← hd.size]
    unfold Sock.rxSize
    dsimp only at e1
    rw [e1]
  have key := HoareE.bind (firm_udpCall (sched := sched) (faults := faults) (firm_sr hs) hn hf (fun _ h => h) u hu fuel buf
      (fun e => by rw [e] at hm; exact absurd hm (by decide)))
    (f := fun x => pure (x.1, SockAddr.v4 x.2.origin)) (Q' := fun _ s => At n (fun s => s.sr = 0x22) s.2)
    fun x => .pure fun _ h => h
  have h3 : (d'.bus.socks n).sr = 0x22 := key.ok (s := (buf, d.bus)) (s' := (buf', d'.bus)) ⟨rfl, hsr⟩ (onSockBus_run hcall)
  refine ⟨hlo, g6, ?_⟩
  have hr' := UdpRun.receive fuel buf buf' k origin hr hcall
  rw [List.append_assoc] at hr'
  refine abreast_now hn ho hr' h3 hz g3 g4 (by omega) ?_
  obtain ⟨more, e1, _, e3⟩ := came_more (sched := sched) (n := n) hT (show t ≤ d'.bus.clock by omega)
  rw [e1, e3 a dg hag.1 g5 (fun k q1 q2 q3 => (Nat.lt_or_ge k a).elim (hag.2.1 k q1) fun q4 => g7 k (by omega) q2) g1]
  exact got_snoc hall g2

/-- ... also in the meantime. -/
theorem abreast_meantime {n z m T : Nat} (hn : n < 8) (hf : ∀ i, faults i = none) (hs : StatusIn sched n (· = 0x22))
    {v0 u u' : UdpSocket} {k0 : Chip} {got0 got : List UdpGot} {t : Nat} {c c' : Chip} (ho : UdpOpened sched0 faults0 n v0 k0)
    (h : Abreast sched faults n z m T v0 k0 got0 got u t c) (hw : Meantime sched faults n u c u' c') :
    Abreast sched faults n z m T v0 k0 got0 got u' t c' := by
  obtain ⟨⟨log, hr⟩, hsr, hT, hall, X, hnext⟩ := h
  obtain ⟨A, h0⟩ := opened_inv hn ho
  obtain ⟨hu, _⟩ := udpRun_inv hn h0 hr
  refine ⟨?_, meantime_keeps (I := fun c => (c.socks n).sr = 0x22) hn hf (stays_sr hs).ticks (fun _ _ e _ h => e.sr.trans h) hu hw hsr, hT, hall, X,
    fun a q bs hag => meantime_keeps hn hf (agenda_ticks handy_fits hag) (fun _ _ e hk h => e.timed hk h) hu hw (hnext a q bs hag)⟩
  cases hw with
  | @send H u d d' fuel data h =>
    cases hd : u.destination with
    | none => exact ⟨log, .sendNowhere fuel data _ hr h hd⟩
    | some dst => exact ⟨_, .send fuel data dst hr h hd⟩
  | @sendTo H u u' d d' fuel dst data h => exact ⟨_, .sendTo fuel dst data hr h⟩
  | read u c b a d => exact ⟨log, .read b a d hr⟩
  | write u c b a d hfo => exact ⟨log, .write b a d hr hfo⟩

theorem watches_abreast {n m G gap : Nat} (hn : n < 8) (hf : ∀ i, faults i = none) (hs : StatusIn sched n (· = 0x22)) (hm : 0 < m)
    {v0 u0 u : UdpSocket} {k0 c0 c : Chip} {log : List UdpSent} {got0 got : List UdpGot} {t : Nat} (ho : UdpOpened sched0 faults0 n v0 k0)
    (hr : UdpRun sched faults n v0 k0 log got0 u0 c0) (hsr : (c0.socks n).sr = 0x22) (hq : (c0.socks n).queue = [])
    (hir : ¬ (c0.socks n).Announced) (hsp : Spaced sched n gap c0.clock (Handy (c0.socks n).rxSize m)) (hgap : G + (m + 20) ≤ gap)
    (h : Watches sched faults n m G u0 c0 got u t c) :
    Abreast sched faults n (c0.socks n).rxSize m c0.clock v0 k0 got0 got u t c := by
  induction h with
  | start => exact abreast_now hn ho (by rw [List.append_nil]; exact hr) hsr rfl hq hir (Nat.le_refl _) (by rw [Nat.sub_self]; exact .nil)
  | some fuel buf buf' k origin _ hG hl hcall ih => exact (abreast_some hn hf hs hm ho hsp hgap hG ih hl hcall).2.2
  | none fuel buf buf' _ hG hl hcall ih => exact (abreast_none hn hs hm ho hsp hgap hG ih hl hcall).2
  | meantime _ hw ih => exact abreast_meantime hn hf hs ho ih hw

/-- C120: after any calls on a socket that was opened, with nothing waiting or announced, on a chip whose transfers do not fail and on
which the socket stays open. A program calls `receive` with a buffer of `m > 0` bytes, again and again, at most `G` SPI bytes after the call
before, and in the meantime sends from the socket, and does anything that does not concern it. If nothing comes but datagrams that fit into
the RX buffer and into the program's, at least `G + m + 20` SPI bytes apart, then the program has got exactly the datagrams that came
until the last call ended (time `t`), each one once and in order; and the next call, if not too late, ends within `m + 20` SPI bytes, with `Ok` or
`WouldBlock`. -/
theorem C120 {n m G gap : Nat} (hn : n < 8) (hf : ∀ i, faults i = none) (hs : StatusIn sched n (· = 0x22)) (hm : 0 < m)
    {v0 u0 u : UdpSocket} {k0 c0 : Chip} {log : List UdpSent} {got0 got : List UdpGot} {t : Nat} {d : Device Chip H}
    (ho : UdpOpened sched0 faults0 n v0 k0)
    (hr : UdpRun sched faults n v0 k0 log got0 u0 c0) (hsr : (c0.socks n).sr = 0x22) (hq : (c0.socks n).queue = [])
    (hir : ¬ (c0.socks n).Announced)
    (hsp : Spaced sched n gap c0.clock fun dg => dg.Wf ∧ dg.encode.length ≤ (c0.socks n).rxSize ∧ dg.payload.length ≤ m)
    (hgap : G + (m + 20) ≤ gap) (h : Watches sched faults n m G u0 c0 got u t d.bus) :
    UdpGot.All got (came sched n c0.clock (t - c0.clock)) ∧
    (d.bus.clock ≤ t + G → ∀ buf : List U8, buf.length = m → ∃ (x : Res (NbError (UdpSocketError E)) (Nat × SockAddr)) (buf' : List U8)
      (d' : Device Chip H) (N : Nat),
      (∀ fuel, N ≤ fuel → Device.udpReceive (Chip.dev sched faults).bus fuel u (buf, d) = (x, (buf', d'))) ∧
      (x = .err .wouldBlock ∨ ∃ y, x = .ok y) ∧ d.bus.clock + 2 ≤ d'.bus.clock ∧ d'.bus.clock ≤ d.bus.clock + (m + 20)) := by
  have ha := watches_abreast hn hf hs hm ho hr hsr hq hir hsp hgap h
  refine ⟨ha.all, fun hG buf hl => ?_⟩
  obtain ⟨x, buf', d', N, h1, h2⟩ := abreast_ends hn hf hs hm ho hsp hgap hG ha hl
  refine ⟨x, buf', d', N, h1, h2, ?_⟩
  have hcall := h1 N (Nat.le_refl _)
  rcases h2 with rfl | ⟨⟨k, origin⟩, rfl⟩
  · have := (abreast_none hn hs hm ho hsp hgap hG ha hl hcall).1
    omega
  · have := abreast_some hn hf hs hm ho hsp hgap hG ha hl hcall
    exact ⟨this.1, this.2.1⟩

/-! ## Several sockets in turn -/

/-- A socket at which the program looks. -/
structure Stands {E : Type} (sched : Nat → List (Nat × Act)) (faults : Nat → Option (E × Nat)) (gap T : Nat) (p : Post) (got : List UdpGot)
    (t : Nat) (c : Chip) : Prop where
  valid : p.index < 8
  stays : StatusIn sched p.index (· = 0x22)
  room : 0 < p.buffer.length
  keeps : ∃ (sched0 : Nat → List (Nat × Act)) (faults0 : Nat → Option (E × Nat)) (z : Nat) (v0 : UdpSocket) (k0 : Chip)
    (got0 : List UdpGot), UdpOpened sched0 faults0 p.index v0 k0 ∧ Spaced sched p.index gap T (Handy z p.buffer.length) ∧
    Abreast sched faults p.index z p.buffer.length T v0 k0 got0 got p.socket t c

theorem stands_aside {gap T : Nat} (hf : ∀ i, faults i = none) {p : Post} {got : List UdpGot} {t : Nat} {c c' : Chip}
    (h : Stands sched faults gap T p got t c) (hr : Reach (Chip.dev sched faults).bus (Foreign p.index) c c') :
    Stands sched faults gap T p got t c' := by
  obtain ⟨hn, hs, hm, s0, f0, z, v0, k0, got0, ho, hsp, ha⟩ := h
  refine ⟨hn, hs, hm, s0, f0, z, v0, k0, got0, ho, hsp, hr.induct (I := fun c => Abreast sched faults p.index z _ T v0 k0 got0 got p.socket t c) ?_ ?_ ha⟩
  · exact fun w b a d hi => abreast_meantime hn hf hs ho hi (.read _ _ b a d)
  · exact fun w b a d hfo hi => abreast_meantime hn hf hs ho hi (.write _ _ b a d hfo)

theorem stands_poll {gap T G : Nat} (hf : ∀ i, faults i = none) {p : Post} {got : List UdpGot} {t : Nat} {d : Device Chip H}
    (h : Stands sched faults gap T p got t d.bus) (hgap : G + (p.buffer.length + 20) ≤ gap) (hG : d.bus.clock ≤ t + G) :
    ∃ x d' N, (∀ fuel, N ≤ fuel → poll (Chip.dev sched faults).bus fuel p.socket p.buffer d = (.ok x, d')) ∧
      d.bus.clock + 2 ≤ d'.bus.clock ∧ d'.bus.clock ≤ d.bus.clock + (p.buffer.length + 20) ∧
      Reach (Chip.dev sched faults).bus (SockFrames (sockOf p.index) udpRegs) d.bus d'.bus ∧
      Stands sched faults gap T p (got ++ x.toList) d'.bus.clock d'.bus := by
  obtain ⟨hn, hs, hm, s0, f0, z, v0, k0, got0, ho, hsp, ha⟩ := h
  obtain ⟨x, buf', d', N, h1, h2⟩ := abreast_ends hn hf hs hm ho hsp hgap hG ha rfl
  have hcall := h1 N (Nat.le_refl _)
  obtain ⟨log, hr⟩ := ha.run
  obtain ⟨A, h0⟩ := opened_inv hn ho
  obtain ⟨hu, _⟩ := udpRun_inv hn h0 hr
  have hmv := (moves_deviceUdpReceive (B := (Chip.dev sched faults).bus) (H := H) N p.socket).run (p.buffer, d)
  rw [hcall, hu] at hmv
  rcases h2 with rfl | ⟨⟨k, origin⟩, rfl⟩
  · obtain ⟨k1, k2⟩ := abreast_none hn hs hm ho hsp hgap hG ha rfl hcall
    refine ⟨none, d', N, fun fuel hfu => by unfold poll; rw [h1 fuel hfu], by omega, by omega, hmv, hn, hs, hm, s0, f0, z, v0, k0, got0, ho, hsp, ?_⟩
    rw [Option.toList_none, List.append_nil]
    exact k2
  · obtain ⟨k1, k2, k3⟩ := abreast_some hn hf hs hm ho hsp hgap hG ha rfl hcall
    exact ⟨some ⟨p.buffer, k, origin, buf'⟩, d', N, fun fuel hfu => by unfold poll; rw [h1 fuel hfu], k1, k2, hmv, hn, hs, hm, s0, f0, z, v0, k0, got0,
      ho, hsp, k3⟩

/-- One look at each of them. -/
theorem stands_turn {gap T G lo : Nat} (hf : ∀ i, faults i = none) {posts : List Post} {got : Nat → List UdpGot} {d : Device Chip H}
    (hne : posts.Pairwise fun p p' => p.index ≠ p'.index) (hgap : ∀ p ∈ posts, G + (p.buffer.length + 20) ≤ gap)
    (h : ∀ i (hi : i < posts.length), ∃ t, lo ≤ t ∧ Stands sched faults gap T posts[i] (got i) t d.bus)
    (hG : d.bus.clock + lookTime posts ≤ lo + G) :
    ∃ row d' N, (∀ fuel, N ≤ fuel → turn (Chip.dev sched faults).bus fuel (posts.map fun p => (p.socket, p.buffer)) d = (.ok row, d')) ∧
      d.bus.clock + 2 * posts.length ≤ d'.bus.clock ∧ d'.bus.clock ≤ d.bus.clock + lookTime posts ∧
      Reach (Chip.dev sched faults).bus (fun b a data => ∃ p ∈ posts, p.index < 8 ∧ SockFrames (sockOf p.index) udpRegs b a data) d.bus d'.bus ∧
      ∀ i (hi : i < posts.length), ∃ t, d.bus.clock ≤ t ∧ t ≤ d'.bus.clock ∧
        Stands sched faults gap T posts[i] (got i ++ (row[i]?.join).toList) t d'.bus := by
  induction posts generalizing got d with
  | nil => exact ⟨[], d, 0, fun _ _ => rfl, Nat.le_refl _, Nat.le_refl _, .refl _, fun i hi => absurd hi (by simp)⟩
  | cons p posts ih =>
    have hlook : lookTime (p :: posts) = (p.buffer.length + 20) + lookTime posts := rfl
    obtain ⟨hp, hne⟩ := List.pairwise_cons.mp hne
    obtain ⟨t0, ht0, hs0⟩ := h 0 (by simp)
    rw [List.getElem_cons_zero] at hs0
    obtain ⟨x, d1, N1, a1, a2, a3, a4, a5⟩ := stands_poll (G := G) hf hs0 (hgap p (List.mem_cons_self ..)) (by omega)
    have hn0 := hs0.valid
    have hstep : ∀ i (hi : i < posts.length), ∃ t, lo ≤ t ∧ Stands sched faults gap T posts[i] (got (i + 1)) t d1.bus := by
      intro i hi
      obtain ⟨t, k1, k2⟩ := h (i + 1) (by simpa using hi)
      exact ⟨t, k1, stands_aside hf k2 (a4.mono fun _ _ _ hfr => foreign_sock hn0 (hp _ (List.getElem_mem hi)) hfr)⟩
    obtain ⟨row, d2, N2, b1, b2, b3, b4, b5⟩ := ih hne (fun p hp => hgap p (List.mem_cons_of_mem _ hp)) hstep (by omega)
    refine ⟨x :: row, d2, max N1 N2, fun fuel hfu => ?_, by rw [List.length_cons]; omega, by omega, ?_, fun i hi => ?_⟩
    · rw [List.map_cons, turn]
      refine (M.bind_ok (a1 fuel (by omega))).trans ?_
      exact (M.bind_ok (b1 fuel (by omega))).trans rfl
    · refine Reach.trans (a4.mono fun _ _ _ hfr => ⟨p, List.mem_cons_self .., hn0, hfr⟩) (b4.mono ?_)
      rintro _ _ _ ⟨p', hp', hfr⟩
      exact ⟨p', List.mem_cons_of_mem _ hp', hfr⟩
    · cases i with
      | zero =>
        refine ⟨d1.bus.clock, by omega, by omega, stands_aside hf a5 (b4.mono ?_)⟩
        rintro _ _ _ ⟨p', hp', hn', hfr⟩
        exact foreign_sock hn' (fun e => hp p' hp' e.symm) hfr
      | succ i =>
        obtain ⟨t, k1, k2, k3⟩ := b5 i (by simpa using hi)
        exact ⟨t, by omega, k2, k3⟩

theorem column_cons (i : Nat) (row : List (Option UdpGot)) (rows : List (List (Option UdpGot))) :
    column i (row :: rows) = (row[i]?.join).toList ++ column i rows := by
  unfold column
  rw [List.filterMap_cons]
  cases row[i]?.join <;> rfl

/-- And again and again. -/
theorem stands_turns {gap T : Nat} (hf : ∀ i, faults i = none) {posts : List Post} (hne : posts.Pairwise fun p p' => p.index ≠ p'.index)
    (hgap : ∀ p ∈ posts, 2 * lookTime posts + (p.buffer.length + 20) ≤ gap) (rounds : Nat) {got : Nat → List UdpGot} {d : Device Chip H}
    (h : ∀ i (hi : i < posts.length), ∃ t, d.bus.clock ≤ t + lookTime posts ∧ t ≤ d.bus.clock ∧ Stands sched faults gap T posts[i] (got i) t d.bus) :
    ∃ results d' N, (∀ fuel, N ≤ fuel →
        turns (Chip.dev sched faults).bus (posts.map fun p => (p.socket, p.buffer)) rounds fuel d = (.ok results, d')) ∧
      d.bus.clock + 2 * posts.length * rounds ≤ d'.bus.clock ∧
      ∀ i (hi : i < posts.length), ∃ t, d'.bus.clock ≤ t + lookTime posts ∧ t ≤ d'.bus.clock ∧
        Stands sched faults gap T posts[i] (got i ++ column i results) t d'.bus := by
  induction rounds generalizing got d with
  | zero => exact ⟨[], d, 0, fun _ _ => rfl, by rw [Nat.mul_zero]; exact Nat.le_refl _, fun i hi => by
      obtain ⟨t, k1, k2, k3⟩ := h i hi
      exact ⟨t, k1, k2, by rw [show column i [] = [] from rfl, List.append_nil]; exact k3⟩⟩
  | succ rounds ih =>
    obtain ⟨row, d1, N1, a1, a2, a3, _, a5⟩ := stands_turn (G := 2 * lookTime posts) (lo := d.bus.clock - lookTime posts) hf hne hgap
      (fun i hi => (h i hi).imp fun t k => ⟨by omega, k.2.2⟩) (by omega)
    obtain ⟨results, d2, N2, b1, b2, b3⟩ := ih (got := fun i => got i ++ (row[i]?.join).toList) fun i hi => by
      obtain ⟨t, k1, k2, k3⟩ := a5 i hi
      exact ⟨t, by omega, k2, k3⟩
    refine ⟨row :: results, d2, max N1 N2, fun fuel hfu => ?_, ?_, fun i hi => ?_⟩
    · rw [turns]
      refine (M.bind_ok (a1 fuel (by omega))).trans ?_
      exact (M.bind_ok (b1 fuel (by omega))).trans rfl
    · rw [Nat.mul_succ]
      omega
    · obtain ⟨t, k1, k2, k3⟩ := b3 i hi
      refine ⟨t, k1, k2, ?_⟩
      rw [column_cons, ← List.append_assoc]
      exact k3

/-- C120, several sockets: after any calls on sockets that were opened, with nothing waiting or announced on them, on a chip whose
transfers do not fail and on which the sockets stay open. A program looks at each of them in turn, any number of times. If nothing comes to
them but datagrams that fit into the RX buffer of the socket and the program's buffer for it, those for the same socket at least two rounds
and one call apart, then all calls return `Ok` or `WouldBlock`, and on every socket the program has got exactly the datagrams that came until it
last looked, each one once and in order. -/
theorem C120_turns {gap : Nat} (hf : ∀ i, faults i = none) {posts : List Post} (hne : posts.Pairwise fun p p' => p.index ≠ p'.index)
    (hgap : ∀ p ∈ posts, 2 * lookTime posts + (p.buffer.length + 20) ≤ gap) {d : Device Chip H}
    (hp : ∀ p ∈ posts, p.index < 8 ∧ StatusIn sched p.index (· = 0x22) ∧ 0 < p.buffer.length ∧
      (∃ (sched0 : Nat → List (Nat × Act)) (faults0 : Nat → Option (E × Nat)) (v0 : UdpSocket) (k0 : Chip) (log : List UdpSent)
        (got : List UdpGot), UdpOpened sched0 faults0 p.index v0 k0 ∧ UdpRun sched faults p.index v0 k0 log got p.socket d.bus) ∧
      (d.bus.socks p.index).sr = 0x22 ∧ (d.bus.socks p.index).queue = [] ∧ ¬ (d.bus.socks p.index).Announced ∧
      Spaced sched p.index gap d.bus.clock fun dg =>
        dg.Wf ∧ dg.encode.length ≤ (d.bus.socks p.index).rxSize ∧ dg.payload.length ≤ p.buffer.length) (rounds : Nat) :
    ∃ (results : List (List (Option UdpGot))) (d' : Device Chip H),
      Succeeds (turns (Chip.dev sched faults).bus (posts.map fun p => (p.socket, p.buffer)) rounds) d results d' ∧
      d.bus.clock + 2 * posts.length * rounds ≤ d'.bus.clock ∧
      ∀ i (hi : i < posts.length), ∃ t, d'.bus.clock ≤ t + lookTime posts ∧ t ≤ d'.bus.clock ∧
        UdpGot.All (column i results) (came sched posts[i].index d.bus.clock (t - d.bus.clock)) := by
  obtain ⟨results, d', N, h1, h2, h3⟩ := stands_turns hf hne hgap rounds (got := fun _ => []) (T := d.bus.clock) (d := d) fun i hi => by
    obtain ⟨hn, hs, hm, ⟨s0, f0, v0, k0, log, got, ho, hr⟩, hsr, hq, hir, hsp⟩ := hp _ (List.getElem_mem hi)
    exact ⟨d.bus.clock, by omega, Nat.le_refl _, hn, hs, hm, s0, f0, _, v0, k0, got, ho, hsp,
      abreast_now hn ho (by rw [List.append_nil]; exact hr) hsr rfl hq hir (Nat.le_refl _) (by rw [Nat.sub_self]; exact .nil)⟩
  refine ⟨results, d', ⟨nofun, N, h1⟩, h2, fun i hi => ?_⟩
  obtain ⟨t, k1, k2, k3⟩ := h3 i hi
  obtain ⟨_, _, z, v0, k0, got0, _, _, ha⟩ := k3.keeps
  exact ⟨t, k1, k2, by rw [← List.nil_append (column i results)]; exact ha.all⟩

/-! ## Concrete cases -/

theorem steady_spaced (T : Nat) : Spaced steadySched 0 4096 T (Handy 2048 2) := fun k _ hk => by
  have h9 : k % 4096 = 9 := (Decidable.em _).elim id fun h => absurd (steady_quiet h) hk
  have e : k = 4096 * (k / 4096) + 9 := by omega
  refine ⟨⟨dgramA, by rw [e]; exact steady_news _, by decide, by decide, by decide⟩, fun j q1 q2 => steady_quiet (by omega)⟩

/-- C120 is not vacuous: of a program that never waits more than 4074 SPI bytes. -/
example {got : List UdpGot} {u : UdpSocket} {t : Nat} {d : Device Chip Unit}
    (h : Watches steadySched noFaults 0 2 4074 steadyBound.1 steadyBound.2.bus got u t d.bus) :
    UdpGot.All got (came steadySched 0 steadyBound.2.bus.clock (t - steadyBound.2.bus.clock)) := by
  obtain ⟨h1, h2, h3, h4, h5⟩ := steady_bound
  exact (C120 (n := 0) (H := Unit) (by decide) (fun _ => rfl) steady_status (by decide) steady_opened .start h1
    (List.length_eq_zero_iff.mp (by rw [Sock.queue_length, h5]; rfl)) (by unfold Announced; rw [h2]; decide)
    (by rw [h4]; exact steady_spaced _) (by decide) h).1

def steadyHeard : List U8 × Device Chip Unit :=
  (Device.udpReceive (Chip.dev steadySched noFaults).bus 10 steadyBound.1 ([0, 0], steadyBound.2)).2
def steadySent : UdpSocket × Device Chip Unit :=
  (Device.udpSendTo (Chip.dev steadySched noFaults).bus 100 (.v4 addrA) [1, 2, 3] (steadyBound.1, steadyHeard.2)).2
def steadyIdle : List U8 × Device Chip Unit :=
  (Device.udpReceive (Chip.dev steadySched noFaults).bus 10 steadySent.1 ([0, 0], steadySent.2)).2

/-- Such a program: the first call brings a datagram; it sends one, and the next call returns `WouldBlock`. -/
theorem steady_watches : Watches steadySched noFaults 0 2 4074 steadyBound.1 steadyBound.2.bus
    [⟨[0, 0], 2, .v4 ⟨⟨10, 0, 0, 1⟩, 53⟩, steadyHeard.1⟩] steadySent.1 steadyIdle.2.bus.clock steadyIdle.2.bus := by
  refine .none (d := steadySent.2) 10 [0, 0] steadyIdle.1
    (.meantime (.some (got := []) (d := steadyBound.2) (d' := steadyHeard.2) 10 [0, 0] steadyHeard.1 2 _ .start (by omega) rfl ?_)
      (.sendTo (u := steadyBound.1) (d := steadyHeard.2) (d' := steadySent.2) 100 addrA [1, 2, 3] ?_)) ?_ rfl ?_
  · exact run_eq (r := Device.udpReceive (Chip.dev steadySched noFaults).bus 10 steadyBound.1 ([0, 0], steadyBound.2))
      (by unfold steadyBound; decide +kernel)
  · exact run_eq (r := Device.udpSendTo (Chip.dev steadySched noFaults).bus 100 (.v4 addrA) [1, 2, 3] (steadyBound.1, steadyHeard.2))
      (by unfold steadyHeard steadyBound; decide +kernel)
  · have : steadySent.2.bus.clock ≤ 4074 := by
      unfold steadySent steadyHeard steadyBound
      decide +kernel
    omega
  · exact run_eq (r := Device.udpReceive (Chip.dev steadySched noFaults).bus 10 steadySent.1 ([0, 0], steadySent.2))
      (by unfold steadySent steadyHeard steadyBound; decide +kernel)

/-- A datagram comes to socket 0, and another to socket 1, during every 4096 SPI bytes. -/
def pairSched (k : Nat) : List (Nat × Act) :=
  if k % 4096 = 100 then [(0, .datagram dgramA)] else if k % 4096 = 600 then [(1, .datagram dgramB)] else []

theorem pair_quiet0 {k : Nat} (h : k % 4096 ≠ 100) : news 0 (pairSched k) = [] := by
  unfold pairSched
  rw [if_neg h]
  split <;> rfl

theorem pair_quiet1 {k : Nat} (h : k % 4096 ≠ 600) : news 1 (pairSched k) = [] := by
  unfold pairSched
  by_cases h' : k % 4096 = 100
  · rw [if_pos h']
    rfl
  · rw [if_neg h', if_neg h]
    rfl

theorem pair_spaced0 (T : Nat) : Spaced pairSched 0 4096 T (Handy 2048 2) := fun k _ hk => by
  have h9 : k % 4096 = 100 := (Decidable.em _).elim id fun h => absurd (pair_quiet0 h) hk
  refine ⟨⟨dgramA, by unfold pairSched; rw [if_pos h9]; rfl, by decide, by decide, by decide⟩, fun j q1 q2 => pair_quiet0 (by omega)⟩

theorem pair_spaced1 (T : Nat) : Spaced pairSched 1 4096 T (Handy 2048 1) := fun k _ hk => by
  have h9 : k % 4096 = 600 := (Decidable.em _).elim id fun h => absurd (pair_quiet1 h) hk
  refine ⟨⟨dgramB, by unfold pairSched; rw [if_neg (by omega), if_pos h9]; rfl, by decide, by decide, by decide⟩,
    fun j q1 q2 => pair_quiet1 (by omega)⟩

theorem pair_status (n : Nat) : StatusIn pairSched n (· = 0x22) := fun k x h => by
  unfold pairSched at h
  repeat' split at h
  all_goals simp at h

def pairFirst : UdpSocket × Device Chip Unit := (Device.udpBind (Chip.dev pairSched noFaults).bus 5000 (demoUdp, demoDevice)).2
def pairSecond : UdpSocket × Device Chip Unit :=
  (Device.udpBind (Chip.dev pairSched noFaults).bus 5001 (UdpSocket.new (Socket.new (BitVec.ofNat 8 1)), pairFirst.2)).2

theorem pair_opened0 : UdpOpened pairSched noFaults 0 pairFirst.1 pairFirst.2.bus :=
  .bind (H := Unit) (u := demoUdp) (d := demoDevice) 5000 (.new _ powerUp_sizes) (run_eq (by decide +kernel))

theorem pair_run0 : UdpRun pairSched noFaults 0 pairFirst.1 pairFirst.2.bus [] [] pairFirst.1 pairSecond.2.bus :=
  UdpRun.reach .start ((moves_udpBind 5001 _ pairFirst.2).mono fun _ _ _ h => foreign_sock (n := 0) (m := 1) (by decide) (by decide) h)

theorem pair_both : (pairSecond.2.bus.socks 0).sr = 0x22 ∧ (pairSecond.2.bus.socks 0).ir = 0 ∧ (pairSecond.2.bus.socks 0).rxSize = 2048 ∧
    (pairSecond.2.bus.socks 0).rsr = 0 ∧ (pairSecond.2.bus.socks 1).sr = 0x22 ∧ (pairSecond.2.bus.socks 1).ir = 0 ∧
    (pairSecond.2.bus.socks 1).rxSize = 2048 ∧ (pairSecond.2.bus.socks 1).rsr = 0 := by
  unfold pairSecond pairFirst
  decide +kernel

theorem pair_opened1 : UdpOpened pairSched noFaults 1 pairSecond.1 pairSecond.2.bus :=
  .bind (H := Unit) (u := UdpSocket.new (Socket.new (BitVec.ofNat 8 1))) (d := pairFirst.2) 5001
    (.new _ (by unfold Sock.SizesOk GoodSize pairFirst; decide +kernel))
    (run_eq (r := Device.udpBind (Chip.dev pairSched noFaults).bus 5001 (UdpSocket.new (Socket.new (BitVec.ofNat 8 1)), pairFirst.2))
      (by unfold pairFirst; decide +kernel))

attribute [irreducible] pairFirst pairSecond

/-- C120_turns is not vacuous: two sockets, any number of rounds. -/
example (rounds : Nat) : ∃ (results : List (List (Option UdpGot))) (d' : Device Chip Unit) (t0 t1 : Nat),
    Succeeds (turns (Chip.dev pairSched noFaults).bus [(pairFirst.1, [0, 0]), (pairSecond.1, [0])] rounds) pairSecond.2 results d' ∧
    pairSecond.2.bus.clock + 4 * rounds ≤ t0 + 43 ∧ pairSecond.2.bus.clock + 4 * rounds ≤ t1 + 43 ∧
    UdpGot.All (column 0 results) (came pairSched 0 pairSecond.2.bus.clock (t0 - pairSecond.2.bus.clock)) ∧
    UdpGot.All (column 1 results) (came pairSched 1 pairSecond.2.bus.clock (t1 - pairSecond.2.bus.clock)) := by
  obtain ⟨h1, h2, h3, h4, h5, h6, h7, h8⟩ := pair_both
  obtain ⟨results, d', g1, g2, g3⟩ := C120_turns (sched := pairSched) (faults := noFaults) (gap := 4096) (fun _ => rfl)
    (posts := [⟨0, pairFirst.1, [0, 0]⟩, ⟨1, pairSecond.1, [0]⟩]) (d := pairSecond.2) (by simp)
    (fun p hp => by
      rcases List.mem_cons.mp hp with rfl | hp
      · exact (by decide : 2 * (22 + (21 + 0)) + (2 + 20) ≤ 4096)
      · cases List.mem_singleton.mp hp
        exact (by decide : 2 * (22 + (21 + 0)) + (1 + 20) ≤ 4096))
    (fun p hp => by
      rcases List.mem_cons.mp hp with rfl | hp
      · exact ⟨(by decide : 0 < 8), pair_status 0, (by decide : 0 < 2), ⟨_, _, _, _, _, _, pair_opened0, pair_run0⟩, h1,
          List.length_eq_zero_iff.mp (by rw [Sock.queue_length, h4]; rfl), by unfold Announced; rw [h2]; decide,
          by rw [h3]; exact pair_spaced0 _⟩
      · cases List.mem_singleton.mp hp
        exact ⟨(by decide : 1 < 8), pair_status 1, (by decide : 0 < 1), ⟨_, _, _, _, _, _, pair_opened1, .start⟩, h5,
          List.length_eq_zero_iff.mp (by rw [Sock.queue_length, h8]; rfl), by unfold Announced; rw [h6]; decide,
          by rw [h7]; exact pair_spaced1 _⟩) rounds
  obtain ⟨t0, a1, a2, a3⟩ := g3 0 (by decide : 0 < 2)
  obtain ⟨t1, b1, b2, b3⟩ := g3 1 (by decide : 1 < 2)
  replace g2 : pairSecond.2.bus.clock + 4 * rounds ≤ d'.bus.clock := g2
  replace a1 : d'.bus.clock ≤ t0 + 43 := a1
  replace b1 : d'.bus.clock ≤ t1 + 43 := b1
  exact ⟨results, d', t0, t1, g1, by omega, by omega, a3, b3⟩

end W5500.Props
