import Verif.Props.Keep
import Verif.Proofs.Pace
/-! # Datagrams that come one at a time

C115 A program that waits for datagrams gets all of them, each one once and in order, if each comes some time after the one before. -/

namespace W5500.Props
open W5500.Spec Sock
variable {E H : Type} {sched : Nat → List (Nat × Act)} {faults : Nat → Option (E × Nat)}
  {sched0 : Nat → List (Nat × Act)} {faults0 : Nat → Option (E × Nat)}

/-- Waiting for a datagram that comes at time `a`, while what `P` says lasts. -/
theorem datagram_one {n : Nat} (hn : n < 8) (hf : ∀ i, faults i = none) {P : Sock → Prop} (hP : Firm sched n P) (hsr : ∀ s, P s → s.sr = 0x22)
    {u0 u : UdpSocket} {c0 : Chip} {log : List UdpSent} {got : List UdpGot} {d : Device Chip H}
    (ho : UdpOpened sched0 faults0 n u0 c0) (hr : UdpRun sched faults n u0 c0 log got u d.bus) (hPd : P (d.bus.socks n))
    (hq : (d.bus.socks n).queue = []) (hir : ¬ (d.bus.socks n).Announced) (buf : List U8) (hb : buf ≠ [])
    {a : Nat} {dg : Dgram} (ha : d.bus.clock ≤ a) (h1 : ∀ k, d.bus.clock ≤ k → k < a → news n (sched k) = [])
    (h2 : news n (sched a) = [.datagram dg]) (hw : dg.Wf) (hfit : dg.encode.length ≤ (d.bus.socks n).rxSize) (hpay : dg.payload.length ≤ buf.length)
    (h3 : ∀ k, a < k → k < a + (buf.length + 20) → news n (sched k) = []) :
    ∃ (k : Nat) (origin : SockAddr) (buf' : List U8) (d' : Device Chip H),
      Succeeds (fun fuel => nbBlock (Device.udpReceive (Chip.dev sched faults).bus fuel u) fuel) (buf, d) (k, origin) (buf', d') ∧
      UdpGot.Brings ⟨buf, k, origin, buf'⟩ dg ∧ UdpRun sched faults n u0 c0 log (got ++ [⟨buf, k, origin, buf'⟩]) u d'.bus ∧
      P (d'.bus.socks n) ∧ (d'.bus.socks n).packets = (d.bus.socks n).packets ∧ (d'.bus.socks n).queue = [] ∧ ¬ (d'.bus.socks n).Announced ∧
      a < d'.bus.clock ∧ d'.bus.clock ≤ a + (buf.length + 20) := by
  obtain ⟨A, h0⟩ := opened_inv hn ho
  obtain ⟨hu, _, sent, ds, _, _, hi⟩ := udpRun_inv hn h0 hr
  have hrsr : (d.bus.socks n).rsr.toNat = 0 := by rw [← Sock.queue_length, hq]; rfl
  have hT : Chip.Ticks sched (Timed n 2 d.bus.clock a (a + (buf.length + 20)) (d.bus.socks n).rxSize (d.bus.socks n).arrived dg.encode) :=
    timed_ticks h1 h2 (fun s hs => by simp only [act]; rw [if_pos ⟨hs, hw⟩]) hfit h3
  have hC : Chip.Ticks sched (At n (RxCore (d.bus.socks n).arrived)) := (stable_rxCore _).stays.ticks
  have hne : dg.encode ≠ [] := fun e => by
    have := encode_length hw
    rw [e, List.length_nil] at this
    omega
  let I : Chip → Prop := fun c =>
    (Timed n 2 d.bus.clock a (a + (buf.length + 20)) (d.bus.socks n).rxSize (d.bus.socks n).arrived dg.encode c ∧ c.clock ≤ a) ∧
      At n (RxCore (d.bus.socks n).arrived) c
  have hpn : ∀ (N : Nat) (b : List U8) (d d' : Device Chip H), UdpRun sched faults n u0 c0 log got u d.bus → I d.bus →
      Device.udpReceive (Chip.dev sched faults).bus N u (buf, d) ≠ (.panic, (b, d')) := by
    intro N b d d' hr h hc
    obtain ⟨qs, hq⟩ := queued_always hn ho hr
    obtain ⟨dg', rest, more, e1, _, e3, later, e4⟩ := (C41_chip_partial hn ho hr N buf b .panic hc qs hq).1 rfl
    obtain ⟨y, w, g1, g2, g3⟩ := (receive_panic (calm_bus _)).mp hc
    have hm := (moves_recvHead (Chip.dev sched faults).bus N buf.length u).run d.bus
    rw [g1] at hm
    cases g3
    obtain ⟨k1, k2, k3⟩ := timed_recvHead hn hT (by omega) hu h.1.1 h.1.2 g1
    have k4 : RxCore _ (w.socks n) := hC.readsOnly hm h.2
    have k5 := (k1.after k2 (by omega)).1
    rw [k4.arrived, show Sock.queue (w.socks n) = _ from e4.2, List.cons_append, encAll_cons] at k5
    obtain ⟨rfl, _⟩ := encode_inj (t := []) (e4.1 _ (List.mem_cons_self ..)) hw ((List.append_cancel_left k5).trans (List.append_nil _).symm)
    omega
  obtain ⟨k, o, buf', d', dg', rest, more, g1, g2, g3, g4, g5, g6, g7, g8, e1, k2, k3, g10⟩ := udp_polling hn hf hP hsr ho
    (buf := buf) hb (I := I) (l := a) (R := fun c => (c.socks n).arrived = (d.bus.socks n).arrived ++ dg.encode ∧ a < c.clock ∧
      c.clock ≤ a + (buf.length + 20) ∧ ¬ (c.socks n).Announced)
    (fun N b d d' h hc => ⟨(timed_polls hn hT (by omega) hne hu h.1.1 h.1.2 hc).2, (would_block_reads hn hC hu h.2 hc).2.1⟩)
    (fun N b x d d' h hc =>
      have g := timed_receive hn hf hu hT h3 h.1.1 h.1.2 hc
      ⟨g.1, g.2.1, g.2.2, C77_udp_unannounced hn u hu N buf b d d' _ hc⟩)
    hpn (fun c h => h.1.1.fits) (fun c h hl => absurd h.1.2 (by omega)) hr hPd
    ⟨⟨⟨Nat.le_refl _, hi.idle.base.mode, rfl, hi.idle.rx.core.rxFits, fun _ => ⟨rfl, hrsr, hir⟩, fun h => by omega⟩, ha⟩,
      hi.idle.rx.core.size, hi.idle.rx.core.fits, by rw [hq, List.append_nil]⟩ [] ⟨nofun, hq⟩
  rw [List.nil_append] at g2
  subst g2
  rw [e1, List.append_assoc] at g4
  have g4 := List.append_cancel_left g4
  rw [encAll_cons, List.append_assoc] at g4
  obtain ⟨rfl, g9⟩ := encode_inj (s := []) hw (g8 _ (List.mem_cons_self ..)) (by rw [List.append_nil]; exact g4)
  obtain ⟨_, g9⟩ := List.append_eq_nil_iff.mp g9.symm
  exact ⟨k, o, buf', d', g1, g3, g5, g6, g7, g9, g10, k2, k3⟩

/-- C115, one datagram: after any calls on a socket that was opened, with nothing waiting or announced, on a chip whose transfers do not
fail and on which the socket stays open, and with a buffer that is not empty. Nothing comes until time `a`, then a datagram that
fits into the RX buffer and whose payload fits into the buffer, and then nothing for `buf.length + 20` SPI bytes. By then, the loop has ended with the datagram, and nothing
waits or is announced. -/
theorem C115_one {n : Nat} (hn : n < 8) (hf : ∀ i, faults i = none) (hs : StatusIn sched n (· = 0x22))
    {u0 u : UdpSocket} {c0 : Chip} {log : List UdpSent} {got : List UdpGot} {d : Device Chip H}
    (ho : UdpOpened sched0 faults0 n u0 c0) (hr : UdpRun sched faults n u0 c0 log got u d.bus) (hsr : (d.bus.socks n).sr = 0x22)
    (hq : (d.bus.socks n).queue = []) (hir : ¬ (d.bus.socks n).Announced) (buf : List U8) (hb : buf ≠ [])
    {a : Nat} {dg : Dgram} (ha : d.bus.clock ≤ a) (h1 : ∀ k, d.bus.clock ≤ k → k < a → news n (sched k) = [])
    (h2 : news n (sched a) = [.datagram dg]) (hw : dg.Wf) (hfit : dg.encode.length ≤ (d.bus.socks n).rxSize) (hpay : dg.payload.length ≤ buf.length)
    (h3 : ∀ k, a < k → k < a + (buf.length + 20) → news n (sched k) = []) :
    ∃ (k : Nat) (origin : SockAddr) (buf' : List U8) (d' : Device Chip H),
      Succeeds (fun fuel => nbBlock (Device.udpReceive (Chip.dev sched faults).bus fuel u) fuel) (buf, d) (k, origin) (buf', d') ∧
      UdpGot.Brings ⟨buf, k, origin, buf'⟩ dg ∧ UdpRun sched faults n u0 c0 log (got ++ [⟨buf, k, origin, buf'⟩]) u d'.bus ∧
      (d'.bus.socks n).sr = 0x22 ∧ (d'.bus.socks n).queue = [] ∧ ¬ (d'.bus.socks n).Announced ∧
      a < d'.bus.clock ∧ d'.bus.clock ≤ a + (buf.length + 20) := by
  obtain ⟨k, o, b, d', g1, g2, g3, g4, _, g5⟩ := datagram_one hn hf (firm_sr hs) (fun _ h => h) ho hr hsr hq hir buf hb ha h1 h2 hw hfit hpay h3
  exact ⟨k, o, b, d', g1, g2, g3, g4, g5⟩

/-- C115: after any calls on a socket that was opened, with nothing waiting or announced, on a chip whose transfers do not fail and on
which the socket stays open, and with a buffer that is not empty: if datagrams that fit into the RX buffer, and whose payloads fit into the
buffer, come at least `buf.length + 20` SPI bytes apart, and nothing else, then the program gets all of them, each one once and in order. -/
theorem C115 {n : Nat} (hn : n < 8) (hf : ∀ i, faults i = none) (hs : StatusIn sched n (· = 0x22))
    {u0 u : UdpSocket} {c0 : Chip} {log : List UdpSent} {got : List UdpGot} {d : Device Chip H}
    (ho : UdpOpened sched0 faults0 n u0 c0) (hr : UdpRun sched faults n u0 c0 log got u d.bus) (hsr : (d.bus.socks n).sr = 0x22)
    (hq : (d.bus.socks n).queue = []) (hir : ¬ (d.bus.socks n).Announced) (buf : List U8) (hb : buf ≠ [])
    {gap : Nat} (hgap : buf.length + 20 ≤ gap) {ds : List (Nat × Dgram)} 
    (ht : Timetable sched n gap d.bus.clock (ds.map fun x => (x.1, .datagram x.2)))
    (hds : ∀ x ∈ ds, x.2.Wf ∧ x.2.encode.length ≤ (d.bus.socks n).rxSize ∧ x.2.payload.length ≤ buf.length) :
    ∃ (results : List UdpGot) (buf' : List U8) (d' : Device Chip H),
      Succeeds (listen (Chip.dev sched faults).bus u ds.length) (buf, d) results (buf', d') ∧ UdpGot.All results (ds.map Prod.snd) ∧
      UdpRun sched faults n u0 c0 log (got ++ results) u d'.bus ∧
      (d'.bus.socks n).sr = 0x22 ∧ (d'.bus.socks n).queue = [] ∧ ¬ (d'.bus.socks n).Announced := by
  suffices H : ∀ t, d.bus.clock ≤ t → (∀ k, d.bus.clock ≤ k → k < t → news n (sched k) = []) →
      Timetable sched n gap t (ds.map fun x => (x.1, .datagram x.2)) →
      ∃ (results : List UdpGot) (buf' : List U8) (d' : Device Chip H),
        Succeeds (listen (Chip.dev sched faults).bus u ds.length) (buf, d) results (buf', d') ∧ UdpGot.All results (ds.map Prod.snd) ∧
        UdpRun sched faults n u0 c0 log (got ++ results) u d'.bus ∧
        (d'.bus.socks n).sr = 0x22 ∧ (d'.bus.socks n).queue = [] ∧ ¬ (d'.bus.socks n).Announced from
    H _ (Nat.le_refl _) (fun k h1 h2 => by omega) ht
  clear ht
  induction ds generalizing got d buf with
  | nil => exact fun t _ _ _ => ⟨[], buf, d, ⟨nofun, 0, fun _ _ => rfl⟩, .nil, by rw [List.append_nil]; exact hr, hsr, hq, hir⟩
  | cons x ds ih =>
    intro t h1 h2 ht
    obtain ⟨a, dg⟩ := x
    cases ht with
    | cons k1 k2 k3 k4 k5 =>
    obtain ⟨hw, hfit, hpay⟩ := hds _ (List.mem_cons_self ..)
    obtain ⟨k, o, b, d1, g1, g2, g3, g4, g5, g6, g7, g8⟩ := C115_one hn hf hs ho hr hsr hq hir buf hb (Nat.le_trans h1 k1)
      (fun k q1 q2 => (Nat.lt_or_ge k t).elim (h2 k q1) fun q3 => k2 k q3 q2) k3 hw hfit hpay (fun k q1 q2 => k4 k q1 (by omega))
    have hl : b.length = buf.length := g2.keeps
    obtain ⟨A, h0⟩ := opened_inv hn ho
    obtain ⟨hu, _⟩ := udpRun_inv hn h0 hr
    obtain ⟨_, N, hN⟩ := g1
    have hz : (d1.bus.socks n).rxSize = (d.bus.socks n).rxSize := by
      have m1 := (moves_nbBlock (moves_deviceUdpReceive (B := (Chip.dev sched faults).bus) (H := H) N u) N).run (buf, d)
      rw [show nbBlock (Device.udpReceive (Chip.dev sched faults).bus N u) N (buf, d) = _ from hN N (Nat.le_refl _), hu] at m1
      have e1 := reach_regs hn (fun a => a = 0x1E) (by decide) (by decide) m1 0x1E rfl
      unfold Sock.rxSize
      dsimp only at e1
      rw [e1]
    obtain ⟨results, b', d', i1, i2, i3, i4⟩ := ih g3 g4 g5 g6 b (fun e => hb (List.length_eq_zero_iff.mp (by rw [← hl, e]; rfl)))
      (by rw [hl]; exact hgap) (fun x hx => by rw [hz, hl]; exact hds x (List.mem_cons_of_mem _ hx)) (a + gap) (by omega)
      (fun k q1 q2 => k4 k (by omega) q2) k5
    obtain ⟨_, N2, hN2⟩ := i1
    refine ⟨⟨buf, k, o, b⟩ :: results, b', d', ⟨nofun, max N N2, fun f hf => ?_⟩, .cons g2 i2, ?_, i4⟩
    · rw [List.length_cons, listen]
      refine (M.bind_ok (show M.get (buf, d) = (.ok (buf, d), (buf, d)) from rfl)).trans ?_
      refine (M.bind_ok (hN f (by omega))).trans ?_
      refine (M.bind_ok (show M.get (b, d1) = (.ok (b, d1), (b, d1)) from rfl)).trans ?_
      exact (M.bind_ok (hN2 f (by omega))).trans rfl
    · rw [List.append_assoc] at i3
      exact i3

/-! ## A concrete case -/

theorem steady_quiet {k : Nat} (h : k % 4096 ≠ 9) : news 0 (steadySched k) = [] := by
  unfold steadySched
  rw [if_neg h]
  split <;> rfl

theorem steady_news (i : Nat) : news 0 (steadySched (4096 * i + 9)) = [.datagram dgramA] := by
  unfold steadySched
  rw [if_pos (by omega)]
  rfl

theorem steady_table (m : Nat) : ∀ i t, 4096 * i ≤ t + 2000 → t ≤ 4096 * i + 9 →
    Timetable steadySched 0 2100 t ((List.range' i m).map fun j => (4096 * j + 9, .datagram dgramA)) := by
  induction m with
  | zero => exact fun i t _ _ => .nil t
  | succ m ih =>
    intro i t h1 h2
    rw [List.range'_succ, List.map_cons]
    exact .cons h2 (fun k q1 q2 => steady_quiet (by omega)) (steady_news i) (fun k q1 q2 => steady_quiet (by omega))
      (ih (i + 1) _ (by omega) (by omega))

theorem steady_start : steadyBound.2.bus.clock ≤ 9 := by
  unfold steadyBound
  decide +kernel

/-- C115 is not vacuous: a datagram comes before every 4096th SPI byte, and the program gets any number of them. -/
example (rounds : Nat) : ∃ results s', Succeeds (listen (Chip.dev steadySched noFaults).bus steadyBound.1 rounds) ([0, 0], steadyBound.2)
    results s' ∧ UdpGot.All results (List.replicate rounds dgramA) := by
  obtain ⟨h1, h2, h3, h4, h5⟩ := steady_bound
  obtain ⟨results, b, d, g1, g2, _⟩ := C115 (n := 0) (by decide) (fun _ => rfl) steady_status steady_opened (d := steadyBound.2) .start h1
    (List.length_eq_zero_iff.mp (by rw [Sock.queue_length, h5]; rfl)) (by unfold Announced; rw [h2]; decide) [0, 0]
    (by decide) (gap := 2100) (ds := (List.range' 0 rounds).map fun j => (4096 * j + 9, dgramA))
    (by decide) (by rw [List.map_map]; exact steady_table rounds 0 _ (by omega) (by have := steady_start; omega))
    (fun x hx => by
      obtain ⟨j, _, rfl⟩ := List.mem_map.mp hx
      exact ⟨(by decide : dgramA.Wf), by rw [h4]; exact (by decide : dgramA.encode.length ≤ 2048), (by decide : dgramA.payload.length ≤ 2)⟩)
  rw [List.length_map, List.length_range'] at g1
  refine ⟨results, _, g1, ?_⟩
  rw [List.map_map] at g2
  have e : (List.range' 0 rounds).map (Prod.snd ∘ fun j => (4096 * j + 9, dgramA)) = List.replicate rounds dgramA := by
    rw [show (Prod.snd ∘ fun j => (4096 * j + 9, dgramA)) = fun _ => dgramA from rfl, List.map_const', List.length_range']
  rwa [e] at g2

end W5500.Props
