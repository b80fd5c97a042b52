import Verif.Props.Respond
import Verif.Props.Prompt
import Verif.Props.Watch
import Verif.Proofs.Several
/-! # A program that serves several sockets in turn

C126 A program that serves several sockets in turn, UDP sockets and TCP connections, answers everything that comes to any of them, if what comes to
the same socket comes slowly enough. -/

namespace W5500.Props
open W5500.Spec Sock
variable {E H : Type} {sched : Nat → List (Nat × Act)} {faults : Nat → Option (E × Nat)}

/-- Where the program stands with one of the sockets, `p0` at the beginning (`c0`) and `p` now (`c`); serving it takes `w`, and it last did so at time `t`. -/
inductive Attending {E : Type} (sched : Nat → List (Nat × Act)) (faults : Nat → Option (E × Nat)) (H : Type) (G : Nat) (c0 : Chip) :
    Desk → Desk → Nat → Nat → Chip → Prop where
  | udp {sched0 : Nat → List (Nat × Act)} {faults0 : Nat → Option (E × Nat)}
      {n L m t : Nat} {v0 u0 u : UdpSocket} {k0 c : Chip} {got0 got : List UdpGot} {buf : List U8} {answer : SockAddr → List U8 → List U8} :
      n < 8 → StatusIn sched n (· = 0x22) → EmittingIn L sched n → Lossless sched n → UdpOpened sched0 faults0 n v0 k0 → 0 < buf.length →
      (∀ o r, r.length ≤ buf.length → (answer o r).length ≤ m) →
      Spaced sched n (G + (buf.length + 20)) c0.clock (Handy (c0.socks n).rxSize buf.length) →
      Abreast sched faults n (c0.socks n).rxSize buf.length c0.clock v0 k0 got0 got u t c →
      Still ((c0.socks n).packets ++ replies (c0.socks n).txSize answer got (came sched n c0.clock (t - c0.clock))) (c0.socks n).txSize (c.socks n) →
      Attending sched faults H G c0 (.udp n u0 buf answer) (.udp n u buf answer) (roundTime L (c0.socks n).txSize buf.length m) t c
  | tcp {sched0 : Nat → List (Nat × Act)} {faults0 : Nat → Option (E × Nat)}
      {n l a L L' fuel t : Nat} {remote : SockAddr} {d0 d1 : Device Chip H} {c : Chip} {del got buf : List U8} {answer : List U8 → List U8} :
      n < 8 → StatusIn sched n (· = 0x17) → ConfirmingIn L' sched n → TakingIn L sched n → SizesOk (d0.bus.socks n).mem →
      Device.tcpConnect (Chip.dev sched0 faults0).bus fuel ⟨Socket.new (BitVec.ofNat 8 n)⟩ remote d0 = (.ok (), d1) → l ≤ (c0.socks n).rxSize →
      l ≤ buf.length → (∀ bs, bs ≠ [] → bs.length ≤ l → (answer bs).length ≤ a) → a ≤ (c0.socks n).txSize →
      Apart sched n (G + (l + 12) + (L' + a + 10) + L) c0.clock l → (c.socks n).txSize = (c0.socks n).txSize →
      InTime sched faults n (c0.socks n).rxSize l c0.clock d1.bus del got t c → Taken sched faults n t c →
      (c.socks n).stream ++ (c.socks n).pending =
        (c0.socks n).stream ++ (c0.socks n).pending ++ (parcels sched n c0.clock (t - c0.clock)).flatMap answer →
      Attending sched faults H G c0 (.tcp n buf answer) (.tcp n buf answer) ((l + 12) + (L' + a + 10)) t c

theorem Attending.valid {G w t : Nat} {c0 c : Chip} {p0 p : Desk} (h : Attending sched faults H G c0 p0 p w t c) : p.index < 8 ∧ p.index = p0.index := by
  cases h with
  | udp h => exact ⟨h, rfl⟩
  | tcp h => exact ⟨h, rfl⟩

theorem Attending.served {G w t : Nat} {c0 c : Chip} {p0 p : Desk} (h : Attending sched faults H G c0 p0 p w t c) : p0.Served sched c0 c t := by
  cases h with
  | udp h1 h2 h3 h4 h5 h6 h7 h8 h9 h10 => exact ⟨_, h9.all, h10.base.out⟩
  | tcp h1 h2 h3 h4 h5 h6 h7 h8 h9 h10 h11 h12 h13 h14 h15 => exact h15

/-- While the others are served, nothing changes. -/
theorem Attending.aside (hf : ∀ i, faults i = none) {G w t : Nat} {c0 c c' : Chip} {p0 p : Desk} (h : Attending sched faults H G c0 p0 p w t c)
    (hr : Reach (Chip.dev sched faults).bus (Foreign p.index) c c') : Attending sched faults H G c0 p0 p w t c' := by
  cases h with
  | @udp _ _ n L m t v0 u0 u k0 c got0 got buf answer h1 h2 h3 h4 h5 h6 h7 h8 h9 h10 =>
    replace hr : Reach (Chip.dev sched faults).bus (Foreign n) c c' := hr
    refine .udp h1 h2 h3 h4 h5 h6 h7 h8 (hr.induct (I := fun c => Abreast sched faults n _ _ c0.clock v0 k0 got0 got u t c) ?_ ?_ h9)
      (aside_keeps hf (still_ticks (n := n) _ _) (fun _ _ e _ i => by unfold At at i ⊢; rw [e]; exact i) hr h10)
    · exact fun w b a d hi => abreast_meantime h1 hf h2 h5 hi (.read _ _ b a d)
    · exact fun w b a d hfo hi => abreast_meantime h1 hf h2 h5 hi (.write _ _ b a d hfo)
  | @tcp _ _ n l a L L' fuel t remote d0 d1 c del got buf answer h1 h2 h3 h4 h5 h6 h7 h8 h9 h10 h11 h12 h13 h14 h15 =>
    replace hr : Reach (Chip.dev sched faults).bus (Foreign n) c c' := hr
    obtain ⟨_, _, ⟨S, A, hfr⟩, _⟩ := tcpConnect_idle h1 h5 h6
    obtain ⟨acc, hrun⟩ := h13.run
    have i1 := tcpRun_idle h1 hrun hfr.1
    have i2 := tcpRun_idle h1 (TcpRun.reach hrun hr) hfr.1
    refine .tcp h1 h2 h3 h4 h5 h6 h7 h8 h9 h10 h11 ?_ (hr.induct (I := fun c => InTime sched faults n _ l c0.clock d1.bus del got t c) ?_ ?_ h13) ?_ ?_
    · exact aside_keeps (I := fun c => (c.socks n).txSize = (c0.socks n).txSize) hf ((stable_txSize _).stays (n := n)).ticks
        (fun _ _ e _ i => by rw [e]; exact i) hr h12
    · exact fun w b a d hi => inTime_meantime h1 hf h2 h7 hi (.read _ b a d)
    · exact fun w b a d hfo hi => inTime_meantime h1 hf h2 h7 hi (.write _ b a d hfo)
    · obtain ⟨I, w1, w2, w3, w4⟩ := h14.next
      exact ⟨I, w1, w2, aside_keeps hf w1 (fun c c' e hk i => w2 c c' (by rw [e]; exact ⟨rfl, rfl, rfl, rfl, rfl⟩) hk i) hr w3, w4⟩
    · rw [i2.tx.out, ← i1.tx.out, h15]

/-- The socket is served. -/
theorem Attending.serve (hf : ∀ i, faults i = none) {G w t : Nat} {c0 : Chip} {p0 p : Desk} {d : Device Chip H}
    (h : Attending sched faults H G c0 p0 p w t d.bus) (hG : d.bus.clock ≤ t + G) :
    ∃ (p' : Desk) (t' : Nat) (d' : Device Chip H) (N : Nat), (∀ fuel, N ≤ fuel → p.serve (Chip.dev sched faults).bus fuel d = (.ok p', d')) ∧
      d.bus.clock + 2 ≤ t' ∧ t' ≤ d'.bus.clock ∧ d'.bus.clock ≤ d.bus.clock + w ∧
      Reach (Chip.dev sched faults).bus (fun b a data => ∀ n, n ≠ p.index → Foreign n b a data) d.bus d'.bus ∧
      Attending sched faults H G c0 p0 p' w t' d'.bus := by
  generalize hc : d.bus = c at h
  cases h with
  | @udp _ _ n L m t v0 u0 u k0 c got0 got buf answer h1 h2 h3 h4 h5 h6 h7 h8 h9 h10 =>
    subst hc
    obtain ⟨x, buf', d1, N, k1, k2⟩ := abreast_ends h1 hf h2 h6 h5 h8 (Nat.le_refl _) hG h9 rfl
    have hcall := k1 N (Nat.le_refl _)
    obtain ⟨log, hrun⟩ := h9.run
    obtain ⟨A, h0⟩ := opened_inv h1 h5
    obtain ⟨hu, _⟩ := udpRun_inv h1 h0 hrun
    have hmv := (moves_deviceUdpReceive (B := (Chip.dev sched faults).bus) (H := H) N u).run (buf, d)
    rw [hcall, hu] at hmv
    replace hmv : Reach (Chip.dev sched faults).bus (fun b a data => ∀ m, m ≠ n → Foreign m b a data) d.bus d1.bus :=
      hmv.mono fun _ _ _ hfr m hm => foreign_sock h1 (Ne.symm hm) hfr
    have hst := still_receive h1 hf hu hcall h10
    have hT := h9.since
    have hrt : roundTime L (c0.socks n).txSize buf.length m =
      buf.length + 20 + ((m + (c0.socks n).txSize - 1) / (c0.socks n).txSize * (L + 20) + m + 9) := rfl
    have hte : t ≤ d.bus.clock := by
      obtain ⟨X, hX⟩ := h9.next
      obtain ⟨a1, b1, bs1, g1, _⟩ := agenda h8 hT (Nat.le_refl _)
      exact (hX a1 b1 bs1 g1).start
    rcases k2 with rfl | ⟨⟨k, origin⟩, rfl⟩
    · obtain ⟨g1, g2⟩ := abreast_none h1 h2 h6 h5 h8 (Nat.le_refl _) hG h9 rfl hcall
      obtain ⟨more, e1, _⟩ := came_more (sched := sched) (n := n) hT (show t ≤ d1.bus.clock by omega)
      have e2 := g2.all
      rw [e1] at e2
      rw [← List.append_nil got] at e2
      have e3 := UdpGot.All.last h9.all e2
      cases e3
      rw [List.append_nil] at e1
      refine ⟨_, d1.bus.clock, d1, N, fun fuel hfu => ?_, by omega, Nat.le_refl _, by omega, hmv, .udp h1 h2 h3 h4 h5 h6 h7 h8 g2 (by rw [e1]; exact hst)⟩
      have e4 : poll (Chip.dev sched faults).bus fuel u buf d = (.ok none, d1) := by unfold poll; rw [k1 fuel hfu]
      rw [Desk.serve]
      refine (M.bind_ok (M.mapErr_ok e4)).trans ?_
      rfl
    · obtain ⟨g1, g2, g3⟩ := abreast_some h1 hf h2 h6 h5 h8 (Nat.le_refl _) hG h9 rfl hcall
      obtain ⟨more, e1, _⟩ := came_more (sched := sched) (n := n) hT (show t ≤ d1.bus.clock by omega)
      have e2 := g3.all
      rw [e1] at e2
      have e3 := UdpGot.All.last h9.all e2
      obtain ⟨log1, hrun1⟩ := g3.run
      obtain ⟨qs, hq⟩ := queued_always h1 h5 hrun
      obtain ⟨_, _, _, _, _, hdel, _⟩ := received h1 h5 hrun N buf buf' k origin hcall qs hq
      have hk : k ≤ buf'.length := by
        rw [hdel.count, hdel.keeps]
        exact Nat.min_le_left _ _
      cases e3 with
      | @cons _ dg _ ds hbr e3 =>
      cases e3
      obtain ⟨dst, o1, o2⟩ := hbr.origin
      dsimp only at o1
      subst o1
      obtain ⟨d2, ⟨_, N2, s1⟩, s2, s3, s4⟩ := C76_udp_send_to h1 hf h2 h3.emitting h4 h5 hrun1 g3.sr (noTimeout_iff.mpr hst.quiet) dst
        (answer (.v4 dst) (buf'.take k))
      dsimp only at s1
      have hsend := s1 N2 (Nat.le_refl _)
      have g4 := abreast_meantime h1 hf h2 h5 g3 (.sendTo N2 dst _ hsend)
      obtain ⟨log2, hrun2⟩ := g4.run
      obtain ⟨_, _, _, _, _, _, hi2⟩ := udpRun_inv h1 h0 hrun2
      obtain ⟨_, _, _, _, _, _, hi1⟩ := udpRun_inv h1 h0 hrun1
      have htime := C118_udp_send_to h1 h3 h5 hrun1 (.v4 dst) (answer (.v4 dst) (buf'.take k)) N2
      rw [show Device.udpSendTo (Chip.dev sched faults).bus N2 (.v4 dst) (answer (.v4 dst) (buf'.take k)) (u, d1) = _ from hsend, hst.size] at htime
      dsimp only at htime
      have hlen : (answer (.v4 dst) (buf'.take k)).length ≤ m := h7 _ _ (by
        rw [List.length_take]
        exact Nat.le_trans (Nat.min_le_right _ _) (Nat.le_of_eq hbr.keeps))
      have hmono : ((answer (.v4 dst) (buf'.take k)).length + (c0.socks n).txSize - 1) / (c0.socks n).txSize * (L + 20) ≤
          (m + (c0.socks n).txSize - 1) / (c0.socks n).txSize * (L + 20) :=
        Nat.mul_le_mul_right _ (Nat.div_le_div_right (by omega))
      have hmv2 := moves_udpSendTo (B := (Chip.dev sched faults).bus) N2 (.v4 dst) (answer (.v4 dst) (buf'.take k)) u d1
      rw [show Device.udpSendTo (Chip.dev sched faults).bus N2 (.v4 dst) (answer (.v4 dst) (buf'.take k)) (u, d1) = _ from hsend, hu] at hmv2
      have hclk : d1.bus.clock ≤ d2.bus.clock := meantime_keeps (I := fun c => d1.bus.clock ≤ c.clock) h1 hf (clock_ticks _)
        (fun _ _ _ q g => by rw [q]; exact g) hu (.sendTo N2 dst _ hsend) (Nat.le_refl _)
      refine ⟨_, d1.bus.clock, d2, max N N2 + 1, fun fuel hfu => ?_, g1, hclk, by omega,
        hmv.trans (hmv2.mono fun _ _ _ hfr m hm => foreign_sock h1 (Ne.symm hm) hfr),
        .udp (u := { u with destination := some dst }) h1 h2 h3 h4 h5 h6 h7 h8 g4 ⟨?_, ?_, noTimeout_iff.mp s4⟩⟩
      · have e4 : poll (Chip.dev sched faults).bus fuel u buf d = (.ok (some ⟨buf, k, .v4 dst, buf'⟩), d1) := by
          unfold poll
          rw [k1 fuel (by omega)]
        have e5 : M.withLocal u (nbBlock (Device.udpSendTo (Chip.dev sched faults).bus fuel (.v4 dst) (answer (.v4 dst) (buf'.take k))) fuel) d1 =
            (.ok ((), { u with destination := some dst }), d2) := by
          refine M.withLocal_eq_ok.mpr ?_
          obtain ⟨f', rfl⟩ : ∃ f', fuel = f' + 1 := ⟨fuel - 1, by omega⟩
          unfold nbBlock
          rw [s1 (f' + 1) (by omega)]
        have e6 : (M.sliceTo buf' k : M (Device Chip H) (UdpSocketError E ⊕ TcpSocketError E) (List U8)) d1 = (.ok (buf'.take k), d1) := by
          unfold M.sliceTo
          rw [if_pos hk]
          rfl
        rw [Desk.serve]
        refine (M.bind_ok (M.mapErr_ok e4)).trans ?_
        dsimp only
        refine (M.bind_ok e6).trans ?_
        refine (M.bind_ok (M.mapErr_ok e5)).trans ?_
        rfl
      · have e7 : (d2.bus.socks n).packets = (c0.socks n).packets ++ replies (c0.socks n).txSize answer (got ++ [⟨buf, k, .v4 dst, buf'⟩])
            (came sched n c0.clock (d1.bus.clock - c0.clock)) := by
          rw [s2, hst.base.out, hst.size, e1, replies_append _ _ h9.all.length, List.append_assoc]
          simp only [replies, List.append_nil, o2]
        obtain ⟨b1, b2, b3, b4, b5, b6⟩ := hi2.idle.base
        exact ⟨b1, b2, rfl, b4, b5, e7⟩
      · exact hi2.size.trans (hi1.size.symm.trans hst.size)
  | @tcp _ _ n l a L L' fuel t remote d0 d1 c del got buf answer h1 h2 h3 h4 h5 h6 h7 h8 h9 h10 h11 h12 h13 h14 h15 =>
    subst hc
    obtain ⟨_, _, ⟨S, A, hfr⟩, _⟩ := tcpConnect_idle h1 h5 h6
    obtain ⟨more, t', d', ⟨_, N, k1⟩, k2, k3, k4, k5, k6, k7, k8, k9, ps, k10, k11⟩ :=
      respond_round h1 hf h2 h3 h4 hfr.1 h7 h11 answer h9 h10 (Nat.le_refl _) h8 hG h12 h13 h14
    refine ⟨_, t', d', N, fun f hfu => ?_, k4, k2, by omega, k6.mono fun _ _ _ hfr m hm => foreign_sock h1 (Ne.symm hm) hfr,
      .tcp h1 h2 h3 h4 h5 h6 h7 h8 h9 h10 h11 k7 k8 k9 ?_⟩
    · rw [Desk.serve]
      refine (M.bind_ok (M.mapErr_ok (k1 f hfu))).trans ?_
      rfl
    · rw [k11, h15, k10, List.flatMap_append, List.append_assoc]

/-- The time that one round takes. -/
def roundsTime (rows : List (Desk × Desk × Nat)) : Nat := (rows.map fun r => r.2.2).sum

/-- One round. -/
theorem attend_each (hf : ∀ i, faults i = none) {G lo : Nat} {c0 : Chip} {rows : List (Desk × Desk × Nat)} {d : Device Chip H}
    (hne : rows.Pairwise fun r r' => r.1.index ≠ r'.1.index) (h : ∀ r ∈ rows, ∃ t, lo ≤ t ∧ Attending sched faults H G c0 r.1 r.2.1 r.2.2 t d.bus)
    (hG : d.bus.clock + roundsTime rows ≤ lo + G) :
    ∃ (rows' : List (Desk × Desk × Nat)) (d' : Device Chip H) (N : Nat),
      (∀ fuel, N ≤ fuel → serveEach (Chip.dev sched faults).bus fuel (rows.map fun r => r.2.1) d = (.ok (rows'.map fun r => r.2.1), d')) ∧
      rows'.map (fun r => (r.1, r.2.2)) = rows.map (fun r => (r.1, r.2.2)) ∧
      d.bus.clock + 2 * rows.length ≤ d'.bus.clock ∧ d'.bus.clock ≤ d.bus.clock + roundsTime rows ∧
      Reach (Chip.dev sched faults).bus (fun b a data => ∀ n, (∀ r ∈ rows, n ≠ r.1.index) → Foreign n b a data) d.bus d'.bus ∧
      ∀ r ∈ rows', ∃ t, d.bus.clock ≤ t ∧ t ≤ d'.bus.clock ∧ Attending sched faults H G c0 r.1 r.2.1 r.2.2 t d'.bus := by
  induction rows generalizing d with
  | nil => exact ⟨[], d, 0, fun _ _ => rfl, rfl, Nat.le_refl _, Nat.le_refl _, .refl _, nofun⟩
  | cons r rows ih =>
    obtain ⟨p0, p, w⟩ := r
    have htime : roundsTime ((p0, p, w) :: rows) = w + roundsTime rows := by simp [roundsTime]
    obtain ⟨hp, hne⟩ := List.pairwise_cons.mp hne
    obtain ⟨t0, ht0, hs0⟩ := h _ (List.mem_cons_self ..)
    dsimp only at hs0
    obtain ⟨p', t1, d1, N1, a1, a2, a3, a4, a5, a6⟩ := hs0.serve hf (by omega)
    have hix := hs0.valid.2
    obtain ⟨rows', d2, N2, b1, b2, b3, b4, b5, b6⟩ := ih (d := d1) hne (fun r hr => by
      obtain ⟨t, k1, k2⟩ := h r (List.mem_cons_of_mem _ hr)
      refine ⟨t, k1, k2.aside hf (a5.mono fun _ _ _ hfr => hfr _ ?_)⟩
      rw [k2.valid.2, hix]
      exact fun e => hp r hr e.symm) (by omega)
    refine ⟨(p0, p', w) :: rows', d2, max N1 N2, fun fuel hfu => ?_, by simp only [List.map_cons, b2], by rw [List.length_cons]; omega, by omega, ?_, fun r hr => ?_⟩
    · rw [List.map_cons, serveEach]
      refine (M.bind_ok (a1 fuel (by omega))).trans ?_
      exact (M.bind_ok (b1 fuel (by omega))).trans rfl
    · refine Reach.trans (a5.mono fun _ _ _ hfr n hn => hfr n ?_) (b5.mono fun _ _ _ hfr n hn => hfr n fun r hr => hn r (List.mem_cons_of_mem _ hr))
      rw [hix]
      exact hn _ (List.mem_cons_self ..)
    · rcases List.mem_cons.mp hr with rfl | hr
      · refine ⟨t1, by omega, by omega, a6.aside hf (b5.mono fun _ _ _ hfr => hfr _ fun r' hr' => ?_)⟩
        rw [a6.valid.2]
        exact hp r' hr'
      · obtain ⟨t, k1, k2, k3⟩ := b6 r hr
        exact ⟨t, by omega, k2, k3⟩

theorem rows_time {rows rows' : List (Desk × Desk × Nat)} (h : rows'.map (fun r => (r.1, r.2.2)) = rows.map (fun r => (r.1, r.2.2))) :
    roundsTime rows' = roundsTime rows := by
  have := congrArg (fun l => (l.map Prod.snd).sum) h
  simpa [roundsTime, Function.comp_def] using this

theorem rows_apart {rows rows' : List (Desk × Desk × Nat)} (h : rows'.map (fun r => (r.1, r.2.2)) = rows.map (fun r => (r.1, r.2.2)))
    (hne : rows.Pairwise fun r r' => r.1.index ≠ r'.1.index) : rows'.Pairwise fun r r' => r.1.index ≠ r'.1.index := by
  have h1 : (rows.map (fun r => (r.1, r.2.2))).Pairwise (fun r r' => r.1.index ≠ r'.1.index) := List.pairwise_map.mpr hne
  rw [← h] at h1
  exact (List.pairwise_map (R := fun r r' : Desk × Nat => r.1.index ≠ r'.1.index)).mp h1

/-- And again and again. -/
theorem attend_always (hf : ∀ i, faults i = none) {c0 : Chip} (rounds : Nat) {rows : List (Desk × Desk × Nat)} {d : Device Chip H}
    (hne : rows.Pairwise fun r r' => r.1.index ≠ r'.1.index)
    (h : ∀ r ∈ rows, ∃ t, d.bus.clock ≤ t + roundsTime rows ∧ t ≤ d.bus.clock ∧
      Attending sched faults H (2 * roundsTime rows) c0 r.1 r.2.1 r.2.2 t d.bus) :
    ∃ (rows' : List (Desk × Desk × Nat)) (d' : Device Chip H) (N : Nat),
      (∀ fuel, N ≤ fuel → serveAlways (Chip.dev sched faults).bus (rows.map fun r => r.2.1) rounds fuel d = (.ok (rows'.map fun r => r.2.1), d')) ∧
      rows'.map (fun r => (r.1, r.2.2)) = rows.map (fun r => (r.1, r.2.2)) ∧
      d.bus.clock + 2 * rows.length * rounds ≤ d'.bus.clock ∧ d'.bus.clock ≤ d.bus.clock + roundsTime rows * rounds ∧
      ∀ r ∈ rows', ∃ t, d'.bus.clock ≤ t + roundsTime rows ∧ t ≤ d'.bus.clock ∧
        Attending sched faults H (2 * roundsTime rows) c0 r.1 r.2.1 r.2.2 t d'.bus := by
  induction rounds generalizing rows d with
  | zero => exact ⟨rows, d, 0, fun _ _ => rfl, rfl, by rw [Nat.mul_zero]; exact Nat.le_refl _, by rw [Nat.mul_zero]; exact Nat.le_refl _, h⟩
  | succ rounds ih =>
    obtain ⟨rows1, d1, N1, a1, a2, a3, a4, _, a5⟩ := attend_each (G := 2 * roundsTime rows) (lo := d.bus.clock - roundsTime rows) hf hne
      (fun r hr => (h r hr).imp fun t k => ⟨by omega, k.2.2⟩) (by omega)
    have et := rows_time a2
    have el : rows1.length = rows.length := by simpa using congrArg List.length a2
    obtain ⟨rows2, d2, N2, b1, b2, b3, b4, b5⟩ := ih (rows := rows1) (d := d1) (rows_apart a2 hne) fun r hr => by
      obtain ⟨t, k1, k2, k3⟩ := a5 r hr
      rw [et]
      exact ⟨t, by omega, k2, k3⟩
    rw [et] at b4 b5
    rw [el] at b3
    refine ⟨rows2, d2, max N1 N2, fun fuel hfu => ?_, b2.trans a2, ?_, ?_, b5⟩
    · rw [serveAlways]
      refine (M.bind_ok (a1 fuel (by omega))).trans ?_
      exact b1 fuel (by omega)
    · rw [Nat.mul_succ]
      omega
    · rw [Nat.mul_succ]
      omega

/-- A socket that is ready. -/
theorem attending_now {G w : Nat} {p : Desk} {c : Chip} (h : p.Ready sched faults H G w c) : Attending sched faults H G c p p w c.clock c := by
  cases h with
  | @udp _ _ n L m v0 u k0 c log got buf answer h1 h2 h3 h4 h5 h6 h7 h8 h9 h10 h11 h12 h13 =>
    obtain ⟨A, h0⟩ := opened_inv h1 h5
    obtain ⟨_, _, _, _, _, _, hi⟩ := udpRun_inv h1 h0 h6
    obtain ⟨b1, b2, b3, b4, b5, b6⟩ := hi.idle.base
    refine .udp (got := []) h1 h2 h3 h4 h5 h11 h12 h13
      (abreast_now h1 h5 (by rw [List.append_nil]; exact h6) h7 rfl h9 h10 (Nat.le_refl _) (by rw [Nat.sub_self]; exact .nil))
      ⟨⟨b1, b2, rfl, b4, b5, ?_⟩, rfl, noTimeout_iff.mp h8⟩
    rw [Nat.sub_self]
    exact (List.append_nil _).symm
  | @tcp _ _ n l a L L' fuel remote d0 d1 c acc del buf answer h1 h2 h3 h4 h5 h6 h7 h8 h9 h10 h11 h12 h13 h14 h15 h16 =>
    obtain ⟨_, _, ⟨S, A, hfr⟩, _⟩ := tcpConnect_idle h1 h5 h6
    have hi := tcpRun_idle h1 h7 hfr.1
    refine .tcp (got := []) h1 h2 h3 h4 h5 h6 h12 h13 h14 h15 h16 rfl
      (inTime_now h1 hfr.1 (by rw [List.append_nil]; exact h7) h8 rfl h9 h10 (Nat.le_refl _) (by rw [Nat.sub_self]; rfl))
      ⟨Cleared n, cleared_ticks, fun c c' q _ g => ⟨q.ok g.1, q.used.trans g.2⟩, ⟨⟨hi.tx.tcp, hi.tx.base⟩, by unfold Sock.used; rw [h11]; simp⟩,
        fun _ g _ => g.2⟩ ?_
    rw [Nat.sub_self]
    exact (List.append_nil _).symm

/-- C126: on a chip whose transfers do not fail, a program serves several sockets in turn, UDP sockets and TCP connections, any number of times. If they
are ready, with what comes to the same socket coming at least two rounds and the time that serving it takes apart (and for TCP the time in which
the peer takes the answer), then all calls return `Ok` or `WouldBlock`; a round takes at most the sum of the times; and on every socket everything
that came until the program last looked (time `t`, in the last round) is answered, each datagram or piece once, in order, and nothing else is sent. -/
theorem C126 (hf : ∀ i, faults i = none) {desks : List (Desk × Nat)} (hne : desks.Pairwise fun p p' => p.1.index ≠ p'.1.index) {d : Device Chip H}
    (hp : ∀ p ∈ desks, p.1.Ready sched faults H (2 * (desks.map Prod.snd).sum) p.2 d.bus) (rounds : Nat) :
    ∃ (desks' : List Desk) (d' : Device Chip H),
      Succeeds (serveAlways (Chip.dev sched faults).bus (desks.map Prod.fst) rounds) d desks' d' ∧
      d.bus.clock + 2 * desks.length * rounds ≤ d'.bus.clock ∧ d'.bus.clock ≤ d.bus.clock + (desks.map Prod.snd).sum * rounds ∧
      ∀ p ∈ desks, ∃ t, d'.bus.clock ≤ t + (desks.map Prod.snd).sum ∧ t ≤ d'.bus.clock ∧ p.1.Served sched d.bus d'.bus t := by
  have et : roundsTime (desks.map fun p => (p.1, p.1, p.2)) = (desks.map Prod.snd).sum := by simp [roundsTime, Function.comp_def]
  obtain ⟨rows', d', N, h1, h2, h3, h4, h5⟩ := attend_always (sched := sched) (faults := faults) (c0 := d.bus) hf rounds
    (rows := desks.map fun p => (p.1, p.1, p.2)) (d := d) (List.pairwise_map.mpr hne) (fun r hr => by
      obtain ⟨p, hpm, rfl⟩ := List.mem_map.mp hr
      rw [et]
      exact ⟨d.bus.clock, by omega, Nat.le_refl _, attending_now (hp p hpm)⟩)
  rw [et, List.length_map] at *
  refine ⟨rows'.map fun r => r.2.1, d', ⟨nofun, N, fun fuel hfu => ?_⟩, h3, h4, fun p hpm => ?_⟩
  · have := h1 fuel hfu
    rw [List.map_map] at this
    exact this
  · have hmem : (p.1, p.2) ∈ rows'.map (fun r => (r.1, r.2.2)) := by
      rw [h2, List.map_map]
      exact List.mem_map.mpr ⟨p, hpm, rfl⟩
    obtain ⟨r, hr, e⟩ := List.mem_map.mp hmem
    obtain ⟨t, k1, k2, k3⟩ := h5 r hr
    refine ⟨t, k1, k2, ?_⟩
    rw [← (Prod.mk.inj e).1]
    exact k3.served

/-! ## A concrete case -/

/-- What socket 0 sends leaves at once. Socket 1 is connected once `connect` polls for it, and what it sends is taken at once. A datagram comes to socket 0,
and two bytes to socket 1, during every 4096 SPI bytes. -/
def mixSched (k : Nat) : List (Nat × Act) :=
  [(0, .emit true), (1, .raise 0x10), (1, .transmit 65536), (1, .ack 65536)] ++ (if k < 24 then [] else [(1, .status 0x17)]) ++
    if k % 4096 = 1000 then [(0, .datagram dgramA)] else if k % 4096 = 3000 then [(1, .arrive [7, 8])] else []

def mixBound : UdpSocket × Device Chip Unit := (Device.udpBind (Chip.dev mixSched noFaults).bus 5000 (demoUdp, demoDevice)).2
def mixConnected : Device Chip Unit :=
  (Device.tcpConnect (Chip.dev mixSched noFaults).bus 100 ⟨Socket.new (BitVec.ofNat 8 1)⟩ demoRemote mixBound.2).2

theorem mix_opened : UdpOpened mixSched noFaults 0 mixBound.1 mixBound.2.bus :=
  .bind (H := Unit) (u := demoUdp) (d := demoDevice) 5000 (.new _ powerUp_sizes) (run_eq (by decide +kernel))

theorem mix_connect : Device.tcpConnect (Chip.dev mixSched noFaults).bus 100 ⟨Socket.new (BitVec.ofNat 8 1)⟩ demoRemote mixBound.2 = (.ok (), mixConnected) := by
  rw [mixConnected]
  exact run_eq (by unfold mixBound; decide +kernel)

theorem mix_run : UdpRun mixSched noFaults 0 mixBound.1 mixBound.2.bus [] [] mixBound.1 mixConnected.bus := by
  have h := (moves_deviceTcpConnect (B := (Chip.dev mixSched noFaults).bus) (H := Unit) 100 ⟨Socket.new (BitVec.ofNat 8 1)⟩ demoRemote).run mixBound.2
  rw [mix_connect] at h
  exact UdpRun.reach .start (h.mono fun _ _ _ hfr => foreign_sock (n := 0) (m := 1) (by decide) (by decide) hfr)

theorem mix_both : mixConnected.bus.clock = 25 ∧ (mixConnected.bus.socks 0).sr = 0x22 ∧ (mixConnected.bus.socks 0).ir = 0 ∧
    (mixConnected.bus.socks 0).owed = 0 ∧ (mixConnected.bus.socks 0).rsr = 0 ∧ (mixConnected.bus.socks 0).rxSize = 2048 ∧
    (mixConnected.bus.socks 0).txSize = 2048 ∧ (mixConnected.bus.socks 1).sr = 0x17 ∧ (mixConnected.bus.socks 1).queue = [] ∧
    ¬ (mixConnected.bus.socks 1).Announced ∧ (mixConnected.bus.socks 1).una = (mixConnected.bus.socks 1).txLimit ∧
    (mixConnected.bus.socks 1).rxSize = 2048 ∧ (mixConnected.bus.socks 1).txSize = 2048 ∧
    (mixConnected.bus.socks 1).stream ++ (mixConnected.bus.socks 1).pending = [] ∧ (mixConnected.bus.socks 0).packets = [] := by
  unfold mixConnected mixBound
  decide +kernel

theorem mix_sizes : SizesOk (mixBound.2.bus.socks 1).mem := by
  unfold SizesOk GoodSize mixBound
  decide +kernel

attribute [irreducible] mixBound mixConnected

theorem mix_mem (k : Nat) : ∀ x, x = (0, Act.emit true) ∨ x = (1, .raise 0x10) ∨ x = (1, .transmit 65536) ∨ x = (1, .ack 65536) → x ∈ mixSched k := by
  rintro x (rfl | rfl | rfl | rfl) <;> simp [mixSched]

theorem mix_status0 : StatusIn mixSched 0 (· = 0x22) := fun k x h => by
  unfold mixSched at h
  repeat' split at h
  all_goals simp at h

theorem mix_status1 : StatusIn mixSched 1 (· = 0x17) := fun k x h => by
  unfold mixSched at h
  repeat' split at h
  all_goals simp at h
  all_goals exact h

theorem mix_lossless : Lossless mixSched 0 := fun k h => by
  unfold mixSched at h
  repeat' split at h
  all_goals simp at h

theorem mix_news0 (k : Nat) : news 0 (mixSched k) = if k % 4096 = 1000 then [.datagram dgramA] else [] := by
  unfold mixSched
  by_cases h1 : k < 24 <;> by_cases h2 : k % 4096 = 1000 <;> by_cases h3 : k % 4096 = 3000 <;> simp only [h1, h2, h3, if_true, if_false] <;> rfl

theorem mix_news1 (k : Nat) : news 1 (mixSched k) = if k % 4096 = 3000 then [.arrive [7, 8]] else [] := by
  unfold mixSched
  by_cases h1 : k < 24 <;> by_cases h2 : k % 4096 = 1000 <;> by_cases h3 : k % 4096 = 3000 <;> simp only [h1, h2, h3, if_true, if_false] <;>
    first | rfl | omega

theorem mix_spaced (T : Nat) : Spaced mixSched 0 4096 T (Handy 2048 2) := fun k _ hk => by
  rw [mix_news0] at hk ⊢
  have h : k % 4096 = 1000 := (Decidable.em _).elim id fun h => absurd (if_neg h) hk
  refine ⟨⟨dgramA, if_pos h, by decide, by decide, by decide⟩, fun j _ _ => ?_⟩
  rw [mix_news0, if_neg (by omega)]

theorem mix_apart (T : Nat) : Apart mixSched 1 4096 T 2 := fun k _ hk => by
  rw [mix_news1] at hk ⊢
  have h : k % 4096 = 3000 := (Decidable.em _).elim id fun h => absurd (if_neg h) hk
  refine ⟨⟨[7, 8], if_pos h, nofun, by decide⟩, fun j _ _ => ?_⟩
  rw [mix_news1, if_neg (by omega)]

theorem mix_ready : Desk.Ready mixSched noFaults Unit (2 * (54 + 27)) (.udp 0 mixBound.1 [0, 0] echo) 54 mixConnected.bus ∧
    Desk.Ready mixSched noFaults Unit (2 * (54 + 27)) (.tcp 1 [0, 0] id) 27 mixConnected.bus := by
  obtain ⟨h1, h2, h3, h4, h5, h6, h7, h8, h9, h10, h11, h12, h13, _, _⟩ := mix_both
  constructor
  · have := Desk.Ready.udp (H := Unit) (G := 2 * (54 + 27)) (n := 0) (L := 1) (m := 2) (faults := noFaults) (u := mixBound.1) (c := mixConnected.bus)
      (buf := [0, 0]) (answer := echo) (by decide) mix_status0 (fun k => ⟨k, by omega, by omega, true, mix_mem k _ (by simp)⟩) mix_lossless mix_opened
      mix_run h2 (by unfold Sock.NoTimeout; rw [h3, h4]; decide) (List.length_eq_zero_iff.mp (by rw [Sock.queue_length, h5]; rfl))
      (by unfold Announced; rw [h3]; decide) (by decide) (fun _ _ h => h) (by rw [h6]; exact (mix_spaced _).mono (by decide) fun _ h => h)
    rw [h7] at this
    exact this
  · exact Desk.Ready.tcp (G := 2 * (54 + 27)) (n := 1) (l := 2) (a := 2) (L' := 1) (L := 2) (by decide) mix_status1
      (fun k => ⟨k, by omega, by omega, 0x10, by decide, mix_mem k _ (by simp)⟩)
      (fun k => ⟨k, k + 1, by omega, by omega, by omega, ⟨65536, by omega, mix_mem k _ (by simp)⟩, 65536, by omega, mix_mem _ _ (by simp)⟩)
      mix_sizes mix_connect .start h8 h9 h10 h11 (by rw [h12]; decide) (by decide) (fun _ _ h => h) (by rw [h13]; decide)
      ((mix_apart _).mono (by decide))

/-- C126 is not vacuous: an echo server over UDP and TCP. -/
example (rounds : Nat) : ∃ (desks' : List Desk) (d' : Device Chip Unit) (t0 t1 : Nat) (got : List UdpGot),
    Succeeds (serveAlways (Chip.dev mixSched noFaults).bus [.udp 0 mixBound.1 [0, 0] echo, .tcp 1 [0, 0] id] rounds) mixConnected desks' d' ∧
    25 + 4 * rounds ≤ t0 + 81 ∧ 25 + 4 * rounds ≤ t1 + 81 ∧ UdpGot.All got (came mixSched 0 25 (t0 - 25)) ∧
    (d'.bus.socks 0).packets = replies 2048 echo got (came mixSched 0 25 (t0 - 25)) ∧
    (d'.bus.socks 1).stream ++ (d'.bus.socks 1).pending = (parcels mixSched 1 25 (t1 - 25)).flatten := by
  obtain ⟨h1, h2, h3, h4, h5, h6, h7, h8, h9, h10, h11, h12, h13, h14, h15⟩ := mix_both
  obtain ⟨desks', d', k1, k2, _, k3⟩ := C126 (sched := mixSched) (faults := noFaults) (H := Unit) (fun _ => rfl)
    (desks := [(.udp 0 mixBound.1 [0, 0] echo, 54), (.tcp 1 [0, 0] id, 27)]) (d := mixConnected) (by simp [Desk.index])
    (fun p hp => by
      rcases List.mem_cons.mp hp with rfl | hp
      · exact mix_ready.1
      · cases List.mem_singleton.mp hp
        exact mix_ready.2) rounds
  obtain ⟨t0, a1, a2, got, a3, a4⟩ := k3 _ (List.mem_cons_self ..)
  obtain ⟨t1, b1, b2, b3⟩ := k3 _ (List.mem_cons_of_mem _ (List.mem_cons_self ..))
  replace b3 : (d'.bus.socks 1).stream ++ (d'.bus.socks 1).pending = (mixConnected.bus.socks 1).stream ++ (mixConnected.bus.socks 1).pending ++
    (parcels mixSched 1 mixConnected.bus.clock (t1 - mixConnected.bus.clock)).flatMap id := b3
  rw [h1] at k2 a3 a4 b3
  rw [h7, h15, List.nil_append] at a4
  rw [h14, List.nil_append, List.flatMap_id] at b3
  replace k2 : 25 + 4 * rounds ≤ d'.bus.clock := k2
  replace a1 : d'.bus.clock ≤ t0 + 81 := a1
  replace b1 : d'.bus.clock ≤ t1 + 81 := b1
  exact ⟨desks', d', t0, t1, got, k1, by omega, by omega, a3, a4, b3⟩

end W5500.Props
