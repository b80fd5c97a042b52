import Verif.Spec.Rough
import Verif.Props.Retry
/-! # Histories in which calls fail early are histories -/

namespace W5500.Spec
open W5500 socketn Sock Props
variable {E : Type} {sched : Nat → List (Nat × Act)} {faults : Nat → Option (E × Nat)}

/-! ## One history after the other -/

theorem tcpRun_append {n : Nat} {c c1 c2 : Chip} {acc del acc' del' : List U8} (h : TcpRun sched faults n c acc del c1)
    (h' : TcpRun sched faults n c1 acc' del' c2) : TcpRun sched faults n c (acc ++ acc') (del ++ del') c2 := by
  induction h' with
  | start => simpa using h
  | send fuel data k _ hm ih => rw [← List.append_assoc]; exact .send fuel data k (ih h) hm
  | receive fuel buf buf' k _ hm ih => rw [← List.append_assoc]; exact .receive fuel buf buf' k (ih h) hm
  | failedSend fuel data r _ hm hr hp ih => exact .failedSend fuel data r (ih h) hm hr hp
  | failedReceive fuel buf buf' r _ hm hr hp ih => exact .failedReceive fuel buf buf' r (ih h) hm hr hp
  | read b a d _ ih => exact .read b a d (ih h)
  | write b a d _ hF ih => exact .write b a d (ih h) hF
  | pass _ hp ih => exact .pass (ih h) hp
  | past _ ih => exact .past (ih h.past)

theorem udpRun_append {n : Nat} {u u1 u2 : UdpSocket} {c c1 c2 : Chip} {log log' : List UdpSent} {got got' : List UdpGot}
    (h : UdpRun sched faults n u c log got u1 c1) (h' : UdpRun sched faults n u1 c1 log' got' u2 c2) :
    UdpRun sched faults n u c (log ++ log') (got ++ got') u2 c2 := by
  induction h' with
  | start => simpa using h
  | send fuel data dst _ hm hd ih => rw [← List.append_assoc]; exact .send fuel data dst (ih h) hm hd
  | sendTo fuel dst data _ hm ih => rw [← List.append_assoc]; exact .sendTo fuel dst data (ih h) hm
  | failedSend fuel data dst r _ hm hd hr hp ih => rw [← List.append_assoc]; exact .failedSend fuel data dst r (ih h) hm hd hr hp
  | sendNowhere fuel data r _ hm hd ih => exact .sendNowhere fuel data r (ih h) hm hd
  | failedSendTo fuel dst data r _ hm hr hp hs ih => rw [← List.append_assoc]; exact .failedSendTo fuel dst data r (ih h) hm hr hp hs
  | receive fuel buf buf' k o _ hm ih => rw [← List.append_assoc]; exact .receive fuel buf buf' k o (ih h) hm
  | failedReceive fuel buf buf' r _ hm hr hp ih => exact .failedReceive fuel buf buf' r (ih h) hm hr hp
  | connect remote r _ hm hs ih => exact .connect remote r (ih h) hm hs
  | setPort port r _ hm ih => exact .setPort port r (ih h) hm
  | bind port r _ hm ih => exact .bind port r (ih h) hm
  | read b a d _ ih => exact .read b a d (ih h)
  | write b a d _ hF ih => exact .write b a d (ih h) hF
  | pass _ hp ih => exact .pass (ih h) hp
  | past _ ih => exact .past (ih h.past)

theorem rawRun_append {r : RawDevice} {c c1 c2 : Chip} {log log' : List RawSent} {got got' : List RawGot}
    (h : RawRun sched faults r c log got c1) (h' : RawRun sched faults r c1 log' got' c2) :
    RawRun sched faults r c (log ++ log') (got ++ got') c2 := by
  induction h' with
  | start => simpa using h
  | readFrame fuel buf buf' k _ hm ih => rw [← List.append_assoc]; exact .readFrame fuel buf buf' k (ih h) hm
  | failedRead fuel buf buf' x _ hm hx hp ih => exact .failedRead fuel buf buf' x (ih h) hm hx hp
  | writeFrame fuel f k _ hm ih => rw [← List.append_assoc]; exact .writeFrame fuel f k (ih h) hm
  | failedWrite fuel f x _ hm hx hq ih => rw [← List.append_assoc]; exact .failedWrite fuel f x (ih h) hm hx hq
  | enable w x _ hm ih => exact .enable w x (ih h) hm
  | clear x _ hm ih => exact .clear x (ih h) hm
  | disable x _ hm ih => exact .disable x (ih h) hm
  | read b a d _ ih => exact .read b a d (ih h)
  | write b a d _ hF ih => exact .write b a d (ih h) hF
  | pass _ hp ih => exact .pass (ih h) hp
  | past _ ih => exact .past (ih h.past)

/-! ## TCP -/

theorem tcpRough_run {n : Nat} (hn : n < 8) {c c' : Chip} {acc del : List U8} (h : TcpRough sched faults n c acc del c') :
    TcpRun sched faults n c acc del c' := by
  induction h with
  | start => exact .start
  | send fuel data k _ hm ih => exact .send fuel data k ih hm
  | receive fuel buf buf' k _ hm ih => exact .receive fuel buf buf' k ih hm
  | @failedSend H acc del d d' fuel data r _ hm hr he ih =>
    refine .failedSend fuel data r ih hm hr ?_
    have key := (early_tcpSend (sched := sched) (faults := faults) (P := fun s => s.txWr = (d.bus.socks n).txWr) (k := d.bus.txn) hn
      (fun s a h => (act_txWr s a).trans h) (fun _ _ _ h => h) fuel data).run d.bus ⟨rfl, Nat.le_refl _⟩
    have hm' := hm
    unfold Device.tcpSend at hm'
    rw [onBus_run hm'] at key
    rcases r with k | e | _ | _
    · exact absurd rfl (hr k)
    all_goals exact key.resolve_right (by omega)
  | @failedReceive H acc del d d' fuel buf buf' r _ hm hr he ih =>
    refine .failedReceive fuel buf buf' r ih hm hr ?_
    have key := (early_tcpReceive (sched := sched) (faults := faults) (n := n) (k := d.bus.txn) (P := fun s => s.rxRdReg = (d.bus.socks n).rxRdReg)
      (fun s a h => (act_rxRdReg s a).trans h) ⟨Socket.new (BitVec.ofNat 8 n)⟩ fuel).run (buf, d.bus) ⟨rfl, Nat.le_refl _⟩
    have hm' := hm
    unfold Device.tcpReceive at hm'
    rw [onSockBus_run hm'] at key
    rcases r with k | e | _ | _
    · exact absurd rfl (hr k)
    all_goals exact key.resolve_right (by dsimp only; omega)
  | other _ h2 ih => simpa using tcpRun_append ih h2

/-! ## MACRAW -/

theorem sent_nil {ps : List Packet} (h : RawSent.All [] ps) : ps = [] := by
  generalize e : ([] : List RawSent) = l at h
  cases h with
  | nil => rfl
  | ok | lost | failed => exact absurd e (by simp)

theorem sent_one {f : List U8} {ps : List Packet} (h : RawSent.All [⟨f, true⟩] ps) : ∃ p, ps = [p] ∧ p.data = f ∧ p.delivered = true := by
  generalize e : ([⟨f, true⟩] : List RawSent) = l at h
  cases h with
  | nil => exact nomatch e
  | @ok log ps p h hd =>
    obtain ⟨e1, e2⟩ := List.append_inj' (s₁ := []) e rfl
    subst e1
    rw [sent_nil h]
    simp only [List.cons.injEq, RawSent.mk.injEq, and_true] at e2
    exact ⟨p, rfl, e2.symm, hd⟩
  | lost | failed =>
    obtain ⟨_, e2⟩ := List.append_inj' (s₁ := []) e rfl
    simp at e2

/-- What holds at any time. -/
structure RoughRaw (K : List Packet) (A : List U8) (sent : List (List U8)) (got : List RawGot) (c : Chip) : Prop where
  idle : ∃ ps fs, ps.map Packet.data = sent ∧ (∀ p ∈ ps, p.delivered = true) ∧ (RawGot.All got fs ∧ ∀ f ∈ fs, f.length + 2 < 65536) ∧
    RawIdle (K ++ ps) (A ++ encFrames fs) 16384 [] (c.socks 0)

theorem gotAll_append {got got' : List RawGot} {fs fs' : List (List U8)} (h : RawGot.All got fs) (h' : RawGot.All got' fs') :
    RawGot.All (got ++ got') (fs ++ fs') := by
  induction h' with
  | nil => simpa using h
  | nothing _ hn ih => rw [← List.append_assoc]; exact .nothing ih hn
  | got _ hb ih => rw [← List.append_assoc, ← List.append_assoc]; exact .got ih hb

/-- A piece of history in which nothing is sent. -/
theorem RoughRaw.run {r : RawDevice} (hr : r = ⟨sockOf 0⟩) {K : List Packet} {A : List U8} {sent : List (List U8)} {got got' : List RawGot} {c c' : Chip}
    (h : RoughRaw K A sent got c) (h' : RawRun sched faults r c [] got' c') : RoughRaw K A sent (got ++ got') c' := by
  obtain ⟨ps, fs, h1, h2, h3, h4⟩ := h
  obtain ⟨ps', fs', g1, g2, g3⟩ := rawRun_inv (K := K ++ ps) (A := A ++ encFrames fs) (z := 16384) hr ⟨[], [], .nil, ⟨.nil, nofun⟩, by
    rw [List.append_nil, show encFrames [] = [] from rfl, List.append_nil]; exact h4⟩ h'
  rw [sent_nil g1, List.append_nil, List.append_assoc, ← encFrames_append] at g3
  exact ⟨ps, fs ++ fs', h1, h2, ⟨gotAll_append h3.1 g2.1, fun f hf => (List.mem_append.mp hf).elim (h3.2 f) (g2.2 f)⟩, g3⟩

theorem rawRough_run {r : RawDevice} (hr : r = ⟨sockOf 0⟩) {K : List Packet} {A : List U8} {c0 c : Chip} {sent : List (List U8)} {got : List RawGot}
    (h0 : RoughRaw K A [] [] c0) (h : RawRough sched faults r c0 sent got c) :
    RoughRaw K A sent got c ∧ ∃ log, RawRun sched faults r c0 log got c := by
  induction h with
  | start => exact ⟨h0, [], .start⟩
  | readFrame fuel buf buf' k _ hm ih =>
    obtain ⟨ih, log, run⟩ := ih
    exact ⟨ih.run hr (.readFrame fuel buf buf' k .start hm), log, .readFrame fuel buf buf' k run hm⟩
  | other _ h2 ih =>
    obtain ⟨ih, log, run⟩ := ih
    have i1 := ih.run hr h2
    have i2 := rawRun_append run h2
    rw [List.append_nil] at i1
    rw [List.append_nil, List.append_nil] at i2
    exact ⟨i1, log, i2⟩
  | @failedRead sent got c c' fuel buf buf' x _ hm hx he ih =>
    obtain ⟨ih, log, run⟩ := ih
    have hp : (c'.socks 0).rxRdReg = (c.socks 0).rxRdReg := by
      have key := (early_rawRead (sched := sched) (faults := faults) (n := 0) (k := c.txn) (P := fun s => s.rxRdReg = (c.socks 0).rxRdReg)
        (fun s a h => (act_rxRdReg s a).trans h) r fuel).run (buf, c) ⟨rfl, Nat.le_refl _⟩
      rw [hm] at key
      rcases x with k | e | _ | _
      · exact absurd rfl (hx k)
      all_goals exact key.resolve_right (by dsimp only; omega)
    have i1 := ih.run hr (.failedRead fuel buf buf' x .start hm hx hp)
    rw [List.append_nil] at i1
    exact ⟨i1, log, .failedRead fuel buf buf' x run hm hx hp⟩
  | @writeFrame sent got c c' fuel frame k _ hm ih =>
    obtain ⟨⟨ps, fs, h1, h2, h3, h4⟩, log, run⟩ := ih
    refine ⟨?_, _, .writeFrame fuel frame k run hm⟩
    obtain ⟨ps', fs', g1, g2, g3⟩ := rawRun_inv (K := K ++ ps) (A := A ++ encFrames fs) (z := 16384) hr ⟨[], [], .nil, ⟨.nil, nofun⟩, by
      rw [List.append_nil, show encFrames [] = [] from rfl, List.append_nil]; exact h4⟩ (RawRun.writeFrame fuel frame k .start hm)
    obtain ⟨p, rfl, e1, e2⟩ := sent_one g1
    refine ⟨ps ++ [p], fs ++ fs', by rw [List.map_append, h1, ← e1]; rfl, fun q hq => ?_,
      ⟨by have := gotAll_append h3.1 g2.1; rwa [List.append_nil] at this, fun f hf => (List.mem_append.mp hf).elim (h3.2 f) (g2.2 f)⟩, ?_⟩
    · rcases List.mem_append.mp hq with hq | hq
      · exact h2 q hq
      · rw [List.mem_singleton.mp hq]; exact e2
    · rw [List.append_assoc, List.append_assoc, ← encFrames_append] at g3
      exact g3
  | @failedWrite sent got c c' fuel frame x _ hm hx he ih =>
    obtain ⟨⟨ps, fs, h1, h2, h3, h4⟩, log, run⟩ := ih
    have key := (early_rawWrite (sched := sched) (faults := faults) (n := 0) (k := c.txn) (by decide) (stable_rawIdle _ _ _ _)
      (fun s p x h => ⟨⟨⟨h.busy.base.mode, h.busy.base.size, rfl, h.busy.base.rd, h.busy.base.una, h.busy.base.out⟩, h.busy.wr, h.busy.size, h.busy.owed,
        ⟨h.busy.core.size, h.busy.core.fits, h.busy.core.arrived⟩, h.busy.queue, rfl⟩, h.reg⟩) (fun _ i h => h.ir i) r (by rw [hr]) fuel frame).run c
      ⟨h4, Nat.le_refl _⟩
    rw [hm] at key
    have i1 : RawIdle (K ++ ps) (A ++ encFrames fs) 16384 [] (c'.socks 0) := by
      rcases x with k | e | _ | _
      · exact absurd rfl (hx k)
      all_goals exact key.resolve_right (by omega)
    exact ⟨⟨ps, fs, h1, h2, h3, i1⟩, _, .failedWrite fuel frame x run hm hx ⟨i1.busy.base.rd.trans i1.busy.wr.symm, i1.busy.owed⟩⟩

/-! ## UDP -/

theorem udpSent_nil {z : Nat} {ps : List Packet} (h : UdpSent.All z [] ps) : ps = [] := by
  generalize e : ([] : List UdpSent) = l at h
  cases h with
  | nil => rfl
  | snoc => exact absurd e (by simp)

/-- A piece of history in which nothing is sent leaves the packets alone. -/
theorem udpRun_quiet {n : Nat} (hn : n < 8) {z : Nat} {K : List Packet} {A : List U8} {log : List UdpSent} {got got' : List UdpGot} {u u' : UdpSocket}
    {c c' : Chip} (h : UdpInv n z K A log got u c) (h' : UdpRun sched faults n u c [] got' u' c') : (c'.socks n).packets = (c.socks n).packets := by
  obtain ⟨h1, h2, sent, ds, h3, h4, h5⟩ := h
  obtain ⟨_, _, sent', ds', g3, _, g5⟩ := udpRun_inv (K := K ++ sent) (A := A ++ encAll ds) (z := z) hn ⟨h1, h2, [], [], .nil, ⟨.nil, nofun⟩, by
    rw [List.append_nil, show encAll [] = [] from rfl, List.append_nil]; exact h5⟩ h'
  rw [udpSent_nil g3, List.append_nil] at g5
  exact g5.idle.base.out.trans h5.idle.base.out.symm

/-- An early failure of `send` leaves the socket idle and its packets alone. -/
theorem early_udpSend_idle {H : Type} {n : Nat} (hn : n < 8) {z : Nat} {K : List Packet} {A : List U8} {log : List UdpSent} {got : List UdpGot} {u : UdpSocket}
    {d d' : Device Chip H} (h : UdpInv n z K A log got u d.bus) (fuel : Nat) (data : List U8) (r : Res (NbError (UdpSocketError E)) Unit)
    (hm : Device.udpSend (Chip.dev sched faults).bus fuel u data d = (r, d')) (hr : r ≠ .ok ()) (he : d'.bus.txn ≤ d.bus.txn + 6) :
    Drained n d'.bus ∧ (d'.bus.socks n).packets = (d.bus.socks n).packets := by
  obtain ⟨hsk, hc, sent, ds, _, _, hi⟩ := h
  have key := (early_udpSend (sched := sched) (faults := faults) (n := n) (k := d.bus.txn)
    (P := fun s => PktIdle 2 (d.bus.socks n).dest (K ++ sent) (A ++ encAll ds) s) hn (stable_pktIdle (by decide) _ _ _)
    (fun s p x h => ⟨⟨h.base.mode, h.base.size, h.base.dst, h.base.rd, h.base.una, h.base.out⟩, h.wr, ⟨⟨h.rx.core.size, h.rx.core.fits,
      h.rx.core.arrived⟩, h.rx.reg⟩⟩) u hsk fuel data).run d.bus ⟨hi.idle, Nat.le_refl _⟩
  have hm' := hm
  unfold Device.udpSend at hm'
  rw [onBus_run hm'] at key
  have h1 : PktIdle 2 (d.bus.socks n).dest (K ++ sent) (A ++ encAll ds) (d'.bus.socks n) := by
    rcases r with k | e | _ | _
    · exact absurd rfl hr
    all_goals exact key.resolve_right (by omega)
  exact ⟨h1.base.rd.trans h1.wr.symm, h1.base.out.trans hi.idle.base.out.symm⟩

theorem early_udpReceive_reg {H : Type} {n : Nat} {u : UdpSocket} {d d' : Device Chip H} (fuel : Nat) (buf buf' : List U8)
    (r : Res (NbError (UdpSocketError E)) (Nat × SockAddr))
    (hm : Device.udpReceive (Chip.dev sched faults).bus fuel u (buf, d) = (r, (buf', d'))) (hr : ∀ x, r ≠ .ok x) (he : d'.bus.txn ≤ d.bus.txn + 7) :
    (d'.bus.socks n).rxRdReg = (d.bus.socks n).rxRdReg := by
  have key := (Hoare.bind (f := fun x : Nat × UdpHeader => pure (x.1, SockAddr.v4 x.2.origin))
    (early_udpReceive (sched := sched) (faults := faults) (n := n) (k := d.bus.txn) (P := fun s => s.rxRdReg = (d.bus.socks n).rxRdReg)
    (fun s a h => (act_rxRdReg s a).trans h) u fuel) fun _ => .pure (Q := fun _ _ => True) fun _ h => h).run (buf, d.bus) ⟨rfl, Nat.le_refl _⟩
  have hm' := hm
  unfold Device.udpReceive at hm'
  rw [onSockBus_run hm'] at key
  rcases r with x | e | _ | _
  · exact absurd rfl (hr x)
  all_goals exact key.resolve_right (by dsimp only; omega)

theorem udpRough_run {n : Nat} (hn : n < 8) {sched0 : Nat → List (Nat × Act)} {faults0 : Nat → Option (E × Nat)} {u0 u : UdpSocket} {c0 c : Chip}
    {sent : List (SockAddr4 × List U8)} {got : List UdpGot} (ho : UdpOpened sched0 faults0 n u0 c0) (h : UdpRough sched faults n u0 c0 sent got u c) :
    (∃ ps, UdpSent.All (c0.socks n).txSize (sent.map fun x => ⟨x.1, x.2, true⟩) ps ∧ (c.socks n).packets = (c0.socks n).packets ++ ps) ∧
    ∃ log, UdpRun sched faults n u0 c0 log got u c := by
  obtain ⟨A, h0⟩ := opened_inv hn ho
  induction h with
  | start => exact ⟨⟨[], .nil, by rw [List.append_nil]⟩, [], .start⟩
  | @send H sent got u d d' fuel data dst _ hm hd ih =>
    obtain ⟨⟨ps, h1, h2⟩, log, run⟩ := ih
    obtain ⟨dst', ps', g1, g2, g3, _⟩ := C36_send hn ho run fuel data hm
    obtain ⟨_, _, _, _, _, _, hi⟩ := udpRun_inv hn h0 run
    rw [hd] at g1
    cases g1
    refine ⟨⟨ps ++ ps', ?_, by rw [g2, h2, List.append_assoc]⟩, _, .send fuel data dst run hm hd⟩
    rw [List.map_append]
    exact .snoc h1 ⟨pieces (c0.socks n).txSize data, List.prefix_refl _, fun _ => rfl, by rw [hi.size] at g3; exact g3⟩
  | @sendTo H sent got u u' d d' fuel dst data _ hm ih =>
    obtain ⟨⟨ps, h1, h2⟩, log, run⟩ := ih
    obtain ⟨ps', g2, g3⟩ := C36_send_to hn ho run fuel dst data hm
    obtain ⟨_, _, _, _, _, _, hi⟩ := udpRun_inv hn h0 run
    refine ⟨⟨ps ++ ps', ?_, by rw [g2, h2, List.append_assoc]⟩, _, .sendTo fuel dst data run hm⟩
    rw [List.map_append]
    exact .snoc h1 ⟨pieces (c0.socks n).txSize data, List.prefix_refl _, fun _ => rfl, by rw [hi.size] at g3; exact g3⟩
  | receive fuel buf buf' k o _ hm ih =>
    obtain ⟨⟨ps, h1, h2⟩, log, run⟩ := ih
    exact ⟨⟨ps, h1, (udpRun_quiet hn (udpRun_inv hn h0 run) (.receive fuel buf buf' k o .start hm)).trans h2⟩, log, .receive fuel buf buf' k o run hm⟩
  | @failedSend H sent got u d d' fuel data r _ hm hr he ih =>
    obtain ⟨⟨ps, h1, h2⟩, log, run⟩ := ih
    obtain ⟨g1, g2⟩ := early_udpSend_idle hn (udpRun_inv hn h0 run) fuel data r hm hr he
    refine ⟨⟨ps, h1, g2.trans h2⟩, ?_⟩
    cases hd : u.destination with
    | none => exact ⟨log, .sendNowhere fuel data r run hm hd⟩
    | some dst => exact ⟨_, .failedSend fuel data dst r run hm hd hr g1⟩
  | @failedReceive H sent got u d d' fuel buf buf' r _ hm hr he ih =>
    obtain ⟨⟨ps, h1, h2⟩, log, run⟩ := ih
    have hp := early_udpReceive_reg (n := n) fuel buf buf' r hm hr he
    exact ⟨⟨ps, h1, (udpRun_quiet hn (udpRun_inv hn h0 run) (.failedReceive fuel buf buf' r .start hm hr hp)).trans h2⟩, log,
      .failedReceive fuel buf buf' r run hm hr hp⟩
  | other _ h2' ih =>
    obtain ⟨⟨ps, h1, h2⟩, log, run⟩ := ih
    have i2 := udpRun_append run h2'
    rw [List.append_nil, List.append_nil] at i2
    exact ⟨⟨ps, h1, (udpRun_quiet hn (udpRun_inv hn h0 run) h2').trans h2⟩, log, i2⟩

end W5500.Spec
