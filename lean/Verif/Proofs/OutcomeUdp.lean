import Verif.Proofs.Outcome
/-! # UDP sends report what became of their packets, if announcements are prompt -/

namespace W5500.Spec
open W5500 socketn Sock
variable {E ε α : Type} {sched : Nat → List (Nat × Act)} {faults : Nat → Option (E × Nat)}

namespace Sock

theorem act_packets (s : Sock) (a : Act) (ha : ∀ b, a ≠ .emit b) : (s.act a).packets = s.packets := by
  cases a with
  | arrive bs => simp only [act]; split <;> first | rfl | exact push_packets _ _
  | datagram dg => simp only [act]; split <;> first | rfl | exact push_packets _ _
  | frame f => simp only [act]; split <;> first | rfl | exact push_packets _ _
  | transmit k => simp only [act]; split <;> rfl
  | ack k => simp only [act]; split <;> rfl
  | emit b => exact absurd rfl (ha b)
  | raise bits => rfl
  | status x => rfl

/-- The packet has not left and nothing is announced; or it has left, and exactly that is (or will be) announced. -/
def Told (d : List U8 × List U8) (K : List Packet) (data : List U8) (s : Sock) : Prop :=
  (s.packets = K ∧ s.Silent) ∨
    ∃ b, s.packets = K ++ [⟨d.1, d.2, data, b⟩] ∧ s.flag 4 = b ∧ s.flag 3 = (!b)

/-- A packet was handed to the chip. -/
structure InFlight (d : List U8 × List U8) (K : List Packet) (A : List U8) (p : U16) (data : List U8) (z : Nat) (s : Sock) :
    Prop where
  sent : (PktSent 2 d K p data s ∧ RxReady A s) ∧ s.txSize = z
  told : Told d K data s
  once : s.Once

/-- It has left. -/
structure Gone (d : List U8 × List U8) (K : List Packet) (A : List U8) (p : U16) (data : List U8) (z : Nat) (b : Bool)
    (s : Sock) : Prop where
  sent : (PktSent 2 d K p data s ∧ RxReady A s) ∧ s.txSize = z ∧ s.txRd = s.txLimit
  out : s.packets = K ++ [⟨d.1, d.2, data, b⟩]
  ok : s.flag 4 = b
  timeout : s.flag 3 = (!b)
  once : s.Once

theorem packets_ne {K : List Packet} {x : Packet} : K ≠ K ++ [x] := by
  intro h
  have := congrArg List.length h
  simp at this

theorem stable_inFlight (d : List U8 × List U8) (K : List Packet) (A : List U8) (p : U16) (data : List U8) (z : Nat) :
    StableS (InFlight d K A p data z) := by
  have hP : StableS (fun s => (PktSent 2 d K p data s ∧ RxReady A s) ∧ s.txSize = z) :=
    ((stable_pktSent (.inl rfl) d K p data).and (stable_rxReady A)).and (stable_txSize z)
  intro s a h
  have hm1 : s.proto ≠ 1 := by rw [h.sent.1.1.mode]; omega
  have h' := hP s a h.sent
  rcases h.sent.1.1.out with ⟨o1, b, o2⟩ | ⟨o1, o2, o3⟩
  · obtain ⟨_, _, h3, _⟩ := act_idle hm1 o1 a
    obtain ⟨f1, f2⟩ := act_flags hm1 a fun _ _ => o1
    refine ⟨h', ?_, f2 h.once⟩
    rcases h.told with ⟨t, _⟩ | ⟨b', t1, t2, t3⟩
    · exact absurd (t.symm.trans o2) packets_ne
    · exact .inr ⟨b', h3.trans t1, (f1 4 (.inr rfl)).trans t2, (f1 3 (.inl rfl)).trans t3⟩
  · have hs : s.Silent := by
      rcases h.told with ⟨_, t⟩ | ⟨b, t, _⟩
      · exact t
      · exact absurd (o2.symm.trans t) packets_ne
    by_cases he : ∃ b, a = .emit b
    · obtain ⟨b, rfl⟩ := he
      have hne : s.txRd ≠ s.txLimit := by rw [o1, h.sent.1.1.lim]; exact advanced_ne h.sent.1.1.len
      have hc : (s.proto = 2 ∨ s.proto = 4) ∧ s.txRd ≠ s.txLimit := ⟨.inl h.sent.1.1.mode, hne⟩
      obtain ⟨f1, f2, f3⟩ := emit_flags hc hs b
      refine ⟨h', .inr ⟨b, ?_, f1, f2⟩, f3⟩
      have : (s.act (.emit b)).packets = s.packets ++ [⟨s.dest.1, s.dest.2, s.pending, b⟩] := by
        simp only [act, if_pos hc]; rfl
      rw [this, h.sent.1.1.dst, o2, o3]
    · have hne : ∀ b, a ≠ .emit b := fun b hb => he ⟨b, hb⟩
      obtain ⟨f1, f2⟩ := act_flags hm1 a fun b hb => absurd hb (hne b)
      refine ⟨h', .inl ⟨(act_packets s a hne).trans o2, ?_⟩, f2 h.once⟩
      rw [silent_iff] at hs ⊢
      rw [f1 3 (.inl rfl), f1 4 (.inr rfl)]
      exact hs

theorem stable_gone (d : List U8 × List U8) (K : List Packet) (A : List U8) (p : U16) (data : List U8) (z : Nat) (b : Bool) :
    StableS (Gone d K A p data z b) := by
  have hP : StableS (fun s => (PktSent 2 d K p data s ∧ RxReady A s) ∧ s.txSize = z) :=
    ((stable_pktSent (.inl rfl) d K p data).and (stable_rxReady A)).and (stable_txSize z)
  intro s a h
  have hm1 : s.proto ≠ 1 := by rw [h.sent.1.1.mode]; omega
  have h' := hP s a ⟨h.sent.1, h.sent.2.1⟩
  obtain ⟨h1, _, h3, _⟩ := act_idle hm1 h.sent.2.2 a
  obtain ⟨f1, f2⟩ := act_flags hm1 a fun _ _ => h.sent.2.2
  exact ⟨⟨h'.1, h'.2, by rw [h1, act_txLimit]; exact h.sent.2.2⟩, h3.trans h.out, (f1 4 (.inr rfl)).trans h.ok,
    (f1 3 (.inl rfl)).trans h.timeout, f2 h.once⟩

theorem InFlight.gone {d : List U8 × List U8} {K : List Packet} {A : List U8} {p : U16} {data : List U8} {z : Nat} {s : Sock}
    (h : InFlight d K A p data z s) (he : s.txRd = s.txLimit) : ∃ b, Gone d K A p data z b s := by
  rcases h.told with ⟨t, _⟩ | ⟨b, t1, t2, t3⟩
  · obtain ⟨b, hb⟩ := h.sent.1.1.done he
    exact absurd (t.symm.trans hb.out) packets_ne
  · exact ⟨b, ⟨h.sent.1, h.sent.2, he⟩, t1, t2, t3, h.once⟩

/-- Between two calls, nothing outstanding. -/
def Clean (d : List U8 × List U8) (K : List Packet) (A : List U8) (z : Nat) (s : Sock) : Prop :=
  (PktIdle 2 d K A s ∧ s.txSize = z) ∧ s.Silent

theorem stable_clean (d : List U8 × List U8) (K : List Packet) (A : List U8) (z : Nat) : StableS (Clean d K A z) := by
  intro s a h
  refine ⟨((stable_pktIdle (by omega) d K A).and (stable_txSize z)) s a h.1, ?_⟩
  have hs := h.2
  obtain ⟨f1, _⟩ := act_flags (s := s) (by rw [h.1.1.base.mode]; omega) a fun _ _ => h.1.1.base.rd
  rw [silent_iff] at hs ⊢
  rw [f1 3 (.inl rfl), f1 4 (.inr rfl)]
  exact hs

theorem Gone.idle {d : List U8 × List U8} {K : List Packet} {A : List U8} {p : U16} {data : List U8} {z : Nat} {b : Bool}
    {s : Sock} (h : Gone d K A p data z b s) : PktIdle 2 d (K ++ [⟨d.1, d.2, data, b⟩]) A s ∧ s.txSize = z :=
  ⟨⟨⟨h.sent.1.1.mode, h.sent.1.1.size, h.sent.1.1.dst, h.sent.2.2, by rw [h.sent.1.1.una]; exact h.sent.2.2, h.out⟩,
    h.sent.1.1.wr, h.sent.1.2⟩, h.sent.2.1⟩

/-- Acknowledging the announcement. -/
theorem Gone.cleared {d : List U8 × List U8} {K : List Packet} {A : List U8} {p : U16} {data : List U8} {z : Nat} {b : Bool}
    {s : Sock} (h : Gone d K A p data z b s) (x : U8)
    (hx : (b = true ∧ x.getLsbD 4 = true ∧ s.owed.getLsbD 4 = false) ∨ (b = false ∧ x.getLsbD 3 = true ∧ s.owed.getLsbD 3 = false)) :
    Clean d (K ++ [⟨d.1, d.2, data, b⟩]) A z { s with ir := s.ir &&& ~~~x } := by
  refine ⟨⟨h.idle.1.ir _, h.idle.2⟩, ?_⟩
  rw [silent_iff]
  have h3 := h.timeout
  have h4 := h.ok
  unfold flag at h3 h4 ⊢
  show ((s.ir &&& ~~~x).getLsbD 3 || s.owed.getLsbD 3) = false ∧ ((s.ir &&& ~~~x).getLsbD 4 || s.owed.getLsbD 4) = false
  rw [BitVec.getLsbD_and, BitVec.getLsbD_and, BitVec.getLsbD_not, BitVec.getLsbD_not]
  rcases hx with ⟨rfl, hx, ho⟩ | ⟨rfl, hx, ho⟩
  · rw [hx, ho]
    have := Bool.or_eq_false_iff.mp h3
    rw [this.1, this.2]
    exact ⟨rfl, by simp⟩
  · rw [hx, ho]
    have := Bool.or_eq_false_iff.mp h4
    rw [this.1, this.2]
    exact ⟨by simp, rfl⟩

end Sock

/-- A byte of Sn_IR, as it is at the end of the read. -/
theorem hs_readIr {n : Nat} (hn : n < 8) {P : Sock → Prop} (hP : StableS P) (hp : Prompt sched n) :
    Hoare (fun c => At n P c ∧ At n Paid c) ((Chip.dev sched faults).bus.read1 (sockOf n).register 0x02)
      (fun x c => At n P c ∧ At n Paid c ∧ x = (c.socks n).ir) (fun _ => True) :=
  .conseq (((hs_read1' hn hP 0x02).and ((prompt_ticks hp).read1 _ _)).and (Chip.read1_value hn 0x02))
    (fun _ h => ⟨h, trivial⟩) (fun _ _ h => ⟨h.1.1, h.1.2, h.2⟩) fun _ _ => trivial

theorem bit_test (x : U8) (i : Nat) (hi : i = 3 ∨ i = 4) :
    (decide (x &&& (if i = 3 then 0x08 else 0x10) ≠ 0) = true) ↔ x.getLsbD i = true := by
  rcases hi with rfl | rfl
  · revert x; decide
  · revert x; decide

/-- What `try_flush_tx` tells. -/
theorem udp_tryFlushTells {n : Nat} (hn : n < 8) (hp : Prompt sched n) (d : List U8 × List U8) (K : List Packet) (A : List U8)
    (p : U16) (data : List U8) (z : Nat) (u : UdpSocket) (hu : u.socket = sockOf n) :
    HoareE (fun c => At n (InFlight d K A p data z) c ∧ At n Paid c) (u.tryFlushTx (Chip.dev sched faults).bus)
      (fun _ c => At n (Clean d (K ++ [⟨d.1, d.2, data, true⟩]) A z) c ∧ At n Paid c)
      (fun e c => Own e → (e = .wouldBlock ∧ At n (InFlight d K A p data z) c ∧ At n Paid c) ∨
        (e = .other .writeTimeout ∧ At n (Clean d (K ++ [⟨d.1, d.2, data, false⟩]) A z) c)) := by
  have hP := stable_inFlight d K A p data z
  have hdone : StableS (fun s => (PktSent 2 d K p data s ∧ RxReady A s) ∧ s.txSize = z ∧ s.txRd = s.txLimit) := by
    rintro s a ⟨h1, h2, h3⟩
    refine ⟨⟨stable_pktSent (.inl rfl) d K p data s a h1.1, stable_rxReady A s a h1.2⟩, (act_txSize s a).trans h2, ?_⟩
    rw [act_txLimit, (act_idle (by rw [h1.1.mode]; omega) h3 a).1]
    exact h3
  unfold UdpSocket.tryFlushTx Socket.hasInterrupt
  rw [hu]
  refine .bind (.mapped ((hs_read2 hn hP 0x22).and ((prompt_ticks hp).read2 _ _)) fun _ _ => own_bus) fun v => ?_
  have hP2 : StableS (fun s => InFlight d K A p data z s ∧
      ∃ s1 s2, InFlight d K A p data z s1 ∧ InFlight d K A p data z s2 ∧ s1.Evolves s2 ∧ s2.Evolves s ∧
        v = s1.peekReg 0x22 ++ s2.peekReg (0x22 + 1)) := by
    rintro s a ⟨h1, s1, s2, p1, p2, e1, e2, h2⟩
    exact ⟨hP s a h1, s1, s2, p1, p2, e1, e2.trans (.act s a), h2⟩
  refine .bind (.mapped ((hs_readMem hn hP2 0x24 (.inl rfl)).and ((prompt_ticks hp).read2 _ _)) fun _ _ => own_bus) fun w => ?_
  refine .ite (fun heq => ?_) fun _ => .throw fun c h _ => .inl ⟨rfl, h.1.1.1, h.2⟩
  suffices H : ∀ b, HoareE (fun c => At n (Gone d K A p data z b) c ∧ At n Paid c) _ _ _ by
    constructor
    rintro c ⟨⟨⟨h1, s1, s2, p1, p2, q⟩, hw⟩, hpd⟩
    have hl := sent_left (n := n) (c := c) hdone heq ⟨⟨h1.sent, s1, s2, p1.sent, p2.sent, q⟩, hw⟩
    obtain ⟨b, hb⟩ := h1.gone hl.2.2
    exact (H b).run c ⟨hb, hpd⟩
  intro b
  have hG := stable_gone d K A p data z b
  have readIr : ∀ i, i = 3 ∨ i = 4 → ∀ {P : Sock → Prop}, StableS P →
      Hoare (fun c => At n P c ∧ At n Paid c) (do
          let x ← (Chip.dev sched faults).bus.read1 (sockOf n).register 0x02
          pure (decide (x &&& (if i = 3 then 0x08 else 0x10) ≠ 0)))
        (fun y c => (At n P c ∧ At n Paid c) ∧ (y = true ↔ (c.socks n).ir.getLsbD i = true)) (fun _ => True) :=
    fun i hi P hP => .bind (Q := fun x c => At n P c ∧ At n Paid c ∧ x = (c.socks n).ir) (hs_readIr hn hP hp) fun x =>
      .pure fun c h => ⟨⟨h.1, h.2.1⟩, by rw [← h.2.2]; exact bit_test x i hi⟩
  have owes : ∀ i, i = 3 ∨ i = 4 → StableS (fun s => Gone d K A p data z b s ∧ s.owed.getLsbD i = false) := by
    rintro i hi s a ⟨h1, h2⟩
    refine ⟨hG s a h1, ?_⟩
    have := (act_idle (by rw [h1.sent.1.1.mode]; omega) h1.sent.2.2 a).2.2.2
    rw [← this, BitVec.getLsbD_and, h2, Bool.and_false]
  refine .bind (.mapped (readIr 4 (.inr rfl) hG) fun _ _ => own_bus) fun y => ?_
  unfold Socket.resetInterrupt
  cases b with
  | true =>
    refine .ite (fun hy => ?_) fun hy => ⟨fun c h => ?_⟩
    · refine .mapped (.pre ((hs_write1 (Q := Clean d (K ++ [⟨d.1, d.2, data, true⟩]) A z) hn (owes 4 (.inr rfl)) 0x02 0x10
        fun s hs => hs.1.cleared 0x10 (.inl ⟨rfl, rfl, hs.2⟩)).and (prompt_write hp _ _ _)) fun c h => ?_) fun _ _ => own_bus
      exact ⟨⟨h.1.1, h.1.2.2⟩, h.1.2⟩
    · have h4 : Sock.flag (c.socks n) 4 = true := h.1.1.ok
      unfold flag at h4
      rw [show (c.socks n).owed.getLsbD 4 = false from h.1.2.2, Bool.or_false] at h4
      exact absurd (h.2.mpr h4) hy
  | false =>
    refine .ite (fun hy => ⟨fun c h => ?_⟩) fun hy => ?_
    · have h4 : Sock.flag (c.socks n) 4 = false := h.1.1.ok
      unfold flag at h4
      rw [h.2.mp hy] at h4
      exact nomatch h4
    refine .bind (.pre (P := fun c => At n (Gone d K A p data z false) c ∧ At n Paid c)
      (.mapped (readIr 3 (.inl rfl) hG) fun _ _ => own_bus) fun c h => h.1) fun y => ?_
    refine .ite (fun hy => ?_) fun hy => ⟨fun c h => ?_⟩
    · refine .bind (.mapped (.pre (hs_write1 (Q := Clean d (K ++ [⟨d.1, d.2, data, false⟩]) A z) hn (owes 3 (.inl rfl)) 0x02 0x08
        fun s hs => hs.1.cleared 0x08 (.inr ⟨rfl, rfl, hs.2⟩)) fun c h => ?_) fun _ _ => own_bus) fun _ =>
        .throw fun c h _ => .inr ⟨rfl, h⟩
      exact ⟨h.1.1, h.1.2.1⟩
    · have h3 : Sock.flag (c.socks n) 3 = true := h.1.1.timeout
      unfold flag at h3
      rw [show (c.socks n).owed.getLsbD 3 = false from h.1.2.1, Bool.or_false] at h3
      exact absurd (h.2.mpr h3) hy

theorem udp_flushLoopTells {n : Nat} (hn : n < 8) (hp : Prompt sched n) (d : List U8 × List U8) (K : List Packet) (A : List U8)
    (p : U16) (data : List U8) (z : Nat) (u : UdpSocket) (hu : u.socket = sockOf n) (fuel : Nat) :
    HoareE (fun c => At n (InFlight d K A p data z) c ∧ At n Paid c) (u.flushLoop (Chip.dev sched faults).bus fuel)
      (fun _ => At n (Clean d (K ++ [⟨d.1, d.2, data, true⟩]) A z))
      (fun e c => Own e → e = .other .writeTimeout ∧ At n (Clean d (K ++ [⟨d.1, d.2, data, false⟩]) A z) c) := by
  induction fuel with
  | zero => exact .outOfFuel
  | succ k ih =>
    constructor
    intro c hc
    have h := (udp_tryFlushTells (sched := sched) (faults := faults) hn hp d K A p data z u hu).run c hc
    unfold UdpSocket.flushLoop
    generalize u.tryFlushTx (Chip.dev sched faults).bus c = r at h
    obtain ⟨r, c'⟩ := r
    cases r with
    | ok a => exact h.1
    | err e =>
      cases e with
      | wouldBlock =>
        rcases h nofun with ⟨_, h1⟩ | ⟨h1, _⟩
        · exact ih.run c' h1
        · exact nomatch h1
      | other e =>
        intro ho
        rcases h ho with ⟨h1, _⟩ | h1
        · exact nomatch h1
        · exact h1
    | panic => exact trivial
    | fuel => exact trivial

theorem frame_silent (d : List U8 × List U8) (K : List Packet) : TxFrame (fun s => PktBase 2 d K s ∧ s.Silent) where
  stable := by
    rintro s a ⟨h1, h2⟩
    refine ⟨stable_pktBase (by omega) d K s a h1, ?_⟩
    obtain ⟨f1, _⟩ := act_flags (s := s) (by rw [h1.mode]; omega) a fun _ _ => h1.rd
    rw [silent_iff] at h2 ⊢
    rw [f1 3 (.inl rfl), f1 4 (.inr rfl)]
    exact h2
  base _ h := h.1.txBase
  pokeTx s a x h hf := ⟨(frame_pktBase (m := 2) (by omega) d K).pokeTx s a x h.1 hf, h.2⟩
  pokeWr s a x ha h := by
    refine ⟨(frame_pktBase (m := 2) (by omega) d K).pokeWr s a x ha h.1, ?_⟩
    rw [pokeWr_eq s x ha]
    exact h.2

/-- What a call that transmits tells if it fails: `WriteTimeout` if the last packet was dropped; and all others got out. -/
def Reports (n : Nat) (d : List U8 × List U8) (K : List Packet) (A : List U8) (z : Nat)
    (e : NbError (UdpSocketError E)) (c : Chip) : Prop :=
  Own e → ∃ ps : List Packet, (∀ q ∈ ps, q.delivered = true) ∧
    ((e = .other .writeTimeout ∧ ∃ data, At n (Clean d (K ++ ps ++ [⟨d.1, d.2, data, false⟩]) A z) c) ∨
      (e ≠ .other .writeTimeout ∧ At n (Clean d (K ++ ps) A z) c))

theorem Reports.none {n : Nat} {d : List U8 × List U8} {K : List Packet} {A : List U8} {z : Nat}
    {e : NbError (UdpSocketError E)} {c : Chip} (he : e ≠ .other .writeTimeout) (h : At n (Clean d K A z) c) :
    Reports n d K A z e c := fun _ => ⟨[], nofun, .inr ⟨he, by rw [List.append_nil]; exact h⟩⟩

theorem udp_checkStatusTells {n : Nat} (hn : n < 8) (d : List U8 × List U8) (K : List Packet) (A : List U8) (z : Nat)
    (u : UdpSocket) (hu : u.socket = sockOf n) :
    HoareE (At n (Clean d K A z)) (u.checkStatus (Chip.dev sched faults).bus) (fun _ => At n (Clean d K A z))
      (Reports n d K A z) := by
  unfold UdpSocket.checkStatus Socket.getStatus
  rw [hu]
  refine .bind (.mapped (hs_read1' hn (stable_clean d K A z) _) fun _ _ => own_bus) fun x => ?_
  split
  · exact .pure fun _ h => h
  · exact .throw fun _ h => .none nofun h
  · exact .throw fun _ h => .none nofun h

theorem hs_freeClean {n : Nat} (hn : n < 8) (d : List U8 × List U8) (K : List Packet) (A : List U8) (z : Nat) :
    Hoare (At n (Clean d K A z)) ((Chip.dev sched faults).bus.read2 (sockOf n).register 0x20)
      (fun v c => At n (Clean d K A z) c ∧ v.toNat = z) (fun _ => True) := by
  refine .conseq ((hs_freeIdle (m := 2) hn (by omega) d K A z).and (hs_read2 hn (stable_clean d K A z) 0x20))
    (fun c h => ⟨h.1, h⟩) (fun v c h => ⟨h.2.1, h.1.2⟩) fun _ _ => trivial

theorem udp_sendPieceTells {n : Nat} (hn : n < 8) (hp : Prompt sched n) (d : List U8 × List U8) (K : List Packet) (A : List U8)
    (z : Nat) (u : UdpSocket) (hu : u.socket = sockOf n) (fuel : Nat) (data : List U8) (hd : data ≠ []) (hl : data.length ≤ z) :
    HoareE (At n (Clean d K A z)) (u.socketSend (Chip.dev sched faults).bus fuel data)
      (fun k c => k = data.length ∧ At n (Clean d (K ++ [⟨d.1, d.2, data, true⟩]) A z) c) (Reports n d K A z) := by
  have hP := stable_clean d K A z
  unfold UdpSocket.socketSend Socket.getTxFreeSize
  refine .bind (udp_checkStatusTells hn d K A z u hu) fun _ => ?_
  refine .ite (fun _ => .throw fun _ h => .none nofun h) fun _ => ?_
  rw [hu]
  refine .bind (.mapped (hs_freeClean hn d K A z) fun _ _ => own_bus) fun v => HoareE.fact' fun hv => ?_
  refine .ite (fun _ => .throw fun _ h => .none nofun h) fun _ => ?_
  dsimp only
  have hG := frame_and_rx (frame_and_size (frame_silent d K) z) A
  suffices H : HoareE (At n (Clean d K A z)) (do
      let writePointer ← M.mapErr (NbError.ofBus (E := E)) (Socket.getTxWritePointer (Chip.dev sched faults).bus (sockOf n))
      M.mapErr NbError.ofBus ((Chip.dev sched faults).bus.write (sockOf n).txBuffer writePointer data)
      M.mapErr NbError.ofBus (Socket.setTxWritePointer (Chip.dev sched faults).bus (sockOf n)
            (writePointer + BitVec.ofNat 16 data.length))
      u.blockSendCommand (Chip.dev sched faults).bus fuel
      pure data.length) (fun k c => k = data.length ∧ At n (Clean d (K ++ [⟨d.1, d.2, data, true⟩]) A z) c)
        (Reports n d K A z) by
    split
    · exact H
    · have : data.take v.toNat = data := List.take_of_length_le (by omega)
      unfold M.sliceTo
      rw [if_pos (by omega), this]
      exact H
  refine .bind (Q := fun p => At n fun s => (((PktBase 2 d K s ∧ s.Silent) ∧ s.txSize = z) ∧ RxReady A s) ∧ s.txWr = p ∧
    s.txLimit = p ∧ s.used + data.length ≤ s.txSize)
    (.mapped ((hs_readMem hn hP _ (.inl rfl)).post ?_) fun _ _ => own_bus) fun p => ?_
  · rintro p c ⟨⟨⟨h1, h2⟩, hs⟩, h3⟩
    refine ⟨⟨⟨⟨h1.base, hs⟩, h2⟩, h1.rx⟩, h3.symm, h1.wr.symm.trans h3.symm, ?_⟩
    have e1 : Sock.used (c.socks n) = 0 := h1.base.used
    have e2 : Sock.txSize (c.socks n) = z := h2
    omega
  refine .bind (.mapped (hs_payload hn hG p data) fun _ _ => own_bus) fun _ => ?_
  refine .bind (.mapped (hs_advance hn hG p data) fun _ _ => own_bus) fun _ => ?_
  have hstG : StableS (fun s => (((PktBase 2 d K s ∧ s.Silent) ∧ s.txSize = z) ∧ RxReady A s) ∧
      s.txWr = p + BitVec.ofNat 16 data.length ∧ s.txLimit = p ∧
      s.used + data.length ≤ s.txSize ∧ ring s.txMem s.txSize p data.length = data) := by
    rintro s a ⟨h1, h2, h3, h4, h5⟩
    have := (act_txBase h1.1.1.1.txBase a).2
    exact ⟨hG.stable s a h1, by rw [act_txWr]; exact h2, by rw [act_txLimit]; exact h3,
      by rw [act_txSize]; omega, by rw [act_txMem, act_txSize]; exact h5⟩
  unfold UdpSocket.blockSendCommand Socket.command
  rw [hu]
  refine .bind (.bind (.mapped (hs_write1 (Q := fun s => InFlight d K A p data z s ∧ s.Paid)
    hn hstG _ _ (fun s hs => ?_)) fun _ _ => own_bus) fun _ => .conseq (udp_flushLoopTells hn hp d K A p data z u hu fuel)
      (fun _ h => h) (fun _ _ h => h) fun e c h ho => ?_)
    fun _ => .pure fun c hc => ⟨rfl, hc⟩
  · obtain ⟨⟨⟨⟨h1, hs⟩, h2⟩, h3⟩, h4, h5, h6, h7⟩ := hs
    have hs' : (s.pokeReg 0x01 0x20).Silent := hs
    exact ⟨⟨⟨⟨send_pkt h1 hd h4 h5 h6 h7, h3.send⟩, h2⟩, .inl ⟨h1.out, hs'⟩, hs'.once⟩, hs'.paid⟩
  · obtain ⟨h1, h2⟩ := h ho
    exact ⟨[], nofun, .inl ⟨h1, data, by rw [List.append_nil]; exact h2⟩⟩

theorem udp_sendLoopTells {n : Nat} (hn : n < 8) (hp : Prompt sched n) (d : List U8 × List U8) (A : List U8) (z : Nat)
    (hz : z ≠ 0) (u : UdpSocket) (hu : u.socket = sockOf n) (fuel : Nat) (buf : List U8) (k : Nat) (v : U16)
    (hv : v.toNat = z) : ∀ (K : List Packet) (t : Nat), t ≤ buf.length →
    HoareE (At n (Clean d K A z)) (u.sendAllLoop (Chip.dev sched faults).bus fuel buf k v t)
      (fun _ c => ∃ ps : List Packet, (∀ q ∈ ps, q.delivered = true) ∧ At n (Clean d (K ++ ps) A z) c)
      (Reports n d K A z) := by
  induction k generalizing v with
  | zero => exact fun K t _ => .outOfFuel
  | succ k ih =>
    intro K t ht
    unfold UdpSocket.sendAllLoop
    refine .ite (fun he => .pure fun c h => ⟨[], nofun, by rw [List.append_nil]; exact h⟩) fun hne => ?_
    have hrem : buf.drop t ≠ [] := by
      intro e
      have := congrArg List.length e
      rw [List.length_drop] at this
      simp only [List.length_nil] at this
      omega
    have htk : (buf.drop t).take (min v.toNat (buf.drop t).length) = (buf.drop t).take z := by
      rw [hv]
      by_cases h : z ≤ (buf.drop t).length
      · rw [Nat.min_eq_left h]
      · rw [Nat.min_eq_right (by omega), List.take_length, List.take_of_length_le (by omega)]
    unfold M.sliceFrom M.sliceTo
    rw [if_pos ht]
    refine .bind (Q := fun r c => At n (Clean d K A z) c ∧ r = buf.drop t)
      (.pure fun _ h => ⟨h, rfl⟩) fun r => HoareE.fact' fun hr => ?_
    subst hr
    dsimp only
    rw [if_pos (Nat.min_le_right _ _), htk]
    refine .bind (Q := fun r c => At n (Clean d K A z) c ∧ r = (buf.drop t).take z)
      (.pure fun _ h => ⟨h, rfl⟩) fun r => HoareE.fact' fun hr => ?_
    subst hr
    have hpl : ((buf.drop t).take z).length = min z (buf.drop t).length := List.length_take
    have hpos := List.length_pos_iff.mpr hrem
    have hne' : (buf.drop t).take z ≠ [] := List.length_pos_iff.mp (by omega)
    refine .bind (udp_sendPieceTells hn hp d K A z u hu fuel _ hne' (by omega)) fun sent => ?_
    refine HoareE.fact fun hs => ?_
    subst hs
    unfold Socket.getTxFreeSize
    rw [hu]
    refine .bind (.mapped (hs_freeClean hn d _ A z) fun _ _ => own_bus) fun v' => HoareE.fact' fun hv' => ?_
    refine .conseq (ih v' hv' (K ++ [⟨d.1, d.2, (buf.drop t).take z, true⟩]) (t + ((buf.drop t).take z).length) (by
      rw [hpl, List.length_drop]; omega)) (fun _ h => h) ?_ ?_
    · rintro _ c ⟨ps, h1, h2⟩
      refine ⟨⟨d.1, d.2, (buf.drop t).take z, true⟩ :: ps, List.forall_mem_cons.mpr ⟨rfl, h1⟩, ?_⟩
      rw [List.append_cons]
      exact h2
    · intro e c h ho
      obtain ⟨ps, h1, h2⟩ := h ho
      refine ⟨⟨d.1, d.2, (buf.drop t).take z, true⟩ :: ps, List.forall_mem_cons.mpr ⟨rfl, h1⟩, ?_⟩
      rw [List.append_cons]
      exact h2

theorem udp_sendAllTells {n : Nat} (hn : n < 8) (hp : Prompt sched n) (d : List U8 × List U8) (K : List Packet) (A : List U8)
    (z : Nat) (u : UdpSocket) (hu : u.socket = sockOf n) (fuel : Nat) (buf : List U8) :
    HoareE (At n (Clean d K A z)) (u.socketSendAll (Chip.dev sched faults).bus fuel buf)
      (fun _ c => ∃ ps : List Packet, (∀ q ∈ ps, q.delivered = true) ∧ At n (Clean d (K ++ ps) A z) c)
      (Reports n d K A z) := by
  unfold UdpSocket.socketSendAll Socket.getTxFreeSize
  refine .bind (udp_checkStatusTells hn d K A z u hu) fun _ => ?_
  refine .ite (fun _ => .throw fun _ h => .none nofun h) fun _ => ?_
  rw [hu]
  refine .bind (.mapped (hs_freeClean hn d K A z) fun _ _ => own_bus) fun v => HoareE.fact' fun hv => ?_
  refine .ite (fun _ => .throw fun _ h => .none nofun h) fun hne => ?_
  refine udp_sendLoopTells hn hp d A z ?_ u hu fuel buf fuel v hv K 0 (Nat.zero_le _)
  rintro rfl
  exact hne (BitVec.eq_of_toNat_eq hv)

end W5500.Spec
