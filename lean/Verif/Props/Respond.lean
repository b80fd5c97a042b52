import Verif.Props.Poll
import Verif.Props.Swift
import Verif.Proofs.Respond
/-! # A program that answers what comes on a TCP connection

C125 A program that looks for bytes on a TCP connection again and again and answers each piece answers every one, in order, if they come slowly
enough. -/

namespace W5500.Props
open W5500.Spec Sock
variable {E H : Type} {sched : Nat → List (Nat × Act)} {faults : Nat → Option (E × Nat)}
  {sched0 : Nat → List (Nat × Act)} {faults0 : Nat → Option (E × Nat)}

/-- Whatever was sent is taken before the next piece comes. -/
structure Taken {E : Type} (sched : Nat → List (Nat × Act)) (faults : Nat → Option (E × Nat)) (n t : Nat) (c : Chip) : Prop where
  next : ∃ I : Chip → Prop, Chip.Ticks sched I ∧ (∀ c c' : Chip, SameTx (c.socks n) (c'.socks n) → c'.clock = c.clock → I c → I c') ∧ I c ∧
    ∀ c', I c' → (∃ k, t ≤ k ∧ k < c'.clock ∧ news n (sched k) ≠ []) → (c'.socks n).used = 0

/-- A `send` on a connection that stays. -/
theorem tcpSend_ends {n : Nat} (hn : n < 8) (hf : ∀ i, faults i = none) (hs : StatusIn sched n (· = 0x17)) (hc : Confirming sched n) {S A : List U8}
    {d : Device Chip H} (h0 : At n (TcpIdle S A) d.bus) (hsr : (d.bus.socks n).sr = 0x17) (data : List U8) :
    ∃ (k : Nat) (d' : Device Chip H),
      Succeeds (fun fuel => Device.tcpSend (Chip.dev sched faults).bus fuel ⟨Socket.new (BitVec.ofNat 8 n)⟩ data) d k d' ∧
      (d'.bus.socks n).stream ++ (d'.bus.socks n).pending = (d.bus.socks n).stream ++ (d.bus.socks n).pending ++ data.take k ∧
      ((d.bus.socks n).used = 0 → k = min data.length (d.bus.socks n).txSize) := by
  have key := fun k => firm_tcpSend (sched := sched) (faults := faults) (firm_sr hs) hn hf (fun _ h => h) k data
  obtain ⟨k, d', h1, fuel', h2⟩ := succeed (C68_tcp_send (faults := faults) hn hc data d h0.tx.tcp)
    (fun k => (np_deviceTcpSend (calm_bus _) k _ _).run d)
    fun k e d' h => (key k).err (s := d.bus) (s' := d'.bus) hsr (onBus_run h)
  obtain ⟨h3, f, ⟨v1, v2, f1, f2, f3, f4⟩, h4⟩ := (tcp_send (sched := sched) (faults := faults) hn _ _ _ _ _ fuel' data).ok
    (s := d.bus) (s' := d'.bus) ⟨h0, Nat.le_refl _, rfl, rfl⟩ (onBus_run h2)
  refine ⟨k, d', h1, ?_, fun hu => ?_⟩
  · rw [h3.tx.out, h0.tx.out]
  · rw [h4]
    congr 1
    omega

/-- A `receive` on a connection that stays. -/
theorem tcpReceive_ends {n : Nat} (hn : n < 8) (hf : ∀ i, faults i = none) (hs : StatusIn sched n (· = 0x17)) {S A : List U8}
    {d : Device Chip H} (h0 : At n (TcpIdle S A) d.bus) (hsr : (d.bus.socks n).sr = 0x17) (buf : List U8) :
    ∃ (k : Nat) (buf' : List U8) (d' : Device Chip H),
      Succeeds (fun fuel => Device.tcpReceive (Chip.dev sched faults).bus fuel ⟨Socket.new (BitVec.ofNat 8 n)⟩) (buf, d) k (buf', d') ∧
      k ≤ buf.length ∧ buf'.length = buf.length := by
  have key := fun k => firm_tcpReceive (sched := sched) (faults := faults) (firm_sr hs) hn hf (fun _ h => h) k
  obtain ⟨k, ⟨buf', d'⟩, h1, fuel', h2⟩ := succeed (C67_tcp (sched := sched) (faults := faults) hn d
      (Nat.lt_of_le_of_lt (GoodSize.le h0.rx.core.size) (by decide)) buf).2
    (fun k => (np_deviceTcpReceive (calm_bus _) k _).run (buf, d))
    fun k e s' h => (key k).err (s := (buf, d.bus)) (s' := (s'.1, s'.2.bus)) hsr (onSockBus_run h)
  have hb := C46_buffer _ fuel' _ buf buf' d d' k h2
  exact ⟨k, buf', d', h1, hb.1, hb.2.1⟩

/-- One round. -/
theorem respond_round {n l a L L' gap T G : Nat} (hn : n < 8) (hf : ∀ i, faults i = none) (hs : StatusIn sched n (· = 0x17))
    (hc : ConfirmingIn L' sched n) (htk : TakingIn L sched n) {k0 : Chip} {S A : List U8} (h0 : At n (TcpIdle S A) k0)
    {z x : Nat} (hlz : l ≤ z) (hsp : Apart sched n gap T l) (answer : List U8 → List U8)
    (hans : ∀ bs, bs ≠ [] → bs.length ≤ l → (answer bs).length ≤ a) (hax : a ≤ x) (hgap : G + (l + 12) + (L' + a + 10) + L ≤ gap)
    {buf : List U8} (hb : l ≤ buf.length) {del0 got : List U8} {t : Nat} {e : Device Chip H} (ht : e.bus.clock ≤ t + G)
    (hx : (e.bus.socks n).txSize = x) (h : InTime sched faults n z l T k0 del0 got t e.bus) (hw : Taken sched faults n t e.bus) :
    ∃ (more : List U8) (t' : Nat) (e' : Device Chip H),
      Succeeds (tcpReply (Chip.dev sched faults).bus ⟨Socket.new (BitVec.ofNat 8 n)⟩ answer buf) e () e' ∧
      t' ≤ e'.bus.clock ∧ e'.bus.clock ≤ t' + (L' + a + 10) ∧ e.bus.clock + 2 ≤ t' ∧ t' ≤ e.bus.clock + (l + 12) ∧
      Reach (Chip.dev sched faults).bus (SockFrames (sockOf n) sockRegs) e.bus e'.bus ∧
      (e'.bus.socks n).txSize = x ∧ InTime sched faults n z l T k0 del0 (got ++ more) t' e'.bus ∧ Taken sched faults n t' e'.bus ∧
      ∃ ps, parcels sched n T (t' - T) = parcels sched n T (t - T) ++ ps ∧
        (e'.bus.socks n).stream ++ (e'.bus.socks n).pending = (e.bus.socks n).stream ++ (e.bus.socks n).pending ++ ps.flatMap answer := by
  obtain ⟨acc, hr⟩ := h.run
  have hi := tcpRun_idle hn hr h0
  obtain ⟨k, buf', e1, ⟨_, N, h1⟩, hkb, hlb⟩ := tcpReceive_ends hn hf hs hi h.sr buf
  dsimp only at h1
  have hcall := h1 N (Nat.le_refl _)
  obtain ⟨q1, q2, hI1⟩ := inTime_call hn hf hs hlz h0 hsp (by omega) ht h hb hcall
  have hm1 := (moves_deviceTcpReceive (B := (Chip.dev sched faults).bus) (H := H) N ⟨sockOf n⟩).run (buf, e)
  rw [show Device.tcpReceive (Chip.dev sched faults).bus N ⟨sockOf n⟩ (buf, e) = _ from hcall] at hm1
  have hr1 := TcpRun.receive N buf buf' k hr hcall
  have hi1 := tcpRun_idle hn hr1 h0
  have hT := h.since
  have hte : t ≤ e.bus.clock := by
    obtain ⟨X, hX⟩ := h.next
    obtain ⟨a1, b1, bs1, g1, _⟩ := pieceAgenda (g := 0) hsp hT (by omega)
    exact (hX a1 b1 bs1 g1).start
  have hx1 : (e1.bus.socks n).txSize = x := receive_keeps (I := fun c => (c.socks n).txSize = x) hn hf
    (StableS.stays (P := fun s => s.txSize = x) fun s a h => (act_txSize s a).trans h).ticks (fun _ _ q _ g => q.size.trans g) hcall hx
  obtain ⟨I, w1, w2, w3, w4⟩ := hw.next
  have w5 := receive_keeps hn hf w1 w2 hcall w3
  have hout : (e1.bus.socks n).stream ++ (e1.bus.socks n).pending = (e.bus.socks n).stream ++ (e.bus.socks n).pending := by
    rw [hi1.tx.out, hi.tx.out]
  have hall := hI1.all
  rw [h.all] at hall
  rcases parcels_step hsp hT (show t ≤ e1.bus.clock by omega) (by omega) with ⟨g1, g2, g3⟩ | ⟨a1, bs, g1, g2, g3, g4, g5, g6, g7, g8⟩
  · have hk : k = 0 := by
      rw [g1] at hall
      have e1 := List.append_right_eq_self.mp hall
      have := congrArg List.length e1
      rw [List.length_take, List.length_nil] at this
      omega
    subst hk
    refine ⟨_, e1.bus.clock, e1, ⟨nofun, N, fun f hf => ?_⟩, Nat.le_refl _, by omega, q1, q2, hm1, hx1, hI1,
      ⟨I, w1, w2, w5, fun c' i1 ⟨k, j1, j2⟩ => w4 c' i1 ⟨k, by omega, j2⟩⟩, [], by rw [g2, List.append_nil], by rw [hout]; simp⟩
    unfold tcpReply
    have e2 : M.withLocal buf (Device.tcpReceive (Chip.dev sched faults).bus f ⟨Socket.new (BitVec.ofNat 8 n)⟩) e = (.ok (0, buf'), e1) :=
      M.withLocal_eq_ok.mpr (h1 f hf)
    rw [M.bind_ok e2]
    dsimp only
    rw [if_pos rfl]
    rfl
  · have hbs : buf'.take k = bs := by
      rw [g7] at hall
      exact List.append_cancel_left hall
    have hk : k ≠ 0 := by
      rintro rfl
      exact g4 hbs.symm
    have hclear : (e1.bus.socks n).used = 0 := w4 _ w5 ⟨a1, g1, g2, by rw [g3]; nofun⟩
    have hal := hans bs g4 g5
    obtain ⟨m, e2, ⟨_, N2, s1⟩, s3, s4⟩ := tcpSend_ends hn hf hs (ConfirmingIn.again hc) hi1 hI1.sr (answer bs)
    dsimp only at s1
    have hm : m = (answer bs).length := by
      rw [s4 hclear, hx1]
      omega
    subst hm
    rw [List.take_length] at s3
    have hsend := s1 N2 (Nat.le_refl _)
    have hm2 := (moves_deviceTcpSend (B := (Chip.dev sched faults).bus) (H := H) N2 ⟨sockOf n⟩ (answer bs)).run e1
    rw [show Device.tcpSend (Chip.dev sched faults).bus N2 ⟨sockOf n⟩ (answer bs) e1 = _ from hsend] at hm2
    have hclk := (C118_tcp_send (faults := faults) hn hc (answer bs) e1 hi1.tx.tcp N2).2
    rw [hsend] at hclk
    have hmono : e1.bus.clock ≤ e2.bus.clock := tcpMeantime_keeps (I := fun c => e1.bus.clock ≤ c.clock) hn hf (clock_ticks _)
      (fun _ _ _ q g => by rw [q]; exact g) (.send N2 _ _ hsend) (Nat.le_refl _)
    have hI2 := inTime_meantime hn hf hs hlz hI1 (.send N2 _ _ hsend)
    have hi2 := tcpRun_idle hn (TcpRun.send N2 _ _ hr1 hsend) h0
    obtain ⟨i, j, t1, t2, t3, ⟨ta, t4, t5⟩, tb, t6, t7⟩ := htk e2.bus.clock
    have hclk : e2.bus.clock ≤ e1.bus.clock + (L' + (answer bs).length + 10) := hclk
    refine ⟨_, e1.bus.clock, e2, ⟨nofun, max N N2, fun f hf => ?_⟩, hmono, by omega, q1, q2, hm1.trans hm2, ?_, hI2, ⟨Emptying n i j,
      emptying_ticks t2 t4 t6 t5 t7, fun c c' q1 q2 g => ⟨q1.ok g.1, by rw [q2, q1.rd, q1.limit]; exact g.2.1, by rw [q2, q1.used]; exact g.2.2⟩,
      ⟨⟨hi2.tx.tcp, hi2.tx.base⟩, fun _ => by omega, fun _ => by omega⟩, fun c' i1 ⟨k, j1, j2, j3⟩ => i1.2.2 ?_⟩, [bs], g8, ?_⟩
    · unfold tcpReply
      have e3 : M.withLocal buf (Device.tcpReceive (Chip.dev sched faults).bus f ⟨Socket.new (BitVec.ofNat 8 n)⟩) e = (.ok (k, buf'), e1) :=
        M.withLocal_eq_ok.mpr (h1 f (by omega))
      rw [M.bind_ok e3]
      dsimp only
      rw [if_neg hk, hbs, M.bind_ok (s1 f (by omega))]
      rfl
    · exact tcpSend_txSize hn hf hsend hx1
    · have : a1 + gap ≤ k := by
        refine Nat.not_lt.mp fun q => j3 (g6 k (by omega) q)
      omega
    · rw [s3, hout]
      simp

/-- C125: after a `connect` and any calls, with nothing waiting, announced or unacknowledged, on a chip whose transfers do not fail and with a
connection that stays. SENDOK is raised within `L'` SPI bytes and the peer takes what is sent within `L`. A program calls `receive` with a buffer of at
least `l` bytes; if bytes come, it sends an answer of at most `a` bytes, which fit into the TX buffer; and so on, any number of times. If nothing comes but
pieces of at most `l` bytes, which fit into the RX buffer, at least `2 * (L' + a + 10) + l + 12 + L` SPI bytes apart, then all calls return `Ok`, and what
the program has sent are the answers to exactly the pieces that came until its last `receive` ended (time `t`), each one whole, in order. -/
theorem C125 {n l a L L' gap : Nat} (hn : n < 8) (hf : ∀ i, faults i = none) (hs : StatusIn sched n (· = 0x17))
    (hc : ConfirmingIn L' sched n) (htk : TakingIn L sched n) (fuel : Nat) (remote : SockAddr) (d0 d1 d : Device Chip H)
    (hz : SizesOk (d0.bus.socks n).mem)
    (hconn : Device.tcpConnect (Chip.dev sched0 faults0).bus fuel ⟨Socket.new (BitVec.ofNat 8 n)⟩ remote d0 = (.ok (), d1))
    {acc del : List U8} (hrun : TcpRun sched faults n d1.bus acc del d.bus) (hsr : (d.bus.socks n).sr = 0x17)
    (hq : (d.bus.socks n).queue = []) (hir : ¬ (d.bus.socks n).Announced) (hu : (d.bus.socks n).una = (d.bus.socks n).txLimit)
    (hl : l ≤ (d.bus.socks n).rxSize) (hsp : Apart sched n gap d.bus.clock l) (answer : List U8 → List U8)
    (hans : ∀ bs, bs ≠ [] → bs.length ≤ l → (answer bs).length ≤ a) (hat : a ≤ (d.bus.socks n).txSize)
    (hgap : 2 * (L' + a + 10) + (l + 12) + L ≤ gap) (buf : List U8) (hb : l ≤ buf.length) (rounds : Nat) :
    ∃ (t : Nat) (d' : Device Chip H),
      Succeeds (tcpReplier (Chip.dev sched faults).bus ⟨Socket.new (BitVec.ofNat 8 n)⟩ answer buf rounds) d () d' ∧
      d.bus.clock + 2 * rounds ≤ t ∧ t ≤ d'.bus.clock ∧ d'.bus.clock ≤ t + (L' + a + 10) ∧
      (d'.bus.socks n).stream ++ (d'.bus.socks n).pending =
        (d.bus.socks n).stream ++ (d.bus.socks n).pending ++ (parcels sched n d.bus.clock (t - d.bus.clock)).flatMap answer := by
  obtain ⟨_, _, ⟨S, A, hfr⟩, _⟩ := tcpConnect_idle hn hz hconn
  have hi := tcpRun_idle hn hrun hfr.1
  suffices K : ∀ (got : List U8) (t : Nat) (e : Device Chip H), e.bus.clock ≤ t + (L' + a + 10) → t ≤ e.bus.clock →
      (e.bus.socks n).txSize = (d.bus.socks n).txSize →
      InTime sched faults n (d.bus.socks n).rxSize l d.bus.clock d1.bus del got t e.bus → Taken sched faults n t e.bus →
      ∃ (t' : Nat) (d' : Device Chip H),
        Succeeds (tcpReplier (Chip.dev sched faults).bus ⟨Socket.new (BitVec.ofNat 8 n)⟩ answer buf rounds) e () d' ∧
        t + 2 * rounds ≤ t' ∧ t' ≤ d'.bus.clock ∧ d'.bus.clock ≤ t' + (L' + a + 10) ∧
        ∃ ps, parcels sched n d.bus.clock (t' - d.bus.clock) = parcels sched n d.bus.clock (t - d.bus.clock) ++ ps ∧
          (d'.bus.socks n).stream ++ (d'.bus.socks n).pending = (e.bus.socks n).stream ++ (e.bus.socks n).pending ++ ps.flatMap answer by
    obtain ⟨t', d', k1, k2, k3, k4, ps, k5, k6⟩ := K [] d.bus.clock d (by omega) (Nat.le_refl _) rfl
      (inTime_now hn hfr.1 (by rw [List.append_nil]; exact hrun) hsr rfl hq hir (Nat.le_refl _) (by rw [Nat.sub_self]; rfl))
      ⟨Cleared n, cleared_ticks, fun c c' q _ g => ⟨q.ok g.1, q.used.trans g.2⟩, ⟨⟨hi.tx.tcp, hi.tx.base⟩, by unfold Sock.used; rw [hu]; simp⟩,
        fun _ g _ => g.2⟩
    rw [show parcels sched n d.bus.clock (d.bus.clock - d.bus.clock) = [] by rw [Nat.sub_self]; rfl, List.nil_append] at k5
    exact ⟨t', d', k1, k2, k3, k4, by rw [k5]; exact k6⟩
  induction rounds with
  | zero => exact fun got t e h1 h2 _ _ _ => ⟨t, e, ⟨nofun, 0, fun _ _ => rfl⟩, Nat.le_refl _, h2, h1, [], (List.append_nil _).symm,
      (List.append_nil _).symm⟩
  | succ rounds ih =>
    intro got t e h1 h2 h3 h4 h5
    obtain ⟨more, t1, e1, ⟨_, N, k1⟩, k2, k3, k4, _, _, k5, k6, k7, ps, k8, k9⟩ :=
      respond_round (G := L' + a + 10) hn hf hs hc htk hfr.1 hl hsp answer hans hat (by omega) hb h1 h3 h4 h5
    obtain ⟨t2, e2, ⟨_, N', i1⟩, i2, i3, i4, ps', i5, i6⟩ := ih _ t1 e1 k3 k2 k5 k6 k7
    refine ⟨t2, e2, ⟨nofun, max N N', fun f hf => ?_⟩, by omega, i3, i4, ps ++ ps', ?_, ?_⟩
    · unfold tcpReplier
      rw [M.bind_ok (k1 f (by omega))]
      exact i1 f (by omega)
    · rw [i5, k8, List.append_assoc]
    · rw [i6, k9, List.flatMap_append, List.append_assoc]

/-- The connection is established once `connect` polls for it, and what is sent is taken at once. The peer sends two bytes every 200 SPI bytes. -/
def eagerSched (k : Nat) : List (Nat × Act) :=
  if k < 16 then [] else [(0, .status 0x17), (0, .raise 0x10), (0, .transmit 65536), (0, .ack 65536)] ++
    if k % 200 = 24 then [(0, .arrive [7, 8])] else []

def eagerConnected : Device Chip Unit := (Device.tcpConnect (Chip.dev eagerSched noFaults).bus 100 demoSocket demoRemote demoDevice).2

theorem eager_connect : Device.tcpConnect (Chip.dev eagerSched noFaults).bus 100 demoSocket demoRemote demoDevice = (.ok (), eagerConnected) := by
  rw [eagerConnected]
  exact run_eq (by decide +kernel)

theorem eager_left : (eagerConnected.bus.socks 0).sr = 0x17 ∧ (eagerConnected.bus.socks 0).queue = [] ∧
    ¬ (eagerConnected.bus.socks 0).Announced ∧ eagerConnected.bus.clock = 17 ∧ (eagerConnected.bus.socks 0).rxSize = 2048 ∧
    (eagerConnected.bus.socks 0).una = (eagerConnected.bus.socks 0).txLimit ∧ (eagerConnected.bus.socks 0).txSize = 2048 ∧
    (eagerConnected.bus.socks 0).stream ++ (eagerConnected.bus.socks 0).pending = [] := by
  decide +kernel

theorem eager_mem {k : Nat} (h : 16 ≤ k) : ∀ a, a = .status 0x17 ∨ a = .raise 0x10 ∨ a = .transmit 65536 ∨ a = .ack 65536 → (0, a) ∈ eagerSched k := by
  intro a ha
  rw [eagerSched, if_neg (by omega)]
  rcases ha with rfl | rfl | rfl | rfl <;> simp

theorem eager_status : StatusIn eagerSched 0 (· = 0x17) := fun k x h => by
  unfold eagerSched at h
  split at h
  · cases h
  · split at h <;> simp at h <;> exact h

theorem eager_confirming : ConfirmingIn 17 eagerSched 0 := fun k =>
  ⟨max k 16, by omega, by omega, 0x10, by decide, eager_mem (by omega) _ (by simp)⟩

theorem eager_taking : TakingIn 18 eagerSched 0 := fun k =>
  ⟨max k 16, max k 16 + 1, by omega, by omega, by omega, ⟨65536, by omega, eager_mem (by omega) _ (by simp)⟩, 65536, by omega,
    eager_mem (by omega) _ (by simp)⟩

theorem eager_news {k : Nat} (h : 16 ≤ k) : news 0 (eagerSched k) = if k % 200 = 24 then [.arrive [7, 8]] else [] := by
  rw [eagerSched, if_neg (by omega)]
  split <;> rfl

theorem eager_apart : Apart eagerSched 0 200 17 2 := fun k hk h => by
  by_cases h1 : k % 200 = 24
  · refine ⟨⟨[7, 8], by rw [eager_news (by omega), if_pos h1], nofun, by decide⟩, fun j _ _ => ?_⟩
    rw [eager_news (by omega), if_neg (by omega)]
  · rw [eager_news (by omega), if_neg h1] at h
    exact absurd rfl h

/-- C125 is not vacuous: an echo server. -/
example (rounds : Nat) : ∃ (t : Nat) (d' : Device Chip Unit),
    Succeeds (tcpReplier (Chip.dev eagerSched noFaults).bus demoSocket id [0, 0] rounds) eagerConnected () d' ∧ 17 + 2 * rounds ≤ t ∧
    (d'.bus.socks 0).stream ++ (d'.bus.socks 0).pending = (parcels eagerSched 0 17 (t - 17)).flatten := by
  obtain ⟨h1, h2, h3, h4, h5, h6, h7, h8⟩ := eager_left
  obtain ⟨t, d', k1, k2, _, _, k3⟩ := C125 (n := 0) (l := 2) (a := 2) (gap := 200) (by decide) (fun _ => rfl) eager_status eager_confirming eager_taking
    100 demoRemote demoDevice eagerConnected eagerConnected powerUp_sizes eager_connect .start h1 h2 h3 h6 (by rw [h5]; decide)
    (by rw [h4]; exact eager_apart) id (fun _ _ h => h) (by rw [h7]; decide) (by decide) [0, 0] (by decide) rounds
  rw [h4] at k2 k3
  rw [h8, List.nil_append, List.flatMap_id] at k3
  exact ⟨t, d', k1, k2, k3⟩

/-- Two pieces come in the first 300 SPI bytes. -/
example : parcels eagerSched 0 17 300 = [[7, 8], [7, 8]] := by decide +kernel

end W5500.Props
