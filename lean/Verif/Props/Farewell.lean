import Verif.Props.Respond
import Verif.Proofs.Farewell
import Verif.Proofs.StrategyDev
import Verif.Proofs.Until
/-! # C128 A peer that sends, waits, and closes the connection -/

namespace W5500.Props
open W5500.Spec Sock
variable {E H : Type} {sched : Nat → List (Nat × Act)} {faults : Nat → Option (E × Nat)}
  {sched0 : Nat → List (Nat × Act)} {faults0 : Nat → Option (E × Nat)}

theorem tcpReplier_on {W : Type} {B : Bus W E} {t : TcpSocket} {answer : List U8 → List U8} {buf : List U8} {r f : Nat} {d e : Device W H}
    (h : tcpReplier B t answer buf r f d = (.ok (), e)) (m : Nat) : tcpReplier B t answer buf (r + m) f d = tcpReplier B t answer buf m f e := by
  induction r generalizing d with
  | zero =>
    cases h
    rw [Nat.zero_add]
  | succ r ih =>
    obtain ⟨_, d1, h1, h2⟩ := M.bind_eq_ok.mp h
    rw [show r + 1 + m = (r + m) + 1 by omega]
    exact (M.bind_ok h1).trans (ih h2)

/-- A `receive` that finds nothing. -/
theorem waning_quiet {n t T X z : Nat} {Y S A : List U8} (hn : n < 8) (hf : ∀ i, faults i = none) (hT : T ≤ t) (hX : EndingAt sched n T X)
    (hq : ∀ k, t ≤ k → news n (sched k) = []) (buf : List U8) {e : Device Chip H} (h : Waning n t X z Y S A e.bus) (hk : e.bus.clock < X) :
    ∃ e' : Device Chip H, (∀ fuel, Device.tcpReceive (Chip.dev sched faults).bus fuel ⟨Socket.new (BitVec.ofNat 8 n)⟩ (buf, e) = (.ok 0, (buf, e'))) ∧
      e'.bus.clock = e.bus.clock + 2 ∧ Waning n t X z Y S A e'.bus := by
  have hI := waning_ticks (z := z) (Y := Y) (S := S) (A := A) hT hX hq
  obtain ⟨c1, r1, k1, i1⟩ := read_now (sched := sched) (faults := faults) hn hf 0x03 e.bus
  obtain ⟨c2, r2, k2, i2⟩ := read_now (sched := sched) (faults := faults) hn hf 0x02 c1
  have w1 := i1 _ hI h
  have w2 := i2 _ hI w1
  refine ⟨{ e with bus := c2 }, fun fuel => C47_ignored _ fuel ⟨Socket.new (BitVec.ofNat 8 n)⟩ buf e c1 c2 _ ?_ r2 ?_, by dsimp only; omega, w2⟩
  · rw [show (c1.socks n).peekReg 0x03 = (c1.socks n).sr from rfl, w1.still (by omega)] at r1
    exact r1
  · have := (w2.timed.before (by omega)).2.2
    show (c2.socks n).ir &&& 4 = 0
    unfold Announced at this
    generalize (c2.socks n).ir = i at this
    revert this
    revert i
    decide +kernel

/-- A `receive` after the end. -/
theorem waning_gone {n t T X z : Nat} {Y S A : List U8} (hn : n < 8) (hf : ∀ i, faults i = none) (hT : T ≤ t) (hX : EndingAt sched n T X)
    (hq : ∀ k, t ≤ k → news n (sched k) = []) (buf : List U8) {e : Device Chip H} (h : Waning n t X z Y S A e.bus) (hk : X ≤ e.bus.clock) :
    ∃ e' : Device Chip H, (∀ fuel, Device.tcpReceive (Chip.dev sched faults).bus fuel ⟨Socket.new (BitVec.ofNat 8 n)⟩ (buf, e) =
        (.err .notConnected, (buf, e'))) ∧ e'.bus.clock = e.bus.clock + 1 ∧ Waning n t X z Y S A e'.bus := by
  have hI := waning_ticks (z := z) (Y := Y) (S := S) (A := A) hT hX hq
  obtain ⟨c1, r1, k1, i1⟩ := read_now (sched := sched) (faults := faults) hn hf 0x03 e.bus
  have w1 := i1 _ hI h
  exact ⟨{ e with bus := c1 }, fun fuel => (C44_receive _ fuel ⟨Socket.new (BitVec.ofNat 8 n)⟩ buf e).2 _ _ r1 (w1.gone (by omega)), k1, w1⟩

/-- The last rounds. -/
theorem waning_rounds {n t T X z : Nat} {Y S A : List U8} (hn : n < 8) (hf : ∀ i, faults i = none) (hT : T ≤ t) (hX : EndingAt sched n T X)
    (hq : ∀ k, t ≤ k → news n (sched k) = []) (answer : List U8 → List U8) (buf : List U8) (m : Nat) {e : Device Chip H}
    (h : Waning n t X z Y S A e.bus) (hk : e.bus.clock ≤ X + 1) (hm : X ≤ e.bus.clock + m) :
    ∃ (r : Nat) (e1 e2 : Device Chip H),
      (∀ fuel, tcpReplier (Chip.dev sched faults).bus ⟨Socket.new (BitVec.ofNat 8 n)⟩ answer buf r fuel e = (.ok (), e1)) ∧
      (∀ fuel, tcpReply (Chip.dev sched faults).bus ⟨Socket.new (BitVec.ofNat 8 n)⟩ answer buf fuel e1 = (.err .notConnected, e2)) ∧
      X < e2.bus.clock ∧ e2.bus.clock ≤ X + 2 ∧ Waning n t X z Y S A e2.bus := by
  induction m generalizing e with
  | zero =>
    obtain ⟨e2, h1, h2, h3⟩ := waning_gone (faults := faults) hn hf hT hX hq buf h (by omega)
    refine ⟨0, e, e2, fun _ => rfl, fun fuel => ?_, by omega, by omega, h3⟩
    unfold tcpReply
    refine M.bind_err ?_
    unfold M.withLocal
    rw [h1]
  | succ m ih =>
    rcases Nat.lt_or_ge e.bus.clock X with hlt | hge
    · obtain ⟨e', h1, h2, h3⟩ := waning_quiet (faults := faults) hn hf hT hX hq buf h hlt
      obtain ⟨r, e1, e2, g1, g2⟩ := ih h3 (by omega) (by omega)
      refine ⟨r + 1, e1, e2, fun fuel => ?_, g2⟩
      unfold tcpReplier
      refine (M.bind_ok (s' := e') (a := ()) ?_).trans (g1 fuel)
      unfold tcpReply
      have e3 : M.withLocal buf (Device.tcpReceive (Chip.dev sched faults).bus fuel ⟨Socket.new (BitVec.ofNat 8 n)⟩) e = (.ok (0, buf), e') :=
        M.withLocal_eq_ok.mpr (h1 fuel)
      rw [M.bind_ok e3]
      dsimp only
      rw [if_pos rfl]
      rfl
    · obtain ⟨e2, h1, h2, h3⟩ := waning_gone (faults := faults) hn hf hT hX hq buf h hge
      refine ⟨0, e, e2, fun _ => rfl, fun fuel => ?_, by omega, by omega, h3⟩
      unfold tcpReply
      refine M.bind_err ?_
      unfold M.withLocal
      rw [h1]

/-- The rounds until shortly before `X`, on a connection that stays. -/
theorem respond_until {n l a L L' gap T X : Nat} (hn : n < 8) (hf : ∀ i, faults i = none) (hs : StatusIn sched n (· = 0x17))
    (hc : ConfirmingIn L' sched n) (htk : TakingIn L sched n) {k0 : Chip} {S A : List U8} (h0 : At n (TcpIdle S A) k0)
    {z x : Nat} (hlz : l ≤ z) (hsp : Apart sched n gap T l) (answer : List U8 → List U8)
    (hans : ∀ bs, bs ≠ [] → bs.length ≤ l → (answer bs).length ≤ a) (hax : a ≤ x) (hgap : 2 * (L' + a + 10) + (l + 12) + L ≤ gap)
    {buf : List U8} (hb : l ≤ buf.length) {del0 : List U8} (m : Nat) {got : List U8} {t : Nat} {e : Device Chip H}
    (ht : e.bus.clock ≤ t + (L' + a + 10)) (hte : t ≤ e.bus.clock) (hx : (e.bus.socks n).txSize = x)
    (h : InTime sched faults n z l T k0 del0 got t e.bus) (hw : Taken sched faults n t e.bus) (hX : e.bus.clock ≤ X) (hm : X ≤ e.bus.clock + m) :
    ∃ (r : Nat) (got' : List U8) (t' : Nat) (e' : Device Chip H),
      Succeeds (tcpReplier (Chip.dev sched faults).bus ⟨Socket.new (BitVec.ofNat 8 n)⟩ answer buf r) e () e' ∧
      e'.bus.clock ≤ X ∧ X < t' + (2 * (L' + a + 10) + (l + 12)) ∧ t' ≤ e'.bus.clock ∧
      InTime sched faults n z l T k0 del0 got' t' e'.bus ∧
      ∃ ps, parcels sched n T (t' - T) = parcels sched n T (t - T) ++ ps ∧
        (e'.bus.socks n).stream ++ (e'.bus.socks n).pending = (e.bus.socks n).stream ++ (e.bus.socks n).pending ++ ps.flatMap answer := by
  induction m generalizing got t e with
  | zero => exact ⟨0, got, t, e, ⟨nofun, 0, fun _ _ => rfl⟩, hX, by omega, hte, h, [], (List.append_nil _).symm, (List.append_nil _).symm⟩
  | succ m ih =>
    by_cases hlast : X < e.bus.clock + (L' + a + 10) + (l + 12)
    · exact ⟨0, got, t, e, ⟨nofun, 0, fun _ _ => rfl⟩, hX, by omega, hte, h, [], (List.append_nil _).symm, (List.append_nil _).symm⟩
    · obtain ⟨more, t1, e1, ⟨_, N, k1⟩, k2, k3, k4, kk, _, k5, k6, k7, ps, k8, k9⟩ :=
        respond_round (G := L' + a + 10) hn hf hs hc htk h0 hlz hsp answer hans hax (by omega) hb ht hx h hw
      obtain ⟨r, got', t2, e2, ⟨_, N', i1⟩, i2, i3, i4, i5, ps', i6, i7⟩ := ih k3 k2 k5 k6 k7 (by omega) (by omega)
      refine ⟨r + 1, got', t2, e2, ⟨nofun, max N N', fun f hf => ?_⟩, i2, i3, i4, i5, ps ++ ps', ?_, ?_⟩
      · unfold tcpReplier
        rw [M.bind_ok (k1 f (by omega))]
        exact i1 f (by omega)
      · rw [i6, k8, List.append_assoc]
      · rw [i7, k9, List.flatMap_append, List.append_assoc]

/-- C128: as C125, but the connection stays only until time `X`. Then the peer closes it (Sn_SR leaves 0x17 for good); until then what the program
sends is confirmed within `L'` SPI bytes and taken within `L`. If the peer sends nothing during the last `2 * (L' + a + 10) + l + 12` SPI bytes before it
closes, nor afterwards, then the program answers everything the peer ever sent, each piece once, whole and in order, and sends nothing else; nothing is
left unread; and the program learns of the end from `NotConnected`, which `receive` returns within two SPI bytes of the end, and not earlier. However
many rounds the program intends to make, that is where it ends. -/
theorem C128 {n l a L L' gap X : Nat} (hn : n < 8) (hf : ∀ i, faults i = none) (fuel : Nat) (remote : SockAddr) (d0 d1 d : Device Chip H)
    (hz : SizesOk (d0.bus.socks n).mem)
    (hconn : Device.tcpConnect (Chip.dev sched0 faults0).bus fuel ⟨Socket.new (BitVec.ofNat 8 n)⟩ remote d0 = (.ok (), d1))
    {acc del : List U8} (hrun : TcpRun sched faults n d1.bus acc del d.bus) (hsr : (d.bus.socks n).sr = 0x17)
    (hq : (d.bus.socks n).queue = []) (hir : ¬ (d.bus.socks n).Announced) (hu : (d.bus.socks n).una = (d.bus.socks n).txLimit)
    (hl : l ≤ (d.bus.socks n).rxSize) (hX : d.bus.clock ≤ X) (hend : EndingAt sched n d.bus.clock X)
    (hc : ConfirmingUntil L' sched n d.bus.clock X) (htk : TakingUntil L sched n d.bus.clock X)
    (hsp : Apart sched n gap d.bus.clock l)
    (hlate : ∀ k, d.bus.clock ≤ k → X ≤ k + (2 * (L' + a + 10) + (l + 12)) → news n (sched k) = []) (answer : List U8 → List U8)
    (hans : ∀ bs, bs ≠ [] → bs.length ≤ l → (answer bs).length ≤ a) (hat : a ≤ (d.bus.socks n).txSize)
    (hgap : 2 * (L' + a + 10) + (l + 12) + L < gap) (buf : List U8) (hb : l ≤ buf.length) :
    ∃ (rounds : Nat) (e e' : Device Chip H),
      Succeeds (tcpReplier (Chip.dev sched faults).bus ⟨Socket.new (BitVec.ofNat 8 n)⟩ answer buf rounds) d () e ∧
      (∀ m, rounds < m →
        EndsWith (tcpReplier (Chip.dev sched faults).bus ⟨Socket.new (BitVec.ofNat 8 n)⟩ answer buf m) d (.err .notConnected, e')) ∧
      X < e'.bus.clock ∧ e'.bus.clock ≤ X + 2 ∧ (e'.bus.socks n).queue = [] ∧
      (e'.bus.socks n).stream ++ (e'.bus.socks n).pending =
        (d.bus.socks n).stream ++ (d.bus.socks n).pending ++ (parcels sched n d.bus.clock (X - d.bus.clock)).flatMap answer := by
  obtain ⟨_, _, ⟨S, A, hfr⟩, _⟩ := tcpConnect_idle hn hz hconn
  have hi := tcpRun_idle hn hrun hfr.1
  -- until shortly before the end, on a connection that stays
  obtain ⟨r, got, t, e, ⟨_, N, k1⟩, k2, k3, k4, k5, ps, k6, k7⟩ :=
    respond_until (faults := faults) (del0 := []) (T := d.bus.clock) hn hf (filled_status hend.before) (filled_confirming hX hc) (filled_taking hX htk)
      hi hl (filled_apart hsp) answer hans hat (by omega) hb X (got := []) (t := d.bus.clock) (e := d) (by omega) (Nat.le_refl _) rfl
      (inTime_now hn hi (acc := []) .start hsr rfl hq hir (Nat.le_refl _) (by rw [Nat.sub_self]; rfl))
      ⟨Cleared n, cleared_ticks, fun c c' q _ g => ⟨q.ok g.1, q.used.trans g.2⟩, ⟨⟨hi.tx.tcp, hi.tx.base⟩, by unfold Sock.used; rw [hu]; simp⟩,
        fun _ g _ => g.2⟩ hX (by omega)
  rw [Nat.sub_self, show parcels _ n d.bus.clock 0 = [] from rfl, List.nil_append, filled_parcels _ (by omega)] at k6
  have k8 : ∀ f, N ≤ f → tcpReplier (Chip.dev sched faults).bus ⟨Socket.new (BitVec.ofNat 8 n)⟩ answer buf r f d = (.ok (), e) := by
    intro f hfN
    have p0 : aparts (tcpReplier (Chip.dev (filled sched n d.bus.clock X) faults).bus ⟨Socket.new (BitVec.ofNat 8 n)⟩ answer buf r f ⟨d.bus, d.state⟩) =
        ((.ok (), e.state), e.bus) := congrArg aparts (k1 f hfN)
    have p1 := plays_until (p := ⟨filled sched n d.bus.clock X, faults⟩) (q := ⟨sched, faults⟩)
      (play_tcpReplier (E := E) ⟨Socket.new (BitVec.ofNat 8 n)⟩ answer buf r f d.state) (c := d.bus) ⟨fun k g1 g2 => ?_, fun _ _ _ => rfl⟩
    · have p2 := p1.trans p0
      change aparts (tcpReplier (Chip.dev sched faults).bus ⟨Socket.new (BitVec.ofNat 8 n)⟩ answer buf r f d) = _ at p2
      generalize tcpReplier (Chip.dev sched faults).bus ⟨Socket.new (BitVec.ofNat 8 n)⟩ answer buf r f d = y at p2
      obtain ⟨y, ⟨b, s⟩⟩ := y
      obtain ⟨b', s'⟩ := e
      cases p2
      rfl
    · have : k < (aparts (tcpReplier (Chip.dev (filled sched n d.bus.clock X) faults).bus ⟨Socket.new (BitVec.ofNat 8 n)⟩ answer buf r f
        ⟨d.bus, d.state⟩)).2.clock := g2
      rw [p0] at this
      exact filled_in g1 (Nat.lt_of_lt_of_le this k2)
  -- the last rounds
  obtain ⟨acc', hr'⟩ := k5.run
  have hi' := tcpRun_idle hn hr' hi
  obtain ⟨Y, hY⟩ := k5.next
  have hT := k5.since
  have hquiet : ∀ k, t ≤ k → news n (sched k) = [] := fun k hk => hlate k (by omega) (by omega)
  have hag : PieceAgenda (filled sched n d.bus.clock X) n t (X + 9) 0 l [] := by
    refine ⟨by omega, Nat.zero_le _, fun k q1 _ => ?_, .inl (by omega)⟩
    by_cases hk : k < X
    · rw [filled_in (by omega) hk]
      exact hquiet k q1
    · exact filled_news (by omega)
  obtain ⟨r', e1, e2, g1, g2, g3, g4, g5⟩ := waning_rounds (faults := faults) hn hf hT hend hquiet answer buf X
    (e := e) ⟨hY _ _ _ hag, hi', fun _ => k5.sr, fun h => by omega⟩ (by omega) (by omega)
  have k9 : ∀ f, N ≤ f → tcpReplier (Chip.dev sched faults).bus ⟨Socket.new (BitVec.ofNat 8 n)⟩ answer buf (r + r') f d = (.ok (), e1) :=
    fun f hfN => (tcpReplier_on (k8 f hfN) r').trans (g1 f)
  refine ⟨r + r', e1, e2, ⟨nofun, N, k9⟩, fun m hm => ⟨nofun, N, fun f hfN => ?_⟩, g3, g4, ?_, ?_⟩
  · obtain ⟨i, rfl⟩ : ∃ i, m = (r + r') + (i + 1) := ⟨m - (r + r') - 1, by omega⟩
    rw [tcpReplier_on (k9 f hfN)]
    unfold tcpReplier
    exact M.bind_err (g2 f)
  · have := (g5.timed.before (by omega)).2.1
    rw [← Sock.queue_length] at this
    exact List.eq_nil_of_length_eq_zero this
  · rw [parcels_quiet (t - d.bus.clock) (X - d.bus.clock) (by omega) fun k hk => hquiet k (by omega), k6, ← k7, g5.idle.tx.out, hi'.tx.out]

/-! ## Not vacuous -/

/-- As `eagerSched`, but after three pieces the peer sends nothing more, and at time 700 it closes the connection (CLOSE_WAIT). -/
def byeSched (k : Nat) : List (Nat × Act) :=
  if k < 16 then [] else if 700 ≤ k then [(0, .status 0x1c)] else
    [(0, .status 0x17), (0, .raise 0x10), (0, .transmit 65536), (0, .ack 65536)] ++ if k % 200 = 24 ∧ k < 500 then [(0, .arrive [7, 8])] else []

def byeConnected : Device Chip Unit := (Device.tcpConnect (Chip.dev byeSched noFaults).bus 100 demoSocket demoRemote demoDevice).2

theorem bye_connect : Device.tcpConnect (Chip.dev byeSched noFaults).bus 100 demoSocket demoRemote demoDevice = (.ok (), byeConnected) := by
  rw [byeConnected]
  exact run_eq (by decide +kernel)

theorem bye_left : (byeConnected.bus.socks 0).sr = 0x17 ∧ (byeConnected.bus.socks 0).queue = [] ∧
    ¬ (byeConnected.bus.socks 0).Announced ∧ byeConnected.bus.clock = 17 ∧ (byeConnected.bus.socks 0).rxSize = 2048 ∧
    (byeConnected.bus.socks 0).una = (byeConnected.bus.socks 0).txLimit ∧ (byeConnected.bus.socks 0).txSize = 2048 ∧
    (byeConnected.bus.socks 0).stream ++ (byeConnected.bus.socks 0).pending = [] := by
  decide +kernel

theorem bye_mem {k : Nat} (h : 16 ≤ k) (h' : k < 700) : ∀ a, a = .status 0x17 ∨ a = .raise 0x10 ∨ a = .transmit 65536 ∨ a = .ack 65536 →
    (0, a) ∈ byeSched k := by
  intro a ha
  rw [byeSched, if_neg (by omega), if_neg (by omega)]
  rcases ha with rfl | rfl | rfl | rfl <;> simp

theorem bye_ending : EndingAt byeSched 0 17 700 where
  before k x h1 h2 hx := by
    rw [byeSched, if_neg (by omega), if_neg (by omega)] at hx
    split at hx <;> simp at hx <;> exact hx
  now := ⟨0x1c, by rw [byeSched, if_neg (by decide), if_pos (by decide)]; simp⟩
  after k x h hx := by
    rw [byeSched, if_neg (by omega), if_pos h] at hx
    simp at hx
    subst hx
    decide

theorem bye_news {k : Nat} (h : 16 ≤ k) : news 0 (byeSched k) = if k % 200 = 24 ∧ k < 500 then [.arrive [7, 8]] else [] := by
  rw [byeSched, if_neg (by omega)]
  by_cases h1 : 700 ≤ k
  · rw [if_pos h1, if_neg (by omega)]
    rfl
  · rw [if_neg h1]
    split <;> rfl

theorem bye_apart : Apart byeSched 0 200 17 2 := fun k hk h => by
  by_cases h1 : k % 200 = 24 ∧ k < 500
  · refine ⟨⟨[7, 8], by rw [bye_news (by omega), if_pos h1], nofun, by decide⟩, fun j _ _ => ?_⟩
    rw [bye_news (by omega), if_neg (by omega)]
  · rw [bye_news (by omega), if_neg h1] at h
    exact absurd rfl h

/-- C128 is not vacuous: an echo server sends back the three pieces the peer sends before it closes the connection, and then returns NotConnected. -/
example : ∃ (rounds : Nat) (e' : Device Chip Unit), (∀ m, rounds < m →
      EndsWith (tcpReplier (Chip.dev byeSched noFaults).bus demoSocket id [0, 0] m) byeConnected (.err .notConnected, e')) ∧
    700 < e'.bus.clock ∧ e'.bus.clock ≤ 702 ∧ (e'.bus.socks 0).stream ++ (e'.bus.socks 0).pending = [7, 8, 7, 8, 7, 8] := by
  obtain ⟨h1, h2, h3, h4, h5, h6, h7, h8⟩ := bye_left
  obtain ⟨rounds, _, e', _, k1, k2, k3, _, k4⟩ := C128 (n := 0) (l := 2) (a := 2) (L := 2) (L' := 1) (gap := 200) (X := 700) (by decide) (fun _ => rfl)
    100 demoRemote demoDevice byeConnected byeConnected powerUp_sizes bye_connect .start h1 h2 h3 h6 (by rw [h5]; decide)
    (by rw [h4]; decide) (by rw [h4]; exact bye_ending)
    (fun k q1 q2 => ⟨k, Nat.le_refl _, by omega, 0x10, by decide, bye_mem (by omega) (by omega) _ (by simp)⟩)
    (fun k q1 q2 => ⟨k, k + 1, Nat.le_refl _, by omega, by omega, ⟨65536, by omega, bye_mem (by omega) (by omega) _ (by simp)⟩, 65536, by omega,
      bye_mem (by omega) (by omega) _ (by simp)⟩)
    (by rw [h4]; exact bye_apart) (fun k q1 q2 => by rw [bye_news (by omega), if_neg (by omega)]) id (fun _ _ h => h) (by rw [h7]; decide)
    (by decide) [0, 0] (by decide)
  refine ⟨rounds, e', k1, k2, k3, k4.trans ?_⟩
  rw [h8, h4]
  decide +kernel

/-! ## The peer must wait -/

/-- The peer sends two bytes and closes the connection at once. -/
def hastySched (k : Nat) : List (Nat × Act) :=
  if k < 16 then [] else if 32 ≤ k then [(0, .status 0x1c)] else
    if k = 31 then [(0, .arrive [7, 8]), (0, .status 0x1c)] else [(0, .status 0x17), (0, .raise 0x10), (0, .transmit 65536), (0, .ack 65536)]

def hastyConnected : Device Chip Unit := (Device.tcpConnect (Chip.dev hastySched noFaults).bus 100 demoSocket demoRemote demoDevice).2

/-- Without the wait C128 is false: everything else is as in C128, but the echo server ends with NotConnected, and what the peer sent is unread and
unanswered. -/
theorem C128_hasty :
    let r := tcpReplier (Chip.dev hastySched noFaults).bus demoSocket id [0, 0] 20 100 hastyConnected
    hastyConnected.bus.clock = 17 ∧ EndingAt hastySched 0 17 31 ∧ parcels hastySched 0 17 (32 - 17) = [[7, 8]] ∧ r.1 = .err .notConnected ∧
    (r.2.bus.socks 0).queue = [7, 8] ∧ (r.2.bus.socks 0).stream ++ (r.2.bus.socks 0).pending = [] := by
  have h1 : hastyConnected.bus.clock = 17 ∧ parcels hastySched 0 17 (32 - 17) = [[7, 8]] ∧
      (tcpReplier (Chip.dev hastySched noFaults).bus demoSocket id [0, 0] 20 100 hastyConnected).1 = .err .notConnected ∧
      ((tcpReplier (Chip.dev hastySched noFaults).bus demoSocket id [0, 0] 20 100 hastyConnected).2.bus.socks 0).queue = [7, 8] ∧
      ((tcpReplier (Chip.dev hastySched noFaults).bus demoSocket id [0, 0] 20 100 hastyConnected).2.bus.socks 0).stream ++
      ((tcpReplier (Chip.dev hastySched noFaults).bus demoSocket id [0, 0] 20 100 hastyConnected).2.bus.socks 0).pending = [] := by decide +kernel
  obtain ⟨h1, h2, h3, h4, h5⟩ := h1
  refine ⟨h1, ⟨fun k x q1 q2 hx => ?_, ⟨0x1c, ?_⟩, fun k x q hx => ?_⟩, h2, h3, h4, h5⟩
  · rw [hastySched, if_neg (by omega), if_neg (by omega), if_neg (by omega)] at hx
    simp at hx
    exact hx
  · rw [hastySched, if_neg (by decide), if_neg (by decide), if_pos rfl]
    simp
  · rw [hastySched, if_neg (by omega)] at hx
    by_cases hk : 32 ≤ k
    · rw [if_pos hk] at hx
      simp at hx
      subst hx
      decide
    · rw [if_neg hk, if_pos (by omega)] at hx
      simp at hx
      subst hx
      decide

end W5500.Props
