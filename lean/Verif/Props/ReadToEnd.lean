import Verif.Props.Farewell
import Verif.Spec.ReadToEnd
/-! # C129 Reading a connection to its end -/

namespace W5500.Props
open W5500.Spec Sock
variable {E H : Type} {sched : Nat → List (Nat × Act)} {faults : Nat → Option (E × Nat)}
  {sched0 : Nat → List (Nat × Act)} {faults0 : Nat → Option (E × Nat)}

/-- The first calls. -/
def tcpTakes {W : Type} (B : Bus W E) (t : TcpSocket) (buf : List U8) : Nat → Nat → List U8 → M (Device W H) (TcpSocketError E) (List U8)
  | 0, _, got => pure got
  | rounds + 1, fuel, got => do
    let (k, buf') ← M.withLocal buf (Device.tcpReceive B fuel t)
    tcpTakes B t buf rounds fuel (got ++ buf'.take k)

theorem play_tcpTakes (t : TcpSocket) (buf : List U8) (rounds fuel : Nat) (got : List U8) :
    PlayDev (H := H) fun W (B : Bus W E) => tcpTakes B t buf rounds fuel got := by
  induction rounds generalizing got with
  | zero => exact .pure
  | succ rounds ih => exact .bind (.withLocal (.onSockBus (play_tcpReceive t fuel buf))) fun x => ih _

theorem tcpTakes_on {W : Type} {B : Bus W E} {t : TcpSocket} {buf got got' : List U8} {r f : Nat} {d e : Device W H}
    (h : tcpTakes B t buf r f got d = (.ok got', e)) (m : Nat) : tcpReadToEnd B t buf (r + m) f got d = tcpReadToEnd B t buf m f got' e := by
  induction r generalizing d got with
  | zero =>
    cases h
    rw [Nat.zero_add]
  | succ r ih =>
    obtain ⟨⟨k, buf'⟩, d1, h1, h2⟩ := M.bind_eq_ok.mp h
    rw [show r + 1 + m = (r + m) + 1 by omega, tcpReadToEnd]
    dsimp only
    rw [M.withLocal_eq_ok.mp h1]
    exact ih h2

/-- The last calls. -/
theorem waning_end {n t T X z : Nat} {Y S A : List U8} (hn : n < 8) (hf : ∀ i, faults i = none) (hT : T ≤ t) (hX : EndingAt sched n T X)
    (hq : ∀ k, t ≤ k → news n (sched k) = []) (buf got : List U8) (m : Nat) {e : Device Chip H}
    (h : Waning n t X z Y S A e.bus) (hk : e.bus.clock ≤ X + 1) (hm : X ≤ e.bus.clock + m) :
    ∃ (r : Nat) (e' : Device Chip H),
      (∀ i fuel, r < i → tcpReadToEnd (Chip.dev sched faults).bus ⟨Socket.new (BitVec.ofNat 8 n)⟩ buf i fuel got e = (.ok got, e')) ∧
      X < e'.bus.clock ∧ e'.bus.clock ≤ X + 2 ∧ Waning n t X z Y S A e'.bus := by
  induction m generalizing e with
  | zero =>
    obtain ⟨e2, h1, h2, h3⟩ := waning_gone (faults := faults) hn hf hT hX hq buf h (by omega)
    refine ⟨0, e2, fun i fuel hi => ?_, by omega, by omega, h3⟩
    obtain ⟨i, rfl⟩ : ∃ j, i = j + 1 := ⟨i - 1, by omega⟩
    rw [tcpReadToEnd]
    dsimp only
    rw [h1]
  | succ m ih =>
    rcases Nat.lt_or_ge e.bus.clock X with hlt | hge
    · obtain ⟨e', h1, h2, h3⟩ := waning_quiet (faults := faults) hn hf hT hX hq buf h hlt
      obtain ⟨r, e2, g1, g2⟩ := ih h3 (by omega) (by omega)
      refine ⟨r + 1, e2, fun i fuel hi => ?_, g2⟩
      obtain ⟨i, rfl⟩ : ∃ j, i = j + 1 := ⟨i - 1, by omega⟩
      rw [tcpReadToEnd]
      dsimp only
      rw [h1]
      dsimp only
      rw [List.take_zero, List.append_nil]
      exact g1 i fuel (by omega)
    · obtain ⟨e2, h1, h2, h3⟩ := waning_gone (faults := faults) hn hf hT hX hq buf h hge
      refine ⟨0, e2, fun i fuel hi => ?_, by omega, by omega, h3⟩
      obtain ⟨i, rfl⟩ : ∃ j, i = j + 1 := ⟨i - 1, by omega⟩
      rw [tcpReadToEnd]
      dsimp only
      rw [h1]

/-- The calls until shortly before `X`, on a connection that stays. -/
theorem takes_until {n l gap T X : Nat} (hn : n < 8) (hf : ∀ i, faults i = none) (hs : StatusIn sched n (· = 0x17))
    {k0 : Chip} {S A : List U8} (h0 : At n (TcpIdle S A) k0) {z : Nat} (hlz : l ≤ z) (hsp : Apart sched n gap T l) (hgap : l + 12 ≤ gap)
    {buf : List U8} (hb : l ≤ buf.length) {del0 : List U8} (m : Nat) {got : List U8} {e : Device Chip H}
    (h : InTime sched faults n z l T k0 del0 got e.bus.clock e.bus) (hX : e.bus.clock ≤ X) (hm : X ≤ e.bus.clock + m) :
    ∃ (r : Nat) (got' : List U8) (e' : Device Chip H),
      Succeeds (fun f => tcpTakes (Chip.dev sched faults).bus ⟨Socket.new (BitVec.ofNat 8 n)⟩ buf r f got) e got' e' ∧
      e'.bus.clock ≤ X ∧ X < e'.bus.clock + (l + 12) ∧ InTime sched faults n z l T k0 del0 got' e'.bus.clock e'.bus := by
  induction m generalizing got e with
  | zero => exact ⟨0, got, e, ⟨nofun, 0, fun _ _ => rfl⟩, hX, by omega, h⟩
  | succ m ih =>
    by_cases hlast : X < e.bus.clock + (l + 12)
    · exact ⟨0, got, e, ⟨nofun, 0, fun _ _ => rfl⟩, hX, hlast, h⟩
    · obtain ⟨acc, hr⟩ := h.run
      have hi := tcpRun_idle hn hr h0
      obtain ⟨k, buf', e1, ⟨_, N, h1⟩, hkb, hlb⟩ := tcpReceive_ends hn hf hs hi h.sr buf
      dsimp only at h1
      obtain ⟨q1, q2, hI1⟩ := inTime_call (G := 0) hn hf hs hlz h0 hsp (by omega) (Nat.le_refl _) h hb (h1 N (Nat.le_refl _))
      obtain ⟨r, got', e2, ⟨_, N', i1⟩, i2⟩ := ih hI1 (by omega) (by omega)
      dsimp only at i1
      refine ⟨r + 1, got', e2, ⟨nofun, max N N', fun f hf => ?_⟩, i2⟩
      dsimp only
      rw [tcpTakes]
      have e3 : M.withLocal buf (Device.tcpReceive (Chip.dev sched faults).bus f ⟨Socket.new (BitVec.ofNat 8 n)⟩) e = (.ok (k, buf'), e1) :=
        M.withLocal_eq_ok.mpr (h1 f (by omega))
      rw [M.bind_ok e3]
      exact i1 f (by omega)

/-- C129: after a `connect` and any calls, with nothing waiting or announced, on a chip whose transfers do not fail. A program calls `receive` with a
buffer of at least `l` bytes until it returns `NotConnected`, and collects what comes. The peer sends pieces of at most `l` bytes, which fit into the RX
buffer, at least `l + 12` SPI bytes apart, and closes the connection at time `X`, more than `l + 12` SPI bytes after it sent the last one. Then the
program ends, within two SPI bytes of the end of the connection, and has got exactly what the peer sent. -/
theorem C129 {n l gap X : Nat} (hn : n < 8) (hf : ∀ i, faults i = none) (fuel : Nat) (remote : SockAddr) (d0 d1 d : Device Chip H)
    (hz : SizesOk (d0.bus.socks n).mem)
    (hconn : Device.tcpConnect (Chip.dev sched0 faults0).bus fuel ⟨Socket.new (BitVec.ofNat 8 n)⟩ remote d0 = (.ok (), d1))
    {acc del : List U8} (hrun : TcpRun sched faults n d1.bus acc del d.bus) (hsr : (d.bus.socks n).sr = 0x17)
    (hq : (d.bus.socks n).queue = []) (hir : ¬ (d.bus.socks n).Announced)
    (hl : l ≤ (d.bus.socks n).rxSize) (hX : d.bus.clock ≤ X) (hend : EndingAt sched n d.bus.clock X)
    (hsp : Apart sched n gap d.bus.clock l) (hlate : ∀ k, d.bus.clock ≤ k → X ≤ k + (l + 12) → news n (sched k) = [])
    (hgap : l + 12 ≤ gap) (buf : List U8) (hb : l ≤ buf.length) :
    ∃ d' : Device Chip H,
      Succeeds (fun f => tcpReadToEnd (Chip.dev sched faults).bus ⟨Socket.new (BitVec.ofNat 8 n)⟩ buf f f []) d
        (arrivals sched n d.bus.clock (X - d.bus.clock)) d' ∧
      X < d'.bus.clock ∧ d'.bus.clock ≤ X + 2 ∧ (d'.bus.socks n).queue = [] := by
  obtain ⟨_, _, ⟨S, A, hfr⟩, _⟩ := tcpConnect_idle hn hz hconn
  have hi := tcpRun_idle hn hrun hfr.1
  -- until shortly before the end, on a connection that stays
  obtain ⟨r, got, e, ⟨_, N, k1⟩, k2, k3, k5⟩ :=
    takes_until (faults := faults) (del0 := []) (T := d.bus.clock) hn hf (filled_status hend.before) hi hl (filled_apart hsp) hgap hb X (got := []) (e := d)
      (inTime_now hn hi (acc := []) .start hsr rfl hq hir (Nat.le_refl _) (by rw [Nat.sub_self]; rfl)) hX (by omega)
  dsimp only at k1
  have k8 : ∀ f, N ≤ f → tcpTakes (Chip.dev sched faults).bus ⟨Socket.new (BitVec.ofNat 8 n)⟩ buf r f [] d = (.ok got, e) := by
    intro f hfN
    have p0 : aparts (tcpTakes (Chip.dev (filled sched n d.bus.clock X) faults).bus ⟨Socket.new (BitVec.ofNat 8 n)⟩ buf r f [] ⟨d.bus, d.state⟩) =
        ((.ok got, e.state), e.bus) := congrArg aparts (k1 f hfN)
    have p1 := plays_until (p := ⟨filled sched n d.bus.clock X, faults⟩) (q := ⟨sched, faults⟩)
      (play_tcpTakes (E := E) ⟨Socket.new (BitVec.ofNat 8 n)⟩ buf r f [] d.state) (c := d.bus) ⟨fun k g1 g2 => ?_, fun _ _ _ => rfl⟩
    · have p2 := p1.trans p0
      change aparts (tcpTakes (Chip.dev sched faults).bus ⟨Socket.new (BitVec.ofNat 8 n)⟩ buf r f [] d) = _ at p2
      generalize tcpTakes (Chip.dev sched faults).bus ⟨Socket.new (BitVec.ofNat 8 n)⟩ buf r f [] d = y at p2
      obtain ⟨y, ⟨b, s⟩⟩ := y
      obtain ⟨b', s'⟩ := e
      cases p2
      rfl
    · have : k < (aparts (tcpTakes (Chip.dev (filled sched n d.bus.clock X) faults).bus ⟨Socket.new (BitVec.ofNat 8 n)⟩ buf r f []
        ⟨d.bus, d.state⟩)).2.clock := g2
      rw [p0] at this
      exact filled_in g1 (Nat.lt_of_lt_of_le this k2)
  -- the last calls
  obtain ⟨acc', hr'⟩ := k5.run
  have hi' := tcpRun_idle hn hr' hi
  obtain ⟨Y, hY⟩ := k5.next
  have hT := k5.since
  have hquiet : ∀ k, e.bus.clock ≤ k → news n (sched k) = [] := fun k hk => hlate k (by omega) (by omega)
  have hag : PieceAgenda (filled sched n d.bus.clock X) n e.bus.clock (X + 9) 0 l [] := by
    refine ⟨by omega, Nat.zero_le _, fun k q1 _ => ?_, .inl (by omega)⟩
    by_cases hk : k < X
    · rw [filled_in (by omega) hk]
      exact hquiet k q1
    · exact filled_news (by omega)
  obtain ⟨r', e', g1, g3, g4, g5⟩ := waning_end (faults := faults) hn hf hT hend hquiet buf got X
    (e := e) ⟨hY _ _ _ hag, hi', fun _ => k5.sr, fun h => by omega⟩ (by omega) (by omega)
  have hgot : got = arrivals sched n d.bus.clock (X - d.bus.clock) := by
    rw [k5.all, filled_arrivals _ (by omega), arrivals_quiet (e.bus.clock - d.bus.clock) (X - d.bus.clock) (by omega) fun k hk => hquiet k (by omega)]
  refine ⟨e', ⟨nofun, N + r + r' + 1, fun f hfN => ?_⟩, g3, g4, ?_⟩
  · obtain ⟨i, rfl⟩ : ∃ i, f = r + i := ⟨f - r, by omega⟩
    dsimp only
    rw [tcpTakes_on (k8 (r + i) (by omega)), g1 i (r + i) (by omega), hgot]
  · have := (g5.timed.before (by omega)).2.1
    rw [← Sock.queue_length] at this
    exact List.eq_nil_of_length_eq_zero this

/-- C129 is not vacuous: the peer sends three pieces and closes the connection. -/
example : ∃ d' : Device Chip Unit,
    Succeeds (fun f => tcpReadToEnd (Chip.dev byeSched noFaults).bus demoSocket [0, 0] f f []) byeConnected [7, 8, 7, 8, 7, 8] d' ∧
    700 < d'.bus.clock ∧ d'.bus.clock ≤ 702 ∧ (d'.bus.socks 0).queue = [] := by
  obtain ⟨h1, h2, h3, h4, h5, h6, h7, h8⟩ := bye_left
  have key := C129 (n := 0) (l := 2) (gap := 200) (X := 700) (by decide) (fun _ => rfl)
    100 demoRemote demoDevice byeConnected byeConnected powerUp_sizes bye_connect .start h1 h2 h3 (by rw [h5]; decide)
    (by rw [h4]; decide) (by rw [h4]; exact bye_ending)
    (by rw [h4]; exact bye_apart) (fun k q1 q2 => by rw [bye_news (by omega), if_neg (by omega)]) (by decide) [0, 0] (by decide)
  rw [h4, show arrivals byeSched 0 17 (700 - 17) = [7, 8, 7, 8, 7, 8] by decide +kernel] at key
  exact key

/-- A peer that closes the connection as soon as it has sent everything: the program ends as usual, but what it has got lacks the end, which
is still in the chip. -/
theorem C129_hasty :
    let r := tcpReadToEnd (Chip.dev hastySched noFaults).bus demoSocket [0, 0] 100 100 [] hastyConnected
    arrivals hastySched 0 hastyConnected.bus.clock (32 - hastyConnected.bus.clock) = [7, 8] ∧ r.1 = .ok [] ∧ (r.2.bus.socks 0).queue = [7, 8] := by
  decide +kernel

end W5500.Props
