import Verif.Props.Pace
import Verif.Props.Request
/-! # Bytes that come in pieces, one at a time

C116 A client that reads a response of known length from a TCP connection gets it, in however many pieces it comes, if each piece comes
some time after the one before. -/

namespace W5500.Props
open W5500.Spec Sock
variable {E H : Type} {sched : Nat → List (Nat × Act)} {faults : Nat → Option (E × Nat)}
  {sched0 : Nat → List (Nat × Act)} {faults0 : Nat → Option (E × Nat)}

/-- Reading one piece. -/
theorem piece_read {n : Nat} (hn : n < 8) (hf : ∀ i, faults i = none) (hs : StatusIn sched n (· = 0x17)) (fuel : Nat) (remote : SockAddr)
    (d0 d1 d : Device Chip H) (hz : SizesOk (d0.bus.socks n).mem)
    (hconn : Device.tcpConnect (Chip.dev sched0 faults0).bus fuel ⟨Socket.new (BitVec.ofNat 8 n)⟩ remote d0 = (.ok (), d1))
    (acc del : List U8) (hrun : TcpRun sched faults n d1.bus acc del d.bus) (hsr : (d.bus.socks n).sr = 0x17)
    (hq : (d.bus.socks n).queue = []) (hir : ¬ (d.bus.socks n).Announced) {a : Nat} {bs : List U8} (ha : d.bus.clock ≤ a)
    (h1 : ∀ k, d.bus.clock ≤ k → k < a → news n (sched k) = []) (h2 : news n (sched a) = [.arrive bs]) (hne : bs ≠ [])
    (hfit : bs.length ≤ (d.bus.socks n).rxSize) (h3 : ∀ k, a < k → k < a + (bs.length + 12) → news n (sched k) = [])
    (want : Nat) (hw : bs.length ≤ want) :
    ∃ (d' : Device Chip H) (N j : Nat),
      (∀ f r got d'', N ≤ f →
        receiveWhole (Device.tcpReceive (Chip.dev sched faults).bus f ⟨Socket.new (BitVec.ofNat 8 n)⟩) r (want - bs.length) d' =
          (.ok got, d'') →
        receiveWhole (Device.tcpReceive (Chip.dev sched faults).bus f ⟨Socket.new (BitVec.ofNat 8 n)⟩) (r + j) want d =
          (.ok (bs ++ got), d'')) ∧
      TcpRun sched faults n d1.bus acc (del ++ bs) d'.bus ∧ (d'.bus.socks n).sr = 0x17 ∧
      (d'.bus.socks n).queue = [] ∧ ¬ (d'.bus.socks n).Announced ∧ (d'.bus.socks n).rxSize = (d.bus.socks n).rxSize ∧
      a < d'.bus.clock ∧ d'.bus.clock ≤ a + (bs.length + 12) := by
  obtain ⟨_, _, ⟨S, A, hfr⟩, _⟩ := tcpConnect_idle hn hz hconn
  have idle := fun {del : List U8} {d : Device Chip H} (h : TcpRun sched faults n d1.bus acc del d.bus) => tcpRun_idle hn h hfr.1
  have hi := idle hrun
  have hX : (d.bus.socks n).arrived = A ++ del := by rw [hi.rx.core.arrived, hq, List.append_nil]
  have hrsr : (d.bus.socks n).rsr.toNat = 0 := by rw [← Sock.queue_length, hq]; rfl
  have hpos : 1 ≤ bs.length := List.length_pos_iff.mpr hne
  let I := Timed n 1 d.bus.clock a (a + (bs.length + 12)) (d.bus.socks n).rxSize (A ++ del) bs
  have hT : Chip.Ticks sched I := timed_ticks h1 h2 (fun s hs => by simp only [act]; rw [if_pos hs]) hfit h3
  let call := fun f => (Device.tcpReceive (Chip.dev sched faults).bus f ⟨Socket.new (BitVec.ofNat 8 n)⟩ :
    M (List U8 × Device Chip H) (TcpSocketError E) Nat)
  let G : Device Chip H → Prop := fun e => ∃ (d' : Device Chip H) (N j : Nat),
    (∀ f r got d'', N ≤ f → receiveWhole (call f) r (want - bs.length) d' = (.ok got, d'') →
      receiveWhole (call f) (r + j) want e = (.ok (bs ++ got), d'')) ∧
    TcpRun sched faults n d1.bus acc (del ++ bs) d'.bus ∧ (d'.bus.socks n).sr = 0x17 ∧
    (d'.bus.socks n).queue = [] ∧ ¬ (d'.bus.socks n).Announced ∧ (d'.bus.socks n).rxSize = (d.bus.socks n).rxSize ∧
    a < d'.bus.clock ∧ d'.bus.clock ≤ a + (bs.length + 12)
  have wait : ∀ r (e : Device Chip H), TcpRun sched faults n d1.bus acc del e.bus → (e.bus.socks n).sr = 0x17 → I e.bus → e.bus.clock ≤ a →
      a + 1 - e.bus.clock ≤ r → G e := by
    intro r
    induction r with
    | zero => intro e _ _ _ _ _; omega
    | succ r ih =>
      intro e hr he hI hk hle
      obtain ⟨k, buf', e2, ⟨_, N, hN⟩, _, hk1, hk2, _, hsr2⟩ :=
        C76_tcp_receive hn hf hs fuel remote d0 d1 e hz hconn acc del hr he (List.replicate want 0)
      rw [List.length_replicate] at hk1 hk2
      have hcall := hN N (Nat.le_refl _)
      have hr2 := TcpRun.receive N _ buf' k hr hcall
      rcases timed_tcp hn hf hT h3 hI hk hcall with ⟨rfl, g1, g2, g3⟩ | ⟨g0, g1, g2, g3⟩
      · rw [List.take_zero, List.append_nil] at hr2
        obtain ⟨d', N', j, i1, i2⟩ := ih e2 hr2 hsr2 g1 g3 (by omega)
        refine ⟨d', max N N', j + 1, fun f r got d'' hf h => ?_, i2⟩
        rw [← Nat.add_assoc, receiveWhole, if_neg (by omega)]
        refine M.bind_eq_ok.mpr ⟨(0, buf'), e2, M.withLocal_eq_ok.mpr (hN f (by omega)), ?_⟩
        exact M.bind_eq_ok.mpr ⟨bs ++ got, d'', i1 f r got d'' (by omega) h, rfl⟩
      · rw [List.length_replicate, Nat.min_eq_right hw] at g0
        subst g0
        have hlen : (buf'.take bs.length).length = bs.length := by rw [List.length_take]; omega
        have harr := (idle hr2).rx.core.arrived
        rw [g1, ← List.append_assoc A, List.append_assoc (A ++ del)] at harr
        have harr := List.append_cancel_left harr
        obtain ⟨e3, e4⟩ := List.append_inj ((List.append_nil bs).trans harr) hlen.symm
        refine ⟨e2, N, 1, fun f r got d'' hf h => ?_, e3 ▸ hr2, hsr2, e4.symm, C77_tcp_unannounced hn N _ buf' e e2 _ hcall,
          (tcpReceive_rxSize hn hcall).trans hI.size, g2, g3⟩
        rw [receiveWhole, if_neg (by omega)]
        refine M.bind_eq_ok.mpr ⟨(bs.length, buf'), e2, M.withLocal_eq_ok.mpr (hN f (by omega)), ?_⟩
        refine M.bind_eq_ok.mpr ⟨got, d'', h, ?_⟩
        rw [← e3]
        rfl
  exact wait _ d hrun hsr ⟨Nat.le_refl _, hi.tx.tcp, rfl, hi.rx.core.rxFits, fun _ => ⟨hX, hrsr, hir⟩, fun h => by omega⟩ ha (Nat.le_refl _)

/-- C116: after a `connect` and any calls, with nothing waiting or announced, on a chip whose transfers do not fail and with a connection
that stays: if pieces come, none of which is empty or larger than the RX buffer, each at least 12 SPI bytes more than its length before the
next one, then the client that reads as many bytes as all of them have gets exactly these, and nothing is left over. -/
theorem C116 {n : Nat} (hn : n < 8) (hf : ∀ i, faults i = none) (hs : StatusIn sched n (· = 0x17)) (fuel : Nat) (remote : SockAddr)
    (d0 d1 d : Device Chip H) (hz : SizesOk (d0.bus.socks n).mem)
    (hconn : Device.tcpConnect (Chip.dev sched0 faults0).bus fuel ⟨Socket.new (BitVec.ofNat 8 n)⟩ remote d0 = (.ok (), d1))
    (acc del : List U8) (hrun : TcpRun sched faults n d1.bus acc del d.bus) (hsr : (d.bus.socks n).sr = 0x17)
    (hq : (d.bus.socks n).queue = []) (hir : ¬ (d.bus.socks n).Announced) {gap : Nat} {ps : List (Nat × List U8)}
    (ht : Timetable sched n gap d.bus.clock (ps.map fun x => (x.1, .arrive x.2)))
    (hps : ∀ x ∈ ps, x.2 ≠ [] ∧ x.2.length ≤ (d.bus.socks n).rxSize ∧ x.2.length + 12 ≤ gap) :
    ∃ d' : Device Chip H,
      Succeeds (fun fuel => receiveWhole (Device.tcpReceive (Chip.dev sched faults).bus fuel ⟨Socket.new (BitVec.ofNat 8 n)⟩) fuel
        (ps.flatMap Prod.snd).length) d (ps.flatMap Prod.snd) d' ∧
      TcpRun sched faults n d1.bus acc (del ++ ps.flatMap Prod.snd) d'.bus ∧
      (d'.bus.socks n).sr = 0x17 ∧ (d'.bus.socks n).queue = [] ∧ ¬ (d'.bus.socks n).Announced := by
  suffices H : ∀ t, d.bus.clock ≤ t → (∀ k, d.bus.clock ≤ k → k < t → news n (sched k) = []) →
      Timetable sched n gap t (ps.map fun x => (x.1, .arrive x.2)) → ∃ (d' : Device Chip H) (N : Nat),
      (∀ f r, N ≤ f → N ≤ r → receiveWhole (Device.tcpReceive (Chip.dev sched faults).bus f ⟨Socket.new (BitVec.ofNat 8 n)⟩) r
        (ps.flatMap Prod.snd).length d = (.ok (ps.flatMap Prod.snd), d')) ∧
      TcpRun sched faults n d1.bus acc (del ++ ps.flatMap Prod.snd) d'.bus ∧
      (d'.bus.socks n).sr = 0x17 ∧ (d'.bus.socks n).queue = [] ∧ ¬ (d'.bus.socks n).Announced by
    obtain ⟨d', N, h1, h2⟩ := H _ (Nat.le_refl _) (fun k h1 h2 => by omega) ht
    exact ⟨d', ⟨nofun, N, fun f hf => h1 f f hf hf⟩, h2⟩
  clear ht
  induction ps generalizing del d with
  | nil =>
    refine fun t _ _ _ => ⟨d, 1, fun f r _ hr => ?_, by rw [List.flatMap_nil, List.append_nil]; exact hrun, hsr, hq, hir⟩
    obtain ⟨r', rfl⟩ : ∃ r', r = r' + 1 := ⟨r - 1, by omega⟩
    rfl
  | cons x ps ih =>
    intro t h1 h2 ht
    obtain ⟨a, bs⟩ := x
    cases ht with
    | cons k1 k2 k3 k4 k5 =>
    obtain ⟨hne, hfit, hgap⟩ := hps _ (List.mem_cons_self ..)
    dsimp only at hne hfit hgap k1 k2 k3 k4 k5
    rw [List.flatMap_cons]
    dsimp only
    obtain ⟨d2, N, j, g1, g2, g3, g4, g5, g6, g7, g8⟩ := piece_read hn hf hs fuel remote d0 d1 d hz hconn acc del hrun hsr hq hir
      (Nat.le_trans h1 k1) (fun k q1 q2 => (Nat.lt_or_ge k t).elim (h2 k q1) fun q3 => k2 k q3 q2) k3 hne hfit
      (fun k q1 q2 => k4 k q1 (by omega)) (bs ++ ps.flatMap Prod.snd).length (by rw [List.length_append]; omega)
    rw [List.length_append, Nat.add_sub_cancel_left, ← List.length_append] at g1
    obtain ⟨d', N', i1, i2, i3⟩ := ih d2 (del ++ bs) g2 g3 g4 g5 (fun x hx => by rw [g6]; exact hps x (List.mem_cons_of_mem _ hx)) (a + gap)
      (by omega) (fun k q1 q2 => k4 k (by omega) q2) k5
    refine ⟨d', max N N' + j, fun f r hf hr => ?_, by rw [← List.append_assoc]; exact i2, i3⟩
    obtain ⟨r', rfl⟩ : ∃ r', r = r' + j := ⟨r - j, by omega⟩
    exact g1 f r' _ _ (by omega) (i1 f r' (by omega) (by omega))

/-- The bytes 7, 8 and 9 come, the last one well after the first two. -/
def apart (k : Nat) : List U8 := if k = 24 then [7, 8] else if k = 64 then [9] else []

theorem apart_connect : Device.tcpConnect (Chip.dev (replySched apart) noFaults).bus 100 demoSocket demoRemote demoDevice =
    (.ok (), replyConnected apart) := by
  rw [replyConnected]
  exact run_eq (by decide +kernel)

theorem apart_left : ((replyConnected apart).bus.socks 0).sr = 0x17 ∧ ((replyConnected apart).bus.socks 0).queue = [] ∧
    ¬ ((replyConnected apart).bus.socks 0).Announced ∧ (replyConnected apart).bus.clock = 17 ∧
    ((replyConnected apart).bus.socks 0).rxSize = 2048 := by
  decide +kernel

theorem apart_news {k : Nat} (h : 16 ≤ k) : news 0 (replySched apart k) = if apart k = [] then [] else [.arrive (apart k)] := by
  rw [replySched, if_neg (by omega)]
  split <;> rfl

theorem apart_silent {k : Nat} (h : 16 ≤ k) (h1 : k ≠ 24) (h2 : k ≠ 64) : news 0 (replySched apart k) = [] := by
  rw [apart_news h, if_pos (by rw [apart, if_neg h1, if_neg h2])]

/-- C116 is not vacuous: three bytes in two pieces. -/
example : ∃ d', Succeeds (fun fuel => receiveWhole (Device.tcpReceive (Chip.dev (replySched apart) noFaults).bus fuel demoSocket) fuel 3)
    (replyConnected apart) [7, 8, 9] d' := by
  obtain ⟨h1, h2, h3, h4, h5⟩ := apart_left
  obtain ⟨d', h, _⟩ := C116 (n := 0) (faults := noFaults) (gap := 14) (ps := [(24, [7, 8]), (64, [9])]) (by decide) (fun _ => rfl)
    (reply_status apart) 100 demoRemote demoDevice (replyConnected apart) (replyConnected apart) powerUp_sizes apart_connect [] []
    .start h1 h2 h3
    (by
      rw [h4]
      exact .cons (by omega) (fun k _ _ => apart_silent (by omega) (by omega) (by omega)) (apart_news (by omega))
        (fun k _ _ => apart_silent (by omega) (by omega) (by omega))
        (.cons (by omega) (fun k _ _ => apart_silent (by omega) (by omega) (by omega)) (apart_news (by omega))
          (fun k _ _ => apart_silent (by omega) (by omega) (by omega)) (.nil _)))
    (by
      rw [h5]
      intro x hx
      simp only [List.mem_cons, List.not_mem_nil, or_false] at hx
      rcases hx with rfl | rfl <;> exact ⟨nofun, by decide, by decide⟩)
  exact ⟨d', h⟩

end W5500.Props
