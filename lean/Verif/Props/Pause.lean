import Verif.Proofs.Pause
import Verif.Props.Pieces
/-! # Bytes that come in pieces, the last one after a pause

C117 A client that reads a response of known length from a TCP connection gets it, in whatever pieces it comes, at whatever times, if all of
it fits into the RX buffer and the last piece comes after a pause. -/

namespace W5500.Props
open W5500.Spec Sock
variable {E H : Type} {sched : Nat → List (Nat × Act)} {faults : Nat → Option (E × Nat)}
  {sched0 : Nat → List (Nat × Act)} {faults0 : Nat → Option (E × Nat)}

/-- The client reads `want` bytes, and nothing has been lost until then. -/
def Gets (sched : Nat → List (Nat × Act)) (faults : Nat → Option (E × Nat)) (n t a z L : Nat) (X : List U8) (c1 : Chip) (acc del : List U8)
    (want : Nat) (d : Device Chip H) : Prop :=
  ∃ (got : List U8) (d' : Device Chip H) (N : Nat),
    (∀ f r, N ≤ f → N ≤ r → receiveWhole (Device.tcpReceive (Chip.dev sched faults).bus f ⟨Socket.new (BitVec.ofNat 8 n)⟩) r want d =
      (.ok got, d')) ∧
    got.length = want ∧ TcpRun sched faults n c1 acc (del ++ got) d'.bus ∧ (d'.bus.socks n).sr = 0x17 ∧
    Gathers sched n t a z L X d'.bus ∧ (0 < want → ¬ (d'.bus.socks n).Announced)

/-- One call, and then the others. -/
theorem gets_step {n t a z L : Nat} {X : List U8} {c1 : Chip} {acc del : List U8} {want k N : Nat} {buf' : List U8} {d d2 : Device Chip H}
    (hw : 0 < want) (hN : ∀ f, N ≤ f → Device.tcpReceive (Chip.dev sched faults).bus f ⟨Socket.new (BitVec.ofNat 8 n)⟩
      (List.replicate want 0, d) = (.ok k, (buf', d2))) (hk : k ≤ want) (hb : buf'.length = want) (hun : ¬ (d2.bus.socks n).Announced)
    (h : Gets sched faults n t a z L X c1 acc (del ++ buf'.take k) (want - k) d2) : Gets sched faults n t a z L X c1 acc del want d := by
  obtain ⟨got, d', N', g1, g2, g3, g4, g5, g6⟩ := h
  refine ⟨buf'.take k ++ got, d', max N N' + 1, fun f r hf hr => ?_, ?_, by rw [← List.append_assoc]; exact g3, g4, g5, fun _ => ?_⟩
  · obtain ⟨r', rfl⟩ : ∃ r', r = r' + 1 := ⟨r - 1, by omega⟩
    rw [receiveWhole, if_neg (by omega)]
    refine M.bind_eq_ok.mpr ⟨(k, buf'), d2, M.withLocal_eq_ok.mpr (hN f (by omega)), ?_⟩
    exact M.bind_eq_ok.mpr ⟨got, d', g1 f r' (by omega) (by omega), rfl⟩
  · rw [List.length_append, List.length_take]
    omega
  · rcases Nat.eq_zero_or_pos (want - k) with e | e
    · have := g1 (N' + 1) (N' + 1) (by omega) (by omega)
      rw [receiveWhole, if_pos e] at this
      cases this
      exact hun
    · exact g6 e

theorem gets_none {n t a z L : Nat} {X : List U8} {c1 : Chip} {acc del : List U8} {d : Device Chip H}
    (hrun : TcpRun sched faults n c1 acc del d.bus) (hsr : (d.bus.socks n).sr = 0x17) (hG : Gathers sched n t a z L X d.bus) :
    Gets sched faults n t a z L X c1 acc del 0 d := by
  refine ⟨[], d, 1, fun f r _ hr => ?_, rfl, by rw [List.append_nil]; exact hrun, hsr, hG, fun h => absurd h (by decide)⟩
  obtain ⟨r', rfl⟩ : ∃ r', r = r' + 1 := ⟨r - 1, by omega⟩
  rfl

/-- Reading from within the pause, or after it. -/
theorem gets_hushed {n : Nat} (hn : n < 8) (hf : ∀ i, faults i = none) (hs : StatusIn sched n (· = 0x17)) {fuel : Nat} {remote : SockAddr}
    {d0 d1 : Device Chip H} (hz : SizesOk (d0.bus.socks n).mem)
    (hconn : Device.tcpConnect (Chip.dev sched0 faults0).bus fuel ⟨Socket.new (BitVec.ofNat 8 n)⟩ remote d0 = (.ok (), d1))
    {t a z L T : Nat} {X S A : List U8} (hS : At n (TcpIdle S A) d1.bus)
    (hcap : X.length + (coming sched n t (a + 1 - t)).length ≤ z + L)
    (hq : ∀ k, T ≤ k → k < a → news n (sched k) = []) (ha : ∃ bs, (n, .arrive bs) ∈ sched a) {acc del : List U8} {want : Nat}
    (hwant : (A ++ del).length + want ≤ (X ++ coming sched n t (a + 1 - t)).length) {d : Device Chip H}
    (hrun : TcpRun sched faults n d1.bus acc del d.bus) (hsr : (d.bus.socks n).sr = 0x17) (hd : Hushed sched n t a z L T X d.bus) :
    Gets sched faults n t a z L X d1.bus acc del want d := by
  have hT := hushed_ticks hcap hq ha
  suffices H : ∀ r (d : Device Chip H), TcpRun sched faults n d1.bus acc del d.bus → (d.bus.socks n).sr = 0x17 →
      Hushed sched n t a z L T X d.bus → a + 1 - d.bus.clock ≤ r → Gets sched faults n t a z L X d1.bus acc del want d from
    H _ d hrun hsr hd (Nat.le_refl _)
  clear hrun hsr hd d
  rcases Nat.eq_zero_or_pos want with rfl | hw
  · exact fun r d hrun hsr hd _ => gets_none hrun hsr hd.gathers
  have step : ∀ d : Device Chip H, TcpRun sched faults n d1.bus acc del d.bus → (d.bus.socks n).sr = 0x17 →
      Hushed sched n t a z L T X d.bus → (∀ d2 : Device Chip H, TcpRun sched faults n d1.bus acc del d2.bus → (d2.bus.socks n).sr = 0x17 →
        Hushed sched n t a z L T X d2.bus → d.bus.clock + 2 ≤ d2.bus.clock → d2.bus.clock ≤ a →
        Gets sched faults n t a z L X d1.bus acc del want d2) →
      Gets sched faults n t a z L X d1.bus acc del want d := by
    intro d hrun hsr hd rest
    obtain ⟨k, buf', d2, ⟨_, N, hN⟩, _, hk1, hk2, _, hsr2⟩ :=
      C76_tcp_receive hn hf hs fuel remote d0 d1 d hz hconn acc del hrun hsr (List.replicate want 0)
    rw [List.length_replicate] at hk1 hk2
    have hcall := hN N (Nat.le_refl _)
    have hr2 := TcpRun.receive N _ buf' k hrun hcall
    have hun := C77_tcp_unannounced hn N _ buf' d d2 k hcall
    have hi := tcpRun_idle hn hrun hS
    refine gets_step hw hN hk1 hk2 hun ?_
    rcases receive_hushed hn hT hi hd hwant hcall with ⟨rfl, g1, g2, g3⟩ | g
    · rw [List.take_zero, List.append_nil] at hr2 ⊢
      exact rest d2 hr2 hsr2 g1 g2 g3
    · rw [List.length_replicate, Nat.min_self] at g
      rw [show want - k = 0 by omega]
      exact gets_none hr2 hsr2 (gathers_receive hn hcap hd.gathers hi hcall)
  intro r
  induction r with
  | zero => exact fun d h1 h2 h3 hr => step d h1 h2 h3 fun d2 _ _ _ k1 k2 => by omega
  | succ r ih => exact fun d h1 h2 h3 hr => step d h1 h2 h3 fun d2 g1 g2 g3 k1 k2 => ih d2 g1 g2 g3 (by omega)

/-- Reading from before the pause. -/
theorem gets_paused {n : Nat} (hn : n < 8) (hf : ∀ i, faults i = none) (hs : StatusIn sched n (· = 0x17)) {fuel : Nat} {remote : SockAddr}
    {d0 d1 : Device Chip H} (hz : SizesOk (d0.bus.socks n).mem)
    (hconn : Device.tcpConnect (Chip.dev sched0 faults0).bus fuel ⟨Socket.new (BitVec.ofNat 8 n)⟩ remote d0 = (.ok (), d1))
    {t a z L b : Nat} {X S A : List U8} (hS : At n (TcpIdle S A) d1.bus)
    (hcap : X.length + (coming sched n t (a + 1 - t)).length ≤ z + L)
    (hq : ∀ k, b ≤ k → k < a → news n (sched k) = []) (hb : b + (z + 16) ≤ a) (ha : ∃ bs, (n, .arrive bs) ∈ sched a) {acc del : List U8}
    {want : Nat} (hwant : (A ++ del).length + want ≤ (X ++ coming sched n t (a + 1 - t)).length) {d : Device Chip H}
    (hrun : TcpRun sched faults n d1.bus acc del d.bus) (hsr : (d.bus.socks n).sr = 0x17) (hd : Gathers sched n t a z L X d.bus)
    (hk : d.bus.clock ≤ b) :
    Gets sched faults n t a z L X d1.bus acc del want d := by
  suffices H : ∀ r del want (d : Device Chip H), (A ++ del).length + want ≤ (X ++ coming sched n t (a + 1 - t)).length →
      TcpRun sched faults n d1.bus acc del d.bus → (d.bus.socks n).sr = 0x17 → Gathers sched n t a z L X d.bus → d.bus.clock ≤ b →
      b - d.bus.clock ≤ r → Gets sched faults n t a z L X d1.bus acc del want d from
    H _ _ _ d hwant hrun hsr hd hk (Nat.le_refl _)
  clear hrun hsr hd hk d hwant del want
  intro r
  induction r using Nat.strongRecOn with
  | _ r ih =>
  intro del want d hwant hrun hsr hd hk hr
  rcases Nat.eq_zero_or_pos want with rfl | hw
  · exact gets_none hrun hsr hd
  obtain ⟨k, buf', d2, ⟨_, N, hN⟩, _, hk1, hk2, _, hsr2⟩ :=
    C76_tcp_receive hn hf hs fuel remote d0 d1 d hz hconn acc del hrun hsr (List.replicate want 0)
  rw [List.length_replicate] at hk1 hk2
  have hcall := hN N (Nat.le_refl _)
  have hr2 := TcpRun.receive N _ buf' k hrun hcall
  have hun := C77_tcp_unannounced hn N _ buf' d d2 k hcall
  have hi := tcpRun_idle hn hrun hS
  have hd2 := gathers_receive hn hcap hd hi hcall
  have hwant2 : (A ++ (del ++ buf'.take k)).length + (want - k) ≤ (X ++ coming sched n t (a + 1 - t)).length := by
    rw [← List.append_assoc, List.length_append, List.length_take]
    omega
  obtain ⟨k1, k2⟩ := receive_soon hn hf hi hd.size hk hq hb hcall
  refine gets_step hw hN hk1 hk2 hun ?_
  rcases Nat.lt_or_ge b d2.bus.clock with hlt | hge
  · exact gets_hushed hn hf hs hz hconn hS hcap (fun k h => hq k (by omega)) ha hwant2 hr2 hsr2
      ⟨hd2, Nat.le_refl _, fun _ => hun, fun h => by omega⟩
  · exact ih (b - d2.bus.clock) (by omega) _ _ d2 hwant2 hr2 hsr2 hd2 hge (Nat.le_refl _)

/-- What such a client gets. -/
theorem gets_value {n t a z L : Nat} {X c Q Y : List U8} {e : Chip} (hG : Gathers sched n t a z L X e) (hX : X = c ++ Q)
    {got rest : List U8} (he : (e.socks n).arrived = c ++ got ++ rest) (hY : Y = Q ++ coming sched n t (a + 1 - t))
    (hl : got.length ≤ Y.length) : got = Y.take got.length := by
  have key := hG.same
  rw [he, hX, List.append_assoc, List.append_assoc, ← hY, List.prefix_append_right_inj, List.prefix_append_right_inj] at key
  rcases key with ⟨u, h⟩ | ⟨u, h⟩
  · rw [← h, List.append_assoc, List.take_left]
  · have := congrArg (List.take got.length) h
    rw [List.take_left, List.take_append_of_le_length hl] at this
    exact this.symm

/-- C117: after a `connect` and any calls, on a chip whose transfers do not fail and with a connection that stays: let a piece come after a
pause of 16 SPI bytes more than the RX buffer is long, such that everything which waits now and comes until then, with that piece, fits into
the RX buffer. Then a client that reads at most that much gets it. What comes before the pause may come in any pieces, at any times, and
what comes after that piece does not matter. -/
theorem C117 {n : Nat} (hn : n < 8) (hf : ∀ i, faults i = none) (hs : StatusIn sched n (· = 0x17)) (fuel : Nat) (remote : SockAddr)
    (d0 d1 d : Device Chip H) (hz : SizesOk (d0.bus.socks n).mem)
    (hconn : Device.tcpConnect (Chip.dev sched0 faults0).bus fuel ⟨Socket.new (BitVec.ofNat 8 n)⟩ remote d0 = (.ok (), d1))
    (acc del : List U8) (hrun : TcpRun sched faults n d1.bus acc del d.bus) (hsr : (d.bus.socks n).sr = 0x17) {a : Nat}
    (ha : Paused sched n d.bus.clock a ((d.bus.socks n).rxSize + 16)) {Y : List U8}
    (hY : Y = (d.bus.socks n).queue ++ coming sched n d.bus.clock (a + 1 - d.bus.clock)) (hfit : Y.length ≤ (d.bus.socks n).rxSize)
    (want : Nat) (hw : want ≤ Y.length) :
    ∃ d' : Device Chip H,
      Succeeds (fun fuel => receiveWhole (Device.tcpReceive (Chip.dev sched faults).bus fuel ⟨Socket.new (BitVec.ofNat 8 n)⟩) fuel want) d
        (Y.take want) d' ∧
      TcpRun sched faults n d1.bus acc (del ++ Y.take want) d'.bus ∧ (d'.bus.socks n).sr = 0x17 := by
  obtain ⟨hpiece, b, hb1, hb2, hq⟩ := ha
  obtain ⟨_, _, ⟨S, A, hfr⟩, _⟩ := tcpConnect_idle hn hz hconn
  have hi := tcpRun_idle hn hrun hfr.1
  have harr := hi.rx.core.arrived
  have hlen := congrArg List.length hY
  rw [List.length_append] at hlen
  have hal := congrArg List.length harr
  rw [List.length_append] at hal
  have hG : Gathers sched n d.bus.clock a (d.bus.socks n).rxSize (A ++ del).length (d.bus.socks n).arrived d.bus :=
    ⟨Nat.le_refl _, hi.tx.tcp, rfl, hi.rx.core.rxFits, by rw [hal, Sock.queue_length]; omega,
      fun _ => by rw [Nat.sub_self, coming, List.append_nil], fun h => by omega⟩
  obtain ⟨got, d', N, g1, g2, g3, g4, g5, _⟩ := gets_paused (want := want) hn hf hs hz hconn hfr.1 (by omega) hq hb2 hpiece
    (by rw [List.length_append, List.length_append] at *; omega) hrun hsr hG hb1
  have hi' := (tcpRun_idle hn g3 hfr.1).rx.core.arrived
  rw [← List.append_assoc] at hi'
  have e := gets_value g5 harr hi' hY (by omega)
  rw [g2] at e
  rw [← e]
  exact ⟨d', ⟨nofun, N, fun f hf => g1 f f hf hf⟩, g3, g4⟩

/-- C117, with the request: after a `connect` and any calls, if the peer takes what is sent. The pause begins after
the request has been sent, or the last piece has come by then. -/
theorem C117_request {n : Nat} (hn : n < 8) (hf : ∀ i, faults i = none) (hs : StatusIn sched n (· = 0x17)) (hc : Confirming sched n)
    (hd : Draining sched n) (fuel : Nat) (remote : SockAddr) (d0 d1 d : Device Chip H) (hz : SizesOk (d0.bus.socks n).mem)
    (hconn : Device.tcpConnect (Chip.dev sched0 faults0).bus fuel ⟨Socket.new (BitVec.ofNat 8 n)⟩ remote d0 = (.ok (), d1))
    (acc del : List U8) (hrun : TcpRun sched faults n d1.bus acc del d.bus) (hsr : (d.bus.socks n).sr = 0x17) (data : List U8) {a : Nat}
    (hda : d.bus.clock ≤ a)
    (ha : ∀ d2 : Device Chip H, Succeeds (fun fuel => sendWhole (Device.tcpSend (Chip.dev sched faults).bus fuel
        ⟨Socket.new (BitVec.ofNat 8 n)⟩) fuel data) d () d2 →
      (a < d2.bus.clock ∧ ∃ bs, (n, .arrive bs) ∈ sched a) ∨ Paused sched n d2.bus.clock a ((d.bus.socks n).rxSize + 16)) {Y : List U8}
    (hY : Y = (d.bus.socks n).queue ++ coming sched n d.bus.clock (a + 1 - d.bus.clock)) (hfit : Y.length ≤ (d.bus.socks n).rxSize)
    (want : Nat) (hw : want ≤ Y.length) :
    ∃ d' : Device Chip H,
      Succeeds (request (Chip.dev sched faults).bus ⟨Socket.new (BitVec.ofNat 8 n)⟩ data want) d (Y.take want) d' ∧
      TcpRun sched faults n d1.bus (acc ++ data) (del ++ Y.take want) d'.bus ∧ (d'.bus.socks n).sr = 0x17 := by
  obtain ⟨_, _, ⟨S, A, hfr⟩, _⟩ := tcpConnect_idle hn hz hconn
  have hi := tcpRun_idle hn hrun hfr.1
  have harr := hi.rx.core.arrived
  have hlen := congrArg List.length hY
  rw [List.length_append] at hlen
  have hal := congrArg List.length harr
  rw [List.length_append] at hal
  have hcap : (d.bus.socks n).arrived.length + (coming sched n d.bus.clock (a + 1 - d.bus.clock)).length ≤
    (d.bus.socks n).rxSize + (A ++ del).length := by omega
  have hwant : (A ++ del).length + want ≤ ((d.bus.socks n).arrived ++ coming sched n d.bus.clock (a + 1 - d.bus.clock)).length := by
    rw [List.length_append (as := (d.bus.socks n).arrived)]; omega
  have hG : Gathers sched n d.bus.clock a (d.bus.socks n).rxSize (A ++ del).length (d.bus.socks n).arrived d.bus :=
    ⟨Nat.le_refl _, hi.tx.tcp, rfl, hi.rx.core.rxFits, by rw [hal, Sock.queue_length]; omega,
      fun _ => by rw [Nat.sub_self, coming, List.append_nil], fun h => by omega⟩
  -- the request
  obtain ⟨d2, h1, _, h3, h4⟩ := C95 hn hf hs hc hd fuel remote d0 d1 d hz hconn acc del hrun hsr data
  have ⟨_, N, hN⟩ := h1
  have hmv := (movesOnly_sendWhole (B := (Chip.dev sched faults).bus) (H := H) ⟨sockOf n⟩ N N data).run d
  rw [show sendWhole _ N data d = _ from hN N (Nat.le_refl _)] at hmv
  have hG2 := send_gathers hn hf hcap hmv hG
  -- the response
  have hgets : Gets sched faults n d.bus.clock a (d.bus.socks n).rxSize (A ++ del).length (d.bus.socks n).arrived d1.bus (acc ++ data) del
      want d2 := by
    rcases ha d2 h1 with ⟨hlt, hpiece⟩ | ⟨hpiece, b, hb1, hb2, hq⟩
    · have hann := send_announced hn hf hcap hpiece hmv ⟨hG, fun h => by omega⟩
      exact gets_hushed hn hf hs hz hconn hfr.1 hcap (T := a) (fun k h1 h2 => by omega) hpiece hwant h3 h4
        ⟨hG2, Nat.le_of_lt hlt, fun h => by omega, hann.2⟩
    · exact gets_paused hn hf hs hz hconn hfr.1 hcap hq hb2 hpiece hwant h3 h4 hG2 hb1
  obtain ⟨got, d', N', g1, g2, g3, g4, g5, _⟩ := hgets
  have hi' := (tcpRun_idle hn g3 hfr.1).rx.core.arrived
  rw [← List.append_assoc] at hi'
  have e := gets_value g5 harr hi' hY (by omega)
  rw [g2] at e
  rw [← e]
  refine ⟨d', ⟨nofun, max N N', fun f hf => ?_⟩, g3, g4⟩
  unfold request
  exact M.bind_eq_ok.mpr ⟨(), d2, hN f (by omega), g1 f f (by omega) (by omega)⟩

/-! ## A concrete case -/

/-- The bytes 7 and 8 come as in `inPieces`: the second one while `receive` is busy with the first. Long after that comes 9. -/
def untilPause (k : Nat) : List U8 := if k = 24 then [7] else if k = 38 then [8] else if k = 3000 then [9] else []

theorem untilPause_connect : Device.tcpConnect (Chip.dev (replySched untilPause) noFaults).bus 100 demoSocket demoRemote demoDevice =
    (.ok (), replyConnected untilPause) := by
  rw [replyConnected]
  exact run_eq (by decide +kernel)

theorem untilPause_left : ((replyConnected untilPause).bus.socks 0).sr = 0x17 ∧ ((replyConnected untilPause).bus.socks 0).queue = [] ∧
    (replyConnected untilPause).bus.clock = 17 ∧ ((replyConnected untilPause).bus.socks 0).rxSize = 2048 := by
  decide +kernel

theorem untilPause_bytes {k : Nat} (h : 16 ≤ k) : bytesFor 0 (replySched untilPause k) = untilPause k := by
  rw [replySched, if_neg (by omega)]
  split
  · rename_i e
    rw [e]
    rfl
  · simp [bytesFor]

theorem untilPause_coming (g : Nat) : coming (replySched untilPause) 0 17 g =
    if g ≤ 7 then [] else if g ≤ 21 then [7] else if g ≤ 2983 then [7, 8] else [7, 8, 9] := by
  induction g with
  | zero => rfl
  | succ g ih =>
    rw [coming, ih, untilPause_bytes (by omega), untilPause]
    by_cases h1 : g = 7
    · subst h1; rfl
    by_cases h2 : g = 21
    · subst h2; rfl
    by_cases h3 : g = 2983
    · subst h3; rfl
    rw [if_neg (show ¬ 17 + g = 24 by omega), if_neg (show ¬ 17 + g = 38 by omega), if_neg (show ¬ 17 + g = 3000 by omega), List.append_nil]
    simp only [show (g + 1 ≤ 7) = (g ≤ 7) by apply propext; omega, show (g + 1 ≤ 21) = (g ≤ 21) by apply propext; omega,
      show (g + 1 ≤ 2983) = (g ≤ 2983) by apply propext; omega]

theorem untilPause_paused {t : Nat} (ht : t ≤ 900) : Paused (replySched untilPause) 0 t 3000 2064 := by
  refine ⟨⟨[9], ?_⟩, 900, ht, by omega, fun k h1 h2 => ?_⟩
  · rw [replySched, if_neg (by omega)]
    simp [untilPause]
  · rw [replySched, if_neg (by omega), if_pos (by rw [untilPause, if_neg (by omega), if_neg (by omega), if_neg (by omega)])]
    rfl

/-- C117 is not vacuous: three bytes in three pieces, of which the second one is announced for no longer than the first. -/
example : ∃ d', Succeeds (fun fuel => receiveWhole (Device.tcpReceive (Chip.dev (replySched untilPause) noFaults).bus fuel demoSocket) fuel 3)
    (replyConnected untilPause) [7, 8, 9] d' := by
  obtain ⟨h1, h2, h4, h5⟩ := untilPause_left
  obtain ⟨d', h, _⟩ := C117 (n := 0) (faults := noFaults) (a := 3000) (Y := [7, 8, 9]) (by decide) (fun _ => rfl) (reply_status untilPause) 100
    demoRemote demoDevice (replyConnected untilPause) (replyConnected untilPause) powerUp_sizes untilPause_connect [] [] .start h1
    (by rw [h4, h5]; exact untilPause_paused (by decide)) (by rw [h2, h4, untilPause_coming]; rfl) (by rw [h5]; decide) 3 (by decide)
  exact ⟨d', h⟩

def untilPauseSent : Device Chip Unit :=
  (sendWhole (Device.tcpSend (Chip.dev (replySched untilPause) noFaults).bus 9 demoSocket) 9 [1, 2] (replyConnected untilPause)).2

theorem untilPause_sent : sendWhole (Device.tcpSend (Chip.dev (replySched untilPause) noFaults).bus 9 demoSocket) 9 [1, 2]
    (replyConnected untilPause) = (.ok (), untilPauseSent) := by
  rw [untilPauseSent]
  exact run_eq (by decide +kernel)

theorem untilPauseSent_clock : untilPauseSent.bus.clock ≤ 900 := by decide +kernel

attribute [irreducible] untilPauseSent

/-- ... nor is it with the request. -/
example : ∃ d', Succeeds (request (Chip.dev (replySched untilPause) noFaults).bus demoSocket [1, 2] 3) (replyConnected untilPause)
    [7, 8, 9] d' := by
  obtain ⟨h1, h2, h4, h5⟩ := untilPause_left
  obtain ⟨d', h, _⟩ := C117_request (n := 0) (faults := noFaults) (a := 3000) (Y := [7, 8, 9]) (by decide) (fun _ => rfl)
    (reply_status untilPause) (reply_confirming untilPause) (reply_draining untilPause) 100 demoRemote demoDevice (replyConnected untilPause)
    (replyConnected untilPause) powerUp_sizes untilPause_connect [] [] .start h1 [1, 2] (by rw [h4]; decide)
    (fun d2 hd2 => by
      obtain ⟨_, N, hN⟩ := hd2
      have hN := hN (max N 9) (Nat.le_max_left _ _)
      have hle := (le_sendWhole (B := (Chip.dev (replySched untilPause) noFaults).bus) (H := Unit) demoSocket (Nat.le_max_right N 9)
        (Nat.le_max_right N 9) [1, 2]).run (replyConnected untilPause) (by rw [untilPause_sent]; nofun)
      have e := (hle.trans untilPause_sent).symm.trans hN
      injection e with _ e
      rw [← e, h5]
      exact .inr (untilPause_paused untilPauseSent_clock))
    (by rw [h2, h4, untilPause_coming]; rfl) (by rw [h5]; decide) 3 (by decide)
  exact ⟨d', h⟩

end W5500.Props
