import Verif.Props.ReadAll
import Verif.Proofs.Request
import Verif.Props.Exchange
/-! # Requests and responses over TCP

C110 A client that connects a TCP socket, and then sends requests and reads a response of known length after each, gets the
response to every request, if every request is answered.

It holds if every response comes in one piece. It is false if a response comes in two pieces, as the peer and the network are free
to do: if the second comes while `receive` is busy with the first, it is stored, but not announced; the client waits for it
forever. -/

namespace W5500.Props
open W5500.Spec Sock
variable {E H : Type} {sched : Nat → List (Nat × Act)} {faults : Nat → Option (E × Nat)}
  {sched0 : Nat → List (Nat × Act)} {faults0 : Nat → Option (E × Nat)}

/-- What holds between two rounds. -/
structure Resting (sched : Nat → List (Nat × Act)) (faults : Nat → Option (E × Nat)) (n : Nat) (c0 c : Chip) : Prop where
  run : ∃ acc del, TcpRun sched faults n c0 acc del c
  sr : (c.socks n).sr = 0x17
  read : (c.socks n).queue = []
  calm : ¬ (c.socks n).Announced

/-- One round. -/
theorem responded {n : Nat} (hn : n < 8) (hf : ∀ i, faults i = none) (hs : StatusIn sched n (· = 0x17)) (hc : Confirming sched n)
    (hd : Draining sched n) (hb : OnlyForBytes sched n) (fuel : Nat) (remote : SockAddr) (d0 d1 d : Device Chip H)
    (hz : SizesOk (d0.bus.socks n).mem)
    (hconn : Device.tcpConnect (Chip.dev sched0 faults0).bus fuel ⟨Socket.new (BitVec.ofNat 8 n)⟩ remote d0 = (.ok (), d1))
    (hR : Resting sched faults n d1.bus d.bus) (data : List U8) (want : Nat) (hw : 0 < want)
    (hresp : Responded sched n d.bus.clock (d.bus.socks n).rxSize want) :
    ∃ (got : List U8) (d' : Device Chip H),
      Succeeds (request (Chip.dev sched faults).bus ⟨Socket.new (BitVec.ofNat 8 n)⟩ data want) d got d' ∧ got.length = want ∧
      (d'.bus.socks n).arrived = (d.bus.socks n).arrived ++ got ++ (d'.bus.socks n).queue ∧
      (d'.bus.socks n).stream ++ (d'.bus.socks n).pending = (d.bus.socks n).stream ++ (d.bus.socks n).pending ++ data ∧
      (∃ acc del, TcpRun sched faults n d1.bus acc del d'.bus) ∧ (d'.bus.socks n).sr = 0x17 ∧ ¬ (d'.bus.socks n).Announced := by
  obtain ⟨⟨acc, del, hrun⟩, hsr, hq, hun⟩ := hR
  obtain ⟨l, hlt, ⟨bs, ha, hbs⟩, hl⟩ := hresp
  obtain ⟨_, _, ⟨S, A, hfr⟩, _⟩ := tcpConnect_idle hn hz hconn
  have idle := fun {acc del : List U8} {d : Device Chip H} (h : TcpRun sched faults n d1.bus acc del d.bus) => tcpRun_idle hn h hfr.1
  have hi := idle hrun
  -- the request
  obtain ⟨d2, h1, h2, h3, h4⟩ := C95 hn hf hs hc hd fuel remote d0 d1 d hz hconn acc del hrun hsr data
  have ⟨_, N, hN⟩ := h1
  have hT := awaits_ticks (t := d.bus.clock) (want := want) hb ha hbs hl
  have hr0 : (d.bus.socks n).rsr.toNat = 0 := by rw [← Sock.queue_length, hq]; rfl
  have hA : Awaits n d.bus.clock l (d.bus.socks n).rxSize want d2.bus := by
    have hmv := (movesOnly_sendWhole (B := (Chip.dev sched faults).bus) (H := H) ⟨sockOf n⟩ N N data).run d
    rw [show sendWhole _ N data d = _ from hN N (Nat.le_refl _)] at hmv
    exact send_awaits hn hf hT hmv ⟨Nat.le_refl _, ⟨hi.tx.tcp, hi.rx.core.rxFits, rfl, fun h => absurd h hun, fun _ => hr0⟩,
      fun h => by omega⟩
  -- the response
  let call := fun f => (Device.tcpReceive (Chip.dev sched faults).bus f ⟨Socket.new (BitVec.ofNat 8 n)⟩ :
    M (List U8 × Device Chip H) (TcpSocketError E) Nat)
  let G (d2 : Device Chip H) : Prop :=
    ∃ (got : List U8) (d' : Device Chip H) (N : Nat), (∀ f r, N ≤ f → N ≤ r → receiveWhole (call f) r want d2 = (.ok got, d')) ∧
      got.length = want ∧ TcpRun sched faults n d1.bus (acc ++ data) (del ++ got) d'.bus ∧ (d'.bus.socks n).sr = 0x17 ∧
      ¬ (d'.bus.socks n).Announced
  let J (d2 : Device Chip H) : Prop := TcpRun sched faults n d1.bus (acc ++ data) del d2.bus ∧ (d2.bus.socks n).sr = 0x17 ∧
    Awaits n d.bus.clock l (d.bus.socks n).rxSize want d2.bus
  have step : ∀ d2, J d2 → (∀ d3, J d3 → d2.bus.clock ≤ l → d2.bus.clock + 2 ≤ d3.bus.clock → G d3) → G d2 := by
    intro d2 ⟨hr2, hsr2, hA2⟩ hrest
    obtain ⟨k, buf', d3, ⟨_, N, hN⟩, hk, hk1, hk2, _, hsr3⟩ :=
      C76_tcp_receive hn hf hs fuel remote d0 d1 d2 hz hconn _ _ hr2 hsr2 (List.replicate want 0)
    rw [List.length_replicate] at hk hk1 hk2
    rw [Sock.queue_length] at hk
    have hcall := hN N (Nat.le_refl _)
    rcases whole_recv hn hT (List.length_replicate ..) hA2 (onSockBus_run hcall) with rfl | ⟨rfl, hA3, hclk⟩
    · refine ⟨buf'.take k, d3, N + 2, fun f r hf hr => ?_, by rw [List.length_take]; omega, .receive N _ buf' k hr2 hcall, hsr3,
        C77_tcp_unannounced hn N _ buf' d2 d3 k hcall⟩
      obtain ⟨r', rfl⟩ : ∃ r', r = r' + 2 := ⟨r - 2, by omega⟩
      unfold receiveWhole
      rw [if_neg (by omega)]
      refine M.bind_eq_ok.mpr ⟨(k, buf'), d3, M.withLocal_eq_ok.mpr (hN f (by omega)), ?_⟩
      refine M.bind_eq_ok.mpr ⟨[], d3, ?_, by rw [List.append_nil]; rfl⟩
      unfold receiveWhole
      rw [if_pos (by omega)]
      rfl
    · have hr3 := TcpRun.receive N _ buf' 0 hr2 hcall
      rw [List.take_zero, List.append_nil] at hr3
      have hlt : d2.bus.clock ≤ l := by
        refine Nat.not_lt.mp fun hlt => ?_
        have hann := hA2.2.2 hlt
        have hne : (d2.bus.socks n).ir &&& 4 ≠ 0 := by
          intro e
          have := congrArg (fun x : U8 => x.getLsbD 2) e
          rw [BitVec.getLsbD_and, show (d2.bus.socks n).ir.getLsbD 2 = true from hann] at this
          exact nomatch this
        have := hk hne
        have := hA2.2.1.some hann
        omega
      obtain ⟨got, d', N', g1, g2, g3, g4, g5⟩ := hrest d3 ⟨hr3, hsr3, hA3⟩ hlt hclk
      refine ⟨got, d', max N N' + 1, fun f r hf hr => ?_, g2, g3, g4, g5⟩
      obtain ⟨r', rfl⟩ : ∃ r', r = r' + 1 := ⟨r - 1, by omega⟩
      unfold receiveWhole
      rw [if_neg (by omega)]
      refine M.bind_eq_ok.mpr ⟨(0, buf'), d3, M.withLocal_eq_ok.mpr (hN f (by omega)), ?_⟩
      exact M.bind_eq_ok.mpr ⟨got, d', g1 f r' (by omega) (by omega), rfl⟩
  have wait : ∀ r d2, J d2 → l + 1 - d2.bus.clock ≤ r → G d2 := by
    intro r
    induction r with
    | zero => exact fun d2 hJ ht => step d2 hJ fun d3 _ h1 _ => by omega
    | succ r ihr => exact fun d2 hJ ht => step d2 hJ fun d3 hJ3 h1 h2 => ihr d3 hJ3 (by omega)
  obtain ⟨got, d', N', g1, g2, g3, g4, g5⟩ := wait _ d2 ⟨h3, h4, hA⟩ (Nat.le_refl _)
  refine ⟨got, d', ⟨nofun, max N N', fun f hf => ?_⟩, g2, ?_, ?_, ⟨_, _, g3⟩, g4, g5⟩
  · unfold request
    exact M.bind_eq_ok.mpr ⟨(), d2, hN f (by omega), g1 f f (by omega) (by omega)⟩
  · rw [(idle g3).rx.core.arrived, hi.rx.core.arrived, hq, List.append_nil, ← List.append_assoc A]
  · rw [(idle g3).tx.out, hi.tx.out, List.append_assoc]

/-- C110, partial. After a `connect`, if nothing has come yet and the connection is established, on a chip whose transfers do not
fail, with a connection that stays and a peer that takes what is sent: after any number of rounds after which nothing was left
over, if a response comes and its first piece is at least `want` bytes long, the next round returns `Ok`; the whole request goes to
the end of what the peer has been and will be sent, and the next `want` bytes that arrived are delivered. So if exactly the
response came, it is delivered, and nothing is left over. Missing: responses that come in several pieces; see `C110_refuted`. -/
theorem C110_partial {n : Nat} (hn : n < 8) (hf : ∀ i, faults i = none) (hs : StatusIn sched n (· = 0x17)) (hc : Confirming sched n)
    (hd : Draining sched n) (hb : OnlyForBytes sched n) (fuel : Nat) (remote : SockAddr) (d0 d1 d : Device Chip H)
    (hz : SizesOk (d0.bus.socks n).mem)
    (hconn : Device.tcpConnect (Chip.dev sched0 faults0).bus fuel ⟨Socket.new (BitVec.ofNat 8 n)⟩ remote d0 = (.ok (), d1))
    (hsr : (d1.bus.socks n).sr = 0x17) (hq : (d1.bus.socks n).queue = []) (hun : ¬ (d1.bus.socks n).Announced)
    (ht : Requests sched faults n d1 d) (data : List U8) (want : Nat) (hw : 0 < want)
    (hresp : Responded sched n d.bus.clock (d.bus.socks n).rxSize want) :
    ∃ (got : List U8) (d' : Device Chip H),
      Succeeds (request (Chip.dev sched faults).bus ⟨Socket.new (BitVec.ofNat 8 n)⟩ data want) d got d' ∧ got.length = want ∧
      (d'.bus.socks n).arrived = (d.bus.socks n).arrived ++ got ++ (d'.bus.socks n).queue ∧
      (d'.bus.socks n).stream ++ (d'.bus.socks n).pending = (d.bus.socks n).stream ++ (d.bus.socks n).pending ++ data ∧
      ∀ response : List U8, response.length = want → (d'.bus.socks n).arrived = (d.bus.socks n).arrived ++ response →
        got = response ∧ (d'.bus.socks n).queue = [] := by
  have hR : Resting sched faults n d1.bus d.bus := by
    clear hresp
    induction ht with
    | start => exact ⟨⟨_, _, .start⟩, hsr, hq, hun⟩
    | @round d d' data want got _ hw hresp hsucc hq' ih =>
      obtain ⟨got2, d2, g1, _, _, _, g2, g3, g4⟩ := responded hn hf hs hc hd hb fuel remote d0 d1 d hz hconn ih data want hw hresp
      obtain ⟨_, rfl⟩ := succeeds_unique hsucc g1
      exact ⟨g2, g3, hq', g4⟩
  obtain ⟨got, d', g1, g2, g3, g4, _⟩ := responded hn hf hs hc hd hb fuel remote d0 d1 d hz hconn hR data want hw hresp
  refine ⟨got, d', g1, g2, g3, g4, fun response hl harr => ?_⟩
  rw [g3, List.append_assoc] at harr
  have harr := List.append_cancel_left harr
  obtain ⟨rfl, e⟩ := List.append_inj (harr.trans (List.append_nil _).symm) (g2.trans hl.symm)
  exact ⟨rfl, e⟩

/-- C110, the trap: a `receive` of the client brought fewer bytes than it wants, and nothing comes after that call. The client waits
forever, even if the bytes have come while the call was busy. -/
theorem C110_deaf {n : Nat} (hn : n < 8) (d d2 : Device Chip H) (want N k : Nat) (buf' : List U8)
    (h : Device.tcpReceive (Chip.dev sched faults).bus N ⟨Socket.new (BitVec.ofNat 8 n)⟩ (List.replicate want 0, d) =
      (.ok k, (buf', d2))) (hk : k < want) (hq : NoNews sched n d2.bus.clock) (f r : Nat) (x : List U8) (d' : Device Chip H) :
    receiveWhole (Device.tcpReceive (Chip.dev sched faults).bus f ⟨Socket.new (BitVec.ofNat 8 n)⟩) r want d ≠ (.ok x, d') := by
  have hT := deaf_ticks (d2.bus.socks n).queue hq
  have loop : ∀ r want (d3 : Device Chip H) x d', 0 < want → d2.bus.clock ≤ d3.bus.clock ∧ At n (Deaf (d2.bus.socks n).queue) d3.bus →
      receiveWhole (Device.tcpReceive (Chip.dev sched faults).bus f ⟨Socket.new (BitVec.ofNat 8 n)⟩) r want d3 ≠ (.ok x, d') := by
    intro r
    induction r with
    | zero => intro want d3 x d' _ _ h; exact nomatch h
    | succ r ih =>
      intro want d3 x d' hw hI h
      unfold receiveWhole at h
      rw [if_neg (by omega)] at h
      obtain ⟨⟨k, buf⟩, d4, h1, h2⟩ := M.bind_eq_ok.mp h
      dsimp only at h2
      obtain ⟨more, d5, h2, _⟩ := M.bind_eq_ok.mp h2
      obtain ⟨rfl, _, h4⟩ := (tcp_receive_unheard (faults := faults) hn hT (fun c h => h.2.1) f _).ok
        (s := (_, d3.bus)) ⟨rfl, hI⟩ (onSockBus_run (M.withLocal_eq_ok.mp h1))
      exact ih _ d4 _ _ hw h4 h2
  cases r with
  | zero => exact nofun
  | succ r =>
    intro h1
    unfold receiveWhole at h1
    rw [if_neg (by omega)] at h1
    obtain ⟨⟨k3, buf3⟩, d3, h3, h4⟩ := M.bind_eq_ok.mp h1
    have h3 : Device.tcpReceive (Chip.dev sched faults).bus f ⟨Socket.new (BitVec.ofNat 8 n)⟩ (List.replicate want 0, d) =
      (.ok k3, (buf3, d3)) := M.withLocal_eq_ok.mp h3
    have h5 := (le_tcpReceive (B := (Chip.dev sched faults).bus) (H := H) ⟨Socket.new (BitVec.ofNat 8 n)⟩
      (Nat.le_max_left f N)).run (List.replicate want 0, d) (by rw [h3]; nofun)
    have h6 := (le_tcpReceive (B := (Chip.dev sched faults).bus) (H := H) ⟨Socket.new (BitVec.ofNat 8 n)⟩
      (Nat.le_max_right f N)).run (List.replicate want 0, d) (by rw [h]; nofun)
    have h7 := (h6.trans h).symm.trans (h5.trans h3)
    cases h7
    dsimp only at h4
    obtain ⟨more, d4, h4, _⟩ := M.bind_eq_ok.mp h4
    exact loop r _ _ _ _ (by omega) ⟨Nat.le_refl _, unannounced_iff.mp (C77_tcp_unannounced hn N _ buf' d d2 k h), rfl⟩ h4

/-! ## Concrete cases -/

/-- The connection is established once `connect` polls for it, and what is sent leaves at once. The peer sends `ps k` at time `k`. -/
def replySched (ps : Nat → List U8) (k : Nat) : List (Nat × Act) :=
  if k < 16 then [] else [(0, .status 0x17), (0, .raise 0x10), (0, .transmit 1), (0, .ack 1)] ++
    if ps k = [] then [] else [(0, .arrive (ps k))]

/-- The response is 7, 8. It comes in two pieces. -/
def inPieces (k : Nat) : List U8 := if k = 24 then [7] else if k = 38 then [8] else []

/-- The responses are 7, 8, and later 9. Each comes in one piece. -/
def inOnePiece (k : Nat) : List U8 := if k = 24 then [7, 8] else if k = 70 then [9] else []

theorem reply_mem {ps : Nat → List U8} {k : Nat} {a : Act} (h : (0, a) ∈ replySched ps k) :
    a = .status 0x17 ∨ a = .raise 0x10 ∨ a = .transmit 1 ∨ a = .ack 1 ∨ a = .arrive (ps k) ∧ ps k ≠ [] := by
  unfold replySched at h
  split at h
  · cases h
  rw [List.mem_append] at h
  rcases h with h | h
  · simp only [List.mem_cons, Prod.mk.injEq, List.not_mem_nil, or_false, true_and] at h
    rcases h with h | h | h | h <;> simp [h]
  · split at h
    · cases h
    · rename_i hne
      simp only [List.mem_cons, Prod.mk.injEq, List.not_mem_nil, or_false, true_and] at h
      simp [h, hne]

theorem reply_status (ps : Nat → List U8) : StatusIn (replySched ps) 0 (· = 0x17) := fun k x h => by
  rcases reply_mem h with h | h | h | h | ⟨h, _⟩ <;> cases h
  rfl

theorem reply_confirming (ps : Nat → List U8) : Confirming (replySched ps) 0 := fun k =>
  ⟨k + 16, by omega, 0x10, by decide, by unfold replySched; rw [if_neg (by omega)]; simp⟩

theorem reply_draining (ps : Nat → List U8) : Draining (replySched ps) 0 := by
  constructor <;> intro k <;>
    exact ⟨k + 16, by omega, 1, by omega, by unfold replySched; rw [if_neg (by omega)]; simp⟩

theorem reply_bytes (ps : Nat → List U8) : OnlyForBytes (replySched ps) 0 := fun k a h => by
  rcases reply_mem h with rfl | rfl | rfl | rfl | ⟨rfl, hne⟩
  · exact ⟨nofun, nofun⟩
  · exact ⟨nofun, fun b e => by cases e; rfl⟩
  · exact ⟨nofun, nofun⟩
  · exact ⟨nofun, nofun⟩
  · exact ⟨fun e => hne (by injection e), nofun⟩

def replyConnected (ps : Nat → List U8) : Device Chip Unit :=
  (Device.tcpConnect (Chip.dev (replySched ps) noFaults).bus 100 demoSocket demoRemote demoDevice).2

theorem reply_connect {ps : Nat → List U8} (h : ps = inPieces ∨ ps = inOnePiece) :
    Device.tcpConnect (Chip.dev (replySched ps) noFaults).bus 100 demoSocket demoRemote demoDevice = (.ok (), replyConnected ps) := by
  rw [replyConnected]
  exact run_eq (by rcases h with rfl | rfl <;> decide +kernel)

/-- After the request, and after the first `receive` for the response. -/
def replySent : Device Chip Unit :=
  (sendWhole (Device.tcpSend (Chip.dev (replySched inPieces) noFaults).bus 9 demoSocket) 9 [1, 2] (replyConnected inPieces)).2
def replyPart : Device Chip Unit :=
  (Device.tcpReceive (Chip.dev (replySched inPieces) noFaults).bus 9 demoSocket ([0, 0], replySent)).2.2

theorem reply_sent : sendWhole (Device.tcpSend (Chip.dev (replySched inPieces) noFaults).bus 9 demoSocket) 9 [1, 2]
    (replyConnected inPieces) = (.ok (), replySent) := by
  rw [replySent]
  exact run_eq (by decide +kernel)

theorem reply_part : Device.tcpReceive (Chip.dev (replySched inPieces) noFaults).bus 9 demoSocket ([0, 0], replySent) =
    (.ok 1, ([7, 0], replyPart)) := by
  have h : (Device.tcpReceive (Chip.dev (replySched inPieces) noFaults).bus 9 demoSocket ([0, 0], replySent)).1 = .ok 1 ∧
    (Device.tcpReceive (Chip.dev (replySched inPieces) noFaults).bus 9 demoSocket ([0, 0], replySent)).2.1 = [7, 0] := by decide +kernel
  exact Prod.ext h.1 (Prod.ext h.2 (by rw [replyPart]))

attribute [irreducible] replyConnected replySent replyPart

/-- C110 is false: the response comes in two pieces, the second while `receive` is busy with the first. The request is sent, and the
whole response is stored in the chip, but the client never gets it, although the connection stays established. -/
theorem C110_refuted :
    StatusIn (replySched inPieces) 0 (· = 0x17) ∧ Confirming (replySched inPieces) 0 ∧ Draining (replySched inPieces) 0 ∧
    OnlyForBytes (replySched inPieces) 0 ∧
    Device.tcpConnect (Chip.dev (replySched inPieces) noFaults).bus 100 demoSocket demoRemote demoDevice = (.ok (), replyConnected inPieces) ∧
    sendWhole (Device.tcpSend (Chip.dev (replySched inPieces) noFaults).bus 9 demoSocket) 9 [1, 2] (replyConnected inPieces) =
      (.ok (), replySent) ∧
    (replyPart.bus.socks 0).stream = [1, 2] ∧ (replyPart.bus.socks 0).arrived = [7, 8] ∧ (replyPart.bus.socks 0).sr = 0x17 ∧
    ∀ f x d', request (Chip.dev (replySched inPieces) noFaults).bus demoSocket [1, 2] 2 f (replyConnected inPieces) ≠ (.ok x, d') := by
  have hq : NoNews (replySched inPieces) 0 replyPart.bus.clock := by
    rw [show replyPart.bus.clock = 42 by decide +kernel]
    intro k hk a ha
    rcases reply_mem ha with rfl | rfl | rfl | rfl | ⟨rfl, h⟩
    · exact ⟨nofun, nofun, nofun, nofun⟩
    · exact ⟨nofun, nofun, nofun, fun b e => by cases e; rfl⟩
    · exact ⟨nofun, nofun, nofun, nofun⟩
    · exact ⟨nofun, nofun, nofun, nofun⟩
    · refine absurd ?_ h
      unfold inPieces
      rw [if_neg (by omega), if_neg (by omega)]
  refine ⟨reply_status _, reply_confirming _, reply_draining _, reply_bytes _, reply_connect (.inl rfl), reply_sent, by decide +kernel,
    by decide +kernel, by decide +kernel, fun f x d' h => ?_⟩
  unfold request at h
  obtain ⟨_, d2, g1, g2⟩ := M.bind_eq_ok.mp h
  have e : d2 = replySent := by
    have k1 := (le_sendWhole (B := (Chip.dev (replySched inPieces) noFaults).bus) demoSocket (Nat.le_max_left f 9) (Nat.le_max_left f 9)
      [1, 2]).run (replyConnected inPieces) (by rw [g1]; nofun)
    have k2 := (le_sendWhole (B := (Chip.dev (replySched inPieces) noFaults).bus) demoSocket (Nat.le_max_right f 9) (Nat.le_max_right f 9)
      [1, 2]).run (replyConnected inPieces) (by rw [reply_sent]; nofun)
    exact congrArg Prod.snd ((k1.trans g1).symm.trans (k2.trans reply_sent))
  subst e
  exact C110_deaf (n := 0) (by decide) _ replyPart 2 9 1 [7, 0] reply_part (by decide) hq f f x d' g2

theorem reply_left : ((replyConnected inOnePiece).bus.socks 0).sr = 0x17 ∧ ((replyConnected inOnePiece).bus.socks 0).queue = [] ∧
    ¬ ((replyConnected inOnePiece).bus.socks 0).Announced ∧ (replyConnected inOnePiece).bus.clock = 17 ∧
    ((replyConnected inOnePiece).bus.socks 0).rxSize = 2048 := by
  decide +kernel

/-- After the first round. -/
def replyFirst : Device Chip Unit :=
  (request (Chip.dev (replySched inOnePiece) noFaults).bus demoSocket [1, 2] 2 9 (replyConnected inOnePiece)).2

theorem reply_first : request (Chip.dev (replySched inOnePiece) noFaults).bus demoSocket [1, 2] 2 9 (replyConnected inOnePiece) =
    (.ok [7, 8], replyFirst) := by
  have h : (request (Chip.dev (replySched inOnePiece) noFaults).bus demoSocket [1, 2] 2 9 (replyConnected inOnePiece)).1 =
    .ok [7, 8] := by decide +kernel
  exact Prod.ext h (by rw [replyFirst])

theorem reply_later : replyFirst.bus.clock = 43 ∧ (replyFirst.bus.socks 0).rxSize = 2048 ∧ (replyFirst.bus.socks 0).queue = [] := by
  decide +kernel

attribute [irreducible] replyFirst

/-- C110_partial is not vacuous: the second round, after a first one. -/
example : ∃ got d', Succeeds (request (Chip.dev (replySched inOnePiece) noFaults).bus demoSocket [3] 1) replyFirst got d' ∧
    got.length = 1 := by
  obtain ⟨h1, h2, h3, h4, h5⟩ := reply_left
  obtain ⟨g1, g2, g3⟩ := reply_later
  have first : Responded (replySched inOnePiece) 0 17 2048 2 := by
    refine ⟨24, by omega, ⟨[7, 8], by simp [replySched, inOnePiece], by decide⟩, fun k bs h1 h2 h => ?_⟩
    rcases reply_mem h with h | h | h | h | ⟨h, hne⟩ <;> try cases h
    unfold inOnePiece at hne ⊢
    repeat' split
    · decide
    · omega
    · rw [if_neg ‹_›, if_neg ‹_›] at hne
      exact absurd rfl hne
  have second : Responded (replySched inOnePiece) 0 43 2048 1 := by
    refine ⟨70, by omega, ⟨[9], by simp [replySched, inOnePiece], by decide⟩, fun k bs h1 h2 h => ?_⟩
    rcases reply_mem h with h | h | h | h | ⟨h, hne⟩ <;> try cases h
    exact List.length_pos_iff.mpr hne
  obtain ⟨got, d', k1, k2, _⟩ := C110_partial (n := 0) (faults := noFaults) (by decide) (fun _ => rfl) (reply_status _)
    (reply_confirming _) (reply_draining _) (reply_bytes _) 100 demoRemote demoDevice (replyConnected inOnePiece) replyFirst
    powerUp_sizes (reply_connect (.inr rfl)) h1 h2 h3
    (.round [1, 2] 2 [7, 8] .start (by decide) (by rw [h4, h5]; exact first) (request_succeeds reply_first) g3)
    [3] 1 (by decide) (by rw [g1, g2]; exact second)
  exact ⟨got, d', k1, k2⟩

end W5500.Props
