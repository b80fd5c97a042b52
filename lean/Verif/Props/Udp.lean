import Verif.Proofs.UdpHistory
import Verif.Props.UdpOpen
import Verif.Props.Codecs
import Verif.Proofs.NoPanic
import Verif.Proofs.Samples
/-! # UDP send and receive on any bus: C35, C43 -/

namespace W5500.Props
open W5500 W5500.Spec socketn
variable {W E H : Type}

/-! ## C35 UDP send preconditions

`0x03` is Sn_SR, `0x22` SOCK_UDP, `0x20` Sn_TX_FSR. The final bus states are the ones after the read frames, so nothing
was written. -/

theorem checkStatus_udp {α : Type} {B : Bus W E} {u : UdpSocket} (f : Unit → M W (NbError (UdpSocketError E)) α) {w w' : W}
    (h : B.readFrame w u.socket.register 0x03 [0] = (.ok (), [0x22], w')) : (u.checkStatus B >>= f) w = f () w' := by
  unfold UdpSocket.checkStatus
  rw [bind_assoc]
  exact (M.bind_ok (M.mapErr_ok (read1_ok h))).trans rfl

theorem checkStatus_other {B : Bus W E} {u : UdpSocket} {w w' : W} {x : U8}
    (h : B.readFrame w u.socket.register 0x03 [0] = (.ok (), [x], w')) (hx : x ≠ 0x22) :
    u.checkStatus B w = (.err (.other (if x ∈ statusTable.map (·.1) then .socketNotOpen else .unrecognisedStatus)), w') := by
  unfold UdpSocket.checkStatus
  rw [show u.socket.getStatus B = B.read1 u.socket.register 0x03 from rfl, M.bind_ok (M.mapErr_ok (read1_ok h))]
  rcases ht : Status.tryFrom x with _ | s
  · rw [if_neg]
    · rfl
    · intro hm
      obtain ⟨p, hp, rfl⟩ := List.mem_map.mp hm
      exact (C10_status_reject p.1).mp ht p.2 hp
  · rw [if_pos (List.mem_map.mpr ⟨(x, s), (C10_status_decode x s).mp ht, rfl⟩)]
    cases s <;> first | rfl | skip
    exact absurd ((by decide +kernel : ∀ x : U8, Status.tryFrom x = some .udp → x = 0x22) x ht) hx

theorem udpSend_run {B : Bus W E} {fuel : Nat} {u : UdpSocket} {data : List U8} {d : Device W H}
    {r : Res (NbError (UdpSocketError E)) Unit} {w : W} (h : u.socketSendAll B fuel data d.bus = (r, w)) :
    Device.udpSend B fuel u data d = (r, { d with bus := w }) := by
  unfold Device.udpSend Device.onBus M.zoom
  rw [h]

/-- C35, status: any status byte other than SOCK_UDP when the call starts. Partial: the status is checked again before
every piece of a buffer that is larger than the free space; see `C35_refuted`. -/
theorem C35_status_partial (B : Bus W E) (fuel : Nat) (u : UdpSocket) (data : List U8) (d : Device W H) (x : U8) (w1 : W)
    (h : B.readFrame d.bus u.socket.register 0x03 [0] = (.ok (), [x], w1)) (hx : x ≠ 0x22) :
    Device.udpSend B fuel u data d =
      (.err (.other (if x ∈ statusTable.map (·.1) then .socketNotOpen else .unrecognisedStatus)), { d with bus := w1 }) := by
  apply udpSend_run
  unfold UdpSocket.socketSendAll
  exact M.bind_err (checkStatus_other h hx)

/-- C35, destination. -/
theorem C35_destination (B : Bus W E) (fuel : Nat) (u : UdpSocket) (data : List U8) (d : Device W H) (w1 : W)
    (h : B.readFrame d.bus u.socket.register 0x03 [0] = (.ok (), [0x22], w1)) (hd : u.destination = none) :
    Device.udpSend B fuel u data d = (.err (.other .destinationNotSet), { d with bus := w1 }) := by
  apply udpSend_run
  unfold UdpSocket.socketSendAll
  rw [checkStatus_udp _ h, hd]
  rfl

theorem read2_ok {B : Bus W E} {w w' : W} {b : U8} {a : U16} {x y : U8}
    (h : B.readFrame w b a [0, 0] = (.ok (), [x, y], w')) : B.read2 b a w = (.ok (fromBeBytes x y), w') := by
  unfold Bus.read2
  rw [M.bind_def]
  unfold Bus.readBuf
  rw [h]
  rfl

/-- C35, free space. Partial as `C35_status_partial`: no free space when the call starts. -/
theorem C35_full_partial (B : Bus W E) (fuel : Nat) (u : UdpSocket) (data : List U8) (d : Device W H) (w1 w2 : W)
    (h : B.readFrame d.bus u.socket.register 0x03 [0] = (.ok (), [0x22], w1)) (hd : u.destination ≠ none)
    (hf : B.readFrame w1 u.socket.register 0x20 [0, 0] = (.ok (), [0, 0], w2)) :
    Device.udpSend B fuel u data d = (.err (.other .bufferFull), { d with bus := w2 }) := by
  apply udpSend_run
  unfold UdpSocket.socketSendAll
  rw [checkStatus_udp _ h, if_neg (by simpa using hd),
    show u.socket.getTxFreeSize B = B.read2 u.socket.register 0x20 from rfl, M.bind_ok (M.mapErr_ok (read2_ok hf))]
  rfl

/-- C35, send_to: it first makes the chip and the socket object agree on the destination (if the object does not
already have it), then is `send`. So the cases above apply to it; the destination cannot be missing. -/
theorem C35_send_to (B : Bus W E) (fuel : Nat) (u : UdpSocket) (remote : SockAddr4) (data : List U8) (d : Device W H) (w1 : W)
    (h : writeAll B (destScript u remote) d.bus = (.ok (), w1)) :
    Device.udpSendTo B fuel (.v4 remote) data (u, d) =
      let r := Device.udpSend B fuel { u with destination := some remote } data { d with bus := w1 }
      (r.1, ({ u with destination := some remote }, r.2)) := by
  unfold Device.udpSendTo Device.udpSend Device.onSockBus Device.onBus M.zoom UdpSocket.socketSendTo
  dsimp only
  have hs : UdpSocket.setDestination B remote (u, d.bus) = (.ok (), ({ u with destination := some remote }, w1)) := by
    rw [setDestination_eq]
    dsimp only
    rw [show M.mapErr UdpSocketError.other (writeAll B (destScript u remote)) d.bus = _ from M.mapErr_ok h]
    rfl
  rw [M.bind_ok (M.mapErr_ok hs)]
  rfl

/-- A chip with one byte of free TX space, which leaves UDP mode after the first write. -/
def flakyBus : Bus (List (U16 × List U8)) Unit where
  readFrame w _ a d := (.ok (), (if a = 0x03 then (if w = [] then [0x22] else [0x00]) else [0, 1]).take d.length ++
    List.replicate (d.length - (if a = 0x03 then 1 else 2)) 0, w)
  writeFrame w _ a d := (.ok (), w ++ [(a, d)])
  read_length w _ a d := by
    simp only [List.length_append, List.length_take, List.length_replicate]
    split <;> (try split) <;> simp <;> omega

/-- C35 is false in the middle of a transfer: two bytes for a chip with one byte of free TX space are sent in two
pieces. Before the second one the status is no longer SOCK_UDP: `SocketNotOpen`, but the first byte was sent. -/
theorem C35_refuted : Device.udpSend flakyBus 9 ⟨Socket.new 0, some ⟨⟨10, 0, 0, 1⟩, 53⟩, 5000⟩ [7, 8] ⟨[], DeviceState.new ()⟩ =
    (.err (.other .socketNotOpen), ⟨[(0x0001, [7]), (0x0024, [0, 2]), (0x0001, [0x20])], DeviceState.new ()⟩) := by
  rfl

/-- The hypotheses of C35 are met on the chip: before `bind` the status is 0; after `bind`, it is SOCK_UDP and there is no
destination. -/
example :
    let B := (Chip.dev quietSched noFaults).bus
    let u := UdpSocket.new (Socket.new 0)
    let r := Device.udpBind B 5000 (u, demoDevice)
    (Device.udpSend B 9 u [1] demoDevice).1 = .err (.other .socketNotOpen) ∧ r.1 = .ok () ∧
      (Device.udpSend B 9 r.2.1 [1] r.2.2).1 = .err (.other .destinationNotSet) ∧
      (B.readFrame r.2.2.bus u.socket.register 0x03 [0]).2.1 = [0x22] := by
  decide +kernel

/-- A bus that answers all reads with `l` repeated, in UDP state. -/
def sameBus (l : List U8) : Bus Unit Unit where
  readFrame w _ a d := (.ok (), if a = 0x03 then (0x22 :: l).take d.length ++ d.drop (l.length + 1) else
    l.take d.length ++ d.drop l.length, w)
  writeFrame w _ _ _ := (.ok (), w)
  read_length w _ a d := by
    split <;> simp only [List.length_append, List.length_take, List.length_drop, List.length_cons] <;> omega

example : (Device.udpSend (sameBus [0, 0]) 9 ⟨Socket.new 0, some ⟨⟨10, 0, 0, 1⟩, 53⟩, 5000⟩ [7] ⟨(), DeviceState.new ()⟩).1 =
    .err (.other .bufferFull) := by rfl

/-! ## C43 UDP receive with nothing to read has no effect

`0x02` is Sn_IR, its bit 2 the receive interrupt; `0x26` is the received size. -/

theorem head_wouldBlock {B : Bus W E} {fuel bl : Nat} {u : UdpSocket} {w w' : W} :
    recvHead B fuel u bl w = (.err .wouldBlock, w') ↔
      ∃ w1 x w2, B.readFrame w u.socket.register 0x03 [0] = (.ok (), [0x22], w1) ∧
        B.readFrame w1 u.socket.register 0x02 [0] = (.ok (), [x], w2) ∧
        (x &&& 4 = 0 ∧ w' = w2 ∨ x &&& 4 ≠ 0 ∧ u.socket.getReceiveSize B fuel w2 = (.ok 0, w')) := by
  have hi : ∀ w1 b w2, M.mapErr NbError.ofBus (u.socket.hasInterrupt B .receive) w1 = (.ok b, w2) ↔
      ∃ x, B.readFrame w1 u.socket.register 0x02 [0] = (.ok (), [x], w2) ∧ b = decide (x &&& 4 ≠ 0) := by
    intro w1 b w2
    rw [M.mapErr_eq_ok]
    unfold Socket.hasInterrupt
    simp only [M.bind_eq_ok, M.pure_eq_ok, Bus.read1_eq_ok]
    exact ⟨fun ⟨x, _, h1, h2, h3⟩ => ⟨x, h3 ▸ h1, h2.symm⟩, fun ⟨x, h1, h2⟩ => ⟨x, w2, h1, h2.symm, rfl⟩⟩
  constructor
  · intro h
    unfold recvHead at h
    rcases M.bind_eq_err.mp h with h | ⟨_, w1, h1, h⟩
    · exfalso
      unfold UdpSocket.checkStatus at h
      rcases M.bind_eq_err.mp h with h | ⟨_, _, _, h⟩
      · obtain ⟨_, h, _⟩ := M.mapErr_eq_err.mp h
        cases h
      · generalize Status.tryFrom _ = o at h
        rcases o with _ | o
        · cases h
        · cases o <;> cases h
    · have h1 : B.readFrame w u.socket.register 0x03 [0] = (.ok (), [0x22], w1) := by
        rcases readFrame1_cases B w u.socket.register 0x03 with ⟨x, w', h'⟩ | ⟨e, d, w', h'⟩ | ⟨d, w', h'⟩ | ⟨d, w', h'⟩
        · by_cases hx : x = 0x22
          · subst hx
            have := checkStatus_udp (fun _ => pure ()) h'
            rw [M.bind_ok h1] at this
            cases this
            exact h'
          · rw [checkStatus_other h' hx] at h1
            cases h1
        all_goals
          unfold UdpSocket.checkStatus at h1
          obtain ⟨_, _, h2, _⟩ := M.bind_eq_ok.mp h1
          have h3 : B.readFrame w u.socket.register 0x03 [0] = _ := Bus.read1_eq_ok.mp (M.mapErr_eq_ok.mp h2)
          rw [h'] at h3
          cases h3
      rcases M.bind_eq_err.mp h with h | ⟨b, w2, h2, h⟩
      · obtain ⟨_, h, _⟩ := M.mapErr_eq_err.mp h
        cases h
      obtain ⟨x, h2', rfl⟩ := (hi _ _ _).mp h2
      refine ⟨w1, x, w2, h1, h2', ?_⟩
      by_cases hx : x &&& 4 = 0
      · rw [if_pos (by rw [decide_eq_false (not_not_intro hx)]; rfl)] at h
        cases h
        exact .inl ⟨hx, rfl⟩
      · rw [if_neg (by rw [decide_eq_true hx]; nofun)] at h
        refine .inr ⟨hx, ?_⟩
        rcases M.bind_eq_err.mp h with h | ⟨v, w3, h3, h⟩
        · obtain ⟨_, h, _⟩ := M.mapErr_eq_err.mp h
          cases h
        split at h
        · rename_i hv
          cases h
          rw [show v = 0 from BitVec.eq_of_toNat_eq hv] at h3
          exact M.mapErr_eq_ok.mp h3
        split at h
        · cases h
        exfalso
        rcases M.bind_eq_err.mp h with h | ⟨p, w4, _, h⟩
        · obtain ⟨_, h, _⟩ := M.mapErr_eq_err.mp h
          cases h
        rcases M.bind_eq_err.mp h with h | ⟨p, w4, _, h⟩
        · obtain ⟨_, h, _⟩ := M.mapErr_eq_err.mp h
          cases h
        generalize UdpHeader.fromArray _ = o at h
        cases o <;> cases h
  · rintro ⟨w1, x, w2, h1, h2, h⟩
    unfold recvHead
    rw [checkStatus_udp _ h1, M.bind_ok ((hi _ _ _).mpr ⟨x, h2, rfl⟩)]
    rcases h with ⟨hx, rfl⟩ | ⟨hx, h⟩
    · rw [if_pos (by rw [decide_eq_false (not_not_intro hx)]; rfl)]
      rfl
    · rw [if_neg (by rw [decide_eq_true hx]; nofun), M.bind_ok (M.mapErr_ok h)]
      rfl

theorem tail_wouldBlock {B : Bus W E} {u : UdpSocket} {bl rx : Nat} {p : U16} {h : UdpHeader} {s s' : List U8 × W} :
    recvTail B u bl rx p h s ≠ (.err .wouldBlock, s') := by
  intro e
  unfold recvTail at e
  rcases M.bind_eq_err.mp e with e | ⟨_, _, _, e⟩
  · unfold M.withPrefix at e
    split at e
    · have := (Prod.mk.inj e).1
      rw [M.mapErr_def] at this
      split at this <;> first | cases this | skip
    · cases e
  rcases M.bind_eq_err.mp e with e | ⟨_, _, _, e⟩
  · have := (Prod.mk.inj e).1
    obtain ⟨_, h, _⟩ := M.mapErr_eq_err.mp (Prod.ext this rfl)
    cases h
  rcases M.bind_eq_err.mp e with e | ⟨_, _, _, e⟩
  · have := (Prod.mk.inj e).1
    obtain ⟨_, h, _⟩ := M.mapErr_eq_err.mp (Prod.ext this rfl)
    cases h
  rcases M.bind_eq_err.mp e with e | ⟨_, _, _, e⟩
  · have := (Prod.mk.inj e).1
    obtain ⟨_, h, _⟩ := M.mapErr_eq_err.mp (Prod.ext this rfl)
    cases h
  cases e

/-- `Device.udpReceive` in terms of its two halves. -/
theorem udpReceive_run {B : Bus W E} {fuel : Nat} {u : UdpSocket} {buf : List U8} {d : Device W H} :
    Device.udpReceive B fuel u (buf, d) =
      match recvHead B fuel u buf.length d.bus with
      | (.ok x, w) => match recvTail B u buf.length x.1 x.2.1 x.2.2 (buf, w) with
        | (.ok (k, h), (buf', w')) => (.ok (k, .v4 h.origin), (buf', { d with bus := w' }))
        | (.err e, (buf', w')) => (.err e, (buf', { d with bus := w' }))
        | (.panic, (buf', w')) => (.panic, (buf', { d with bus := w' }))
        | (.fuel, (buf', w')) => (.fuel, (buf', { d with bus := w' }))
      | (.err e, w) => (.err e, (buf, { d with bus := w }))
      | (.panic, w) => (.panic, (buf, { d with bus := w }))
      | (.fuel, w) => (.fuel, (buf, { d with bus := w })) := by
  unfold Device.udpReceive Device.onSockBus M.zoom
  dsimp only
  rw [M.bind_def, receive_split, M.bind_def, M.onSnd_apply]
  rcases recvHead B fuel u buf.length d.bus with ⟨x | _ | _ | _, w⟩
  · dsimp only
    rcases recvTail B u buf.length x.1 x.2.1 x.2.2 (buf, w) with ⟨⟨k, h⟩ | _ | _ | _, b, w'⟩ <;> rfl
  all_goals rfl

theorem wouldBlock_iff (B : Bus W E) (fuel : Nat) (u : UdpSocket) (buf buf' : List U8) (d d' : Device W H) :
    Device.udpReceive B fuel u (buf, d) = (.err .wouldBlock, (buf', d')) ↔
      ∃ w1 x w2 w3, B.readFrame d.bus u.socket.register 0x03 [0] = (.ok (), [0x22], w1) ∧
        B.readFrame w1 u.socket.register 0x02 [0] = (.ok (), [x], w2) ∧
        (x &&& 4 = 0 ∧ w3 = w2 ∨ x &&& 4 ≠ 0 ∧ u.socket.getReceiveSize B fuel w2 = (.ok 0, w3)) ∧
        buf' = buf ∧ d' = { d with bus := w3 } := by
  have : Device.udpReceive B fuel u (buf, d) = (.err .wouldBlock, (buf', d')) ↔
      ∃ w3, recvHead B fuel u buf.length d.bus = (.err .wouldBlock, w3) ∧ buf' = buf ∧ d' = { d with bus := w3 } := by
    rw [udpReceive_run]
    constructor
    · intro h
      split at h
      · rename_i x w hh
        have ht := @tail_wouldBlock W E B u buf.length x.1 x.2.1 x.2.2 (buf, w)
        split at h <;> simp only [Prod.mk.injEq, reduceCtorEq, false_and, Res.err.injEq] at h
        rename_i e b w' e'
        exact absurd (e'.trans (by rw [h.1])) (ht (s' := (b, w')))
      · rename_i e w hh
        simp only [Prod.mk.injEq, Res.err.injEq] at h
        exact ⟨w, by rw [hh, h.1], h.2.1.symm, h.2.2.symm⟩
      · cases h
      · cases h
    · rintro ⟨w3, h, rfl, rfl⟩
      rw [h]
  rw [this]
  constructor
  · rintro ⟨w3, h, h4, h5⟩
    obtain ⟨w1, x, w2, h1, h2, h3⟩ := head_wouldBlock.mp h
    exact ⟨w1, x, w2, w3, h1, h2, h3, h4, h5⟩
  · rintro ⟨w1, x, w2, w3, h1, h2, h3, h4, h5⟩
    exact ⟨w3, head_wouldBlock.mpr ⟨w1, x, w2, h1, h2, h3⟩, h4, h5⟩

/-- C43, when: `WouldBlock` is returned iff the status is SOCK_UDP and the receive interrupt is clear or the received size
is 0. Then the buffer is as before, and the bus has seen nothing but these reads. -/
theorem C43_would_block (B : Bus W E) (fuel : Nat) (u : UdpSocket) (buf buf' : List U8) (d d' : Device W H) :
    Device.udpReceive B fuel u (buf, d) = (.err .wouldBlock, (buf', d')) ↔
      ∃ w1 x w2 w3, B.readFrame d.bus u.socket.register 0x03 [0] = (.ok (), [0x22], w1) ∧
        B.readFrame w1 u.socket.register 0x02 [0] = (.ok (), [x], w2) ∧
        (x &&& 4 = 0 ∧ w3 = w2 ∨ x &&& 4 ≠ 0 ∧ ReadsTwice B u.socket.register 0x26 fuel w2 0 w3) ∧
        buf' = buf ∧ d' = { d with bus := w3 } := by
  rw [wouldBlock_iff]
  simp only [receiveSize_iff]
  rfl

/-- The write frames after the data has been read: Sn_RX_RD, the RECV command, and clearing the interrupt. -/
inductive RecvFrames (s : Socket) : U8 → U16 → List U8 → Prop where
  | rd (x y : U8) : RecvFrames s s.register 0x28 [x, y]
  | recv : RecvFrames s s.register 0x01 [0x40]
  | ir : RecvFrames s s.register 0x02 [0x04]

theorem moves_recvHead (B : Bus W E) (fuel bl : Nat) (u : UdpSocket) :
    MovesOn B (fun _ _ _ => False) id (recvHead B fuel u bl) := by
  have h1 := moves_checkStatus (B := B) (fun _ _ _ => False) u
  have h2 := moves_receiveSize (B := B) (fun _ _ _ => False) u.socket fuel
  unfold recvHead Socket.hasInterrupt Socket.getRxReadPointer
  moves

/-- C43, before the data is read: however `receive` ends, either nothing was written and the buffer is as before, or the
data was read: after read frames only, bytes of the RX memory were requested into the first `k` bytes of the buffer; the
rest of the buffer is as before, and only then the acknowledging frames follow. -/
theorem C43_before_data (B : Bus W E) (fuel : Nat) (u : UdpSocket) (buf buf' : List U8) (d d' : Device W H)
    (r : Res (NbError (UdpSocketError E)) (Nat × SockAddr))
    (h : Device.udpReceive B fuel u (buf, d) = (r, (buf', d'))) :
    (ReadsOnly B d.bus d'.bus ∧ buf' = buf ∧ ∀ x, r ≠ .ok x) ∨
    ∃ w1 p k w2 r' bytes, ReadsOnly B d.bus w1 ∧ B.readFrame w1 u.socket.rxBuffer p (buf.take k) = (r', bytes, w2) ∧
      buf' = bytes ++ buf.drop k ∧ Reach B (RecvFrames u.socket) w2 d'.bus ∧ (r' ≠ .ok () → d'.bus = w2 ∧ ∀ x, r ≠ .ok x) := by
  have hm := (moves_recvHead B fuel buf.length u).run d.bus
  rw [udpReceive_run] at h
  split at h
  · rename_i x w hh
    rw [hh] at hm
    have ht : ∀ r0 s0, recvTail B u buf.length x.1 x.2.1 x.2.2 (buf, w) = (r0, s0) →
        (s0 = (buf, w) ∧ r0 = .panic) ∨ ∃ p k w2 r' bytes, B.readFrame w u.socket.rxBuffer p (buf.take k) = (r', bytes, w2) ∧
          s0.1 = bytes ++ buf.drop k ∧ Reach B (RecvFrames u.socket) w2 s0.2 ∧
          (r' ≠ .ok () → s0.2 = w2 ∧ ∀ x, r0 ≠ .ok x) := by
      intro r0 s0 e
      unfold recvTail at e
      by_cases hk : max (min x.1 buf.length) x.2.2.len ≤ buf.length
      · right
        rcases hr : B.readFrame w u.socket.rxBuffer (x.2.1 + 8) (buf.take (max (min x.1 buf.length) x.2.2.len)) with
          ⟨r', bytes, w2⟩
        refine ⟨x.2.1 + 8, _, w2, r', bytes, hr, ?_⟩
        have hp : M.withPrefix (max (min x.1 buf.length) x.2.2.len)
            (M.mapErr NbError.ofBus (B.readSlice u.socket.rxBuffer (x.2.1 + 8))) (buf, w) =
            ((M.mapErr NbError.ofBus (fun s : Unit => (r', s)) ()).1,
              (bytes ++ buf.drop (max (min x.1 buf.length) x.2.2.len), w2)) := by
          unfold M.withPrefix
          rw [if_pos hk]
          dsimp only
          rw [M.mapErr_def]
          unfold Bus.readSlice
          rw [hr]
          rcases r' with _ | _ | _ | _ <;> rfl
        cases r' with
        | ok _ =>
          rw [M.bind_ok hp] at e
          have hmv : MovesOn B (RecvFrames u.socket) (fun s : List U8 × W => s.2) (do
              M.onSnd (M.mapErr NbError.ofBus (u.socket.setRxReadPointer B (x.2.1 + BitVec.ofNat 16 x.1)))
              M.onSnd (M.mapErr NbError.ofBus (u.socket.command B .receive))
              M.onSnd (M.mapErr NbError.ofBus (u.socket.resetInterrupt B .receive))
              pure (max (min x.1 buf.length) x.2.2.len, x.2.2) : M (List U8 × W) (NbError (UdpSocketError E)) (Nat × UdpHeader)) := by
            refine .bind (.onSnd (get := id) (.mapErr (.write (.rd _ _)))) fun _ => ?_
            refine .bind (.onSnd (get := id) (.mapErr (.write .recv))) fun _ => ?_
            exact .bind (.onSnd (get := id) (.mapErr (.write .ir))) fun _ => .pure _
          have h1 := hmv.run (bytes ++ buf.drop (max (min x.1 buf.length) x.2.2.len), w2)
          rw [e] at h1
          refine ⟨?_, h1, fun h => absurd rfl h⟩
          have key : ∀ {α β : Type} (m : M W (NbError (UdpSocketError E)) α)
              (f : α → M (List U8 × W) (NbError (UdpSocketError E)) β) (s : List U8 × W),
              (∀ a s, (f a s).2.1 = s.1) → ((M.onSnd m >>= f) s).2.1 = s.1 := by
            intro α β m f s hf
            rw [M.bind_def, M.onSnd_apply]
            rcases m s.2 with ⟨_ | _ | _ | _, t⟩
            · exact hf _ _
            all_goals rfl
          have := key _ _ (bytes ++ buf.drop (max (min x.1 buf.length) x.2.2.len), w2)
            (fun _ s => key _ _ s (fun _ s => key _ _ s (fun _ _ => rfl))) |>.symm.trans (congrArg (·.2.1) e)
          exact this.symm
        | err x => rw [M.bind_err hp] at e; cases e; exact ⟨rfl, .refl _, fun _ => ⟨rfl, nofun⟩⟩
        | panic => rw [M.bind_panic hp] at e; cases e; exact ⟨rfl, .refl _, fun _ => ⟨rfl, nofun⟩⟩
        | fuel => rw [M.bind_fuel hp] at e; cases e; exact ⟨rfl, .refl _, fun _ => ⟨rfl, nofun⟩⟩
      · left
        rw [M.bind_panic (s' := (buf, w))] at e
        · cases e; exact ⟨rfl, rfl⟩
        · unfold M.withPrefix
          rw [if_neg hk]
    split at h <;> rename_i he <;> simp only [Prod.mk.injEq] at h <;> obtain ⟨rfl, rfl, rfl⟩ := h <;>
      rcases ht _ _ he with ⟨h1, h2⟩ | ⟨p, k, w2, r', bytes, h1, h2, h3, h4⟩
    case h_1.inl => cases h2
    case h_2.inl => cases h2
    case h_4.inl => cases h2
    case h_3.inl => cases h1; exact .inl ⟨hm, rfl, nofun⟩
    case h_1.inr => exact .inr ⟨w, p, k, w2, r', bytes, hm, h1, h2, h3, fun h => absurd rfl ((h4 h).2 _)⟩
    all_goals exact .inr ⟨w, p, k, w2, r', bytes, hm, h1, h2, h3, fun h => ⟨(h4 h).1, nofun⟩⟩
  all_goals
    rename_i hh
    rw [hh] at hm
    simp only [Prod.mk.injEq] at h
    obtain ⟨rfl, rfl, rfl⟩ := h
    exact .inl ⟨hm, rfl, nofun⟩

/-- On the chip, after `bind`: nothing has arrived, so `receive` would block; a datagram arrives (before the 12th byte on the bus), then it is
received, with two bytes of the buffer used. -/
def dgramSched (k : Nat) : List (Nat × Act) :=
  if k = 11 then [(0, .datagram ⟨[10, 0, 0, 1], [0, 53], [7, 8]⟩)] else []
def boundUdp : UdpSocket × Device Chip Unit :=
  (Device.udpBind (Chip.dev dgramSched noFaults).bus 5000 (UdpSocket.new (Socket.new 0), demoDevice)).2

example :
    let B := (Chip.dev dgramSched noFaults).bus
    let r := Device.udpReceive B 9 boundUdp.1 ([0, 0, 0], boundUdp.2)
    let r' := Device.udpReceive B 9 boundUdp.1 ([0, 0], r.2.2)
    r.1 = .err .wouldBlock ∧ r'.1 = .ok (2, .v4 ⟨⟨10, 0, 0, 1⟩, 53⟩) ∧ r'.2.1 = [7, 8] := by
  decide +kernel

end W5500.Props
