import Verif.Props.UdpChip
import Verif.Props.Tcp
import Verif.Props.Success
import Verif.Props.Udp
import Verif.Proofs.Moves
/-! # Empty messages

C81 Empty datagrams are datagrams, C83 `WouldBlock` is how a receive call says that there is nothing. -/

namespace W5500.Props
open W5500 W5500.Spec W5500.Spec.Sock socketn
variable {W E H : Type}

/-! ## C81 -/

/-- C81 is false for sending, on every bus and from every state: `send` of an empty buffer writes nothing at all, however it ends. -/
theorem C81_send_refuted (B : Bus W E) (fuel : Nat) (u : UdpSocket) (d : Device W H) :
    ReadsOnly B d.bus (Device.udpSend B fuel u [] d).2.bus := by
  have h1 := moves_checkStatus (B := B) (fun _ _ _ => False) u
  have h2 : ∀ k v, MovesOn B (fun _ _ _ => False) id (u.sendAllLoop B fuel [] k v 0) := by
    intro k v
    cases k
    · exact .outOfFuel
    · exact .pure _
  have h : MovesOn B (fun _ _ _ => False) id (u.socketSendAll B fuel []) := by
    unfold UdpSocket.socketSendAll Socket.getTxFreeSize
    repeat' first | exact h2 _ _ | moves
  exact h.run d.bus

/-- C81 is false for sending: yet `send` returns `Ok`, if the socket is open, has a destination and free memory is reported. -/
theorem C81_send_ok (B : Bus W E) (fuel : Nat) (u : UdpSocket) (d : Device W H) (w1 w2 : W) (x y : U8) (hf : [x, y] ≠ [0, 0])
    (hd : u.destination ≠ none) (h1 : B.readFrame d.bus u.socket.register 0x03 [0] = (.ok (), [0x22], w1))
    (h2 : B.readFrame w1 u.socket.register 0x20 [0, 0] = (.ok (), [x, y], w2)) :
    Device.udpSend B (fuel + 1) u [] d = (.ok (), { d with bus := w2 }) := by
  have h : u.socketSendAll B (fuel + 1) [] d.bus = (.ok (), w2) := by
    have hc : u.checkStatus B d.bus = (.ok (), w1) := (M.bind_ok (M.mapErr_ok (read1_ok h1))).trans rfl
    have h2 : u.socket.getTxFreeSize B w1 = (.ok (fromBeBytes x y), w2) := Bus.read2_eq_ok.mpr ⟨x, y, h2, rfl⟩
    unfold UdpSocket.socketSendAll
    rw [M.bind_ok hc, if_neg (by cases hx : u.destination <;> simp_all), M.bind_ok (M.mapErr_ok h2), if_neg fun e => hf (by
      rw [← toBeBytes_fromBeBytes x y, e]
      rfl)]
    rfl
  unfold Device.udpSend Device.onBus M.zoom
  rw [h]

/-- C81 is false for receiving, on every bus: no call ever reports a datagram of length 0. -/
theorem C81_receive_refuted (B : Bus W E) (fuel : Nat) (u : UdpSocket) (buf buf' : List U8) (d d' : Device W H) (k : Nat)
    (origin : SockAddr) (h : Device.udpReceive B fuel u (buf, d) = (.ok (k, origin), (buf', d'))) : 1 ≤ k := by
  rw [udpReceive_run] at h
  rcases hh : recvHead B fuel u buf.length d.bus with ⟨x | _ | _ | _, w⟩ <;> rw [hh] at h
  · dsimp only at h
    rcases ht : recvTail B u buf.length x.1 x.2.1 x.2.2 (buf, w) with ⟨⟨k', hd⟩ | _ | _ | _, b, w'⟩ <;> rw [ht] at h
    · obtain ⟨⟨rfl, rfl⟩, _⟩ : (k' = k ∧ _ = origin) ∧ _ := by simpa using h
      have hx : x.1 ≠ 0 ∧ buf.length ≠ 0 := by
        unfold recvHead at hh
        obtain ⟨_, w1, _, hh⟩ := M.bind_eq_ok.mp hh
        obtain ⟨b, w2, _, hh⟩ := M.bind_eq_ok.mp hh
        split at hh
        · exact nomatch hh
        obtain ⟨v, w3, _, hh⟩ := M.bind_eq_ok.mp hh
        split at hh
        · exact nomatch hh
        rename_i hv
        split at hh
        · exact nomatch hh
        rename_i hb
        obtain ⟨_, w4, _, hh⟩ := M.bind_eq_ok.mp hh
        obtain ⟨hdr, w5, _, hh⟩ := M.bind_eq_ok.mp hh
        cases hfa : UdpHeader.fromArray hdr <;> rw [hfa] at hh
        · exact nomatch hh
        · have hx := (Prod.mk.inj (Prod.mk.inj hh |>.1 |> Res.ok.inj)).1
          exact ⟨by rw [← hx]; exact hv, hb⟩
      unfold recvTail at ht
      obtain ⟨_, _, _, ht⟩ := M.bind_eq_ok.mp ht
      obtain ⟨_, _, _, ht⟩ := M.bind_eq_ok.mp ht
      obtain ⟨_, _, _, ht⟩ := M.bind_eq_ok.mp ht
      obtain ⟨_, _, _, ht⟩ := M.bind_eq_ok.mp ht
      have : k' = max (min x.1 buf.length) x.2.2.len := (Prod.mk.inj (Res.ok.inj (Prod.mk.inj ht).1)).1.symm
      omega
    all_goals exact nomatch h
  all_goals exact nomatch h

variable {sched : Nat → List (Nat × Act)} {faults : Nat → Option (E × Nat)}
  {sched0 : Nat → List (Nat × Act)} {faults0 : Nat → Option (E × Nat)}

/-- C81, partial: an empty datagram that a receive call hands over has the right sender, and the buffer is untouched beyond
the reported length. Missing: the length, which is never 0, and the sending side. -/
theorem C81_partial {n : Nat} (hn : n < 8) {u0 u : UdpSocket} {c0 : Chip} {log : List UdpSent} {got : List UdpGot}
    {d d' : Device Chip H} (ho : UdpOpened sched0 faults0 n u0 c0) (hr : UdpRun sched faults n u0 c0 log got u d.bus)
    (fuel : Nat) (buf buf' : List U8) (k : Nat) (origin : SockAddr)
    (h : Device.udpReceive (Chip.dev sched faults).bus fuel u (buf, d) = (.ok (k, origin), (buf', d'))) (dg : Dgram) (rest : List Dgram)
    (hq : Queued (dg :: rest) (d.bus.socks n)) (he : dg.payload = []) :
    ∃ o, origin = .v4 o ∧ wire o = (dg.ip, dg.port) ∧ 1 ≤ k ∧ k ≤ buf.length ∧ buf'.drop k = buf.drop k := by
  obtain ⟨hdr, dg', rest', more, h1, h2, h3, _⟩ := received hn ho hr fuel buf buf' k origin h (dg :: rest) hq
  obtain ⟨rfl, -⟩ := List.cons.inj h1
  exact ⟨hdr.origin, h3, h2.origin, C81_receive_refuted _ fuel u buf buf' d d' k origin h, by have := h2.count; omega, h2.rest⟩

/-- An empty datagram between others: announced as 18 bytes, from its sender. -/
example :
    let ds : List Dgram := [⟨[10, 0, 0, 1], [0, 53], []⟩, ⟨[10, 0, 0, 2], [0, 54], [9, 9]⟩]
    let r := Device.udpReceive (Chip.dev (arriveSched ds) noFaults).bus 9 (arriveBound ds).1
      (List.replicate 30 0, ⟨later (arriveSched ds) (arriveBound ds).2.bus, DeviceState.new ()⟩)
    r.1 = .ok (18, .v4 ⟨⟨10, 0, 0, 1⟩, 53⟩) ∧ (r.2.2.bus.socks 0).queue = [] := by
  decide +kernel

/-! ## C83 -/

/-- C83, partial: for UDP it holds. `Ok` is at least one byte; `WouldBlock` is returned iff the socket is open and there is nothing to
read: the receive flag is clear or the received size is 0. Missing: TCP. -/
theorem C83_partial (B : Bus W E) (fuel : Nat) (u : UdpSocket) (buf : List U8) (d : Device W H) :
    (∀ k o s, Device.udpReceive B fuel u (buf, d) = (.ok (k, o), s) → 1 ≤ k) ∧
    ∀ buf' d', Device.udpReceive B fuel u (buf, d) = (.err .wouldBlock, (buf', d')) ↔
      ∃ w1 x w2 w3, B.readFrame d.bus u.socket.register 0x03 [0] = (.ok (), [0x22], w1) ∧
        B.readFrame w1 u.socket.register 0x02 [0] = (.ok (), [x], w2) ∧
        (x &&& 4 = 0 ∧ w3 = w2 ∨ x &&& 4 ≠ 0 ∧ ReadsTwice B u.socket.register 0x26 fuel w2 0 w3) ∧
        buf' = buf ∧ d' = { d with bus := w3 } :=
  ⟨fun _ _ _ h => C81_receive_refuted B fuel u buf _ d _ _ _ h, fun buf' d' => C43_would_block B fuel u buf buf' d d'⟩

/-- C83 for TCP, when `Ok(0)` is returned: only if the connection is established, and the receive flag is clear, or the received size
is 0, or the buffer is empty. -/
theorem C83_tcp (B : Bus W E) (fuel : Nat) (t : TcpSocket) (buf buf' : List U8) (d d' : Device W H)
    (h : Device.tcpReceive B fuel t (buf, d) = (.ok 0, (buf', d'))) :
    ∃ w1 x w2, B.readFrame d.bus t.socket.register 0x03 [0] = (.ok (), [0x17], w1) ∧
      B.readFrame w1 t.socket.register 0x02 [0] = (.ok (), [x], w2) ∧
      ((x &&& 4 = 0 ∧ buf' = buf ∧ d'.bus = w2) ∨
       (x &&& 4 ≠ 0 ∧ ∃ v w3, ReadsTwice B t.socket.register 0x26 fuel w2 v w3 ∧ (v = 0 ∨ buf = []))) := by
  have h : TcpSocket.socketReceive B fuel t (buf, d.bus) = (.ok 0, (buf', d'.bus)) := by
    unfold Device.tcpReceive Device.onSockBus M.zoom at h
    simp only [Prod.mk.injEq] at h
    rw [← h.2.1, ← h.2.2]
    exact Prod.ext h.1 rfl
  have rd : ∀ {b : U8} {a : U16} {w w' : W} {x : U8}, B.read1 b a w = (.ok x, w') → B.readFrame w b a [0] = (.ok (), [x], w') := by
    intro b a w w' x hr
    rcases readFrame1_cases B w b a with ⟨y, v, e⟩ | ⟨e', dd, v, e⟩ | ⟨dd, v, e⟩ | ⟨dd, v, e⟩
    · rw [read1_ok e] at hr; cases hr; exact e
    all_goals
      unfold Bus.read1 at hr
      obtain ⟨l, v', hb, -⟩ := M.bind_eq_ok.mp hr
      unfold Bus.readBuf at hb
      rw [e] at hb
      exact nomatch hb
  have os : ∀ {α : Type} {m : M W (TcpSocketError E) α} {a : α} {b : List U8} {w : W} {s : List U8 × W},
      (M.onSnd m : M (List U8 × W) _ _) (b, w) = (.ok a, s) → m w = (.ok a, s.2) ∧ s.1 = b := by
    intro α m a b w s hm
    rw [M.onSnd_apply] at hm
    obtain ⟨h1, h2⟩ := Prod.mk.inj hm
    rw [← h2]
    exact ⟨Prod.ext h1 rfl, rfl⟩
  have me : ∀ {α : Type} {m : M W E α} {a : α} {w w' : W}, M.mapErr TcpSocketError.other m w = (.ok a, w') → m w = (.ok a, w') := by
    intro α m a w w' hm
    unfold M.mapErr at hm
    generalize m w = r at hm ⊢
    obtain ⟨_ | _ | _ | _, v⟩ := r
    · cases hm; rfl
    all_goals exact nomatch hm
  unfold TcpSocket.socketReceive at h
  obtain ⟨c, ⟨b1, w1⟩, h1, h⟩ := M.bind_eq_ok.mp h
  obtain ⟨k1, hb⟩ := os h1
  obtain rfl : buf = b1 := hb.symm
  obtain ⟨st, v1, h1a, h1b⟩ := M.bind_eq_ok.mp k1
  have h1a := rd (me h1a)
  obtain ⟨rfl, rfl⟩ : decide (st = Status.established.toU8) = c ∧ v1 = w1 := ⟨Res.ok.inj (Prod.mk.inj h1b).1, (Prod.mk.inj h1b).2⟩
  split at h
  · exact nomatch h
  rename_i hst
  have hst : st = 0x17 := by
    simp only [Bool.not_eq_true', Bool.not_eq_false] at hst
    exact of_decide_eq_true hst
  subst hst
  obtain ⟨c, ⟨b2, w2⟩, h2, h⟩ := M.bind_eq_ok.mp h
  obtain ⟨k2, hb⟩ := os h2
  obtain rfl : buf = b2 := hb.symm
  obtain ⟨x, v2, h2a, h2b⟩ := M.bind_eq_ok.mp (me k2)
  have h2a := rd h2a
  obtain ⟨rfl, rfl⟩ : decide (x &&& Interrupt.receive.toU8 ≠ 0) = c ∧ v2 = w2 := ⟨Res.ok.inj (Prod.mk.inj h2b).1, (Prod.mk.inj h2b).2⟩
  refine ⟨_, x, _, h1a, h2a, ?_⟩
  split at h
  · rename_i hx
    have hx : x &&& 4 = 0 := by
      simp only [Bool.not_eq_true'] at hx
      exact Decidable.not_not.mp (of_decide_eq_false hx)
    obtain ⟨_, h⟩ := Prod.mk.inj h
    exact .inl ⟨hx, (Prod.mk.inj h).1.symm, (Prod.mk.inj h).2.symm⟩
  · rename_i hx
    have hx : x &&& 4 ≠ 0 := by
      simp only [Bool.not_eq_true', Bool.not_eq_false] at hx
      exact of_decide_eq_true hx
    obtain ⟨v, ⟨b3, w3⟩, h3, h⟩ := M.bind_eq_ok.mp h
    obtain ⟨k3, hb⟩ := os h3
    obtain rfl : buf = b3 := hb.symm
    refine .inr ⟨hx, v.toNat, _, receiveSize_iff.mp (me k3), ?_⟩
    obtain ⟨s, s', h4, h⟩ := M.bind_eq_ok.mp h
    cases h4
    obtain ⟨_, _, _, h⟩ := M.bind_eq_ok.mp h
    obtain ⟨_, _, _, h⟩ := M.bind_eq_ok.mp h
    obtain ⟨_, _, _, h⟩ := M.bind_eq_ok.mp h
    obtain ⟨_, _, _, h⟩ := M.bind_eq_ok.mp h
    obtain ⟨_, _, _, h⟩ := M.bind_eq_ok.mp h
    have hl := Res.ok.inj (Prod.mk.inj h).1
    dsimp only at hl
    split at hl
    · exact .inr (List.eq_nil_of_length_eq_zero hl)
    · exact .inl (by simpa using hl)

/-- C83 is false for TCP, on every bus: with an established connection and the receive flag clear, a receive call returns `Ok(0)`
rather than `WouldBlock`, and changes nothing. -/
theorem C83_refuted (B : Bus W E) (fuel : Nat) (t : TcpSocket) (buf : List U8) (d : Device W H) (w1 w2 : W) (x : U8)
    (h1 : B.readFrame d.bus t.socket.register 0x03 [0] = (.ok (), [0x17], w1))
    (h2 : B.readFrame w1 t.socket.register 0x02 [0] = (.ok (), [x], w2)) (hx : x &&& 4 = 0) :
    Device.tcpReceive B fuel t (buf, d) = (.ok 0, (buf, { d with bus := w2 })) := C47_ignored B fuel t buf d w1 w2 x h1 h2 hx

/-- After the data has been read, `receive` on the demo connection returns `Ok(0)`, time and again. -/
example :
    let B := (Chip.dev demoSched noFaults).bus
    let r1 := Device.tcpReceive B 9 demoSocket ([0, 0, 0, 0], demoConnected)
    let r2 := Device.tcpReceive B 9 demoSocket ([7, 7], r1.2.2)
    let r3 := Device.tcpReceive B 9 demoSocket ([7, 7], r2.2.2)
    r1.1 = .ok 3 ∧ (r1.2.2.bus.socks 0).queue = [] ∧ r2.1 = .ok 0 ∧ r3.1 = .ok 0 ∧ r3.2.1 = [7, 7] ∧ (r3.2.2.bus.socks 0).sr = 0x17 := by
  decide +kernel

/-- `send` of nothing on the demo socket: `Ok`, and no packet. -/
example :
    let r := Device.udpSend (Chip.dev emitSched noFaults).bus 1 (udpConnected noFaults).1 [] (udpConnected noFaults).2
    r.1 = .ok () ∧ (r.2.bus.socks 0).packets = [] := by
  decide +kernel

end W5500.Props
