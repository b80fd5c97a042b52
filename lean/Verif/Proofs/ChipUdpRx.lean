import Verif.Proofs.ChipDgram
import Verif.Proofs.Bytes
/-! # UDP receive on the chip -/

namespace W5500.Spec
open W5500 socketn Sock
variable {E ε α : Type} {sched : Nat → List (Nat × Act)} {faults : Nat → Option (E × Nat)}

/-! ## The RECV command -/

/-- RECV releases the bytes before Sn_RX_RD. -/
theorem recv_ready {A bs : List U8} {s : Sock} (h2 : RxCore A s) (h3 : bs <+: s.queue)
    (hr : s.rxRdReg = s.rxRd + BitVec.ofNat 16 bs.length) :
    RxReady (A ++ bs) { s with rxRd := s.rxRdReg } ∧
      ({ s with rxRd := s.rxRdReg } : Sock).queue = s.queue.drop bs.length := by
  have hl := h3.length_le
  rw [queue_length] at hl
  have hn : ({ s with rxRd := s.rxRdReg } : Sock).rsr.toNat = s.rsr.toNat - bs.length := by
    show (s.rxWr - s.rxRdReg).toNat = _
    rw [hr]
    exact sub_add_toNat hl
  have hq : ({ s with rxRd := s.rxRdReg } : Sock).queue = s.queue.drop bs.length := by
    unfold queue
    rw [hn, ring_drop h2.size.dvd _ _ _ _ hl, ← hr]
    rfl
  refine ⟨⟨⟨h2.size, ?_, ?_⟩, rfl⟩, hq⟩
  · rw [hn]
    have := h2.fits
    show s.rsr.toNat - _ ≤ s.rxSize
    omega
  · rw [hq]
    show s.arrived = _
    rw [h2.arrived, List.append_assoc]
    congr 1
    conv => lhs; rw [← List.take_append_drop bs.length s.queue]
    rw [← List.prefix_iff_eq_take.mp h3]

theorem stored_reg16 {s : Sock} {a v : U16} (h : Stored s.mem a (toBeBytes v)) : s.reg16 a = v := by
  have h0 := h 0 (by simp [toBeBytes])
  have h1 := h 1 (by simp [toBeBytes])
  unfold reg16
  rw [show a + BitVec.ofNat 16 0 = a by simp] at h0
  rw [show BitVec.ofNat 16 1 = (1 : U16) from rfl] at h1
  rw [h0, h1]
  exact whole _

/-! ## UDP -/

/-- `UdpIdle`, except that Sn_RX_RD may have been written already. `p`: where the queue starts. -/
structure UdpBusy (K : List Packet) (A : List U8) (z : Nat) (qs : List Dgram) (p : U16) (s : Sock) : Prop where
  base : PktBase 2 s.dest K s
  wr : s.txWr = s.txLimit
  size : s.txSize = z
  core : RxCore A s
  queue : QueuedMore qs s
  rd : s.rxRd = p

theorem UdpBusy.idle {K : List Packet} {A : List U8} {z : Nat} {qs : List Dgram} {p : U16} {s : Sock}
    (h : UdpBusy K A z qs p s) (hr : s.rxRdReg = p) : UdpIdle K A z qs s :=
  ⟨⟨h.base, h.wr, h.core, hr.trans h.rd.symm⟩, h.size, h.queue⟩

theorem UdpIdle.busy {K : List Packet} {A : List U8} {z : Nat} {qs : List Dgram} {s : Sock}
    (h : UdpIdle K A z qs s) : UdpBusy K A z qs s.rxRdReg s :=
  ⟨h.idle.base, h.idle.wr, h.size, h.idle.rx.core, h.queue, h.idle.rx.reg.symm⟩

theorem UdpIdle.fewer {K : List Packet} {A : List U8} {z : Nat} {qs more : List Dgram} {s : Sock}
    (h : UdpIdle K A z (qs ++ more) s) : UdpIdle K A z qs s := by
  obtain ⟨h1, h2, t, h3⟩ := h
  exact ⟨h1, h2, more ++ t, by rw [← List.append_assoc]; exact h3⟩

theorem stable_udpBusy (K : List Packet) (A : List U8) (z : Nat) (qs : List Dgram) (p : U16) :
    StableS (UdpBusy K A z qs p) := by
  intro s a h
  refine ⟨?_, by rw [act_txWr, act_txLimit]; exact h.wr, (act_txSize s a).trans h.size, stable_rxCore A s a h.core,
    act_queuedMore h.base.mode h.core.rxFits h.queue a, (act_rxRd s a).trans h.rd⟩
  rw [act_dest]
  exact stable_pktBase (by decide) _ K s a h.base

theorem UdpBusy.setRxRd {K : List Packet} {A : List U8} {z : Nat} {qs : List Dgram} {p : U16} {s : Sock}
    (h : UdpBusy K A z qs p s) (a : U16) (x : U8) (ha : a = 0x28 ∨ a = 0x29) : UdpBusy K A z qs p (s.setMem a x) := by
  obtain ⟨⟨b1, b2, b3, b4, b5, b6⟩, w, hz, ⟨c1, c2, c3⟩, ⟨t, q⟩, r⟩ := h
  rcases ha with rfl | rfl
  · exact ⟨⟨b1, b2, rfl, b4, b5, b6⟩, w, hz, ⟨c1, c2, c3⟩, ⟨t, q⟩, r⟩
  · exact ⟨⟨b1, b2, rfl, b4, b5, b6⟩, w, hz, ⟨c1, c2, c3⟩, ⟨t, q⟩, r⟩

theorem UdpBusy.prefix {K : List Packet} {A : List U8} {z : Nat} {qs : List Dgram} {p : U16} {s : Sock}
    (h : UdpBusy K A z qs p s) : encAll qs <+: s.queue := by
  obtain ⟨t, _, ht⟩ := h.queue
  exact ⟨encAll t, by rw [ht, encAll_append]⟩

theorem UdpBusy.recv {K : List Packet} {A : List U8} {z : Nat} {qs : List Dgram} {p : U16} {s : Sock}
    (h : UdpBusy K A z qs p s) (hr : s.rxRdReg = p + BitVec.ofNat 16 (encAll qs).length) :
    UdpIdle K (A ++ encAll qs) z [] { s with rxRd := s.rxRdReg } := by
  obtain ⟨h1, h2⟩ := recv_ready h.core h.prefix (by rw [h.rd]; exact hr)
  obtain ⟨⟨b1, b2, b3, b4, b5, b6⟩, w, hz, c, ⟨t, q1, q2⟩, r⟩ := h
  refine ⟨⟨⟨b1, b2, rfl, b4, b5, b6⟩, w, h1⟩, hz, t, fun d hd => q1 d (List.mem_append_right _ hd), ?_⟩
  rw [h2, q2, encAll_append, List.drop_left]
  rfl

theorem encode_length {d : Dgram} (h : d.Wf) : d.encode.length = d.payload.length + 8 := by
  simp only [Dgram.encode, List.length_append, h.1, h.2.1]
  simp only [be, List.length_cons, List.length_nil]
  omega

/-- The header fields of an encoded datagram. -/
theorem header_of {d : Dgram} (h : d.Wf) : ∃ hdr : UdpHeader, UdpHeader.fromArray (d.encode.take 8) = some hdr ∧
    wire hdr.origin = (d.ip, d.port) ∧ hdr.len = d.payload.length := by
  obtain ⟨ip, port, payload⟩ := d
  obtain ⟨h1, h2, h3⟩ := h
  match ip, h1 with
  | [a, b, c, e], _ =>
    match port, h2 with
    | [x, y], _ =>
      refine ⟨_, rfl, ?_, ?_⟩
      · show ([a, b, c, e], be (fromBeBytes x y).toNat) = _
        rw [← toBeBytes_eq_be, toBeBytes_fromBeBytes]
      · show (fromBeBytes _ _).toNat = _
        rw [fromBeBytes_toNat]
        simp only [BitVec.toNat_ofNat]
        have h3 : payload.length < 65536 := h3
        show _ = payload.length
        omega

theorem payload_of {d : Dgram} (h : d.Wf) : d.encode.drop 8 = d.payload := by
  obtain ⟨ip, port, payload⟩ := d
  obtain ⟨h1, h2, h3⟩ := h
  match ip, h1 with
  | [a, b, c, e], _ =>
    match port, h2 with
    | [x, y], _ => rfl

/-- What `receive` needs to know before it reads the payload: sizes, read pointer and header. -/
def recvHead {W E : Type} (B : Bus W E) (fuel : Nat) (self : UdpSocket) (bufferSize : Nat) :
    M W (NbError (UdpSocketError E)) (Nat × U16 × UdpHeader) := do
  self.checkStatus B
  if !(← M.mapErr NbError.ofBus (self.socket.hasInterrupt B .receive)) then
    M.throw .wouldBlock
  else
    let rxSize := (← M.mapErr NbError.ofBus (self.socket.getReceiveSize B fuel)).toNat
    if rxSize = 0 then
      M.throw .wouldBlock
    else if bufferSize = 0 then
      M.throw (.other .bufferOverflow)
    else
      let readPointer ← M.mapErr NbError.ofBus (self.socket.getRxReadPointer B)
      let header ← M.mapErr NbError.ofBus (B.readBuf self.socket.rxBuffer readPointer [0, 0, 0, 0, 0, 0, 0, 0])
      match UdpHeader.fromArray header with
      | none => M.panic
      | some udpHeader => pure (rxSize, readPointer, udpHeader)

/-- The rest of `receive`. -/
def recvTail {W E : Type} (B : Bus W E) (self : UdpSocket) (bufferSize rxSize : Nat) (readPointer : U16)
    (udpHeader : UdpHeader) : M (List U8 × W) (NbError (UdpSocketError E)) (Nat × UdpHeader) := do
  let readLength := max (min rxSize bufferSize) udpHeader.len
  M.withPrefix readLength (M.mapErr NbError.ofBus (B.readSlice self.socket.rxBuffer (readPointer + 8)))
  M.onSnd (M.mapErr NbError.ofBus (self.socket.setRxReadPointer B (readPointer + BitVec.ofNat 16 rxSize)))
  M.onSnd (M.mapErr NbError.ofBus (self.socket.command B .receive))
  M.onSnd (M.mapErr NbError.ofBus (self.socket.resetInterrupt B .receive))
  pure (readLength, udpHeader)

theorem receive_split {W E : Type} (B : Bus W E) (fuel : Nat) (self : UdpSocket) (buf : List U8) (w : W) :
    self.socketReceive B fuel (buf, w) =
      (M.onSnd (recvHead B fuel self buf.length) >>= fun x => recvTail B self buf.length x.1 x.2.1 x.2.2) (buf, w) := by
  have step : ∀ {β γ : Type} (m : M W (NbError (UdpSocketError E)) β)
      (f : β → M (List U8 × W) (NbError (UdpSocketError E)) γ)
      (g : β → M W (NbError (UdpSocketError E)) (Nat × U16 × UdpHeader))
      (k : Nat × U16 × UdpHeader → M (List U8 × W) (NbError (UdpSocketError E)) γ) (v : W),
      (∀ x v', f x (buf, v') = (M.onSnd (g x) >>= k) (buf, v')) →
      (M.onSnd m >>= f) (buf, v) = (M.onSnd (m >>= g) >>= k) (buf, v) := by
    intro β γ m f g k v h
    rw [M.onSnd_bind, bind_assoc, M.bind_def, M.bind_def, M.onSnd_apply]
    generalize m v = r
    obtain ⟨_ | _ | _ | _, t⟩ := r
    · exact h _ _
    · rfl
    · rfl
    · rfl
  unfold UdpSocket.socketReceive recvHead
  refine step _ _ _ _ _ fun _ w => ?_
  refine step _ _ _ _ _ fun b w => ?_
  split
  · rfl
  refine step _ _ _ _ _ fun v w => ?_
  dsimp only
  split
  · rfl
  show (if buf.length = 0 then _ else _ : M (List U8 × W) (NbError (UdpSocketError E)) _) (buf, w) = _
  split
  · rfl
  refine step _ _ _ _ _ fun p w => ?_
  refine step _ _ _ _ _ fun h w => ?_
  generalize UdpHeader.fromArray h = o
  cases o <;> rfl

theorem encAll_ne {d : Dgram} (h : d.Wf) (ds : List Dgram) : (encAll (d :: ds)).length ≠ 0 := by
  rw [encAll_cons, List.length_append, encode_length h]
  omega

/-- Up to the header: nothing changes, and the header is that of the oldest datagram. -/
theorem udp_recvHead {n : Nat} (hn : n < 8) (u : UdpSocket) (hu : u.socket = sockOf n) (K : List Packet) (A : List U8)
    (z : Nat) (qs : List Dgram) (r0 : U16) (fuel bl : Nat) :
    Hoare (At n fun s => UdpIdle K A z qs s ∧ s.rxRdReg = r0) (recvHead (Chip.dev sched faults).bus fuel u bl)
      (fun x c => ∃ d rest more, d :: rest = qs ++ more ∧ d.Wf ∧ x.1 = (encAll (d :: rest)).length ∧ x.2.1 = r0 ∧
        wire x.2.2.origin = (d.ip, d.port) ∧ x.2.2.len = d.payload.length ∧
        At n (fun s => UdpIdle K A z (d :: rest) s ∧ s.rxRdReg = r0) c)
      (At n fun s => UdpIdle K A z qs s ∧ s.rxRdReg = r0) := by
  have hst : ∀ qs, StableS (fun s => UdpIdle K A z qs s ∧ s.rxRdReg = r0) := fun qs =>
    (stable_udpIdle K A z qs).and fun s a h => (act_rxRdReg s a).trans h
  unfold recvHead Socket.hasInterrupt
  refine .bind (hs_checkStatus hn (hst qs) u hu) fun _ => ?_
  rw [hu]
  refine .bind (.mapErr (.bind (hs_read1' hn (hst qs) _) fun x => .pure (Q := fun _ => At n fun s =>
    UdpIdle K A z qs s ∧ s.rxRdReg = r0) fun _ h => h)) fun y => ?_
  refine .ite (fun _ => .throw fun _ h => h) fun _ => ?_
  refine .bind (.mapErr (hs_receiveSize hn (hst qs) (fun s h => h.1.idle.rx.core.rxFits) fuel)) fun v => ?_
  dsimp only
  refine .ite (fun _ => .throw fun _ h => h.1) fun hv => ?_
  refine .ite (fun _ => .throw fun _ h => h.1) fun _ => ?_
  refine .pre (P := fun c => ∃ ds more, ds = qs ++ more ∧ v.toNat = (encAll ds).length ∧
    At n (fun s => UdpIdle K A z ds s ∧ s.rxRdReg = r0) c) ?_ ?_
  · refine .exists_pre fun ds => .exists_pre fun more => .fact fun hds => .fact fun hl => ?_
    cases ds with
    | nil => exact absurd hl hv
    | cons d rest =>
    have weak : ∀ s, UdpIdle K A z (d :: rest) s ∧ s.rxRdReg = r0 → UdpIdle K A z qs s ∧ s.rxRdReg = r0 :=
      fun s h => ⟨(hds ▸ h.1).fewer, h.2⟩
    refine .bind (Q := fun p c => p = r0 ∧ At n (fun s => UdpIdle K A z (d :: rest) s ∧ s.rxRdReg = r0) c)
      (.mapErr (.exc (.post (hs_readMem hn (hst _) _ (.inr rfl)) fun p c h => ?_) fun c h => weak _ h)) fun p => ?_
    · have : p = (c.socks n).rxRdReg := h.2
      exact ⟨this.trans h.1.2, h.1⟩
    refine .fact fun hp => ?_
    subst hp
    refine .pre (P := fun c => d.Wf ∧ At n (fun s => UdpIdle K A z (d :: rest) s ∧ s.rxRdReg = p) c) (.fact fun hw => ?_)
      fun c h => ⟨?_, h⟩
    · refine .bind (.mapErr (.exc (hs_readRxBuf hn (hst (d :: rest)) p [0, 0, 0, 0, 0, 0, 0, 0] (d.encode.take 8) ?_ ?_)
        fun c h => weak _ h)) fun h => ?_
      · intro s h i hi
        have hpre : d.encode.take 8 <+: s.queue := by
          have := h.1.busy.prefix
          rw [encAll_cons] at this
          exact ((List.take_prefix _ _).trans (List.prefix_append _ _)).trans this
        have hr : p = s.rxRd := h.2.symm.trans h.1.idle.rx.reg
        rw [hr]
        exact peekRx_queue h.1.idle.rx.core.size.dvd hpre i hi
      · rw [List.length_take, encode_length hw]
        simp
      · refine .fact' fun hh => ?_
        obtain ⟨hdr, h1, h2, h3⟩ := header_of hw
        rw [hh, show ([0, 0, 0, 0, 0, 0, 0, 0] : List U8).length = 8 from rfl, List.take_take, Nat.min_self, h1]
        exact .pure fun c h => ⟨d, rest, more, hds, hw, hl, rfl, h2, h3, h⟩
    · obtain ⟨t, h1, _⟩ := h.1.queue
      exact h1 d (by simp)
  · rintro c ⟨h1, s0, ⟨p1, p2⟩, e, rfl⟩
    obtain ⟨more, hq⟩ := p1.queue
    refine ⟨qs ++ more, more, rfl, ?_, ?_, h1.2⟩
    · rw [← hq.2, queue_length]
    · exact (stable_udpIdle K A z (qs ++ more)).evolves e ⟨p1.idle, p1.size, [], by rw [List.append_nil]; exact hq⟩

/-- What a caller learns from a successful `receive`: `d`: the oldest datagram; `all`: the datagrams queued when the
received size was read; `b0`, `b`: the caller's buffer before and after. -/
structure UdpDelivered (d : Dgram) (all : List Dgram) (b0 b : List U8) (k : Nat) (hdr : UdpHeader) : Prop where
  origin : wire hdr.origin = (d.ip, d.port)
  len : hdr.len = d.payload.length
  fits : d.payload.length ≤ b0.length
  count : k = min b0.length (encAll all).length
  payload : b.take d.payload.length = d.payload
  rest : b.drop k = b0.drop k
  keeps : b.length = b0.length
  wf : ∀ x ∈ all, x.Wf

theorem udp_recvTail {n : Nat} (hn : n < 8) (u : UdpSocket) (hu : u.socket = sockOf n) (K : List Packet) (A : List U8)
    (z : Nat) (d : Dgram) (rest : List Dgram) (hws : ∀ x ∈ d :: rest, x.Wf) (r0 : U16) (hdr : UdpHeader)
    (ho : wire hdr.origin = (d.ip, d.port)) (hlen : hdr.len = d.payload.length) (b0 : List U8) :
    Hoare (fun s : List U8 × Chip => s.1 = b0 ∧ At n (fun s => UdpIdle K A z (d :: rest) s ∧ s.rxRdReg = r0) s.2)
      (recvTail (Chip.dev sched faults).bus u b0.length (encAll (d :: rest)).length r0 hdr)
      (fun x s => UdpDelivered d (d :: rest) b0 s.1 x.1 x.2 ∧ At n (UdpIdle K (A ++ encAll (d :: rest)) z []) s.2)
      (fun s => At n (fun s => s.rxRdReg = r0 → UdpIdle K A z (d :: rest) s) s.2) := by
  have hw := hws d (by simp)
  have hlall : d.payload.length + 8 ≤ (encAll (d :: rest)).length := by
    rw [encAll_cons, List.length_append, encode_length hw]; omega
  generalize hall : encAll (d :: rest) = all at hlall ⊢
  unfold recvTail
  rw [hu]
  dsimp only
  generalize hk : max (min all.length b0.length) hdr.len = k
  have hst : StableS (fun s => UdpBusy K A z (d :: rest) r0 s ∧ s.rxRdReg = r0) :=
    (stable_udpBusy K A z _ r0).and fun s a h => (act_rxRdReg s a).trans h
  refine .bind (Q := fun _ s => ∃ b, (k ≤ b0.length ∧ b.take d.payload.length = d.payload ∧ b.drop k = b0.drop k ∧
      b.length = b0.length) ∧ s.1 = b ∧ At n (UdpBusy K A z (d :: rest) r0) s.2)
    (.withPrefix (fun buf hbuf => ?_) fun s h _ _ => h.2.1) fun _ => ?_
  · refine .pre (P := fun s : List U8 × Chip => buf = b0 ∧ At n (fun s => UdpBusy K A z (d :: rest) r0 s ∧
        s.rxRdReg = r0) s.2 ∧ s.1.length = k) (.fact fun hb => ?_) ?_
    · subst hb
      refine .exc (.post (.mapErr (hs_readRxPrefix hn hst (r0 + 8) k d.payload (by omega) fun s h i hi => ?_))
        fun _ s h => ?_) fun s h hr => h.1.idle hr
      · have hpre : d.encode <+: s.queue := by
          have := h.1.prefix
          rw [encAll_cons] at this
          exact (List.prefix_append _ _).trans this
        have := peekRx_queue h.1.core.size.dvd hpre (8 + i) (by rw [encode_length hw]; omega)
        rw [h.1.rd, BitVec.ofNat_add, ← BitVec.add_assoc] at this
        refine this.trans ?_
        have he := payload_of hw
        have : d.payload[i] = (d.encode.drop 8)[i]'(by rw [he]; exact hi) := by simp only [he]
        rw [this, List.getElem_drop]
      · obtain ⟨h1, h2, h3⟩ := h
        refine ⟨_, ⟨hbuf, ?_, ?_, ?_⟩, rfl, h1.1⟩
        · rw [List.take_append_of_le_length (by omega)]; exact h3
        · rw [List.drop_append_of_le_length (by omega), ← h2, List.drop_length, List.nil_append]
        · rw [List.length_append, List.length_drop, h2]; omega
    · rintro s ⟨h1, h2, h3⟩
      have h2 : buf = b0 := h2
      refine ⟨h2, ⟨?_, h3.2⟩, ?_⟩
      · have := h3.1.busy
        rw [h3.2] at this
        exact this
      · rw [h1, List.length_take]; omega
  refine .exists_pre fun b => .fact fun hb => ?_
  obtain ⟨hk0, hb1, hb2, hb3⟩ := hb
  have hkk : k = min b0.length all.length := by omega
  -- the pointer
  refine .bind (Q := fun _ s => s.1 = b ∧ At n (fun s => UdpBusy K A z (d :: rest) r0 s ∧
      s.rxRdReg = r0 + BitVec.ofNat 16 all.length) s.2)
    (.exc (.onSnd' b (.mapErr (R := At n (UdpBusy K A z (d :: rest) r0)) ?_)) fun s h hr => UdpBusy.idle h.2 hr) fun _ => ?_
  · unfold Socket.setRxReadPointer
    refine .post (hs_store hn (stable_udpBusy K A z (d :: rest) r0) _ _ (by simp [toBeBytes]) ?_ ?_)
      fun _ c h => ⟨h.1, stored_reg16 h.2⟩
    · intro i hi
      rcases index_two (by rfl) hi with rfl | rfl <;> rfl
    · intro s i x hi h
      rcases index_two (by rfl) hi with rfl | rfl
      · exact h.setRxRd _ x (.inl rfl)
      · exact h.setRxRd _ x (.inr rfl)
  have hbusy : StableS (fun s => UdpBusy K A z (d :: rest) r0 s ∧ s.rxRdReg = r0 + BitVec.ofNat 16 all.length) :=
    (stable_udpBusy K A z _ r0).and fun s a h => (act_rxRdReg s a).trans h
  have hI : StableS (fun s => UdpIdle K (A ++ all) z [] s ∧ s.rxRdReg = r0 + BitVec.ofNat 16 all.length ∧
      all.length ≤ 16384) :=
    (stable_udpIdle K _ z []).and (StableS.and (fun s a h => (act_rxRdReg s a).trans h) (StableS.const _))
  have hne : all.length ≤ 16384 → r0 + BitVec.ofNat 16 all.length ≠ r0 := by
    intro h e
    have := congrArg BitVec.toNat e
    simp only [BitVec.toNat_add, BitVec.toNat_ofNat] at this
    have := r0.isLt
    omega
  refine .bind (.exc (.onSnd' b (.mapErr (hs_write1 (Q := fun s => UdpIdle K (A ++ all) z [] s ∧
    s.rxRdReg = r0 + BitVec.ofNat 16 all.length ∧ all.length ≤ 16384) hn hbusy _ _ fun s h => ?_)))
    fun s h hr => ?_) fun _ => ?_
  · have he : s.pokeReg COMMAND Command.receive.toU8 = { s with rxRd := s.rxRdReg } := rfl
    have h1 := h.1.recv (by rw [hall]; exact h.2)
    rw [hall] at h1
    rw [he]
    refine ⟨h1, h.2, ?_⟩
    have h2 := h.1.prefix.length_le
    rw [queue_length, hall] at h2
    have h3 := h.1.core.fits
    have h4 := h.1.core.size.le
    omega
  · rcases h.2 with h | h
    · exact h.1.idle hr
    · exact absurd (h.2.1.symm.trans hr) (hne h.2.2)
  refine .bind (.exc (.onSnd' b (.mapErr (hs_clearIr hn hI _ fun s i h => ⟨⟨h.1.idle.ir i, h.1.size, h.1.queue⟩, h.2⟩)))
    fun s h hr => absurd (h.2.2.1.symm.trans hr) (hne h.2.2.2)) fun _ => .pure fun s h => ?_
  refine ⟨⟨ho, hlen, by omega, by rw [hall]; exact hkk, ?_, ?_, ?_, hws⟩, h.2.1⟩
  · rw [h.1]; exact hb1
  · rw [h.1]; exact hb2
  · rw [h.1]; exact hb3

/-- `socket_receive` of UDP. -/
theorem udp_receive {n : Nat} (hn : n < 8) (u : UdpSocket) (hu : u.socket = sockOf n) (K : List Packet) (A : List U8)
    (z : Nat) (qs : List Dgram) (r0 : U16) (fuel : Nat) (b0 : List U8) :
    Hoare (fun s : List U8 × Chip => s.1 = b0 ∧ At n (fun s => UdpIdle K A z qs s ∧ s.rxRdReg = r0) s.2)
      (u.socketReceive (Chip.dev sched faults).bus fuel)
      (fun x s => ∃ d rest more, d :: rest = qs ++ more ∧ UdpDelivered d (d :: rest) b0 s.1 x.1 x.2 ∧
        At n (UdpIdle K (A ++ encAll (d :: rest)) z []) s.2)
      (fun s => At n (fun s => s.rxRdReg = r0 → UdpIdle K A z qs s) s.2) := by
  suffices H : Hoare (fun s : List U8 × Chip => s.1 = b0 ∧ At n (fun s => UdpIdle K A z qs s ∧ s.rxRdReg = r0) s.2)
      (M.onSnd (recvHead (Chip.dev sched faults).bus fuel u b0.length) >>= fun x =>
        recvTail (Chip.dev sched faults).bus u b0.length x.1 x.2.1 x.2.2)
      (fun x s => ∃ d rest more, d :: rest = qs ++ more ∧ UdpDelivered d (d :: rest) b0 s.1 x.1 x.2 ∧
        At n (UdpIdle K (A ++ encAll (d :: rest)) z []) s.2)
      (fun s => At n (fun s => s.rxRdReg = r0 → UdpIdle K A z qs s) s.2) by
    constructor
    rintro ⟨b, c⟩ hs
    have hb : b = b0 := hs.1
    subst hb
    have := H.run (b, c) hs
    rw [← receive_split] at this
    exact this
  refine .bind (.exc (.onSnd' b0 (udp_recvHead hn u hu K A z qs r0 fuel b0.length)) fun s h _ => h.2.1) fun x => ?_
  constructor
  rintro s ⟨hb, d, rest, more, h1, h2, h3, h4, h5, h6, h7⟩
  obtain ⟨t, hws, _⟩ := h7.1.queue
  rw [h3, h4]
  refine Hoare.post_mono ?_ ?_ ((udp_recvTail hn u hu K A z d rest (fun x hx => hws x (List.mem_append_left _ hx)) r0 x.2.2 h5 h6 b0).run s ⟨hb, h7⟩)
  · intro y t h
    exact ⟨d, rest, more, h1, h⟩
  · intro t h hr
    have := h hr
    rw [h1] at this
    exact this.fewer

/-- The body of the `receive` method of the `UdpClientStack` trait. -/
theorem udp_receiveFrom {n : Nat} (hn : n < 8) (u : UdpSocket) (hu : u.socket = sockOf n) (K : List Packet) (A : List U8)
    (z : Nat) (qs : List Dgram) (r0 : U16) (fuel : Nat) (b0 : List U8) :
    Hoare (fun s : List U8 × Chip => s.1 = b0 ∧ At n (fun s => UdpIdle K A z qs s ∧ s.rxRdReg = r0) s.2)
      (do
        let (received, header) ← u.socketReceive (Chip.dev sched faults).bus fuel
        pure (received, SockAddr.v4 header.origin))
      (fun x s => ∃ hdr d rest more, d :: rest = qs ++ more ∧ UdpDelivered d (d :: rest) b0 s.1 x.1 hdr ∧
        x.2 = .v4 hdr.origin ∧ At n (UdpIdle K (A ++ encAll (d :: rest)) z []) s.2)
      (fun s => At n (fun s => s.rxRdReg = r0 → UdpIdle K A z qs s) s.2) :=
  .bind (udp_receive hn u hu K A z qs r0 fuel b0) fun x =>
    .pure fun _ ⟨d, rest, more, h1, h2, h3⟩ => ⟨x.2, d, rest, more, h1, h2, rfl, h3⟩

end W5500.Spec
