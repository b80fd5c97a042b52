import Verif.Proofs.Trace
import Verif.Spec.Access
/-! # Every operation only makes legitimate accesses, and is fail-stop -/

namespace W5500
open Spec
variable {W E ε α H : Type} {B : Bus W E}

theorem Spec.IsSocket.facts {s : Socket} {n : Nat} (h : IsSocket s n) :
    s.register.toNat = 4 * n + 1 ∧ s.txBuffer.toNat = 4 * n + 2 ∧ s.rxBuffer.toNat = 4 * n + 3 ∧
    s.index.toNat = n := by
  obtain ⟨hn, rfl⟩ := h
  have : n = 0 ∨ n = 1 ∨ n = 2 ∨ n = 3 ∨ n = 4 ∨ n = 5 ∨ n = 6 ∨ n = 7 := by omega
  rcases this with rfl | rfl | rfl | rfl | rfl | rfl | rfl | rfl <;> decide

@[simp] theorem toBeBytes_length (x : U16) : (toBeBytes x).length = 2 := rfl
@[simp] theorem Ipv4.octets_length (x : Ipv4) : x.octets.length = 4 := rfl
@[simp] theorem Mac.octets_length (x : Mac) : x.octets.length = 6 := rfl

/-- Structural steps of an `Emits` proof. -/
macro "emits_core" : tactic => `(tactic| first
  | with_reducible exact Emits.pure _
  | with_reducible exact Emits.throw _
  | with_reducible exact Emits.panic
  | with_reducible exact Emits.outOfFuel
  | with_reducible exact Emits.get
  | with_reducible exact Emits.sliceTo _ _
  | with_reducible exact Emits.sliceFrom _ _
  | with_reducible exact Emits.takeSocket
  | with_reducible exact Emits.releaseSocket _
  | with_reducible assumption
  | with_reducible apply Emits.bind
  | with_reducible apply Emits.mapErr
  | with_reducible apply Emits.onSnd
  | with_reducible apply Emits.onBus
  | with_reducible apply Emits.onSockBus
  | with_reducible apply Emits.withLocal
  | with_reducible apply Emits.withPrefix
  | intro _
  | split
  | exact Emits.noop (fun _ => rfl)
  | dsimp only)

/-- Structural steps of a `FailStop` proof. -/
macro "failstop_core" : tactic => `(tactic| first
  | with_reducible exact FailStop.pure _
  | with_reducible exact FailStop.panic
  | with_reducible exact FailStop.outOfFuel
  | with_reducible exact FailStop.get
  | with_reducible exact FailStop.sliceTo _ _
  | with_reducible exact FailStop.sliceFrom _ _
  | with_reducible exact FailStop.takeSocket
  | with_reducible exact FailStop.releaseSocket _
  | with_reducible exact FailStop.write
  | with_reducible exact FailStop.read1
  | with_reducible exact FailStop.read2
  | with_reducible exact FailStop.readBuf
  | with_reducible exact FailStop.readSlice
  | with_reducible assumption
  | (refine FailStop.throw _ ?_; intro x hx; cases hx; done)
  | with_reducible apply FailStop.bind
  | with_reducible apply FailStop.onSnd
  | with_reducible apply FailStop.onBus
  | with_reducible apply FailStop.onSockBus
  | with_reducible apply FailStop.withLocal
  | with_reducible apply FailStop.withPrefix
  | refine FailStop.mapErr_id _ ?_ ?_
  | (intro e x hx; cases hx; rfl)
  | intro _
  | split
  | exact FailStop.noop (fun _ => rfl) (fun _ _ h => by cases h)
  | dsimp only)

section sock
variable {L : Lang E} {s : Socket} {n : Nat}

/-- `L` allows all legitimate accesses of socket `n` other than SEND commands. -/
def Allows (L : Lang E) (n : Nat) : Prop := ∀ e, sockAccess n e → ¬ isSend n e → L.mem [e]

theorem sockValue_other {n : Nat} {a : U16} {d : List U8} (h : a ∉ [(0x00 : U16), 0x01, 0x1E, 0x1F]) : sockValue n a d := by
  simp only [List.mem_cons, List.not_mem_nil, or_false, not_or] at h
  exact ⟨fun h1 => absurd h1 h.1, fun h1 => absurd h1 h.2.1, fun h1 => by
    simp only [List.mem_cons, List.not_mem_nil, or_false] at h1
    exact absurd h1 (not_or.mpr h.2.2)⟩

theorem Allows.wr (hL : Allows L n) (hs : IsSocket s n) {a : U16} {d : List U8}
    (h : (a, d.length) ∈ sockWritable) (hc : a ≠ 1 ∨ d ≠ [0x20])
    (hv : sockValue n a d := by exact sockValue_other (by decide)) :
    Emits L ((traced B).write s.register a d) :=
  Emits.write fun _ => hL _ (.inl ⟨hs.facts.1, h, hv⟩) (by rintro ⟨-, h1, h2⟩; simp_all)

theorem Allows.wrTx (hL : Allows L n) (hs : IsSocket s n) {a : U16} {d : List U8} :
    Emits L ((traced B).write s.txBuffer a d) :=
  Emits.write fun _ => hL _ (.inr hs.facts.2.1) (by rintro ⟨h, -⟩; have := hs.facts.2.1; omega)

theorem Allows.rd1 (hL : Allows L n) (hs : IsSocket s n) {a : U16}
    (h : (a, 1) ∈ sockReadable) : Emits L ((traced B).read1 s.register a) :=
  Emits.read1 fun d _ hd => hL _ (.inl ⟨hs.facts.1, by simpa [hd] using h⟩) (by simp [isSend])

theorem Allows.rd2 (hL : Allows L n) (hs : IsSocket s n) {a : U16}
    (h : (a, 2) ∈ sockReadable) : Emits L ((traced B).read2 s.register a) :=
  Emits.read2 fun d _ hd => hL _ (.inl ⟨hs.facts.1, by simpa [hd] using h⟩) (by simp [isSend])

theorem Allows.rdRx (hL : Allows L n) (hs : IsSocket s n) {a : U16} :
    Emits L ((traced B).readSlice s.rxBuffer a) :=
  Emits.readSlice fun _ _ => hL _ (.inr hs.facts.2.2.1) (by simp [isSend])

theorem Allows.rdRxBuf (hL : Allows L n) (hs : IsSocket s n) {a : U16} {i : List U8} :
    Emits L ((traced B).readBuf s.rxBuffer a i) :=
  Emits.readBuf fun _ _ _ => hL _ (.inr hs.facts.2.2.1) (by simp [isSend])

variable (hL : Allows L n) (hs : IsSocket s n)
include hL hs

theorem emits_setMode (p : socketn.Protocol) (hp : p ≠ .macRaw := by decide) : Emits L (s.setMode (traced B) p) :=
  hL.wr hs (by decide : (socketn.MODE, 1) ∈ sockWritable) (.inl (by decide))
    ⟨fun _ => .inl (by cases p <;> simp_all <;> decide), fun h => absurd h (by decide), fun h => absurd h (by decide)⟩
theorem emits_getStatus : Emits L (s.getStatus (traced B)) := hL.rd1 hs (by decide)
theorem emits_resetInterrupt (c : socketn.Interrupt) : Emits L (s.resetInterrupt (traced B) c) :=
  hL.wr hs (by decide : (socketn.INTERRUPT, 1) ∈ sockWritable) (.inl (by decide))
theorem emits_hasInterrupt (c : socketn.Interrupt) : Emits L (s.hasInterrupt (traced B) c) :=
  Emits.bind (hL.rd1 hs (by decide)) fun _ => .pure _
theorem emits_setSourcePort (p : U16) : Emits L (s.setSourcePort (traced B) p) :=
  hL.wr hs (by decide : (socketn.SOURCE_PORT, 2) ∈ sockWritable) (.inl (by decide))
theorem emits_setDestinationIp (p : Ipv4) : Emits L (s.setDestinationIp (traced B) p) :=
  hL.wr hs (by decide : (socketn.DESTINATION_IP, 4) ∈ sockWritable) (.inl (by decide))
theorem emits_setDestinationPort (p : U16) : Emits L (s.setDestinationPort (traced B) p) :=
  hL.wr hs (by decide : (socketn.DESTINATION_PORT, 2) ∈ sockWritable) (.inl (by decide))
theorem emits_getTxReadPointer : Emits L (s.getTxReadPointer (traced B)) := hL.rd2 hs (by decide)
theorem emits_getTxWritePointer : Emits L (s.getTxWritePointer (traced B)) := hL.rd2 hs (by decide)
theorem emits_setTxWritePointer (p : U16) : Emits L (s.setTxWritePointer (traced B) p) :=
  hL.wr hs (by decide : (socketn.TX_DATA_WRITE_POINTER, 2) ∈ sockWritable) (.inl (by decide))
theorem emits_getRxReadPointer : Emits L (s.getRxReadPointer (traced B)) := hL.rd2 hs (by decide)
theorem emits_setRxReadPointer (p : U16) : Emits L (s.setRxReadPointer (traced B) p) :=
  hL.wr hs (by decide : (socketn.RX_DATA_READ_POINTER, 2) ∈ sockWritable) (.inl (by decide))
theorem emits_setInterruptMask (m : U8) : Emits L (s.setInterruptMask (traced B) m) :=
  hL.wr hs (by decide : (socketn.INTERRUPT_MASK, 1) ∈ sockWritable) (.inl (by decide))
theorem emits_command (c : socketn.Command) (hc : c ≠ .send ∧ c ≠ .listen ∧ c ≠ .discon) : Emits L (s.command (traced B) c) :=
  hL.wr hs (by decide : (socketn.COMMAND, 1) ∈ sockWritable) (.inr (by cases c <;> simp_all <;> decide))
    ⟨fun h => absurd h (by decide), fun _ => by cases c <;> simp_all <;> decide, fun h => absurd h (by decide)⟩
theorem emits_getTxFreeSize : Emits L (s.getTxFreeSize (traced B)) := hL.rd2 hs (by decide)
theorem emits_getReceiveSize (fuel : Nat) : Emits L (s.getReceiveSize (traced B) fuel) := by
  induction fuel with
  | zero => exact .outOfFuel
  | succ k ih =>
    unfold Socket.getReceiveSize
    have h := hL.rd2 hs (B := B) (by decide : (socketn.RECEIVED_SIZE, 2) ∈ sockReadable)
    repeat' emits_core

end sock

/-- The steps of a transmission shared by UDP and TCP: read the write pointer, write the payload there,
advance the pointer, SEND. -/
def sendSeq (B : Bus W E) (s : Socket) (d : List U8) : M W E Unit := do
  let p ← s.getTxWritePointer B
  B.write s.txBuffer p d
  s.setTxWritePointer B (p + BitVec.ofNat 16 d.length)
  s.command B .send

/-- `Emits` for a function built from socket accesses. -/
macro "emits" : tactic => `(tactic| repeat' first
  | with_reducible exact emits_setMode ‹_› ‹_› _
  | with_reducible exact emits_getStatus ‹_› ‹_›
  | with_reducible exact emits_resetInterrupt ‹_› ‹_› _
  | with_reducible exact emits_hasInterrupt ‹_› ‹_› _
  | with_reducible exact emits_setSourcePort ‹_› ‹_› _
  | with_reducible exact emits_setDestinationIp ‹_› ‹_› _
  | with_reducible exact emits_setDestinationPort ‹_› ‹_› _
  | with_reducible exact emits_getTxReadPointer ‹_› ‹_›
  | with_reducible exact emits_getTxWritePointer ‹_› ‹_›
  | with_reducible exact emits_setTxWritePointer ‹_› ‹_› _
  | with_reducible exact emits_getRxReadPointer ‹_› ‹_›
  | with_reducible exact emits_setRxReadPointer ‹_› ‹_› _
  | with_reducible exact emits_setInterruptMask ‹_› ‹_› _
  | with_reducible exact emits_command ‹_› ‹_› _ (by decide)
  | with_reducible exact emits_getTxFreeSize ‹_› ‹_›
  | with_reducible exact emits_getReceiveSize ‹_› ‹_› _
  | with_reducible exact Allows.wrTx ‹_› ‹_›
  | with_reducible exact Allows.rdRx ‹_› ‹_›
  | with_reducible exact Allows.rdRxBuf ‹_› ‹_›
  | emits_core)

section udp
variable {L : Lang E} {n : Nat} {u : UdpSocket} (hL : Allows L n) (hs : IsSocket u.socket n)
include hL hs

theorem emits_udp_open : Emits L (u.open (traced B)) := by
  unfold UdpSocket.open; emits
theorem emits_udp_checkStatus : Emits L (u.checkStatus (traced B)) := by
  unfold UdpSocket.checkStatus; emits
theorem emits_udp_tryFlushTx : Emits L (u.tryFlushTx (traced B)) := by
  unfold UdpSocket.tryFlushTx; emits
theorem emits_udp_flushLoop (fuel : Nat) : Emits L (u.flushLoop (traced B) fuel) := by
  induction fuel with
  | zero => exact .outOfFuel
  | succ k ih =>
    constructor; intro s
    obtain ⟨e1, h1, l1⟩ := (emits_udp_tryFlushTx (B := B) hL hs).run s
    unfold UdpSocket.flushLoop
    split <;> rename_i heq
    · rw [heq] at h1
      obtain ⟨e2, h2, l2⟩ := ih.run _
      exact ⟨e1 ++ e2, by rw [h2, h1, List.append_assoc], L.app l1 l2⟩
    · exact ⟨e1, h1, l1⟩
omit hL hs in
theorem udp_sendTail (fuel : Nat) (d : List U8) :
    (do
      let writePointer ← M.mapErr NbError.ofBus (u.socket.getTxWritePointer B)
      M.mapErr NbError.ofBus (B.write u.socket.txBuffer writePointer d)
      M.mapErr NbError.ofBus (u.socket.setTxWritePointer B (writePointer + BitVec.ofNat 16 d.length))
      u.blockSendCommand B fuel
      pure d.length : M W _ Nat) =
    (do
      M.mapErr NbError.ofBus (sendSeq B u.socket d)
      u.flushLoop B fuel
      pure d.length) := by
  simp [sendSeq, M.mapErr_bind, UdpSocket.blockSendCommand]

theorem emits_udp_socketSend (fuel : Nat) (b : List U8)
    (hT : ∀ d, d <+: b → Emits L (sendSeq (traced B) u.socket d)) :
    Emits L (u.socketSend (traced B) fuel b) := by
  unfold UdpSocket.socketSend
  have h1 := emits_udp_checkStatus (B := B) hL hs
  have h2 := emits_udp_flushLoop (B := B) hL hs fuel
  refine .bind h1 fun _ => ?_
  split
  · exact .throw _
  · refine .bind (.mapErr _ (emits_getTxFreeSize hL hs)) fun fsz => ?_
    split
    · exact .throw _
    · dsimp only
      split
      · refine .bindR (Q := (· <+: b)) (.pure _) (.pure (List.prefix_refl _)) fun d hd => ?_
        rw [udp_sendTail]
        exact .bind (.mapErr _ (hT d hd)) fun _ => .bind h2 fun _ => .pure _
      · refine .bindR (Q := (· <+: b)) (.sliceTo _ _) (.sliceTo (List.take_prefix _ _)) fun d hd => ?_
        rw [udp_sendTail]
        exact .bind (.mapErr _ (hT d hd)) fun _ => .bind h2 fun _ => .pure _
theorem emits_udp_sendAllLoop (fuel : Nat) (b : List U8)
    (hT : ∀ d, d <:+: b → Emits L (sendSeq (traced B) u.socket d)) (k : Nat) (f : U16) (t : Nat) :
    Emits L (u.sendAllLoop (traced B) fuel b k f t) := by
  induction k generalizing f t with
  | zero => exact .outOfFuel
  | succ k ih =>
    unfold UdpSocket.sendAllLoop
    split
    · exact .pure _
    · refine .bindR (.sliceFrom _ _) (.sliceFrom (Q := (· <:+ b)) (List.drop_suffix t b)) fun rem hrem => ?_
      refine .bindR (.sliceTo _ _) (.sliceTo (Q := (· <:+: b)) ?_) fun d hd => ?_
      · exact ((List.take_prefix _ _).isInfix).trans hrem.isInfix
      · refine .bind (emits_udp_socketSend hL hs fuel d fun x hx => hT x (hx.isInfix.trans hd)) fun _ => ?_
        exact .bind (.mapErr _ (emits_getTxFreeSize hL hs)) fun _ => ih _ _
theorem emits_udp_socketSendAll (fuel : Nat) (b : List U8)
    (hT : ∀ d, d <:+: b → Emits L (sendSeq (traced B) u.socket d)) :
    Emits L (u.socketSendAll (traced B) fuel b) := by
  unfold UdpSocket.socketSendAll
  have h1 := emits_udp_checkStatus (B := B) hL hs
  repeat' first
    | with_reducible exact emits_udp_sendAllLoop hL hs _ _ hT _ _ _
    | emits
theorem emits_udp_socketReceive (fuel : Nat) : Emits L (u.socketReceive (traced B) fuel) := by
  unfold UdpSocket.socketReceive
  have h1 := emits_udp_checkStatus (B := B) hL hs
  emits
theorem emits_udp_socketClose : Emits L (u.socketClose (traced B)) := by
  unfold UdpSocket.socketClose; emits

end udp

section udp2
variable {L : Lang E} {n : Nat}

/-- State predicate: the UDP socket object in the state is socket `n`. The `&mut UdpSocket` methods are
proved from states satisfying it. -/
structure EmitsU {σ E ε α : Type} [HasLog σ E] (L : Lang E) (n : Nat) (m : M (UdpSocket × σ) ε α) :
    Prop where
  run : ∀ s, IsSocket s.1.socket n →
    (∃ evs, HasLog.log (m s).2 = HasLog.log s ++ evs ∧ L.mem evs) ∧ (m s).2.1.socket = s.1.socket

variable {σ : Type} [HasLog σ E]

theorem EmitsU.bind {β : Type} {m : M (UdpSocket × σ) ε α} {f : α → M (UdpSocket × σ) ε β}
    (hm : EmitsU L n m) (hf : ∀ a, EmitsU L n (f a)) : EmitsU L n (m >>= f) := by
  constructor; intro s hs
  obtain ⟨⟨e1, h1, l1⟩, k1⟩ := hm.run s hs
  show (∃ evs, HasLog.log (M.bind m f s).2 = _ ∧ _) ∧ (M.bind m f s).2.1.socket = _
  unfold M.bind
  split <;> rename_i s' heq <;> rw [heq] at h1 k1 <;> dsimp only at h1 k1
  · obtain ⟨⟨e2, h2, l2⟩, k2⟩ := (hf _).run s' (by rw [k1]; exact hs)
    exact ⟨⟨e1 ++ e2, by rw [h2, h1, List.append_assoc], L.app l1 l2⟩, by rw [k2, k1]⟩
  all_goals exact ⟨⟨e1, h1, l1⟩, k1⟩

/-- `let self := (← M.get).1` then continue. -/
theorem EmitsU.getBind {β : Type} {f : UdpSocket × σ → M (UdpSocket × σ) ε β}
    (hf : ∀ s, IsSocket s.1.socket n → EmitsU L n (f s)) : EmitsU L n (M.get >>= f) := by
  constructor; intro s hs
  exact (hf s hs).run s hs

theorem EmitsU.onSnd {m : M σ ε α} (hm : Emits L m) : EmitsU L n (M.onSnd m) :=
  ⟨fun s _ => ⟨hm.run s.2, rfl⟩⟩

theorem EmitsU.mapErr {ε' : Type} {m : M (UdpSocket × σ) ε α} (f : ε → ε') (hm : EmitsU L n m) :
    EmitsU L n (M.mapErr f m) := by
  constructor; intro s hs
  have h := hm.run s hs
  unfold M.mapErr
  split <;> rename_i heq <;> rw [heq] at h <;> exact h

theorem EmitsU.noop {m : M (UdpSocket × σ) ε α} (h : ∀ s, HasLog.log (m s).2 = HasLog.log s)
    (h' : ∀ s, (m s).2.1.socket = s.1.socket) : EmitsU L n m :=
  ⟨fun s _ => ⟨⟨[], by simp [h s], L.nil⟩, h' s⟩⟩

theorem EmitsU.onSockBus {m : M (UdpSocket × σ) ε α} (hm : EmitsU L n m) :
    EmitsU L n (Device.onSockBus m : M (UdpSocket × Device σ H) ε α) :=
  ⟨fun s hs => hm.run (s.1, s.2.bus) hs⟩

theorem emitsU_setPort (hL : Allows L n) (p : U16) :
    EmitsU L n (UdpSocket.setPort (traced B) p) := by
  unfold UdpSocket.setPort
  refine .bind (.noop (fun _ => rfl) (fun _ => rfl)) fun _ => ?_
  refine .getBind fun s hs => ?_
  exact .mapErr _ (.onSnd (emits_setSourcePort hL hs _))

theorem emitsU_setDestination (hL : Allows L n) (r : SockAddr4) :
    EmitsU L n (UdpSocket.setDestination (traced B) r) := by
  unfold UdpSocket.setDestination
  refine .getBind fun s hs => ?_
  dsimp only
  have key : ∀ b : Bool, EmitsU (ε := UdpSocketError E) L n (if b = true then (do
        M.mapErr UdpSocketError.other (M.onSnd (s.1.socket.setDestinationIp (traced B) r.ip))
        M.mapErr UdpSocketError.other (M.onSnd (s.1.socket.setDestinationPort (traced B) r.port))
        M.modify (fun s => ({ s.1 with destination := some r }, s.2)) : M (UdpSocket × TW W E) _ Unit)
      else pure ()) := by
    intro b
    cases b
    · exact .noop (fun _ => rfl) (fun _ => rfl)
    · refine .bind (.mapErr _ (.onSnd (emits_setDestinationIp hL hs _))) fun _ => ?_
      refine .bind (.mapErr _ (.onSnd (emits_setDestinationPort hL hs _))) fun _ => ?_
      exact .noop (fun _ => rfl) (fun _ => rfl)
  exact key _

theorem emitsU_socketSendTo (hL : Allows L n) (fuel : Nat) (r : SockAddr4) (b : List U8)
    (hT : ∀ s, IsSocket s n → ∀ d, d <:+: b → Emits L (sendSeq (traced B) s d)) :
    EmitsU L n (UdpSocket.socketSendTo (traced B) fuel r b) := by
  unfold UdpSocket.socketSendTo
  refine .bind (.mapErr _ (emitsU_setDestination hL r)) fun _ => ?_
  refine .getBind fun s hs => ?_
  exact .onSnd (emits_udp_socketSendAll hL hs _ _ (hT _ hs))

theorem emitsU_udpConnect (hL : Allows L n) (r : SockAddr) :
    EmitsU L n (Device.udpConnect (traced B) r : M (UdpSocket × Device (TW W E) H) _ _) := by
  unfold Device.udpConnect
  split
  · exact .noop (fun _ => rfl) (fun _ => rfl)
  · refine .onSockBus (.getBind fun s hs => ?_)
    exact .bind (.mapErr _ (.onSnd (emits_udp_open hL hs))) fun _ => emitsU_setDestination hL _

theorem emitsU_udpBind (hL : Allows L n) (p : U16) :
    EmitsU L n (Device.udpBind (traced B) p : M (UdpSocket × Device (TW W E) H) _ _) := by
  unfold Device.udpBind
  refine .onSockBus (.bind (emitsU_setPort hL p) fun _ => .getBind fun s hs => ?_)
  exact .mapErr _ (.onSnd (emits_udp_open hL hs))

theorem emitsU_udpSendTo (hL : Allows L n) (fuel : Nat) (r : SockAddr) (b : List U8)
    (hT : ∀ s, IsSocket s n → ∀ d, d <:+: b → Emits L (sendSeq (traced B) s d)) :
    EmitsU L n (Device.udpSendTo (traced B) fuel r b : M (UdpSocket × Device (TW W E) H) _ _) := by
  unfold Device.udpSendTo
  split
  · exact .noop (fun _ => rfl) (fun _ => rfl)
  · exact .onSockBus (emitsU_socketSendTo hL _ _ _ hT)

end udp2

section udpdev
variable {L : Lang E} {n : Nat} {u : UdpSocket} (hL : Allows L n) (hs : IsSocket u.socket n)
include hL hs

theorem emits_udpSend (fuel : Nat) (b : List U8)
    (hT : ∀ d, d <:+: b → Emits L (sendSeq (traced B) u.socket d)) :
    Emits L (Device.udpSend (traced B) fuel u b : M (Device (TW W E) H) _ _) :=
  .onBus (emits_udp_socketSendAll hL hs _ _ hT)
theorem emits_udpReceive (fuel : Nat) :
    Emits L (Device.udpReceive (traced B) fuel u : M (List U8 × Device (TW W E) H) _ _) := by
  unfold Device.udpReceive
  refine .onSockBus (.bind (emits_udp_socketReceive hL hs _) ?_)
  emits
theorem emits_udpClose : Emits L (Device.udpClose (traced B) u : M (Device (TW W E) H) _ _) := by
  unfold Device.udpClose
  exact .bind (.onBus (emits_udp_socketClose hL hs)) fun _ => .releaseSocket _
end udpdev

theorem emits_udpSocket {L : Lang E} :
    Emits L (Device.udpSocket : M (Device (TW W E) H) (UdpSocketError E) _) := by
  unfold Device.udpSocket; emits
theorem emits_tcpSocket {L : Lang E} :
    Emits L (Device.tcpSocket : M (Device (TW W E) H) (TcpSocketError E) _) := by
  unfold Device.tcpSocket; emits

section raw
variable {L : Lang E} {n : Nat} {s : Socket} (hL : Allows L n) (hs : IsSocket s n)
include hL hs
theorem emits_waitSendOk (fuel : Nat) : Emits L (RawDevice.waitSendOk (traced B) s fuel) := by
  induction fuel with
  | zero => exact .outOfFuel
  | succ k ih => unfold RawDevice.waitSendOk; emits
end raw

section tcp
variable {L : Lang E} {n : Nat} {t : TcpSocket} (hL : Allows L n) (hs : IsSocket t.socket n)
include hL hs

theorem emits_tcp_reopen : Emits L (t.reopen (traced B)) := by
  unfold TcpSocket.reopen; emits
theorem emits_tcp_open (p : U16) : Emits L (t.open (traced B) p) := by
  unfold TcpSocket.open; emits
theorem emits_tcp_socketClose : Emits L (t.socketClose (traced B)) := by
  unfold TcpSocket.socketClose; emits
theorem emits_tcp_connectLoop (fuel : Nat) : Emits L (t.connectLoop (traced B) fuel) := by
  have h1 := emits_tcp_reopen (B := B) hL hs
  have h2 := emits_tcp_socketClose (B := B) hL hs
  induction fuel with
  | zero => exact .outOfFuel
  | succ k ih => unfold TcpSocket.connectLoop; emits
theorem emits_tcp_socketConnect (fuel : Nat) (r : SockAddr4) :
    Emits L (t.socketConnect (traced B) fuel r) := by
  have h1 := emits_tcp_reopen (B := B) hL hs
  have h2 := emits_tcp_socketClose (B := B) hL hs
  have h3 := emits_tcp_connectLoop (B := B) hL hs fuel
  unfold TcpSocket.socketConnect; emits
theorem emits_tcp_isConnected : Emits L (t.socketIsConnected (traced B)) := by
  unfold TcpSocket.socketIsConnected; emits
omit hL hs in
theorem tcp_sendTail (fuel : Nat) (d : List U8) :
    (do
      let writePointer ← M.mapErr .other (t.socket.getTxWritePointer B)
      M.mapErr .other (B.write t.socket.txBuffer writePointer d)
      M.mapErr .other (t.socket.setTxWritePointer B (writePointer + BitVec.ofNat 16 d.length))
      M.mapErr .other (t.socket.command B .send)
      M.mapErr .other (RawDevice.waitSendOk B t.socket fuel)
      M.mapErr .other (t.socket.resetInterrupt B .sendOk)
      pure d.length : M W (TcpSocketError E) Nat) =
    (do
      M.mapErr .other (sendSeq B t.socket d)
      M.mapErr .other (RawDevice.waitSendOk B t.socket fuel)
      M.mapErr .other (t.socket.resetInterrupt B .sendOk)
      pure d.length) := by
  simp [sendSeq, M.mapErr_bind]

theorem emits_tcp_socketSend (fuel : Nat) (b : List U8)
    (hT : ∀ d, d <+: b → Emits L (sendSeq (traced B) t.socket d)) :
    Emits L (t.socketSend (traced B) fuel b) := by
  have h1 := emits_tcp_isConnected (B := B) hL hs
  have h2 := emits_waitSendOk (B := B) hL hs fuel
  unfold TcpSocket.socketSend
  refine .bind h1 fun c => ?_
  split
  · exact .throw _
  · refine .bind (.mapErr _ (emits_getTxFreeSize hL hs)) fun fsz => ?_
    dsimp only
    split
    · refine .bindR (Q := (· <+: b)) (.pure _) (.pure (List.prefix_refl _)) fun d hd => ?_
      rw [tcp_sendTail]
      exact .bind (.mapErr _ (hT d hd)) fun _ => by emits
    · refine .bindR (Q := (· <+: b)) (.sliceTo _ _) (.sliceTo (List.take_prefix _ _)) fun d hd => ?_
      rw [tcp_sendTail]
      exact .bind (.mapErr _ (hT d hd)) fun _ => by emits
theorem emits_tcp_socketReceive (fuel : Nat) : Emits L (t.socketReceive (traced B) fuel) := by
  have h1 := emits_tcp_isConnected (B := B) hL hs
  unfold TcpSocket.socketReceive; emits
theorem emits_tcpConnect (fuel : Nat) (r : SockAddr) :
    Emits L (Device.tcpConnect (traced B) fuel t r : M (Device (TW W E) H) _ _) := by
  have h1 := emits_tcp_open (B := B) hL hs
  have h2 := emits_tcp_socketConnect (B := B) hL hs fuel
  unfold Device.tcpConnect
  split
  · exact .throw _
  · exact .onBus (.bind (h1 _) fun _ => h2 _)
theorem emits_tcpSend (fuel : Nat) (b : List U8)
    (hT : ∀ d, d <+: b → Emits L (sendSeq (traced B) t.socket d)) :
    Emits L (Device.tcpSend (traced B) fuel t b : M (Device (TW W E) H) _ _) :=
  .onBus (emits_tcp_socketSend hL hs _ _ hT)
theorem emits_tcpReceive (fuel : Nat) :
    Emits L (Device.tcpReceive (traced B) fuel t : M (List U8 × Device (TW W E) H) _ _) :=
  .onSockBus (emits_tcp_socketReceive hL hs _)
theorem emits_tcpClose : Emits L (Device.tcpClose (traced B) t : M (Device (TW W E) H) _ _) := by
  unfold Device.tcpClose
  exact .bind (.onBus (emits_tcp_socketClose hL hs)) fun _ => .releaseSocket _
end tcp

end W5500
