import Verif.Spec.Relate
import Verif.Proofs.Monad
/-! # Running the same operation on two related buses -/

namespace W5500
open Spec socketn
variable {W W' σ σ' τ τ' E ε ε' α α' β β' S H : Type}

/-- Both returned, with related values, or both failed in the same way. -/
def Res.Same (Q : α → α' → Prop) : Res ε α → Res ε α' → Prop
  | .ok a, .ok a' => Q a a'
  | .err e, .err e' => e = e'
  | .panic, .panic => True
  | .fuel, .fuel => True
  | _, _ => False

/-- From related states, `m` and `m'` end in the same way and in related states. -/
structure Rel (R : σ → σ' → Prop) (Q : α → α' → Prop) (m : M σ ε α) (m' : M σ' ε α') : Prop where
  run : ∀ s s', R s s' → (m s).1.Same Q (m' s').1 ∧ R (m s).2 (m' s').2

/-- Pairs whose first components are equal and whose second components are related. -/
def Both (R : σ → σ' → Prop) (x : S × σ) (y : S × σ') : Prop := x.1 = y.1 ∧ R x.2 y.2

/-- The same UDP socket object, with hardware socket `s`, and related bus states. -/
def OnSock (s : Socket) (R : W → W' → Prop) (x : UdpSocket × W) (y : UdpSocket × W') : Prop :=
  x.1.socket = s ∧ x.1 = y.1 ∧ R x.2 y.2

theorem Res.same_eq {r r' : Res ε α} : r.Same Eq r' ↔ r = r' := by
  cases r <;> cases r' <;> simp [Res.Same]

namespace Rel
variable {R : σ → σ' → Prop} {Q : α → α' → Prop}

theorem pure {a : α} {a' : α'} (h : Q a a') : Rel R Q (Pure.pure a : M σ ε α) (Pure.pure a') := ⟨fun _ _ r => ⟨h, r⟩⟩
theorem throw {e : ε} : Rel R Q (M.throw e) (M.throw e) := ⟨fun _ _ r => ⟨rfl, r⟩⟩
theorem panic : Rel R Q (M.panic : M σ ε α) M.panic := ⟨fun _ _ r => ⟨trivial, r⟩⟩
theorem outOfFuel : Rel R Q (M.outOfFuel : M σ ε α) M.outOfFuel := ⟨fun _ _ r => ⟨trivial, r⟩⟩
theorem get : Rel R R (M.get : M σ ε σ) M.get := ⟨fun _ _ r => ⟨r, r⟩⟩
theorem modify {f : σ → σ} {f' : σ' → σ'} (h : ∀ s s', R s s' → R (f s) (f' s')) :
    Rel R Eq (M.modify f : M σ ε Unit) (M.modify f') := ⟨fun _ _ r => ⟨rfl, h _ _ r⟩⟩

theorem mono {Q' : α → α' → Prop} {m : M σ ε α} {m' : M σ' ε α'} (h : Rel R Q m m') (hq : ∀ a a', Q a a' → Q' a a') :
    Rel R Q' m m' := by
  constructor
  intro s s' r
  obtain ⟨h1, h2⟩ := h.run s s' r
  refine ⟨?_, h2⟩
  revert h1
  generalize (m s).1 = x
  generalize (m' s').1 = y
  cases x <;> cases y <;> simp only [Res.Same] <;> first | exact hq _ _ | exact id

theorem bind {Q' : β → β' → Prop} {m : M σ ε α} {m' : M σ' ε α'} {f : α → M σ ε β} {f' : α' → M σ' ε β'} (h : Rel R Q m m')
    (hf : ∀ a a', Q a a' → Rel R Q' (f a) (f' a')) : Rel R Q' (m >>= f) (m' >>= f') := by
  constructor
  intro s s' r
  obtain ⟨h1, h2⟩ := h.run s s' r
  rw [M.bind_def, M.bind_def]
  generalize m s = x at h1 h2
  generalize m' s' = y at h1 h2
  obtain ⟨_ | _ | _ | _, t⟩ := x <;> obtain ⟨_ | _ | _ | _, t'⟩ := y <;> first
    | exact h1.elim
    | exact (hf _ _ h1).run _ _ h2
    | exact ⟨h1, h2⟩

theorem bindEq {Q' : β → β' → Prop} {m : M σ ε α} {m' : M σ' ε α} {f : α → M σ ε β} {f' : α → M σ' ε β'} (h : Rel R Eq m m')
    (hf : ∀ a, Rel R Q' (f a) (f' a)) : Rel R Q' (m >>= f) (m' >>= f') :=
  .bind h fun a _ e => e ▸ hf a

theorem mapErr {m : M σ ε α} {m' : M σ' ε α'} {f : ε → ε'} (h : Rel R Q m m') : Rel R Q (M.mapErr f m) (M.mapErr f m') := by
  constructor
  intro s s' r
  obtain ⟨h1, h2⟩ := h.run s s' r
  rw [M.mapErr_def, M.mapErr_def]
  generalize m s = x at h1 h2
  generalize m' s' = y at h1 h2
  obtain ⟨_ | _ | _ | _, t⟩ := x <;> obtain ⟨_ | _ | _ | _, t'⟩ := y <;> first
    | exact h1.elim
    | exact ⟨congrArg f h1, h2⟩
    | exact ⟨h1, h2⟩

theorem zoom {R' : τ → τ' → Prop} {g : σ → τ} {p : τ → σ → σ} {g' : σ' → τ'} {p' : τ' → σ' → σ'} {m : M τ ε α}
    {m' : M τ' ε α'} (hg : ∀ s s', R s s' → R' (g s) (g' s'))
    (hp : ∀ s s' t t', R s s' → R' t t' → R (p t s) (p' t' s')) (h : Rel R' Q m m') :
    Rel R Q (M.zoom g p m) (M.zoom g' p' m') := by
  constructor
  intro s s' r
  obtain ⟨h1, h2⟩ := h.run _ _ (hg s s' r)
  exact ⟨h1, hp _ _ _ _ r h2⟩

theorem onSnd {m : M σ ε α} {m' : M σ' ε α'} (h : Rel R Q m m') : Rel (Both (S := S) R) Q (M.onSnd m) (M.onSnd m') :=
  zoom (fun _ _ r => r.2) (fun _ _ _ _ r r' => ⟨r.1, r'⟩) h

theorem withLocal {m : M (S × σ) ε α} {m' : M (S × σ') ε α} {b : S} (h : Rel (Both R) Eq m m') :
    Rel R Eq (M.withLocal b m) (M.withLocal b m') := by
  constructor
  intro s s' r
  obtain ⟨h1, h2⟩ := h.run (b, s) (b, s') ⟨rfl, r⟩
  unfold M.withLocal
  generalize m (b, s) = x at h1 h2
  generalize m' (b, s') = y at h1 h2
  obtain ⟨_ | _ | _ | _, t, u⟩ := x <;> obtain ⟨_ | _ | _ | _, t', u'⟩ := y <;> first
    | exact h1.elim
    | (obtain ⟨rfl, h2⟩ := h2; cases h1; exact ⟨rfl, h2⟩)
    | exact ⟨h1, h2.2⟩

theorem withPrefix {m : M (List U8 × σ) ε α} {m' : M (List U8 × σ') ε α'} {n : Nat} (h : Rel (Both R) Q m m') :
    Rel (Both R) Q (M.withPrefix n m) (M.withPrefix n m') := by
  constructor
  rintro ⟨b, s⟩ ⟨b', s'⟩ ⟨e, r⟩
  cases e
  unfold M.withPrefix
  dsimp only
  split
  · obtain ⟨h1, h2, h3⟩ := h.run (b.take n, s) (b.take n, s') ⟨rfl, r⟩
    exact ⟨h1, congrArg (· ++ b.drop n) h2, h3⟩
  · exact ⟨trivial, rfl, r⟩

theorem sliceTo {D : List U8 → List U8 → Prop} (hD : Cut D) {d d' : List U8} (h : D d d') (n : Nat) :
    Rel R D (M.sliceTo d n : M σ ε _) (M.sliceTo d' n) := by
  unfold M.sliceTo
  rw [hD.length h]
  split
  · exact .pure (hD.take n h)
  · exact .panic

theorem sliceFrom {D : List U8 → List U8 → Prop} (hD : Cut D) {d d' : List U8} (h : D d d') (n : Nat) :
    Rel R D (M.sliceFrom d n : M σ ε _) (M.sliceFrom d' n) := by
  unfold M.sliceFrom
  rw [hD.length h]
  split
  · exact .pure (hD.drop n h)
  · exact .panic

theorem ite {c : Prop} {x y : Decidable c} {a b : M σ ε α} {a' b' : M σ' ε α'} (ha : c → Rel R Q a a')
    (hb : ¬c → Rel R Q b b') : Rel R Q (@_root_.ite _ c x a b) (@_root_.ite _ c y a' b') := by
  by_cases h : c
  · rw [if_pos h, if_pos h]; exact ha h
  · rw [if_neg h, if_neg h]; exact hb h

end Rel

/-- Structural steps of a `Rel` proof. -/
macro "relate" : tactic => `(tactic| repeat' first
  | with_reducible assumption
  | with_reducible exact Rel.pure rfl
  | with_reducible exact Rel.throw
  | with_reducible exact Rel.panic
  | with_reducible exact Rel.outOfFuel
  | with_reducible apply Rel.bindEq
  | with_reducible apply Rel.mapErr
  | with_reducible apply Rel.onSnd
  | with_reducible apply Rel.withPrefix
  | with_reducible apply Rel.withLocal
  | with_reducible apply Rel.ite
  | intro _
  | dsimp only)

/-! ## Frames and registers -/

section ops
variable {F T : U8 → Prop} {D : List U8 → List U8 → Prop} {B : Bus W E} {B' : Bus W' E} {R : W → W' → Prop}
  (h : Respects F T D B B' R)
include h

theorem rel_write {b : U8} (hb : F b) (a : U16) (d : List U8) : Rel R Eq (B.write b a d) (B'.write b a d) :=
  ⟨fun s s' r => ⟨Res.same_eq.mpr (h.write b a d s s' hb r).1, (h.write b a d s s' hb r).2⟩⟩

theorem rel_store {b : U8} (hb : T b) (a : U16) {d d' : List U8} (hd : D d d') :
    Rel R Eq (B.write b a d) (B'.write b a d') :=
  ⟨fun s s' r => ⟨Res.same_eq.mpr (h.store b a d d' s s' hb hd r).1, (h.store b a d d' s s' hb hd r).2⟩⟩

theorem rel_readBuf {b : U8} (hb : F b) (a : U16) (d : List U8) : Rel R Eq (B.readBuf b a d) (B'.readBuf b a d) := by
  constructor
  intro s s' r
  obtain ⟨h1, h2, h3⟩ := h.read b a d s s' hb r
  unfold Bus.readBuf
  generalize B.readFrame s b a d = x at h1 h2 h3
  generalize B'.readFrame s' b a d = y at h1 h2 h3
  obtain ⟨x1, x2, x3⟩ := x
  obtain ⟨y1, y2, y3⟩ := y
  dsimp only at h1 h2 h3
  subst h1 h2
  cases x1
  · exact ⟨rfl, h3⟩
  · exact ⟨rfl, h3⟩
  · exact ⟨trivial, h3⟩
  · exact ⟨trivial, h3⟩

theorem rel_readSlice {b : U8} (hb : F b) (a : U16) : Rel (Both R) Eq (B.readSlice b a) (B'.readSlice b a) := by
  constructor
  rintro ⟨d, s⟩ ⟨d', s'⟩ ⟨e, r⟩
  cases e
  obtain ⟨h1, h2, h3⟩ := h.read b a d s s' hb r
  exact ⟨Res.same_eq.mpr h1, h2, h3⟩

theorem rel_read1 {b : U8} (hb : F b) (a : U16) : Rel R Eq (B.read1 b a) (B'.read1 b a) := by
  unfold Bus.read1
  refine .bindEq (rel_readBuf h hb a _) fun l => ?_
  split
  · exact .pure rfl
  · exact .panic

theorem rel_read2 {b : U8} (hb : F b) (a : U16) : Rel R Eq (B.read2 b a) (B'.read2 b a) := by
  unfold Bus.read2
  refine .bindEq (rel_readBuf h hb a _) fun l => ?_
  split
  · exact .pure rfl
  · exact .panic

variable {s : Socket}

theorem rel_command (hs : F s.register) (c : Command) : Rel R Eq (s.command B c) (s.command B' c) := rel_write h hs _ _
theorem rel_resetInterrupt (hs : F s.register) (c : Interrupt) : Rel R Eq (s.resetInterrupt B c) (s.resetInterrupt B' c) :=
  rel_write h hs _ _
theorem rel_setMode (hs : F s.register) (c : Protocol) : Rel R Eq (s.setMode B c) (s.setMode B' c) := rel_write h hs _ _
theorem rel_setInterruptMask (hs : F s.register) (c : U8) :
    Rel R Eq (s.setInterruptMask B c) (s.setInterruptMask B' c) := rel_write h hs _ _
theorem rel_setSourcePort (hs : F s.register) (c : U16) : Rel R Eq (s.setSourcePort B c) (s.setSourcePort B' c) :=
  rel_write h hs _ _
theorem rel_setDestinationIp (hs : F s.register) (c : Ipv4) :
    Rel R Eq (s.setDestinationIp B c) (s.setDestinationIp B' c) := rel_write h hs _ _
theorem rel_setDestinationPort (hs : F s.register) (c : U16) :
    Rel R Eq (s.setDestinationPort B c) (s.setDestinationPort B' c) := rel_write h hs _ _
theorem rel_setTxWritePointer (hs : F s.register) (c : U16) :
    Rel R Eq (s.setTxWritePointer B c) (s.setTxWritePointer B' c) := rel_write h hs _ _
theorem rel_setRxReadPointer (hs : F s.register) (c : U16) :
    Rel R Eq (s.setRxReadPointer B c) (s.setRxReadPointer B' c) := rel_write h hs _ _
theorem rel_getStatus (hs : F s.register) : Rel R Eq (s.getStatus B) (s.getStatus B') := rel_read1 h hs _
theorem rel_getTxReadPointer (hs : F s.register) : Rel R Eq (s.getTxReadPointer B) (s.getTxReadPointer B') := rel_read2 h hs _
theorem rel_getTxWritePointer (hs : F s.register) : Rel R Eq (s.getTxWritePointer B) (s.getTxWritePointer B') :=
  rel_read2 h hs _
theorem rel_getRxReadPointer (hs : F s.register) : Rel R Eq (s.getRxReadPointer B) (s.getRxReadPointer B') := rel_read2 h hs _
theorem rel_getTxFreeSize (hs : F s.register) : Rel R Eq (s.getTxFreeSize B) (s.getTxFreeSize B') := rel_read2 h hs _

theorem rel_hasInterrupt (hs : F s.register) (c : Interrupt) : Rel R Eq (s.hasInterrupt B c) (s.hasInterrupt B' c) := by
  unfold Socket.hasInterrupt
  exact .bindEq (rel_read1 h hs _) fun _ => .pure rfl

theorem rel_getReceiveSize (hs : F s.register) (fuel : Nat) : Rel R Eq (s.getReceiveSize B fuel) (s.getReceiveSize B' fuel) := by
  induction fuel with
  | zero => exact .outOfFuel
  | succ n ih =>
    unfold Socket.getReceiveSize
    have h1 := rel_read2 h hs RECEIVED_SIZE
    relate

theorem rel_waitSendOk (hs : F s.register) (fuel : Nat) :
    Rel R Eq (RawDevice.waitSendOk B s fuel) (RawDevice.waitSendOk B' s fuel) := by
  induction fuel with
  | zero => exact .outOfFuel
  | succ n ih =>
    unfold RawDevice.waitSendOk
    have h1 := rel_hasInterrupt h hs .sendOk
    relate

/-! ## TCP -/

theorem rel_tcpReopen {t : TcpSocket} (hs : F t.socket.register) : Rel R Eq (t.reopen B) (t.reopen B') := by
  unfold TcpSocket.reopen
  exact .mapErr (.bindEq (rel_command h hs _) fun _ => .bindEq (rel_resetInterrupt h hs _) fun _ =>
    .bindEq (rel_setMode h hs _) fun _ => .bindEq (rel_setInterruptMask h hs _) fun _ => rel_command h hs _)

theorem rel_tcpOpen {t : TcpSocket} (hs : F t.socket.register) (p : U16) : Rel R Eq (t.open B p) (t.open B' p) := by
  unfold TcpSocket.open
  exact .mapErr (.bindEq (rel_command h hs _) fun _ => .bindEq (rel_resetInterrupt h hs _) fun _ =>
    .bindEq (rel_setSourcePort h hs _) fun _ => .bindEq (rel_setMode h hs _) fun _ =>
    .bindEq (rel_setInterruptMask h hs _) fun _ => rel_command h hs _)

theorem rel_tcpClose {t : TcpSocket} (hs : F t.socket.register) : Rel R Eq (t.socketClose B) (t.socketClose B') := by
  unfold TcpSocket.socketClose
  exact .mapErr (.bindEq (rel_setMode h hs _) fun _ => rel_command h hs _)

theorem rel_connectLoop {t : TcpSocket} (hs : F t.socket.register) (fuel : Nat) :
    Rel R Eq (t.connectLoop B fuel) (t.connectLoop B' fuel) := by
  induction fuel with
  | zero => exact .outOfFuel
  | succ n ih =>
    unfold TcpSocket.connectLoop
    refine .bindEq (.mapErr (rel_getStatus h hs)) fun st => ?_
    generalize Status.tryFrom st = x
    split
    · exact .pure rfl
    · exact .bindEq (rel_tcpClose h hs) fun _ => rel_tcpReopen h hs
    · exact ih

theorem rel_tcpConnect {t : TcpSocket} (hs : F t.socket.register) (fuel : Nat) (remote : SockAddr4) :
    Rel R Eq (t.socketConnect B fuel remote) (t.socketConnect B' fuel remote) := by
  have tail : Rel R Eq (do
      M.mapErr TcpSocketError.other (t.socket.setDestinationIp B remote.ip)
      M.mapErr .other (t.socket.setDestinationPort B remote.port)
      M.mapErr .other (t.socket.command B .connect)
      t.connectLoop B fuel) (do
      M.mapErr TcpSocketError.other (t.socket.setDestinationIp B' remote.ip)
      M.mapErr .other (t.socket.setDestinationPort B' remote.port)
      M.mapErr .other (t.socket.command B' .connect)
      t.connectLoop B' fuel) :=
    .bindEq (.mapErr (rel_setDestinationIp h hs _)) fun _ => .bindEq (.mapErr (rel_setDestinationPort h hs _)) fun _ =>
      .bindEq (.mapErr (rel_command h hs _)) fun _ => rel_connectLoop h hs fuel
  unfold TcpSocket.socketConnect
  refine .bindEq (.mapErr (rel_getStatus h hs)) fun st => ?_
  dsimp only
  generalize Status.tryFrom st = x
  split
  · exact tail
  · exact .bindEq .throw fun _ => tail
  · exact .bindEq .throw fun _ => tail
  · exact .bindEq .throw fun _ => tail
  · exact .bindEq (rel_tcpClose h hs) fun _ => .bindEq (rel_tcpReopen h hs) fun _ => tail

theorem rel_tcpIsConnected {t : TcpSocket} (hs : F t.socket.register) :
    Rel R Eq (t.socketIsConnected B) (t.socketIsConnected B') := by
  unfold TcpSocket.socketIsConnected
  exact .bindEq (.mapErr (rel_getStatus h hs)) fun _ => .pure rfl

theorem rel_tcpSend (hD : Cut D) {t : TcpSocket} (hs : F t.socket.register) (ht : T t.socket.txBuffer) (fuel : Nat)
    {d d' : List U8} (hd : D d d') : Rel R Eq (t.socketSend B fuel d) (t.socketSend B' fuel d') := by
  unfold TcpSocket.socketSend
  refine .bindEq (rel_tcpIsConnected h hs) fun c => ?_
  dsimp only
  refine .ite (fun _ => .throw) fun _ => ?_
  refine .bindEq (.mapErr (rel_getTxFreeSize h hs)) fun n => ?_
  have tail : ∀ x x', D x x' → Rel R Eq (do
      let writePointer ← M.mapErr TcpSocketError.other (t.socket.getTxWritePointer B)
      M.mapErr .other (B.write t.socket.txBuffer writePointer x)
      M.mapErr .other (t.socket.setTxWritePointer B (writePointer + BitVec.ofNat 16 x.length))
      M.mapErr .other (t.socket.command B .send)
      M.mapErr .other (RawDevice.waitSendOk B t.socket fuel)
      M.mapErr .other (t.socket.resetInterrupt B .sendOk)
      pure x.length) (do
      let writePointer ← M.mapErr TcpSocketError.other (t.socket.getTxWritePointer B')
      M.mapErr .other (B'.write t.socket.txBuffer writePointer x')
      M.mapErr .other (t.socket.setTxWritePointer B' (writePointer + BitVec.ofNat 16 x'.length))
      M.mapErr .other (t.socket.command B' .send)
      M.mapErr .other (RawDevice.waitSendOk B' t.socket fuel)
      M.mapErr .other (t.socket.resetInterrupt B' .sendOk)
      pure x'.length) := by
    intro x x' hx
    refine .bindEq (.mapErr (rel_getTxWritePointer h hs)) fun p => .bindEq (.mapErr (rel_store h ht p hx)) fun _ => ?_
    rw [hD.length hx]
    exact .bindEq (.mapErr (rel_setTxWritePointer h hs _)) fun _ => .bindEq (.mapErr (rel_command h hs _)) fun _ =>
      .bindEq (.mapErr (rel_waitSendOk h hs _)) fun _ => .bindEq (.mapErr (rel_resetInterrupt h hs _)) fun _ => .pure rfl
  rw [hD.length hd]
  refine .ite (fun _ => .bind (.pure hd) tail) fun _ => .bind (.sliceTo hD hd _) tail

theorem rel_tcpReceive {t : TcpSocket} (hs : F t.socket.register) (hr : F t.socket.rxBuffer) (fuel : Nat) :
    Rel (Both R) Eq (t.socketReceive B fuel) (t.socketReceive B' fuel) := by
  unfold TcpSocket.socketReceive
  refine .bindEq (.onSnd (rel_tcpIsConnected h hs)) fun c => ?_
  dsimp only
  refine .ite (fun _ => .throw) fun _ => ?_
  refine .bindEq (.onSnd (.mapErr (rel_hasInterrupt h hs _))) fun c => ?_
  refine .ite (fun _ => .pure rfl) fun _ => ?_
  refine .bindEq (.onSnd (.mapErr (rel_getReceiveSize h hs _))) fun n => ?_
  refine .bind .get fun s s' hs' => ?_
  rw [hs'.1]
  exact .bindEq (.onSnd (.mapErr (rel_getRxReadPointer h hs))) fun p =>
    .bindEq (.withPrefix (.mapErr (rel_readSlice h hr p))) fun _ =>
    .bindEq (.onSnd (.mapErr (rel_setRxReadPointer h hs _))) fun _ => .bindEq (.onSnd (.mapErr (rel_command h hs _))) fun _ =>
    .bindEq (.onSnd (.mapErr (rel_resetInterrupt h hs _))) fun _ => .pure rfl

/-! ## UDP -/

theorem rel_udpOpen {u : UdpSocket} (hs : F u.socket.register) : Rel R Eq (u.open B) (u.open B') := by
  unfold UdpSocket.open
  exact .bindEq (rel_command h hs _) fun _ => .bindEq (rel_resetInterrupt h hs _) fun _ =>
    .bindEq (rel_setSourcePort h hs _) fun _ => .bindEq (rel_setMode h hs _) fun _ =>
    .bindEq (rel_setInterruptMask h hs _) fun _ => rel_command h hs _

theorem rel_udpClose {u : UdpSocket} (hs : F u.socket.register) : Rel R Eq (u.socketClose B) (u.socketClose B') := by
  unfold UdpSocket.socketClose
  exact .mapErr (.bindEq (rel_setMode h hs _) fun _ => rel_command h hs _)

theorem rel_checkStatus {u : UdpSocket} (hs : F u.socket.register) : Rel R Eq (u.checkStatus B) (u.checkStatus B') := by
  unfold UdpSocket.checkStatus
  refine .bindEq (.mapErr (rel_getStatus h hs)) fun st => ?_
  generalize Status.tryFrom st = x
  split
  · exact .pure rfl
  · exact .throw
  · exact .throw

theorem rel_tryFlushTx {u : UdpSocket} (hs : F u.socket.register) : Rel R Eq (u.tryFlushTx B) (u.tryFlushTx B') := by
  unfold UdpSocket.tryFlushTx
  refine .bindEq (.mapErr (rel_getTxReadPointer h hs)) fun p => .bindEq (.mapErr (rel_getTxWritePointer h hs)) fun q => ?_
  refine .ite (fun _ => ?_) fun _ => .throw
  refine .bindEq (.mapErr (rel_hasInterrupt h hs _)) fun c => ?_
  refine .ite (fun _ => .mapErr (rel_resetInterrupt h hs _)) fun _ => ?_
  refine .bindEq (.mapErr (rel_hasInterrupt h hs _)) fun c => ?_
  exact .ite (fun _ => .bindEq (.mapErr (rel_resetInterrupt h hs _)) fun _ => .throw) fun _ => .pure rfl

theorem rel_flushLoop {u : UdpSocket} (hs : F u.socket.register) (fuel : Nat) :
    Rel R Eq (u.flushLoop B fuel) (u.flushLoop B' fuel) := by
  induction fuel with
  | zero => exact .outOfFuel
  | succ n ih =>
    constructor
    intro s s' r
    obtain ⟨h1, h2⟩ := (rel_tryFlushTx h hs).run s s' r
    unfold UdpSocket.flushLoop
    rw [Res.same_eq] at h1
    generalize u.tryFlushTx B s = x at h1 h2
    generalize u.tryFlushTx B' s' = y at h1 h2
    obtain ⟨x1, x2⟩ := x
    obtain ⟨y1, y2⟩ := y
    dsimp only at h1 h2
    subst h1
    obtain _ | (_ | _) | _ | _ := x1
    · exact ⟨rfl, h2⟩
    · exact ⟨rfl, h2⟩
    · exact ih.run _ _ h2
    · exact ⟨trivial, h2⟩
    · exact ⟨trivial, h2⟩

theorem rel_udpSend1 (hD : Cut D) {u : UdpSocket} (hs : F u.socket.register) (ht : T u.socket.txBuffer) (fuel : Nat)
    {d d' : List U8} (hd : D d d') : Rel R Eq (u.socketSend B fuel d) (u.socketSend B' fuel d') := by
  unfold UdpSocket.socketSend
  refine .bindEq (rel_checkStatus h hs) fun _ => ?_
  refine .ite (fun _ => .throw) fun _ => ?_
  refine .bindEq (.mapErr (rel_getTxFreeSize h hs)) fun n => ?_
  refine .ite (fun _ => .throw) fun _ => ?_
  have tail : ∀ x x', D x x' → Rel R Eq (do
      let writePointer ← M.mapErr NbError.ofBus (u.socket.getTxWritePointer B)
      M.mapErr NbError.ofBus (B.write u.socket.txBuffer writePointer x)
      M.mapErr NbError.ofBus (u.socket.setTxWritePointer B (writePointer + BitVec.ofNat 16 x.length))
      UdpSocket.blockSendCommand B fuel u
      pure x.length) (do
      let writePointer ← M.mapErr NbError.ofBus (u.socket.getTxWritePointer B')
      M.mapErr NbError.ofBus (B'.write u.socket.txBuffer writePointer x')
      M.mapErr NbError.ofBus (u.socket.setTxWritePointer B' (writePointer + BitVec.ofNat 16 x'.length))
      UdpSocket.blockSendCommand B' fuel u
      pure x'.length) := by
    intro x x' hx
    refine .bindEq (.mapErr (rel_getTxWritePointer h hs)) fun p => .bindEq (.mapErr (rel_store h ht p hx)) fun _ => ?_
    rw [hD.length hx]
    exact .bindEq (.mapErr (rel_setTxWritePointer h hs _)) fun _ => .bindEq (by
      unfold UdpSocket.blockSendCommand
      exact .bindEq (.mapErr (rel_command h hs _)) fun _ => rel_flushLoop h hs fuel) fun _ => .pure rfl
  dsimp only
  rw [hD.length hd]
  exact .ite (fun _ => .bind (.pure hd) tail) fun _ => .bind (.sliceTo hD hd _) tail

theorem rel_sendAllLoop (hD : Cut D) {u : UdpSocket} (hs : F u.socket.register) (ht : T u.socket.txBuffer) (fuel : Nat)
    {d d' : List U8} (hd : D d d') (k : Nat) (free : U16) (total : Nat) :
    Rel R Eq (u.sendAllLoop B fuel d k free total) (u.sendAllLoop B' fuel d' k free total) := by
  induction k generalizing free total with
  | zero => exact .outOfFuel
  | succ k ih =>
    unfold UdpSocket.sendAllLoop
    rw [hD.length hd]
    refine .ite (fun _ => .pure rfl) fun _ => ?_
    refine .bind (.sliceFrom hD hd _) fun r r' hr => ?_
    dsimp only
    rw [hD.length hr]
    refine .bind (.sliceTo hD hr _) fun b b' hb => ?_
    refine .bindEq (rel_udpSend1 h hD hs ht fuel hb) fun n => ?_
    exact .bindEq (.mapErr (rel_getTxFreeSize h hs)) fun f => ih _ _

theorem rel_udpSend (hD : Cut D) {u : UdpSocket} (hs : F u.socket.register) (ht : T u.socket.txBuffer) (fuel : Nat)
    {d d' : List U8} (hd : D d d') : Rel R Eq (u.socketSendAll B fuel d) (u.socketSendAll B' fuel d') := by
  unfold UdpSocket.socketSendAll
  refine .bindEq (rel_checkStatus h hs) fun _ => ?_
  refine .ite (fun _ => .throw) fun _ => ?_
  refine .bindEq (.mapErr (rel_getTxFreeSize h hs)) fun n => ?_
  exact .ite (fun _ => .throw) fun _ => rel_sendAllLoop h hD hs ht fuel hd _ _ _

theorem rel_udpReceive {u : UdpSocket} (hs : F u.socket.register) (hr : F u.socket.rxBuffer) (fuel : Nat) :
    Rel (Both R) Eq (u.socketReceive B fuel) (u.socketReceive B' fuel) := by
  unfold UdpSocket.socketReceive
  refine .bindEq (.onSnd (rel_checkStatus h hs)) fun _ => ?_
  refine .bindEq (.onSnd (.mapErr (rel_hasInterrupt h hs _))) fun c => ?_
  refine .ite (fun _ => .throw) fun _ => ?_
  refine .bindEq (.onSnd (.mapErr (rel_getReceiveSize h hs _))) fun n => ?_
  dsimp only
  refine .ite (fun _ => .throw) fun _ => ?_
  refine .bind .get fun s s' hs' => ?_
  rw [hs'.1]
  refine .ite (fun _ => .throw) fun _ => ?_
  refine .bindEq (.onSnd (.mapErr (rel_getRxReadPointer h hs))) fun p => ?_
  refine .bindEq (.onSnd (.mapErr (rel_readBuf h hr p _))) fun hdr => ?_
  generalize UdpHeader.fromArray hdr = x
  cases x with
  | none => exact .panic
  | some hd =>
    exact .bindEq (.withPrefix (.mapErr (rel_readSlice h hr _))) fun _ =>
      .bindEq (.onSnd (.mapErr (rel_setRxReadPointer h hs _))) fun _ => .bindEq (.onSnd (.mapErr (rel_command h hs _))) fun _ =>
      .bindEq (.onSnd (.mapErr (rel_resetInterrupt h hs _))) fun _ => .pure rfl

omit h in
theorem Rel.onSockSnd {m : M W ε α} {m' : M W' ε α} {s : Socket} (h : Rel R Eq m m') :
    Rel (OnSock s R) Eq (M.onSnd m) (M.onSnd m') :=
  .zoom (fun _ _ r => r.2.2) (fun _ _ _ _ r r' => ⟨r.1, r.2.1, r'⟩) h

theorem rel_setPort (hs : F s.register) (p : U16) :
    Rel (OnSock s R) Eq (UdpSocket.setPort B p) (UdpSocket.setPort B' p) := by
  unfold UdpSocket.setPort
  refine .bindEq (.modify fun s s' r => ⟨r.1, by rw [r.2.1], r.2.2⟩) fun _ => ?_
  refine .bind .get fun x x' r => ?_
  dsimp only
  rw [← r.2.1]
  exact .mapErr (.onSockSnd (rel_setSourcePort h (r.1 ▸ hs) _))

theorem rel_setDestination (hs : F s.register) (remote : SockAddr4) :
    Rel (OnSock s R) Eq (UdpSocket.setDestination B remote) (UdpSocket.setDestination B' remote) := by
  unfold UdpSocket.setDestination
  refine .bind .get fun x x' r => ?_
  dsimp only
  rw [← r.2.1]
  refine .ite (fun _ => ?_) fun _ => .pure rfl
  exact .bindEq (.mapErr (.onSockSnd (rel_setDestinationIp h (r.1 ▸ hs) _))) fun _ =>
    .bindEq (.mapErr (.onSockSnd (rel_setDestinationPort h (r.1 ▸ hs) _))) fun _ =>
    .modify fun s s' r => ⟨r.1, by rw [r.2.1], r.2.2⟩

theorem rel_udpConnectBus (hs : F s.register) (remote : SockAddr4) :
    Rel (OnSock s R) Eq (do
      let self := (← M.get).1
      M.mapErr .other (M.onSnd (self.open B))
      UdpSocket.setDestination B remote : M (UdpSocket × W) (UdpSocketError E) Unit) (do
      let self := (← M.get).1
      M.mapErr .other (M.onSnd (self.open B'))
      UdpSocket.setDestination B' remote) := by
  refine .bind .get fun x x' r => ?_
  rw [← r.2.1]
  exact .bindEq (.mapErr (.onSockSnd (rel_udpOpen h (r.1 ▸ hs)))) fun _ => rel_setDestination h hs remote

theorem rel_udpBindBus (hs : F s.register) (p : U16) :
    Rel (OnSock s R) Eq (do
      UdpSocket.setPort B p
      let self := (← M.get).1
      M.mapErr .other (M.onSnd (self.open B)) : M (UdpSocket × W) (UdpSocketError E) Unit) (do
      UdpSocket.setPort B' p
      let self := (← M.get).1
      M.mapErr .other (M.onSnd (self.open B'))) := by
  refine .bindEq (rel_setPort h hs p) fun _ => ?_
  refine .bind .get fun x x' r => ?_
  rw [← r.2.1]
  exact .mapErr (.onSockSnd (rel_udpOpen h (r.1 ▸ hs)))

theorem rel_udpSendTo (hD : Cut D) (hs : F s.register) (ht : T s.txBuffer) (fuel : Nat) (remote : SockAddr4) {d d' : List U8}
    (hd : D d d') :
    Rel (OnSock s R) Eq (UdpSocket.socketSendTo B fuel remote d) (UdpSocket.socketSendTo B' fuel remote d') := by
  unfold UdpSocket.socketSendTo
  refine .bindEq (.mapErr (rel_setDestination h hs remote)) fun _ => .bind .get fun x x' r => ?_
  dsimp only
  rw [← r.2.1]
  exact .onSockSnd (rel_udpSend h hD (r.1 ▸ hs) (r.1 ▸ ht) fuel hd)

/-! ## MACRAW -/

theorem rel_rawRead {d : RawDevice} (hs : F d.rawSocket.register) (hr : F d.rawSocket.rxBuffer) (fuel : Nat) :
    Rel (Both R) Eq (d.readFrame B fuel) (d.readFrame B' fuel) := by
  have new : Rel R (fun c c' => c = c' ∧ c.sock = d.rawSocket) (RxCursor.new B fuel d.rawSocket)
      (RxCursor.new B' fuel d.rawSocket) := by
    unfold RxCursor.new
    exact .bindEq (rel_getReceiveSize h hs _) fun _ => .bindEq (rel_getRxReadPointer h hs) fun _ => .pure ⟨rfl, rfl⟩
  have read : ∀ (c : RxCursor), c.sock = d.rawSocket →
      Rel (Both R) (fun x x' => x = x' ∧ x.2.sock = d.rawSocket) (c.read B) (c.read B') := by
    intro c hc
    unfold RxCursor.read
    refine .bind .get fun x x' r => ?_
    dsimp only
    rw [← r.1]
    exact .ite (fun _ => .pure ⟨rfl, hc⟩) fun _ =>
      .bindEq (.withPrefix (rel_readSlice h (by rw [hc]; exact hr) _)) fun _ => .pure ⟨rfl, hc⟩
  have local2 : ∀ (c : RxCursor), c.sock = d.rawSocket →
      Rel R (fun x x' => x = x' ∧ x.1.2.sock = d.rawSocket) (M.withLocal [0, 0] (c.read B)) (M.withLocal [0, 0] (c.read B')) := by
    intro c hc
    constructor
    intro s s' r
    obtain ⟨h1, h2⟩ := (read c hc).run ([0, 0], s) ([0, 0], s') ⟨rfl, r⟩
    unfold M.withLocal
    generalize c.read B ([0, 0], s) = x at h1 h2
    generalize c.read B' ([0, 0], s') = y at h1 h2
    obtain ⟨_ | _ | _ | _, t, u⟩ := x <;> obtain ⟨_ | _ | _ | _, t', u'⟩ := y <;> first
      | exact h1.elim
      | (obtain ⟨rfl, h2⟩ := h2; obtain ⟨rfl, h1⟩ := h1; exact ⟨⟨rfl, h1⟩, h2⟩)
      | exact ⟨h1, h2.2⟩
  have upto : ∀ (c : RxCursor) (n : U16), c.sock = d.rawSocket →
      Rel (Both R) (fun x x' => x = x' ∧ x.2.sock = d.rawSocket) (c.readUpto B n) (c.readUpto B' n) := by
    intro c n hc
    unfold RxCursor.readUpto
    refine .bind .get fun x x' r => ?_
    dsimp only
    rw [← r.1]
    exact .ite (fun _ => .withPrefix (read c hc)) fun _ => read c hc
  have commit : ∀ (c : RxCursor), c.sock = d.rawSocket → Rel R Eq (c.commit B) (c.commit B') := by
    intro c hc
    unfold RxCursor.commit
    rw [hc]
    exact .bindEq (rel_setRxReadPointer h hs _) fun _ => rel_command h hs _
  unfold RawDevice.readFrame
  refine .bind (.onSnd new) fun c c' hc => ?_
  obtain ⟨rfl, hc⟩ := hc
  refine .ite (fun _ => .pure rfl) fun _ => ?_
  refine .bind (.onSnd (local2 c hc)) fun x x' hx => ?_
  obtain ⟨rfl, hx⟩ := hx
  obtain ⟨⟨n, c2⟩, fb⟩ := x
  dsimp only at hx ⊢
  refine .ite (fun _ => .panic) fun _ => ?_
  split
  · refine .bind (upto c2 _ hx) fun y y' hy => ?_
    obtain ⟨rfl, hy⟩ := hy
    obtain ⟨m, c3⟩ := y
    dsimp only at hy ⊢
    refine .bindEq (.onSnd (commit _ ?_)) fun _ => .pure rfl
    split
    · exact hy
    · exact hy
  · exact .panic

theorem rel_rawWrite (hD : Cut D) {d : RawDevice} (hs : F d.rawSocket.register) (ht : T d.rawSocket.txBuffer) (fuel : Nat)
    {f f' : List U8} (hf : D f f') : Rel R Eq (d.writeFrame B fuel f) (d.writeFrame B' fuel f') := by
  have new : Rel R (fun c c' => c = c' ∧ c.sock = d.rawSocket) (TxCursor.new B d.rawSocket) (TxCursor.new B' d.rawSocket) := by
    unfold TxCursor.new
    exact .bindEq (rel_getTxFreeSize h hs) fun _ => .bindEq (rel_getTxWritePointer h hs) fun _ => .pure ⟨rfl, rfl⟩
  unfold RawDevice.writeFrame
  refine .bindEq (rel_resetInterrupt h hs _) fun _ => ?_
  refine .bind new fun c c' hc => ?_
  obtain ⟨rfl, hc⟩ := hc
  have write : Rel R (fun x x' => x = x' ∧ x.2.sock = d.rawSocket) (c.write B f) (c.write B' f') := by
    unfold TxCursor.write
    have he : f.isEmpty = f'.isEmpty := by
      have := hD.length hf
      cases f <;> cases f' <;> simp_all
    rw [he, hD.length hf]
    refine .ite (fun _ => .pure ⟨rfl, hc⟩) fun _ => ?_
    refine .bind (.sliceTo hD hf _) fun x x' hx => ?_
    exact .bindEq (rel_store h (by rw [hc]; exact ht) _ hx) fun _ => .pure ⟨rfl, hc⟩
  refine .bind write fun x x' hx => ?_
  obtain ⟨rfl, hx⟩ := hx
  obtain ⟨n, c2⟩ := x
  dsimp only at hx ⊢
  refine .bindEq ?_ fun _ => .bindEq (rel_waitSendOk h hs _) fun _ => .pure rfl
  unfold TxCursor.commit
  rw [hx]
  exact .bindEq (rel_setTxWritePointer h hs _) fun _ => rel_command h hs _

theorem rel_clearBuffers (is : List U8) (hs : ∀ i ∈ is, F (Socket.new i).register) :
    Rel R Eq (RawDevice.clearBuffers B is) (RawDevice.clearBuffers B' is) := by
  induction is with
  | nil => exact .pure rfl
  | cons i is ih =>
    unfold RawDevice.clearBuffers
    have hi := hs i (List.mem_cons_self ..)
    exact .bindEq (rel_write h hi _ _) fun _ => .bindEq (rel_write h hi _ _) fun _ =>
      ih fun j hj => hs j (List.mem_cons_of_mem _ hj)

theorem rel_rawNew (hs : ∀ i : U8, i.toNat < 8 → F (Socket.new i).register) :
    Rel R Eq (RawDevice.new B) (RawDevice.new B') := by
  have h0 := hs 0 (by decide)
  unfold RawDevice.new
  exact .mapErr (.bindEq (rel_write h h0 _ _) fun _ => .bindEq (rel_write h h0 _ _) fun _ =>
    .bindEq (rel_clearBuffers h _ (fun i hi => hs i (by revert i hi; decide))) fun _ =>
    .bindEq (rel_write h h0 _ _) fun _ => .bindEq (rel_command h h0 _) fun _ => .pure rfl)

theorem rel_rawEnable {d : RawDevice} (hs : F d.rawSocket.register) (hc : F COMMON) (x : U8) :
    Rel R Eq (d.enableInterrupts B x) (d.enableInterrupts B' x) := by
  unfold RawDevice.enableInterrupts
  exact .bindEq (rel_setInterruptMask h hs _) fun _ => rel_write h hc _ _

theorem rel_rawClear {d : RawDevice} (hs : F d.rawSocket.register) : Rel R Eq (d.clearInterrupts B) (d.clearInterrupts B') :=
  rel_resetInterrupt h hs _

theorem rel_rawDisable {d : RawDevice} (hs : F d.rawSocket.register) (hc : F COMMON) :
    Rel R Eq (d.disableInterrupts B) (d.disableInterrupts B') := by
  unfold RawDevice.disableInterrupts
  exact .bindEq (rel_write h hc _ _) fun _ => rel_setInterruptMask h hs _

/-! ## Common registers and initialisation -/

theorem rel_readIp (hc : F COMMON) (a : U16) : Rel R Eq (readIp B a) (readIp B' a) := by
  unfold readIp
  refine .bindEq (rel_readBuf h hc _ _) fun l => ?_
  split
  · exact .pure rfl
  · exact .panic

theorem rel_mac (hc : F COMMON) : Rel R Eq (Device.mac B) (Device.mac B') := by
  unfold Device.mac
  refine .bindEq (rel_readBuf h hc _ _) fun l => ?_
  split
  · exact .pure rfl
  · exact .panic

theorem rel_phy (hc : F COMMON) : Rel R Eq (Device.phyConfig B) (Device.phyConfig B') := by
  unfold Device.phyConfig
  exact .bindEq (rel_read1 h hc _) fun _ => .pure rfl

theorem rel_retryTimeout (hc : F COMMON) : Rel R Eq (currentRetryTimeout B) (currentRetryTimeout B') := by
  unfold currentRetryTimeout
  refine .bindEq (rel_readBuf h hc _ _) fun l => ?_
  split
  · exact .pure rfl
  · exact .panic

theorem rel_writeSettings (hc : F COMMON) (s : HostConfig) :
    Rel (Both R) Eq (writeSettings B s) (writeSettings B' s) := by
  have block : ∀ (P : HostConfig → Prop) [DecidablePred P] (a : U16) (d : List U8) (f : HostConfig → HostConfig)
      (m : M (HostConfig × W) E Unit) (m' : M (HostConfig × W') E Unit), Rel (Both R) Eq m m' →
      Rel (Both R) Eq (M.get >>= fun x => if P x.1 then (M.onSnd (B.write COMMON a d) >>= fun _ =>
          M.modify (fun s => (f s.1, s.2)) >>= fun _ => m) else m)
        (M.get >>= fun x => if P x.1 then (M.onSnd (B'.write COMMON a d) >>= fun _ =>
          M.modify (fun s => (f s.1, s.2)) >>= fun _ => m') else m') := by
    intro P _ a d f m m' hm
    refine .bind .get fun x x' r => ?_
    rw [← r.1]
    exact .ite (fun _ => .bindEq (.onSnd (rel_write h hc _ _)) fun _ =>
      .bindEq (.modify fun s s' r => ⟨congrArg f r.1, r.2⟩) fun _ => hm) fun _ => hm
  unfold writeSettings
  refine block (fun c => s.gateway ≠ c.gateway) _ _ (fun c => { c with gateway := s.gateway }) _ _ ?_
  refine block (fun c => s.subnet ≠ c.subnet) _ _ (fun c => { c with subnet := s.subnet }) _ _ ?_
  refine block (fun c => s.mac ≠ c.mac) _ _ (fun c => { c with mac := s.mac }) _ _ ?_
  refine .bind .get fun x x' r => ?_
  rw [← r.1]
  exact .ite (fun _ => .bindEq (.onSnd (rel_write h hc _ _)) fun _ => .modify fun s s' r => ⟨by rw [r.1], r.2⟩) fun _ => .pure rfl

theorem rel_manualRefresh (hc : F COMMON) : Rel (Both R) Eq (Manual.refresh B) (Manual.refresh B') := by
  unfold Manual.refresh
  refine .bind .get fun x x' r => ?_
  dsimp only
  rw [← r.1]
  refine .ite (fun _ => .bindEq (.zoom (R' := Both R) ?_ ?_ (rel_writeSettings h hc _)) fun _ =>
    .modify fun s s' r => ⟨by rw [r.1], r.2⟩) fun _ => .pure rfl
  · exact fun s s' r => ⟨by rw [r.1], r.2⟩
  · exact fun s s' t t' r r' => ⟨by dsimp only; rw [r.1, r'.1], r'.2⟩

theorem rel_assertVersion (hc : F COMMON) (x : U8) :
    Rel R Eq (Uninit.assertChipVersion B x) (Uninit.assertChipVersion B' x) := by
  unfold Uninit.assertChipVersion
  refine .bindEq (.mapErr (rel_read1 h hc _)) fun v => ?_
  exact .ite (fun _ => .throw) fun _ => .pure rfl

theorem rel_initializeWithHost {H : Type} [Host H] (hc : F COMMON) (v : Bool) (host : H) (mode : Mode)
    (hh : Rel (Both (S := H) R) Eq (Host.refresh B) (Host.refresh B')) :
    Rel R Eq (Uninit.initializeWithHost v B host mode) (Uninit.initializeWithHost v B' host mode) := by
  have tail : Rel R Eq (do
      M.mapErr InitializeError.spiError (resetChip B)
      M.mapErr .spiError (setMode B mode)
      let (_, host) ← M.mapErr .spiError (M.withLocal host (Host.refresh B))
      pure (DeviceState.new host)) (do
      M.mapErr InitializeError.spiError (resetChip B')
      M.mapErr .spiError (setMode B' mode)
      let (_, host) ← M.mapErr .spiError (M.withLocal host (Host.refresh B'))
      pure (DeviceState.new host)) :=
    .bindEq (.mapErr (rel_write h hc _ _)) fun _ => .bindEq (.mapErr (rel_write h hc _ _)) fun _ =>
      .bindEq (.mapErr (.withLocal hh)) fun _ => .pure rfl
  unfold Uninit.initializeWithHost
  exact .ite (fun _ => .bindEq (rel_assertVersion h hc _) fun _ => tail) fun _ => tail

theorem rel_initializeMacraw (hc : F COMMON) (hs : ∀ i : U8, i.toNat < 8 → F (Socket.new i).register) (m : Mac) :
    Rel R Eq (Uninit.initializeMacraw B m) (Uninit.initializeMacraw B' m) := by
  unfold Uninit.initializeMacraw
  exact .bindEq (.mapErr (rel_write h hc _ _)) fun _ => .bindEq (.mapErr (rel_write h hc _ _)) fun _ => rel_rawNew h hs

end ops
end W5500
