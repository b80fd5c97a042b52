import Verif.Model.Tcp
import Verif.Proofs.Monad
import Verif.Spec.Reach
/-! # Operations as sequences of frames

Whatever an operation does, and however it ends, it gets the bus from its state before to its state after by read
frames and by write frames of a certain kind. So what these frames keep, the operation keeps. -/

namespace W5500
variable {W σ τ E ε ε' α β S H : Type}

theorem Reach.trans {B : Bus W E} {F : U8 → U16 → List U8 → Prop} {w w' w'' : W} (h : Reach B F w w')
    (h' : Reach B F w' w'') : Reach B F w w'' := by
  induction h' with
  | refl => exact h
  | read b a d _ ih => exact .read b a d ih
  | write _ hf ih => exact .write ih hf

theorem Reach.mono {B : Bus W E} {F F' : U8 → U16 → List U8 → Prop} {w w' : W} (h : Reach B F w w')
    (hF : ∀ b a d, F b a d → F' b a d) : Reach B F' w w' := by
  induction h with
  | refl => exact .refl _
  | read b a d _ ih => exact .read b a d ih
  | write _ hf ih => exact .write ih (hF _ _ _ hf)

/-- An invariant of the frames is an invariant of `Reach`. -/
theorem Reach.induct {B : Bus W E} {F : U8 → U16 → List U8 → Prop} {I : W → Prop} {w w' : W} (h : Reach B F w w')
    (hr : ∀ w b a d, I w → I (B.readFrame w b a d).2.2) (hw : ∀ w b a d, F b a d → I w → I (B.writeFrame w b a d).2)
    (h0 : I w) : I w' := by
  induction h with
  | refl => exact h0
  | read b a d _ ih => exact hr _ b a d ih
  | write _ hf ih => exact hw _ _ _ _ hf ih

/-- `m` moves the bus by `Reach B F`. -/
structure MovesOn (B : Bus W E) (F : U8 → U16 → List U8 → Prop) (get : σ → W) (m : M σ ε α) : Prop where
  run : ∀ s, Reach B F (get s) (get (m s).2)

namespace MovesOn
variable {B : Bus W E} {F : U8 → U16 → List U8 → Prop} {get : σ → W}

theorem noop {m : M σ ε α} (h : ∀ s, get (m s).2 = get s) : MovesOn B F get m :=
  ⟨fun s => by rw [h s]; exact .refl _⟩

theorem pure (a : α) : MovesOn B F get (Pure.pure a : M σ ε α) := noop fun _ => rfl
theorem throw (e : ε) : MovesOn B F get (M.throw e : M σ ε α) := noop fun _ => rfl
theorem panic : MovesOn B F get (M.panic : M σ ε α) := noop fun _ => rfl
theorem outOfFuel : MovesOn B F get (M.outOfFuel : M σ ε α) := noop fun _ => rfl
theorem mget : MovesOn B F get (M.get : M σ ε σ) := noop fun _ => rfl
theorem sliceTo (b : List U8) (n : Nat) : MovesOn B F get (M.sliceTo b n : M σ ε _) := by
  unfold M.sliceTo; split
  · exact .pure _
  · exact .panic
theorem sliceFrom (b : List U8) (n : Nat) : MovesOn B F get (M.sliceFrom b n : M σ ε _) := by
  unfold M.sliceFrom; split
  · exact .pure _
  · exact .panic

theorem bind {m : M σ ε α} {f : α → M σ ε β} (h : MovesOn B F get m) (hf : ∀ a, MovesOn B F get (f a)) :
    MovesOn B F get (m >>= f) := by
  constructor
  intro s
  have hm := h.run s
  rw [M.bind_def]
  generalize m s = r at hm
  obtain ⟨_ | _ | _ | _, t⟩ := r
  · exact hm.trans ((hf _).run t)
  · exact hm
  · exact hm
  · exact hm

theorem mapErr {m : M σ ε α} {f : ε → ε'} (h : MovesOn B F get m) : MovesOn B F get (M.mapErr f m) := by
  constructor
  intro s
  have hm := h.run s
  rw [M.mapErr_def]
  generalize m s = r at hm
  obtain ⟨_ | _ | _ | _, t⟩ := r <;> exact hm

theorem zoom {g : τ → W} {get' : σ → τ} {put : τ → σ → σ} {m : M τ ε α} (hg : ∀ s, g (get' s) = get s)
    (hp : ∀ t s, get (put t s) = g t) (h : MovesOn B F g m) : MovesOn B F get (M.zoom get' put m) := by
  constructor
  intro s
  have := h.run (get' s)
  rw [hg] at this
  show Reach B F _ (get (put _ s))
  rw [hp]
  exact this

theorem onSnd {m : M σ ε α} (h : MovesOn B F get m) :
    MovesOn B F (fun s : S × σ => get s.2) (M.onSnd m) := zoom (fun _ => rfl) (fun _ _ => rfl) h

theorem onBus {m : M W ε α} (h : MovesOn B F id m) :
    MovesOn B F Device.bus (Device.onBus m : M (Device W H) ε α) := zoom (fun _ => rfl) (fun _ _ => rfl) h

theorem onSockBus {m : M (S × W) ε α} (h : MovesOn B F (fun s => s.2) m) :
    MovesOn B F (fun s => s.2.bus) (Device.onSockBus m : M (S × Device W H) ε α) :=
  zoom (fun _ => rfl) (fun _ _ => rfl) h

theorem withLocal {m : M (S × σ) ε α} (b : S) (h : MovesOn B F (fun s : S × σ => get s.2) m) :
    MovesOn B F get (M.withLocal b m) := by
  constructor
  intro s
  have := h.run (b, s)
  unfold M.withLocal
  generalize m (b, s) = r at this
  obtain ⟨_ | _ | _ | _, t⟩ := r <;> exact this

theorem withPrefix {m : M (List U8 × σ) ε α} (k : Nat) (h : MovesOn B F (fun s : List U8 × σ => get s.2) m) :
    MovesOn B F (fun s : List U8 × σ => get s.2) (M.withPrefix k m) := by
  constructor
  intro s
  unfold M.withPrefix
  split
  · exact h.run (s.1.take k, s.2)
  · exact .refl _

theorem write {b : U8} {a : U16} {d : List U8} (h : F b a d) : MovesOn B F id (B.write b a d) :=
  ⟨fun s => .write (.refl s) h⟩

theorem readBuf {b : U8} {a : U16} {i : List U8} : MovesOn B F id (B.readBuf b a i) := by
  constructor
  intro s
  have : Reach B F s (B.readFrame s b a i).2.2 := .read b a i (.refl s)
  unfold Bus.readBuf
  generalize B.readFrame s b a i = r at this
  obtain ⟨_ | _ | _ | _, t⟩ := r <;> exact this

theorem readSlice {b : U8} {a : U16} : MovesOn B F (fun s : List U8 × W => s.2) (B.readSlice b a) := by
  constructor
  intro s
  exact .read b a s.1 (.refl s.2)

theorem read1 {b : U8} {a : U16} : MovesOn B F id (B.read1 b a) := by
  unfold Bus.read1
  refine .bind .readBuf fun l => ?_
  split
  · exact .pure _
  · exact .panic

theorem read2 {b : U8} {a : U16} : MovesOn B F id (B.read2 b a) := by
  unfold Bus.read2
  refine .bind .readBuf fun l => ?_
  split
  · exact .pure _
  · exact .panic

end MovesOn

/-- Write frames to the registers `L` (offset and width) and the TX memory of a socket. -/
def SockFrames (s : Socket) (L : List (U16 × Nat)) (b : U8) (a : U16) (d : List U8) : Prop :=
  b = s.txBuffer ∨ (b = s.register ∧ (a, d.length) ∈ L)

/-- The write frames of sending. RECV is not cleared. -/
inductive SendFrames (s : Socket) : U8 → U16 → List U8 → Prop where
  | tx (a : U16) (d : List U8) : SendFrames s s.txBuffer a d
  | wr (x y : U8) : SendFrames s s.register 0x24 [x, y]
  | ir (x : U8) (h : x.getLsbD 2 = false) : SendFrames s s.register 0x02 [x]
  | send : SendFrames s s.register 0x01 [0x20]

/-- Structural steps of a `MovesOn` proof. -/
macro "moves" : tactic => `(tactic| repeat' first
  | with_reducible exact MovesOn.pure _
  | with_reducible exact MovesOn.throw _
  | with_reducible exact MovesOn.panic
  | with_reducible exact MovesOn.outOfFuel
  | with_reducible exact MovesOn.mget
  | with_reducible exact MovesOn.sliceTo _ _
  | with_reducible exact MovesOn.sliceFrom _ _
  | with_reducible exact MovesOn.readBuf
  | exact MovesOn.readSlice
  | with_reducible exact MovesOn.read1
  | with_reducible exact MovesOn.read2
  | with_reducible assumption
  | exact MovesOn.write (SendFrames.tx _ _)
  | exact MovesOn.write (SendFrames.wr _ _)
  | exact MovesOn.write (SendFrames.ir _ (by decide))
  | exact MovesOn.write SendFrames.send
  | exact MovesOn.write (Or.inl rfl)
  | exact MovesOn.write (Or.inr ⟨rfl, by decide⟩)
  | exact MovesOn.write (Or.inr ⟨rfl, by show (_, 1) ∈ _; decide⟩)
  | exact MovesOn.write (Or.inr ⟨rfl, by show (_, 2) ∈ _; decide⟩)
  | exact MovesOn.write (Or.inr ⟨rfl, by show (_, 4) ∈ _; decide⟩)
  | with_reducible apply MovesOn.bind
  | with_reducible apply MovesOn.mapErr
  | (refine MovesOn.onSnd (get := id) ?_)
  | (refine MovesOn.onSnd ?_)
  | with_reducible apply MovesOn.onBus
  | with_reducible apply MovesOn.onSockBus
  | (refine MovesOn.withPrefix (get := id) _ ?_)
  | with_reducible apply MovesOn.withLocal
  | intro _
  | split
  | exact MovesOn.noop (fun _ => rfl)
  | dsimp only)

section ops
variable {B : Bus W E}

/-- Registers a UDP socket writes apart from the destination: Sn_MR, Sn_CR, Sn_IR, Sn_PORT, Sn_TX_WR, Sn_RX_RD,
Sn_IMR. -/
def udpRegs : List (U16 × Nat) := [(0x00, 1), (0x01, 1), (0x02, 1), (0x04, 2), (0x24, 2), (0x28, 2), (0x2C, 1)]
/-- The destination: Sn_DIPR, Sn_DPORT. -/
def destRegs : List (U16 × Nat) := [(0x0C, 4), (0x10, 2)]

theorem moves_receiveSize (F : U8 → U16 → List U8 → Prop) (s : Socket) (fuel : Nat) :
    MovesOn B F id (s.getReceiveSize B fuel) := by
  induction fuel with
  | zero => exact .outOfFuel
  | succ n ih => unfold Socket.getReceiveSize; moves

theorem moves_udpOpen (u : UdpSocket) : MovesOn B (SockFrames u.socket udpRegs) id (u.open B) := by
  unfold UdpSocket.open Socket.command Socket.resetInterrupt Socket.setSourcePort Socket.setMode Socket.setInterruptMask
  moves

theorem moves_udpClose (u : UdpSocket) : MovesOn B (SockFrames u.socket udpRegs) id (u.socketClose B) := by
  unfold UdpSocket.socketClose Socket.command Socket.setMode
  moves

theorem moves_checkStatus (F : U8 → U16 → List U8 → Prop) (u : UdpSocket) : MovesOn B F id (u.checkStatus B) := by
  unfold UdpSocket.checkStatus Socket.getStatus
  moves

theorem moves_tryFlush (u : UdpSocket) : MovesOn B (SendFrames u.socket) id (u.tryFlushTx B) := by
  unfold UdpSocket.tryFlushTx Socket.getTxReadPointer Socket.getTxWritePointer Socket.hasInterrupt Socket.resetInterrupt
  moves

theorem moves_flushLoop (u : UdpSocket) (fuel : Nat) : MovesOn B (SendFrames u.socket) id (u.flushLoop B fuel) := by
  induction fuel with
  | zero => exact .outOfFuel
  | succ n ih =>
    constructor
    intro s
    have h := (moves_tryFlush (B := B) u).run s
    unfold UdpSocket.flushLoop
    split
    · rename_i hr
      rw [hr] at h
      exact h.trans (ih.run _)
    · exact h

theorem moves_udpSend (u : UdpSocket) (fuel : Nat) (data : List U8) :
    MovesOn B (SendFrames u.socket) id (u.socketSend B fuel data) := by
  have h1 := moves_checkStatus (B := B) (SendFrames u.socket) u
  have h2 := moves_flushLoop (B := B) u fuel
  unfold UdpSocket.socketSend UdpSocket.blockSendCommand Socket.getTxFreeSize Socket.getTxWritePointer Socket.setTxWritePointer
    Socket.command
  moves

theorem moves_sendAllLoop (u : UdpSocket) (fuel : Nat) (data : List U8) (k : Nat) (v : U16) (t : Nat) :
    MovesOn B (SendFrames u.socket) id (u.sendAllLoop B fuel data k v t) := by
  have h2 := moves_udpSend (B := B) u fuel
  induction k generalizing v t with
  | zero => exact .outOfFuel
  | succ n ih =>
    unfold UdpSocket.sendAllLoop Socket.getTxFreeSize
    repeat' first | exact h2 _ | exact ih _ _ | moves

theorem moves_sendAll (u : UdpSocket) (fuel : Nat) (data : List U8) :
    MovesOn B (SendFrames u.socket) id (u.socketSendAll B fuel data) := by
  have h1 := moves_checkStatus (B := B) (SendFrames u.socket) u
  have h2 := moves_sendAllLoop (B := B) u fuel data
  unfold UdpSocket.socketSendAll Socket.getTxFreeSize
  repeat' first | exact h2 _ _ _ | moves

theorem SendFrames.sock {s : Socket} (b : U8) (a : U16) (d : List U8) (h : SendFrames s b a d) :
    SockFrames s udpRegs b a d := by
  cases h with
  | tx => exact .inl rfl
  | wr x y => exact .inr ⟨rfl, by show (_, 2) ∈ _; decide⟩
  | ir x => exact .inr ⟨rfl, by show (_, 1) ∈ _; decide⟩
  | send => exact .inr ⟨rfl, by decide⟩

theorem moves_udpSendAll (u : UdpSocket) (fuel : Nat) (data : List U8) :
    MovesOn B (SockFrames u.socket udpRegs) id (u.socketSendAll B fuel data) :=
  ⟨fun w => ((moves_sendAll u fuel data).run w).mono SendFrames.sock⟩

theorem moves_udpReceive (u : UdpSocket) (fuel : Nat) :
    MovesOn B (SockFrames u.socket udpRegs) (fun s => s.2) (u.socketReceive B fuel) := by
  have h1 := moves_checkStatus (B := B) (SockFrames u.socket udpRegs) u
  have h2 := moves_receiveSize (B := B) (SockFrames u.socket udpRegs) u.socket fuel
  unfold UdpSocket.socketReceive Socket.hasInterrupt Socket.getRxReadPointer Socket.setRxReadPointer Socket.command
    Socket.resetInterrupt
  moves

/-- All socket registers the crate writes on a TCP or UDP socket. -/
def sockRegs : List (U16 × Nat) := udpRegs ++ destRegs

theorem SockFrames.mono {s : Socket} {L L' : List (U16 × Nat)} (h : ∀ x ∈ L, x ∈ L') (b : U8) (a : U16) (d : List U8)
    (hf : SockFrames s L b a d) : SockFrames s L' b a d := hf.imp id fun ⟨h1, h2⟩ => ⟨h1, h _ h2⟩

theorem MovesOn.wider {s : Socket} {L : List (U16 × Nat)} {get : σ → W} {m : M σ ε α}
    (h : MovesOn B (SockFrames s L) get m) (L' : List (U16 × Nat)) (hL : ∀ x ∈ L, x ∈ L') :
    MovesOn B (SockFrames s L') get m :=
  ⟨fun x => (h.run x).mono (SockFrames.mono hL)⟩

theorem udpRegs_sub : ∀ x ∈ udpRegs, x ∈ sockRegs := fun _ => List.mem_append_left _

/-- Operations that also work on the socket object keep its hardware socket. -/
structure MovesU (B : Bus W E) (L : List (U16 × Nat)) (m : M (UdpSocket × W) ε α) : Prop where
  run : ∀ u w, Reach B (SockFrames u.socket L) w (m (u, w)).2.2 ∧ (m (u, w)).2.1.socket = u.socket

namespace MovesU
variable {L : List (U16 × Nat)}

theorem bind {m : M (UdpSocket × W) ε α} {f : α → M (UdpSocket × W) ε β} (h : MovesU B L m)
    (hf : ∀ a, MovesU B L (f a)) : MovesU B L (m >>= f) := by
  constructor
  intro u w
  have hm := h.run u w
  rw [M.bind_def]
  generalize m (u, w) = r at hm
  obtain ⟨_ | _ | _ | _, t⟩ := r
  · have := (hf ‹_›).run t.1 t.2
    rw [hm.2] at this
    exact ⟨hm.1.trans this.1, this.2⟩
  · exact hm
  · exact hm
  · exact hm

theorem mapErr {m : M (UdpSocket × W) ε α} {f : ε → ε'} (h : MovesU B L m) : MovesU B L (M.mapErr f m) := by
  constructor
  intro u w
  have hm := h.run u w
  rw [M.mapErr_def]
  generalize m (u, w) = r at hm
  obtain ⟨_ | _ | _ | _, t⟩ := r <;> exact hm

theorem throw (e : ε) : MovesU B L (M.throw e : M (UdpSocket × W) ε α) := ⟨fun _ _ => ⟨.refl _, rfl⟩⟩
theorem pure (a : α) : MovesU B L (Pure.pure a : M (UdpSocket × W) ε α) := ⟨fun _ _ => ⟨.refl _, rfl⟩⟩
theorem modify {f : UdpSocket × W → UdpSocket × W} (h : ∀ s, (f s).2 = s.2 ∧ (f s).1.socket = s.1.socket) :
    MovesU B L (M.modify f : M (UdpSocket × W) ε Unit) := by
  constructor
  intro u w
  show Reach _ _ _ (f (u, w)).2 ∧ (f (u, w)).1.socket = _
  rw [(h (u, w)).1, (h (u, w)).2]
  exact ⟨.refl _, rfl⟩

/-- Operations on the current socket object. -/
theorem self {f : UdpSocket → M W ε α} (h : ∀ u, MovesOn B (SockFrames u.socket L) id (f u)) :
    MovesU B L (do let self := (← M.get).1; M.onSnd (f self)) :=
  ⟨fun u w => ⟨(h u).run w, rfl⟩⟩

end MovesU

theorem moves_setDestination (remote : SockAddr4) : MovesU B sockRegs (UdpSocket.setDestination B remote) := by
  constructor
  intro u w
  have h1 : MovesOn B (SockFrames u.socket sockRegs) id (u.socket.setDestinationIp B remote.ip) := by
    unfold Socket.setDestinationIp; moves
  have h2 : MovesOn B (SockFrames u.socket sockRegs) id (u.socket.setDestinationPort B remote.port) := by
    unfold Socket.setDestinationPort; moves
  unfold UdpSocket.setDestination
  rw [M.bind_ok (show M.get (u, w) = (.ok (u, w), (u, w)) from rfl)]
  dsimp only
  split
  · have r1 := h1.run w
    rw [M.bind_def, M.mapErr_def]
    simp only [M.onSnd, M.zoom]
    generalize u.socket.setDestinationIp B remote.ip w = r at r1 ⊢
    obtain ⟨_ | _ | _ | _, w1⟩ := r
    · have r2 := h2.run w1
      dsimp only
      rw [M.bind_def, M.mapErr_def]
      simp only [M.zoom]
      generalize u.socket.setDestinationPort B remote.port w1 = r at r2 ⊢
      obtain ⟨_ | _ | _ | _, w2⟩ := r
      all_goals exact ⟨r1.trans r2, rfl⟩
    all_goals exact ⟨r1, rfl⟩
  · exact ⟨.refl _, rfl⟩

theorem moves_setPort (port : U16) : MovesU B udpRegs (UdpSocket.setPort B port) := by
  unfold UdpSocket.setPort
  refine .bind (.modify fun _ => ⟨rfl, rfl⟩) fun _ => ?_
  refine ⟨fun u w => ?_⟩
  have h1 : MovesOn B (SockFrames u.socket udpRegs) id (u.socket.setSourcePort B u.port) := by
    unfold Socket.setSourcePort; moves
  have r1 := h1.run w
  rw [M.bind_ok (show M.get (u, w) = (.ok (u, w), (u, w)) from rfl)]
  dsimp only
  rw [M.mapErr_def]
  simp only [M.onSnd, M.zoom]
  generalize u.socket.setSourcePort B u.port w = r at r1 ⊢
  obtain ⟨_ | _ | _ | _, w2⟩ := r <;> exact ⟨r1, rfl⟩

theorem moves_udpConnect (remote : SockAddr) (u : UdpSocket) (d : Device W H) :
    Reach B (SockFrames u.socket sockRegs) d.bus (Device.udpConnect B remote (u, d)).2.2.bus := by
  unfold Device.udpConnect
  split
  · exact .refl _
  · rename_i r
    unfold Device.onSockBus
    have : MovesU B sockRegs (do
        let self := (← M.get).1
        M.mapErr UdpSocketError.other (M.onSnd (self.open B))
        UdpSocket.setDestination B r) := by
      refine ⟨fun u w => ?_⟩
      refine (MovesU.bind (m := M.mapErr UdpSocketError.other (do let self := (← M.get).1; M.onSnd (self.open B)))
        (.mapErr (.self fun u => (moves_udpOpen u).wider _ udpRegs_sub)) fun _ => moves_setDestination r).run u w
    exact (this.run u d.bus).1

theorem moves_udpBind (port : U16) (u : UdpSocket) (d : Device W H) :
    Reach B (SockFrames u.socket udpRegs) d.bus (Device.udpBind B port (u, d)).2.2.bus := by
  have : MovesU B udpRegs (do
      UdpSocket.setPort B port
      let self := (← M.get).1
      M.mapErr UdpSocketError.other (M.onSnd (self.open B))) :=
    .bind (moves_setPort port) fun _ => ⟨fun u w => (MovesU.mapErr (f := UdpSocketError.other)
      (m := do let self := (← M.get).1; M.onSnd (self.open B))
      (.self fun u => moves_udpOpen u)).run u w⟩
  exact (this.run u d.bus).1

theorem moves_udpSendTo (fuel : Nat) (remote : SockAddr) (buf : List U8) (u : UdpSocket) (d : Device W H) :
    Reach B (SockFrames u.socket sockRegs) d.bus (Device.udpSendTo B fuel remote buf (u, d)).2.2.bus := by
  unfold Device.udpSendTo
  split
  · exact .refl _
  · rename_i r
    have : MovesU B sockRegs (UdpSocket.socketSendTo B fuel r buf) :=
      .bind (.mapErr (moves_setDestination r)) fun _ =>
        .self fun u => (moves_udpSendAll u fuel buf).wider _ udpRegs_sub
    exact (this.run u d.bus).1

theorem moves_deviceUdpSend (fuel : Nat) (u : UdpSocket) (buf : List U8) :
    MovesOn B (SockFrames u.socket udpRegs) Device.bus (Device.udpSend B fuel u buf : M (Device W H) _ _) :=
  .onBus (moves_udpSendAll u fuel buf)

theorem moves_deviceUdpReceive (fuel : Nat) (u : UdpSocket) :
    MovesOn B (SockFrames u.socket udpRegs) (fun s => s.2.bus) (Device.udpReceive B fuel u : M (List U8 × Device W H) _ _) :=
  .onSockBus (.bind (moves_udpReceive u fuel) fun _ => .pure _)

theorem moves_deviceUdpClose (u : UdpSocket) :
    MovesOn B (SockFrames u.socket udpRegs) Device.bus (Device.udpClose B u : M (Device W H) _ _) :=
  .bind (.onBus (moves_udpClose u)) fun _ => .noop fun d => by
    unfold Device.releaseSocket; split <;> rfl

/-! ## TCP -/

theorem moves_tcpOpen (t : TcpSocket) (port : U16) : MovesOn B (SockFrames t.socket sockRegs) id (t.open B port) := by
  unfold TcpSocket.open Socket.command Socket.resetInterrupt Socket.setSourcePort Socket.setMode Socket.setInterruptMask
  moves

theorem moves_tcpReopen (t : TcpSocket) : MovesOn B (SockFrames t.socket sockRegs) id (t.reopen B) := by
  unfold TcpSocket.reopen Socket.command Socket.resetInterrupt Socket.setMode Socket.setInterruptMask
  moves

theorem moves_tcpClose (t : TcpSocket) : MovesOn B (SockFrames t.socket sockRegs) id (t.socketClose B) := by
  unfold TcpSocket.socketClose Socket.command Socket.setMode
  moves

theorem moves_connectLoop (t : TcpSocket) (fuel : Nat) :
    MovesOn B (SockFrames t.socket sockRegs) id (t.connectLoop B fuel) := by
  have h1 := moves_tcpReopen (B := B) t
  have h2 := moves_tcpClose (B := B) t
  induction fuel with
  | zero => exact .outOfFuel
  | succ n ih => unfold TcpSocket.connectLoop Socket.getStatus; moves

theorem moves_socketConnect (t : TcpSocket) (fuel : Nat) (remote : SockAddr4) :
    MovesOn B (SockFrames t.socket sockRegs) id (t.socketConnect B fuel remote) := by
  have h1 := moves_tcpReopen (B := B) t
  have h2 := moves_tcpClose (B := B) t
  have h3 := moves_connectLoop (B := B) t fuel
  unfold TcpSocket.socketConnect Socket.getStatus Socket.setDestinationIp Socket.setDestinationPort Socket.command
  moves

theorem moves_waitSendOk (F : U8 → U16 → List U8 → Prop) (s : Socket) (fuel : Nat) :
    MovesOn B F id (RawDevice.waitSendOk B s fuel) := by
  induction fuel with
  | zero => exact .outOfFuel
  | succ n ih => unfold RawDevice.waitSendOk Socket.hasInterrupt; moves

theorem moves_isConnected (F : U8 → U16 → List U8 → Prop) (t : TcpSocket) : MovesOn B F id (t.socketIsConnected B) := by
  unfold TcpSocket.socketIsConnected Socket.getStatus; moves

theorem moves_tcpSend (t : TcpSocket) (fuel : Nat) (data : List U8) :
    MovesOn B (SockFrames t.socket sockRegs) id (t.socketSend B fuel data) := by
  have h1 := moves_waitSendOk (B := B) (SockFrames t.socket sockRegs) t.socket fuel
  have h2 := moves_isConnected (B := B) (SockFrames t.socket sockRegs) t
  unfold TcpSocket.socketSend Socket.getTxFreeSize Socket.getTxWritePointer Socket.setTxWritePointer Socket.command
    Socket.resetInterrupt
  moves

theorem moves_tcpReceive (t : TcpSocket) (fuel : Nat) :
    MovesOn B (SockFrames t.socket sockRegs) (fun s => s.2) (t.socketReceive B fuel) := by
  have h1 := moves_receiveSize (B := B) (SockFrames t.socket sockRegs) t.socket fuel
  have h2 := moves_isConnected (B := B) (SockFrames t.socket sockRegs) t
  unfold TcpSocket.socketReceive Socket.hasInterrupt Socket.getRxReadPointer Socket.setRxReadPointer Socket.command
    Socket.resetInterrupt
  moves

theorem moves_deviceTcpConnect (fuel : Nat) (t : TcpSocket) (remote : SockAddr) :
    MovesOn B (SockFrames t.socket sockRegs) Device.bus (Device.tcpConnect B fuel t remote : M (Device W H) _ _) := by
  unfold Device.tcpConnect
  split
  · exact .throw _
  · exact .onBus (.bind (moves_tcpOpen t _) fun _ => moves_socketConnect t fuel _)

theorem moves_deviceTcpSend (fuel : Nat) (t : TcpSocket) (buf : List U8) :
    MovesOn B (SockFrames t.socket sockRegs) Device.bus (Device.tcpSend B fuel t buf : M (Device W H) _ _) :=
  .onBus (moves_tcpSend t fuel buf)

theorem moves_deviceTcpReceive (fuel : Nat) (t : TcpSocket) :
    MovesOn B (SockFrames t.socket sockRegs) (fun s => s.2.bus) (Device.tcpReceive B fuel t : M (List U8 × Device W H) _ _) :=
  .onSockBus (moves_tcpReceive t fuel)

theorem moves_deviceTcpClose (t : TcpSocket) :
    MovesOn B (SockFrames t.socket sockRegs) Device.bus (Device.tcpClose B t : M (Device W H) _ _) :=
  .bind (.onBus (moves_tcpClose t)) fun _ => .noop fun d => by
    unfold Device.releaseSocket; split <;> rfl

end ops
end W5500
