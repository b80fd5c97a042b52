import Verif.Spec.Strategy
import Verif.Proofs.Monad
/-! # Every call is a strategy -/

namespace W5500
open Spec socketn
variable {E ε ε' α β S X Y : Type}

namespace Spec

/-- One strategy after the other. -/
def Strategy.andThen (p : Strategy E X) (f : X → Strategy E Y) : Strategy E Y :=
  match p with
  | .done x => f x
  | .read b a d k => .read b a d fun r l => (k r l).andThen f
  | .write b a d k => .write b a d fun r => (k r).andThen f

theorem Strategy.play_andThen {W : Type} (B : Bus W E) (p : Strategy E X) (f : X → Strategy E Y) (w : W) :
    (p.andThen f).play B w = (f (p.play B w).1).play B (p.play B w).2 := by
  induction p generalizing w with
  | done x => rfl
  | read b a d k ih => exact ih _ _ _
  | write b a d k ih => exact ih _ _

namespace Plays

theorem done (x : X) : Plays (E := E) fun _ _ w => (x, w) := ⟨.done x, fun _ _ _ => rfl⟩

theorem andThen {F : (W : Type) → Bus W E → W → X × W} {G : X → (W : Type) → Bus W E → W → Y × W} (hf : Plays F)
    (hg : ∀ x, Plays (G x)) : Plays fun W B w => G (F W B w).1 W B (F W B w).2 := by
  obtain ⟨p, hp⟩ := hf
  refine ⟨p.andThen fun x => Classical.choose (hg x), fun W B w => ?_⟩
  have h := Classical.choose_spec (hg (p.play B w).1) W B (p.play B w).2
  rw [Strategy.play_andThen]
  refine Eq.trans ?_ h
  show G (F W B w).1 W B (F W B w).2 = _
  rw [hp]

theorem congr {F G : (W : Type) → Bus W E → W → X × W} (hf : Plays F) (h : ∀ W B w, G W B w = F W B w) : Plays G := by
  obtain ⟨p, hp⟩ := hf
  exact ⟨p, fun W B w => (h W B w).trans (hp W B w)⟩

theorem map {F : (W : Type) → Bus W E → W → X × W} (hf : Plays F) (f : X → Y) :
    Plays fun W B w => (f (F W B w).1, (F W B w).2) :=
  hf.andThen fun x => done (f x)

end Plays
end Spec

/-! ## Functions on the bus -/

/-- A function that only needs the bus. -/
def Play0 (m : (W : Type) → Bus W E → M W ε α) : Prop := Plays fun W B w => m W B w

namespace Play0

theorem pure {a : α} : Play0 (E := E) (ε := ε) fun _ _ => Pure.pure a := Plays.done _
theorem throw {e : ε} : Play0 (E := E) (α := α) fun _ _ => M.throw e := Plays.done _
theorem panic : Play0 (E := E) (ε := ε) (α := α) fun _ _ => M.panic := Plays.done _
theorem outOfFuel : Play0 (E := E) (ε := ε) (α := α) fun _ _ => M.outOfFuel := Plays.done _

theorem bind {m : (W : Type) → Bus W E → M W ε α} {f : α → (W : Type) → Bus W E → M W ε β} (hm : Play0 m)
    (hf : ∀ a, Play0 (f a)) : Play0 fun W B => m W B >>= fun a => f a W B := by
  refine (hm.andThen (G := fun x W B w => match x with
    | .ok a => f a W B w
    | .err e => (.err e, w)
    | .panic => (.panic, w)
    | .fuel => (.fuel, w)) ?_).congr ?_
  · rintro (a | e | _ | _)
    · exact hf a
    · exact Plays.done _
    · exact Plays.done _
    · exact Plays.done _
  · intro W B w
    show (_ >>= _ : M _ _ _) _ = _
    rw [M.bind_def]
    generalize m W B w = r
    obtain ⟨_ | _ | _ | _, t⟩ := r <;> rfl

theorem mapErr {m : (W : Type) → Bus W E → M W ε α} (f : ε → ε') (hm : Play0 m) : Play0 fun W B => M.mapErr f (m W B) := by
  refine (hm.map fun x => match x with
    | .ok a => (.ok a : Res ε' α)
    | .err e => .err (f e)
    | .panic => .panic
    | .fuel => .fuel).congr ?_
  intro W B w
  show M.mapErr _ _ _ = _
  rw [M.mapErr_def]
  generalize m W B w = r
  obtain ⟨_ | _ | _ | _, t⟩ := r <;> rfl

theorem ite {c : Prop} [Decidable c] {a b : (W : Type) → Bus W E → M W ε α} (ha : c → Play0 a) (hb : ¬c → Play0 b) :
    Play0 fun W B => if c then a W B else b W B := by
  by_cases h : c
  · simp only [if_pos h]; exact ha h
  · simp only [if_neg h]; exact hb h

theorem sliceTo {d : List U8} {n : Nat} : Play0 (E := E) (ε := ε) fun _ _ => M.sliceTo d n := by
  unfold M.sliceTo
  exact .ite (fun _ => .pure) fun _ => .panic

theorem sliceFrom {d : List U8} {n : Nat} : Play0 (E := E) (ε := ε) fun _ _ => M.sliceFrom d n := by
  unfold M.sliceFrom
  exact .ite (fun _ => .pure) fun _ => .panic

end Play0

/-! ## Functions on the bus and something else, started with `s` -/

/-- Result and new local state on one side, bus on the other. -/
def aside {W : Type} (r : Res ε α × (S × W)) : (Res ε α × S) × W := ((r.1, r.2.1), r.2.2)

/-- A function that needs the bus and a local state, which is `s` at the beginning. -/
def Play1 (s : S) (m : (W : Type) → Bus W E → M (S × W) ε α) : Prop := Plays fun W B w => aside (m W B (s, w))

namespace Play1
variable {s : S}

theorem pure {a : α} : Play1 (E := E) (ε := ε) s fun _ _ => Pure.pure a := Plays.done (Res.ok a, s)
theorem throw {e : ε} : Play1 (E := E) (α := α) s fun _ _ => M.throw e := Plays.done (Res.err e, s)
theorem panic : Play1 (E := E) (ε := ε) (α := α) s fun _ _ => M.panic := Plays.done (Res.panic, s)

theorem bind {m : (W : Type) → Bus W E → M (S × W) ε α} {f : α → (W : Type) → Bus W E → M (S × W) ε β} (hm : Play1 s m)
    (hf : ∀ a t, Play1 t (f a)) : Play1 s fun W B => m W B >>= fun a => f a W B := by
  refine (hm.andThen (G := fun x W B w => match x with
    | (.ok a, t) => aside (f a W B (t, w))
    | (.err e, t) => ((.err e, t), w)
    | (.panic, t) => ((.panic, t), w)
    | (.fuel, t) => ((.fuel, t), w)) ?_).congr ?_
  · rintro ⟨a | e | _ | _, t⟩
    · exact hf a t
    · exact Plays.done _
    · exact Plays.done _
    · exact Plays.done _
  · intro W B w
    show aside ((_ >>= _ : M _ _ _) _) = _
    rw [M.bind_def]
    generalize m W B (s, w) = r
    obtain ⟨_ | _ | _ | _, t⟩ := r <;> rfl

theorem mapErr {m : (W : Type) → Bus W E → M (S × W) ε α} (f : ε → ε') (hm : Play1 s m) :
    Play1 s fun W B => M.mapErr f (m W B) := by
  refine (hm.map fun x => match x with
    | (.ok a, t) => ((.ok a, t) : Res ε' α × S)
    | (.err e, t) => (.err (f e), t)
    | (.panic, t) => (.panic, t)
    | (.fuel, t) => (.fuel, t)).congr ?_
  intro W B w
  show aside (M.mapErr _ _ _) = _
  rw [M.mapErr_def]
  generalize m W B (s, w) = r
  obtain ⟨_ | _ | _ | _, t⟩ := r <;> rfl

theorem onSnd {m : (W : Type) → Bus W E → M W ε α} (hm : Play0 m) : Play1 s fun W B => M.onSnd (m W B) :=
  hm.map fun x => (x, s)

theorem get {g : (W : Type) → Bus W E → S × W → M (S × W) ε α} (h : Plays fun W B w => aside (g W B (s, w) (s, w))) :
    Play1 s fun W B => M.get >>= g W B := h

theorem of {m : (W : Type) → Bus W E → M (S × W) ε α} (h : Play1 s m) : Plays fun W B w => aside (m W B (s, w)) := h

theorem modify {f : S → S} : Play1 (E := E) (ε := ε) s fun _ _ => M.modify fun s => (f s.1, s.2) := Plays.done (Res.ok (), f s)

theorem ite {c : Prop} [Decidable c] {a b : (W : Type) → Bus W E → M (S × W) ε α} (ha : c → Play1 s a) (hb : ¬c → Play1 s b) :
    Play1 s fun W B => if c then a W B else b W B := by
  by_cases h : c
  · simp only [if_pos h]; exact ha h
  · simp only [if_neg h]; exact hb h

theorem withPrefix {b : List U8} {m : (W : Type) → Bus W E → M (List U8 × W) ε α} {n : Nat} (hm : ∀ b, Play1 b m) :
    Play1 b fun W B => M.withPrefix n (m W B) := by
  by_cases h : n ≤ b.length
  · refine ((hm (b.take n)).map fun x => (x.1, x.2 ++ b.drop n)).congr fun W B w => ?_
    unfold M.withPrefix
    dsimp only
    rw [if_pos h]
    rfl
  · refine (Plays.done (.panic, b)).congr fun W B w => ?_
    unfold M.withPrefix
    dsimp only
    rw [if_neg h]
    rfl

end Play1

theorem Play0.withLocal {m : (W : Type) → Bus W E → M (S × W) ε α} {b : S} (hm : Play1 b m) :
    Play0 fun W B => M.withLocal b (m W B) := by
  refine (hm.map fun x => match x with
    | (.ok a, t) => (.ok (a, t) : Res ε (α × S))
    | (.err e, _) => .err e
    | (.panic, _) => .panic
    | (.fuel, _) => .fuel).congr ?_
  intro W B w
  show M.withLocal _ _ _ = _
  unfold M.withLocal
  generalize m W B (b, w) = r
  obtain ⟨_ | _ | _ | _, t⟩ := r <;> rfl

/-! ## Frames and registers -/

theorem play_write (b : U8) (a : U16) (d : List U8) : Play0 fun W (B : Bus W E) => B.write b a d :=
  ⟨.write b a d .done, fun _ _ _ => rfl⟩

theorem play_readBuf (b : U8) (a : U16) (d : List U8) : Play0 fun W (B : Bus W E) => B.readBuf b a d := by
  refine ⟨.read b a d fun r l => .done (match r with
    | .ok _ => .ok l
    | .err e => .err e
    | .panic => .panic
    | .fuel => .fuel), fun W B w => ?_⟩
  show Bus.readBuf _ _ _ _ _ = _
  unfold Bus.readBuf Strategy.play
  generalize B.readFrame w b a d = r
  obtain ⟨_ | _ | _ | _, l, t⟩ := r <;> rfl

theorem play_readSlice (b : U8) (a : U16) (d : List U8) : Play1 d fun W (B : Bus W E) => B.readSlice b a :=
  ⟨.read b a d fun r l => .done (r, l), fun _ _ _ => rfl⟩

theorem play_read1 (b : U8) (a : U16) : Play0 fun W (B : Bus W E) => B.read1 b a := by
  unfold Bus.read1
  refine .bind (play_readBuf b a _) fun l => ?_
  rcases l with _ | ⟨x, _ | ⟨y, l⟩⟩
  · exact .panic
  · exact .pure
  · exact .panic

theorem play_read2 (b : U8) (a : U16) : Play0 fun W (B : Bus W E) => B.read2 b a := by
  unfold Bus.read2
  refine .bind (play_readBuf b a _) fun l => ?_
  rcases l with _ | ⟨x, _ | ⟨y, _ | ⟨z, l⟩⟩⟩
  · exact .panic
  · exact .panic
  · exact .pure
  · exact .panic

variable (s : Socket)

theorem play_command (c : Command) : Play0 fun W (B : Bus W E) => s.command B c := play_write _ _ _
theorem play_resetInterrupt (c : Interrupt) : Play0 fun W (B : Bus W E) => s.resetInterrupt B c := play_write _ _ _
theorem play_setMode (c : Protocol) : Play0 fun W (B : Bus W E) => s.setMode B c := play_write _ _ _
theorem play_setInterruptMask (c : U8) : Play0 fun W (B : Bus W E) => s.setInterruptMask B c := play_write _ _ _
theorem play_setSourcePort (c : U16) : Play0 fun W (B : Bus W E) => s.setSourcePort B c := play_write _ _ _
theorem play_setDestinationIp (c : Ipv4) : Play0 fun W (B : Bus W E) => s.setDestinationIp B c := play_write _ _ _
theorem play_setDestinationPort (c : U16) : Play0 fun W (B : Bus W E) => s.setDestinationPort B c := play_write _ _ _
theorem play_setTxWritePointer (c : U16) : Play0 fun W (B : Bus W E) => s.setTxWritePointer B c := play_write _ _ _
theorem play_setRxReadPointer (c : U16) : Play0 fun W (B : Bus W E) => s.setRxReadPointer B c := play_write _ _ _
theorem play_getStatus : Play0 fun W (B : Bus W E) => s.getStatus B := play_read1 _ _
theorem play_getTxReadPointer : Play0 fun W (B : Bus W E) => s.getTxReadPointer B := play_read2 _ _
theorem play_getTxWritePointer : Play0 fun W (B : Bus W E) => s.getTxWritePointer B := play_read2 _ _
theorem play_getRxReadPointer : Play0 fun W (B : Bus W E) => s.getRxReadPointer B := play_read2 _ _
theorem play_getTxFreeSize : Play0 fun W (B : Bus W E) => s.getTxFreeSize B := play_read2 _ _

theorem play_hasInterrupt (c : Interrupt) : Play0 fun W (B : Bus W E) => s.hasInterrupt B c := by
  unfold Socket.hasInterrupt
  exact .bind (play_read1 _ _) fun _ => .pure

theorem play_getReceiveSize (fuel : Nat) : Play0 fun W (B : Bus W E) => s.getReceiveSize B fuel := by
  induction fuel with
  | zero => exact .outOfFuel
  | succ n ih =>
    unfold Socket.getReceiveSize
    exact .bind (play_read2 _ _) fun x => .bind (play_read2 _ _) fun y => .ite (fun _ => .pure) fun _ => ih

theorem play_waitSendOk (fuel : Nat) : Play0 fun W (B : Bus W E) => RawDevice.waitSendOk B s fuel := by
  induction fuel with
  | zero => exact .outOfFuel
  | succ n ih =>
    unfold RawDevice.waitSendOk
    exact .bind (play_hasInterrupt s _) fun x => .ite (fun _ => .pure) fun _ => ih

/-! ## TCP -/

variable (t : TcpSocket)

theorem play_tcpReopen : Play0 fun W (B : Bus W E) => t.reopen B := by
  unfold TcpSocket.reopen
  exact .mapErr _ (.bind (play_command _ _) fun _ => .bind (play_resetInterrupt _ _) fun _ =>
    .bind (play_setMode _ _) fun _ => .bind (play_setInterruptMask _ _) fun _ => play_command _ _)

theorem play_tcpOpen (p : U16) : Play0 fun W (B : Bus W E) => t.open B p := by
  unfold TcpSocket.open
  exact .mapErr _ (.bind (play_command _ _) fun _ => .bind (play_resetInterrupt _ _) fun _ =>
    .bind (play_setSourcePort _ _) fun _ => .bind (play_setMode _ _) fun _ =>
    .bind (play_setInterruptMask _ _) fun _ => play_command _ _)

theorem play_tcpClose : Play0 fun W (B : Bus W E) => t.socketClose B := by
  unfold TcpSocket.socketClose
  exact .mapErr _ (.bind (play_setMode _ _) fun _ => play_command _ _)

theorem play_connectLoop (fuel : Nat) : Play0 fun W (B : Bus W E) => t.connectLoop B fuel := by
  induction fuel with
  | zero => exact .outOfFuel
  | succ n ih =>
    unfold TcpSocket.connectLoop
    refine .bind (.mapErr _ (play_getStatus _)) fun st => ?_
    generalize Status.tryFrom st = x
    obtain _ | x := x
    · exact ih
    · cases x
      case closed => exact .bind (play_tcpClose t) fun _ => play_tcpReopen t
      case established => exact .pure
      all_goals exact ih

theorem play_tcpConnect (fuel : Nat) (remote : SockAddr4) : Play0 fun W (B : Bus W E) => t.socketConnect B fuel remote := by
  have tail : Play0 fun W (B : Bus W E) => (do
      M.mapErr TcpSocketError.other (t.socket.setDestinationIp B remote.ip)
      M.mapErr .other (t.socket.setDestinationPort B remote.port)
      M.mapErr .other (t.socket.command B .connect)
      t.connectLoop B fuel : M W (TcpSocketError E) Unit) :=
    .bind (.mapErr _ (play_setDestinationIp _ _)) fun _ => .bind (.mapErr _ (play_setDestinationPort _ _)) fun _ =>
      .bind (.mapErr _ (play_command _ _)) fun _ => play_connectLoop _ fuel
  unfold TcpSocket.socketConnect
  refine .bind (.mapErr _ (play_getStatus _)) fun st => ?_
  generalize Status.tryFrom st = x
  have reopen : Play0 fun W (B : Bus W E) => (do
      t.socketClose B
      t.reopen B
      M.mapErr TcpSocketError.other (t.socket.setDestinationIp B remote.ip)
      M.mapErr .other (t.socket.setDestinationPort B remote.port)
      M.mapErr .other (t.socket.command B .connect)
      t.connectLoop B fuel : M W (TcpSocketError E) Unit) :=
    .bind (play_tcpClose t) fun _ => .bind (play_tcpReopen t) fun _ => tail
  obtain _ | x := x
  · exact .bind .throw fun _ => tail
  · cases x
    case init => exact tail
    case macRaw => exact .bind .throw fun _ => tail
    case udp => exact .bind .throw fun _ => tail
    all_goals exact reopen

theorem play_tcpIsConnected : Play0 fun W (B : Bus W E) => t.socketIsConnected B := by
  unfold TcpSocket.socketIsConnected
  exact .bind (.mapErr _ (play_getStatus _)) fun _ => .pure

theorem play_tcpSend (fuel : Nat) (d : List U8) : Play0 fun W (B : Bus W E) => t.socketSend B fuel d := by
  unfold TcpSocket.socketSend
  refine .bind (play_tcpIsConnected t) fun c => .ite (fun _ => .throw) fun _ => ?_
  refine .bind (.mapErr _ (play_getTxFreeSize _)) fun n => ?_
  have tail : ∀ x : List U8, Play0 fun W (B : Bus W E) => (do
      let writePointer ← M.mapErr TcpSocketError.other (t.socket.getTxWritePointer B)
      M.mapErr .other (B.write t.socket.txBuffer writePointer x)
      M.mapErr .other (t.socket.setTxWritePointer B (writePointer + BitVec.ofNat 16 x.length))
      M.mapErr .other (t.socket.command B .send)
      M.mapErr .other (RawDevice.waitSendOk B t.socket fuel)
      M.mapErr .other (t.socket.resetInterrupt B .sendOk)
      pure x.length : M W (TcpSocketError E) Nat) := fun x =>
    .bind (.mapErr _ (play_getTxWritePointer _)) fun p => .bind (.mapErr _ (play_write _ _ _)) fun _ =>
      .bind (.mapErr _ (play_setTxWritePointer _ _)) fun _ => .bind (.mapErr _ (play_command _ _)) fun _ =>
      .bind (.mapErr _ (play_waitSendOk _ _)) fun _ => .bind (.mapErr _ (play_resetInterrupt _ _)) fun _ => .pure
  exact .ite (fun _ => .bind .pure tail) fun _ => .bind .sliceTo tail

theorem play_tcpReceive (fuel : Nat) (b : List U8) : Play1 b fun W (B : Bus W E) => t.socketReceive B fuel := by
  have tail : ∀ (b : List U8) (k : Nat), Play1 b fun W (B : Bus W E) => (do
      let readPointer ← M.onSnd (M.mapErr TcpSocketError.other (t.socket.getRxReadPointer B))
      M.withPrefix k (M.mapErr .other (B.readSlice t.socket.rxBuffer readPointer))
      M.onSnd (M.mapErr .other (t.socket.setRxReadPointer B (readPointer + BitVec.ofNat 16 k)))
      M.onSnd (M.mapErr .other (t.socket.command B .receive))
      M.onSnd (M.mapErr .other (t.socket.resetInterrupt B .receive))
      pure k : M (List U8 × W) (TcpSocketError E) Nat) := fun b k =>
    .bind (.onSnd (.mapErr _ (play_getRxReadPointer _))) fun p b =>
    .bind (.withPrefix fun b => .mapErr _ (play_readSlice _ p b)) fun _ b =>
    .bind (.onSnd (.mapErr _ (play_setRxReadPointer _ _))) fun _ b => .bind (.onSnd (.mapErr _ (play_command _ _))) fun _ b =>
    .bind (.onSnd (.mapErr _ (play_resetInterrupt _ _))) fun _ _ => .pure
  unfold TcpSocket.socketReceive
  refine .bind (.onSnd (play_tcpIsConnected t)) fun c b => .ite (fun _ => .throw) fun _ => ?_
  refine .bind (.onSnd (.mapErr _ (play_hasInterrupt _ _))) fun c b => .ite (fun _ => .pure) fun _ => ?_
  exact .bind (.onSnd (.mapErr _ (play_getReceiveSize _ _))) fun n b =>
    .get (tail b (if n.toNat > b.length then b.length else n.toNat))

/-! ## UDP -/

variable (u : UdpSocket)

theorem play_udpOpen : Play0 fun W (B : Bus W E) => u.open B := by
  unfold UdpSocket.open
  exact .bind (play_command _ _) fun _ => .bind (play_resetInterrupt _ _) fun _ => .bind (play_setSourcePort _ _) fun _ =>
    .bind (play_setMode _ _) fun _ => .bind (play_setInterruptMask _ _) fun _ => play_command _ _

theorem play_udpClose : Play0 fun W (B : Bus W E) => u.socketClose B := by
  unfold UdpSocket.socketClose
  exact .mapErr _ (.bind (play_setMode _ _) fun _ => play_command _ _)

theorem play_checkStatus : Play0 fun W (B : Bus W E) => u.checkStatus B := by
  unfold UdpSocket.checkStatus
  refine .bind (.mapErr _ (play_getStatus _)) fun st => ?_
  generalize Status.tryFrom st = x
  obtain _ | x := x
  · exact .throw
  · cases x
    case udp => exact .pure
    all_goals exact .throw

theorem play_tryFlushTx : Play0 fun W (B : Bus W E) => u.tryFlushTx B := by
  unfold UdpSocket.tryFlushTx
  refine .bind (.mapErr _ (play_getTxReadPointer _)) fun p => .bind (.mapErr _ (play_getTxWritePointer _)) fun q => ?_
  refine .ite (fun _ => ?_) fun _ => .throw
  refine .bind (.mapErr _ (play_hasInterrupt _ _)) fun c => ?_
  refine .ite (fun _ => .mapErr _ (play_resetInterrupt _ _)) fun _ => ?_
  refine .bind (.mapErr _ (play_hasInterrupt _ _)) fun c => ?_
  exact .ite (fun _ => .bind (.mapErr _ (play_resetInterrupt _ _)) fun _ => .throw) fun _ => .pure

theorem play_flushLoop (fuel : Nat) : Play0 fun W (B : Bus W E) => u.flushLoop B fuel := by
  induction fuel with
  | zero => exact .outOfFuel
  | succ n ih =>
    refine ((play_tryFlushTx (E := E) u).andThen (G := fun x W B w => match x with
      | .err .wouldBlock => u.flushLoop B n w
      | r => (r, w)) ?_).congr ?_
    · rintro (a | (_ | _) | _ | _)
      · exact Plays.done _
      · exact Plays.done _
      · exact ih
      · exact Plays.done _
      · exact Plays.done _
    · intro W B w
      show UdpSocket.flushLoop B u (n + 1) w = match (u.tryFlushTx B w).1 with
        | .err .wouldBlock => u.flushLoop B n (u.tryFlushTx B w).2
        | r => (r, (u.tryFlushTx B w).2)
      rw [UdpSocket.flushLoop]
      dsimp only
      generalize u.tryFlushTx B w = r
      obtain ⟨a | (_ | _) | _ | _, v⟩ := r <;> rfl

theorem play_udpSend1 (fuel : Nat) (d : List U8) : Play0 fun W (B : Bus W E) => u.socketSend B fuel d := by
  have tail : ∀ x : List U8, Play0 fun W (B : Bus W E) => (do
      let writePointer ← M.mapErr NbError.ofBus (u.socket.getTxWritePointer B)
      M.mapErr NbError.ofBus (B.write u.socket.txBuffer writePointer x)
      M.mapErr NbError.ofBus (u.socket.setTxWritePointer B (writePointer + BitVec.ofNat 16 x.length))
      UdpSocket.blockSendCommand B fuel u
      pure x.length : M W (NbError (UdpSocketError E)) Nat) := by
    intro x
    refine .bind (.mapErr _ (play_getTxWritePointer _)) fun p => .bind (.mapErr _ (play_write _ _ _)) fun _ =>
      .bind (.mapErr _ (play_setTxWritePointer _ _)) fun _ => .bind ?_ fun _ => .pure
    unfold UdpSocket.blockSendCommand
    exact .bind (.mapErr _ (play_command _ _)) fun _ => play_flushLoop u fuel
  unfold UdpSocket.socketSend
  refine .bind (play_checkStatus u) fun _ => .ite (fun _ => .throw) fun _ => ?_
  refine .bind (.mapErr _ (play_getTxFreeSize _)) fun n => .ite (fun _ => .throw) fun _ => ?_
  exact .ite (fun _ => .bind .pure tail) fun _ => .bind .sliceTo tail

theorem play_sendAllLoop (fuel : Nat) (d : List U8) (k : Nat) (free : U16) (total : Nat) :
    Play0 fun W (B : Bus W E) => u.sendAllLoop B fuel d k free total := by
  induction k generalizing free total with
  | zero => exact .outOfFuel
  | succ k ih =>
    unfold UdpSocket.sendAllLoop
    refine .ite (fun _ => .pure) fun _ => .bind .sliceFrom fun r => .bind .sliceTo fun b => ?_
    exact .bind (play_udpSend1 u fuel b) fun n => .bind (.mapErr _ (play_getTxFreeSize _)) fun f => ih _ _

theorem play_udpSend (fuel : Nat) (d : List U8) : Play0 fun W (B : Bus W E) => u.socketSendAll B fuel d := by
  unfold UdpSocket.socketSendAll
  refine .bind (play_checkStatus u) fun _ => .ite (fun _ => .throw) fun _ => ?_
  refine .bind (.mapErr _ (play_getTxFreeSize _)) fun n => ?_
  exact .ite (fun _ => .throw) fun _ => play_sendAllLoop u fuel d _ _ _

theorem play_udpReceive (fuel : Nat) (b : List U8) : Play1 b fun W (B : Bus W E) => u.socketReceive B fuel := by
  have last : ∀ (b : List U8) (p q r : U16) (k : Nat) (hd : UdpHeader), Play1 b fun W (B : Bus W E) => (do
      M.withPrefix k (M.mapErr NbError.ofBus (B.readSlice u.socket.rxBuffer q))
      M.onSnd (M.mapErr NbError.ofBus (u.socket.setRxReadPointer B r))
      M.onSnd (M.mapErr NbError.ofBus (u.socket.command B .receive))
      M.onSnd (M.mapErr NbError.ofBus (u.socket.resetInterrupt B .receive))
      pure (k, hd) : M (List U8 × W) (NbError (UdpSocketError E)) (Nat × UdpHeader)) := fun b p q r k hd =>
    .bind (.withPrefix fun b => .mapErr _ (play_readSlice _ q b)) fun _ b =>
    .bind (.onSnd (.mapErr _ (play_setRxReadPointer _ _))) fun _ b => .bind (.onSnd (.mapErr _ (play_command _ _))) fun _ b =>
    .bind (.onSnd (.mapErr _ (play_resetInterrupt _ _))) fun _ _ => .pure
  have tail : ∀ (b : List U8) (l k : Nat), Play1 b fun W (B : Bus W E) => (do
      if l = 0 then
        M.throw (.other .bufferOverflow)
      else
        let readPointer ← M.onSnd (M.mapErr NbError.ofBus (u.socket.getRxReadPointer B))
        let header ← M.onSnd (M.mapErr NbError.ofBus
          (B.readBuf u.socket.rxBuffer readPointer [0, 0, 0, 0, 0, 0, 0, 0]))
        match UdpHeader.fromArray header with
        | none => M.panic
        | some udpHeader =>
          let dataReadPointer := readPointer + 8
          let readLength := max (min k l) udpHeader.len
          M.withPrefix readLength
            (M.mapErr NbError.ofBus (B.readSlice u.socket.rxBuffer dataReadPointer))
          M.onSnd (M.mapErr NbError.ofBus
            (u.socket.setRxReadPointer B (readPointer + BitVec.ofNat 16 k)))
          M.onSnd (M.mapErr NbError.ofBus (u.socket.command B .receive))
          M.onSnd (M.mapErr NbError.ofBus (u.socket.resetInterrupt B .receive))
          pure (readLength, udpHeader) : M (List U8 × W) (NbError (UdpSocketError E)) (Nat × UdpHeader)) := by
    intro b l k
    refine .ite (fun _ => .throw) fun _ => ?_
    refine .bind (.onSnd (.mapErr _ (play_getRxReadPointer _))) fun p b => ?_
    refine .bind (.onSnd (.mapErr _ (play_readBuf _ p _))) fun hdr b => ?_
    generalize UdpHeader.fromArray hdr = x
    obtain _ | hd := x
    · exact .panic
    · exact last b p (p + 8) (p + BitVec.ofNat 16 k) (max (min k l) hd.len) hd
  unfold UdpSocket.socketReceive
  refine .bind (.onSnd (play_checkStatus u)) fun _ b => ?_
  refine .bind (.onSnd (.mapErr _ (play_hasInterrupt _ _))) fun c b => .ite (fun _ => .throw) fun _ => ?_
  refine .bind (.onSnd (.mapErr _ (play_getReceiveSize _ _))) fun n b => .ite (fun _ => .throw) fun _ => ?_
  exact .get (tail b b.length n.toNat)

theorem play_setPort (p : U16) : Play1 u fun W (B : Bus W E) => UdpSocket.setPort B p := by
  have tail : ∀ u v : UdpSocket, Play1 u fun W (B : Bus W E) =>
      (M.mapErr .other (M.onSnd (v.socket.setSourcePort B v.port)) : M (UdpSocket × W) (UdpSocketError E) Unit) :=
    fun u v => .mapErr _ (.onSnd (play_setSourcePort _ _))
  unfold UdpSocket.setPort
  exact .bind (.modify (f := fun v : UdpSocket => { v with port := p })) fun _ u => .get (tail u u)

theorem play_setDestination (remote : SockAddr4) : Play1 u fun W (B : Bus W E) => UdpSocket.setDestination B remote := by
  have tail : ∀ (u v : UdpSocket) (c : Bool), Play1 u fun W (B : Bus W E) => ((do
      if c then
        M.mapErr .other (M.onSnd (v.socket.setDestinationIp B remote.ip))
        M.mapErr .other (M.onSnd (v.socket.setDestinationPort B remote.port))
        M.modify fun s => ({ s.1 with destination := some remote }, s.2)) : M (UdpSocket × W) (UdpSocketError E) Unit) :=
    fun u v c => .ite (fun _ => .bind (.mapErr _ (.onSnd (play_setDestinationIp _ _))) fun _ _ =>
      .bind (.mapErr _ (.onSnd (play_setDestinationPort _ _))) fun _ _ =>
      .modify (f := fun v : UdpSocket => { v with destination := some remote })) fun _ => .pure
  unfold UdpSocket.setDestination
  exact .get (tail u u (match u.destination with
    | some dest => decide (dest ≠ remote)
    | none => true))

theorem play_udpConnect (remote : SockAddr4) : Play1 u fun W (B : Bus W E) => (do
      let self := (← M.get).1
      M.mapErr .other (M.onSnd (self.open B))
      UdpSocket.setDestination B remote : M (UdpSocket × W) (UdpSocketError E) Unit) := by
  have tail : ∀ u v : UdpSocket, Play1 u fun W (B : Bus W E) => ((do
      M.mapErr .other (M.onSnd (v.open B))
      UdpSocket.setDestination B remote) : M (UdpSocket × W) (UdpSocketError E) Unit) :=
    fun u v => .bind (.mapErr _ (.onSnd (play_udpOpen _))) fun _ u => play_setDestination u remote
  exact .get (tail u u)

theorem play_udpBind (p : U16) : Play1 u fun W (B : Bus W E) => (do
      UdpSocket.setPort B p
      let self := (← M.get).1
      M.mapErr .other (M.onSnd (self.open B)) : M (UdpSocket × W) (UdpSocketError E) Unit) := by
  have tail : ∀ u v : UdpSocket, Play1 u fun W (B : Bus W E) =>
      (M.mapErr .other (M.onSnd (v.open B)) : M (UdpSocket × W) (UdpSocketError E) Unit) :=
    fun u v => .mapErr _ (.onSnd (play_udpOpen _))
  exact .bind (play_setPort u p) fun _ u => .get (tail u u)

theorem play_udpSendTo (fuel : Nat) (remote : SockAddr4) (d : List U8) :
    Play1 u fun W (B : Bus W E) => UdpSocket.socketSendTo B fuel remote d := by
  have tail : ∀ u v : UdpSocket, Play1 u fun W (B : Bus W E) => M.onSnd (UdpSocket.socketSendAll B fuel v d) :=
    fun u v => .onSnd (play_udpSend v fuel d)
  unfold UdpSocket.socketSendTo
  exact .bind (.mapErr _ (play_setDestination u remote)) fun _ u => .get (tail u u)

/-! ## MACRAW -/

variable (d : RawDevice)

theorem play_rxNew (fuel : Nat) : Play0 fun W (B : Bus W E) => RxCursor.new B fuel s := by
  unfold RxCursor.new
  exact .bind (play_getReceiveSize _ _) fun _ => .bind (play_getRxReadPointer _) fun _ => .pure

theorem play_rxRead (c : RxCursor) (b : List U8) : Play1 b fun W (B : Bus W E) => c.read B := by
  have tail : ∀ b v : List U8, Play1 b fun W (B : Bus W E) => (do
      if v.isEmpty then
        pure (0, c)
      else
        let count := minU16 c.available (BitVec.ofNat 16 v.length)
        M.withPrefix count.toNat (B.readSlice c.sock.rxBuffer c.ptr)
        pure (c.skip count) : M (List U8 × W) E (U16 × RxCursor)) :=
    fun b v => .ite (fun _ => .pure) fun _ => .bind (.withPrefix fun b => play_readSlice _ _ b) fun _ _ => .pure
  unfold RxCursor.read
  exact .get (tail b b)

theorem play_rxReadUpto (c : RxCursor) (n : U16) (b : List U8) : Play1 b fun W (B : Bus W E) => c.readUpto B n := by
  have tail : ∀ b v : List U8, Play1 b fun W (B : Bus W E) => (do
      if v.length > n.toNat then M.withPrefix n.toNat (c.read B) else c.read B : M (List U8 × W) E (U16 × RxCursor)) :=
    fun b v => .ite (fun _ => .withPrefix fun b => play_rxRead c b) fun _ => play_rxRead c b
  unfold RxCursor.readUpto
  exact .get (tail b b)

theorem play_rxCommit (c : RxCursor) : Play0 fun W (B : Bus W E) => c.commit B := by
  unfold RxCursor.commit
  exact .bind (play_setRxReadPointer _ _) fun _ => play_command _ _

theorem play_rawRead (fuel : Nat) (b : List U8) : Play1 b fun W (B : Bus W E) => d.readFrame B fuel := by
  unfold RawDevice.readFrame
  refine .bind (.onSnd (play_rxNew _ fuel)) fun c b => .ite (fun _ => .pure) fun _ => ?_
  refine .bind (.onSnd (.withLocal (play_rxRead c _))) fun x b => ?_
  obtain ⟨⟨n, c⟩, fb⟩ := x
  refine .ite (fun _ => .panic) fun _ => ?_
  rcases fb with _ | ⟨x, _ | ⟨y, _ | ⟨z, l⟩⟩⟩
  · exact .panic
  · exact .panic
  · refine .bind (play_rxReadUpto c _ b) fun y b => ?_
    obtain ⟨m, c⟩ := y
    exact .bind (.onSnd (play_rxCommit _)) fun _ _ => .pure
  · exact .panic

theorem play_txWrite (c : TxCursor) (f : List U8) : Play0 fun W (B : Bus W E) => c.write B f := by
  unfold TxCursor.write
  exact .ite (fun _ => .pure) fun _ => .bind .sliceTo fun _ => .bind (play_write _ _ _) fun _ => .pure

theorem play_rawWrite (fuel : Nat) (f : List U8) : Play0 fun W (B : Bus W E) => d.writeFrame B fuel f := by
  have new : Play0 fun W (B : Bus W E) => TxCursor.new B d.rawSocket := by
    unfold TxCursor.new
    exact .bind (play_getTxFreeSize _) fun _ => .bind (play_getTxWritePointer _) fun _ => .pure
  have commit : ∀ c : TxCursor, Play0 fun W (B : Bus W E) => c.commit B := by
    intro c
    unfold TxCursor.commit
    exact .bind (play_setTxWritePointer _ _) fun _ => play_command _ _
  unfold RawDevice.writeFrame
  refine .bind (play_resetInterrupt _ _) fun _ => .bind new fun c => .bind (play_txWrite c f) fun x => ?_
  obtain ⟨n, c⟩ := x
  exact .bind (commit c) fun _ => .bind (play_waitSendOk _ _) fun _ => .pure

theorem play_clearBuffers (is : List U8) : Play0 fun W (B : Bus W E) => RawDevice.clearBuffers B is := by
  induction is with
  | nil => exact .pure
  | cons i is ih =>
    unfold RawDevice.clearBuffers
    exact .bind (play_write _ _ _) fun _ => .bind (play_write _ _ _) fun _ => ih

theorem play_rawNew : Play0 fun W (B : Bus W E) => RawDevice.new B := by
  unfold RawDevice.new
  exact .mapErr _ (.bind (play_write _ _ _) fun _ => .bind (play_write _ _ _) fun _ =>
    .bind (play_clearBuffers _) fun _ => .bind (play_write _ _ _) fun _ => .bind (play_command _ _) fun _ => .pure)

theorem play_rawEnable (x : U8) : Play0 fun W (B : Bus W E) => d.enableInterrupts B x := by
  unfold RawDevice.enableInterrupts
  exact .bind (play_setInterruptMask _ _) fun _ => play_write _ _ _

theorem play_rawClear : Play0 fun W (B : Bus W E) => d.clearInterrupts B := play_resetInterrupt _ _

theorem play_rawDisable : Play0 fun W (B : Bus W E) => d.disableInterrupts B := by
  unfold RawDevice.disableInterrupts
  exact .bind (play_write _ _ _) fun _ => play_setInterruptMask _ _

/-! ## Common registers and initialisation -/

theorem play_readIp (a : U16) : Play0 fun W (B : Bus W E) => readIp B a := by
  unfold readIp
  refine .bind (play_readBuf _ _ _) fun l => ?_
  rcases l with _ | ⟨_, _ | ⟨_, _ | ⟨_, _ | ⟨_, _ | ⟨_, _⟩⟩⟩⟩⟩
  case cons.cons.cons.cons.nil => exact .pure
  all_goals exact .panic

theorem play_mac : Play0 fun W (B : Bus W E) => Device.mac B := by
  unfold Device.mac
  refine .bind (play_readBuf _ _ _) fun l => ?_
  rcases l with _ | ⟨_, _ | ⟨_, _ | ⟨_, _ | ⟨_, _ | ⟨_, _ | ⟨_, _ | ⟨_, _⟩⟩⟩⟩⟩⟩⟩
  case cons.cons.cons.cons.cons.cons.nil => exact .pure
  all_goals exact .panic

theorem play_phy : Play0 fun W (B : Bus W E) => Device.phyConfig B := by
  unfold Device.phyConfig
  exact .bind (play_read1 _ _) fun _ => .pure

theorem play_retryTimeout : Play0 fun W (B : Bus W E) => currentRetryTimeout B := by
  unfold currentRetryTimeout
  refine .bind (play_readBuf _ _ _) fun l => ?_
  rcases l with _ | ⟨x, _ | ⟨y, _ | ⟨z, l⟩⟩⟩
  case cons.cons.nil => exact .pure
  all_goals exact .panic


theorem play_writeSettings (g : HostConfig) (c : HostConfig) : Play1 c fun W (B : Bus W E) => writeSettings B g := by
  have block : ∀ (c : HostConfig) (P : HostConfig → Prop) [DecidablePred P] (a : U16) (d : List U8)
      (f : HostConfig → HostConfig) (m : (W : Type) → Bus W E → M (HostConfig × W) E Unit), (∀ c, Play1 c m) →
      Play1 c fun W B => M.get >>= fun x => if P x.1 then (M.onSnd (B.write COMMON a d) >>= fun _ =>
          M.modify (fun s => (f s.1, s.2)) >>= fun _ => m W B) else m W B := by
    intro c P _ a d f m hm
    have tail : ∀ (c : HostConfig) (q : Prop) [Decidable q], Play1 c fun W B => if q then
        (M.onSnd (B.write COMMON a d) >>= fun _ => M.modify (fun s => (f s.1, s.2)) >>= fun _ => m W B) else m W B :=
      fun c q _ => .ite (fun _ => .bind (.onSnd (play_write _ _ _)) fun _ _ => .bind .modify fun _ c => hm c) fun _ => hm c
    exact .get (tail c (P c))
  unfold writeSettings
  refine block c (fun c => g.gateway ≠ c.gateway) _ _ (fun c => { c with gateway := g.gateway }) _ fun c => ?_
  refine block c (fun c => g.subnet ≠ c.subnet) _ _ (fun c => { c with subnet := g.subnet }) _ fun c => ?_
  refine block c (fun c => g.mac ≠ c.mac) _ _ (fun c => { c with mac := g.mac }) _ fun c => ?_
  have tail : ∀ (c : HostConfig) (q : Prop) [Decidable q], Play1 c fun W (B : Bus W E) => (if q then
      (M.onSnd (B.write COMMON common.IP g.ip.octets) >>= fun _ => M.modify (fun s => ({ s.1 with ip := g.ip }, s.2)))
      else pure () : M (HostConfig × W) E Unit) :=
    fun c q _ => .ite (fun _ => .bind (.onSnd (play_write _ _ _)) fun _ _ =>
      .modify (f := fun s : HostConfig => { s with ip := g.ip })) fun _ => .pure
  exact .get (tail c (g.ip ≠ c.ip))

theorem play_manualRefresh (h : Manual) : Play1 h fun W (B : Bus W E) => Manual.refresh B := by
  have zoom : ∀ (h : Manual) (g : HostConfig), Play1 h fun W (B : Bus W E) => M.zoom (fun s : Manual × W => (s.1.current, s.2))
      (fun t s => ({ s.1 with current := t.1 }, t.2)) (writeSettings B g) := fun h g =>
    (play_writeSettings (E := E) g h.current).map fun x => (x.1, (⟨h.isSetup, h.settings, x.2⟩ : Manual))
  have tail : ∀ (h v : Manual), Play1 h fun W (B : Bus W E) => ((do
      if !v.isSetup then
        M.zoom (fun s : Manual × W => (s.1.current, s.2))
          (fun t s => ({ s.1 with current := t.1 }, t.2)) (writeSettings B v.settings)
        M.modify fun s => ({ s.1 with isSetup := true }, s.2)) : M (Manual × W) E Unit) :=
    fun h v => .ite (fun _ => .bind (zoom h v.settings) fun _ _ => .modify (f := fun s : Manual => { s with isSetup := true }))
      fun _ => .pure
  unfold Manual.refresh
  exact .get (tail h h)

theorem play_initializeWithHost {H : Type} [Host H] (v : Bool) (host : H) (mode : Mode)
    (hh : Play1 host fun W (B : Bus W E) => Host.refresh B) :
    Play0 fun W (B : Bus W E) => Uninit.initializeWithHost v B host mode := by
  have tail : Play0 fun W (B : Bus W E) => (do
      M.mapErr InitializeError.spiError (resetChip B)
      M.mapErr .spiError (setMode B mode)
      let (_, host) ← M.mapErr .spiError (M.withLocal host (Host.refresh B))
      pure (DeviceState.new host) : M W (InitializeError E) (DeviceState H)) :=
    .bind (.mapErr _ (play_write _ _ _)) fun _ => .bind (.mapErr _ (play_write _ _ _)) fun _ =>
      .bind (.mapErr _ (.withLocal hh)) fun _ => .pure
  have version : Play0 fun W (B : Bus W E) => Uninit.assertChipVersion B 0x4 := by
    unfold Uninit.assertChipVersion
    exact .bind (.mapErr _ (play_read1 _ _)) fun x => .ite (fun _ => .throw) fun _ => .pure
  unfold Uninit.initializeWithHost
  exact .ite (fun _ => .bind version fun _ => tail) fun _ => tail

theorem play_initializeMacraw (m : Mac) : Play0 fun W (B : Bus W E) => Uninit.initializeMacraw B m := by
  unfold Uninit.initializeMacraw
  exact .bind (.mapErr _ (play_write _ _ _)) fun _ => .bind (.mapErr _ (play_write _ _ _)) fun _ => play_rawNew

end W5500
