import Verif.Spec.Blame
import Verif.Proofs.Trace
import Verif.Proofs.Bytes
import Verif.Proofs.Runs
/-! # Evidence for errors, compositionally -/

namespace W5500
open Spec socketn
variable {W σ τ E ε ε' α β S H : Type}

/-- The traffic of `m` satisfies `K a` if `m` returns `Ok a`, and `J e` if it returns `Err e`. -/
structure Shows [HasLog σ E] (m : M σ ε α) (K : α → List (Ev E) → Prop) (J : ε → List (Ev E) → Prop) : Prop where
  run : ∀ s, ∃ evs, HasLog.log (m s).2 = HasLog.log s ++ evs ∧ (∀ a, (m s).1 = .ok a → K a evs) ∧
    ∀ e, (m s).1 = .err e → J e evs

/-- Evidence at the end of the traffic. -/
def Final (J : ε → List (Ev E) → Prop) : Prop := ∀ e pre evs, J e evs → J e (pre ++ evs)

namespace Shows
variable [HasLog σ E] {K : α → List (Ev E) → Prop} {J : ε → List (Ev E) → Prop}

theorem conseq {m : M σ ε α} {K' : α → List (Ev E) → Prop} {J' : ε → List (Ev E) → Prop} (h : Shows m K J)
    (hk : ∀ a evs, K a evs → K' a evs) (hj : ∀ e evs, J e evs → J' e evs) : Shows m K' J' := by
  constructor; intro s
  obtain ⟨evs, h1, h2, h3⟩ := h.run s
  exact ⟨evs, h1, fun a ha => hk _ _ (h2 a ha), fun e he => hj _ _ (h3 e he)⟩

theorem any {m : M σ ε α} (h : Shows m K J) : Shows m (fun _ _ => True) J := h.conseq (fun _ _ _ => trivial) fun _ _ h => h

theorem pure {a : α} (h : K a []) : Shows (Pure.pure a : M σ ε α) K J :=
  ⟨fun s => ⟨[], (List.append_nil _).symm, fun b hb => by cases hb; exact h, fun _ h => nomatch h⟩⟩

theorem throw {e : ε} (h : J e []) : Shows (M.throw e : M σ ε α) K J :=
  ⟨fun s => ⟨[], (List.append_nil _).symm, (fun _ h => nomatch h), fun b hb => by cases hb; exact h⟩⟩

theorem get : Shows (M.get : M σ ε σ) (fun _ _ => True) J :=
  ⟨fun _ => ⟨[], (List.append_nil _).symm, fun _ _ => trivial, fun _ h => nomatch h⟩⟩

theorem panic : Shows (M.panic : M σ ε α) K J :=
  ⟨fun _ => ⟨[], (List.append_nil _).symm, (fun _ h => nomatch h), fun _ h => nomatch h⟩⟩

theorem outOfFuel : Shows (M.outOfFuel : M σ ε α) K J :=
  ⟨fun _ => ⟨[], (List.append_nil _).symm, (fun _ h => nomatch h), fun _ h => nomatch h⟩⟩

theorem sliceTo (b : List U8) (n : Nat) : Shows (M.sliceTo b n : M σ ε _) (fun _ _ => True) J := by
  unfold M.sliceTo; split
  · exact .pure trivial
  · exact .panic

theorem sliceFrom (b : List U8) (n : Nat) : Shows (M.sliceFrom b n : M σ ε _) (fun _ _ => True) J := by
  unfold M.sliceFrom; split
  · exact .pure trivial
  · exact .panic

/-- Sequencing, with the traffic of the first part. -/
theorem bind' {m : M σ ε α} {f : α → M σ ε β} {K' : β → List (Ev E) → Prop} (hm : Shows m K J)
    (hf : ∀ a pre, K a pre → Shows (f a) (fun b evs => K' b (pre ++ evs)) (fun e evs => J e (pre ++ evs))) :
    Shows (m >>= f) K' J := by
  constructor; intro s
  obtain ⟨e1, h1, h2, h3⟩ := hm.run s
  show ∃ evs, HasLog.log (M.bind m f s).2 = _ ∧ (∀ a, (M.bind m f s).1 = _ → _) ∧ ∀ a, (M.bind m f s).1 = _ → _
  unfold M.bind
  rcases hr : m s with ⟨r | r | _ | _, s'⟩
  all_goals rw [hr] at h1 h2 h3
  · obtain ⟨e2, i1, i2, i3⟩ := (hf r e1 (h2 r rfl)).run s'
    exact ⟨e1 ++ e2, by rw [i1, h1, List.append_assoc], i2, i3⟩
  · exact ⟨e1, h1, (fun _ h => nomatch h), fun e he => by cases he; exact h3 _ rfl⟩
  · exact ⟨e1, h1, (fun _ h => nomatch h), (fun _ h => nomatch h)⟩
  · exact ⟨e1, h1, (fun _ h => nomatch h), (fun _ h => nomatch h)⟩

/-- Sequencing, when the traffic of the first part does not matter any more. -/
theorem bind {m : M σ ε α} {f : α → M σ ε β} (hJ : Final J) (hm : Shows m (fun _ _ => True) J)
    (hf : ∀ a, Shows (f a) (fun _ _ => True) J) : Shows (m >>= f) (fun _ _ => True) J :=
  .bind' hm fun a pre _ => (hf a).conseq (fun _ _ h => h) fun e evs h => hJ e pre evs h

theorem mapErr {f : ε' → ε} {m : M σ ε' α} (h : Shows m K fun e => J (f e)) : Shows (M.mapErr f m) K J := by
  constructor; intro s
  obtain ⟨e1, h1, h2, h3⟩ := h.run s
  unfold M.mapErr
  rcases hr : m s with ⟨r | r | _ | _, s'⟩
  all_goals rw [hr] at h1 h2 h3
  · exact ⟨e1, h1, fun a ha => by cases ha; exact h2 _ rfl, (fun _ h => nomatch h)⟩
  · exact ⟨e1, h1, (fun _ h => nomatch h), fun a ha => by cases ha; exact h3 _ rfl⟩
  · exact ⟨e1, h1, (fun _ h => nomatch h), (fun _ h => nomatch h)⟩
  · exact ⟨e1, h1, (fun _ h => nomatch h), (fun _ h => nomatch h)⟩

theorem zoom [HasLog τ E] {get : τ → σ} {put : σ → τ → τ} {m : M σ ε α}
    (hg : ∀ s, HasLog.log (get s) = HasLog.log s) (hp : ∀ t s, HasLog.log (put t s) = HasLog.log t)
    (hm : Shows m K J) : Shows (M.zoom get put m) K J := by
  constructor; intro s
  obtain ⟨e1, h1, h2⟩ := hm.run (get s)
  exact ⟨e1, by simp only [M.zoom, hp, h1, hg], h2⟩

theorem onSnd {m : M σ ε α} (hm : Shows m K J) : Shows (M.onSnd m : M (S × σ) ε α) K J :=
  .zoom (fun _ => rfl) (fun _ _ => rfl) hm
theorem onBus {m : M σ ε α} (hm : Shows m K J) : Shows (Device.onBus m : M (Device σ H) ε α) K J :=
  .zoom (fun _ => rfl) (fun _ _ => rfl) hm
theorem onSockBus {m : M (S × σ) ε α} (hm : Shows m K J) : Shows (Device.onSockBus m : M (S × Device σ H) ε α) K J :=
  .zoom (fun _ => rfl) (fun _ _ => rfl) hm

theorem withPrefix {m : M (List U8 × σ) ε α} (n : Nat) (hm : Shows m K J) : Shows (M.withPrefix n m) K J := by
  constructor; intro s
  unfold M.withPrefix
  split
  · exact hm.run (s.1.take n, s.2)
  · exact ⟨[], (List.append_nil _).symm, (fun _ h => nomatch h), fun _ h => nomatch h⟩

end Shows

/-! ## Transfers -/

variable {B : Bus W E}

theorem Spec.Failed.rd {b : U8} {a : U16} {d : List U8} {e : E} : Failed [.rd b a d (.err e)] e := ⟨_, List.suffix_refl _, rfl⟩
theorem Spec.Failed.wr {b : U8} {a : U16} {d : List U8} {e : E} : Failed [.wr b a d (.err e)] e := ⟨_, List.suffix_refl _, rfl⟩

theorem shows_write (b : U8) (a : U16) (d : List U8) :
    Shows ((traced B).write b a d) (fun _ evs => evs = [.wr b a d (.ok ())]) (fun e evs => Failed evs e) := by
  constructor; intro s
  refine ⟨[.wr b a d (B.writeFrame s.w b a d).1], rfl, fun x h => ?_, fun e h => ?_⟩
  · have h : (B.writeFrame s.w b a d).1 = .ok x := h
    rw [h]
  · have h : (B.writeFrame s.w b a d).1 = .err e := h
    rw [h]; exact .wr

theorem shows_readBuf (b : U8) (a : U16) (i : List U8) :
    Shows ((traced B).readBuf b a i) (fun x evs => evs = [.rd b a x (.ok ())] ∧ x.length = i.length) (fun e evs => Failed evs e) := by
  constructor; intro s
  have hl := B.read_length s.w b a i
  refine ⟨[.rd b a (B.readFrame s.w b a i).2.1 (B.readFrame s.w b a i).1], ?_⟩
  unfold Bus.readBuf
  rcases hr : B.readFrame s.w b a i with ⟨r | r | _ | _, d, w'⟩
  all_goals
    simp only [traced, hr]
    rw [hr] at hl
  · exact ⟨rfl, fun x h => by cases h; exact ⟨rfl, hl⟩, (fun _ h => nomatch h)⟩
  · exact ⟨rfl, (fun _ h => nomatch h), fun x h => by cases h; exact .rd⟩
  · exact ⟨rfl, (fun _ h => nomatch h), (fun _ h => nomatch h)⟩
  · exact ⟨rfl, (fun _ h => nomatch h), (fun _ h => nomatch h)⟩

theorem shows_readSlice (b : U8) (a : U16) :
    Shows ((traced B).readSlice b a) (fun _ _ => True) (fun e evs => Failed evs e) := by
  constructor; intro s
  refine ⟨[.rd b a (B.readFrame s.2.w b a s.1).2.1 (B.readFrame s.2.w b a s.1).1], rfl, fun _ _ => trivial, fun e h => ?_⟩
  have h : (B.readFrame s.2.w b a s.1).1 = .err e := h
  rw [h]; exact .rd

theorem shows_read1 (b : U8) (a : U16) :
    Shows ((traced B).read1 b a) (fun x evs => evs = [.rd b a [x] (.ok ())]) (fun e evs => Failed evs e) := by
  unfold Bus.read1
  refine .bind' (shows_readBuf b a [0]) fun l pre hl => ?_
  obtain ⟨rfl, hl⟩ := hl
  split
  · exact .pure rfl
  · exact .panic

theorem shows_read2 (b : U8) (a : U16) :
    Shows ((traced B).read2 b a) (fun v evs => ∃ x y, v = fromBeBytes x y ∧ evs = [.rd b a [x, y] (.ok ())])
      (fun e evs => Failed evs e) := by
  unfold Bus.read2
  refine .bind' (shows_readBuf b a [0, 0]) fun l pre hl => ?_
  obtain ⟨rfl, hl⟩ := hl
  split
  · exact .pure ⟨_, _, rfl, rfl⟩
  · exact .panic

theorem Spec.Failed.final {e : E} {pre evs : List (Ev E)} (h : Failed evs e) : Failed (pre ++ evs) e := by
  obtain ⟨l, h1, h2⟩ := h
  exact ⟨l, h1.trans (List.suffix_append _ _), h2⟩

theorem Spec.Read1.final {b : U8} {a : U16} {P : U8 → Prop} {pre evs : List (Ev E)} (h : Read1 evs b a P) : Read1 (pre ++ evs) b a P := by
  obtain ⟨x, h1, h2⟩ := h
  exact ⟨x, h1.trans (List.suffix_append _ _), h2⟩

theorem Spec.ReadSize.final {b : U8} {P : Nat → Prop} {pre evs : List (Ev E)} (h : ReadSize evs b P) : ReadSize (pre ++ evs) b P := by
  obtain ⟨x, y, h1, h2⟩ := h
  exact ⟨x, y, h1.trans (List.suffix_append _ _), h2⟩

theorem connect_final (b : U8) : Final fun e (evs : List (Ev E)) => TcpConnectReason b evs e := by
  intro e pre evs h
  cases e with
  | noMoreSockets => exact h
  | unsupportedAddress => exact h
  | notConnected => exact h
  | unsupportedMode => exact Read1.final h
  | other x => exact Failed.final h

theorem data_final (b : U8) : Final fun e (evs : List (Ev E)) => TcpDataReason b evs e := by
  intro e pre evs h
  cases e with
  | noMoreSockets => exact h
  | unsupportedAddress => exact h
  | notConnected => exact Read1.final h
  | unsupportedMode => exact h
  | other x => exact Failed.final h

theorem send_final (b : U8) (dst : Option SockAddr4) : Final fun e (evs : List (Ev E)) => UdpSendReason b dst evs e := by
  intro e pre evs h
  cases e with
  | wouldBlock => exact h
  | other e =>
    cases e with
    | noMoreSockets => exact h
    | unsupportedAddress => exact h
    | destinationNotSet => exact ⟨h.1, h.2.final⟩
    | socketNotOpen => exact Read1.final h
    | unrecognisedStatus => exact Read1.final h
    | bufferFull => exact List.IsSuffix.trans h (List.suffix_append _ _)
    | bufferOverflow => exact h
    | writeTimeout =>
      obtain ⟨p, q, x, y, h1, h2, h3⟩ := h
      exact ⟨p, q, x, y, h1, h2, h3.trans (List.suffix_append _ _)⟩
    | other x => exact Failed.final h

theorem receive_final (b : U8) (n : Nat) : Final fun e (evs : List (Ev E)) => UdpReceiveReason b n evs e := by
  intro e pre evs h
  cases e with
  | wouldBlock => exact h.imp .final .final
  | other e =>
    cases e with
    | noMoreSockets => exact h
    | unsupportedAddress => exact h
    | destinationNotSet => exact h
    | socketNotOpen => exact Read1.final h
    | unrecognisedStatus => exact Read1.final h
    | bufferFull => exact h
    | bufferOverflow => exact ⟨h.1, h.2.final⟩
    | writeTimeout => exact h
    | other x => exact Failed.final h

/-! ## TCP -/

theorem status_unknown {x : U8} : Status.tryFrom x = none → x ∉ statusCodes := by revert x; decide +kernel
theorem status_known {x : U8} {st : Status} : Status.tryFrom x = some st → st ≠ .udp → x ∈ statusCodes ∧ x ≠ 0x22 := by
  revert x; cases st <;> decide +kernel
theorem status_udp {x : U8} : Status.tryFrom x = some .udp → x = 0x22 := by revert x; decide +kernel
theorem status_macRaw {x : U8} : Status.tryFrom x = some .macRaw → x = 0x42 := by revert x; decide +kernel

theorem shows_tcpOpen (b : U8) (t : TcpSocket) (port : U16) :
    Shows (t.open (traced B) port) (fun _ _ => True) (fun e evs => TcpConnectReason b evs e) := by
  unfold TcpSocket.open
  refine .mapErr ?_
  have hJ : Final fun e (evs : List (Ev E)) => Failed evs e := fun _ _ _ h => h.final
  repeat' first | exact (shows_write _ _ _).any | refine Shows.bind hJ (shows_write _ _ _).any fun _ => ?_

theorem shows_tcpReopen (b : U8) (t : TcpSocket) :
    Shows (t.reopen (traced B)) (fun _ _ => True) (fun e evs => TcpConnectReason b evs e) := by
  unfold TcpSocket.reopen
  refine .mapErr ?_
  have hJ : Final fun e (evs : List (Ev E)) => Failed evs e := fun _ _ _ h => h.final
  repeat' first | exact (shows_write _ _ _).any | refine Shows.bind hJ (shows_write _ _ _).any fun _ => ?_

theorem shows_tcpClose (b : U8) (t : TcpSocket) :
    Shows (t.socketClose (traced B)) (fun _ _ => True) (fun e evs => TcpConnectReason b evs e) := by
  unfold TcpSocket.socketClose
  refine .mapErr ?_
  have hJ : Final fun e (evs : List (Ev E)) => Failed evs e := fun _ _ _ h => h.final
  repeat' first | exact (shows_write _ _ _).any | refine Shows.bind hJ (shows_write _ _ _).any fun _ => ?_

theorem shows_connectLoop (t : TcpSocket) (fuel : Nat) :
    Shows (t.connectLoop (traced B) fuel) (fun _ _ => True) (fun e evs => TcpConnectReason t.socket.register evs e) := by
  induction fuel with
  | zero => exact .outOfFuel
  | succ fuel ih =>
    unfold TcpSocket.connectLoop
    refine .bind (connect_final _) (.mapErr (shows_read1 _ _).any) fun st => ?_
    split
    · exact .pure trivial
    · exact .bind (connect_final _) (shows_tcpClose _ _) fun _ => shows_tcpReopen _ _
    · exact ih

theorem shows_tcpConnect (t : TcpSocket) (fuel : Nat) (a : SockAddr4) :
    Shows (t.socketConnect (traced B) fuel a) (fun _ _ => True) (fun e evs => TcpConnectReason t.socket.register evs e) := by
  have hrest : Shows (do
      M.mapErr TcpSocketError.other (t.socket.setDestinationIp (traced B) a.ip)
      M.mapErr TcpSocketError.other (t.socket.setDestinationPort (traced B) a.port)
      M.mapErr TcpSocketError.other (t.socket.command (traced B) .connect)
      t.connectLoop (traced B) fuel) (fun _ _ => True) (fun e evs => TcpConnectReason t.socket.register evs e) := by
    refine .bind (connect_final _) (.mapErr (shows_write _ _ _).any) fun _ => ?_
    refine .bind (connect_final _) (.mapErr (shows_write _ _ _).any) fun _ => ?_
    refine .bind (connect_final _) (.mapErr (shows_write _ _ _).any) fun _ => ?_
    exact shows_connectLoop t fuel
  unfold TcpSocket.socketConnect
  refine .bind' (K' := fun _ _ => True) (.mapErr (shows_read1 _ _)) fun st pre hpre => ?_
  subst hpre
  have hw : ∀ {α} {m : M (TW W E) (TcpSocketError E) α}, Shows m (fun _ _ => True) (fun e evs => TcpConnectReason t.socket.register evs e) →
      Shows m (fun _ _ => True) (fun e evs => TcpConnectReason t.socket.register ([.rd t.socket.register 0x03 [st] (.ok ())] ++ evs) e) :=
    fun h => h.conseq (fun _ _ h => h) fun e evs h => connect_final _ e _ evs h
  have hno : (st ∉ statusCodes ∨ st = 0x22 ∨ st = 0x42) → Shows (M.throw .unsupportedMode : M (TW W E) (TcpSocketError E) Unit) (fun _ _ => True)
      (fun e evs => TcpConnectReason t.socket.register ([.rd t.socket.register 0x03 [st] (.ok ())] ++ evs) e) :=
    fun h => .throw ⟨st, List.suffix_refl _, h⟩
  dsimp only
  split
  · exact hw hrest
  · rename_i h
    exact hno (.inl (status_unknown h))
  · rename_i h
    exact hno (.inr (.inr (status_macRaw h)))
  · rename_i h
    exact hno (.inr (.inl (status_udp h)))
  · exact hw (.bind (connect_final _) (shows_tcpClose _ _) fun _ => .bind (connect_final _) (shows_tcpReopen _ _) fun _ => hrest)

theorem shows_hasInterrupt (k : Socket) (code : Interrupt) :
    Shows (k.hasInterrupt (traced B) code)
      (fun r evs => ∃ x, r = decide (x &&& code.toU8 ≠ 0) ∧ evs = [.rd k.register 0x02 [x] (.ok ())]) (fun e evs => Failed evs e) := by
  unfold Socket.hasInterrupt
  refine .bind' (shows_read1 _ _) fun x pre hpre => ?_
  subst hpre
  exact .pure ⟨x, rfl, rfl⟩

theorem failed_final : Final fun e (evs : List (Ev E)) => Failed evs e := fun _ _ _ h => h.final

theorem shows_waitSendOk (k : Socket) (fuel : Nat) :
    Shows (RawDevice.waitSendOk (traced B) k fuel) (fun _ _ => True) (fun e evs => Failed evs e) := by
  induction fuel with
  | zero => exact .outOfFuel
  | succ fuel ih =>
    unfold RawDevice.waitSendOk
    refine .bind failed_final (shows_hasInterrupt (B := B) _ _).any fun r => ?_
    split
    · exact .pure trivial
    · exact ih

theorem shows_isConnected (t : TcpSocket) :
    Shows (t.socketIsConnected (traced B))
      (fun r evs => ∃ x, r = decide (x = 0x17) ∧ evs = [.rd t.socket.register 0x03 [x] (.ok ())])
      (fun e evs => TcpDataReason t.socket.register evs e) := by
  unfold TcpSocket.socketIsConnected
  refine .bind' (.mapErr (shows_read1 _ _)) fun x pre hpre => ?_
  subst hpre
  exact .pure ⟨x, rfl, rfl⟩

theorem shows_tcpSend (t : TcpSocket) (fuel : Nat) (data : List U8) :
    Shows (t.socketSend (traced B) fuel data) (fun _ _ => True) (fun e evs => TcpDataReason t.socket.register evs e) := by
  unfold TcpSocket.socketSend
  refine .bind' (shows_isConnected t) fun r pre hpre => ?_
  obtain ⟨x, rfl, rfl⟩ := hpre
  split
  · rename_i h
    exact .throw ⟨x, List.suffix_refl _, by simpa using h⟩
  · refine Shows.conseq ?_ (fun _ _ h => h) fun e evs h => data_final _ e _ evs h
    refine .bind (data_final _) (.mapErr (shows_read2 _ _).any) fun sz => ?_
    dsimp only
    split
    case' isTrue => refine .bind (data_final _) (.pure trivial) fun wd => ?_
    case' isFalse => refine .bind (data_final _) (.sliceTo _ _) fun wd => ?_
    all_goals
      refine .bind (data_final _) (.mapErr (shows_read2 _ _).any) fun wp => ?_
      refine .bind (data_final _) (.mapErr (shows_write _ _ _).any) fun _ => ?_
      refine .bind (data_final _) (.mapErr (shows_write _ _ _).any) fun _ => ?_
      refine .bind (data_final _) (.mapErr (shows_write _ _ _).any) fun _ => ?_
      refine .bind (data_final _) (.mapErr (shows_waitSendOk _ _)) fun _ => ?_
      refine .bind (data_final _) (.mapErr (shows_write _ _ _).any) fun _ => ?_
      exact .pure trivial

theorem shows_receiveSize (k : Socket) (fuel : Nat) :
    Shows (k.getReceiveSize (traced B) fuel) (fun v evs => ReadSize evs k.register (· = v.toNat)) (fun e evs => Failed evs e) := by
  induction fuel with
  | zero => exact .outOfFuel
  | succ fuel ih =>
    unfold Socket.getReceiveSize
    refine .bind' (shows_read2 _ _) fun v pre hpre => ?_
    obtain ⟨x, y, rfl, rfl⟩ := hpre
    refine .bind' ((shows_read2 _ _).conseq (fun _ _ h => h) fun _ _ h => h.final) fun v pre hpre => ?_
    obtain ⟨x', y', rfl, rfl⟩ := hpre
    split
    · rename_i h
      obtain ⟨rfl, rfl⟩ : x = x' ∧ y = y' := fromBeBytes_inj h
      exact .pure ⟨x, y, List.suffix_refl _, (fromBeBytes_toNat x y).symm⟩
    · refine ih.conseq (fun _ _ h => ?_) fun _ _ h => ?_
      · exact ReadSize.final (ReadSize.final h)
      · exact h.final.final

theorem shows_tcpReceive (t : TcpSocket) (fuel : Nat) :
    Shows (t.socketReceive (traced B) fuel) (fun _ _ => True) (fun e evs => TcpDataReason t.socket.register evs e) := by
  unfold TcpSocket.socketReceive
  refine .bind' (.onSnd (shows_isConnected t)) fun r pre hpre => ?_
  obtain ⟨x, rfl, rfl⟩ := hpre
  split
  · rename_i h
    exact .throw ⟨x, List.suffix_refl _, by simpa using h⟩
  · refine Shows.conseq ?_ (fun _ _ h => h) fun e evs h => data_final _ e _ evs h
    refine .bind (data_final _) (.onSnd (.mapErr (shows_hasInterrupt _ _).any)) fun r => ?_
    split
    · exact .pure trivial
    refine .bind (data_final _) (.onSnd (.mapErr (shows_receiveSize _ _).any)) fun sz => ?_
    refine .bind (data_final _) .get fun b => ?_
    refine .bind (data_final _) (.onSnd (.mapErr (shows_read2 _ _).any)) fun rp => ?_
    refine .bind (data_final _) (.withPrefix _ (.mapErr (shows_readSlice _ _))) fun _ => ?_
    refine .bind (data_final _) (.onSnd (.mapErr (shows_write _ _ _).any)) fun _ => ?_
    refine .bind (data_final _) (.onSnd (.mapErr (shows_write _ _ _).any)) fun _ => ?_
    refine .bind (data_final _) (.onSnd (.mapErr (shows_write _ _ _).any)) fun _ => ?_
    exact .pure trivial

/-! ## UDP -/

theorem shows_checkStatus (u : UdpSocket) {J : NbError (UdpSocketError E) → List (Ev E) → Prop}
    (hk : ∀ evs, Read1 evs u.socket.register 0x03 (fun x => x ∈ statusCodes ∧ x ≠ 0x22) → J (.other .socketNotOpen) evs)
    (hu : ∀ evs, Read1 evs u.socket.register 0x03 (· ∉ statusCodes) → J (.other .unrecognisedStatus) evs)
    (hf : ∀ evs e, Failed evs e → J (.other (.other e)) evs) :
    Shows (u.checkStatus (traced B)) (fun _ evs => evs = [.rd u.socket.register 0x03 [0x22] (.ok ())]) J := by
  unfold UdpSocket.checkStatus
  refine .bind' (.mapErr ((shows_read1 _ _).conseq (fun _ _ h => h) fun e evs h => hf evs e h)) fun x pre hpre => ?_
  subst hpre
  split
  · rename_i h
    obtain rfl := status_udp h
    exact .pure rfl
  · rename_i st hne h
    exact .throw (hk _ ⟨x, List.suffix_refl _, status_known h fun h' => hne h' ⟩)
  · rename_i h
    exact .throw (hu _ ⟨x, List.suffix_refl _, status_unknown h⟩)

/-- Evidence for the outcome of one look at the transmission, where "still busy" needs none. -/
def FlushReason (b : U8) (dst : Option SockAddr4) (evs : List (Ev E)) (e : NbError (UdpSocketError E)) : Prop :=
  e = .wouldBlock ∨ UdpSendReason b dst evs e

theorem flush_final (b : U8) (dst : Option SockAddr4) : Final fun e (evs : List (Ev E)) => FlushReason b dst evs e :=
  fun e pre evs h => h.imp id (send_final b dst e pre evs)

theorem shows_tryFlush (u : UdpSocket) :
    Shows (u.tryFlushTx (traced B)) (fun _ _ => True) (fun e evs => FlushReason u.socket.register u.destination evs e) := by
  unfold UdpSocket.tryFlushTx
  refine .bind' (.mapErr ((shows_read2 _ _).conseq (fun _ _ h => h) fun e evs h => .inr h)) fun v pre hpre => ?_
  obtain ⟨p, q, rfl, rfl⟩ := hpre
  refine .bind' (.mapErr ((shows_read2 _ _).conseq (fun _ _ h => h) fun e evs h => .inr h.final)) fun v pre hpre => ?_
  obtain ⟨p', q', rfl, rfl⟩ := hpre
  split
  · rename_i h
    obtain ⟨rfl, rfl⟩ : p = p' ∧ q = q' := fromBeBytes_inj h
    refine .bind' (.mapErr ((shows_hasInterrupt _ _).conseq (fun _ _ h => h) fun e evs h => .inr h.final.final)) fun v pre hpre => ?_
    obtain ⟨x, rfl, rfl⟩ := hpre
    split
    · exact .mapErr ((shows_write _ _ _).conseq (fun _ _ _ => trivial) fun e evs h => .inr h.final.final.final)
    · rename_i hx
      refine .bind' (.mapErr ((shows_hasInterrupt _ _).conseq (fun _ _ h => h) fun e evs h => .inr h.final.final.final)) fun v pre hpre => ?_
      obtain ⟨y, rfl, rfl⟩ := hpre
      split
      · rename_i hy
        refine .bind' (.mapErr ((shows_write _ _ _).conseq (fun _ _ h => h) fun e evs h => .inr h.final.final.final.final)) fun v pre hpre => ?_
        subst hpre
        refine .throw (.inr ⟨p, q, x, y, ?_, ?_, ?_⟩)
        · revert hx; clear hy; revert x; decide +kernel
        · revert hy; clear hx; revert y; decide +kernel
        · exact List.suffix_refl _
      · exact .pure trivial
  · exact .throw (.inl rfl)

theorem shows_flushLoop (u : UdpSocket) (fuel : Nat) :
    Shows (u.flushLoop (traced B) fuel) (fun _ _ => True) (fun e evs => UdpSendReason u.socket.register u.destination evs e) := by
  induction fuel with
  | zero => exact .outOfFuel
  | succ fuel ih =>
    constructor; intro s
    obtain ⟨e1, h1, h2, h3⟩ := (shows_tryFlush (B := B) u).run s
    simp only [UdpSocket.flushLoop]
    split
    · rename_i w' hr
      obtain ⟨e2, i1, i2, i3⟩ := ih.run w'
      rw [hr] at h1
      refine ⟨e1 ++ e2, by rw [i1, h1, List.append_assoc], fun _ _ => trivial, fun e he => send_final _ _ e _ _ (i3 e he)⟩
    · rename_i hne
      refine ⟨e1, h1, h2, fun e he => (h3 e he).resolve_left ?_⟩
      rintro rfl
      exact hne _ (Prod.ext he rfl)

theorem shows_udpSend (u : UdpSocket) (fuel : Nat) (data : List U8) :
    Shows (u.socketSend (traced B) fuel data) (fun _ _ => True) (fun e evs => UdpSendReason u.socket.register u.destination evs e) := by
  unfold UdpSocket.socketSend
  refine .bind' (shows_checkStatus u (fun _ h => h) (fun _ h => h) (fun _ _ h => h)) fun _ pre hpre => ?_
  subst hpre
  split
  · rename_i h
    exact .throw ⟨by simpa using h, _, List.suffix_refl _, rfl⟩
  · refine Shows.conseq ?_ (fun _ _ h => h) fun e evs h => send_final _ _ e _ evs h
    refine .bind' (.mapErr (shows_read2 _ _)) fun sz pre hpre => ?_
    obtain ⟨x, y, rfl, rfl⟩ := hpre
    split
    · rename_i h
      obtain ⟨rfl, rfl⟩ : x = 0 ∧ y = 0 := fromBeBytes_inj h
      exact .throw (List.suffix_refl _)
    · refine Shows.conseq ?_ (fun _ _ h => h) fun e evs h => send_final _ _ e _ evs h
      dsimp only
      split
      case' isTrue => refine .bind (send_final _ _) (.pure trivial) fun wd => ?_
      case' isFalse => refine .bind (send_final _ _) (.sliceTo _ _) fun wd => ?_
      all_goals
        refine .bind (send_final _ _) (.mapErr (shows_read2 _ _).any) fun wp => ?_
        refine .bind (send_final _ _) (.mapErr (shows_write _ _ _).any) fun _ => ?_
        refine .bind (send_final _ _) (.mapErr (shows_write _ _ _).any) fun _ => ?_
        refine .bind (send_final _ _) ?_ fun _ => .pure trivial
        exact .bind (send_final _ _) (.mapErr (shows_write _ _ _).any) fun _ => shows_flushLoop u fuel

theorem shows_sendAllLoop (u : UdpSocket) (fuel : Nat) (data : List U8) (n : Nat) (sz : U16) (sent : Nat) :
    Shows (u.sendAllLoop (traced B) fuel data n sz sent) (fun _ _ => True)
      (fun e evs => UdpSendReason u.socket.register u.destination evs e) := by
  induction n generalizing sz sent with
  | zero => exact .outOfFuel
  | succ n ih =>
    unfold UdpSocket.sendAllLoop
    split
    · exact .pure trivial
    refine .bind (send_final _ _) (.sliceFrom _ _) fun _ => ?_
    refine .bind (send_final _ _) (.sliceTo _ _) fun _ => ?_
    refine .bind (send_final _ _) (shows_udpSend u fuel _) fun _ => ?_
    exact .bind (send_final _ _) (.mapErr (shows_read2 _ _).any) fun _ => ih _ _

theorem shows_udpSendAll (u : UdpSocket) (fuel : Nat) (data : List U8) :
    Shows (u.socketSendAll (traced B) fuel data) (fun _ _ => True) (fun e evs => UdpSendReason u.socket.register u.destination evs e) := by
  unfold UdpSocket.socketSendAll
  refine .bind' (shows_checkStatus u (fun _ h => h) (fun _ h => h) (fun _ _ h => h)) fun _ pre hpre => ?_
  subst hpre
  split
  · rename_i h
    exact .throw ⟨by simpa using h, _, List.suffix_refl _, rfl⟩
  · refine Shows.conseq ?_ (fun _ _ h => h) fun e evs h => send_final _ _ e _ evs h
    refine .bind' (.mapErr (shows_read2 _ _)) fun sz pre hpre => ?_
    obtain ⟨x, y, rfl, rfl⟩ := hpre
    split
    · rename_i h
      obtain ⟨rfl, rfl⟩ : x = 0 ∧ y = 0 := fromBeBytes_inj h
      exact .throw (List.suffix_refl _)
    · exact (shows_sendAllLoop u fuel data _ _ _).conseq (fun _ _ h => h) fun e evs h => send_final _ _ e _ evs h

/-! ## Runs that start from a known first component -/

/-- As `Shows`, for runs in which the first component of the state is `x` at the start. -/
structure ShowsAt [HasLog σ E] (x : S) (m : M (S × σ) ε α) (K : α → List (Ev E) → Prop) (J : ε → List (Ev E) → Prop) : Prop where
  run : ∀ t, ∃ evs, HasLog.log (m (x, t)).2.2 = HasLog.log t ++ evs ∧ (∀ a, (m (x, t)).1 = .ok a → K a evs) ∧
    ∀ e, (m (x, t)).1 = .err e → J e evs

theorem Shows.from [HasLog σ E] {x : S} {m : M (S × σ) ε α} {K : α → List (Ev E) → Prop} {J : ε → List (Ev E) → Prop}
    (h : Shows m K J) : ShowsAt x m K J := ⟨fun t => h.run (x, t)⟩

namespace ShowsAt
variable [HasLog σ E] {x : S} {K : α → List (Ev E) → Prop} {J : ε → List (Ev E) → Prop}

theorem conseq {m : M (S × σ) ε α} {K' : α → List (Ev E) → Prop} {J' : ε → List (Ev E) → Prop} (h : ShowsAt x m K J)
    (hk : ∀ a evs, K a evs → K' a evs) (hj : ∀ e evs, J e evs → J' e evs) : ShowsAt x m K' J' := by
  constructor; intro s
  obtain ⟨evs, h1, h2, h3⟩ := h.run s
  exact ⟨evs, h1, fun a ha => hk _ _ (h2 a ha), fun e he => hj _ _ (h3 e he)⟩

/-- Sequencing after a part that leaves the first component at `y`. -/
theorem bind' {y : S} {m : M (S × σ) ε α} {f : α → M (S × σ) ε β} {K' : β → List (Ev E) → Prop} (hm : ShowsAt x m K J)
    (hx : ∀ t a, (m (x, t)).1 = .ok a → (m (x, t)).2.1 = y)
    (hf : ∀ a pre, K a pre → ShowsAt y (f a) (fun b evs => K' b (pre ++ evs)) (fun e evs => J e (pre ++ evs))) :
    ShowsAt x (m >>= f) K' J := by
  constructor; intro t
  obtain ⟨e1, h1, h2, h3⟩ := hm.run t
  show ∃ evs, HasLog.log (M.bind m f (x, t)).2.2 = _ ∧ (∀ a, (M.bind m f (x, t)).1 = _ → _) ∧ ∀ a, (M.bind m f (x, t)).1 = _ → _
  have hx := hx t
  unfold M.bind
  rcases hr : m (x, t) with ⟨r | r | _ | _, s', t'⟩
  all_goals rw [hr] at h1 h2 h3 hx
  · obtain rfl : s' = y := hx r rfl
    obtain ⟨e2, i1, i2, i3⟩ := (hf r e1 (h2 r rfl)).run t'
    exact ⟨e1 ++ e2, by rw [i1, h1, List.append_assoc], i2, i3⟩
  · exact ⟨e1, h1, (fun _ h => nomatch h), fun e he => by cases he; exact h3 _ rfl⟩
  · exact ⟨e1, h1, (fun _ h => nomatch h), (fun _ h => nomatch h)⟩
  · exact ⟨e1, h1, (fun _ h => nomatch h), (fun _ h => nomatch h)⟩

theorem onSnd {m : M σ ε α} {f : α → M (S × σ) ε β} {K' : β → List (Ev E) → Prop} (hm : Shows m K J)
    (hf : ∀ a pre, K a pre → ShowsAt x (f a) (fun b evs => K' b (pre ++ evs)) (fun e evs => J e (pre ++ evs))) :
    ShowsAt x (M.onSnd m >>= f) K' J :=
  .bind' (Shows.onSnd hm).from (fun _ _ _ => rfl) hf

theorem get {f : S × σ → M (S × σ) ε β} {K' : β → List (Ev E) → Prop} (hf : ∀ t, ShowsAt x (f (x, t)) K' J) :
    ShowsAt x (M.get >>= f) K' J := ⟨fun t => (hf t).run t⟩

theorem mapErr {f : ε' → ε} {m : M (S × σ) ε' α} (h : ShowsAt x m K fun e => J (f e)) : ShowsAt x (M.mapErr f m) K J := by
  constructor; intro s
  obtain ⟨e1, h1, h2, h3⟩ := h.run s
  unfold M.mapErr
  rcases hr : m (x, s) with ⟨r | r | _ | _, s'⟩
  all_goals rw [hr] at h1 h2 h3
  · exact ⟨e1, h1, fun a ha => by cases ha; exact h2 _ rfl, (fun _ h => nomatch h)⟩
  · exact ⟨e1, h1, (fun _ h => nomatch h), fun a ha => by cases ha; exact h3 _ rfl⟩
  · exact ⟨e1, h1, (fun _ h => nomatch h), (fun _ h => nomatch h)⟩
  · exact ⟨e1, h1, (fun _ h => nomatch h), (fun _ h => nomatch h)⟩

theorem onSockBus {m : M (S × σ) ε α} {J : ε → List (Ev E) → Prop} (hm : ShowsAt x m K J) :
    ShowsAt x (Device.onSockBus m : M (S × Device σ H) ε α) K J :=
  ⟨fun t => hm.run t.bus⟩

end ShowsAt

theorem shows_udpReceive (u : UdpSocket) (fuel : Nat) (buf : List U8) :
    ShowsAt buf (u.socketReceive (traced B) fuel) (fun _ _ => True) (fun e evs => UdpReceiveReason u.socket.register buf.length evs e) := by
  have hfin := receive_final (E := E) u.socket.register buf.length
  unfold UdpSocket.socketReceive
  refine .onSnd (shows_checkStatus u (fun _ h => h) (fun _ h => h) (fun _ _ h => h)) fun _ pre hpre => ?_
  refine ShowsAt.conseq ?_ (fun _ _ h => h) fun e evs h => hfin e _ evs h
  refine .onSnd (.mapErr (shows_hasInterrupt _ _)) fun r pre hpre => ?_
  obtain ⟨x, rfl, rfl⟩ := hpre
  split
  · rename_i h
    refine Shows.from (.throw (.inl ⟨x, List.suffix_refl _, ?_⟩))
    revert h; revert x; decide +kernel
  refine ShowsAt.conseq ?_ (fun _ _ h => h) fun e evs h => hfin e _ evs h
  refine .onSnd (.mapErr (shows_receiveSize _ _)) fun sz pre hsz => ?_
  dsimp only
  split
  · rename_i h
    rw [h] at hsz
    refine Shows.from (.throw (.inr ?_))
    rw [List.append_nil]; exact hsz
  rename_i hne
  refine .get fun t => ?_
  dsimp only
  split
  · rename_i h
    refine Shows.from (.throw ⟨h, ?_⟩)
    rw [List.append_nil]
    obtain ⟨x, y, h1, h2⟩ := hsz
    exact ⟨x, y, h1, by rw [h2]; exact hne⟩
  refine ShowsAt.conseq ?_ (fun _ _ h => h) fun e evs h => hfin e _ evs h
  refine Shows.from ?_
  refine .bind hfin (.onSnd (.mapErr (shows_read2 _ _).any)) fun rp => ?_
  refine .bind hfin (.onSnd (.mapErr (shows_readBuf _ _ _).any)) fun hd => ?_
  split
  · exact .panic
  refine .bind hfin (.withPrefix _ (.mapErr (shows_readSlice _ _))) fun _ => ?_
  refine .bind hfin (.onSnd (.mapErr (shows_write _ _ _).any)) fun _ => ?_
  refine .bind hfin (.onSnd (.mapErr (shows_write _ _ _).any)) fun _ => ?_
  refine .bind hfin (.onSnd (.mapErr (shows_write _ _ _).any)) fun _ => ?_
  exact .pure trivial

theorem shows_setDestination (remote : SockAddr4) (u : UdpSocket) :
    ShowsAt u (UdpSocket.setDestination (traced B) remote) (fun _ _ => True)
      (fun e evs => ∃ x, e = .other x ∧ Failed evs x) := by
  have hfin : Final fun (e : UdpSocketError E) (evs : List (Ev E)) => ∃ x, e = .other x ∧ Failed evs x :=
    fun e pre evs ⟨x, h1, h2⟩ => ⟨x, h1, h2.final⟩
  have hw : ∀ b a d, Shows ((traced B).write b a d) (fun _ _ => True) (fun e evs => ∃ x, UdpSocketError.other e = .other x ∧ Failed evs x) :=
    fun b a d => (shows_write b a d).conseq (fun _ _ _ => trivial) fun e evs h => ⟨e, rfl, h⟩
  unfold UdpSocket.setDestination
  refine .get fun t => ?_
  dsimp only
  refine Shows.from ?_
  split
  · refine .bind hfin (.mapErr (.onSnd (hw _ _ _))) fun _ => ?_
    refine .bind hfin (.mapErr (.onSnd (hw _ _ _))) fun _ => ?_
    exact ⟨fun _ => ⟨[], (List.append_nil _).symm, fun _ _ => trivial, fun _ h => nomatch h⟩⟩
  · exact .pure trivial

theorem setDestination_leaves {B : Bus W E} (remote : SockAddr4) (u : UdpSocket) (t : W) (a : Unit)
    (h : (UdpSocket.setDestination B remote (u, t)).1 = .ok a) :
    (UdpSocket.setDestination B remote (u, t)).2.1 = { u with destination := some remote } := by
  rcases hr : UdpSocket.setDestination B remote (u, t) with ⟨r, s'⟩
  rw [hr] at h
  subst h
  show s'.1 = _
  unfold UdpSocket.setDestination at hr
  obtain ⟨s0, t0, hg, hr⟩ := M.bind_eq_ok.1 hr
  obtain ⟨rfl, rfl⟩ : s0 = (u, t) ∧ t0 = (u, t) := by cases hg; exact ⟨rfl, rfl⟩
  have key : ∀ b : Bool, (b = false → u.destination = some remote) →
      (if b = true then (do
          M.mapErr UdpSocketError.other (M.onSnd (u.socket.setDestinationIp B remote.ip))
          M.mapErr UdpSocketError.other (M.onSnd (u.socket.setDestinationPort B remote.port))
          M.modify fun s => ({ s.1 with destination := some remote }, s.2) : M (UdpSocket × W) (UdpSocketError E) Unit)
        else pure ()) (u, t) = (.ok a, s') → s'.1 = { u with destination := some remote } := by
    rintro (_ | _) hb h
    · cases h
      rw [← hb rfl]
    · obtain ⟨_, t1, h1, h⟩ := M.bind_eq_ok.1 h
      obtain ⟨_, t2, h2, h⟩ := M.bind_eq_ok.1 h
      have k1 : t1.1 = u := (congrArg (fun x => x.2.1) (M.mapErr_eq_ok.1 h1)).symm
      have k2 : t2.1 = t1.1 := (congrArg (fun x => x.2.1) (M.mapErr_eq_ok.1 h2)).symm
      cases h
      show { t2.1 with destination := some remote } = _
      rw [k2, k1]
  refine key _ (fun hb => ?_) hr
  revert hb
  dsimp only
  cases u.destination with
  | none => intro hb; cases hb
  | some x => intro hb; simpa using hb

theorem shows_udpSendTo (remote : SockAddr4) (u : UdpSocket) (fuel : Nat) (data : List U8) :
    ShowsAt u (UdpSocket.socketSendTo (traced B) fuel remote data) (fun _ _ => True)
      (fun e evs => UdpSendReason u.socket.register (some remote) evs e) := by
  unfold UdpSocket.socketSendTo
  refine ShowsAt.bind' (y := { u with destination := some remote }) (K := fun _ _ => True) ?_ ?_ fun _ pre _ => ?_
  · refine .mapErr ((shows_setDestination remote u).conseq (fun _ _ h => h) ?_)
    rintro e evs ⟨x, rfl, hx⟩
    exact hx
  · intro t a h
    rcases hr : M.mapErr NbError.other (UdpSocket.setDestination (traced B) remote) (u, t) with ⟨r, s'⟩
    rw [hr] at h
    subst h
    have := M.mapErr_eq_ok.1 hr
    have h2 := setDestination_leaves (B := traced B) remote u t a (by rw [this])
    rw [this] at h2
    exact h2
  · refine .get fun t => ?_
    refine Shows.from (.onSnd ((shows_udpSendAll { u with destination := some remote } fuel data).conseq (fun _ _ h => h) fun e evs h => ?_))
    exact send_final _ _ e _ evs h

theorem shows_udpOpen (u : UdpSocket) :
    Shows (u.open (traced B)) (fun _ _ => True) (fun e evs => Failed evs e) := by
  unfold UdpSocket.open
  repeat' first | exact (shows_write _ _ _).any | refine Shows.bind failed_final (shows_write _ _ _).any fun _ => ?_

theorem shows_udpConnect (remote : SockAddr4) (u : UdpSocket) :
    ShowsAt u (do
      let self := (← M.get).1
      M.mapErr UdpSocketError.other (M.onSnd (self.open (traced B)))
      UdpSocket.setDestination (traced B) remote) (fun _ _ => True) (fun e evs => ∃ x, e = .other x ∧ Failed evs x) := by
  refine .get fun t => ?_
  refine .bind' (y := u) (K := fun _ _ => True)
    (.mapErr (Shows.onSnd ((shows_udpOpen u).conseq (fun _ _ _ => trivial) fun e evs h => ⟨e, rfl, h⟩)).from)
    (fun t a h => ?_) fun _ pre _ => ?_
  · revert h
    unfold M.mapErr M.onSnd M.zoom
    dsimp only
    rcases u.open (traced B) t with ⟨r | r | _ | _, s'⟩ <;> intro h <;> first | rfl | cases h
  · exact (shows_setDestination remote u).conseq (fun _ _ h => h) fun e evs ⟨x, h1, h2⟩ => ⟨x, h1, h2.final⟩

theorem shows_setPort (port : U16) (u : UdpSocket) :
    ShowsAt u (UdpSocket.setPort (traced B) port) (fun _ _ => True) (fun e evs => ∃ x, e = .other x ∧ Failed evs x) := by
  constructor; intro t
  obtain ⟨evs, h1, h2, h3⟩ := (Shows.mapErr (f := UdpSocketError.other) (J := fun e evs => ∃ x, e = .other x ∧ Failed evs x)
    (Shows.onSnd (S := UdpSocket) ((shows_write (B := B) u.socket.register SOURCE_PORT (toBeBytes port)).conseq (fun _ _ h => h)
      fun e evs h => ⟨e, rfl, h⟩))).run ({ u with port := port }, t)
  exact ⟨evs, h1, fun _ _ => trivial, h3⟩

theorem shows_udpBind (port : U16) (u : UdpSocket) :
    ShowsAt u (do
      UdpSocket.setPort (traced B) port
      let self := (← M.get).1
      M.mapErr UdpSocketError.other (M.onSnd (self.open (traced B)))) (fun _ _ => True)
      (fun e evs => ∃ x, e = .other x ∧ Failed evs x) := by
  refine .bind' (y := { u with port := port }) (K := fun _ _ => True) (shows_setPort port u) (fun t a h => ?_) fun _ pre _ => ?_
  · revert h
    show (M.mapErr UdpSocketError.other (M.onSnd (u.socket.setSourcePort (traced B) port)) ({ u with port := port }, t)).1 = _ →
      (M.mapErr UdpSocketError.other (M.onSnd (u.socket.setSourcePort (traced B) port)) ({ u with port := port }, t)).2.1 = _
    unfold M.mapErr M.onSnd M.zoom
    dsimp only
    rcases u.socket.setSourcePort (traced B) port t with ⟨r | r | _ | _, s'⟩ <;> intro h <;> first | rfl | cases h
  · refine .get fun t => ?_
    refine Shows.from (.mapErr (.onSnd ((shows_udpOpen _).conseq (fun _ _ h => h) fun e evs h => ⟨e, rfl, h.final⟩)))

end W5500
