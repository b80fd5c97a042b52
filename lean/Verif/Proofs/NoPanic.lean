import Verif.Proofs.Runs
import Verif.Proofs.ChipUdpRx
import Verif.Spec.Script
/-! # Operations that do not panic -/

namespace W5500
open Spec socketn
variable {W σ τ E ε ε' α β S H : Type}

/-- Never panics. -/
structure NoPanic (m : M σ ε α) : Prop where
  run : ∀ s, (m s).1 ≠ .panic

namespace M

theorem bind_eq_err {m : M σ ε α} {f : α → M σ ε β} {s s2 : σ} {e : ε} :
    (m >>= f) s = (.err e, s2) ↔ m s = (.err e, s2) ∨ ∃ a s1, m s = (.ok a, s1) ∧ f a s1 = (.err e, s2) := by
  rw [bind_def]
  rcases m s with ⟨a | _ | _ | _, t⟩
  · exact ⟨fun h => .inr ⟨a, t, rfl, h⟩, fun h => by
      rcases h with h | ⟨_, _, h, h'⟩
      · cases h
      · cases h; exact h'⟩
  all_goals simp

theorem bind_eq_panic {m : M σ ε α} {f : α → M σ ε β} {s s2 : σ} :
    (m >>= f) s = (.panic, s2) ↔ m s = (.panic, s2) ∨ ∃ a s1, m s = (.ok a, s1) ∧ f a s1 = (.panic, s2) := by
  rw [bind_def]
  rcases m s with ⟨a | _ | _ | _, t⟩
  · exact ⟨fun h => .inr ⟨a, t, rfl, h⟩, fun h => by
      rcases h with h | ⟨_, _, h, h'⟩
      · cases h
      · cases h; exact h'⟩
  all_goals simp

theorem mapErr_eq_err {f : ε → ε'} {m : M σ ε α} {s s2 : σ} {e : ε'} :
    mapErr f m s = (.err e, s2) ↔ ∃ e0, f e0 = e ∧ m s = (.err e0, s2) := by
  rw [mapErr_def]
  rcases m s with ⟨_ | x | _ | _, t⟩
  case err => exact ⟨fun h => ⟨x, by cases h; exact ⟨rfl, rfl⟩⟩, fun ⟨_, h, h'⟩ => by cases h'; cases h; rfl⟩
  all_goals simp

theorem mapErr_eq_panic {f : ε → ε'} {m : M σ ε α} {s s2 : σ} :
    mapErr f m s = (.panic, s2) ↔ m s = (.panic, s2) := by
  rw [mapErr_def]
  rcases m s with ⟨_ | _ | _ | _, t⟩ <;> simp

end M

namespace NoPanic
variable {B : Bus W E}

theorem pure (a : α) : NoPanic (Pure.pure a : M σ ε α) := ⟨fun _ => nofun⟩
theorem throw (e : ε) : NoPanic (M.throw e : M σ ε α) := ⟨fun _ => nofun⟩
theorem outOfFuel : NoPanic (M.outOfFuel : M σ ε α) := ⟨fun _ => nofun⟩
theorem mget : NoPanic (M.get : M σ ε σ) := ⟨fun _ => nofun⟩
theorem modify (f : σ → σ) : NoPanic (M.modify f : M σ ε Unit) := ⟨fun _ => nofun⟩
theorem set (s : σ) : NoPanic (M.set s : M σ ε Unit) := ⟨fun _ => nofun⟩

theorem bind' {m : M σ ε α} {f : α → M σ ε β} (h : NoPanic m)
    (hf : ∀ a s s', m s = (.ok a, s') → (f a s').1 ≠ .panic) : NoPanic (m >>= f) := by
  constructor
  intro s
  have h1 := h.run s
  have h2 := fun a s' => hf a s s'
  rw [M.bind_def]
  generalize m s = r at h1 h2
  obtain ⟨_ | _ | _ | _, t⟩ := r
  · exact h2 _ _ rfl
  · nofun
  · exact absurd rfl h1
  · nofun

theorem bind {m : M σ ε α} {f : α → M σ ε β} (h : NoPanic m) (hf : ∀ a, NoPanic (f a)) : NoPanic (m >>= f) :=
  bind' h fun a _ s' _ => (hf a).run s'

theorem mapErr {m : M σ ε α} {f : ε → ε'} (h : NoPanic m) : NoPanic (M.mapErr f m) := by
  constructor
  intro s
  have := h.run s
  rw [M.mapErr_def]
  generalize m s = r at this
  obtain ⟨_ | _ | _ | _, t⟩ := r
  · nofun
  · nofun
  · exact absurd rfl this
  · nofun

theorem zoom {get : σ → τ} {put : τ → σ → σ} {m : M τ ε α} (h : NoPanic m) : NoPanic (M.zoom get put m) :=
  ⟨fun s => h.run (get s)⟩

theorem onSnd {m : M σ ε α} (h : NoPanic m) : NoPanic (M.onSnd m : M (S × σ) ε α) := zoom h
theorem onBus {m : M W ε α} (h : NoPanic m) : NoPanic (Device.onBus m : M (Device W H) ε α) := zoom h
theorem onSockBus {m : M (S × W) ε α} (h : NoPanic m) : NoPanic (Device.onSockBus m : M (S × Device W H) ε α) := zoom h

theorem withLocal {m : M (S × σ) ε α} (b : S) (h : NoPanic m) : NoPanic (M.withLocal b m) := by
  constructor
  intro s
  have := h.run (b, s)
  unfold M.withLocal
  generalize m (b, s) = r at this
  obtain ⟨_ | _ | _ | _, t⟩ := r
  · nofun
  · nofun
  · exact absurd rfl this
  · nofun

theorem write (hB : Calm B) (b : U8) (a : U16) (d : List U8) : NoPanic (B.write b a d) := ⟨fun w => hB.2 w b a d⟩

theorem readSlice (hB : Calm B) (b : U8) (a : U16) : NoPanic (B.readSlice b a) := ⟨fun s => hB.1 s.2 b a s.1⟩

theorem readBuf (hB : Calm B) (b : U8) (a : U16) (d : List U8) : NoPanic (B.readBuf b a d) := by
  constructor
  intro w
  have := hB.1 w b a d
  unfold Bus.readBuf
  generalize B.readFrame w b a d = r at this
  obtain ⟨_ | _ | _ | _, _, _⟩ := r
  · nofun
  · nofun
  · exact absurd rfl this
  · nofun

theorem readBuf_length {b : U8} {a : U16} {d x : List U8} {w w' : W} (h : B.readBuf b a d w = (.ok x, w')) :
    x.length = d.length := by
  have := B.read_length w b a d
  unfold Bus.readBuf at h
  generalize B.readFrame w b a d = r at this h
  obtain ⟨_ | _ | _ | _, _, _⟩ := r <;> simp only [Prod.mk.injEq, Res.ok.injEq, reduceCtorEq, false_and] at h
  rw [← h.1]
  exact this

theorem read1 (hB : Calm B) (b : U8) (a : U16) : NoPanic (B.read1 b a) := by
  refine .bind' (.readBuf hB _ _ _) fun d w w' h => ?_
  match d, readBuf_length h with
  | [x], _ => nofun

theorem read2 (hB : Calm B) (b : U8) (a : U16) : NoPanic (B.read2 b a) := by
  refine .bind' (.readBuf hB _ _ _) fun d w w' h => ?_
  match d, readBuf_length h with
  | [x, y], _ => nofun

theorem sliceTo {b : List U8} {n : Nat} (h : n ≤ b.length) : NoPanic (M.sliceTo b n : M σ ε _) := by
  unfold M.sliceTo
  rw [if_pos h]
  exact .pure _

theorem sliceFrom {b : List U8} {n : Nat} (h : n ≤ b.length) : NoPanic (M.sliceFrom b n : M σ ε _) := by
  unfold M.sliceFrom
  rw [if_pos h]
  exact .pure _

end NoPanic

/-- Structural steps of a `NoPanic` proof. -/
macro "nopanic" : tactic => `(tactic| repeat' first
  | with_reducible exact NoPanic.pure _
  | with_reducible exact NoPanic.throw _
  | with_reducible exact NoPanic.outOfFuel
  | with_reducible exact NoPanic.mget
  | with_reducible exact NoPanic.modify _
  | with_reducible exact NoPanic.set _
  | with_reducible exact NoPanic.readBuf ‹_› _ _ _
  | with_reducible exact NoPanic.readSlice ‹_› _ _
  | with_reducible exact NoPanic.read1 ‹_› _ _
  | with_reducible exact NoPanic.read2 ‹_› _ _
  | exact NoPanic.write ‹_› _ _ _
  | with_reducible assumption
  | with_reducible apply NoPanic.bind
  | with_reducible apply NoPanic.mapErr
  | with_reducible apply NoPanic.onSnd
  | with_reducible apply NoPanic.onBus
  | with_reducible apply NoPanic.onSockBus
  | with_reducible apply NoPanic.withLocal
  | intro _
  | split
  | dsimp only)

section ops
variable {B : Bus W E} (hB : Calm B)
include hB

theorem np_getStatus (s : Socket) : NoPanic (s.getStatus B) := by unfold Socket.getStatus; nopanic
theorem np_hasInterrupt (s : Socket) (i : Interrupt) : NoPanic (s.hasInterrupt B i) := by unfold Socket.hasInterrupt; nopanic

theorem np_receiveSize (s : Socket) (fuel : Nat) : NoPanic (s.getReceiveSize B fuel) := by
  induction fuel with
  | zero => exact .outOfFuel
  | succ n ih => unfold Socket.getReceiveSize; nopanic

theorem np_waitSendOk (s : Socket) (fuel : Nat) : NoPanic (RawDevice.waitSendOk B s fuel) := by
  induction fuel with
  | zero => exact .outOfFuel
  | succ n ih => have := np_hasInterrupt hB s .sendOk; unfold RawDevice.waitSendOk; nopanic

theorem np_checkStatus (u : UdpSocket) : NoPanic (u.checkStatus B) := by
  unfold UdpSocket.checkStatus Socket.getStatus; nopanic

theorem np_udpOpen (u : UdpSocket) : NoPanic (u.open B) := by
  unfold UdpSocket.open Socket.command Socket.resetInterrupt Socket.setSourcePort Socket.setMode Socket.setInterruptMask
  nopanic

theorem np_udpClose (u : UdpSocket) : NoPanic (u.socketClose B) := by
  unfold UdpSocket.socketClose Socket.command Socket.setMode; nopanic

theorem np_setPort (p : U16) : NoPanic (UdpSocket.setPort B p) := by
  unfold UdpSocket.setPort Socket.setSourcePort; nopanic

theorem np_setDestination (a : SockAddr4) : NoPanic (UdpSocket.setDestination B a) := by
  unfold UdpSocket.setDestination Socket.setDestinationIp Socket.setDestinationPort; nopanic

theorem np_tryFlush (u : UdpSocket) : NoPanic (u.tryFlushTx B) := by
  have := np_hasInterrupt hB
  unfold UdpSocket.tryFlushTx Socket.getTxReadPointer Socket.getTxWritePointer Socket.resetInterrupt Socket.hasInterrupt; nopanic

theorem np_flushLoop (u : UdpSocket) (fuel : Nat) : NoPanic (u.flushLoop B fuel) := by
  induction fuel with
  | zero => exact .outOfFuel
  | succ n ih =>
    constructor
    intro w
    have := (np_tryFlush hB u).run w
    unfold UdpSocket.flushLoop
    show (match u.tryFlushTx B w with
      | (.err .wouldBlock, w') => u.flushLoop B n w'
      | r => r).1 ≠ _
    split
    · exact ih.run _
    · exact this

theorem np_udpSend (u : UdpSocket) (fuel : Nat) (data : List U8) : NoPanic (u.socketSend B fuel data) := by
  have h1 := np_checkStatus hB u
  have h2 := np_flushLoop hB u fuel
  unfold UdpSocket.socketSend Socket.getTxFreeSize UdpSocket.blockSendCommand Socket.command Socket.getTxWritePointer
    Socket.setTxWritePointer
  refine .bind h1 fun _ => ?_
  split
  · exact .throw _
  refine .bind (by nopanic) fun v => ?_
  split
  · exact .throw _
  dsimp only
  split
  · nopanic
  · exact .bind (.sliceTo (by omega)) fun _ => by nopanic

end ops

/-- If it returns a value, the value satisfies `p`. -/
structure Ret (p : α → Prop) (m : M σ ε α) : Prop where
  run : ∀ {s a s'}, m s = (.ok a, s') → p a

namespace Ret
variable {p : β → Prop}
theorem pure {b : β} (h : p b) : Ret p (Pure.pure b : M σ ε β) := ⟨fun e => by cases e; exact h⟩
theorem throw (e : ε) : Ret p (M.throw e : M σ ε β) := ⟨nofun⟩
theorem outOfFuel : Ret p (M.outOfFuel : M σ ε β) := ⟨nofun⟩
theorem bind' {q : α → Prop} {m : M σ ε α} {f : α → M σ ε β} (h : Ret q m) (hf : ∀ a, q a → Ret p (f a)) :
    Ret p (m >>= f) := by
  constructor
  intro s b s' e
  obtain ⟨a, s1, h1, h2⟩ := M.bind_eq_ok.mp e
  exact (hf a (h.run h1)).run h2
theorem bind {m : M σ ε α} {f : α → M σ ε β} (hf : ∀ a, Ret p (f a)) : Ret p (m >>= f) :=
  bind' (q := fun _ => True) ⟨fun _ => trivial⟩ fun a _ => hf a
theorem sliceTo {b : List U8} {n : Nat} : Ret (fun x => x = b.take n ∧ n ≤ b.length) (M.sliceTo b n : M σ ε _) :=
  ⟨fun e => by
    have := M.sliceTo_eq_ok.mp e
    exact ⟨this.2.1, this.1⟩⟩
theorem sliceFrom {b : List U8} {n : Nat} : Ret (fun x => x = b.drop n ∧ n ≤ b.length) (M.sliceFrom b n : M σ ε _) :=
  ⟨fun e => by
    have := M.sliceFrom_eq_ok.mp e
    exact ⟨this.2.1, this.1⟩⟩
end Ret

theorem ret_udpSend (B : Bus W E) (u : UdpSocket) (fuel : Nat) (data : List U8) :
    Ret (fun k => k ≤ data.length) (u.socketSend B fuel data) := by
  unfold UdpSocket.socketSend
  refine .bind fun _ => ?_
  split
  · exact .throw _
  refine .bind fun v => ?_
  split
  · exact .throw _
  dsimp only
  split
  · exact .bind' (.pure (p := fun x => x = data) rfl) fun x hx => .bind fun _ => .bind fun _ => .bind fun _ =>
      .bind fun _ => .pure (hx ▸ Nat.le_refl _)
  · refine .bind' .sliceTo fun x hx => .bind fun _ => .bind fun _ => .bind fun _ => .bind fun _ => .pure ?_
    rw [hx.1, List.length_take]
    omega

section ops
variable {B : Bus W E} (hB : Calm B)
include hB

theorem np_sendAllLoop (u : UdpSocket) (fuel : Nat) (data : List U8) (k : Nat) (v : U16) (t : Nat)
    (ht : t ≤ data.length) : NoPanic (u.sendAllLoop B fuel data k v t) := by
  induction k generalizing v t with
  | zero => exact .outOfFuel
  | succ k ih =>
    unfold UdpSocket.sendAllLoop
    split
    · exact .pure _
    refine .bind' (.sliceFrom ht) fun r _ _ hr => ?_
    have hr := Ret.sliceFrom.run hr
    refine (NoPanic.bind' (.sliceTo (Nat.min_le_right _ _)) fun b _ _ hb => ?_).run _
    have hb := Ret.sliceTo.run hb
    refine (NoPanic.bind' (np_udpSend hB u fuel b) fun n _ _ hs => ?_).run _
    have hs := (ret_udpSend B u fuel b).run hs
    refine (NoPanic.bind (.mapErr (.read2 hB _ _)) fun v => ih _ _ ?_).run _
    rw [hb.1, List.length_take, hr.1, List.length_drop] at hs
    omega

theorem np_udpSendAll (u : UdpSocket) (fuel : Nat) (data : List U8) : NoPanic (u.socketSendAll B fuel data) := by
  have h1 := np_checkStatus hB u
  unfold UdpSocket.socketSendAll Socket.getTxFreeSize
  have h2 := fun v => np_sendAllLoop hB u fuel data fuel v 0 (Nat.zero_le _)
  refine .bind h1 fun _ => ?_
  split
  · exact .throw _
  refine .bind (by nopanic) fun v => ?_
  split
  · exact .throw _
  · exact h2 v

theorem np_recvHead (u : UdpSocket) (fuel bl : Nat) : NoPanic (recvHead B fuel u bl) := by
  have h1 := np_checkStatus hB u
  have h2 := np_receiveSize hB u.socket fuel
  have h3 := np_hasInterrupt hB u.socket .receive
  unfold recvHead
  refine .bind h1 fun _ => .bind (.mapErr h3) fun b => ?_
  split
  · exact .throw _
  refine .bind (.mapErr h2) fun v => ?_
  dsimp only
  split
  · exact .throw _
  split
  · exact .throw _
  refine .bind (.mapErr (.read2 hB _ _)) fun p => ?_
  refine .bind' (.mapErr (.readBuf hB _ _ _)) fun h w w' e => ?_
  match h, NoPanic.readBuf_length (M.mapErr_eq_ok.mp e) with
  | [_, _, _, _, _, _, _, _], _ => nofun

theorem np_deviceUdpConnect (r : SockAddr) : NoPanic (Device.udpConnect B r : M (UdpSocket × Device W H) _ _) := by
  have h1 := np_udpOpen hB
  have h2 := np_setDestination hB
  unfold Device.udpConnect
  split
  · exact .throw _
  · exact .onSockBus (.bind .mget fun s => .bind (.mapErr (.onSnd (h1 _))) fun _ => h2 _)

theorem np_deviceUdpBind (p : U16) : NoPanic (Device.udpBind B p : M (UdpSocket × Device W H) _ _) := by
  have h1 := np_udpOpen hB
  unfold Device.udpBind
  exact .onSockBus (.bind (np_setPort hB p) fun _ => .bind .mget fun s => .mapErr (.onSnd (h1 _)))

theorem np_deviceUdpSend (fuel : Nat) (u : UdpSocket) (data : List U8) :
    NoPanic (Device.udpSend B fuel u data : M (Device W H) _ _) := .onBus (np_udpSendAll hB u fuel data)

theorem np_deviceUdpSendTo (fuel : Nat) (r : SockAddr) (data : List U8) :
    NoPanic (Device.udpSendTo B fuel r data : M (UdpSocket × Device W H) _ _) := by
  unfold Device.udpSendTo UdpSocket.socketSendTo
  split
  · exact .throw _
  · exact .onSockBus (.bind (.mapErr (np_setDestination hB _)) fun _ => .bind .mget fun s => .onSnd (np_udpSendAll hB _ _ _))

omit hB in
theorem np_releaseSocket (s : Socket) (h : s.index.toNat < 8) :
    NoPanic (Device.releaseSocket s : M (Device W H) ε Unit) := by
  constructor
  intro d
  unfold Device.releaseSocket
  split
  · nofun
  · rename_i e
    unfold DeviceState.releaseSocket at e
    split at e
    · cases e
    · contradiction

theorem np_deviceUdpClose (u : UdpSocket) (h : u.socket.index.toNat < 8) :
    NoPanic (Device.udpClose B u : M (Device W H) _ _) :=
  .bind (.onBus (np_udpClose hB u)) fun _ => np_releaseSocket _ h

theorem np_tcpOpen (t : TcpSocket) (p : U16) : NoPanic (t.open B p) := by
  unfold TcpSocket.open Socket.command Socket.resetInterrupt Socket.setSourcePort Socket.setMode Socket.setInterruptMask
  nopanic

theorem np_tcpReopen (t : TcpSocket) : NoPanic (t.reopen B) := by
  unfold TcpSocket.reopen Socket.command Socket.resetInterrupt Socket.setMode Socket.setInterruptMask
  nopanic

theorem np_tcpClose (t : TcpSocket) : NoPanic (t.socketClose B) := by
  unfold TcpSocket.socketClose Socket.command Socket.setMode; nopanic

theorem np_connectLoop (t : TcpSocket) (fuel : Nat) : NoPanic (t.connectLoop B fuel) := by
  induction fuel with
  | zero => exact .outOfFuel
  | succ n ih =>
    have h1 := np_tcpClose hB t
    have h2 := np_tcpReopen hB t
    unfold TcpSocket.connectLoop Socket.getStatus
    nopanic

theorem np_socketConnect (t : TcpSocket) (fuel : Nat) (r : SockAddr4) : NoPanic (t.socketConnect B fuel r) := by
  have h1 := np_tcpClose hB t
  have h2 := np_tcpReopen hB t
  have h3 := np_connectLoop hB t fuel
  unfold TcpSocket.socketConnect Socket.getStatus Socket.setDestinationIp Socket.setDestinationPort Socket.command
  nopanic

theorem np_deviceTcpConnect (fuel : Nat) (t : TcpSocket) (r : SockAddr) :
    NoPanic (Device.tcpConnect B fuel t r : M (Device W H) _ _) := by
  have h1 := np_tcpOpen hB t
  unfold Device.tcpConnect
  split
  · exact .throw _
  · exact .onBus (.bind (h1 _) fun _ => np_socketConnect hB t fuel _)

theorem np_isConnected (t : TcpSocket) : NoPanic (t.socketIsConnected B) := by
  unfold TcpSocket.socketIsConnected Socket.getStatus; nopanic

theorem np_deviceTcpSend (fuel : Nat) (t : TcpSocket) (data : List U8) :
    NoPanic (Device.tcpSend B fuel t data : M (Device W H) _ _) := by
  have h1 := np_isConnected hB t
  have h2 := np_waitSendOk hB t.socket fuel
  unfold Device.tcpSend TcpSocket.socketSend Socket.getTxFreeSize Socket.getTxWritePointer Socket.setTxWritePointer
    Socket.command Socket.resetInterrupt
  refine .onBus (.bind h1 fun b => ?_)
  split
  · exact .throw _
  refine .bind (by nopanic) fun v => ?_
  dsimp only
  split
  · nopanic
  · exact .bind (.sliceTo (by omega)) fun _ => by nopanic

end ops

/-- Never panics when the buffer has `L` bytes, and keeps its length. -/
structure Fits (L : Nat) (m : M (List U8 × σ) ε α) : Prop where
  run : ∀ s, s.1.length = L → (m s).1 ≠ .panic ∧ (m s).2.1.length = L

namespace Fits
variable {L : Nat}

theorem onSnd {m : M σ ε α} (h : NoPanic m) : Fits L (M.onSnd m) := ⟨fun _ hs => ⟨h.run _, hs⟩⟩
theorem pure (a : α) : Fits L (Pure.pure a : M (List U8 × σ) ε α) := ⟨fun _ hs => ⟨nofun, hs⟩⟩
theorem throw (e : ε) : Fits L (M.throw e : M (List U8 × σ) ε α) := ⟨fun _ hs => ⟨nofun, hs⟩⟩
theorem bind {m : M (List U8 × σ) ε α} {f : α → M (List U8 × σ) ε β} (h : Fits L m) (hf : ∀ a, Fits L (f a)) :
    Fits L (m >>= f) := by
  constructor
  intro s hs
  have := h.run s hs
  rw [M.bind_def]
  generalize m s = r at this
  obtain ⟨_ | _ | _ | _, t⟩ := r
  · exact (hf _).run _ this.2
  · exact ⟨nofun, this.2⟩
  · exact absurd rfl this.1
  · exact ⟨nofun, this.2⟩
theorem mapErr {m : M (List U8 × σ) ε α} {f : ε → ε'} (h : Fits L m) : Fits L (M.mapErr f m) := by
  constructor
  intro s hs
  have := h.run s hs
  rw [M.mapErr_def]
  generalize m s = r at this
  obtain ⟨_ | _ | _ | _, t⟩ := r
  · exact ⟨nofun, this.2⟩
  · exact ⟨nofun, this.2⟩
  · exact absurd rfl this.1
  · exact ⟨nofun, this.2⟩
theorem get {f : List U8 × σ → M (List U8 × σ) ε β} (hf : ∀ s, s.1.length = L → Fits L (f s)) : Fits L (M.get >>= f) :=
  ⟨fun s hs => (hf s hs).run s hs⟩
theorem withPrefix {m : M (List U8 × σ) ε α} {k : Nat} (hk : k ≤ L) (h : Fits k m) : Fits L (M.withPrefix k m) := by
  constructor
  intro s hs
  unfold M.withPrefix
  rw [if_pos (hs ▸ hk)]
  have := h.run (s.1.take k, s.2) (by rw [List.length_take]; omega)
  refine ⟨this.1, ?_⟩
  show List.length (_ ++ _) = L
  rw [List.length_append, this.2, List.length_drop]
  omega
theorem readSlice {B : Bus W E} (hB : Calm B) (b : U8) (a : U16) : Fits L (B.readSlice b a) :=
  ⟨fun s hs => ⟨hB.1 s.2 b a s.1, (B.read_length s.2 b a s.1).trans hs⟩⟩

end Fits

section ops
variable {B : Bus W E} (hB : Calm B)
include hB

theorem fits_tcpReceive (fuel : Nat) (t : TcpSocket) (L : Nat) : Fits L (t.socketReceive B fuel) := by
  have h1 := np_isConnected hB t
  have h2 := np_receiveSize hB t.socket fuel
  have h3 := np_hasInterrupt hB t.socket .receive
  unfold TcpSocket.socketReceive Socket.getRxReadPointer Socket.setRxReadPointer Socket.command Socket.resetInterrupt
  refine .bind (.onSnd h1) fun b => ?_
  split
  · exact .throw _
  refine .bind (.onSnd (.mapErr h3)) fun b => ?_
  split
  · exact .pure _
  refine .bind (.onSnd (.mapErr h2)) fun v => .get fun _ hs => .bind (.onSnd (.mapErr (.read2 hB _ _))) fun p => ?_
  refine .bind (.withPrefix (by split <;> omega) (.mapErr (.readSlice hB _ _))) fun _ => ?_
  exact .bind (.onSnd (.mapErr (.write hB _ _ _))) fun _ => .bind (.onSnd (.mapErr (.write hB _ _ _))) fun _ =>
    .bind (.onSnd (.mapErr (.write hB _ _ _))) fun _ => .pure _

theorem np_deviceTcpReceive (fuel : Nat) (t : TcpSocket) :
    NoPanic (Device.tcpReceive B fuel t : M (List U8 × Device W H) _ _) :=
  .onSockBus ⟨fun s => ((fits_tcpReceive hB fuel t s.1.length).run s rfl).1⟩

theorem np_deviceTcpClose (t : TcpSocket) (h : t.socket.index.toNat < 8) :
    NoPanic (Device.tcpClose B t : M (Device W H) _ _) :=
  .bind (.onBus (np_tcpClose hB t)) fun _ => np_releaseSocket _ h

/-- The part of `udpReceive` after the header: it panics iff the header announces more bytes than the buffer has. -/
theorem recvTail_panic (u : UdpSocket) (s : List U8 × W) (rxSize : Nat) (p : U16) (h : UdpHeader) :
    (recvTail B u s.1.length rxSize p h s).1 = .panic ↔ s.1.length < h.len := by
  constructor
  · intro e
    refine Nat.lt_of_not_le fun hl => ?_
    refine (Fits.run (L := s.1.length) (m := recvTail B u s.1.length rxSize p h) ?_ s rfl).1 e
    unfold recvTail Socket.setRxReadPointer Socket.command Socket.resetInterrupt
    refine .bind (.withPrefix (by omega) (.mapErr (.readSlice hB _ _))) fun _ => ?_
    exact .bind (.onSnd (.mapErr (.write hB _ _ _))) fun _ => .bind (.onSnd (.mapErr (.write hB _ _ _))) fun _ =>
      .bind (.onSnd (.mapErr (.write hB _ _ _))) fun _ => .pure _
  · intro hl
    unfold recvTail
    rw [M.bind_panic (s' := s)]
    unfold M.withPrefix
    rw [if_neg (by omega)]

/-! ## MACRAW -/

theorem np_rawNew : NoPanic (RawDevice.new B) := by
  have : ∀ l, NoPanic (RawDevice.clearBuffers B l) := by
    intro l
    induction l with
    | nil => exact .pure _
    | cons i l ih => unfold RawDevice.clearBuffers; nopanic
  have := this [1, 2, 3, 4, 5, 6, 7]
  unfold RawDevice.new Socket.command
  nopanic

theorem np_rawWrite (d : RawDevice) (fuel : Nat) (frame : List U8) : NoPanic (d.writeFrame B fuel frame) := by
  have h1 := np_waitSendOk hB d.rawSocket fuel
  have h2 : ∀ c : TxCursor, NoPanic (c.write B frame) := by
    intro c
    unfold TxCursor.write
    split
    · exact .pure _
    refine .bind (.sliceTo ?_) fun _ => by nopanic
    exact Nat.le_trans (Nat.le_of_eq (BitVec.toNat_ofNat _ _)) (Nat.mod_le _ _)
  unfold RawDevice.writeFrame TxCursor.new TxCursor.commit Socket.resetInterrupt Socket.getTxFreeSize
    Socket.getTxWritePointer Socket.setTxWritePointer Socket.command
  refine .bind (by nopanic) fun _ => .bind (by nopanic) fun c => .bind (h2 c) fun x => ?_
  nopanic

end ops

end W5500
