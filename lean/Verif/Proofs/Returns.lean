import Verif.Proofs.Loops
import Verif.Proofs.OwnErr
import Verif.Spec.Returns
/-! # More rounds change nothing -/

namespace W5500
open socketn Spec
variable {σ τ S ε ε' α β : Type}

/-- Where `m` has an outcome, `m'` has the same. -/
structure Le (m m' : M σ ε α) : Prop where
  run : ∀ s, (m s).1 ≠ .fuel → m' s = m s

namespace Le

theorem refl (m : M σ ε α) : Le m m := ⟨fun _ _ => rfl⟩

theorem outOfFuel (m : M σ ε α) : Le M.outOfFuel m := ⟨fun _ h => absurd rfl h⟩

theorem bind {m m' : M σ ε α} {f f' : α → M σ ε β} (h : Le m m') (hf : ∀ a, Le (f a) (f' a)) :
    Le (m >>= f) (m' >>= f') := by
  constructor
  intro s hs
  have h1 := h.run s
  rw [M.bind_def] at hs
  rw [M.bind_def, M.bind_def]
  generalize m s = r at *
  obtain ⟨_ | _ | _ | _, t⟩ := r
  · rw [h1 nofun]; exact (hf _).run _ hs
  · rw [h1 nofun]
  · rw [h1 nofun]
  · exact absurd rfl hs

theorem mapErr {m m' : M σ ε α} (f : ε → ε') (h : Le m m') : Le (M.mapErr f m) (M.mapErr f m') := by
  constructor
  intro s hs
  have h1 := h.run s
  rw [M.mapErr_def] at hs
  rw [M.mapErr_def, M.mapErr_def]
  generalize m s = r at *
  obtain ⟨_ | _ | _ | _, t⟩ := r
  · rw [h1 nofun]
  · rw [h1 nofun]
  · rw [h1 nofun]
  · exact absurd rfl hs

theorem zoom {m m' : M τ ε α} (get : σ → τ) (put : τ → σ → σ) (h : Le m m') :
    Le (M.zoom get put m) (M.zoom get put m') := by
  constructor
  intro s hs
  show (_, _) = (_, _)
  rw [h.run (get s) hs]

theorem onSnd {m m' : M τ ε α} (h : Le m m') : Le (M.onSnd (σ := S) m) (M.onSnd m') := .zoom _ _ h

theorem withLocal {m m' : M (β × σ) ε α} (b : β) (h : Le m m') : Le (M.withLocal b m) (M.withLocal b m') := by
  constructor
  intro s hs
  have h1 := h.run (b, s)
  unfold M.withLocal at *
  generalize m (b, s) = r at *
  obtain ⟨_ | _ | _ | _, t⟩ := r
  · rw [h1 nofun]
  · rw [h1 nofun]
  · rw [h1 nofun]
  · exact absurd rfl hs

theorem ite {c : Prop} [Decidable c] {m m' l l' : M σ ε α} (h : Le m m') (h' : Le l l') :
    Le (if c then m else l) (if c then m' else l') := by
  split
  · exact h
  · exact h'

/-- The outcome. -/
theorem endsWith {m : Nat → M σ ε α} (h : ∀ k l, k ≤ l → Le (m k) (m l)) {k : Nat} {s : σ} (hk : (m k s).1 ≠ .fuel) :
    EndsWith m s (m k s) := ⟨hk, k, fun l hl => (h k l hl).run s hk⟩

end Le

open Lean.Parser.Tactic in
/-- Sequences in which only some parts depend on the number of rounds. -/
macro "same" : tactic => `(tactic| repeat' (with_reducible first
  | assumption
  | exact Le.refl _
  | apply Le.bind
  | apply Le.mapErr
  | apply Le.onSnd
  | apply Le.ite
  | intro _
  | split))

variable {W E H : Type} {B : Bus W E}

theorem le_receiveSize (s : Socket) {k l : Nat} (h : k ≤ l) : Le (s.getReceiveSize B k) (s.getReceiveSize B l) := by
  induction k generalizing l with
  | zero => exact .outOfFuel _
  | succ k ih =>
    obtain ⟨l, rfl⟩ : ∃ j, l = j + 1 := ⟨l - 1, by omega⟩
    have := ih (l := l) (by omega)
    unfold Socket.getReceiveSize
    same

theorem le_waitSendOk (s : Socket) {k l : Nat} (h : k ≤ l) : Le (RawDevice.waitSendOk B s k) (RawDevice.waitSendOk B s l) := by
  induction k generalizing l with
  | zero => exact .outOfFuel _
  | succ k ih =>
    obtain ⟨l, rfl⟩ : ∃ j, l = j + 1 := ⟨l - 1, by omega⟩
    have := ih (l := l) (by omega)
    unfold RawDevice.waitSendOk
    same

theorem le_connectLoop (s : TcpSocket) {k l : Nat} (h : k ≤ l) : Le (s.connectLoop B k) (s.connectLoop B l) := by
  induction k generalizing l with
  | zero => exact .outOfFuel _
  | succ k ih =>
    obtain ⟨l, rfl⟩ : ∃ j, l = j + 1 := ⟨l - 1, by omega⟩
    have := ih (l := l) (by omega)
    unfold TcpSocket.connectLoop
    same

theorem le_flushLoop (u : UdpSocket) {k l : Nat} (h : k ≤ l) : Le (u.flushLoop B k) (u.flushLoop B l) := by
  induction k generalizing l with
  | zero => exact .outOfFuel _
  | succ k ih =>
    obtain ⟨l, rfl⟩ : ∃ j, l = j + 1 := ⟨l - 1, by omega⟩
    have := ih (l := l) (by omega)
    constructor
    intro w hw
    unfold UdpSocket.flushLoop at hw ⊢
    revert hw
    rcases u.tryFlushTx B w with ⟨_ | e | _ | _, t⟩ <;> intro hw <;> try rfl
    cases e with
    | wouldBlock => exact this.run t hw
    | other e => rfl

theorem le_socketSend (u : UdpSocket) (data : List U8) {k l : Nat} (h : k ≤ l) :
    Le (u.socketSend B k data) (u.socketSend B l data) := by
  have := le_flushLoop (B := B) u h
  unfold UdpSocket.socketSend UdpSocket.blockSendCommand
  same

theorem le_sendAllLoop (u : UdpSocket) (data : List U8) {k l : Nat} (h : k ≤ l) {i j : Nat} (hi : i ≤ j) (v : U16) (t : Nat) :
    Le (u.sendAllLoop B k data i v t) (u.sendAllLoop B l data j v t) := by
  induction i generalizing j v t with
  | zero => exact .outOfFuel _
  | succ i ih =>
    obtain ⟨j, rfl⟩ : ∃ m, j = m + 1 := ⟨j - 1, by omega⟩
    have h1 := fun v t => ih (j := j) (by omega) v t
    have h2 := fun data => le_socketSend (B := B) u data h
    unfold UdpSocket.sendAllLoop
    refine .ite (.refl _) (.bind (.refl _) fun _ => ?_)
    dsimp only
    refine .bind (.refl _) fun _ => .bind (h2 _) fun _ => .bind (.refl _) fun _ => h1 _ _

theorem le_socketSendAll (u : UdpSocket) (data : List U8) {k l : Nat} (h : k ≤ l) :
    Le (u.socketSendAll B k data) (u.socketSendAll B l data) := by
  have := fun v t => le_sendAllLoop (B := B) u data h h v t
  unfold UdpSocket.socketSendAll
  refine .bind (.refl _) fun _ => .ite (.refl _) (.bind (.refl _) fun _ => .ite (.refl _) (this _ _))

/-! ## The public operations -/

theorem le_udpSend (u : UdpSocket) (data : List U8) {k l : Nat} (h : k ≤ l) :
    Le (Device.udpSend B k u data : M (Device W H) _ _) (Device.udpSend B l u data) := by
  unfold Device.udpSend
  exact .zoom _ _ (le_socketSendAll u data h)

theorem le_udpSendTo (remote : SockAddr) (data : List U8) {k l : Nat} (h : k ≤ l) :
    Le (Device.udpSendTo B k remote data : M (UdpSocket × Device W H) _ _) (Device.udpSendTo B l remote data) := by
  unfold Device.udpSendTo
  split
  · exact .refl _
  · refine .zoom _ _ ?_
    unfold UdpSocket.socketSendTo
    exact .bind (.refl _) fun _ => .bind (.refl _) fun _ => .onSnd (le_socketSendAll _ data h)

theorem le_udpReceive (u : UdpSocket) {k l : Nat} (h : k ≤ l) :
    Le (Device.udpReceive B k u : M (List U8 × Device W H) _ _) (Device.udpReceive B l u) := by
  have := le_receiveSize (B := B) u.socket h
  unfold Device.udpReceive
  refine .zoom _ _ (.bind ?_ fun _ => .refl _)
  unfold UdpSocket.socketReceive
  refine .bind (.refl _) fun _ => .bind (.refl _) fun _ => .ite (.refl _) (.bind (.onSnd (.mapErr _ this)) fun _ => .refl _)

theorem le_tcpConnect (t : TcpSocket) (remote : SockAddr) {k l : Nat} (h : k ≤ l) :
    Le (Device.tcpConnect B k t remote : M (Device W H) _ _) (Device.tcpConnect B l t remote) := by
  have := le_connectLoop (B := B) t h
  unfold Device.tcpConnect
  split
  · exact .refl _
  · refine .zoom _ _ (.bind (.refl _) fun _ => ?_)
    unfold TcpSocket.socketConnect
    same

theorem le_tcpSend (t : TcpSocket) (data : List U8) {k l : Nat} (h : k ≤ l) :
    Le (Device.tcpSend B k t data : M (Device W H) _ _) (Device.tcpSend B l t data) := by
  have := le_waitSendOk (B := B) t.socket h
  unfold Device.tcpSend
  refine .zoom _ _ ?_
  unfold TcpSocket.socketSend
  same

theorem le_tcpReceive (t : TcpSocket) {k l : Nat} (h : k ≤ l) :
    Le (Device.tcpReceive B k t : M (List U8 × Device W H) _ _) (Device.tcpReceive B l t) := by
  have := le_receiveSize (B := B) t.socket h
  unfold Device.tcpReceive
  refine .zoom _ _ ?_
  unfold TcpSocket.socketReceive
  refine .bind (.refl _) fun _ => .ite (.refl _) (.bind (.refl _) fun _ => .ite (.refl _) (.bind (.onSnd (.mapErr _ this)) fun _ => .refl _))

theorem le_writeFrame (r : RawDevice) (frame : List U8) {k l : Nat} (h : k ≤ l) :
    Le (r.writeFrame B k frame) (r.writeFrame B l frame) := by
  have := le_waitSendOk (B := B) r.rawSocket h
  unfold RawDevice.writeFrame
  same

theorem le_readFrame (r : RawDevice) {k l : Nat} (h : k ≤ l) : Le (r.readFrame B k) (r.readFrame B l) := by
  have := le_receiveSize (B := B) r.rawSocket h
  unfold RawDevice.readFrame RxCursor.new
  refine .bind (.onSnd (.bind this fun _ => .refl _)) fun _ => .refl _

end W5500
