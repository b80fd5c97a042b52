import Verif.Spec.Serve
import Verif.Proofs.ErrIn
import Verif.Proofs.Block
/-! # Rounds of a UDP server -/

namespace W5500
open Spec Sock
variable {W E H ε σ α : Type} {sched : Nat → List (Nat × Act)} {faults : Nat → Option (E × Nat)}

/-! ## Sending never returns `WouldBlock` -/

theorem nw_flushLoop (B : Bus W E) (u : UdpSocket) (fuel : Nat) : ErrIn (· ≠ NbError.wouldBlock) (u.flushLoop B fuel) := by
  induction fuel with
  | zero => exact .outOfFuel
  | succ fuel ih =>
    constructor
    intro w e h
    unfold UdpSocket.flushLoop at h
    rcases hr : u.tryFlushTx B w with ⟨a | (e' | _) | _ | _, w1⟩ <;> rw [hr] at h
    · cases h
    · cases h; exact nofun
    · exact ih.run w1 e h
    · cases h
    · cases h

theorem nw_checkStatus (B : Bus W E) (u : UdpSocket) : ErrIn (· ≠ NbError.wouldBlock) (u.checkStatus B) := by
  unfold UdpSocket.checkStatus
  refine .bind (.mapErr _ fun _ => nofun) fun x => ?_
  split
  · exact .pure _
  · exact .throw nofun
  · exact .throw nofun

theorem nw_socketSend (B : Bus W E) (fuel : Nat) (u : UdpSocket) (data : List U8) :
    ErrIn (· ≠ NbError.wouldBlock) (u.socketSend B fuel data) := by
  unfold UdpSocket.socketSend
  refine .bind (nw_checkStatus B u) fun _ => .ite (fun _ => .throw nofun) fun _ => .bind (.mapErr _ fun _ => nofun) fun free =>
    .ite (fun _ => .throw nofun) fun _ => ?_
  have tail : ∀ x : List U8, ErrIn (· ≠ NbError.wouldBlock) (do
      let writePointer ← M.mapErr NbError.ofBus (u.socket.getTxWritePointer B)
      M.mapErr NbError.ofBus (B.write u.socket.txBuffer writePointer x)
      M.mapErr NbError.ofBus (u.socket.setTxWritePointer B (writePointer + BitVec.ofNat 16 x.length))
      u.blockSendCommand B fuel
      pure x.length : M W (NbError (UdpSocketError E)) Nat) := fun x =>
    .bind (.mapErr _ fun _ => nofun) fun p => .bind (.mapErr _ fun _ => nofun) fun _ => .bind (.mapErr _ fun _ => nofun) fun _ =>
      .bind (.bind (.mapErr _ fun _ => nofun) fun _ => nw_flushLoop B u fuel) fun _ => .pure _
  exact .ite (fun _ => .bind (.pure _) tail) fun _ => .bind (.sliceTo _ _) tail

theorem nw_sendAll (B : Bus W E) (fuel : Nat) (u : UdpSocket) (data : List U8) :
    ErrIn (· ≠ NbError.wouldBlock) (u.socketSendAll B fuel data) := by
  have loop : ∀ r free total, ErrIn (· ≠ NbError.wouldBlock) (u.sendAllLoop B fuel data r free total) := by
    intro r
    induction r with
    | zero => exact fun _ _ => .outOfFuel
    | succ r ih =>
      intro free total
      unfold UdpSocket.sendAllLoop
      exact .ite (fun _ => .pure _) fun _ => .bind (.sliceFrom _ _) fun _ => .bind (.sliceTo _ _) fun _ =>
        .bind (nw_socketSend B fuel u _) fun _ => .bind (.mapErr _ fun _ => nofun) fun _ => ih _ _
  unfold UdpSocket.socketSendAll
  exact .bind (nw_checkStatus B u) fun _ => .ite (fun _ => .throw nofun) fun _ => .bind (.mapErr _ fun _ => nofun) fun free =>
    .ite (fun _ => .throw nofun) fun _ => loop _ _ _

theorem nw_sendTo (B : Bus W E) (fuel : Nat) (remote : SockAddr) (data : List U8) :
    ErrIn (· ≠ NbError.wouldBlock) (Device.udpSendTo (H := H) B fuel remote data) := by
  unfold Device.udpSendTo
  split
  · exact .throw nofun
  · refine .zoom ?_
    unfold UdpSocket.socketSendTo
    exact .bind (.mapErr _ fun _ => nofun) fun _ => .bind .get fun s => .onSnd (nw_sendAll B fuel s.1 data)

/-- If a call never returns `WouldBlock`, then the loop around it is one call. -/
theorem nbBlock_once {call : M σ (NbError ε) α} (h : ErrIn (· ≠ NbError.wouldBlock) call) {r : Nat} {s t : σ} {a : α}
    (hr : nbBlock call r s = (.ok a, t)) : call s = (.ok a, t) := by
  cases r with
  | zero => cases hr
  | succ r =>
    unfold nbBlock at hr
    have hs := h.run s
    generalize call s = x at hr hs ⊢
    obtain ⟨a' | (e | _) | _ | _, t'⟩ := x
    · cases hr; rfl
    · cases hr
    · exact absurd rfl (hs _ rfl)
    · cases hr
    · cases hr

/-! ## One round -/

theorem serve_ok {B : Bus W E} {answer : SockAddr → List U8 → List U8} {fuel : Nat} {buf buf' : List U8} {u u' : UdpSocket}
    {d d' : Device W H} {x : Nat × SockAddr} :
    serve B answer fuel (buf, u, d) = (.ok x, (buf', u', d')) ↔
      ∃ d1, nbBlock (Device.udpReceive B fuel u) fuel (buf, d) = (.ok x, (buf', d1)) ∧ x.1 ≤ buf'.length ∧
        nbBlock (Device.udpSendTo B fuel x.2 (answer x.2 (buf'.take x.1))) fuel (u, d1) = (.ok (), (u', d')) := by
  unfold serve
  constructor
  · intro h
    obtain ⟨s, w, h0, h⟩ := M.bind_eq_ok.mp h
    cases h0
    obtain ⟨y, ⟨b1, u1, d1⟩, h1, h⟩ := M.bind_eq_ok.mp h
    obtain ⟨s, w, h0, h⟩ := M.bind_eq_ok.mp h
    cases h0
    obtain ⟨req, w, h2, h⟩ := M.bind_eq_ok.mp h
    obtain ⟨_, ⟨b3, u3, d3⟩, h3, h⟩ := M.bind_eq_ok.mp h
    cases h
    unfold M.sliceTo at h2
    split at h2
    rotate_left
    · cases h2
    rename_i hle
    cases h2
    obtain ⟨h4, h5⟩ := M.onSnd_eq_ok.mp h3
    dsimp only at h4 h5
    subst h5
    clear h3
    unfold M.zoom at h1
    dsimp only at h1
    generalize hr : nbBlock (Device.udpReceive B fuel u) fuel (buf, d) = r at h1
    obtain ⟨r, br, dr⟩ := r
    cases h1
    exact ⟨_, rfl, hle, h4⟩
  · rintro ⟨d1, h1, hle, h2⟩
    refine M.bind_eq_ok.mpr ⟨(buf, u, d), (buf, u, d), rfl, M.bind_eq_ok.mpr ⟨x, (buf', u, d1), ?_, M.bind_eq_ok.mpr ⟨(buf', u, d1),
      (buf', u, d1), rfl, M.bind_eq_ok.mpr ⟨buf'.take x.1, (buf', u, d1), ?_, M.bind_eq_ok.mpr ⟨(), (buf', u', d'),
      M.onSnd_eq_ok.mpr ⟨h2, rfl⟩, rfl⟩⟩⟩⟩⟩
    · unfold M.zoom
      dsimp only
      rw [h1]
    · unfold M.sliceTo
      rw [if_pos hle]
      rfl

end W5500
