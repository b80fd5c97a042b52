import Verif.Proofs.Picky
import Verif.Proofs.RelateClient
import Verif.Proofs.Veil
/-! # Calls on a chip that ignores commands -/

namespace W5500
open Spec
variable {W W' E H ε α : Type} {n : Nat} {sched : Nat → List (Nat × Act)} {faults : Nat → Option (E × Nat)}

/-- The frames of a call. -/
theorem moves_sockCall {B : Bus W E} (c : SockCall) (fuel m : Nat) (d : Device W H) :
    Reach B (SockFrames (sockOf m) sockRegs) d.bus (c.after B fuel m d).bus := by
  have sub : ∀ {w w' : W}, Reach B (SockFrames (sockOf m) udpRegs) w w' → Reach B (SockFrames (sockOf m) sockRegs) w w' :=
    fun h => h.mono fun _ _ _ h => h.imp id fun h => ⟨h.1, udpRegs_sub _ h.2⟩
  cases c with
  | tcpConnect remote => exact (moves_deviceTcpConnect fuel ⟨sockOf m⟩ remote).run d
  | tcpSend data => exact (moves_deviceTcpSend fuel ⟨sockOf m⟩ data).run d
  | tcpReceive buf => exact (moves_deviceTcpReceive fuel ⟨sockOf m⟩).run (buf, d)
  | tcpClose => exact (moves_deviceTcpClose ⟨sockOf m⟩).run d
  | udpConnect dest port remote => exact moves_udpConnect remote ⟨sockOf m, dest, port⟩ d
  | udpBind dest port q => exact sub (moves_udpBind q ⟨sockOf m, dest, port⟩ d)
  | udpSend dest port data => exact sub ((moves_deviceUdpSend fuel ⟨sockOf m, dest, port⟩ data).run d)
  | udpSendTo dest port remote data => exact moves_udpSendTo fuel remote data ⟨sockOf m, dest, port⟩ d
  | udpReceive dest port buf => exact sub ((moves_deviceUdpReceive fuel ⟨sockOf m, dest, port⟩).run (buf, d))
  | udpClose dest port => exact sub ((moves_deviceUdpClose ⟨sockOf m, dest, port⟩).run d)

/-- Calls on related devices. -/
theorem sockCall_like {B : Bus W E} {B' : Bus W' E} {R : W → W' → Prop}
    (h : Respects (fun _ => True) (fun _ => True) Eq B B' R) (c : SockCall) (fuel m : Nat) {d : Device W H} {d' : Device W' H}
    (r : DevLike R d d') : DevLike R (c.after B fuel m d) (c.after B' fuel m d') := by
  cases c with
  | tcpConnect remote => exact ((rel_devTcpConnect h (t := ⟨sockOf m⟩) trivial fuel remote).run d d' r).2
  | tcpSend data => exact ((Rel.onBus (H := H) (rel_tcpSend h W5500.Cut.eq (t := ⟨sockOf m⟩) trivial trivial fuel (rfl : data = data))).run d d' r).2
  | tcpReceive buf =>
    exact ((Rel.onBufBus (H := H) (rel_tcpReceive h (t := ⟨sockOf m⟩) trivial trivial fuel)).run (buf, d) (buf, d') ⟨rfl, r⟩).2.2
  | tcpClose => exact ((rel_devTcpClose h (t := ⟨sockOf m⟩) trivial).run d d' r).2
  | udpConnect dest port remote =>
    exact ((rel_devUdpConnect h (s := sockOf m) trivial remote).run (⟨sockOf m, dest, port⟩, d) (⟨sockOf m, dest, port⟩, d') ⟨rfl, rfl, r⟩).2.2.2
  | udpBind dest port q =>
    exact ((Rel.onSockBus (H := H) (rel_udpBindBus h (s := sockOf m) trivial q)).run (⟨sockOf m, dest, port⟩, d)
      (⟨sockOf m, dest, port⟩, d') ⟨rfl, rfl, r⟩).2.2.2
  | udpSend dest port data =>
    exact ((Rel.onBus (H := H) (rel_udpSend h W5500.Cut.eq (u := ⟨sockOf m, dest, port⟩) trivial trivial fuel (rfl : data = data))).run d d' r).2
  | udpSendTo dest port remote data =>
    exact ((rel_devUdpSendTo h W5500.Cut.eq (s := sockOf m) trivial trivial fuel remote (rfl : data = data)).run (⟨sockOf m, dest, port⟩, d)
      (⟨sockOf m, dest, port⟩, d') ⟨rfl, rfl, r⟩).2.2.2
  | udpReceive dest port buf =>
    exact ((rel_devUdpReceive h (u := ⟨sockOf m, dest, port⟩) trivial trivial fuel).run (buf, d) (buf, d') ⟨rfl, r⟩).2.2
  | udpClose dest port => exact ((rel_devUdpClose h (u := ⟨sockOf m, dest, port⟩) trivial).run d d' r).2

/-- Recording changes nothing. -/
theorem traced_respects (B : Bus W E) : Respects (fun _ => True) (fun _ => True) Eq (traced B) B (fun t w => t.w = w) where
  read := by rintro b a d t _ - rfl; exact ⟨rfl, rfl, rfl⟩
  write := by rintro b a d t _ - rfl; exact ⟨rfl, rfl⟩
  store := by rintro b a d _ t _ - rfl rfl; exact ⟨rfl, rfl⟩

theorem otherBlock : ∀ m, m < 8 → ∀ n, n < 8 → m ≠ n → (sockOf m).register.setWidth 5 ≠ BitVec.ofNat 5 (4 * n + 1) := by decide
theorem otherTx : ∀ m, m < 8 → ∀ n, n < 8 → (sockOf m).txBuffer.setWidth 5 ≠ BitVec.ofNat 5 (4 * n + 1) := by decide

theorem picky_writes_other {b : BitVec 5} (hb : b ≠ BitVec.ofNat 5 (4 * n + 1)) : ∀ (l : List U8) (a : U16) (s : Picky),
    ((Picky.dev n sched faults).writeBytes s b a l).blame = s.blame
  | [], _, _ => rfl
  | x :: l, a, s => by
    refine (picky_writes_other hb l (a + 1) _).trans ?_
    show (if _ then _ else _ : Picky).blame = _
    rw [if_neg fun h => hb h.1]

/-- Calls on other sockets. -/
theorem reach_other {m : Nat} (hm : m < 8) (hn : n < 8) (hne : m ≠ n) {s s' : Picky}
    (h : Reach (Picky.dev n sched faults).bus (SockFrames (sockOf m) sockRegs) s s') : s'.blame = s.blame := by
  refine h.induct (I := fun t => t.blame = s.blame) (fun w b a d hi => ?_) (fun w b a d hF hi => ?_) rfl
  · unfold ByteDev.bus
    dsimp only
    split
    · rename_i heq
      cases (Prod.mk.inj heq).2
      exact ((picky_reads_blame _ _ _ _).1).trans hi
    · rename_i heq
      cases (Prod.mk.inj heq).2
      exact ((picky_reads_blame _ _ _ _).1).trans hi
  · have hb : b.setWidth 5 ≠ BitVec.ofNat 5 (4 * n + 1) := by
      rcases hF with rfl | ⟨rfl, _⟩
      · exact otherTx m hm n hn
      · exact otherBlock m hm n hn hne
    unfold ByteDev.bus
    dsimp only
    split
    · rename_i heq
      cases (Prod.mk.inj heq).2
      exact (picky_writes_other hb _ _ _).trans hi
    · rename_i heq
      cases (Prod.mk.inj heq).2
      exact (picky_writes_other hb _ _ _).trans hi

end W5500
