import Verif.Spec.Request
import Verif.Proofs.Exchange
import Verif.Proofs.ReadAll
/-! # Responses that come in one piece -/

namespace W5500.Spec
open W5500 socketn Sock
variable {E H : Type} {sched : Nat → List (Nat × Act)} {faults : Nat → Option (E × Nat)}

theorem movesOnly_tcpSend {W : Type} {B : Bus W E} (t : TcpSocket) (fuel : Nat) (data : List U8) :
    MovesOn B (SendFrames t.socket) id (t.socketSend B fuel data) := by
  have h1 := moves_waitSendOk (B := B) (SendFrames t.socket) t.socket fuel
  have h2 := moves_isConnected (B := B) (SendFrames t.socket) t
  unfold TcpSocket.socketSend Socket.getTxFreeSize Socket.getTxWritePointer Socket.setTxWritePointer Socket.command
    Socket.resetInterrupt
  moves

theorem movesOnly_sendWhole {W : Type} {B : Bus W E} (t : TcpSocket) (fuel rounds : Nat) (data : List U8) :
    MovesOn B (SendFrames t.socket) Device.bus (sendWhole (Device.tcpSend B fuel t) rounds data : M (Device W H) _ _) := by
  induction rounds generalizing data with
  | zero => exact .outOfFuel
  | succ r ih =>
    unfold sendWhole
    split
    · exact .pure _
    · exact .bind (.onBus (movesOnly_tcpSend t fuel data)) fun _ => ih _

/-- More fuel does not change the outcome. -/
theorem le_sendWhole {W : Type} {B : Bus W E} (t : TcpSocket) {k l r s : Nat} (h : k ≤ l) (hr : r ≤ s) (data : List U8) :
    Le (sendWhole (Device.tcpSend B k t) r data : M (Device W H) _ _) (sendWhole (Device.tcpSend B l t) s data) := by
  induction r generalizing s data with
  | zero => exact .outOfFuel _
  | succ r ih =>
    obtain ⟨s, rfl⟩ : ∃ j, s = j + 1 := ⟨s - 1, by omega⟩
    unfold sendWhole
    split
    · exact .refl _
    · exact .bind (le_tcpSend t data h) fun x => ih (by omega) _

theorem le_receiveWhole {W : Type} {B : Bus W E} (t : TcpSocket) {k l r s : Nat} (h : k ≤ l) (hr : r ≤ s) (want : Nat) :
    Le (receiveWhole (Device.tcpReceive B k t) r want : M (Device W H) _ _) (receiveWhole (Device.tcpReceive B l t) s want) := by
  induction r generalizing s want with
  | zero => exact .outOfFuel _
  | succ r ih =>
    obtain ⟨s, rfl⟩ : ∃ j, s = j + 1 := ⟨s - 1, by omega⟩
    unfold receiveWhole
    split
    · exact .refl _
    · exact .bind (.withLocal _ (le_tcpReceive t h)) fun x => .bind (ih (by omega) _) fun _ => .refl _

/-- A round that returned `Ok` with some fuel succeeds. -/
theorem request_succeeds {W : Type} {B : Bus W E} {t : TcpSocket} {data : List U8} {want fuel : Nat} {s s' : Device W H}
    {x : List U8} (h : request B t data want fuel s = (.ok x, s')) : Succeeds (request B t data want) s x s' := by
  refine ⟨nofun, fuel, fun f hf => ?_⟩
  have : Le (request B t data want fuel : M (Device W H) _ _) (request B t data want f) :=
    .bind (le_sendWhole t hf hf data) fun _ => le_receiveWhole t hf hf want
  rw [this.run s (by rw [h]; nofun), h]

/-- Either nothing waits, or at least `want` bytes do, and that is announced. -/
structure AllOrNone (z want : Nat) (s : Sock) : Prop where
  tcp : s.proto = 1
  fits : RxFits s
  size : s.rxSize = z
  some : s.Announced → want ≤ s.rsr.toNat
  none : ¬ s.Announced → s.rsr.toNat = 0

theorem SameRx.whole {z want : Nat} {s s' : Sock} (e : SameRx s s') (h : AllOrNone z want s) : AllOrNone z want s' :=
  ⟨e.proto.trans h.tcp, ⟨by rw [e.size]; exact h.fits.size, by rw [e.rsr, e.size]; exact h.fits.fits⟩, e.size.trans h.size,
    fun ha => by rw [e.rsr]; exact h.some (e.announced.mpr ha), fun ha => by rw [e.rsr]; exact h.none fun h => ha (e.announced.mp h)⟩

theorem whole_act {n k z want : Nat} (hb : OnlyForBytes sched n) {s : Sock} {a : Act} (ha : (n, a) ∈ sched k)
    (hl : s.Announced ∨ ∀ bs, a = .arrive bs → want ≤ bs.length) (h : AllOrNone z want s) : AllOrNone z want (s.act a) := by
  obtain ⟨b1, b2⟩ := hb k a ha
  have ht : (s.act a).proto = 1 := by rw [act_proto]; exact h.tcp
  have hf := act_rxFits h.fits a
  have hz : (s.act a).rxSize = z := (act_rxSize s a).trans h.size
  have same : (s.act a).ir.getLsbD 2 = s.ir.getLsbD 2 → (s.act a).rsr = s.rsr → AllOrNone z want (s.act a) := by
    intro e1 e2
    have e3 : (s.act a).Announced ↔ s.Announced := by unfold Announced; rw [e1]
    exact ⟨ht, hf.1, hz, fun h' => by rw [e2]; exact h.some (e3.mp h'), fun h' => by rw [e2]; exact h.none fun g => h' (e3.mpr g)⟩
  have other : (∀ bs, a ≠ .arrive bs) → (∀ bits, a ≠ .raise bits) → AllOrNone z want (s.act a) := fun e1 e2 =>
    let ⟨e1, e2, _⟩ := act_rx a h.tcp e1 e2
    same (by rw [e1]) e2
  cases a with
  | arrive bs =>
    rcases act_arrive h.fits h.tcp bs with ⟨_, h1, h2⟩ | ⟨_, h1⟩
    · refine ⟨ht, hf.1, hz, fun _ => ?_, fun h => absurd h1 h⟩
      rcases hl with hl | hl
      · have := h.some hl; omega
      · have := hl bs rfl; omega
    · rw [h1]; exact h
  | raise bits => exact same (raise_bit2 (b2 bits rfl)) rfl
  | _ => exact other (fun _ => nofun) (fun _ => nofun)

/-- What holds while the response is awaited: after time `l` it has come. -/
def Awaits (n t l z want : Nat) (c : Chip) : Prop :=
  t ≤ c.clock ∧ AllOrNone z want (c.socks n) ∧ (l < c.clock → (c.socks n).Announced)

theorem awaits_ticks {n t l z want : Nat} (hb : OnlyForBytes sched n) {bs : List U8} (ha : (n, .arrive bs) ∈ sched l)
    (hz : bs.length ≤ z) (hl : ∀ k (bs : List U8), t ≤ k → k ≤ l → (n, .arrive bs) ∈ sched k → want ≤ bs.length) :
    Chip.Ticks sched (Awaits n t l z want) := by
  have he : ∀ s, AllOrNone z want s → (s.act (.arrive bs)).Announced := by
    intro s hs
    rcases act_arrive hs.fits hs.tcp bs with ⟨_, h1, _⟩ | ⟨h0, h1⟩
    · exact h1
    · rw [h1]
      refine Decidable.byContradiction fun h => ?_
      have := hs.none h
      have := hs.size
      omega
  refine ⟨fun c hc => ?_, fun c k hc => hc⟩
  obtain ⟨h0, h1, h2⟩ := hc
  by_cases hk : c.clock ≤ l
  · obtain ⟨g1, g2⟩ := Chip.foldl_event (P := AllOrNone z want) (D := Announced) (a := .arrive bs) (sched c.clock)
      (fun s a ha' hs => whole_act hb ha' (.inr fun bs e => hl _ bs h0 hk (e ▸ ha')) hs) (fun s a _ _ h => announced_act a h) he c h1
    refine ⟨by rw [Chip.tick_clock]; omega, g1, fun hlt => g2 (.inr ?_)⟩
    rw [Chip.tick_clock] at hlt
    rw [show c.clock = l by omega]
    exact ha
  · obtain ⟨g1, g2⟩ := Chip.foldl_event (P := fun s => AllOrNone z want s ∧ s.Announced) (D := fun _ => True) (a := .arrive bs)
      (sched c.clock) (fun s a ha' hs => ⟨whole_act hb ha' (.inl hs.2) hs.1, announced_act a hs.2⟩) (fun s a _ _ h => trivial)
      (fun _ _ => trivial) c ⟨h1, h2 (by omega)⟩
    exact ⟨by rw [Chip.tick_clock]; omega, g1.1, fun _ => g1.2⟩

/-- Sending does not disturb that. -/
theorem send_awaits {n t l z want : Nat} (hn : n < 8) (hf : ∀ i, faults i = none)
    (hT : Chip.Ticks sched (Awaits n t l z want)) {c c' : Chip}
    (h : Reach (Chip.dev sched faults).bus (SendFrames (sockOf n)) c c') (hc : Awaits n t l z want c) : Awaits n t l z want c' := by
  refine reach_ticks hf hT (fun b a d hfr i hi c hc => ?_) h hc
  have e := sendFrames_sameRx hn hfr i hi c
  exact ⟨by rw [Chip.poke_clock]; exact hc.1, e.whole hc.2.1, fun hk => e.announced.mp (hc.2.2 (by rwa [Chip.poke_clock] at hk))⟩

/-- A receive brings the whole response, or only passes time. -/
theorem whole_recv {n fuel k t l z want : Nat} (hn : n < 8) (hT : Chip.Ticks sched (Awaits n t l z want))
    {b b' : List U8} (hb : b.length = want) {c c' : Chip} (hc : Awaits n t l z want c)
    (h : TcpSocket.socketReceive (Chip.dev sched faults).bus fuel ⟨sockOf n⟩ (b, c) = (.ok k, (b', c'))) :
    k = want ∨ (k = 0 ∧ Awaits n t l z want c' ∧ c.clock + 2 ≤ c'.clock) := by
  obtain ⟨x, c1, y, c2, h1, h2, h3⟩ := recv_inv h
  have i1 := (hT.read1 (faults := faults) _ _).ok hc h1
  have i2 := (hT.read1 (faults := faults) _ _).ok i1 h2
  have k1 := (Chip.read1_clock (sched := sched) (faults := faults) _ _ c.clock).ok (s := c) rfl h1
  have k2 := (Chip.read1_clock (sched := sched) (faults := faults) _ _ c1.clock).ok (s := c1) rfl h2
  rcases h3 with ⟨_, hk, rfl⟩ | ⟨hy, v, c3, h3, h4⟩
  · exact .inr ⟨hk, i2, by omega⟩
  · left
    have e : y = (c2.socks n).ir := (Chip.read1_value (sched := sched) (faults := faults) hn 0x02).ok (s := c1) trivial h2
    have hH := i2.2.1
    have hP : StableS (fun s => RxFits s ∧ want ≤ s.rsr.toNat) :=
      fun s a h => ⟨(act_rxFits h.1 a).1, Nat.le_trans h.2 (act_rxFits h.1 a).2⟩
    obtain ⟨_, s0, h5, _, rfl⟩ := (hs_receiveSize (sched := sched) (faults := faults) hn hP (fun _ h => h.1) fuel).ok
      (s := c2) ⟨hH.fits, hH.some (by unfold Announced; rw [← e]; exact hy)⟩ h3
    have := h5.2
    omega

end W5500.Spec
