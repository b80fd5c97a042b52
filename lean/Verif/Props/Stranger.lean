import Verif.Props.Success
import Verif.Props.EndToEnd
/-! # C102: datagrams from strangers

A UDP socket on which `connect` was called has one peer. In the usual socket API such a socket receives from this peer only. -/

namespace W5500.Props
open W5500 W5500.Spec Sock
variable {W E H : Type} {sched : Nat → List (Nat × Act)} {faults : Nat → Option (E × Nat)}
  {sched0 : Nat → List (Nat × Act)} {faults0 : Nat → Option (E × Nat)}

/-- C102, why it is false: `receive` does not look at the destination of the socket at all, on any bus. -/
theorem C102_ignored (B : Bus W E) (fuel : Nat) (u : UdpSocket) (x : Option SockAddr4) (buf : List U8) (d : Device W H) :
    Device.udpReceive B fuel { u with destination := x } (buf, d) = Device.udpReceive B fuel u (buf, d) := rfl

/-- C102 is false, in every state: if the socket is connected to `a`, no transfer fails, and the oldest datagram in the queue is
from somebody else and fits into the buffer, then `receive` returns `Ok` with this datagram; and all the others that were in the
queue, perhaps from the peer, are gone (what is queued afterwards came later). -/
theorem C102_refuted {n : Nat} (hn : n < 8) (hf : ∀ i, faults i = none) (hs : StatusIn sched n (· = 0x22))
    {u0 u : UdpSocket} {c0 : Chip} {log : List UdpSent} {got : List UdpGot} {d : Device Chip H}
    (ho : UdpOpened sched0 faults0 n u0 c0) (hr : UdpRun sched faults n u0 c0 log got u d.bus)
    (hsr : (d.bus.socks n).sr = 0x22) (a : SockAddr4) (_ha : u.destination = some a) (dg : Dgram) (rest : List Dgram)
    (hq : (d.bus.socks n).Queued (dg :: rest)) (hne : wire a ≠ (dg.ip, dg.port))
    (hir : (d.bus.socks n).ir &&& 4 ≠ 0) (buf : List U8) (hb : buf ≠ []) (hlen : dg.payload.length ≤ buf.length) :
    ∃ (k : Nat) (b : SockAddr4) (buf' : List U8) (d' : Device Chip H),
      Succeeds (fun fuel => Device.udpReceive (Chip.dev sched faults).bus fuel u) (buf, d) (k, .v4 b) (buf', d') ∧
      b ≠ a ∧ wire b = (dg.ip, dg.port) ∧ buf'.take dg.payload.length = dg.payload ∧
      ∃ more, (d'.bus.socks n).arrived = (d.bus.socks n).arrived ++ encAll more ++ (d'.bus.socks n).queue := by
  obtain ⟨k, b, buf', d', h1, h2, h3, _, _⟩ := C76_udp_receive hn hf hs ho hr hsr dg rest hq hir buf hb hlen
  refine ⟨k, b, buf', d', h1, fun e => hne (e ▸ h2), h2, h3, ?_⟩
  obtain ⟨N, hN⟩ := h1.2
  exact C42_all_removed hn ho hr N buf buf' (k, .v4 b) (hN N (Nat.le_refl _))

/-- The datagrams from `a`. -/
def fromPeer (a : SockAddr4) (ds : List Dgram) : List Dgram := ds.filter fun d => decide ((d.ip, d.port) = wire a)

/-- The results that name `a` as their origin. -/
def namesPeer (a : SockAddr4) (got : List UdpGot) : List UdpGot := got.filter fun g => decide (g.origin = .v4 a)

theorem among_peer {a : SockAddr4} {got : List UdpGot} {ds : List Dgram} (h : UdpGot.Among got ds) :
    UdpGot.Among (namesPeer a got) (fromPeer a ds) := by
  induction h with
  | nil => exact .nil
  | lost d h ih =>
    unfold fromPeer at *
    rw [List.filter_append]
    by_cases e : (d.ip, d.port) = wire a
    · rw [show ([d].filter fun d => decide ((d.ip, d.port) = wire a)) = [d] by simp [e]]
      exact .lost d ih
    · rw [show ([d].filter fun d => decide ((d.ip, d.port) = wire a)) = [] by simp [e], List.append_nil]
      exact ih
  | @got got ds g d h hb ih =>
    unfold fromPeer namesPeer at *
    rw [List.filter_append, List.filter_append]
    obtain ⟨b, hb1, hb2⟩ := hb.origin
    by_cases e : (d.ip, d.port) = wire a
    · have hba : b = a := wire_inj (hb2.trans e)
      rw [show ([d].filter fun d => decide ((d.ip, d.port) = wire a)) = [d] by simp [e],
        show ([g].filter fun g => decide (g.origin = .v4 a)) = [g] by simp [hb1, hba]]
      exact .got ih hb
    · have hba : b ≠ a := fun x => e (by rw [← hb2, x])
      rw [show ([d].filter fun d => decide ((d.ip, d.port) = wire a)) = [] by simp [e],
        show ([g].filter fun g => decide (g.origin = .v4 a)) = [] by simp [hb1, hba], List.append_nil, List.append_nil]
      exact ih

/-- C102, partial: a program that itself leaves out the results whose origin is not its peer is left with datagrams that its peer
sent, each once and in order. Missing: that `receive` leaves them out; and none of the peer's datagrams may be lost. -/
theorem C102_partial {n : Nat} (hn : n < 8) {u0 u : UdpSocket} {c0 c : Chip} {log : List UdpSent} {got : List UdpGot}
    (ho : UdpOpened sched0 faults0 n u0 c0) (hr : UdpRun sched faults n u0 c0 log got u c) (a : SockAddr4) :
    ∃ A ds qs, (c0.socks n).arrived = A ++ (c0.socks n).queue ∧ (c.socks n).arrived = A ++ encAll (ds ++ qs) ∧
      (c.socks n).queue = encAll qs ∧ (∀ d ∈ ds ++ qs, d.Wf) ∧
      UdpGot.Among (got.filter fun g => decide (g.origin = .v4 a)) (ds.filter fun d => decide ((d.ip, d.port) = wire a)) := by
  obtain ⟨A, ds, qs, h1, h2, h3, h4, h5⟩ := C42_partial hn ho hr
  exact ⟨A, ds, qs, h1, h2, h3, h4, among_peer h5⟩

/-- After `connect` (13 transfers) a datagram of a stranger arrives, and then one of the peer. -/
def strangerSched (k : Nat) : List (Nat × Act) := if k = 13 then [(0, .datagram dgramB), (0, .datagram dgramA)] else []
def strangerDone : UdpSocket × Device Chip Unit :=
  (Device.udpConnect (Chip.dev strangerSched noFaults).bus (.v4 addrA) (demoUdp, demoDevice)).2
def strangerHere : Device Chip Unit := ⟨later strangerSched strangerDone.2.bus, DeviceState.new ()⟩

theorem stranger_opened : UdpOpened strangerSched noFaults 0 strangerDone.1 strangerDone.2.bus :=
  .connect (H := Unit) (u := demoUdp) (d := demoDevice) (.v4 addrA) (.new _ powerUp_sizes) (run_eq (by decide +kernel))

theorem later_start (u : UdpSocket) (c : Chip) : UdpRun sched noFaults 0 u c [] [] u (later sched c) := later_udp .start

theorem stranger_run : UdpRun strangerSched noFaults 0 strangerDone.1 strangerDone.2.bus [] [] strangerDone.1 strangerHere.bus :=
  later_start (sched := strangerSched) strangerDone.1 strangerDone.2.bus

/-- C102: the hypotheses of the refutation are met. -/
example : ∃ k b buf' d', Succeeds (fun fuel => Device.udpReceive (Chip.dev strangerSched noFaults).bus fuel strangerDone.1)
    ([0, 0, 0, 0], strangerHere) (k, .v4 b) (buf', d') ∧ b ≠ addrA := by
  obtain ⟨k, b, buf', d', h1, h2, _⟩ := C102_refuted (n := 0) (faults := noFaults) (by decide) (fun _ => rfl)
    (sched := strangerSched) (fun k x h => by unfold strangerSched at h; split at h <;> simp at h)
    stranger_opened stranger_run (by decide +kernel) addrA (by decide +kernel) dgramB [dgramA]
    ⟨by simp [Dgram.Wf, dgramA, dgramB], by decide +kernel⟩ (by decide) (by decide +kernel) [0, 0, 0, 0] nofun (by decide)
  exact ⟨k, b, buf', d', h1, h2⟩

/-- C102: connected to 10.0.0.1:53, the socket hands out what 10.0.0.2:54 sent (and the length of the buffer, see C40); the peer's
datagram is gone. -/
example :
    let r := Device.udpReceive (Chip.dev strangerSched noFaults).bus 9 strangerDone.1 ([0, 0, 0, 0], strangerHere)
    strangerDone.1.destination = some addrA ∧ r.1 = .ok (4, .v4 ⟨⟨10, 0, 0, 2⟩, 54⟩) ∧ r.2.1.take 1 = [9] ∧
      (strangerHere.bus.socks 0).queue = dgramB.encode ++ dgramA.encode ∧ (r.2.2.bus.socks 0).queue = [] := by
  decide +kernel

/-- C102, partial: with the peer's datagram first, the result names the peer, and is kept by the filter. -/
example :
    let s := arriveSched [dgramA]
    let r := Device.udpReceive (Chip.dev s noFaults).bus 9 (arriveBound [dgramA]).1 ([0, 0, 0], (arriveBound [dgramA]).2)
    r.1 = .ok (3, .v4 addrA) ∧ (dgramA.ip, dgramA.port) = wire addrA := by
  decide +kernel

end W5500.Props
