import Verif.Proofs.Wary
import Verif.Props.Rough
/-! # C132: making a failed `send_to` again

A `send_to` that failed may have left half of its address in the chip, while the object remembers the address of before. Sending to the address that is
remembered then goes astray (C99_udp_refuted, C132_exact). But the same address can be tried as often as one likes, and so can others. -/

namespace W5500.Props
open W5500.Spec Sock
variable {E H : Type} {sched : Nat → List (Nat × Act)} {faults : Nat → Option (E × Nat)}
  {sched0 : Nat → List (Nat × Act)} {faults0 : Nat → Option (E × Nat)}

/-- C132, what leaves and what is received: since the socket was opened the chip has sent the pieces of the data of the sends that returned `Ok` to their
destinations, in order, and no other packet; the calls of `receive` that returned `Ok` brought datagrams in order of arrival, every one a different
datagram. Calls of `send_to` that failed early sent nothing, and spoiled no address. -/
theorem C132 {n : Nat} (hn : n < 8) {u0 u : UdpSocket} {c0 c : Chip} {p : Option SockAddr4} {sent : List (SockAddr4 × List U8)} {got : List UdpGot}
    (ho : UdpOpened sched0 faults0 n u0 c0) (hr : UdpWary sched faults n u0 c0 p sent got u c) :
    (∃ ps, UdpSent.All (c0.socks n).txSize (sent.map fun x => ⟨x.1, x.2, true⟩) ps ∧ (c.socks n).packets = (c0.socks n).packets ++ ps) ∧
    ∃ A ds qs, (c0.socks n).arrived = A ++ (c0.socks n).queue ∧ (c.socks n).arrived = A ++ encAll (ds ++ qs) ∧
      (c.socks n).queue = encAll qs ∧ (∀ d ∈ ds ++ qs, d.Wf) ∧ UdpGot.Among got ds := by
  obtain ⟨A, h0⟩ := opened_inv hn ho
  obtain ⟨hs0, hc0, sent0, ds0, ha0, _, hi0⟩ := h0
  cases udpSent_nil ha0
  have h0' : UdpInv n (c0.socks n).txSize (c0.socks n).packets (A ++ encAll ds0) [] [] u0 c0 :=
    ⟨hs0, hc0, [], [], .nil, ⟨.nil, nofun⟩, by simpa [encAll] using hi0⟩
  obtain ⟨_, _, ps, ds, h1, ⟨h2, h3⟩, hi⟩ := udpWary_inv hn h0' hr
  obtain ⟨qs, hw, hq⟩ := hi.queue
  rw [List.nil_append] at hw hq
  refine ⟨⟨ps, h1, hi.idle.base.out⟩, A ++ encAll ds0, ds, qs, hi0.idle.rx.core.arrived, ?_, hq, fun x hx => ?_, h2⟩
  · rw [hi.idle.rx.core.arrived, hq, encAll_append]
    simp only [List.append_assoc]
  · exact (List.mem_append.mp hx).elim (h3 x) (hw x)

theorem sendTo_inv {n : Nat} (hn : n < 8) (hf : ∀ i, faults i = none) (hs : StatusIn sched n (· = 0x22)) (he : Emitting sched n) (hl : Lossless sched n)
    {z : Nat} {K : List Packet} {A : List U8} {log : List UdpSent} {got : List UdpGot} {u : UdpSocket} {d : Device Chip H}
    (h : UdpInv n z K A log got u d.bus) (hsr : (d.bus.socks n).sr = 0x22) (hq : (d.bus.socks n).NoTimeout) (dst : SockAddr4) (data : List U8) :
    ∃ d' : Device Chip H, Succeeds (fun fuel => Device.udpSendTo (Chip.dev sched faults).bus fuel (.v4 dst) data) (u, d) ()
        ({ u with destination := some dst }, d') ∧
      (d'.bus.socks n).packets = (d.bus.socks n).packets ++
        (pieces (d.bus.socks n).txSize data).map (fun p => ⟨(wire dst).1, (wire dst).2, p, true⟩) := by
  obtain ⟨hsk, hc, sent, ds, _, _, hi⟩ := h
  have hz : z ≠ 0 := by
    rw [← hi.size]
    exact Nat.ne_of_gt (Nat.lt_of_lt_of_le (by decide) (GoodSize.pos hi.idle.base.size))
  have hst : Steady (d.bus.socks n).packets (d.bus.socks n) :=
    ⟨hsr, hi.idle.base.mode, noTimeout_iff.mp hq, [], (List.append_nil _).symm, nofun⟩
  have key := fun fuel => steady_sendTo (faults := faults) hn hf hs hl (d.bus.socks n).packets (K ++ sent) (A ++ encAll ds) _ hz [] u hsk dst fuel data
  have hfin : Finishes (fun fuel => Device.udpSendTo (Chip.dev sched faults).bus fuel (.v4 dst) data) (u, d) := by
    obtain ⟨k, hk⟩ := (sendTo_total (sched := sched) (faults := faults) hn he _ _ _ _ u hsk dst data).run (u, d.bus) ⟨rfl, hi, hc⟩
    exact ⟨_, Le.endsWith (fun _ _ h => le_udpSendTo _ _ h) hk⟩
  obtain ⟨_, ⟨u', d'⟩, h1, k, h2⟩ := succeed hfin
    (fun k => (np_deviceUdpSendTo (calm_bus _) k _ data).run (u, d))
    fun k e s' h => (key k).err (s := (u, d.bus)) (s' := (s'.1, s'.2.bus)) ⟨rfl, ⟨hst, hi⟩, hc⟩ (onSockBus_run h)
  have h3 := (key k).run (u, d.bus) ⟨rfl, ⟨hst, hi⟩, hc⟩
  rw [onSockBus_run h2] at h3
  obtain ⟨a1, _, a3, ps', a4, a5⟩ : Steady _ (d'.bus.socks n) := h3
  have := (udp_sendTo (sched := sched) (faults := faults) hn u hsk k data dst (stable_udpIdle _ _ _ [])
    (fun s b x hb h1 h2 h => h.setMem b x (dest_indifferent hb h1 h2)) (fun s h => SentSome.none h)
    (udp_sendIdle hn { u with destination := some dst } hsk (wire dst) _ _ _ [] k data)).run (u, d.bus) ⟨rfl, hi, hc⟩
  rw [onSockBus_run h2] at this
  obtain ⟨rfl, ⟨ps, b3, b4⟩, _⟩ := this
  have b2 : (d'.bus.socks n).packets = (d.bus.socks n).packets ++ ps := by rw [b4.idle.base.out, hi.idle.base.out]
  refine ⟨d', h1, ?_⟩
  obtain rfl : ps' = ps := List.append_cancel_left (a4.symm.trans b2)
  rw [b2, hi.size, all_delivered b3 a5]

/-- C132, the next attempt: after such a history, let from then on no transfer fail, the socket stay open, and packets leave and not be dropped. Then a
`send_to` for the address that was tried last (or any that is safe) returns `Ok`, and all of the data has left for this address. -/
theorem C132_again {n : Nat} (hn : n < 8) {u0 u : UdpSocket} {c0 : Chip} {p : Option SockAddr4} {sent : List (SockAddr4 × List U8)} {got : List UdpGot}
    {d : Device Chip H} (ho : UdpOpened sched0 faults0 n u0 c0) (hr : UdpWary sched faults n u0 c0 p sent got u d.bus) (dst : SockAddr4)
    (hp : Safe p u dst) (data : List U8)
    (hf : NoFaultsFrom faults d.bus) (hs : StatusFrom sched n (· = 0x22) d.bus) (hl : LosslessFrom sched n d.bus) (he : Emitting sched n)
    (hsr : (d.bus.socks n).sr = 0x22) (hq : (d.bus.socks n).NoTimeout) :
    ∃ d' : Device Chip H, Succeeds (fun fuel => Device.udpSendTo (Chip.dev sched faults).bus fuel (.v4 dst) data) (u, d) ()
        ({ u with destination := some dst }, d') ∧
      (d'.bus.socks n).packets = (d.bus.socks n).packets ++
        (pieces (d.bus.socks n).txSize data).map (fun p => ⟨(wire dst).1, (wire dst).2, p, true⟩) := by
  obtain ⟨A, h0⟩ := opened_inv hn ho
  let q : Plan E := ⟨sched, faults⟩
  obtain ⟨d', ⟨h1, N, h2⟩, h3⟩ := sendTo_inv (sched := (q.since d.bus).sched) (faults := (q.since d.bus).faults) hn hf.since hs.since he.since hl.since
    (udpWary_inv hn h0 hr) hsr hq dst data
  refine ⟨d', succeedsWith_since q (m := fun fuel _ B => Device.udpSendTo B fuel (.v4 dst) data) (fun fuel => playWith_udpSendTo u fuel (.v4 dst) data)
    ⟨nofun, N, fun fuel hN => ?_⟩, h3⟩
  rcases hx : Device.udpSendTo (q.since d.bus).bus fuel (.v4 dst) data (u, d) with ⟨r, u', d1⟩
  obtain ⟨v, g1, g2⟩ := ghost_sendTo _ fuel hp data d hx
  have g3 := g1.symm.trans (h2 fuel hN)
  cases g3
  rcases g2 with g2 | ⟨_, _, g2⟩
  · have e : (ghost p u).port = u.port := by
      unfold ghost
      split
      · rfl
      · split <;> rfl
    rw [← g2, ghost_socket, e] at hx
    exact hx
  · exact absurd rfl g2

/-! Cases: the second transfer of a `send_to` fails, half of the address is in the chip; then the sixth of the next attempt (the receive between them finds
nothing). The third attempt is successful. -/

def wearyFaults : Nat → Option (Unit × Nat) := fun i => if i = 9 ∨ i = 17 then some ((), 0) else none
def weary1 : UdpSocket × Device Chip Unit := (Device.udpSendTo (Chip.dev emitSched wearyFaults).bus 9 (.v4 addrB) [7, 8, 9] (udpConnected noFaults)).2
theorem weary_1 : Device.udpSendTo (Chip.dev emitSched wearyFaults).bus 9 (.v4 addrB) [7, 8, 9] ((udpConnected noFaults).1, (udpConnected noFaults).2) =
    (.err (.other (.other ())), (weary1.1, weary1.2)) := by
  unfold weary1
  exact run_eta (by decide +kernel)
attribute [irreducible] weary1
def weary2 : List U8 × Device Chip Unit := (Device.udpReceive (Chip.dev emitSched wearyFaults).bus 9 weary1.1 ([0], weary1.2)).2
theorem weary_2 : Device.udpReceive (Chip.dev emitSched wearyFaults).bus 9 weary1.1 ([0], weary1.2) = (.err .wouldBlock, (weary2.1, weary2.2)) := by
  unfold weary2
  exact run_eta (by decide +kernel)
attribute [irreducible] weary2
def weary3 : UdpSocket × Device Chip Unit := (Device.udpSendTo (Chip.dev emitSched wearyFaults).bus 9 (.v4 addrB) [7, 8, 9] (weary1.1, weary2.2)).2
theorem weary_3 : Device.udpSendTo (Chip.dev emitSched wearyFaults).bus 9 (.v4 addrB) [7, 8, 9] (weary1.1, weary2.2) =
    (.err (.other (.other ())), (weary3.1, weary3.2)) := by
  unfold weary3
  exact run_eta (by decide +kernel)
attribute [irreducible] weary3

theorem weary_run : UdpWary emitSched wearyFaults 0 (udpConnected noFaults).1 (udpConnected noFaults).2.bus (some addrB) [] [] weary3.1 weary3.2.bus :=
  .failedSendTo 9 addrB [7, 8, 9] _ (.failedReceive 9 [0] _ _ (.failedSendTo 9 addrB [7, 8, 9] _ .start (.inl rfl) weary_1 nofun (by decide +kernel)) weary_2
    nofun (by decide +kernel)) (.inr (.inl rfl)) weary_3 nofun (by decide +kernel)

example := C132 (n := 0) (by decide) demo_opened weary_run
example : ∃ d' : Device Chip Unit, Succeeds (fun fuel => Device.udpSendTo (Chip.dev emitSched wearyFaults).bus fuel (.v4 addrB) [7, 8, 9]) weary3 ()
    ({ weary3.1 with destination := some addrB }, d') ∧ (d'.bus.socks 0).packets = [⟨[10, 9, 9, 9], [0, 99], [7, 8, 9], true⟩] := by
  obtain ⟨d', h1, h2⟩ := C132_again (n := 0) (by decide) demo_opened weary_run addrB (.inr (.inl rfl)) [7, 8, 9]
    (fun i hi => if_neg (by have : weary3.2.bus.txn = 18 := by decide +kernel
                            omega)) (fun k x _ h => emit_status (p := (· = 0x22)) k x h)
    (fun k _ => emit_lossless k) emit_emitting (by decide +kernel) (by unfold Sock.NoTimeout; decide +kernel)
  exact ⟨d', h1, h2.trans (by decide +kernel)⟩
-- a third address is safe as well
example : Safe (some addrB) weary1.1 ⟨⟨1, 2, 3, 4⟩, 5⟩ ∧ ¬ Safe (some addrB) weary1.1 addrA := by unfold Safe; decide +kernel

/-- C132, the conditions are needed. After a `send_to` that failed in its second transfer, `send` returns `Ok`, and so does `send_to` for the address that is
remembered, but the packet goes to the IP address of one and the port of the other. After a `send_to` that failed in its ninth transfer (in its seventh, if
the address is the one that is remembered), the data of the failed call leaves with that of the next one. -/
theorem C132_exact :
    (let B := (Chip.dev emitSched (faultAt 9)).bus
     let r1 := Device.udpSendTo B 9 (.v4 addrB) [7, 8, 9] (udpConnected noFaults)
     let r2 := Device.udpSend B 9 r1.2.1 [5] r1.2.2
     let r3 := Device.udpSendTo B 9 (.v4 addrA) [5] r1.2
     r1.1 = .err (.other (.other ())) ∧ r1.2.2.bus.txn = (udpConnected noFaults).2.bus.txn + 2 ∧ r2.1 = .ok () ∧ r3.1 = .ok () ∧
     (r2.2.bus.socks 0).packets = [⟨[10, 9, 9, 9], [0, 53], [5], true⟩] ∧ (r3.2.2.bus.socks 0).packets = [⟨[10, 9, 9, 9], [0, 53], [5], true⟩]) ∧
    (let B := (Chip.dev emitSched (faultIn 16 5)).bus
     let r1 := Device.udpSendTo B 9 (.v4 addrB) [7, 8, 9] (udpConnected noFaults)
     let r2 := Device.udpSendTo B 9 (.v4 addrB) [7, 8, 9] r1.2
     r1.1 = .err (.other (.other ())) ∧ r1.2.2.bus.txn = (udpConnected noFaults).2.bus.txn + 9 ∧ r2.1 = .ok () ∧
     (r2.2.2.bus.socks 0).packets.map Packet.data = [[7, 8, 9, 7, 8, 9]]) ∧
    (let B := (Chip.dev emitSched (faultIn 14 5)).bus
     let r1 := Device.udpSendTo B 9 (.v4 addrA) [7, 8, 9] (udpConnected noFaults)
     let r2 := Device.udpSendTo B 9 (.v4 addrA) [7, 8, 9] r1.2
     r1.1 = .err (.other (.other ())) ∧ r1.2.2.bus.txn = (udpConnected noFaults).2.bus.txn + 7 ∧ r2.1 = .ok () ∧
     (r2.2.2.bus.socks 0).packets.map Packet.data = [[7, 8, 9, 7, 8, 9]]) := by
  decide +kernel

end W5500.Props
