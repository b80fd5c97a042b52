import Verif.Proofs.PktFailures
import Verif.Props.Raw
import Verif.Props.UdpChip
/-! # C90 A packet carries the data of one call, to that call's destination, whatever transfers fail -/

namespace W5500.Props
open W5500 W5500.Spec W5500.Spec.Sock
variable {E H : Type} {sched : Nat → List (Nat × Act)} {faults : Nat → Option (E × Nat)}
  {sched0 : Nat → List (Nat × Act)} {faults0 : Nat → Option (E × Nat)}

/-- C90, partial, UDP: after `bind` or `connect`, whatever transfers fail in whatever calls, the data of the datagrams that left, one
after the other, followed by what is committed, is an initial part of an account of the `send` and `send_to` calls: in order, every
call that returned `Ok` with its whole buffer, every other one with an initial part of it; all of the account, if the last failed call
was followed by one that returned `Ok`. Missing: the limits between the calls, and with them the destinations, see `C90_udp_refuted`;
transfers of two-byte registers that fail half-way. -/
theorem C90_udp_partial (hw : Whole faults) (n : Nat) (hn : n < 8) (u0 u : UdpSocket) (c0 c : Chip)
    (hopen : UdpOpened sched0 faults0 n u0 c0) (log : PktLog) (hrun : UdpTalk sched faults n u0 c0 log u c) :
    ∃ bs, PktHanded log bs ∧ (c.socks n).payloads ++ (c.socks n).pending <+: (c0.socks n).payloads ++ bs ∧
      (log.flushed = true → (c.socks n).payloads ++ (c.socks n).pending = (c0.socks n).payloads ++ bs) := by
  obtain ⟨A, hs, _, sent, ds, _, _, hi⟩ := opened_inv hn hopen
  have hb := hi.idle.base
  have h0 : At n (KeptP 2 (c0.socks n).payloads true) c0 :=
    ⟨heldP_none hb.mode hb.size hb.rd hb.una hi.idle.wr, fun _ => hi.idle.wr.symm⟩
  obtain ⟨_, bs, hb, hk⟩ := udpTalk_kept hw hn hrun hs h0
  exact ⟨bs, hb, (heldP_out hk.1).1, fun hl => (heldP_out hk.1).2 (hk.2 hl)⟩

/-- C90, partial, MACRAW: the same for the frames of `write_frame`, every call that returned `Ok(k)` with `k` bytes. Missing: the
limits between the calls, see `C90_raw_refuted`; transfers of two-byte registers that fail half-way. -/
theorem C90_raw_partial (hw : Whole faults) (r : RawDevice) (c0 c : Chip) (hopen : RawOpened sched0 faults0 r c0) (log : PktLog)
    (hrun : RawTalk sched faults r c0 log c) :
    ∃ bs, PktHanded log bs ∧ (c.socks 0).payloads ++ (c.socks 0).pending <+: (c0.socks 0).payloads ++ bs ∧
      (log.flushed = true → (c.socks 0).payloads ++ (c.socks 0).pending = (c0.socks 0).payloads ++ bs) := by
  obtain ⟨hr, K, A, hi⟩ := rawOpened hopen
  have hb := hi.busy.base
  have h0 : At 0 (KeptP 4 (c0.socks 0).payloads true) c0 :=
    ⟨heldP_none hb.mode hb.size hb.rd hb.una hi.busy.wr, fun _ => hi.busy.wr.symm⟩
  obtain ⟨bs, hb, hk⟩ := rawTalk_kept hw hr hrun h0
  exact ⟨bs, hb, (heldP_out hk.1).1, fun hl => (heldP_out hk.1).2 (hk.2 hl)⟩

/-- A confidential message to A, whose SEND command is not transferred, and one to B. -/
def leakFirst : Res (NbError (UdpSocketError Unit)) Unit × UdpSocket × Device Chip Unit :=
  Device.udpSendTo (Chip.dev emitSched (faultAt 15)).bus 9 (.v4 addrA) [1, 2, 3] (udpConnected (faultAt 15))
def leakSecond : Res (NbError (UdpSocketError Unit)) Unit × UdpSocket × Device Chip Unit :=
  Device.udpSendTo (Chip.dev emitSched (faultAt 15)).bus 9 (.v4 addrB) [4, 5] (leakFirst.2.1, leakFirst.2.2)

/-- C90 is false of the code, UDP: the call for A fails, the one for B returns `Ok`, and B gets both messages in one datagram. -/
theorem C90_udp_refuted :
    leakFirst.1 = .err (.other (.other ())) ∧ leakSecond.1 = .ok () ∧
    (leakSecond.2.2.bus.socks 0).packets = [⟨[10, 9, 9, 9], [0, 99], [1, 2, 3, 4, 5], true⟩] := by
  refine ⟨?_, ?_, ?_⟩ <;> decide +kernel

/-- A frame whose SEND command is not transferred, and a second one. -/
def glueFirst : Res Unit Nat × Chip :=
  rawDemo.writeFrame (Chip.dev frameSched (faultAt 23)).bus 9 [1, 2, 3] (rawChip (faultAt 23))
def glueSecond : Res Unit Nat × Chip := rawDemo.writeFrame (Chip.dev frameSched (faultAt 23)).bus 9 [4, 5] glueFirst.2

/-- C90 is false of the code, MACRAW: the first call fails, the second returns `Ok(2)`, and both go out glued together as one
ethernet frame. -/
theorem C90_raw_refuted :
    glueFirst.1 = .err () ∧ glueSecond.1 = .ok 2 ∧
    (glueSecond.2.socks 0).packets.map (·.data) = [[1, 2, 3, 4, 5]] := by
  refine ⟨?_, ?_, ?_⟩ <;> decide +kernel

theorem whole_faultAt (i : Nat) : Whole (faultAt i) := by
  intro t e k h
  unfold faultAt at h
  split at h
  · injection h with h; injection h with _ h; omega
  · exact nomatch h

/-- The hypotheses of C90_udp_partial are met by that history; the account is both buffers, and everything is flushed. -/
example :
    UdpOpened emitSched (faultAt 15) 0 (udpConnected (faultAt 15)).1 (udpConnected (faultAt 15)).2.bus ∧
    UdpTalk emitSched (faultAt 15) 0 (udpConnected (faultAt 15)).1 (udpConnected (faultAt 15)).2.bus
      [([1, 2, 3], none), ([4, 5], some 2)] leakSecond.2.1 leakSecond.2.2.bus ∧
    PktLog.flushed [([1, 2, 3], none), ([4, 5], some 2)] = true ∧ (leakSecond.2.2.bus.socks 0).payloads = [1, 2, 3, 4, 5] := by
  refine ⟨?_, ?_, rfl, by decide +kernel⟩
  · exact .connect (d := demoDevice) (.v4 addrA) (.new Chip.powerUp (by unfold SizesOk GoodSize; decide +kernel)) (run_eq (by decide +kernel))
  · have h1 : udpResult [1, 2, 3] leakFirst.1 = none := by rw [C90_udp_refuted.1]; rfl
    have h2 : udpResult [4, 5] leakSecond.1 = some 2 := by rw [C90_udp_refuted.2.1]; rfl
    have t1 : UdpTalk emitSched (faultAt 15) 0 (udpConnected (faultAt 15)).1 (udpConnected (faultAt 15)).2.bus
      [([1, 2, 3], udpResult [1, 2, 3] leakFirst.1)] leakFirst.2.1 leakFirst.2.2.bus :=
      by unfold leakFirst; exact
        .sendTo (log := []) (u := (udpConnected (faultAt 15)).1) (d := (udpConnected (faultAt 15)).2) 9 (.v4 addrA) [1, 2, 3] .start
    have t2 : UdpTalk emitSched (faultAt 15) 0 (udpConnected (faultAt 15)).1 (udpConnected (faultAt 15)).2.bus
      [([1, 2, 3], udpResult [1, 2, 3] leakFirst.1), ([4, 5], udpResult [4, 5] leakSecond.1)] leakSecond.2.1 leakSecond.2.2.bus :=
      by unfold leakSecond; exact .sendTo (u := leakFirst.2.1) (d := leakFirst.2.2) 9 (.v4 addrB) [4, 5] t1
    rw [h1, h2] at t2
    exact t2

/-- The hypotheses of C90_raw_partial are met: the account is both frames. -/
example :
    RawOpened frameSched (faultAt 23) rawDemo (rawChip (faultAt 23)) ∧
    RawTalk frameSched (faultAt 23) rawDemo (rawChip (faultAt 23)) [([1, 2, 3], none), ([4, 5], some 2)] glueSecond.2 ∧
    (glueSecond.2.socks 0).payloads = [1, 2, 3, 4, 5] := by
  refine ⟨.new (run_eq (by decide +kernel)), ?_, by decide +kernel⟩
  have h1 : rawResult glueFirst.1 = none := by rw [C90_raw_refuted.1]; rfl
  have h2 : rawResult glueSecond.1 = some 2 := by rw [C90_raw_refuted.2.1]; rfl
  have t1 : RawTalk frameSched (faultAt 23) rawDemo (rawChip (faultAt 23)) [([1, 2, 3], rawResult glueFirst.1)] glueFirst.2 :=
    .writeFrame (log := []) 9 [1, 2, 3] .start
  have t2 : RawTalk frameSched (faultAt 23) rawDemo (rawChip (faultAt 23))
      [([1, 2, 3], rawResult glueFirst.1), ([4, 5], rawResult glueSecond.1)] glueSecond.2 := .writeFrame 9 [4, 5] t1
  rw [h1, h2] at t2
  exact t2

end W5500.Props
