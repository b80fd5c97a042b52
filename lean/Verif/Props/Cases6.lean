import Verif.Props.Cases5
import Verif.Props.Slow
import Verif.Props.Map
import Verif.Props.Failures
import Verif.Props.PktFailures
import Verif.Props.Forge
import Verif.Props.Settings
import Verif.Props.Ack
import Verif.Props.Residue
import Verif.Props.Recover
import Verif.Props.Accessors
import Verif.Props.Cursor

/-! Concrete cases, C85–C101: see `Props/Cases1.lean`. -/

namespace W5500.Props
open W5500.Spec

/-! ## C85 … C87: the slow chip -/

/-- Nothing is excluded. -/
def anyKinds : Kinds Unit := ⟨fun _ _ => True, fun _ => True⟩
example := C85 (v := answerEnv) (K := anyKinds) ⟨fun _ _ _ _ _ _ _ _ => trivial, fun _ _ _ _ => trivial⟩ () Chip.powerUp ()
  [(9, .tcpSocket), (100, .tcpConnect 0 demoRemote)]
/-- No transaction fails in that environment. -/
def soundKinds : Kinds Unit := ⟨fun n _ => n = 0, fun _ => False⟩
theorem answer_only : answerEnv.Only soundKinds := by
  refine ⟨fun x s b a w n e h => ?_, fun x s f h => nomatch h⟩
  unfold answerEnv at h
  dsimp only at h
  repeat' split at h
  all_goals simp at h
  · exact h.1
  · rcases h with h | h <;> exact h.1
  · exact h.1
example := C85_boot answer_only () Chip.powerUp true ⟨2, 0, 0, 0, 0, 1⟩ ⟨10, 0, 0, 9⟩ ⟨10, 0, 0, 1⟩ ⟨255, 255, 255, 0⟩ Mode.default
  [(9, .tcpSocket), (100, .tcpConnect 0 demoRemote)]
example := C85_macraw answer_only () Chip.powerUp ⟨2, 0, 0, 0, 0, 1⟩ []
example := C86_never_polled (Chip.dev emitSched noFaults).bus 9 Chip.powerUp () [.udpSocket, .udpConnect 0 (.v4 addrA), .reactivate id]
  (by simp)
example := C86_partial answerEnv ((), Slow.idle Chip.powerUp) 3 (by decide)
example := C87_interrupts .sendOk 4 (by decide)

/-! ## C88 … C92: failing transfers, meddling, settings -/

theorem whole_17 : Whole (faultAt 17) := by
  intro t e k h
  unfold faultAt at h
  split at h
  · injection h with h; injection h with _ h; omega
  · exact nomatch h
theorem whole_15 : Whole (faultAt 15) := by
  intro t e k h
  unfold faultAt at h
  split at h
  · injection h with h; injection h with _ h; omega
  · exact nomatch h
theorem whole_23 : Whole (faultAt 23) := by
  intro t e k h
  unfold faultAt at h
  split at h
  · injection h with h; injection h with _ h; omega
  · exact nomatch h
/-- SEND fails in the first call; the bytes are kept. -/
example := C88_partial (sched := demoSched) whole_17 0 (by decide) 100 demoRemote demoDevice _ powerUp_sizes
  (run_eq (r := Device.tcpConnect (Chip.dev demoSched (faultAt 17)).bus 100 demoSocket demoRemote demoDevice) (by decide +kernel))
  _ _ (.send (d := (Device.tcpConnect (Chip.dev demoSched (faultAt 17)).bus 100 demoSocket demoRemote demoDevice).2) 9 [1, 2, 3]
    (.err (.other ())) .start (run_eq (r := Device.tcpSend (Chip.dev demoSched (faultAt 17)).bus 9 demoSocket [1, 2, 3] _) (by decide +kernel)))

theorem leak_talk : UdpTalk emitSched (faultAt 15) 0 (udpConnected (faultAt 15)).1 (udpConnected (faultAt 15)).2.bus
    [([1, 2, 3], udpResult [1, 2, 3] leakFirst.1), ([4, 5], udpResult [4, 5] leakSecond.1)] leakSecond.2.1 leakSecond.2.2.bus := by
  have t1 : UdpTalk emitSched (faultAt 15) 0 (udpConnected (faultAt 15)).1 (udpConnected (faultAt 15)).2.bus
    [([1, 2, 3], udpResult [1, 2, 3] leakFirst.1)] leakFirst.2.1 leakFirst.2.2.bus :=
    by unfold leakFirst; exact
      .sendTo (log := []) (u := (udpConnected (faultAt 15)).1) (d := (udpConnected (faultAt 15)).2) 9 (.v4 addrA) [1, 2, 3] .start
  unfold leakSecond
  exact .sendTo (u := leakFirst.2.1) (d := leakFirst.2.2) 9 (.v4 addrB) [4, 5] t1
example := C90_udp_partial whole_15 0 (by decide) _ _ _ _ (.connect (d := demoDevice) (.v4 addrA) (.new Chip.powerUp powerUp_sizes)
  (run_eq (r := Device.udpConnect (Chip.dev emitSched (faultAt 15)).bus (.v4 addrA) (demoUdp, demoDevice)) (by decide +kernel))) _ leak_talk
theorem glue_talk : RawTalk frameSched (faultAt 23) rawDemo (rawChip (faultAt 23))
    [([1, 2, 3], rawResult glueFirst.1), ([4, 5], rawResult glueSecond.1)] glueSecond.2 :=
  .writeFrame 9 [4, 5] (.writeFrame (log := []) 9 [1, 2, 3] .start)
example := C90_raw_partial whole_23 rawDemo _ _ (.new (run_eq (r := RawDevice.new (Chip.dev frameSched (faultAt 23)).bus Chip.powerUp)
  (by decide +kernel))) _ glue_talk
example := C91_partial okBus 5 () () [.own .takeSocket, .own .udpSocket, .renumber 0 1, .foreign (.udp (UdpSocket.new (Socket.new 1))),
  .alien (.udpBind 1 80), .own .tcpSocket] (by decide)

/-- `initialize_manual`, and a program without `reset_device`. -/
def bootedManual : Chip := (Uninit.initializeManual true (Chip.dev demoSched noFaults).bus ⟨1, 2, 3, 4, 5, 6⟩ ⟨10, 0, 0, 9⟩ Mode.default
  Chip.powerUp).2
def bootedState : Manual := ⟨true, ⟨⟨1, 2, 3, 4, 5, 6⟩, ⟨10, 0, 0, 9⟩, ⟨10, 0, 0, 1⟩, ⟨255, 255, 255, 0⟩⟩,
  ⟨⟨1, 2, 3, 4, 5, 6⟩, ⟨10, 0, 0, 9⟩, ⟨10, 0, 0, 1⟩, ⟨255, 255, 255, 0⟩⟩⟩
theorem booted_manual : Uninit.initializeManual true (Chip.dev demoSched noFaults).bus ⟨1, 2, 3, 4, 5, 6⟩ ⟨10, 0, 0, 9⟩ Mode.default Chip.powerUp =
    (.ok (.new bootedState), bootedManual) := run_eq (by decide +kernel)
theorem booted_run : KeepRun demoSched noFaults (Client.initial bootedManual ()) (((Client.initial bootedManual ()).step
    (Chip.dev demoSched noFaults).bus 5 .udpSocket).step (Chip.dev demoSched noFaults).bus 5 (.udpBind 0 80)) := by
  refine .step 5 (.udpBind 0 80) (.step 5 .udpSocket .start ?_ ?_) ?_ ?_
  all_goals first | (intro h; cases h; done) | (intro g h; cases h)
example := C92_manual_partial true ⟨1, 2, 3, 4, 5, 6⟩ 10 0 0 9 Mode.default Chip.powerUp bootedManual _ booted_manual () _ booted_run
example := C92_partial true ⟨1, 2, 3, 4, 5, 6⟩ ⟨10, 0, 0, 9⟩ ⟨10, 0, 0, 1⟩ ⟨255, 255, 255, 0⟩ Mode.default Chip.powerUp bootedManual
  (.new bootedState)
  (run_eq (r := Uninit.initializeAdvanced true (Chip.dev demoSched noFaults).bus ⟨1, 2, 3, 4, 5, 6⟩ ⟨10, 0, 0, 9⟩ ⟨10, 0, 0, 1⟩
    ⟨255, 255, 255, 0⟩ Mode.default Chip.powerUp) (by decide +kernel)) () _ booted_run
example := C94 (B := (Chip.dev emitSched noFaults).bus) 2 9 [1, 2] ⟨.new 2⟩ rfl (.new (.new 2)) rfl (.v4 addrA)
  (⟨⟨Chip.powerUp, []⟩, DeviceState.new ()⟩ : Device (TW Chip Unit) Unit)

/-! ## C98, C99: leftovers, recovery -/

example := C98_tcp (sched := againSched) (faults := noFaults) (n := 0) (by decide) 100 demoRemote (d := usedOnce) (d' := usedTwice)
  (by unfold Sock.SizesOk Sock.GoodSize; decide +kernel)
  (by rw [usedTwice]
      exact run_eq (r := Device.tcpConnect (Chip.dev againSched noFaults).bus 100 demoSocket demoRemote usedOnce) (by decide +kernel))
  (.send (d := usedTwice) 9 [40] 1 .start
    (run_eq (r := Device.tcpSend (Chip.dev againSched noFaults).bus 9 demoSocket [40] usedTwice) (by decide +kernel)))
example := C98_udp (sched := laterSched) (faults := noFaults) (n := 0) (by decide) (u := demoUdp) (d := usedOnce) (u0 := usedUdp.1)
  (d' := usedUdp.2) (.new _ (by unfold Sock.SizesOk Sock.GoodSize; decide +kernel)) (.bind 99 (run_eq (by decide +kernel)))
  (.receive 9 [0, 0] [5, 6] 2 (.v4 ⟨⟨10, 0, 0, 7⟩, 53⟩) .start
    (run_eq' (r := Device.udpReceive (Chip.dev laterSched noFaults).bus 9 usedUdp.1 ([0, 0], usedUdp.2)) (by decide +kernel) (by decide +kernel)))
def usedRaw : Res (InitializeError Unit) RawDevice × Chip :=
  Uninit.initializeMacraw (Chip.dev laterSched noFaults).bus ⟨2, 0, 0, 0, 0, 1⟩ usedOnce.bus
example := C98_raw (sched := laterSched) (faults := noFaults) (c0 := usedOnce.bus) (c1 := usedRaw.2) (r := rawDemo) ⟨2, 0, 0, 0, 0, 1⟩
  (by unfold Sock.GoodSize; decide +kernel) (run_eq (r := usedRaw) (by decide +kernel))
  (.readFrame 9 [0, 0, 0, 0] [5, 6, 7, 0] 3 .start
    (run_eq' (r := rawDemo.readFrame (Chip.dev laterSched noFaults).bus 9 ([0, 0, 0, 0], usedRaw.2)) (by decide +kernel) (by decide +kernel)))
example := C99_init (sched := emitSched) (faults := faultAt 1) failedOpen.2.bus (faultAt_past (i := 1) (by decide +kernel)) true
  (fun _ => by decide +kernel) ⟨2, 0, 0, 0, 0, 1⟩ ⟨10, 0, 0, 9⟩ ⟨10, 0, 0, 1⟩ ⟨255, 255, 255, 0⟩ Mode.default

/-! ## C100, C101: accessors and cursors -/

example := C100_chip_set (sched := emitSched) (faults := noFaults) (n := 2) (by decide) (.sourcePort 0x1234) trivial (c := Chip.powerUp) (r := .ok ())
  (run_eq (r := (Setter.sourcePort 0x1234).run (Chip.dev emitSched noFaults).bus (sockOf 2) Chip.powerUp) (by decide +kernel))

/-- The bus on which nothing happens. -/
def calmBus : Bus Chip Unit := (Chip.dev (fun _ => []) (fun _ => none)).bus
def pointerSet : Chip := ((sockOf 3).setTxWritePointer calmBus 0xABCD Chip.powerUp).2
def pointerSet' : Chip := ((sockOf 3).setRxReadPointer calmBus 0xABCD Chip.powerUp).2
example := (C100_pointers_partial (E := Unit) (sched := fun _ => []) (faults := fun _ => none) (n := 3) (by decide) (c := Chip.powerUp)
  (c1 := pointerSet) (c2 := pointerSet) (x := 0xABCD) (v := 0xABCD) rfl).1
  (run_eq (r := (sockOf 3).setTxWritePointer calmBus 0xABCD Chip.powerUp) (by decide +kernel))
  (run_eq (r := (sockOf 3).getTxWritePointer calmBus pointerSet) (by decide +kernel))
example := (C100_pointers_partial (E := Unit) (sched := fun _ => []) (faults := fun _ => none) (n := 3) (by decide) (c := Chip.powerUp)
  (c1 := pointerSet') (c2 := pointerSet') (x := 0xABCD) (v := 0xABCD) rfl).2
  (run_eq (r := (sockOf 3).setRxReadPointer calmBus 0xABCD Chip.powerUp) (by decide +kernel))
  (run_eq (r := (sockOf 3).getRxReadPointer calmBus pointerSet') (by decide +kernel))
example := C100_has_interrupt_chip (E := Unit) (sched := fun _ => []) (faults := fun _ => none) (n := 0) (by decide) .sendOk (c := flagged) (b := true)
  (run_eq (r := (sockOf 0).hasInterrupt calmBus .sendOk flagged) (by decide +kernel))
example := C100_reset_interrupt_chip (E := Unit) (sched := fun _ => []) (faults := fun _ => none) (n := 0) (by decide) .sendOk (c := flagged)
  (run_eq (r := (sockOf 0).resetInterrupt calmBus .sendOk flagged) (by decide +kernel))
example := C100_tx_read_ignored (E := Unit) (sched := emitSched) (faults := noFaults) (n := 3) (by decide) 1 2 Chip.powerUp
example := C101_read_partial (Chip.dev (E := Unit) cursorSched noFaults).bus ⟨sockOf 0, 0, 5⟩ [9, 9, 9] (by decide) cursorChip
theorem cursorOps_sized : ∀ o ∈ cursorOps, o.Sized := by
  intro o ho
  simp only [cursorOps, List.mem_cons, List.not_mem_nil, or_false] at ho
  rcases ho with rfl | rfl | rfl | rfl | rfl
  · exact (by decide : 2 < 65536)
  · trivial
  · trivial
  · exact (by decide : 0 < 65536)
  · show (List.replicate 20 (5 : U8)).length < 65536
    decide
example := C101_session_partial (E := Unit) (sched := cursorSched) (faults := fun _ => none) (n := 0) (by decide) 9 cursorOps cursorOps_sized cursorChip []
  (.inr (.inr (.inr (.inr (by decide +kernel))))) (by decide +kernel) (by decide +kernel) (by decide +kernel) _ _
  (run_eq (r := RxOp.session (Chip.dev (E := Unit) cursorSched (fun _ => none)).bus 9 (sockOf 0) cursorOps cursorChip)
    (a := .ok ([(2, [0, 5]), (1, []), (3, [11, 12, 0, 9, 9]), (0, []), (5, [3, 7, 0, 3, 7] ++ List.replicate 15 5)], ⟨sockOf 0, 11, 0⟩))
    (by decide +kernel))
def cursorSend (k : Nat) : List (Nat × Act) := if k % 7 = 0 then [(0, .emit true)] else []
example := C101_transmit (E := Unit) (sched := cursorSend) (faults := fun _ => none) (n := 0) (by decide) [[1, 2], [], [4]] cursorChip
  (.inr (by decide +kernel)) (.inr (.inr (.inr (.inr (by decide +kernel))))) (by decide +kernel) (by decide +kernel) (by decide +kernel) _ _
  (run_eq (r := txSession (Chip.dev (E := Unit) cursorSend (fun _ => none)).bus (sockOf 0) [[1, 2], [], [4]] cursorChip)
    (a := .ok ([2, 0, 1], ⟨sockOf 0, 3, 16381⟩)) (by decide +kernel))

end W5500.Props
