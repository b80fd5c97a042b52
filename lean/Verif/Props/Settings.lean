import Verif.Props.Init
import Verif.Proofs.Settings
/-! # C92 The network settings last

The claim — whatever a client does with its device, the chip keeps the MAC address, IP address, gateway and subnet mask it was
initialised with — holds for programs that never call `reset_device`, and is false for those that do: nothing ever programs the
settings again. -/

namespace W5500.Props
open W5500 W5500.Spec
variable {E H : Type} {sched : Nat → List (Nat × Act)} {faults : Nat → Option (E × Nat)}

/-- C92, what holds: after `initialize_advanced` returned `Ok`, any program without `reset_device` — any calls on any number of
sockets, failing or not, under any events — leaves the settings as they were given. -/
theorem C92_partial (assert : Bool) (mac : Mac) (ip gateway subnet : Ipv4) (mode : Mode) (w w' : Chip) (st : DeviceState Manual)
    (h : Uninit.initializeAdvanced assert (Chip.dev sched faults).bus mac ip gateway subnet mode w = (.ok st, w'))
    (host : H) (c : Client Chip H) (hr : KeepRun sched faults (Client.initial w' host) c) :
    Configured c.dev.bus mac ip gateway subnet := by
  have h0 := (C25 assert mac ip gateway subnet mode w w' st h).1
  induction hr with
  | start => exact h0
  | step fuel o hr ho hp ih => exact ih.of_cells (step_cells (hr.inv (allocInv_initial _ _)) fuel ho hp)

/-- The same after `initialize_manual`. -/
theorem C92_manual_partial (assert : Bool) (mac : Mac) (i1 i2 i3 i4 : U8) (mode : Mode) (w w' : Chip) (st : DeviceState Manual)
    (h : Uninit.initializeManual assert (Chip.dev sched faults).bus mac ⟨i1, i2, i3, i4⟩ mode w = (.ok st, w'))
    (host : H) (c : Client Chip H) (hr : KeepRun sched faults (Client.initial w' host) c) :
    Configured c.dev.bus mac ⟨i1, i2, i3, i4⟩ ⟨i1, i2, i3, 1⟩ ⟨255, 255, 255, 0⟩ :=
  C92_partial assert mac _ _ _ mode w w' st h host c hr

/-- C92 is false: after a successful `reset_device`, at any point of any program, the chip has MAC address, IP address, gateway and
subnet mask 0, and keeps them whatever the client does next with the device. -/
theorem C92_refuted (w : Chip) (host : H) (c c' : Client Chip H) (hr : ClientRun sched faults (Client.initial w host) c)
    (hok : (resetChip (Chip.dev sched faults).bus c.dev.bus).1 = .ok ()) (fuel : Nat)
    (h : ClientRun sched faults (c.step (Chip.dev sched faults).bus fuel (.common .resetDevice)) c') :
    Configured c'.dev.bus ⟨0, 0, 0, 0, 0, 0⟩ ⟨0, 0, 0, 0⟩ ⟨0, 0, 0, 0⟩ ⟨0, 0, 0, 0⟩ := by
  have hi : AllocInv (c.step (Chip.dev sched faults).bus fuel (.common .resetDevice)) :=
    (hr.allocInv (allocInv_initial _ _)).step fuel _
  have h0 : Configured (c.step (Chip.dev sched faults).bus fuel (.common .resetDevice)).dev.bus
      ⟨0, 0, 0, 0, 0, 0⟩ ⟨0, 0, 0, 0⟩ ⟨0, 0, 0, 0⟩ ⟨0, 0, 0, 0⟩ := by
    rcases reset_cells (Prod.ext hok rfl : resetChip (Chip.dev sched faults).bus c.dev.bus = (.ok (), _)) with ⟨hne, -⟩ | h1
    · exact absurd rfl hne
    · exact configured_reset h1
  induction h with
  | start => exact h0
  | @step c1 fuel o hr' hp ih =>
    by_cases ho : o = .common .resetDevice
    · subst ho
      rcases reset_cells (sched := sched) (faults := faults) (c := c1.dev.bus) rfl with ⟨-, h1⟩ | h1
      · exact ih.of_cells fun a _ _ => congrFun h1 a
      · exact configured_reset h1
    · exact ih.of_cells (step_cells (hr'.allocInv hi) fuel ho hp)

/-- A chip after `initialize_advanced`. -/
def settingsDemo : Chip :=
  (Uninit.initializeAdvanced true (Chip.dev demoSched noFaults).bus ⟨1, 2, 3, 4, 5, 6⟩ ⟨10, 0, 0, 9⟩ ⟨10, 0, 0, 1⟩ ⟨255, 0, 0, 0⟩
    Mode.default Chip.powerUp).2

/-- A program without `reset_device`: the settings stay; and `reset_device` after it: the driver itself then reports 0.0.0.0. -/
example :
    let c := Client.run (Chip.dev demoSched noFaults).bus 5 (Client.initial settingsDemo ())
      [.udpSocket, .udpBind 0 80, .common (.setRetryCount 3), .common (.setMode Mode.default), .udpClose 0]
    KeepRun demoSched noFaults (Client.initial settingsDemo ()) c ∧
    (resetChip (Chip.dev demoSched noFaults).bus c.dev.bus).1 = .ok () ∧
    (Device.ip (Chip.dev demoSched noFaults).bus c.dev.bus).1 = .ok ⟨10, 0, 0, 9⟩ ∧
    (Device.ip (Chip.dev demoSched noFaults).bus
      (c.step (Chip.dev demoSched noFaults).bus 5 (.common .resetDevice)).dev.bus).1 = .ok ⟨0, 0, 0, 0⟩ := by
  refine ⟨?_, by decide +kernel, by decide +kernel, by decide +kernel⟩
  refine .step 5 (.udpClose 0) (.step 5 (.common (.setMode Mode.default)) (.step 5 (.common (.setRetryCount 3))
    (.step 5 (.udpBind 0 80) (.step 5 .udpSocket .start ?_ ?_) ?_ ?_) ?_ ?_) ?_ ?_) ?_ ?_
  all_goals first | (intro h; cases h; done) | (intro g h; cases h)

end W5500.Props
