import Verif.Proofs.Until
import Verif.Props.Slow
/-! # C127 What happens before and after a run does not matter -/

namespace W5500.Props
open W5500 W5500.Spec
variable {E H X : Type} {p q : Plan E}

/-- C127: a program (any calls on any number of sockets, from any state) runs on two plans of network events and failing transfers. If they are the
same while it runs, then it sees the same, call by call, and the end is the same: the chip, the handles, and the state of the device. What the plans
contain for the time before and for the time after does not matter. -/
theorem C127 (b : Belongings H) (c : Chip) (ops : List (Nat × Op Unit))
    (h : p.AgreeBetween q c (Client.after p.bus (b.client c) (onBusType _ ops)).dev.bus) :
    Client.outputs q.bus (b.client c) (onBusType _ ops) = Client.outputs p.bus (b.client c) (onBusType _ ops) ∧
    Client.after q.bus (b.client c) (onBusType _ ops) = Client.after p.bus (b.client c) (onBusType _ ops) := by
  have e := plays_until (play_program (E := E) b ops) (c := c) h
  have e1 := congrArg (fun r => r.1.1) e
  have e2 := congrArg (fun r => r.1.2) e
  have e3 := congrArg (fun r => r.2) e
  refine ⟨e1, ?_⟩
  generalize Client.after q.bus (b.client c) (onBusType _ ops) = x at *
  generalize Client.after p.bus (b.client c) (onBusType _ ops) = y at *
  obtain ⟨⟨_, _⟩, _, _⟩ := x
  obtain ⟨⟨_, _⟩, _, _⟩ := y
  cases e2
  cases e3
  rfl

/-- C127 for programs that initialise the chip themselves, with static settings or (nominally) DHCP. -/
theorem C127_boot (c : Chip) (av : Bool) (mac : Mac) (ip gateway subnet : Ipv4) (mode : Mode) (ops : List (Nat × Op Unit)) :
    (p.AgreeBetween q c (bootProgram p.bus (Uninit.initializeAdvanced av p.bus mac ip gateway subnet mode) ops c).2 →
      bootProgram q.bus (Uninit.initializeAdvanced av q.bus mac ip gateway subnet mode) ops c =
        bootProgram p.bus (Uninit.initializeAdvanced av p.bus mac ip gateway subnet mode) ops c) ∧
    (p.AgreeBetween q c (bootProgram p.bus (Uninit.initialize av p.bus mac mode) ops c).2 →
      bootProgram q.bus (Uninit.initialize av q.bus mac mode) ops c = bootProgram p.bus (Uninit.initialize av p.bus mac mode) ops c) :=
  ⟨fun h => plays_until (play_boot (play_initializeWithHost (E := E) av (Manual.new mac ip gateway subnet) mode (play_manualRefresh _)) ops) h,
   fun h => plays_until (play_boot (play_initializeWithHost (E := E) av (Dhcp.new mac) mode .pure) ops) h⟩

/-- C127, MACRAW: a program that initialises the chip for raw frames and uses the device in any way. -/
theorem C127_macraw (c : Chip) (mac : Mac) (os : List (Nat × RawCall)) (h : p.AgreeBetween q c (rawProgram p.bus mac os c).2) :
    rawProgram q.bus mac os c = rawProgram p.bus mac os c :=
  plays_until (play_rawProgram (E := E) mac os) h

/-- C127, adaptive programs: any program that decides after each transfer how to go on, in the light of the answers. -/
theorem C127_strategy (g : Strategy E X) (c : Chip) (h : p.AgreeBetween q c (g.play p.bus c).2) : g.play q.bus c = g.play p.bus c :=
  plays_until ⟨g, fun _ _ _ => rfl⟩ h

/-! ## Not vacuous -/

/-- A quiet network until the 200th SPI byte and no failing transfers until the 100th; then all sockets close, and all transfers fail. -/
def laterPlan : Plan Unit where
  sched k := if k < 200 then [] else [(0, .status 0), (1, .status 0)]
  faults i := if i < 100 then none else some ((), 0)

def quietPlan : Plan Unit := ⟨fun _ => [], fun _ => none⟩

theorem later_agree {c c' : Chip} (h : c'.clock ≤ 200 ∧ c'.txn ≤ 100) : quietPlan.AgreeBetween laterPlan c c' :=
  ⟨fun _ _ k => (if_pos (Nat.lt_of_lt_of_le k h.1)).symm, fun _ _ k => (if_pos (Nat.lt_of_lt_of_le k h.2)).symm⟩

def bindProgram : List (Nat × Op Unit) := [(9, .udpSocket), (9, .udpBind 0 5000), (9, .udpReceive 0 [0, 0])]

theorem later_end : (Client.after quietPlan.bus (Client.initial Chip.powerUp ()) (onBusType _ bindProgram)).dev.bus.clock ≤ 200 ∧
    (Client.after quietPlan.bus (Client.initial Chip.powerUp ()) (onBusType _ bindProgram)).dev.bus.txn ≤ 100 := by decide +kernel

/-- A program that binds a socket and looks for a datagram does not see what happens later. -/
example : Client.outputs laterPlan.bus (Client.initial Chip.powerUp ()) (onBusType _ bindProgram) =
    Client.outputs quietPlan.bus (Client.initial Chip.powerUp ()) (onBusType _ bindProgram) :=
  (C127 (p := quietPlan) (q := laterPlan) (⟨DeviceState.new (), [], []⟩ : Belongings Unit) Chip.powerUp bindProgram (later_agree later_end)).1

example : bootProgram laterPlan.bus (Uninit.initialize true laterPlan.bus ⟨1, 2, 3, 4, 5, 6⟩ Mode.default) bindProgram Chip.powerUp =
    bootProgram quietPlan.bus (Uninit.initialize true quietPlan.bus ⟨1, 2, 3, 4, 5, 6⟩ Mode.default) bindProgram Chip.powerUp :=
  (C127_boot Chip.powerUp true ⟨1, 2, 3, 4, 5, 6⟩ ⟨10, 0, 0, 9⟩ ⟨10, 0, 0, 1⟩ ⟨255, 255, 255, 0⟩ Mode.default bindProgram).2
    (later_agree (by decide +kernel))

example : rawProgram laterPlan.bus ⟨1, 2, 3, 4, 5, 6⟩ [(9, .read [0, 0])] Chip.powerUp =
    rawProgram quietPlan.bus ⟨1, 2, 3, 4, 5, 6⟩ [(9, .read [0, 0])] Chip.powerUp :=
  C127_macraw _ _ _ (later_agree (by decide +kernel))

example : Strategy.play laterPlan.bus (.read 1 3 [0] fun _ l => if l = [0] then .write 1 1 [1] .done else .done (.ok ())) Chip.powerUp =
    Strategy.play quietPlan.bus (.read 1 3 [0] fun _ l => if l = [0] then .write 1 1 [1] .done else .done (.ok ())) Chip.powerUp :=
  C127_strategy _ _ (later_agree (by decide +kernel))

/-- The condition cannot be weakened: what happens before the last byte of the run is seen. -/
example : (⟨fun k => if k < 6 then [] else [(0, .status 0x22)], fun _ => none⟩ : Plan Unit).bus.readFrame { Chip.powerUp with clock := 6 } 1 3 [0] ≠
    quietPlan.bus.readFrame { Chip.powerUp with clock := 6 } 1 3 [0] := by
  intro h
  have := congrArg (fun r => r.2.1) h
  revert this
  decide +kernel

end W5500.Props
