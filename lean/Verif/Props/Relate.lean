import Verif.Proofs.Still
import Verif.Props.Outcome
import Verif.Props.Raw
/-! # Comparing two runs: other buses, other payloads, other orders (C73–C75) -/

namespace W5500.Props
open W5500 Spec
variable {W W' E H V : Type} {sched : Nat → List (Nat × Act)} {faults : Nat → Option (E × Nat)}

/-! ## C73 Buses that answer alike cannot be told apart -/

/-- From related states, every transfer has the same outcome on both buses and leads to related states. -/
def Alike (B : Bus W E) (B' : Bus W' E) (R : W → W' → Prop) : Prop :=
  (∀ b a d w w', R w w' →
    (B.readFrame w b a d).1 = (B'.readFrame w' b a d).1 ∧ (B.readFrame w b a d).2.1 = (B'.readFrame w' b a d).2.1 ∧
    R (B.readFrame w b a d).2.2 (B'.readFrame w' b a d).2.2) ∧
  (∀ b a d w w', R w w' →
    (B.writeFrame w b a d).1 = (B'.writeFrame w' b a d).1 ∧ R (B.writeFrame w b a d).2 (B'.writeFrame w' b a d).2)

theorem Alike.respects {B : Bus W E} {B' : Bus W' E} {R : W → W' → Prop} (h : Alike B B' R) :
    Respects (fun _ => True) (fun _ => True) Eq B B' R where
  read b a d w w' _ := h.1 b a d w w'
  write b a d w w' _ := h.2 b a d w w'
  store b a d d' w w' _ hd := by cases hd; exact h.2 b a d w w'

/-- C73, programs: on buses that answer alike, a program sees the same, call by call, and both runs end with the same
sockets and the same device state. -/
theorem C73 {B : Bus W E} {B' : Bus W' E} {R : W → W' → Prop} (h : Alike B B' R) {w : W} {w' : W'} (r : R w w') (host : H)
    {ops : List (Nat × Op W)} {ops' : List (Nat × Op W')} (ho : Op.AllLike Eq R ops ops') :
    (Client.initial w host).outputs B ops = (Client.initial w' host).outputs B' ops' ∧
    ((Client.initial w host).after B ops).Like R ((Client.initial w' host).after B' ops') :=
  outputs_like h.respects Cut.eq blocks_all ho (allocInv_initial w host) ⟨r, rfl, rfl, rfl⟩

/-- The same outcome, in related states. -/
def SameEnd {α : Type} (R : W → W' → Prop) (x : α × W) (y : α × W') : Prop := x.1 = y.1 ∧ R x.2 y.2

theorem sameEnd {ε α : Type} {R : W → W' → Prop} {m : M W ε α} {m' : M W' ε α} (h : Rel R Eq m m') {w : W} {w' : W'}
    (r : R w w') : SameEnd R (m w) (m' w') := ⟨Res.same_eq.mp (h.run w w' r).1, (h.run w w' r).2⟩

/-- C73, initialisation. -/
theorem C73_init {B : Bus W E} {B' : Bus W' E} {R : W → W' → Prop} (h : Alike B B' R) {w : W} {w' : W'} (r : R w w')
    (v : Bool) (mac : Mac) (ip gateway subnet : Ipv4) (mode : Mode) :
    SameEnd R (Uninit.initializeManual v B mac ip mode w) (Uninit.initializeManual v B' mac ip mode w') ∧
    SameEnd R (Uninit.initializeAdvanced v B mac ip gateway subnet mode w)
      (Uninit.initializeAdvanced v B' mac ip gateway subnet mode w') ∧
    SameEnd R (Uninit.initialize v B mac mode w) (Uninit.initialize v B' mac mode w') ∧
    SameEnd R (Uninit.initializeMacraw B mac w) (Uninit.initializeMacraw B' mac w') :=
  ⟨sameEnd (rel_initializeWithHost h.respects trivial v _ mode (rel_manualRefresh h.respects trivial)) r,
   sameEnd (rel_initializeWithHost h.respects trivial v _ mode (rel_manualRefresh h.respects trivial)) r,
   sameEnd (rel_initializeWithHost h.respects trivial v (Dhcp.new mac) mode (.pure rfl)) r,
   sameEnd (rel_initializeMacraw h.respects trivial (fun _ _ => trivial) mac) r⟩

/-- C73, raw device. -/
theorem C73_raw {B : Bus W E} {B' : Bus W' E} {R : W → W' → Prop} (h : Alike B B' R) {w : W} {w' : W'} (r : R w w')
    (d : RawDevice) (fuel : Nat) (buffer frame : List U8) (x : U8) :
    SameEnd R (d.writeFrame B fuel frame w) (d.writeFrame B' fuel frame w') ∧
    SameEnd R (d.enableInterrupts B x w) (d.enableInterrupts B' x w') ∧
    SameEnd R (d.clearInterrupts B w) (d.clearInterrupts B' w') ∧
    SameEnd R (d.disableInterrupts B w) (d.disableInterrupts B' w') ∧
    (d.readFrame B fuel (buffer, w)).1 = (d.readFrame B' fuel (buffer, w')).1 ∧
    SameEnd R (d.readFrame B fuel (buffer, w)).2 (d.readFrame B' fuel (buffer, w')).2 := by
  obtain ⟨h1, h2⟩ := (rel_rawRead h.respects (d := d) trivial trivial fuel).run (buffer, w) (buffer, w') ⟨rfl, r⟩
  exact ⟨sameEnd (rel_rawWrite h.respects Cut.eq trivial trivial fuel rfl) r,
    sameEnd (rel_rawEnable h.respects trivial trivial x) r, sameEnd (rel_rawClear h.respects trivial) r,
    sameEnd (rel_rawDisable h.respects trivial trivial) r, Res.same_eq.mp h1, h2⟩

/-- Observing a bus. -/
theorem alike_traced (B : Bus W E) : Alike (traced B) B (fun t w => t.w = w) :=
  ⟨fun b a d t w r => by subst r; exact ⟨rfl, rfl, rfl⟩, fun b a d t w r => by subst r; exact ⟨rfl, rfl⟩⟩

/-- C73, observation: recording the traffic does not change what a program sees. -/
theorem C73_observed {B : Bus W E} (w : W) (log : List (Ev E)) (host : H) {ops : List (Nat × Op (TW W E))}
    {ops' : List (Nat × Op W)} (ho : Op.AllLike Eq (fun t w => t.w = w) ops ops') :
    (Client.initial (⟨w, log⟩ : TW W E) host).outputs (traced B) ops = (Client.initial w host).outputs B ops' :=
  (C73 (alike_traced B) rfl host ho).1

/-- A program that uses a UDP socket. -/
def demoProgram (W : Type) (payload : List U8) : List (Nat × Op W) :=
  [(9, .udpSocket), (9, .udpConnect 0 (.v4 addrA)), (9, .udpSend 0 payload), (9, .common .version), (9, .udpSend 0 payload)]

theorem demoProgram_like {D : List U8 → List U8 → Prop} {R : W → W' → Prop} {p p' : List U8} (h : D p p') :
    Op.AllLike D R (demoProgram W p) (demoProgram W' p') :=
  .cons _ .udpSocket (.cons _ (.udpConnect ..) (.cons _ (.udpSend _ h) (.cons _ (.common _) (.cons _ (.udpSend _ h) .nil))))

def promptBus : Bus Chip Unit := (Chip.dev promptSched noFaults).bus
/-- The bus after the second, third and fifth call of the program. -/
def demoStart : UdpSocket × Device Chip Unit :=
  (Device.udpConnect promptBus (.v4 addrA) (demoUdp, ⟨Chip.powerUp, (Device.udpSocket (E := Unit) demoDevice).2.state⟩)).2
def demoSend1 (p : List U8) : Res (NbError (UdpSocketError Unit)) Unit × Device Chip Unit :=
  Device.udpSend promptBus 9 demoStart.1 p demoStart.2
def demoSend2 (p : List U8) : Res (NbError (UdpSocketError Unit)) Unit × Device Chip Unit :=
  Device.udpSend promptBus 9 demoStart.1 p
    { (demoSend1 p).2 with bus := (W5500.version promptBus (demoSend1 p).2.bus).2 }

theorem demo_outputs (p : List U8) :
    (Client.initial Chip.powerUp ()).outputs promptBus (demoProgram _ p) =
      [.udpSocket (.ok demoUdp), .udp (.ok ()) demoStart.1, .udpSent (demoSend1 p).1 demoStart.1,
       .byte (W5500.version promptBus (demoSend1 p).2.bus).1, .udpSent (demoSend2 p).1 demoStart.1] := by
  have h : (Device.udpConnect promptBus (.v4 addrA)
      (demoUdp, (⟨Chip.powerUp, (Device.udpSocket (E := Unit) demoDevice).2.state⟩ : Device Chip Unit))).1 = .ok () := by
    decide +kernel
  unfold demoStart
  rw [← h]
  rfl

theorem demo_after (p : List U8) :
    ((Client.initial Chip.powerUp ()).after promptBus (demoProgram _ p)).dev.bus = (demoSend2 p).2.bus := rfl

/-- C73 is not vacuous: a program on a chip, observed. The chip transmits one of the two datagrams and drops the other. -/
example :
    (Client.initial (⟨Chip.powerUp, []⟩ : TW Chip Unit) ()).outputs (traced promptBus) (demoProgram _ [1, 2]) =
      [.udpSocket (.ok demoUdp), .udp (.ok ()) demoStart.1, .udpSent (.ok ()) demoStart.1, .byte (.ok 4),
       .udpSent (.err (.other .writeTimeout)) demoStart.1] := by
  rw [C73_observed Chip.powerUp [] () (demoProgram_like rfl), demo_outputs]
  have h1 : (demoSend1 [1, 2]).1 = .ok () := by decide +kernel
  have h2 : (W5500.version promptBus (demoSend1 [1, 2]).2.bus).1 = .ok 4 := by decide +kernel
  have h3 : (demoSend2 [1, 2]).1 = .err (.other .writeTimeout) := by decide +kernel
  rw [h1, h2, h3]

/-! ## C74 What a program sees and the traffic do not depend on the bytes sent -/

/-- C74, programs: two programs that differ only in the bytes they send (not in their number), on two chips that differ only
in the contents of TX memory, see the same, call by call. The chips then still differ in nothing else. Transfers may
fail, at the same places. -/
theorem C74 {c c' : Chip} (hc : c.Veiled c') (host : H) {ops ops' : List (Nat × Op Chip)}
    (ho : Op.AllLike SameLength Chip.Veiled ops ops') :
    (Client.initial c host).outputs (Chip.dev sched faults).bus ops =
      (Client.initial c' host).outputs (Chip.dev sched faults).bus ops' ∧
    ((Client.initial c host).after (Chip.dev sched faults).bus ops).Like Chip.Veiled
      ((Client.initial c' host).after (Chip.dev sched faults).bus ops') :=
  outputs_like Chip.veiled_respects Cut.sameLength blocks_tx ho (allocInv_initial c host) ⟨hc, rfl, rfl, rfl⟩

/-- C74, traffic: the transfers are the same too, one by one, except for the data of writes to TX memory, which have
the same lengths. -/
theorem C74_traffic {c c' : Chip} (hc : c.Veiled c') (host : H) {ops ops' : List (Nat × Op (TW Chip E))}
    (ho : Op.AllLike SameLength (fun t t' => t.w.Veiled t'.w ∧ LogLike TxBlock SameLength t.log t'.log) ops ops') :
    LogLike TxBlock SameLength
      ((Client.initial (⟨c, []⟩ : TW Chip E) host).after (traced (Chip.dev sched faults).bus) ops).dev.bus.log
      ((Client.initial (⟨c', []⟩ : TW Chip E) host).after (traced (Chip.dev sched faults).bus) ops').dev.bus.log :=
  (outputs_like Chip.veiled_respects.traced Cut.sameLength blocks_tx ho (allocInv_initial _ host)
    (c := Client.initial (⟨c, []⟩ : TW Chip E) host)
    (c' := Client.initial (⟨c', []⟩ : TW Chip E) host) ⟨⟨hc, .nil⟩, rfl, rfl, rfl⟩).2.bus.2

theorem raw_blocks : OtherBlock (Socket.new 0).register ∧ OtherBlock (Socket.new 0).rxBuffer ∧ TxBlock (Socket.new 0).txBuffer := by
  unfold OtherBlock TxBlock
  decide +kernel

/-- C74, frames: the same for `write_frame`. -/
theorem C74_raw {c c' : Chip} (hc : c.Veiled c') (d : RawDevice) (hd : d.rawSocket = Socket.new 0) (fuel : Nat)
    {f f' : List U8} (hf : f.length = f'.length) :
    SameEnd Chip.Veiled (d.writeFrame (Chip.dev sched faults).bus fuel f c) (d.writeFrame (Chip.dev sched faults).bus fuel f' c') :=
  sameEnd (rel_rawWrite Chip.veiled_respects Cut.sameLength (hd ▸ raw_blocks.1) (hd ▸ raw_blocks.2.2) fuel hf) hc

/-- C74 is not vacuous: two payloads on that chip. What is transmitted differs, what the program sees does not. -/
example :
    let run (p : List U8) := (Client.initial Chip.powerUp ()).outputs promptBus (demoProgram _ p)
    let chip (p : List U8) := ((Client.initial Chip.powerUp ()).after promptBus (demoProgram _ p)).dev.bus
    run [1, 2] = run [7, 8] ∧ (chip [1, 2]).Veiled (chip [7, 8]) ∧
    ((chip [1, 2]).socks 0).packets.map (·.data) = [[1, 2], [1, 2]] ∧
    ((chip [7, 8]).socks 0).packets.map (·.data) = [[7, 8], [7, 8]] := by
  have h := C74 (E := Unit) (sched := promptSched) (faults := noFaults) (Chip.Veiled.refl Chip.powerUp) ()
    (demoProgram_like (p := [1, 2]) (p' := [7, 8]) rfl)
  dsimp only
  refine ⟨h.1, h.2.bus, ?_, ?_⟩
  · rw [demo_after]; decide +kernel
  · rw [demo_after]; decide +kernel

/-- The same for the traffic and for a frame. -/
example : LogLike TxBlock SameLength
    ((Client.initial (⟨Chip.powerUp, []⟩ : TW Chip Unit) ()).after (traced (Chip.dev promptSched noFaults).bus)
      (demoProgram _ [1, 2])).dev.bus.log
    ((Client.initial (⟨Chip.powerUp, []⟩ : TW Chip Unit) ()).after (traced (Chip.dev promptSched noFaults).bus)
      (demoProgram _ [7, 8])).dev.bus.log := by
  refine C74_traffic (Chip.Veiled.refl Chip.powerUp) () ?_
  exact demoProgram_like rfl
example : (rawDemo.writeFrame (Chip.dev frameSched noFaults).bus 9 [1, 2] (rawChip noFaults)).1 = .ok 2 ∧
    (rawDemo.writeFrame (Chip.dev frameSched noFaults).bus 9 [7, 8] (rawChip noFaults)).1 = .ok 2 := by
  have h : (rawDemo.writeFrame (Chip.dev frameSched noFaults).bus 9 [1, 2] (rawChip noFaults)).1 = .ok 2 := by decide +kernel
  exact ⟨h, (C74_raw (Chip.Veiled.refl (rawChip noFaults)) rawDemo rfl 9 (f := [1, 2]) (f' := [7, 8]) rfl).1 ▸ h⟩

/-! ## C75 Calls on different sockets commute -/

/-- C75: where transfers to different sockets do not influence each other, neither do calls on them: in either order, both
calls return the same, and the end is the same. -/
theorem C75 {B : Bus W E} (hB : ∀ n m, n < 8 → m < 8 → n ≠ m → Independent B (SockBlocks n) (SockBlocks m)) (w : W) (host : H)
    (before : List (Nat × Op W)) (fuel fuel' : Nat) {o o' : Op W} {i j : Nat} (hc : o.IsCall) (ho : o.target = some i)
    (hc' : o'.IsCall) (ho' : o'.target = some j) (hij : i ≠ j) :
    let c := (Client.initial w host).after B before
    (c.step B fuel o).seen B fuel' o' = c.seen B fuel' o' ∧ (c.step B fuel' o').seen B fuel o = c.seen B fuel o ∧
    (c.step B fuel o).step B fuel' o' = (c.step B fuel' o').step B fuel o := by
  exact step_comm hB (allocInv_after (allocInv_initial w host) before) fuel fuel' hc ho hc' ho' hij

/-- C75, whole programs: however the calls of a program on one socket and those of a program on another are interleaved, each
program sees what it would see alone, and the end is the same as if one ran after the other. -/
theorem C75_interleaved {B : Bus W E} (hB : ∀ n m, n < 8 → m < 8 → n ≠ m → Independent B (SockBlocks n) (SockBlocks m)) (w : W) (host : H)
    (before : List (Nat × Op W)) {xs ys zs : List (Nat × Op W)} {i j : Nat} (hij : i ≠ j) (hs : Shuffle xs ys zs)
    (hx : ∀ p ∈ xs, p.2.IsCall ∧ p.2.target = some i) (hy : ∀ p ∈ ys, p.2.IsCall ∧ p.2.target = some j) :
    let c := (Client.initial w host).after B before
    Shuffle (c.outputs B xs) (c.outputs B ys) (c.outputs B zs) ∧ c.after B zs = (c.after B xs).after B ys := by
  exact shuffle_like hB hij hs hx hy (allocInv_after (allocInv_initial w host) before)

/-- C75 on the chip: while nothing happens by itself and no transfer fails, from any state of the chip. (In general the calls on one
socket take time, in which something may happen to another one.) -/
theorem C75_chip (c0 : Chip) (host : H) (before : List (Nat × Op Chip)) {xs ys zs : List (Nat × Op Chip)} {i j : Nat} (hij : i ≠ j)
    (hs : Shuffle xs ys zs) (hx : ∀ p ∈ xs, p.2.IsCall ∧ p.2.target = some i) (hy : ∀ p ∈ ys, p.2.IsCall ∧ p.2.target = some j) :
    let B : Bus Chip E := (Chip.dev (fun _ => []) (fun _ => none)).bus
    let c := (Client.initial c0 host).after B before
    Shuffle (c.outputs B xs) (c.outputs B ys) (c.outputs B zs) ∧ c.after B zs = (c.after B xs).after B ys :=
  C75_interleaved still_independent c0 host before hij hs hx hy

/-- C75 on the chip is not vacuous: two sockets; one is connected, the other bound and polled. -/
example :
    let B : Bus Chip Unit := (Chip.dev (fun _ => []) (fun _ => none)).bus
    let c := (Client.initial Chip.powerUp ()).after B [(9, .udpSocket), (9, .udpSocket)]
    let xs : List (Nat × Op Chip) := [(9, .udpConnect 0 (.v4 addrA))]
    let ys : List (Nat × Op Chip) := [(9, .udpBind 1 5000), (9, .udpReceive 1 [0])]
    c.after B [(9, .udpBind 1 5000), (9, .udpConnect 0 (.v4 addrA)), (9, .udpReceive 1 [0])] = (c.after B xs).after B ys ∧
    (c.outputs B xs).length = 1 ∧ (((c.after B xs).after B ys).dev.bus.socks 0).sr = 0x22 ∧
    (((c.after B xs).after B ys).dev.bus.socks 1).sr = 0x22 := by
  refine ⟨?_, rfl, by decide +kernel, by decide +kernel⟩
  exact (C75_chip Chip.powerUp () [(9, .udpSocket), (9, .udpSocket)] (xs := [(9, .udpConnect 0 (.v4 addrA))])
    (ys := [(9, .udpBind 1 5000), (9, .udpReceive 1 [0])]) (i := 0) (j := 1) (by decide)
    (.right _ (.left _ (.right _ .nil))) (by simp [Op.IsCall, Op.target]) (by simp [Op.IsCall, Op.target])).2

/-- Sockets that each have a chip of their own behind them. -/
def ownChips : Bus (Nat → Chip) Unit := separate fun _ => (Chip.dev emitSched noFaults).bus
def programA : List (Nat × Op (Nat → Chip)) := [(9, .udpConnect 0 (.v4 addrA)), (9, .udpSend 0 [1, 2])]
def programB : List (Nat × Op (Nat → Chip)) := [(9, .udpConnect 1 (.v4 addrB)), (9, .udpSend 1 [3])]
def twoUdp : Client (Nat → Chip) Unit :=
  (Client.initial (fun _ => Chip.powerUp) ()).after ownChips [(9, .udpSocket), (9, .udpSocket)]
def ownStart : UdpSocket × Device (Nat → Chip) Unit := Device.udpConnect ownChips (.v4 addrA) (demoUdp, twoUdp.dev) |>.2

/-- C75 is not vacuous: sockets 0 and 1 connect and send, in turns. -/
example :
    Shuffle (twoUdp.outputs ownChips programA) (twoUdp.outputs ownChips programB)
      (twoUdp.outputs ownChips [(9, .udpConnect 0 (.v4 addrA)), (9, .udpConnect 1 (.v4 addrB)), (9, .udpSend 1 [3]),
        (9, .udpSend 0 [1, 2])]) ∧
    twoUdp.outputs ownChips programA = [.udp (.ok ()) ownStart.1, .udpSent (.ok ()) ownStart.1] := by
  constructor
  · exact (C75_interleaved (W := Nat → Chip) (separate_independent _) (fun _ => Chip.powerUp) ()
      [(9, .udpSocket), (9, .udpSocket)] (i := 0) (j := 1) (xs := programA) (ys := programB) (by decide)
      (.left _ (.right _ (.right _ (.left _ .nil)))) (by simp [programA, Op.IsCall, Op.target])
      (by simp [programB, Op.IsCall, Op.target])).1
  · have h1 : (Device.udpConnect ownChips (.v4 addrA) (demoUdp, twoUdp.dev)).1 = .ok () := by decide +kernel
    have h2 : (Device.udpSend ownChips 9 ownStart.1 [1, 2] ownStart.2).1 = .ok () := by decide +kernel
    rw [← h1, ← h2]
    rfl

end W5500.Props
