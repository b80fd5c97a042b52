import Verif.Proofs.Fitting
import Verif.Proofs.PickyCalls
import Verif.Props.Ack
import Verif.Props.Reset
/-! # Commands in the right state: C107 -/

namespace W5500.Props
open W5500 W5500.Spec socketn
variable {W E H : Type} {B : Bus W E}

/-- C107. Whatever bus, chip and faults: in the traffic of every TCP and UDP call each command is one that fits what was read
or brought about before in the same call. -/
theorem C107 (c : SockCall) (fuel n : Nat) (d : Device (TW W E) H) :
    ∃ evs, (c.after (traced B) fuel n d).bus.log = d.bus.log ++ evs ∧
      Fitting (Socket.new (BitVec.ofNat 8 n)).register c.proto evs := by
  have none : ∀ p, ∃ evs, d.bus.log = d.bus.log ++ evs ∧ Fitting (E := E) (Socket.new (BitVec.ofNat 8 n)).register p evs :=
    fun p => ⟨[], (List.append_nil _).symm, fitting_nil⟩
  have release : ∀ {ε : Type} {p : U8} (s : Socket) (m : M (TW W E) ε Unit),
      (∃ evs, (Device.onBus m d).2.bus.log = d.bus.log ++ evs ∧ Fitting (E := E) (Socket.new (BitVec.ofNat 8 n)).register p evs) →
      ∃ evs, ((do Device.onBus m; Device.releaseSocket s) d).2.bus.log = d.bus.log ++ evs ∧
        Fitting (E := E) (Socket.new (BitVec.ofNat 8 n)).register p evs := by
    intro ε p s m h
    rw [M.bind_def]
    rcases hm : Device.onBus m d with ⟨_ | _ | _ | _, d'⟩
    all_goals rw [hm] at h
    · have : (Device.releaseSocket (E := ε) s d').2.bus = d'.bus := by unfold Device.releaseSocket; split <;> rfl
      exact (congrArg TW.log this) ▸ h
    all_goals exact h
  cases c with
  | tcpConnect remote =>
    cases remote with
    | v6 => exact none _
    | v4 r =>
      exact Logs.fits (fun _ => .onBus (.bind (tcpOpen_fits _ keep_fit) fun _ => tcpConnect_fits fuel r (keep_at _))) d
  | tcpSend data => exact Logs.fits (fun _ => .onBus (tcpSend_fits fuel data)) d
  | tcpReceive buf => exact Logs.fits (fun _ => .onSockBus (tcpReceive_fits fuel)) (buf, d)
  | tcpClose => exact release _ _ (Logs.fits (fun _ => .onBus (tcpClose_fits keep_fit)) d)
  | udpConnect dest port remote =>
    cases remote with
    | v6 => exact none _
    | v4 r => exact LogsU.start (fun _ => udpConnect_fits r) ⟨.new (BitVec.ofNat 8 n), dest, port⟩ rfl d.bus
  | udpBind dest port q => exact LogsU.start (fun _ => udpBind_fits q) ⟨.new (BitVec.ofNat 8 n), dest, port⟩ rfl d.bus
  | udpSend dest port data => exact Logs.fits (fun _ => .onBus (sendAll_fits rfl fuel data)) d
  | udpSendTo dest port remote data =>
    cases remote with
    | v6 => exact none _
    | v4 r => exact LogsU.start (fun _ => sendTo_fits r fuel data) ⟨.new (BitVec.ofNat 8 n), dest, port⟩ rfl d.bus
  | udpReceive dest port buf =>
    exact Logs.fits (fun _ => .onSockBus (.bind (udpReceive_fits rfl fuel) fun _ => .pure fun _ h => h)) (buf, d)
  | udpClose dest port => exact release _ _ (Logs.fits (fun _ => .onBus (udpClose_fits rfl keep_fit)) d)

/-- C107, seen from a chip that ignores commands in the wrong state: over any calls on any sockets, with anything happening at
any time and any transfer failing, it never ignores a command while the status is what it last told the driver, or what the
driver's last command brought about. -/
theorem C107_chip (n : Nat) (hn : n < 8) (sched : Nat → List (Nat × Act)) (faults : Nat → Option (E × Nat)) (fuel : Nat)
    (calls : List (Nat × SockCall)) (hc : ∀ c ∈ calls, c.1 < 8) (d : Device Picky H) (hb : d.bus.blame = false) :
    (callsAfter (Picky.dev n sched faults).bus fuel d calls).bus.blame = false := by
  induction calls generalizing d with
  | nil => exact hb
  | cons c calls ih =>
    refine ih (fun x hx => hc x (.tail _ hx)) _ ?_
    by_cases hm : c.1 = n
    · let d' : Device (TW Picky E) H := ⟨⟨d.bus, []⟩, d.state⟩
      have hl := sockCall_like (traced_respects (Picky.dev n sched faults).bus) c.2 fuel c.1 (d := d') (d' := d) ⟨rfl, rfl⟩
      have hp : c.2.proto = 1 ∨ c.2.proto = 2 := by cases c.2 <;> simp [SockCall.proto]
      rw [← hl.1]
      have hf := C107 (B := (Picky.dev n sched faults).bus) c.2 fuel c.1 d'
      have hr := moves_sockCall (B := traced (Picky.dev n sched faults).bus) c.2 fuel c.1 d'
      rw [hm] at hf hr ⊢
      exact reach_alike hn hp hr hb hf
    · exact (reach_other (hc c (.head _)) hn hm (moves_sockCall c.2 fuel c.1 d)).trans hb

/-- Not so MACRAW: a write_frame that returns has given SEND without having looked at the status. -/
theorem C107_raw (i : U8) (fuel : Nat) (frame : List U8) (t t' : TW W E) (k : Nat)
    (h : (⟨.new i⟩ : RawDevice).writeFrame (traced B) fuel frame t = (.ok k, t')) (p : U8) :
    ∃ evs, t'.log = t.log ++ evs ∧ ¬ Fitting (Socket.new i).register p evs := by
  let e : Ev E := .wr (Socket.new i).register 0x01 [0x20] (.ok ())
  let Sent (evs : List (Ev E)) : Prop := ∃ before after, evs = before ++ e :: after ∧ stage (Socket.new i).register before = .unknown
  have ku := keep_at (E := E) (b := (Socket.new i).register) (p := p) .unknown
  have hsend : Logs t.log (Stands (Socket.new i).register p .unknown) ((Socket.new i).command (traced B) .send) (fun _ => Sent)
      (fun _ => True) := by
    constructor
    intro s evs hs hp
    let f := B.writeFrame s.w (Socket.new i).register 0x01 [0x20]
    refine ⟨evs ++ [.wr (Socket.new i).register 0x01 [0x20] f.1], ?_, ?_⟩
    · show s.log ++ [_] = _
      rw [show s.log = t.log ++ evs from hs, List.append_assoc]
      rfl
    · rw [show ((Socket.new i).command (traced B) .send s).1 = f.1 from rfl]
      generalize f.1 = r
      cases r
      · exact ⟨evs, [], rfl, hp.2⟩
      all_goals trivial
  have weak : ∀ {α : Type} {m : M (TW W E) E α} {P : List (Ev E) → Prop} {Q : α → List (Ev E) → Prop} {R : List (Ev E) → Prop},
      Logs t.log P m Q R → Logs t.log P m Q (fun _ => True) := fun h => h.conseq (fun _ h => h) (fun _ _ h => h) fun _ _ => trivial
  have hwait : ∀ n, Logs t.log Sent (RawDevice.waitSendOk (traced B) (Socket.new i) n) (fun _ => Sent) (fun _ => True) := by
    intro n
    induction n with
    | zero => exact .outOfFuel fun _ _ => trivial
    | succ n ih =>
      refine .bind (Q := fun _ => Sent) ?_ fun y => ?_
      · constructor
        intro s evs hs hp
        have hL : Emits (Lang.all (E := E) fun _ => True) ((Socket.new i).hasInterrupt (traced B) .sendOk) :=
          .bind (.read1 fun _ _ _ _ _ => trivial) fun _ => .pure _
        obtain ⟨l, h1, _⟩ := hL.run s
        obtain ⟨before, after, rfl, h3⟩ := hp
        refine ⟨before ++ e :: (after ++ l), h1.trans (by rw [hs]; simp), ?_⟩
        split
        · exact ⟨before, after ++ l, rfl, h3⟩
        all_goals trivial
      · split
        · exact .pure fun _ h => h
        · exact ih
  have key : Logs t.log (Stands (Socket.new i).register p .unknown) ((⟨.new i⟩ : RawDevice).writeFrame (traced B) fuel frame)
      (fun _ => Sent) (fun _ => True) := by
    rw [writeFrame_eq]
    refine .bind (weak (Fit.resetInterrupt ku _)) fun _ => .bind (weak (Fit.reg2 ku _ (by decide) (by decide))) fun free =>
      .bind (Q := fun _ => Sent) ?_ fun _ => .bind (hwait fuel) fun _ => .pure fun _ h => h
    refine .bind (weak (Fit.reg2 ku _ (by decide) (by decide))) fun q => ?_
    split
    · exact .bind (weak (Fit.setTxWritePointer ku _)) fun _ => .bind hsend fun _ => .pure fun _ h => h
    · exact .bind (weak (Fit.tx ku _ _)) fun _ => .bind (weak (Fit.setTxWritePointer ku _)) fun _ => .bind hsend fun _ => .pure fun _ h => h
  obtain ⟨evs, h1, h2⟩ := key.run t [] (List.append_nil _).symm ⟨fitting_nil, rfl⟩
  rw [h] at h1 h2
  obtain ⟨before, after, rfl, h3⟩ := h2
  refine ⟨_, h1, fun hf => ?_⟩
  obtain ⟨x, _, hx, ha⟩ := hf before e after rfl rfl (by simp [e, Touches, Ev.block, Ev.data, Ev.addr])
  cases List.cons.inj hx |>.1
  rw [h3] at ha
  rcases ha with ha | ha | ha | ha
  · exact absurd ha (by decide)
  · exact absurd ha.1 (by decide)
  · exact absurd ha.1 (by decide)
  · exact absurd ha.2 (fun h => nomatch h)

/-! ## Concrete runs -/

/-- Commands that are given in a call, and what was known of the socket. -/
def commandsGiven (b : U8) : Stage → List (Ev Unit) → List (Stage × List U8)
  | _, [] => []
  | st, e :: es =>
    if e.isWrite && Touches b 0x01 e then (st, e.data) :: commandsGiven b (st.next b e) es else commandsGiven b (st.next b e) es

/-- C107 is about something. -/
example : commandsGiven 9 .unknown ((SockCall.tcpSend [7]).after (traced eagerBus) 3 2 (⟨⟨(), []⟩, DeviceState.new ()⟩ : Device _ Unit)).bus.log =
    [(.seen 0x17, [0x20])] := by decide +kernel
example : commandsGiven 9 .unknown ((SockCall.tcpReceive [0]).after (traced eagerBus) 3 2 (⟨⟨(), []⟩, DeviceState.new ()⟩ : Device _ Unit)).bus.log =
    [(.seen 0x17, [0x40])] := by decide +kernel
example : commandsGiven 9 .unknown ((SockCall.tcpConnect (.v4 addrA)).after (traced eagerBus) 3 2
      (⟨⟨(), []⟩, DeviceState.new ()⟩ : Device _ Unit)).bus.log =
    [(.unknown, [0x10]), (.ready 1, [0x01]), (.unknown, [0x10]), (.closed, [0x10]), (.ready 1, [0x01]), (.opened 1, [0x04])] := by
  decide +kernel

/-- A connected socket 0; the peer closes the connection during the given byte. -/
def closing (k : Nat) : Nat → List (Nat × Act) := fun j => if j = k then [(0, .status 0)] else []
def pickyDevice : Device Picky Unit := { demoDevice with bus := ⟨(liveDevice 1 0x17).bus, none, false⟩ }

/-- The connection is closed after `send` has looked: SEND is ignored, and `send` waits in vain. The chip has nothing to blame
the driver for, since the status was another one when it was read. -/
example : let r := Device.tcpSend (Picky.dev 0 (closing 3) noFaults).bus 9 demoSocket [5] pickyDevice
    r.1 = .fuel ∧ r.2.bus.blame = false ∧ r.2.bus.told = none ∧ (r.2.bus.chip.socks 0).sr = 0 := by decide +kernel
example : (callsAfter (Picky.dev 0 (closing 3) noFaults).bus 9 pickyDevice [(0, .tcpSend [5]), (0, .tcpReceive [0]), (1, .tcpClose)]).bus.blame = false :=
  C107_chip 0 (by decide) (closing 3) noFaults 9 _ (by decide) pickyDevice rfl
/-- The connection stays, and SEND is taken. -/
example : let r := Device.tcpSend (Picky.dev 0 (closing 999) noFaults).bus 9 demoSocket [5] pickyDevice
    r.2.bus.told = some 0x17 ∧ (r.2.bus.chip.socks 0).txWr ≠ (pickyDevice.bus.chip.socks 0).txWr := by decide +kernel
/-- MACRAW gives SEND to a socket that it could know to be closed. -/
example : ((⟨.new 0⟩ : RawDevice).writeFrame (Picky.dev 0 (closing 0) noFaults).bus 9 [1]
    ⟨Chip.powerUp, some 0, false⟩).2.blame = true := by decide +kernel
/-- `C107_raw` applies. -/
example : ((⟨.new 2⟩ : RawDevice).writeFrame (traced eagerBus) 3 [1] ⟨(), []⟩).1 = .ok 1 := by decide +kernel

end W5500.Props
