import Verif.Proofs.Slow
import Verif.Props.Refusals
import Verif.Props.Bus
/-! # C85 Slow commands and adaptive environments, C86 Waiting for commands to be taken up -/

namespace W5500.Props
open W5500 W5500.Spec socketn
variable {X W E H : Type}

/-! ## C85 -/

/-- C85: a program (any calls on any number of sockets) on a chip whose commands are pending for any time up to the next access
to the socket, in an environment that chooses events, their moments, and failing transactions in the light of everything that
has happened, sees exactly what it would see on the chip of `Spec/Chip.lean` with some schedule and fault plan of the same
kinds; it has the same handles at the end, and the final chips are the same when the last commands have been taken up. -/
theorem C85 {v : Env X E} {K : Kinds E} (hv : v.Only K) (x : X) (c : Chip) (host : H) (ops : List (Nat × Op Unit)) :
    ∃ p : Plan E, p.Only K ∧
      Client.outputs p.bus (Client.initial c host) (onBusType _ ops) =
        Client.outputs v.dev.bus (Client.initial (x, Slow.idle c) host) (onBusType _ ops) ∧
      (Client.after p.bus (Client.initial c host) (onBusType _ ops)).belongings =
        (Client.after v.dev.bus (Client.initial (x, Slow.idle c) host) (onBusType _ ops)).belongings ∧
      (Client.after p.bus (Client.initial c host) (onBusType _ ops)).dev.bus =
        (Client.after v.dev.bus (Client.initial (x, Slow.idle c) host) (onBusType _ ops)).dev.bus.2.settled := by
  obtain ⟨pre, p, _, hp, e⟩ := replay hv (play_program (E := E) (⟨DeviceState.new host, [], []⟩ : Belongings H) ops) x (Slow.idle c)
  rw [Slow.replay_idle] at e
  have e1 := congrArg (fun r => r.1.1) e
  have e2 := congrArg (fun r => r.1.2) e
  have e3 := congrArg (fun r => r.2) e
  exact ⟨p, hp, e1, e2, e3⟩

theorem play_boot {init : (W : Type) → Bus W E → M W (InitializeError E) (DeviceState H)} (hi : Play0 init)
    (ops : List (Nat × Op Unit)) : Plays fun W (B : Bus W E) w => bootProgram B (init W B) ops w := by
  refine (hi.andThen (G := fun r W B w => match r with
    | .ok st => ((Res.ok st, Client.outputs B ⟨⟨w, st⟩, [], []⟩ (onBusType W ops)),
        (Client.after B ⟨⟨w, st⟩, [], []⟩ (onBusType W ops)).dev.bus)
    | r => ((r, []), w)) ?_).congr ?_
  · rintro (st | e | _ | _)
    · exact (play_program (E := E) (⟨st, [], []⟩ : Belongings H) ops).map fun y => (Res.ok st, y.1)
    · exact Plays.done _
    · exact Plays.done _
    · exact Plays.done _
  · intro W B w
    unfold bootProgram
    generalize init W B w = r
    obtain ⟨_ | _ | _ | _, t⟩ := r <;> rfl

/-- C85 for programs that initialise the chip themselves, with static settings or (nominally) DHCP. -/
theorem C85_boot {v : Env X E} {K : Kinds E} (hv : v.Only K) (x : X) (c : Chip) (av : Bool) (mac : Mac)
    (ip gateway subnet : Ipv4) (mode : Mode) (ops : List (Nat × Op Unit)) :
    (∃ p : Plan E, p.Only K ∧ bootProgram p.bus (Uninit.initializeAdvanced av p.bus mac ip gateway subnet mode) ops c =
      ((bootProgram v.dev.bus (Uninit.initializeAdvanced av v.dev.bus mac ip gateway subnet mode) ops (x, Slow.idle c)).1,
       (bootProgram v.dev.bus (Uninit.initializeAdvanced av v.dev.bus mac ip gateway subnet mode) ops (x, Slow.idle c)).2.2.settled)) ∧
    ∃ p : Plan E, p.Only K ∧ bootProgram p.bus (Uninit.initialize av p.bus mac mode) ops c =
      ((bootProgram v.dev.bus (Uninit.initialize av v.dev.bus mac mode) ops (x, Slow.idle c)).1,
       (bootProgram v.dev.bus (Uninit.initialize av v.dev.bus mac mode) ops (x, Slow.idle c)).2.2.settled) := by
  have h1 := play_initializeWithHost (E := E) av (Manual.new mac ip gateway subnet) mode (play_manualRefresh _)
  have h2 := play_initializeWithHost (E := E) av (Dhcp.new mac) mode .pure
  obtain ⟨_, p1, _, hp1, e1⟩ := replay hv (play_boot h1 ops) x (Slow.idle c)
  obtain ⟨_, p2, _, hp2, e2⟩ := replay hv (play_boot h2 ops) x (Slow.idle c)
  exact ⟨⟨p1, hp1, e1⟩, p2, hp2, e2⟩

theorem play_rawCalls (d : RawDevice) (os : List (Nat × RawCall)) : Plays fun _ (B : Bus _ E) w => rawCalls B d os w := by
  induction os with
  | nil => exact Plays.done ([] : List (RawSeen E))
  | cons o os ih =>
    obtain ⟨fuel, o⟩ := o
    have h1 : Plays fun _ (B : Bus _ E) w => o.run B fuel d w := by
      cases o with
      | read b => exact (play_rawRead (E := E) d fuel b).map fun r => RawSeen.read r.1 r.2
      | write f => exact (play_rawWrite (E := E) d fuel f).map RawSeen.written
      | enable y => exact (play_rawEnable (E := E) d y).map RawSeen.unit
      | clear => exact (play_rawClear (E := E) d).map RawSeen.unit
      | disable => exact (play_rawDisable (E := E) d).map RawSeen.unit
    exact h1.andThen fun y => ih.map fun ys => y :: ys

theorem play_rawProgram (mac : Mac) (os : List (Nat × RawCall)) : Plays fun _ (B : Bus _ E) w => rawProgram B mac os w := by
  refine ((play_initializeMacraw (E := E) mac).andThen (G := fun r W B w => match r with
    | .ok d => ((Res.ok d, (rawCalls B d os w).1), (rawCalls B d os w).2)
    | r => ((r, []), w)) ?_).congr ?_
  · rintro (d | e | _ | _)
    · exact (play_rawCalls d os).map fun l => (Res.ok d, l)
    · exact Plays.done _
    · exact Plays.done _
    · exact Plays.done _
  · intro W B w
    unfold rawProgram
    dsimp only
    generalize Uninit.initializeMacraw B mac w = r
    obtain ⟨_ | _ | _ | _, t⟩ := r <;> rfl

/-- C85, MACRAW: a program that initialises the chip for raw frames and uses the device in any way. -/
theorem C85_macraw {v : Env X E} {K : Kinds E} (hv : v.Only K) (x : X) (c : Chip) (mac : Mac) (os : List (Nat × RawCall)) :
    ∃ p : Plan E, p.Only K ∧ rawProgram p.bus mac os c =
      ((rawProgram v.dev.bus mac os (x, Slow.idle c)).1, (rawProgram v.dev.bus mac os (x, Slow.idle c)).2.2.settled) := by
  obtain ⟨pre, p, _, hp, e⟩ := replay hv (play_rawProgram (E := E) mac os) x (Slow.idle c)
  exact ⟨p, hp, e⟩

/-- The calls on a connected TCP socket, on the chip with a plan. -/
theorem tcpIo_run {p : Plan E} {acc del : List U8} {c0 : Chip} (io : List (Nat × TcpIo)) (c : Client Chip H)
    (hl : c.live = [.tcp ⟨Socket.new (BitVec.ofNat 8 0)⟩]) (h : TcpSoundRun p.sched p.faults 0 c0 acc del c.dev.bus)
    (hs : ∀ o ∈ Client.outputs p.bus c (onBusType _ (io.map fun o => (o.1, o.2.op))), o.Sound) :
    TcpSoundRun p.sched p.faults 0 c0
      (acc ++ sentBytes io (Client.outputs p.bus c (onBusType _ (io.map fun o => (o.1, o.2.op)))))
      (del ++ gotBytes (Client.outputs p.bus c (onBusType _ (io.map fun o => (o.1, o.2.op)))))
      (Client.after p.bus c (onBusType _ (io.map fun o => (o.1, o.2.op)))).dev.bus := by
  induction io generalizing c acc del with
  | nil => simpa [sentBytes, gotBytes, Client.outputs, Client.after, onBusType] using h
  | cons o io ih =>
    obtain ⟨fuel, d | b⟩ := o
    · have e : c.step p.bus fuel (.tcpSend 0 d) =
          { c with dev := (Device.tcpSend p.bus fuel ⟨Socket.new (BitVec.ofNat 8 0)⟩ d c.dev).2 } := by
        simp only [Client.step, hl]; rfl
      have e' : c.seen p.bus fuel (.tcpSend 0 d) =
          .tcpSent (Device.tcpSend p.bus fuel ⟨Socket.new (BitVec.ofNat 8 0)⟩ d c.dev).1 := by
        simp only [Client.seen, hl]; rfl
      have hs1 := hs _ List.mem_cons_self
      change Seen.Sound (c.seen p.bus fuel (.tcpSend 0 d)) at hs1
      rw [e'] at hs1
      have := ih (acc := acc ++ accepted d (Device.tcpSend p.bus fuel ⟨Socket.new (BitVec.ofNat 8 0)⟩ d c.dev).1) (del := del)
        (c.step p.bus fuel (.tcpSend 0 d)) (by rw [e]; exact hl) (by rw [e]; exact h.send fuel d _ rfl hs1)
        fun o ho => hs o (List.mem_cons_of_mem _ ho)
      rw [List.append_assoc] at this
      show TcpSoundRun _ _ _ _ (acc ++ sentBytes _ (c.seen p.bus fuel (.tcpSend 0 d) :: _)) (del ++ gotBytes (c.seen p.bus fuel (.tcpSend 0 d) :: _)) _
      rw [e']
      exact this
    · have e : c.step p.bus fuel (.tcpReceive 0 b) =
          { c with dev := (Device.tcpReceive p.bus fuel ⟨Socket.new (BitVec.ofNat 8 0)⟩ (b, c.dev)).2.2 } := by
        simp only [Client.step, hl]; rfl
      have e' : c.seen p.bus fuel (.tcpReceive 0 b) =
          .tcpReceived (Device.tcpReceive p.bus fuel ⟨Socket.new (BitVec.ofNat 8 0)⟩ (b, c.dev)).1
            (Device.tcpReceive p.bus fuel ⟨Socket.new (BitVec.ofNat 8 0)⟩ (b, c.dev)).2.1 := by
        simp only [Client.seen, hl]; rfl
      have hs1 := hs _ List.mem_cons_self
      change Seen.Sound (c.seen p.bus fuel (.tcpReceive 0 b)) at hs1
      rw [e'] at hs1
      have := ih (acc := acc)
        (del := del ++ accepted (Device.tcpReceive p.bus fuel ⟨Socket.new (BitVec.ofNat 8 0)⟩ (b, c.dev)).2.1
          (Device.tcpReceive p.bus fuel ⟨Socket.new (BitVec.ofNat 8 0)⟩ (b, c.dev)).1)
        (c.step p.bus fuel (.tcpReceive 0 b)) (by rw [e]; exact hl) (by rw [e]; exact h.receive fuel b _ _ rfl hs1)
        fun o ho => hs o (List.mem_cons_of_mem _ ho)
      rw [List.append_assoc] at this
      show TcpSoundRun _ _ _ _ (acc ++ sentBytes _ (c.seen p.bus fuel (.tcpReceive 0 b) :: _)) (del ++ gotBytes (c.seen p.bus fuel (.tcpReceive 0 b) :: _)) _
      rw [e']
      exact this

/-- C85 at work: the byte streams of a TCP connection (C45, C46, C66) on a slow chip in an adaptive environment. -/
theorem C85_tcp (v : Env X E) (x : X) (c : Chip) (hz : Sock.SizesOk (c.socks 0).mem) (host : H) (fuel fuel' : Nat)
    (remote : SockAddr) (io : List (Nat × TcpIo)) (t : TcpSocket) (outs : List (Seen E))
    (ho : Client.outputs v.dev.bus (Client.initial (x, Slow.idle c) host) (onBusType _ (tcpProgram fuel fuel' remote io)) =
      .tcpSocket (.ok t) :: .tcp (.ok ()) :: outs) (hs : ∀ o ∈ outs, o.Sound) :
    let s := (Client.after v.dev.bus (Client.initial (x, Slow.idle c) host)
      (onBusType _ (tcpProgram fuel fuel' remote io))).dev.bus.2.settled.socks 0
    (∃ before, s.stream ++ s.pending = before ++ sentBytes io outs) ∧ ∃ before, s.arrived = before ++ gotBytes outs ++ s.queue := by
  intro s
  obtain ⟨p, _, e1, _, e3⟩ := C85 (K := ⟨fun _ _ => True, fun _ => True⟩) (v := v)
    ⟨fun _ _ _ _ _ _ _ _ => trivial, fun _ _ _ _ => trivial⟩ x c host (tcpProgram fuel fuel' remote io)
  rw [ho] at e1
  have e4 : s = (Client.after p.bus (Client.initial c host) (onBusType _ (tcpProgram fuel fuel' remote io))).dev.bus.socks 0 :=
    by rw [e3]
  let c1 : Client Chip H := ⟨⟨c, ⟨host, setBit 0xFF 0 false⟩⟩, [.tcp ⟨Socket.new (BitVec.ofNat 8 0)⟩], []⟩
  let r := Device.tcpConnect p.bus fuel' ⟨Socket.new (BitVec.ofNat 8 0)⟩ remote c1.dev
  let c2 : Client Chip H := { c1 with dev := r.2 }
  have h0 : (Client.initial c host).step p.bus fuel .tcpSocket = c1 := by
    simp [Client.step, Client.alloc, Device.tcpSocket, Device.takeSocket, Client.initial, DeviceState.new, DeviceState.socket,
      DeviceState.socketLoop, bind, M.bind, pure, M.pure, c1]
  have h1 : c1.step p.bus fuel' (.tcpConnect 0 remote) = c2 := rfl
  have h2 : c1.seen p.bus fuel' (.tcpConnect 0 remote) = .tcp r.1 := rfl
  change _ :: (Client.seen p.bus fuel' (Client.step p.bus fuel _ .tcpSocket) (.tcpConnect 0 remote)) :: Client.outputs p.bus (Client.step p.bus fuel' (Client.step p.bus fuel _ .tcpSocket) (.tcpConnect 0 remote)) (onBusType _ (io.map fun o => (o.1, o.2.op))) = _ at e1
  rw [h0, h1, h2] at e1
  change Seen.tcpSocket _ :: Seen.tcp r.1 :: Client.outputs p.bus c2 (onBusType _ (io.map fun o => (o.1, o.2.op))) = _ at e1
  simp only [List.cons.injEq, Seen.tcp.injEq] at e1
  obtain ⟨-, hok, e1⟩ := e1
  have hrun := tcpIo_run (p := p) io c2 rfl TcpSoundRun.start (by rw [e1]; exact hs)
  rw [e1] at hrun
  have := C66_tcp 0 (by decide) fuel' remote c1.dev r.2 hz (run_eq hok) _ _ _ hrun
  have e5 : s = (Client.after p.bus c2 (onBusType _ (io.map fun o => (o.1, o.2.op)))).dev.bus.socks 0 := by
    rw [e4]
    change (Client.after p.bus (Client.step p.bus fuel' (Client.step p.bus fuel _ .tcpSocket) (.tcpConnect 0 remote))
      (onBusType _ (io.map fun o => (o.1, o.2.op)))).dev.bus.socks 0 = _
    rw [h0, h1]
  rw [e5]
  obtain ⟨h1, b, -, h2⟩ := this
  exact ⟨⟨_, h1⟩, b, h2⟩

/-- An environment for the demonstration. It answers what the host does: the connection is established when the host asks for the
status, the data is transmitted and the peer's answer arrives when the host asks for interrupts. Commands wait for the next
access. No transaction fails. -/
def answerEnv : Env Unit Unit where
  before _ _ b a w :=
    (if b = 1 ∧ a = 0x03 then [(0, .act (.status 0x17))]
     else if b = 1 ∧ a = 0x02 then [(0, .accept), (0, .act (.transmit 9)), (0, .act (.raise 0x10))]
     else if b = 1 ∧ a = 0x25 ∧ w ≠ none then [(0, .act (.arrive [1, 2]))]
     else [], ())
  fault _ _ := (none, ())

def answered : (Res (TcpSocketError Unit) Unit × Device (Unit × Slow) Unit) :=
  Device.tcpConnect answerEnv.dev.bus 100 demoSocket demoRemote ⟨((), Slow.idle Chip.powerUp), ⟨(), setBit 0xFF 0 false⟩⟩
def answeredSend : (Res (TcpSocketError Unit) Nat × Device (Unit × Slow) Unit) :=
  Device.tcpSend answerEnv.dev.bus 9 demoSocket [7, 8] answered.2
def answeredReceive : (Res (TcpSocketError Unit) Nat × List U8 × Device (Unit × Slow) Unit) :=
  Device.tcpReceive answerEnv.dev.bus 9 demoSocket ([0, 0, 0], answeredSend.2)

def answeredClose : Res (TcpSocketError Unit) Unit × Device (Unit × Slow) Unit :=
  Device.tcpClose answerEnv.dev.bus demoSocket answeredReceive.2.2

/-- C85 and C85_tcp are not vacuous: a connection is made, `[7, 8]` sent and `[1, 2]` received. After `close` the command CLOSE is
still pending: the status is ESTABLISHED, and will be CLOSED. -/
example :
    answered.1 = .ok () ∧ answeredSend.1 = .ok 2 ∧ answeredReceive.1 = .ok 2 ∧ answeredReceive.2.1 = [1, 2, 0] ∧
    (answeredReceive.2.2.bus.2.chip.socks 0).stream = [7, 8] ∧ answeredClose.1 = .ok () ∧
    answeredClose.2.bus.2.busy 0 = some 0x10 ∧ (answeredClose.2.bus.2.chip.socks 0).sr = 0x17 ∧
    (answeredClose.2.bus.2.settled.socks 0).sr = 0x00 := by
  refine ⟨?_, ?_, ?_, ?_, ?_, ?_, ?_, ?_, ?_⟩ <;> decide +kernel

/-! ## C86 -/

/-- An access that does not read Sn_CR (offset 1 of a socket's register block). -/
def noCommandRead : Ev E → Prop
  | .rd b a d _ => b.toNat % 4 = 1 → ∀ i, i < d.length → a + BitVec.ofNat 16 i ≠ 0x01
  | .wr .. => True

theorem legitimate_noCommandRead (e : Ev E) (h : legitimate e) : noCommandRead e := by
  cases e with
  | wr => trivial
  | rd b a d r =>
    intro hb i hi
    rcases h with h | ⟨n, hn, ⟨_, h⟩ | h⟩
    · have := h.1; omega
    · have key : ∀ p ∈ sockReadable, ∀ i, i < p.2 → p.1 + BitVec.ofNat 16 i ≠ 0x01 := by decide
      exact key _ h i hi
    · omega

/-- C86: whatever the program does and whatever happens on the bus, the driver never looks at a command register: it never
finds out whether a command has been taken up. -/
theorem C86_never_polled (B : Bus W E) (fuel : Nat) (w : W) (host : H) (ops : List (Op (TW W E)))
    (hr : ∀ g, Op.reactivate g ∈ ops → g = id) :
    ∀ e ∈ (Client.run (traced B) fuel (Client.initial ⟨w, []⟩ host) ops).dev.bus.log, noCommandRead e :=
  fun e he => legitimate_noCommandRead e (C21_history B fuel w host ops hr e he)

/-- C86, partial: if commands are taken up before the next access to the socket, at the latest, waiting would end at once: Sn_CR
always reads as 0. (And then everything is as if commands were executed immediately: C85.) Missing: the chip gives no such
guarantee; see `C86_refuted`. -/
theorem C86_partial (v : Env X E) (s : X × Slow) (n : Nat) (hn : n < 8) :
    (v.dev.readByte s (BitVec.ofNat 5 (4 * n + 1)) 0x01).1 = 0 ∧
    (v.dev.readByte s (BitVec.ofNat 5 (4 * n + 1)) 0x01).2.2.busy n = none := by
  have h1 : (BitVec.ofNat 5 (4 * n + 1)).toNat = 4 * n + 1 := by
    rw [BitVec.toNat_ofNat]; omega
  have h0 : BitVec.ofNat 5 (4 * n + 1) ≠ 0 := by
    intro h
    have := congrArg BitVec.toNat h
    rw [h1] at this
    simp at this
  refine ⟨?_, ?_⟩
  · unfold Env.dev Chip.peek
    dsimp only
    rw [if_neg h0, if_pos (by omega)]
    rfl
  · have := Slow.turn_busy s.2 (v.before s.1 s.2 (BitVec.ofNat 5 (4 * n + 1)) 0x01 none).1 h0
    rw [h1, show (4 * n + 1) / 4 = n by omega] at this
    exact this

/-- An environment that takes up RECV slowly (not during this demonstration) and everything else at once. Three bytes
arrive before the first receive and one after it. -/
def lazyEnv : Env Nat Unit where
  before k _ b a w :=
    if b = 1 ∧ a = 0x02 ∧ w = none then
      (if k = 0 then [(0, .act (.arrive [1, 2, 3]))] else if k = 2 then [(0, .act (.arrive [4]))] else [], k + 1)
    else if k = 2 ∨ k = 3 then ([], k)
    else ((0, .accept) :: if b = 1 ∧ a = 0x03 then [(0, .act (.status 0x17))] else [],
      if b = 1 ∧ a = 0x01 ∧ w = some 0x40 then 2 else k)
  fault k _ := (none, k)

def lazyConnected : Device (Nat × Slow) Unit :=
  (Device.tcpConnect lazyEnv.lazyDev.bus 100 demoSocket demoRemote ⟨(0, Slow.idle Chip.powerUp), DeviceState.new ()⟩).2
def lazyFirst : Res (TcpSocketError Unit) Nat × List U8 × Device (Nat × Slow) Unit :=
  Device.tcpReceive lazyEnv.lazyDev.bus 9 demoSocket ([9, 9, 9], lazyConnected)
def lazySecond : Res (TcpSocketError Unit) Nat × List U8 × Device (Nat × Slow) Unit :=
  Device.tcpReceive lazyEnv.lazyDev.bus 9 demoSocket ([9, 9, 9, 9, 9], lazyFirst.2.2)

/-- C86 is false of the code: if the chip has not taken up RECV when `receive` is called again, the call returns the byte that
arrived in the meantime and three that nobody sent. No transaction fails. -/
theorem C86_refuted :
    lazyFirst.1 = .ok 3 ∧ lazyFirst.2.1 = [1, 2, 3] ∧ lazySecond.1 = .ok 4 ∧ lazySecond.2.1 = [4, 0, 0, 0, 9] ∧
    (lazySecond.2.2.bus.2.chip.socks 0).arrived = [1, 2, 3, 4] := by
  refine ⟨?_, ?_, ?_, ?_, ?_⟩ <;> decide +kernel

end W5500.Props
