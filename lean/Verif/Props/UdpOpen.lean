import Verif.Proofs.Regs
import Verif.Props.TcpConnect
import Verif.Props.Init
/-! # Opening sockets: C31 – C34 -/

namespace W5500.Props
open W5500 W5500.Spec
variable {W E H : Type}

/-! ## C31 UDP socket opening sequence -/

theorem onSnd_mapErr {S ε ε' α : Type} (f : ε → ε') (m : M W ε α) (x : S) (w : W) :
    M.mapErr f (M.onSnd m) (x, w) = ((M.mapErr f m w).1, (x, (M.mapErr f m w).2)) := by
  rw [M.mapErr_def, M.onSnd_apply, M.mapErr_def]
  dsimp only
  rcases m w with ⟨_ | _ | _ | _, t⟩ <;> rfl

/-- C31, bind: exactly these writes, in this order, up to the first error: the source port (0x04), then the opening
script in UDP mode (2) with the same port. The device state other than the bus is not touched; the socket object has
the new port in any case. -/
theorem C31_bind_script (B : Bus W E) (port : U16) (s : UdpSocket) (d : Device W H) :
    Device.udpBind B port (s, d) =
      let r := M.mapErr UdpSocketError.other (writeAll B ((s.socket.register, 0x04, be port.toNat) ::
        openScript s.socket.register port.toNat 0x02 0)) d.bus
      (r.1, ({ s with port := port }, { d with bus := r.2 })) := by
  have key : (do
      UdpSocket.setPort B port
      let self := (← M.get).1
      M.mapErr UdpSocketError.other (M.onSnd (self.open B)) : M (UdpSocket × W) _ Unit) (s, d.bus) =
      let r := M.mapErr UdpSocketError.other (writeAll B ((s.socket.register, 0x04, be port.toNat) ::
        openScript s.socket.register port.toNat 0x02 0)) d.bus
      (r.1, ({ s with port := port }, r.2)) := by
    have h1 : UdpSocket.setPort B port (s, d.bus) =
        ((M.mapErr UdpSocketError.other (B.write s.socket.register 0x04 (be port.toNat)) d.bus).1,
          ({ s with port := port }, (M.mapErr UdpSocketError.other (B.write s.socket.register 0x04 (be port.toNat)) d.bus).2)) := by
      rw [← toBeBytes_eq_be]
      exact onSnd_mapErr _ _ _ _
    show _ = ((M.mapErr UdpSocketError.other (B.write s.socket.register 0x04 (be port.toNat) >>= fun _ =>
      writeAll B (openScript s.socket.register port.toNat 0x02 0)) d.bus).1, _)
    rw [show M.mapErr UdpSocketError.other (writeAll B ((s.socket.register, 0x04, be port.toNat) ::
        openScript s.socket.register port.toNat 0x02 0)) = M.mapErr UdpSocketError.other
          (B.write s.socket.register 0x04 (be port.toNat) >>= fun _ =>
      writeAll B (openScript s.socket.register port.toNat 0x02 0)) from rfl, M.mapErr_bind, M.bind_def, M.bind_def, h1]
    generalize M.mapErr UdpSocketError.other (B.write s.socket.register 0x04 (be port.toNat)) d.bus = r
    obtain ⟨_ | _ | _ | _, w1⟩ := r
    · show M.mapErr UdpSocketError.other (M.onSnd (UdpSocket.open B { s with port := port })) (_, w1) = _
      rw [udp_open_script, onSnd_mapErr]
    all_goals rfl
  unfold Device.udpBind Device.onSockBus M.zoom
  dsimp only
  rw [key]

/-- `a` after success, `b` otherwise. -/
def onOk {ε α : Type} (r : Res ε Unit) (a b : α) : α := match r with
  | .ok () => a
  | _ => b

/-- What `connect` writes after opening: the remote endpoint, unless the socket object already has it as destination. -/
def destScript (s : UdpSocket) (remote : SockAddr4) : List Wr :=
  if s.destination = some remote then []
  else remoteScript s.socket.register [remote.ip.a, remote.ip.b, remote.ip.c, remote.ip.d] remote.port.toNat

theorem setDestination_eq (B : Bus W E) (remote : SockAddr4) (s : UdpSocket) (w : W) :
    UdpSocket.setDestination B remote (s, w) =
      let r := M.mapErr UdpSocketError.other (writeAll B (destScript s remote)) w
      (r.1, (onOk r.1 { s with destination := some remote } s, r.2)) := by
  have hd : UdpSocket.setDestination B remote (s, w) = (if s.destination = some remote then pure () else (do
      M.mapErr .other (M.onSnd (s.socket.setDestinationIp B remote.ip))
      M.mapErr .other (M.onSnd (s.socket.setDestinationPort B remote.port))
      M.modify fun s => ({ s.1 with destination := some remote }, s.2)) :
        M (UdpSocket × W) (UdpSocketError E) Unit) (s, w) := by
    show (if (match s.destination with | some dest => decide (dest ≠ remote) | none => true) = true then _ else _ : M (UdpSocket × W) (UdpSocketError E) Unit) _ = _
    cases h : s.destination with
    | none => rfl
    | some x =>
      by_cases hx : x = remote
      · subst hx
        rw [if_neg (by simp), if_pos rfl]
      · rw [if_pos (decide_eq_true hx), if_neg (by simpa using hx)]
  rw [hd]
  unfold destScript
  by_cases h : s.destination = some remote
  · rw [if_pos h, if_pos h]
    show (Res.ok (), (s, w)) = (Res.ok (), ({ s with destination := some remote }, w))
    rw [← h]
  · rw [if_neg h, if_neg h]
    have h1 : writeAll B (remoteScript s.socket.register [remote.ip.a, remote.ip.b, remote.ip.c, remote.ip.d] remote.port.toNat) = (do
        s.socket.setDestinationIp B remote.ip
        s.socket.setDestinationPort B remote.port) := by
      unfold remoteScript
      simp only [← toBeBytes_eq_be, writeAll, bind_unit]
      rfl
    rw [h1, M.mapErr_bind, M.bind_def, M.bind_def, onSnd_mapErr]
    generalize M.mapErr UdpSocketError.other (s.socket.setDestinationIp B remote.ip) w = r
    obtain ⟨_ | _ | _ | _, w1⟩ := r
    · dsimp only
      rw [M.bind_def, onSnd_mapErr]
      generalize M.mapErr UdpSocketError.other (s.socket.setDestinationPort B remote.port) w1 = r
      obtain ⟨_ | _ | _ | _, w2⟩ := r
      · rfl
      all_goals rfl
    all_goals rfl

/-- C31, connect: exactly these writes, in this order, up to the first error. The socket object gets the destination
iff all of them succeed. -/
theorem C31_connect_script (B : Bus W E) (remote : SockAddr4) (s : UdpSocket) (d : Device W H) :
    Device.udpConnect B (.v4 remote) (s, d) =
      let r := M.mapErr UdpSocketError.other (writeAll B (openScript s.socket.register s.port.toNat 0x02 0 ++
        destScript s remote)) d.bus
      (r.1, (onOk r.1 { s with destination := some remote } s, { d with bus := r.2 })) := by
  have key : (do
      let self := (← M.get).1
      M.mapErr UdpSocketError.other (M.onSnd (self.open B))
      UdpSocket.setDestination B remote : M (UdpSocket × W) _ Unit) (s, d.bus) =
      let r := M.mapErr UdpSocketError.other (writeAll B (openScript s.socket.register s.port.toNat 0x02 0 ++
        destScript s remote)) d.bus
      (r.1, (onOk r.1 { s with destination := some remote } s, r.2)) := by
    show (M.mapErr UdpSocketError.other (M.onSnd (s.open B)) >>= fun _ => UdpSocket.setDestination B remote) (s, d.bus) = _
    rw [M.bind_def, onSnd_mapErr, udp_open_script, writeAll_append, M.mapErr_bind, M.bind_def]
    generalize M.mapErr UdpSocketError.other (writeAll B (openScript s.socket.register s.port.toNat 0x02 0)) d.bus = r
    obtain ⟨_ | _ | _ | _, w1⟩ := r
    · dsimp only
      rw [setDestination_eq]
    all_goals rfl
  unfold Device.udpConnect Device.onSockBus M.zoom
  dsimp only
  rw [key]

/-- The registers of socket n after a script for it. -/
theorem script_mem {n : Nat} (hn : n < 8) {c c' : Chip} (l : List (U16 × List U8))
    (h : writeAll (Chip.dev sched faults).bus (l.map fun x => ((sockOf n).register, x.1, x.2)) c = (.ok (), c')) :
    unptr (c'.socks n).mem = RegFile.sockRun (unptr (c.socks n).mem) l := by
  have := Chip.regs_writeAll h
  rw [RegFile.run_sock hn] at this
  refine (congrFun (congrArg RegFile.smem this) n).trans ?_
  dsimp only
  rw [if_pos rfl]
  rfl

/-- OPEN in UDP mode. -/
theorem open_udp {n : Nat} (hn : n < 8) {c c' : Chip} (hm : (c.socks n).mem 0x00 = 0x02)
    (h : (Chip.dev sched faults).bus.write (sockOf n).register 0x01 [0x01] c = (.ok (), c')) :
    (c'.socks n).sr = 0x22 ∧ (c'.socks n).queue = [] ∧ (c'.socks n).pending = [] := by
  obtain ⟨c1, e1, e2⟩ := Chip.write1_ok h
  have hr := Chip.reg_toNat n hn
  have hs : c'.socks n = (c1.socks n).command 0x01 := by
    rw [e2]
    unfold Chip.poke
    rw [if_neg (Chip.ne_zero_of_toNat (by omega)), if_pos (by omega), show _ / 4 = n by omega]
    exact if_pos rfl
  have hp : (c1.socks n).proto = 2 := by
    unfold Sock.proto
    rw [show (c1.socks n).mem = (c.socks n).mem from Chip.mem_evolves e1 n, hm]
    rfl
  rw [hs]
  refine ⟨?_, open_empty _⟩
  unfold Sock.command
  rw [if_pos rfl]
  show (if (c1.socks n).proto = 1 then _ else _) = _
  rw [hp]; rfl

/-- The opening script by offsets. -/
def openOffsets (port : Nat) (mode mask : U8) : List (U16 × List U8) :=
  [(0x01, [0x10]), (0x02, [0xFF]), (0x04, be port), (0x00, [mode]), (0x2C, [mask]), (0x01, [0x01])]

theorem be_pair (p : Nat) : ∃ x y, be p = [x, y] := ⟨_, _, rfl⟩

theorem dest_offsets {a : U16} (h1 : 0x0C ≤ a.toNat) (h2 : a.toNat ≤ 0x11) :
    a = 0x0C ∨ a = 0x0D ∨ a = 0x0E ∨ a = 0x0F ∨ a = 0x10 ∨ a = 0x11 := by
  have key : ∀ k, a.toNat = k → a = BitVec.ofNat 16 k := fun k h => by rw [← h, BitVec.ofNat_toNat, BitVec.setWidth_eq]
  have : a.toNat = 12 ∨ a.toNat = 13 ∨ a.toNat = 14 ∨ a.toNat = 15 ∨ a.toNat = 16 ∨ a.toNat = 17 := by omega
  rcases this with h | h | h | h | h | h <;> have := key _ h <;> subst this <;> decide

theorem dest_ne {a : U16} (h1 : 0x0C ≤ a.toNat) (h2 : a.toNat ≤ 0x11) :
    a ≠ 0x24 ∧ a ≠ 0x25 ∧ a ≠ 0x28 ∧ a ≠ 0x29 := by
  rcases dest_offsets h1 h2 with rfl | rfl | rfl | rfl | rfl | rfl <;> decide

/-- C31, bind on the chip, whatever state it is in: after a successful call socket n is in UDP state (Sn_SR = 0x22) with
UDP mode and the requested local port, its buffers are empty, and the destination registers are as before. -/
theorem C31_bind {n : Nat} (hn : n < 8) (port : U16) (s s' : UdpSocket) (hs : s.socket = Socket.new (BitVec.ofNat 8 n))
    (d d' : Device Chip H) (h : Device.udpBind (Chip.dev sched faults).bus port (s, d) = (.ok (), (s', d'))) :
    (d'.bus.socks n).sr = 0x22 ∧ (d'.bus.socks n).mem 0x00 = 0x02 ∧
    [(d'.bus.socks n).mem 0x04, (d'.bus.socks n).mem 0x05] = be port.toNat ∧
    (d'.bus.socks n).queue = [] ∧ (d'.bus.socks n).pending = [] ∧
    (∀ a : U16, 0x0C ≤ a.toNat → a.toNat ≤ 0x11 → (d'.bus.socks n).mem a = (d.bus.socks n).mem a) ∧
    s' = { s with port := port } := by
  rw [C31_bind_script, hs] at h
  obtain ⟨h1, h2, h3⟩ := Prod.mk.inj h |>.imp_right Prod.mk.inj
  have hw : writeAll (Chip.dev sched faults).bus ((((0x04, be port.toNat) :: openOffsets port.toNat 0x02 0)).map
      fun x => ((sockOf n).register, x.1, x.2)) d.bus = (.ok (), d'.bus) := by
    rw [← h3]
    exact (M.mapErr_eq_ok (f := UdpSocketError.other)).mp (Prod.ext h1 rfl)
  have hm := script_mem hn _ hw
  have hsplit : (((0x04, be port.toNat) :: openOffsets port.toNat 0x02 0)).map
      (fun x => ((sockOf n).register, x.1, x.2)) =
      ((((0x04, be port.toNat) :: openOffsets port.toNat 0x02 0).take 6).map
        fun x => ((sockOf n).register, x.1, x.2)) ++ [((sockOf n).register, 0x01, [0x01])] := rfl
  rw [hsplit, writeAll_append, M.bind_eq_ok] at hw
  obtain ⟨_, c1, hw1, hw2⟩ := hw
  rw [writeAll_one] at hw2
  obtain ⟨r1, r2, r3⟩ := open_udp hn (show unptr (c1.socks n).mem 0 = _ by rw [script_mem hn _ hw1]; rfl) hw2
  refine ⟨r1, show unptr _ 0 = _ by rw [hm]; rfl, show [unptr _ 4, unptr _ 5] = _ by rw [hm]; rfl, r2, r3,
    fun a h1 h2 => ?_, by rw [hs]; exact h2.symm⟩
  rw [← unptr_ne (m := (d'.bus.socks n).mem) (dest_ne h1 h2), hm]
  rcases dest_offsets h1 h2 with rfl | rfl | rfl | rfl | rfl | rfl <;> rfl

/-- The environment never changes the status of socket n on its own. -/
def StatusQuiet (n : Nat) (sched : Nat → List (Nat × Act)) : Prop := ∀ t x, (n, Act.status x) ∉ sched t

theorem act_sr {s : Sock} {a : Act} (h : ∀ x, a ≠ .status x) : (s.act a).sr = s.sr := by
  unfold Sock.act Sock.push
  split
  all_goals first | exact absurd rfl (h _) | skip
  all_goals (repeat' split) <;> rfl

theorem tick_sr {n : Nat} (hq : StatusQuiet n sched) (c : Chip) : ((c.tick sched).socks n).sr = (c.socks n).sr := by
  unfold Chip.tick
  dsimp only
  have h := hq c.clock
  generalize sched c.clock = l at h
  induction l generalizing c with
  | nil => rfl
  | cons e l ih =>
    rw [List.foldl_cons, ih _ fun x hx => h x (by simp [hx])]
    unfold Chip.event Chip.setSock
    dsimp only
    split
    · rename_i he
      rw [← he]
      refine act_sr fun x hx => h x ?_
      obtain ⟨m, a⟩ := e
      subst hx he
      simp
    · rfl

theorem writeBytes_sr {n : Nat} (hn : n < 8) (hq : StatusQuiet n sched) (a : U16) (data : List U8) (c : Chip)
    (h : ∀ i, i < data.length → a + BitVec.ofNat 16 i ≠ 0x01) :
    (((Chip.dev sched faults).writeBytes c ((sockOf n).register.setWidth 5) a data).socks n).sr = (c.socks n).sr := by
  induction data generalizing c a with
  | nil => rfl
  | cons x xs ih =>
    show (((Chip.dev sched faults).writeBytes ((c.tick sched).poke _ a x) _ (a + 1) xs).socks n).sr = _
    have h0 := h 0 (by simp)
    rw [BitVec.add_zero] at h0
    rw [ih, ← tick_sr hq c]
    · have hr := Chip.reg_toNat n hn
      unfold Chip.poke
      rw [if_neg (Chip.ne_zero_of_toNat (by omega)), if_pos (by omega), show _ / 4 = n by omega]
      show (if n = n then _ else _ : Sock).sr = _
      rw [if_pos rfl]
      unfold Sock.pokeReg
      rw [if_neg h0]
      (repeat' split) <;> rfl
    · intro i hi
      have := h (i + 1) (by simpa using hi)
      rwa [BitVec.ofNat_add, BitVec.add_comm (BitVec.ofNat 16 i), ← BitVec.add_assoc] at this

theorem write_sr {n : Nat} (hn : n < 8) (hq : StatusQuiet n sched) {a : U16} {data : List U8} {c c' : Chip}
    (h : ∀ i, i < data.length → a + BitVec.ofNat 16 i ≠ 0x01)
    (hw : (Chip.dev sched faults).bus.write (sockOf n).register a data c = (.ok (), c')) :
    (c'.socks n).sr = (c.socks n).sr := by
  unfold Bus.write at hw
  simp only [ByteDev.bus] at hw
  split at hw
  · rename_i c1 hc1
    have : c1 = { c with txn := c.txn + 1 } := by simp only [Chip.dev, Prod.mk.injEq] at hc1; exact hc1.2.symm
    subst this
    obtain ⟨_, rfl⟩ := Prod.mk.inj hw
    exact writeBytes_sr hn hq a data _ h
  · cases (Prod.mk.inj hw).1

/-- C31, connect on the chip, whatever state it is in: after a successful call socket n has UDP mode, the local port of
the socket object, and the requested destination — in the socket object always, in the chip's destination registers
unless the object had this destination before (then they are as they were: see C38). It is in UDP state if the
environment does not change the status of its own accord. -/
theorem C31_connect_partial {n : Nat} (hn : n < 8) (remote : SockAddr4) (s s' : UdpSocket)
    (hs : s.socket = Socket.new (BitVec.ofNat 8 n)) (d d' : Device Chip H)
    (h : Device.udpConnect (Chip.dev sched faults).bus (.v4 remote) (s, d) = (.ok (), (s', d'))) :
    (StatusQuiet n sched → (d'.bus.socks n).sr = 0x22) ∧ (d'.bus.socks n).mem 0x00 = 0x02 ∧
    [(d'.bus.socks n).mem 0x04, (d'.bus.socks n).mem 0x05] = be s.port.toNat ∧
    (s.destination ≠ some remote →
      [(d'.bus.socks n).mem 0x0C, (d'.bus.socks n).mem 0x0D, (d'.bus.socks n).mem 0x0E, (d'.bus.socks n).mem 0x0F] =
        [remote.ip.a, remote.ip.b, remote.ip.c, remote.ip.d] ∧ [(d'.bus.socks n).mem 0x10, (d'.bus.socks n).mem 0x11] = be remote.port.toNat) ∧
    (s.destination = some remote → ∀ a : U16, 0x0C ≤ a.toNat → a.toNat ≤ 0x11 →
      (d'.bus.socks n).mem a = (d.bus.socks n).mem a) ∧
    s' = { s with destination := some remote } := by
  rw [C31_connect_script] at h
  obtain ⟨h1, h2, h3⟩ := Prod.mk.inj h |>.imp_right Prod.mk.inj
  have hs' : s' = { s with destination := some remote } := by rw [← h2, h1]; rfl
  have hw : writeAll (Chip.dev sched faults).bus ((openOffsets s.port.toNat 0x02 0 ++
      (if s.destination = some remote then [] else [(0x0C, [remote.ip.a, remote.ip.b, remote.ip.c, remote.ip.d]), (0x10, be remote.port.toNat)] :
        List (U16 × List U8))).map
      fun x => ((sockOf n).register, x.1, x.2)) d.bus = (.ok (), d'.bus) := by
    have := (M.mapErr_eq_ok (f := UdpSocketError.other)).mp (Prod.ext h1 rfl)
    rw [← h3, ← this, hs]
    congr 1
    unfold destScript
    rw [hs]
    split <;> rfl
  have hm := script_mem hn _ hw
  rw [List.map_append, writeAll_append, M.bind_eq_ok] at hw
  obtain ⟨_, c1, hw1, hw2⟩ := hw
  rw [show (openOffsets s.port.toNat 0x02 0).map (fun x => ((sockOf n).register, x.1, x.2)) =
    (((openOffsets s.port.toNat 0x02 0).take 5).map fun x => ((sockOf n).register, x.1, x.2)) ++
      [((sockOf n).register, 0x01, [0x01])] from rfl, writeAll_append, M.bind_eq_ok] at hw1
  obtain ⟨_, c0, hw0, hw1⟩ := hw1
  rw [writeAll_one] at hw1
  obtain ⟨r1, r2, r3⟩ := open_udp hn (show unptr (c0.socks n).mem 0 = _ by rw [script_mem hn _ hw0]; rfl) hw1
  refine ⟨fun hq => ?_, ?_, ?_, ?_, ?_, hs'⟩
  · split at hw2
    · rw [List.map_nil, writeAll, M.pure_eq_ok] at hw2
      rw [← hw2.2]; exact r1
    · simp only [List.map_cons, List.map_nil, writeAll, M.bind_eq_ok, M.pure_eq_ok] at hw2
      obtain ⟨_, c2, h1, _, c3, h2, _, rfl⟩ := hw2
      rw [write_sr hn hq (by show ∀ i, i < 2 → _; decide) h2, write_sr hn hq (by show ∀ i, i < 4 → _; decide) h1, r1]
  · show unptr (d'.bus.socks n).mem 0 = _
    rw [hm]; split <;> rfl
  · show [unptr (d'.bus.socks n).mem 4, unptr (d'.bus.socks n).mem 5] = _
    rw [hm]; split <;> rfl
  · intro hd
    show [unptr (d'.bus.socks n).mem 12, unptr (d'.bus.socks n).mem 13, unptr (d'.bus.socks n).mem 14,
      unptr (d'.bus.socks n).mem 15] = _ ∧ [unptr (d'.bus.socks n).mem 16, unptr (d'.bus.socks n).mem 17] = _
    rw [hm, if_neg hd]
    exact ⟨rfl, rfl⟩
  · intro hd a h1 h2
    rw [← unptr_ne (m := (d'.bus.socks n).mem) (dest_ne h1 h2), hm, if_pos hd]
    rcases dest_offsets h1 h2 with rfl | rfl | rfl | rfl | rfl | rfl <;> rfl

/-- A schedule in which nothing happens. -/
def quietSched : Nat → List (Nat × Act) := fun _ => []

/-- C31 is not vacuous: both calls succeed on the chip after power-up, for a socket without destination. -/
example : (Device.udpBind (Chip.dev demoSched noFaults).bus 5000
    (UdpSocket.new (Socket.new 3), (⟨Chip.powerUp, DeviceState.new ()⟩ : Device Chip Unit))).1 = .ok () := by
  decide +kernel
example : (Device.udpConnect (Chip.dev quietSched noFaults).bus (.v4 ⟨⟨10, 0, 0, 1⟩, 53⟩)
    (UdpSocket.new (Socket.new 3), (⟨Chip.powerUp, DeviceState.new ()⟩ : Device Chip Unit))).1 = .ok () ∧
    StatusQuiet 3 quietSched ∧ (UdpSocket.new (Socket.new 3)).destination ≠ some ⟨⟨10, 0, 0, 1⟩, 53⟩ :=
  ⟨by decide +kernel, nofun, nofun⟩

/-! ## C32 Interrupt mask on opening (false) -/

/-- Registers of a socket after `connect` opened it: mask and local port. -/
def OpenedRegs (port : Nat) (m : U16 → U8) : Prop := m 0x2C = 0 ∧ [m 0x04, m 0x05] = be port

theorem opened_connectLoop {n : Nat} (hn : n < 8) {port fuel : Nat} {c c' : Chip} (hc : OpenedRegs port (c.socks n).mem)
    (h : TcpSocket.connectLoop (Chip.dev sched faults).bus ⟨sockOf n⟩ fuel c = (.ok (), c')) :
    OpenedRegs port (c'.socks n).mem := by
  induction fuel generalizing c with
  | zero => cases (Prod.mk.inj h).1
  | succ fuel ih =>
    have hreg := fun d => Chip.regs_readFrame (sched := sched) (faults := faults) c (sockOf n).register 0x03 d
    rcases readFrame1_cases (Chip.dev sched faults).bus c (sockOf n).register 0x03 with
      ⟨y, w1, h1⟩ | ⟨e, d, w1, h1⟩ | ⟨d, w1, h1⟩ | ⟨d, w1, h1⟩
    · have hr := hreg [0]
      rw [h1] at hr
      have hc1 : OpenedRegs port (w1.socks n).mem := by
        show OpenedRegs port (unptr (w1.socks n).mem)
        rw [show unptr (w1.socks n).mem = unptr (c.socks n).mem from congrFun (congrArg RegFile.smem hr) n]; exact hc
      rw [connectLoop_step ⟨sockOf n⟩ fuel h1] at h
      split at h
      · obtain ⟨_, rfl⟩ := Prod.mk.inj h; exact hc1
      split at h
      · rw [M.mapErr_eq_ok] at h
        show OpenedRegs port (unptr (c'.socks n).mem)
        rw [script_mem hn [(0x00, [0x00]), (0x01, [0x10]), (0x01, [0x10]), (0x02, [0xFF]), (0x00, [0x01]),
          (0x2C, [0]), (0x01, [0x01])] h]
        exact ⟨rfl, hc1.2⟩
      · exact ih hc1 h
    · have := h.symm.trans (M.bind_err (M.mapErr_err (read1_err h1)) :
        TcpSocket.connectLoop (Chip.dev sched faults).bus ⟨sockOf n⟩ (fuel + 1) c = _)
      cases (Prod.mk.inj this).1
    · have := h.symm.trans (M.bind_panic (by
          rw [M.mapErr_def, show (sockOf n).getStatus (Chip.dev sched faults).bus c = _ from read1_panic h1]) :
        TcpSocket.connectLoop (Chip.dev sched faults).bus ⟨sockOf n⟩ (fuel + 1) c = (.panic, w1))
      cases (Prod.mk.inj this).1
    · have := h.symm.trans (M.bind_fuel (by
          rw [M.mapErr_def, show (sockOf n).getStatus (Chip.dev sched faults).bus c = _ from read1_fuel h1]) :
        TcpSocket.connectLoop (Chip.dev sched faults).bus ⟨sockOf n⟩ (fuel + 1) c = (.fuel, w1))
      cases (Prod.mk.inj this).1

/-- A successful TCP connect leaves the mask 0 and the local port 49849 + n. -/
theorem opened_tcp {n : Nat} (hn : n < 8) (fuel : Nat) (remote : SockAddr) (d d' : Device Chip H)
    (h : Device.tcpConnect (Chip.dev sched faults).bus fuel ⟨Socket.new (BitVec.ofNat 8 n)⟩ remote d = (.ok (), d')) :
    OpenedRegs (49849 + n) (d'.bus.socks n).mem := by
  match remote, h with
  | .v4 remote, h =>
  unfold Device.tcpConnect Device.onBus M.zoom at h
  obtain ⟨h1, h2⟩ := Prod.mk.inj h
  have h : (do
      TcpSocket.open (Chip.dev sched faults).bus ⟨Socket.new (BitVec.ofNat 8 n)⟩
        (49849 + BitVec.setWidth 16 (Socket.new (BitVec.ofNat 8 n)).index)
      TcpSocket.socketConnect (Chip.dev sched faults).bus fuel ⟨Socket.new (BitVec.ofNat 8 n)⟩ remote) d.bus =
      (.ok (), d'.bus) := Prod.ext h1 (congrArg Device.bus h2)
  clear h1 h2
  rw [tcp_open_script, sock_port hn, socketConnect_eq] at h
  unfold connectPrefix at h
  simp only [M.bind_eq_ok, M.mapErr_eq_ok] at h
  obtain ⟨_, c1, h1, _, c2, ⟨st, c3, h3, _, c4, h4, _, c5, h5, h6⟩, h7⟩ := h
  refine opened_connectLoop hn ?_ h7
  have o1 : OpenedRegs (49849 + n) (c1.socks n).mem := by
    show OpenedRegs _ (unptr (c1.socks n).mem)
    rw [script_mem hn (openOffsets (49849 + n) 0x01 0) h1]; exact ⟨rfl, rfl⟩
  have o3 : OpenedRegs (49849 + n) (c3.socks n).mem := by
    have := Chip.regs_readFrame (sched := sched) (faults := faults) c1 (sockOf n).register 0x03 [0]
    rw [show (Chip.dev sched faults).bus.readFrame c1 (sockOf n).register 0x03 [0] = _ from Bus.read1_eq_ok.mp h3] at this
    show OpenedRegs _ (unptr (c3.socks n).mem)
    rw [show unptr (c3.socks n).mem = unptr (c1.socks n).mem from congrFun (congrArg RegFile.smem this) n]; exact o1
  have o4 : OpenedRegs (49849 + n) (c4.socks n).mem := by
    have hre : M.mapErr TcpSocketError.other (writeAll (Chip.dev sched faults).bus (reopenScript (sockOf n).register 0)) c3 =
        (.ok (), c4) → OpenedRegs (49849 + n) (c4.socks n).mem := fun h4 => by
      rw [M.mapErr_eq_ok] at h4
      show OpenedRegs _ (unptr (c4.socks n).mem)
      rw [script_mem hn [(0x00, [0x00]), (0x01, [0x10]), (0x01, [0x10]), (0x02, [0xFF]), (0x00, [0x01]),
          (0x2C, [0]), (0x01, [0x01])] h4]
      exact ⟨rfl, o3.2⟩
    generalize socketn.Status.tryFrom st = o at h4
    rcases o with _ | o
    · cases (Prod.mk.inj h4).1
    cases o <;> first
      | exact hre h4
      | (cases (Prod.mk.inj h4).1; done)
      | (rw [← (M.pure_eq_ok.mp h4).2]; exact o3)
  have o5 : OpenedRegs (49849 + n) (c5.socks n).mem := by
    show OpenedRegs _ (unptr (c5.socks n).mem)
    rw [script_mem hn [(0x0C, [remote.ip.a, remote.ip.b, remote.ip.c, remote.ip.d]), (0x10, be remote.port.toNat)] h5]
    exact o4
  show OpenedRegs _ (unptr (c2.socks n).mem)
  rw [script_mem hn [(0x01, [0x04])] (c := c5) (c' := c2) ((M.bind_eq_ok).mpr ⟨(), c2, h6, rfl⟩)]
  exact o5

/-- C32 is false: after every successful UDP bind, UDP connect or TCP connect — on every socket, whatever the state of
the chip — the interrupt mask Sn_IMR (0x2C) is 0: SENDOK (bit 4) and TIMEOUT (bit 3) are disabled. (The crate combines
the two bits with `&` instead of `|`.) -/
theorem C32_refuted {n : Nat} (hn : n < 8) (s s' : UdpSocket) (hs : s.socket = Socket.new (BitVec.ofNat 8 n))
    (d d' : Device Chip H) :
    (∀ port, Device.udpBind (Chip.dev sched faults).bus port (s, d) = (.ok (), (s', d')) →
      (d'.bus.socks n).mem 0x2C = 0) ∧
    (∀ remote, Device.udpConnect (Chip.dev sched faults).bus remote (s, d) = (.ok (), (s', d')) →
      (d'.bus.socks n).mem 0x2C = 0) ∧
    (∀ fuel remote, Device.tcpConnect (Chip.dev sched faults).bus fuel ⟨Socket.new (BitVec.ofNat 8 n)⟩ remote d =
      (.ok (), d') → (d'.bus.socks n).mem 0x2C = 0) := by
  refine ⟨fun port h => ?_, fun remote h => ?_, fun fuel remote h => (opened_tcp hn fuel remote d d' h).1⟩
  · rw [C31_bind_script, hs] at h
    obtain ⟨h1, h2, h3⟩ := Prod.mk.inj h |>.imp_right Prod.mk.inj
    have hw : writeAll (Chip.dev sched faults).bus ((((0x04, be port.toNat) :: openOffsets port.toNat 0x02 0)).map
        fun x => ((sockOf n).register, x.1, x.2)) d.bus = (.ok (), d'.bus) := by
      rw [← h3]
      exact (M.mapErr_eq_ok (f := UdpSocketError.other)).mp (Prod.ext h1 rfl)
    show unptr _ 0x2C = _; rw [script_mem hn _ hw]; rfl
  · match remote, h with
    | .v4 remote, h =>
    rw [C31_connect_script] at h
    obtain ⟨h1, h2, h3⟩ := Prod.mk.inj h |>.imp_right Prod.mk.inj
    have hw : writeAll (Chip.dev sched faults).bus ((openOffsets s.port.toNat 0x02 0 ++
        (if s.destination = some remote then [] else [(0x0C, [remote.ip.a, remote.ip.b, remote.ip.c, remote.ip.d]), (0x10, be remote.port.toNat)] :
          List (U16 × List U8))).map
        fun x => ((sockOf n).register, x.1, x.2)) d.bus = (.ok (), d'.bus) := by
      have := (M.mapErr_eq_ok (f := UdpSocketError.other)).mp (Prod.ext h1 rfl)
      rw [← h3, ← this, hs]
      congr 1
      unfold destScript
      rw [hs]
      split <;> rfl
    show unptr _ 0x2C = _; rw [script_mem hn _ hw]
    split <;> rfl

/-- The calls of `C32_refuted` do succeed: see C31 above and, for TCP, this run. -/
example : (Device.tcpConnect (Chip.dev demoSched noFaults).bus 9 demoSocket demoRemote demoDevice).1 = .ok () := by
  decide +kernel

/-! ## C33 Default local ports -/

/-- The socket object returned by `socket()` for hardware socket n has port 49849 + n, so by C31 `connect` programs it;
ports of different sockets differ. -/
theorem C33_default (n : Nat) (hn : n < 8) : (UdpSocket.new (Socket.new (BitVec.ofNat 8 n))).getPort.toNat = 49849 + n := by
  show (49849 + BitVec.setWidth 16 (Socket.new (BitVec.ofNat 8 n)).index : U16).toNat = _
  exact sock_port hn

theorem C33_distinct (n m : Nat) (hn : n < 8) (hm : m < 8) (h : n ≠ m) :
    (UdpSocket.new (Socket.new (BitVec.ofNat 8 n))).getPort ≠ (UdpSocket.new (Socket.new (BitVec.ofNat 8 m))).getPort := by
  intro e
  have := congrArg BitVec.toNat e
  rw [C33_default n hn, C33_default m hm] at this
  omega

/-- TCP connect on socket n: on any bus, the first thing it does is to program exactly that port, together with the
rest of the opening script (C52 says that nothing else can precede the CONNECT command) … -/
theorem C33_tcp_script (B : Bus W E) (n : Nat) (hn : n < 8) (fuel : Nat) (remote : SockAddr4) (d : Device W H) :
    Device.tcpConnect B fuel ⟨Socket.new (BitVec.ofNat 8 n)⟩ (.v4 remote) d = Device.onBus (do
      M.mapErr .other (writeAll B (openScript (BitVec.ofNat 8 (4 * n + 1)) (49849 + n) 0x01 0))
      TcpSocket.socketConnect B fuel ⟨Socket.new (BitVec.ofNat 8 n)⟩ remote) d := by
  unfold Device.tcpConnect
  rw [tcp_open_script, sock_port hn, sock_reg hn]

/-- … and on the chip Sn_PORT has that value after every successful call. -/
theorem C33_tcp {n : Nat} (hn : n < 8) (fuel : Nat) (remote : SockAddr) (d d' : Device Chip H)
    (h : Device.tcpConnect (Chip.dev sched faults).bus fuel ⟨Socket.new (BitVec.ofNat 8 n)⟩ remote d = (.ok (), d')) :
    [(d'.bus.socks n).mem 0x04, (d'.bus.socks n).mem 0x05] = be (49849 + n) := (opened_tcp hn fuel remote d d' h).2

/-- Calls on a UDP socket object that was `s0` at first, with the ports that were requested, in order: `set_port`,
`bind`, `connect`, `send_to`, on any bus and with any outcome; between the calls anything happens to the device. (`send`,
`receive` and `close` do not change the object.) -/
inductive PortCalls (B : Bus W E) (s0 : UdpSocket) : List U16 → UdpSocket → Prop where
  | start : PortCalls B s0 [] s0
  | setPort {ps s s' r} (p : U16) (w w' : W) : PortCalls B s0 ps s →
      UdpSocket.setPort B p (s, w) = (r, (s', w')) → PortCalls B s0 (ps ++ [p]) s'
  | bind {H : Type} {ps s s' r} (p : U16) (d d' : Device W H) : PortCalls B s0 ps s →
      Device.udpBind B p (s, d) = (r, (s', d')) → PortCalls B s0 (ps ++ [p]) s'
  | connect {H : Type} {ps s s' r} (remote : SockAddr) (d d' : Device W H) : PortCalls B s0 ps s →
      Device.udpConnect B remote (s, d) = (r, (s', d')) → PortCalls B s0 ps s'
  | sendTo {H : Type} {ps s s' r} (fuel : Nat) (remote : SockAddr) (data : List U8) (d d' : Device W H) :
      PortCalls B s0 ps s → Device.udpSendTo B fuel remote data (s, d) = (r, (s', d')) → PortCalls B s0 ps s'

theorem onOk_cases {ε α : Type} (r : Res ε Unit) (a b : α) : onOk r a b = a ∨ onOk r a b = b := by
  unfold onOk; split
  · exact .inl rfl
  · exact .inr rfl

/-- What `send_to` does to the socket object. -/
theorem sendTo_object (B : Bus W E) (fuel : Nat) (remote : SockAddr) (data : List U8) (s : UdpSocket) (d : Device W H) :
    (Device.udpSendTo B fuel remote data (s, d)).2.1 = s ∨
    ∃ r, (Device.udpSendTo B fuel remote data (s, d)).2.1 = { s with destination := some r } := by
  match remote with
  | .v6 _ _ => exact .inl rfl
  | .v4 remote =>
    show (UdpSocket.socketSendTo B fuel remote data (s, d.bus)).2.1 = s ∨
      ∃ r, (UdpSocket.socketSendTo B fuel remote data (s, d.bus)).2.1 = { s with destination := some r }
    unfold UdpSocket.socketSendTo
    rw [M.bind_def, M.mapErr_def, setDestination_eq]
    generalize M.mapErr UdpSocketError.other (writeAll B (destScript s remote)) d.bus = r
    obtain ⟨_ | _ | _ | _, w1⟩ := r
    · exact .inr ⟨remote, rfl⟩
    all_goals exact .inl rfl

/-- C33: `get_port` reports the last port set — also if setting it in the chip failed —, or the initial one; the socket
never becomes another one. -/
theorem C33_history (B : Bus W E) (s0 s : UdpSocket) (ps : List U16) (h : PortCalls B s0 ps s) :
    s.getPort = ps.getLast?.getD s0.getPort ∧ s.socket = s0.socket := by
  induction h with
  | start => exact ⟨rfl, rfl⟩
  | setPort p w w' _ h ih =>
    have h : ((M.mapErr UdpSocketError.other (M.onSnd _)) (_, _) : Res (UdpSocketError E) Unit × _) = _ := h
    rw [onSnd_mapErr] at h
    obtain ⟨_, h2⟩ := Prod.mk.inj h
    obtain ⟨rfl, _⟩ := Prod.mk.inj h2
    rw [List.getLast?_append]
    exact ⟨rfl, ih.2⟩
  | bind p d d' _ h ih =>
    rw [C31_bind_script] at h
    obtain ⟨_, h2⟩ := Prod.mk.inj h
    obtain ⟨rfl, _⟩ := Prod.mk.inj h2
    rw [List.getLast?_append]
    exact ⟨rfl, ih.2⟩
  | connect remote d d' _ h ih =>
    match remote, h with
    | .v6 _ _, h =>
      obtain ⟨_, h2⟩ := Prod.mk.inj h
      obtain ⟨rfl, _⟩ := Prod.mk.inj h2
      exact ih
    | .v4 remote, h =>
      rw [C31_connect_script] at h
      obtain ⟨_, h2⟩ := Prod.mk.inj h
      obtain ⟨h3, _⟩ := Prod.mk.inj h2
      rw [← h3]
      rcases onOk_cases _ _ _ with e | e <;> rw [e] <;> exact ih
  | sendTo fuel remote data d d' _ h ih =>
    rename_i s1 s2 r _
    have h1 := sendTo_object B fuel remote data s1 d
    rw [h] at h1
    rcases h1 with h1 | ⟨_, h1⟩ <;> dsimp only at h1 <;> rw [h1] <;> exact ih

/-- C33 is not vacuous: socket 3, connected with its default port and then bound to port 5000. -/
example : ∃ s, PortCalls (Chip.dev demoSched noFaults).bus (UdpSocket.new (Socket.new 3)) [5000] s ∧ s.getPort = 5000 :=
  ⟨_, .bind 5000 (⟨Chip.powerUp, DeviceState.new ()⟩ : Device Chip Unit) _
    (.connect (.v4 ⟨⟨10, 0, 0, 1⟩, 53⟩) (⟨Chip.powerUp, DeviceState.new ()⟩ : Device Chip Unit) _ .start rfl) rfl,
    (C33_history _ _ _ _ (.bind 5000 (⟨Chip.powerUp, DeviceState.new ()⟩ : Device Chip Unit) _
    (.connect (.v4 ⟨⟨10, 0, 0, 1⟩, 53⟩) (⟨Chip.powerUp, DeviceState.new ()⟩ : Device Chip Unit) _ .start rfl) rfl)).1⟩

/-! ## C34 IPv6 remotes are rejected without side effects -/

/-- C34: on any bus; the final state is the initial one (sockets, device, bus state), so there was no traffic. -/
theorem C34 (B : Bus W E) (fuel : Nat) (ip : List U16) (port : U16) (data : List U8) (s : UdpSocket) (t : TcpSocket)
    (d : Device W H) :
    Device.udpConnect B (.v6 ip port) (s, d) = (.err .unsupportedAddress, (s, d)) ∧
    Device.udpSendTo B fuel (.v6 ip port) data (s, d) = (.err (.other .unsupportedAddress), (s, d)) ∧
    Device.tcpConnect B fuel t (.v6 ip port) d = (.err .unsupportedAddress, d) := ⟨rfl, rfl, rfl⟩

/-- C34 on the recorded chip: no traffic at all. -/
example : (Device.udpConnect (traced (Chip.dev demoSched noFaults).bus) (.v6 (List.replicate 8 1) 53)
    (UdpSocket.new (Socket.new 3), (⟨⟨Chip.powerUp, []⟩, DeviceState.new ()⟩ : Device (TW Chip Unit) Unit))).2.2.bus.log =
    [] := rfl

/-- The converse for C34: an IPv4 remote is never reported as unsupported. -/
theorem C34_v4 (B : Bus W E) (fuel : Nat) (remote : SockAddr4) (s : UdpSocket) (t : TcpSocket)
    (d : Device W H) :
    (Device.udpConnect B (.v4 remote) (s, d)).1 ≠ .err .unsupportedAddress ∧
    (Device.tcpConnect B fuel t (.v4 remote) d).1 ≠ .err .unsupportedAddress := by
  constructor
  · rw [C31_connect_script]
    dsimp only
    rw [M.mapErr_def]
    generalize writeAll B _ d.bus = r
    obtain ⟨_ | _ | _ | _, w1⟩ := r <;> nofun
  · intro h
    have hloop : ∀ fuel, ErrIn (fun e => e ≠ TcpSocketError.unsupportedAddress) (t.connectLoop B fuel) := by
      intro fuel
      induction fuel with
      | zero => exact .outOfFuel
      | succ fuel ih =>
        unfold TcpSocket.connectLoop
        refine .bind (.mapErr _ (by simp)) fun st => ?_
        split
        · exact .pure _
        · rw [tcp_reopen_script]; exact .mapErr _ (by simp)
        · exact ih
    refine (ErrIn.run (p := fun e => e ≠ TcpSocketError.unsupportedAddress) (m := Device.tcpConnect B fuel t (.v4 remote))
      ?_ d _ h) rfl
    unfold Device.tcpConnect
    refine .zoom ?_
    rw [tcp_open_script, socketConnect_eq]
    refine .bind (.mapErr _ (by simp)) fun _ => .bind ?_ fun _ => hloop fuel
    unfold connectPrefix
    errin

end W5500.Props
