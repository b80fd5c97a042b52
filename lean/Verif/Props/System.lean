import Verif.Proofs.System
import Verif.Props.Init
import Verif.Props.UdpChip
/-! # Whole programs

A client initialises the device, opens sockets and uses all of them. -/

namespace W5500.Props
open W5500 Spec
variable {W E H : Type} {sched : Nat → List (Nat × Act)} {faults : Nat → Option (E × Nat)}

/-! ## C62 Initialisation leaves every socket at its reset values -/

/-- Writing settings touches the common block only, and not the mode register. -/
def SettingFrames (b : U8) (a : U16) (d : List U8) : Prop :=
  b = COMMON ∧ (a, d.length) ∈ [((0x01 : U16), 4), (0x05, 4), (0x09, 6), (0x0F, 4)]

theorem moves_writeSettings {B : Bus W E} (S : HostConfig) :
    MovesOn B SettingFrames (fun s : HostConfig × W => s.2) (writeSettings B S) := by
  have hw : ∀ (a : U16) (d : List U8), (a, d.length) ∈ [((0x01 : U16), 4), (0x05, 4), (0x09, 6), (0x0F, 4)] →
      MovesOn B SettingFrames (fun s : HostConfig × W => s.2) (M.onSnd (B.write COMMON a d)) :=
    fun a d h => .onSnd (get := id) (.write ⟨rfl, h⟩)
  have hm : ∀ f : HostConfig → HostConfig, MovesOn B SettingFrames (fun s : HostConfig × W => s.2)
      (M.modify (fun s => (f s.1, s.2)) : M _ E Unit) := fun f => .noop fun _ => rfl
  unfold writeSettings
  refine .bind .mget fun _ => ?_
  have h4 : MovesOn B SettingFrames (fun s : HostConfig × W => s.2) (do
      if S.ip ≠ (← M.get).1.ip then
        M.onSnd (B.write COMMON common.IP S.ip.octets)
        M.modify fun s => ({ s.1 with ip := S.ip }, s.2) : M _ E Unit) := by
    refine .bind .mget fun _ => ?_
    split
    · exact .bind (hw _ _ (by show ((_ : U16), 4) ∈ _; decide)) fun _ => hm fun s => { s with ip := S.ip }
    · exact .pure _
  have h3 : MovesOn B SettingFrames (fun s : HostConfig × W => s.2) (do
      if S.mac ≠ (← M.get).1.mac then
        M.onSnd (B.write COMMON common.MAC S.mac.octets)
        M.modify fun s => ({ s.1 with mac := S.mac }, s.2)
      if S.ip ≠ (← M.get).1.ip then
        M.onSnd (B.write COMMON common.IP S.ip.octets)
        M.modify fun s => ({ s.1 with ip := S.ip }, s.2) : M _ E Unit) := by
    refine .bind .mget fun _ => ?_
    dsimp only
    split
    · exact .bind (hw _ _ (by show ((_ : U16), 6) ∈ _; decide)) fun _ => .bind (hm fun s => { s with mac := S.mac }) fun _ => h4
    · exact h4
  have h2 : MovesOn B SettingFrames (fun s : HostConfig × W => s.2) (do
      if S.subnet ≠ (← M.get).1.subnet then
        M.onSnd (B.write COMMON common.SUBNET_MASK S.subnet.octets)
        M.modify fun s => ({ s.1 with subnet := S.subnet }, s.2)
      if S.mac ≠ (← M.get).1.mac then
        M.onSnd (B.write COMMON common.MAC S.mac.octets)
        M.modify fun s => ({ s.1 with mac := S.mac }, s.2)
      if S.ip ≠ (← M.get).1.ip then
        M.onSnd (B.write COMMON common.IP S.ip.octets)
        M.modify fun s => ({ s.1 with ip := S.ip }, s.2) : M _ E Unit) := by
    refine .bind .mget fun _ => ?_
    dsimp only
    split
    · exact .bind (hw _ _ (by show ((_ : U16), 4) ∈ _; decide)) fun _ => .bind (hm fun s => { s with subnet := S.subnet }) fun _ => h3
    · exact h3
  dsimp only
  split
  · exact .bind (hw _ _ (by show ((_ : U16), 4) ∈ _; decide)) fun _ => .bind (hm fun s => { s with gateway := S.gateway }) fun _ => h2
  · exact h2

theorem moves_manualRefresh {B : Bus W E} :
    MovesOn B SettingFrames (fun s : Manual × W => s.2) (Manual.refresh B) := by
  unfold Manual.refresh
  refine .bind .mget fun _ => ?_
  dsimp only
  split
  · exact .bind (.zoom (g := fun s => s.2) (fun _ => rfl) (fun _ _ => rfl) (moves_writeSettings _)) fun _ => .noop fun _ => rfl
  · exact .pure _

theorem foreign_setting {n : Nat} {b : U8} {a : U16} {d : List U8} (h : SettingFrames b a d) : Foreign n b a d := by
  obtain ⟨rfl, h⟩ := h
  unfold Foreign
  rw [if_pos (by decide)]
  intro i hi h0
  simp only [List.mem_cons, Prod.mk.injEq, List.not_mem_nil, or_false] at h
  rcases h with ⟨rfl, h⟩ | ⟨rfl, h⟩ | ⟨rfl, h⟩ | ⟨rfl, h⟩
  all_goals
    have hi' := h ▸ hi
    exfalso
    clear h hi
    revert h0
    revert i
    decide

/-- Socket registers after a reset: both buffer sizes 2 KiB, all interrupts enabled, the rest 0 (socket closed). -/
def socketReset (a : U16) : U8 := if a = 0x1E ∨ a = 0x1F then 2 else if a = 0x2C then 0xFF else 0

/-- The host writes settings only. -/
theorem host_keeps {n : Nat} {c c' : Chip} {m : U16 → U8}
    (h : Reach (Chip.dev sched faults).bus SettingFrames c c') (hc : (c.socks n).mem = m) : (c'.socks n).mem = m :=
  h.induct (I := At n fun s => s.mem = m)
    (fun w b a d hi => ((Sock.stable_mem fun x => x = m).at n) _ _ (Chip.readFrame_evolves w b a d) hi)
    (fun w _ _ _ hf hi => foreign_keep (Sock.stable_mem fun x => x = m) (foreign_setting hf) w hi) hc

/-- C62: whatever the chip was doing before (sockets open in any mode, with any buffer sizes), after a successful
`initialize_advanced` (hence `initialize_manual`) the registers of every socket hold their reset values. -/
theorem C62_advanced (assert : Bool) (mac : Mac) (ip gateway subnet : Ipv4) (mode : Mode) (c c' : Chip)
    (st : DeviceState Manual)
    (h : Uninit.initializeAdvanced assert (Chip.dev sched faults).bus mac ip gateway subnet mode c = (.ok st, c')) (n : Nat) :
    (c'.socks n).mem = socketReset := by
  obtain ⟨c1, host', ⟨_, h1⟩, h2, rfl⟩ := initializeWithHost_ok h
  have h3 : (c1.socks n).mem = socketReset := h1 n
  have := moves_manualRefresh.run (B := (Chip.dev sched faults).bus) (Manual.new mac ip gateway subnet, c1)
  have h2 : Manual.refresh (Chip.dev sched faults).bus (Manual.new mac ip gateway subnet, c1) = _ := h2
  rw [h2] at this
  exact host_keeps this h3

/-- C62 for `initialize`. -/
theorem C62_dhcp (assert : Bool) (mac : Mac) (mode : Mode) (c c' : Chip) (st : DeviceState Dhcp)
    (h : Uninit.initialize assert (Chip.dev sched faults).bus mac mode c = (.ok st, c')) (n : Nat) :
    (c'.socks n).mem = socketReset := by
  obtain ⟨c1, host', ⟨_, h1⟩, h2, rfl⟩ := initializeWithHost_ok h
  have h3 : (c1.socks n).mem = socketReset := h1 n
  cases h2
  exact h3

/-- The buffer sizes after initialisation are legal, as the theorems about open sockets ask for. -/
theorem C62_sizes {c : Chip} {n : Nat} (h : (c.socks n).mem = socketReset) : Sock.SizesOk (c.socks n).mem := by
  rw [h]
  exact ⟨.inr (.inl rfl), .inr (.inl rfl)⟩

/-- The hypothesis of C62 is met: a chip whose sockets hold leftovers. -/
example :
    let junk : Sock := { Sock.reset (Chip.powerUp.socks 0) with mem := fun _ => 0x55, sr := 0x17 }
    let r := Uninit.initializeManual true (Chip.dev demoSched noFaults).bus ⟨1, 2, 3, 4, 5, 6⟩ ⟨10, 0, 0, 9⟩ Mode.default
      { Chip.powerUp with socks := fun _ => junk }
    r.1 = .ok ⟨⟨true, ⟨⟨1, 2, 3, 4, 5, 6⟩, ⟨10, 0, 0, 9⟩, ⟨10, 0, 0, 1⟩, ⟨255, 255, 255, 0⟩⟩,
      ⟨⟨1, 2, 3, 4, 5, 6⟩, ⟨10, 0, 0, 9⟩, ⟨10, 0, 0, 1⟩, ⟨255, 255, 255, 0⟩⟩⟩, 0xFF⟩ ∧
    (r.2.socks 3).mem 0x1E = 2 ∧ (r.2.socks 3).mem 0x00 = 0 ∧ junk.mem 0x00 = 0x55 := by
  decide +kernel

/-! ## C61 Sockets do not disturb each other -/

/-- C61 for TCP. A client got its device from `initialize*`, did anything with it, and then connected the TCP socket `n`. From
then on it does anything: with this socket (`TcpClient` records what `send` accepted and what `receive` delivered), with its
other sockets (open, send, receive, close, drop them, open new ones), with the device. Then the bytes on the wire and those
waiting for transmission are the accepted ones, and what arrived is what was delivered and what is still queued. -/
theorem C61_tcp {w : Chip} {host : H} {c1 c : Client Chip H} (hz : ∀ n, n < 8 → Sock.SizesOk (w.socks n).mem)
    (h1 : ClientRun sched faults (Client.initial w host) c1) {i n : Nat} {t : TcpSocket}
    (hg : c1.live[i]? = some (.tcp t)) (hn : t.socket.index.toNat = n) (fuel : Nat) (remote : SockAddr)
    (hok : (Device.tcpConnect (Chip.dev sched faults).bus fuel t remote c1.dev).1 = .ok ())
    {acc del : List U8}
    (h2 : TcpClient sched faults n (c1.step (Chip.dev sched faults).bus fuel (.tcpConnect i remote)) acc del c) :
    let s0 := (c1.step (Chip.dev sched faults).bus fuel (.tcpConnect i remote)).dev.bus.socks n
    let s := c.dev.bus.socks n
    s.stream ++ s.pending = s0.stream ++ acc ∧
      ∃ before, s0.arrived = before ++ s0.queue ∧ s.arrived = before ++ del ++ s.queue := by
  obtain ⟨ha, hz1⟩ := h1.inv (allocInv_initial w host) hz
  have h8 : n < 8 := hn ▸ ha.bound _ (List.mem_append_left _ (List.mem_map_of_mem (List.mem_of_getElem? hg)))
  have hrun := h2.run (ha.step fuel _)
  have e : (c1.step (Chip.dev sched faults).bus fuel (.tcpConnect i remote)).dev =
      (Device.tcpConnect (Chip.dev sched faults).bus fuel t remote c1.dev).2 := by simp only [Client.step, hg]
  have ht := tcp_canonical ha hg hn
  have hconn : Device.tcpConnect (Chip.dev sched faults).bus fuel ⟨Socket.new (BitVec.ofNat 8 n)⟩ remote c1.dev =
      (.ok (), (c1.step (Chip.dev sched faults).bus fuel (.tcpConnect i remote)).dev) := by
    rw [e, ← ht]
    exact Prod.ext hok rfl
  exact ⟨C45 n h8 fuel remote _ _ (hz1 n h8) hconn _ _ _ hrun, C46 n h8 fuel remote _ _ (hz1 n h8) hconn _ _ _ hrun⟩

/-- C61 for UDP. A client got its device from `initialize*`, did anything with it, took a UDP socket from it (number `n`), did
anything with this socket and the others except resetting the chip, opened it, and then did anything again. Then the packets
transmitted by socket `n` since then are the pieces of what was sent on it, and the datagrams that arrived since then are, in
order, the delivered ones, lost ones (see C42) and those still queued. -/
theorem C61_udp {w : Chip} {host : H} {c1 c3 c : Client Chip H} (hz : ∀ n, n < 8 → Sock.SizesOk (w.socks n).mem)
    (h1 : ClientRun sched faults (Client.initial w host) c1) {n : Nat}
    (hnew : .udp (UdpSocket.new (Socket.new (BitVec.ofNat 8 n))) ∈ c1.live) (hn : n < 8)
    {log0 log : List UdpSent} {got0 got : List UdpGot} (h2 : UdpClient sched faults n c1 log0 got0 c3)
    {i : Nat} {u : UdpSocket} (hg : c3.live[i]? = some (.udp u)) (hu : u.socket.index.toNat = n) (fuel : Nat) {o : Op Chip}
    (ho : UdpOpens (Chip.dev sched faults).bus i u c3 o)
    (h3 : UdpClient sched faults n (c3.step (Chip.dev sched faults).bus fuel o) log got c) :
    let s0 := (c3.step (Chip.dev sched faults).bus fuel o).dev.bus.socks n
    let s := c.dev.bus.socks n
    (∃ sent, UdpSent.All s0.txSize log sent ∧ s.packets = s0.packets ++ sent) ∧
      ∃ A ds qs, s0.arrived = A ++ s0.queue ∧ s.arrived = A ++ encAll (ds ++ qs) ∧
        s.queue = encAll qs ∧ (∀ d ∈ ds ++ qs, d.Wf) ∧ UdpGot.Among got ds := by
  obtain ⟨ha, hz1⟩ := h1.inv (allocInv_initial w host) hz
  have hidx : (UdpSocket.new (Socket.new (BitVec.ofNat 8 n))).socket.index.toNat = n := by
    show (BitVec.ofNat 8 n).toNat = n
    rw [BitVec.toNat_ofNat, Nat.mod_eq_of_lt (by omega)]
  obtain ⟨u', hm', hu', hcalls⟩ := h2.calls ha hnew hidx (.new _ (hz1 n hn))
  have ha3 := h2.alloc ha
  have := ha3.unique hm' (List.mem_of_getElem? hg) (hu'.trans hu.symm)
  cases this
  have key : ∃ u0, .udp u0 ∈ (c3.step (Chip.dev sched faults).bus fuel o).live ∧ u0.socket.index.toNat = n ∧
      UdpOpened sched faults n u0 (c3.step (Chip.dev sched faults).bus fuel o).dev.bus := by
    cases o with
    | udpBind j port =>
      obtain ⟨rfl, ho⟩ := ho
      have e := onUdp_eq (Device.udpBind (Chip.dev sched faults).bus port) hg
      have hk := (keeps_udpBind (B := (Chip.dev sched faults).bus) port (u, c3.dev)).1
      simp only [Client.step, e]
      exact ⟨_, mem_set_self hg, by rw [hk]; exact hu, .bind port hcalls (Prod.ext ho rfl)⟩
    | udpConnect j remote =>
      obtain ⟨rfl, ho⟩ := ho
      have e := onUdp_eq (Device.udpConnect (Chip.dev sched faults).bus remote) hg
      have hk := (keeps_udpConnect (B := (Chip.dev sched faults).bus) remote (u, c3.dev)).1
      simp only [Client.step, e]
      exact ⟨_, mem_set_self hg, by rw [hk]; exact hu, .connect remote hcalls (Prod.ext ho rfl)⟩
    | _ => exact ho.elim
  obtain ⟨u0, hm0, hn0, hop⟩ := key
  obtain ⟨uf, _, _, hrun⟩ := h3.run (ha3.step fuel o) hm0 hn0
  exact ⟨C36_history hn hop hrun, C42_partial hn hop hrun⟩

/-- A client with TCP socket 0 and UDP socket 1, before and after `connect` of the TCP socket. -/
def twoSockets : Client Chip Unit :=
  ((Client.initial Chip.powerUp ()).step (Chip.dev demoSched noFaults).bus 9 .tcpSocket).step (Chip.dev demoSched noFaults).bus
    9 .udpSocket
def twoConnected : Client Chip Unit := twoSockets.step (Chip.dev demoSched noFaults).bus 100 (.tcpConnect 0 demoRemote)

/-- The hypotheses of C61 are met: the TCP socket sends, the UDP socket is bound, the TCP socket receives, the UDP socket is
closed. -/
example : ClientRun demoSched noFaults (Client.initial Chip.powerUp ()) twoSockets ∧
    twoSockets.live[0]? = some (.tcp demoSocket) ∧
    (Device.tcpConnect (Chip.dev demoSched noFaults).bus 100 demoSocket demoRemote twoSockets.dev).1 = .ok () ∧
    ∃ c, TcpClient demoSched noFaults 0 twoConnected [7, 8, 9] [1, 2] c ∧ c.live.map Handle.index = [0] := by
  refine ⟨.step 9 _ (.step 9 _ .start nofun) nofun, by decide +kernel, by decide +kernel, ?_⟩
  have h1 := TcpClient.send (sched := demoSched) (faults := noFaults) (n := 0) (c0 := twoConnected) 9 0 demoSocket [7, 8, 9] 3 .start
    (by decide +kernel) rfl (by decide +kernel)
  have h2 := TcpClient.elsewhere 9 (.udpBind 1 99) h1 (fun i h hi hh => by
    cases hi
    have : some h = some (.udp (UdpSocket.new (Socket.new 1))) := by rw [← hh]; decide +kernel
    cases this
    decide)
  have h3 := TcpClient.receive 9 0 demoSocket [0, 0] [1, 2] 2 h2 (by decide +kernel) rfl (by decide +kernel) (by decide +kernel)
  have h4 := TcpClient.elsewhere 9 (.udpClose 1) h3 (fun i h hi hh => by
    cases hi
    have : some h = some (.udp { UdpSocket.new (Socket.new 1) with port := 99 }) := by rw [← hh]; decide +kernel
    cases this
    decide)
  exact ⟨_, h4, by decide +kernel⟩

/-- A client with UDP socket 0 and TCP socket 1. -/
def udpTwo : Client Chip Unit :=
  ((Client.initial Chip.powerUp ()).step (Chip.dev emitSched noFaults).bus 9 .udpSocket).step (Chip.dev emitSched noFaults).bus
    9 .tcpSocket

/-- The same for UDP: connect, send, and the other socket is closed. -/
example : ClientRun emitSched noFaults (Client.initial Chip.powerUp ()) udpTwo ∧
    .udp (UdpSocket.new (Socket.new (BitVec.ofNat 8 0))) ∈ udpTwo.live ∧
    UdpOpens (Chip.dev emitSched noFaults).bus 0 (UdpSocket.new (Socket.new 0)) udpTwo (.udpConnect 0 (.v4 addrA)) ∧
    ∃ c, UdpClient emitSched noFaults 0 (udpTwo.step (Chip.dev emitSched noFaults).bus 9 (.udpConnect 0 (.v4 addrA)))
        [⟨addrA, [1, 2, 3], true⟩] [] c ∧ c.live.map Handle.index = [0] := by
  refine ⟨.step 9 _ (.step 9 _ .start nofun) nofun, by decide +kernel, ⟨rfl, by decide +kernel⟩, ?_⟩
  have h1 := UdpClient.call (sched := emitSched) (faults := noFaults) (n := 0) (log' := [⟨addrA, [1, 2, 3], true⟩]) (got' := [])
    (u := { UdpSocket.new (Socket.new 0) with destination := some addrA })
    (c0 := udpTwo.step (Chip.dev emitSched noFaults).bus 9 (.udpConnect 0 (.v4 addrA))) 9 0 (.udpSend 0 [1, 2, 3]) .start
    (by decide +kernel) rfl (.send _ addrA rfl (by decide +kernel))
  have h2 := UdpClient.elsewhere 9 (.tcpClose 1) h1 (fun i h hi hh => by
    cases hi
    have : some h = some (.tcp ⟨Socket.new 1⟩) := by rw [← hh]; decide +kernel
    cases this
    decide)
  exact ⟨_, h2, by decide +kernel⟩

end W5500.Props
