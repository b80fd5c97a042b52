import Verif.Spec.Panics
import Verif.Props.System
import Verif.Props.Wire
/-! # Panic freedom -/

namespace W5500.Props
open W5500 Spec
variable {W E H : Type} {sched : Nat → List (Nat × Act)} {faults : Nat → Option (E × Nat)}

/-! ## C63 Only UDP receive and MACRAW read_frame can panic -/

section
variable {B : Bus W E} (hB : Calm B)
include hB

theorem np_readIp (a : U16) : NoPanic (readIp B a) := by
  unfold readIp
  refine .bind' (.readBuf hB _ _ _) fun x w w' e => ?_
  match x, NoPanic.readBuf_length e with
  | [_, _, _, _], _ => nofun

theorem np_mac : NoPanic (Device.mac B) := by
  unfold Device.mac
  refine .bind' (.readBuf hB _ _ _) fun x w w' e => ?_
  match x, NoPanic.readBuf_length e with
  | [_, _, _, _, _, _], _ => nofun

theorem np_retryTimeout : NoPanic (currentRetryTimeout B) := by
  unfold currentRetryTimeout
  refine .bind' (.readBuf hB _ _ _) fun x w w' e => ?_
  match x, NoPanic.readBuf_length e with
  | [_, _], _ => nofun

theorem np_common (o : CommonOp) (w : W) : ¬ o.Panics B w := by
  cases o with
  | gateway => exact (np_readIp hB _).run w
  | subnetMask => exact (np_readIp hB _).run w
  | ip => exact (np_readIp hB _).run w
  | mac => exact (np_mac hB).run w
  | phyConfig => exact (NoPanic.bind (.read1 hB _ _) fun _ => .pure _).run w
  | version => exact (NoPanic.read1 hB _ _).run w
  | currentRetryCount => exact (NoPanic.read1 hB _ _).run w
  | currentRetryTimeout => exact (np_retryTimeout hB).run w
  | _ => exact (NoPanic.write hB _ _ _).run w

theorem np_writeSettings (s : HostConfig) : NoPanic (writeSettings B s) := by
  unfold writeSettings
  nopanic

theorem np_initialize [Host H] (hH : NoPanic (Host.refresh B : M (H × W) E Unit)) (assert : Bool) (host : H) (m : Mode) :
    NoPanic (Uninit.initializeWithHost assert B host m) := by
  unfold Uninit.initializeWithHost Uninit.assertChipVersion version resetChip setMode
  nopanic

end

/-- C63. On every bus whose transfers do not panic (by C05 and C01 that is every four-wire bus): whatever a client did before,
no operation of a socket or of the device panics, except possibly a UDP receive (when exactly it does is C41). This includes
`close` and `release_socket`, whose index check always succeeds. -/
theorem C63 (B : Bus W E) (hB : Calm B) (w : W) (host : H) (fuel : Nat) (ops : List (Op W)) (o : Op W)
    (ho : ∀ i b, o ≠ .udpReceive i b) : ¬ ((Client.initial w host).run B fuel ops).Panics B fuel o := by
  have ha := (allocInv_initial w host).run (B := B) fuel ops
  generalize (Client.initial w host).run B fuel ops = c at ha
  have h8 : ∀ {i : Nat} {h : Handle}, c.live[i]? = some h → h.socket.index.toNat < 8 := fun hg =>
    ha.bound _ (List.mem_append_left _ (List.mem_map_of_mem (List.mem_of_getElem? hg)))
  cases o with
  | udpReceive i b => exact absurd rfl (ho i b)
  | udpSocket =>
    refine (NoPanic.bind ⟨fun _ => nofun⟩ fun x => ?_ : NoPanic (Device.udpSocket : M (Device W H) (UdpSocketError E) _)).run _
    split
    · exact .pure _
    · exact .throw _
  | tcpSocket =>
    refine (NoPanic.bind ⟨fun _ => nofun⟩ fun x => ?_ : NoPanic (Device.tcpSocket : M (Device W H) (TcpSocketError E) _)).run _
    split
    · exact .pure _
    · exact .throw _
  | takeSocket => exact nofun
  | udpSetPort i p => exact fun ⟨u, _, h⟩ => (NoPanic.onSockBus (np_setPort hB p)).run _ h
  | udpConnect i r => exact fun ⟨u, _, h⟩ => (np_deviceUdpConnect hB r).run _ h
  | udpBind i p => exact fun ⟨u, _, h⟩ => (np_deviceUdpBind hB p).run _ h
  | udpSend i b => exact fun ⟨u, _, h⟩ => (np_deviceUdpSend hB fuel u b).run _ h
  | udpSendTo i r b => exact fun ⟨u, _, h⟩ => (np_deviceUdpSendTo hB fuel r b).run _ h
  | udpClose i => exact fun ⟨u, hg, h⟩ => (np_deviceUdpClose hB u (h8 hg)).run _ h
  | tcpConnect i r => exact fun ⟨t, _, h⟩ => (np_deviceTcpConnect hB fuel t r).run _ h
  | tcpSend i b => exact fun ⟨t, _, h⟩ => (np_deviceTcpSend hB fuel t b).run _ h
  | tcpReceive i b => exact fun ⟨t, _, h⟩ => (np_deviceTcpReceive hB fuel t).run _ h
  | tcpClose i => exact fun ⟨t, hg, h⟩ => (np_deviceTcpClose hB t (h8 hg)).run _ h
  | releaseSocket i => exact fun ⟨s, hg, h⟩ => (np_releaseSocket s (h8 hg)).run _ h
  | leak i => exact id
  | common o => exact np_common hB o _
  | reactivate g => exact id

/-- C63: neither do the initialisers, `Device::reset`, and MACRAW sending (for `read_frame` see C56). -/
theorem C63_init (B : Bus W E) (hB : Calm B) (assert : Bool) (mac : Mac) (ip gateway subnet : Ipv4) (mode : Mode) (w : W) :
    (Uninit.initialize assert B mac mode w).1 ≠ .panic ∧ (Uninit.initializeManual assert B mac ip mode w).1 ≠ .panic ∧
    (Uninit.initializeAdvanced assert B mac ip gateway subnet mode w).1 ≠ .panic ∧
    (Uninit.initializeMacraw B mac w).1 ≠ .panic ∧
    (∀ d : Device W H, (Device.reset B d).1 ≠ .panic) ∧
    ∀ (r : RawDevice) fuel frame, (r.writeFrame B fuel frame w).1 ≠ .panic := by
  have hm : NoPanic (Host.refresh B : M (Manual × W) E Unit) := by
    show NoPanic (Manual.refresh B)
    have := np_writeSettings hB
    unfold Manual.refresh
    refine .bind .mget fun s => ?_
    dsimp only
    split
    · exact .bind (.zoom (this _)) fun _ => .modify _
    · exact .pure _
  have hd : NoPanic (Host.refresh B : M (Dhcp × W) E Unit) := .pure _
  refine ⟨(np_initialize hB hd _ _ _).run w, (np_initialize hB hm _ _ _).run w, (np_initialize hB hm _ _ _).run w, ?_, ?_, ?_⟩
  · have := np_rawNew hB
    refine NoPanic.run (m := Uninit.initializeMacraw B mac) ?_ w
    unfold Uninit.initializeMacraw
    nopanic
  · intro d
    refine NoPanic.run (m := (Device.reset B : M (Device W H) _ _)) ?_ d
    unfold Device.reset resetChip
    nopanic
  · exact fun r fuel frame => (np_rawWrite hB r fuel frame).run w

/-- The buses the theorem is about: every chip behind a four-wire connection, whatever happens on the line. -/
theorem C63_calm {C : Type} (D : ByteDev C E) : Calm (FourWire.bus D.spiDevice) := by
  rw [C01_refinement]
  exact calm_bus D

/-- A client that opens and closes sockets of both kinds and then closes one more. -/
example : let c := (Client.initial Chip.powerUp ()).run (Chip.dev demoSched noFaults).bus 99 [.udpSocket, .tcpSocket,
      .udpBind 0 7, .tcpConnect 1 demoRemote, .udpClose 0]
    c.live = [.tcp ⟨Socket.new 1⟩] ∧ ¬ c.Panics (Chip.dev demoSched noFaults).bus 99 (.tcpClose 0) ∧
    (Device.tcpClose (Chip.dev demoSched noFaults).bus ⟨Socket.new 1⟩ c.dev).1 = .ok () := by
  refine ⟨by decide +kernel, C63 _ (calm_bus _) _ _ _ _ _ nofun, by decide +kernel⟩

end W5500.Props
