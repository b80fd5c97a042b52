import Verif.Props.Alloc
import Verif.Props.TcpConnect
/-! # Local ports of TCP connections

C103 A connection is not mistaken for an earlier one. A TCP connection is identified by the two addresses and the two ports; with
the server's address and port given, only the local port can tell two connections of a program apart. -/

namespace W5500.Spec
open W5500

/-- The data of a successful write to Sn_PORT (0x04) in register block `reg`. -/
def portWrite {E : Type} (reg : U8) : Ev E → Option (List U8)
  | .wr b a d (.ok _) => if b = reg ∧ a = 0x04 then some d else none
  | _ => none

/-- What register Sn_PORT of block `reg` was last set to in the traffic `l`. -/
def localPort {E : Type} (reg : U8) (l : List (Ev E)) : Option (List U8) := l.reverse.findSome? (portWrite reg)

end W5500.Spec

namespace W5500.Props
open W5500 W5500.Spec
variable {W E H : Type}

/-- `pre` is what a call of `connect` on `t` had sent to the bus when it sent the CONNECT command. -/
def BeforeConnect (B : Bus W E) (fuel : Nat) (t : TcpSocket) (remote : SockAddr4) (d : Device W H) (pre : List (Ev E)) : Prop :=
  ∃ post r, (Device.tcpConnect (traced B) fuel t (.v4 remote) ⟨⟨d.bus, []⟩, d.state⟩).2.bus.log =
    pre ++ .wr t.socket.register 0x01 [0x04] r :: post

theorem connect_port {B : Bus W E} {n : Nat} (hn : n < 8) {t : TcpSocket} (ht : t.socket = Socket.new (BitVec.ofNat 8 n))
    {fuel : Nat} {remote : SockAddr4} {d : Device W H} {pre : List (Ev E)} (h : BeforeConnect B fuel t remote d pre) :
    localPort t.socket.register pre = some (be (49849 + n)) := by
  obtain ⟨post, r, h⟩ := h
  obtain ⟨s⟩ := t
  dsimp only at ht
  subst ht
  dsimp only at h ⊢
  rw [sock_reg hn] at h ⊢
  obtain ⟨mask, x, mid, rfl, hm⟩ := C52 B n hn fuel remote _ rfl pre post r h
  generalize BitVec.ofNat 8 (4 * n + 1) = reg
  rcases hm with ⟨_, rfl⟩ | ⟨_, rfl⟩ <;>
    simp [localPort, openScript, remoteScript, reopenScript, Wr.done, portWrite, List.findSome?_cons]

/-- C103, what holds: connections a program has at the same time are told apart. In every history of API calls, of the TCP sockets it
holds, different ones connect from different local ports, whatever bus, server and moment. Missing: connections one after the other. -/
theorem C103_partial (B : Bus W E) (fuel : Nat) (w : W) (host : H) (ops : List (Op W)) {i j : Nat} {t t' : TcpSocket} (hij : i ≠ j)
    (hi : (Client.run B fuel (Client.initial w host) ops).live[i]? = some (.tcp t))
    (hj : (Client.run B fuel (Client.initial w host) ops).live[j]? = some (.tcp t'))
    {fuel1 fuel2 : Nat} {remote remote' : SockAddr4} {d d' : Device W H} {pre pre' : List (Ev E)}
    (h : BeforeConnect B fuel1 t remote d pre) (h' : BeforeConnect B fuel2 t' remote' d' pre') :
    ∃ p p', localPort t.socket.register pre = some p ∧ localPort t'.socket.register pre' = some p' ∧ p ≠ p' := by
  obtain ⟨hd, hc⟩ := C14_live_sockets_distinct B fuel w host ops
  generalize Client.run B fuel (Client.initial w host) ops = c at hi hj hd hc
  obtain ⟨h1, h2⟩ := hc _ (List.mem_of_getElem? hi)
  obtain ⟨h3, h4⟩ := hc _ (List.mem_of_getElem? hj)
  refine ⟨_, _, connect_port h1 h2 h, connect_port h3 h4 h', fun e => hij ?_⟩
  have hne : (Handle.tcp t).index = (Handle.tcp t').index := by
    have k : ∀ a < 8, ∀ b < 8, be (49849 + a) = be (49849 + b) → a = b := by decide +kernel
    exact k _ h1 _ h3 e
  have hp := List.pairwise_iff_getElem.mp hd
  obtain ⟨li, ei⟩ := List.getElem?_eq_some_iff.mp hi
  obtain ⟨lj, ej⟩ := List.getElem?_eq_some_iff.mp hj
  rcases Nat.lt_trichotomy i j with hlt | rfl | hlt
  · have := hp i j (by simpa using li) (by simpa using lj) hlt
    simp only [List.getElem_map, ei, ej] at this
    exact absurd hne this
  · rfl
  · have := hp j i (by simpa using lj) (by simpa using li) hlt
    simp only [List.getElem_map, ei, ej] at this
    exact absurd hne.symm this

/-- C103 is false of one connection after the other: a socket always connects from the same port, 49849 plus its number, also to
the same server. -/
theorem C103_refuted (B B' : Bus W E) {n : Nat} (hn : n < 8) {t : TcpSocket} (ht : t.socket = Socket.new (BitVec.ofNat 8 n))
    {fuel fuel' : Nat} {remote remote' : SockAddr4} {d d' : Device W H} {pre pre' : List (Ev E)}
    (h : BeforeConnect B fuel t remote d pre) (h' : BeforeConnect B' fuel' t remote' d' pre') :
    localPort t.socket.register pre = localPort t.socket.register pre' ∧ localPort t.socket.register pre = some (be (49849 + n)) :=
  ⟨(connect_port hn ht h).trans (connect_port hn ht h').symm, connect_port hn ht h⟩

/-- … and taking a new socket does not help: whenever all sockets of lower number are in use, closing a TCP socket and asking for one
gives the same socket. -/
theorem C103_new_socket (B : Bus W E) (fuel : Nat) (w : W) (host : H) (ops : List (Op W)) {i : Nat} {t : TcpSocket} :
    let c := Client.run B fuel (Client.initial w host) ops
    c.live[i]? = some (.tcp t) → (∀ j < t.socket.index.toNat, j ∈ c.live.map Handle.index ++ c.lost) →
    ∀ d, Device.tcpClose B t c.dev = (.ok (), d) → ∃ d', Device.tcpSocket (E := E) d = (.ok t, d') := by
  intro c hg hlow d hclose
  have hi : AllocInv c := (allocInv_initial w host).run fuel ops
  have hm : Handle.tcp t ∈ c.live := List.mem_of_getElem? hg
  have h8 : t.socket.index.toNat < 8 := hi.bound _ (List.mem_append_left _ (List.mem_map_of_mem hm))
  have hcan : t.socket = Socket.new (BitVec.ofNat 8 t.socket.index.toNat) := hi.canonical _ hm
  have key := close_result B c.dev _ h8 (UdpSocket.new t.socket) t hcan hcan
  generalize closeWrites B t.socket.index.toNat c.dev.bus = r at key
  obtain ⟨_ | _ | _ | _, w'⟩ := r <;> simp only at key <;> rw [key.2] at hclose
  · obtain rfl := (Prod.mk.inj hclose).2
    rcases socket_spec (H := H) { c.dev.state with sockets := setBit c.dev.state.sockets t.socket.index.toNat true } with
      ⟨k, k8, kl, kt, hk⟩ | ⟨hall, _⟩
    · have e : k = t.socket.index.toNat := by
        dsimp only at kl kt
        rcases Nat.lt_trichotomy k t.socket.index.toNat with hlt | e | hlt
        · rw [getLsbD_setBit _ _ _ _ h8 k8, if_neg (by omega), (hi.taken k k8).mpr (hlow k hlt)] at kt
          exact nomatch kt
        · exact e
        · have := kl _ hlt
          rw [getLsbD_setBit _ _ _ _ h8 h8, if_pos rfl] at this
          exact nomatch this
      subst e
      rw [← hcan] at hk
      obtain ⟨⟨s⟩, rfl, hs⟩ := ((C15_socket_calls (E := E) ⟨w', _⟩).2 t.socket ⟨w', _⟩
        (congrArg (fun r => (Res.ok r.1, (⟨w', r.2⟩ : Device W H))) hk)).2
      exact ⟨_, hs⟩
    · have := hall _ h8
      dsimp only at this
      rw [getLsbD_setBit _ _ _ _ h8 h8, if_pos rfl] at this
      exact nomatch this
  all_goals exact nomatch (Prod.mk.inj hclose).1

/-- A program connects, closes the connection, takes a socket and connects to the same server: from port 49849 both times. -/
example :
    let B := (Chip.dev demoSched noFaults).bus
    let c := Client.run B 9 (Client.initial Chip.powerUp ()) [.tcpSocket]
    let t := demoSocket
    let r1 := Device.tcpConnect B 9 t demoRemote c.dev
    let r2 := Device.tcpClose B t r1.2
    let r3 := Device.tcpSocket (E := Unit) r2.2
    let r4 := Device.tcpConnect B 9 t demoRemote r3.2
    let port (d : Device Chip Unit) := [(d.bus.socks 0).mem 0x04, (d.bus.socks 0).mem 0x05]
    c.live.map Handle.index = [0] ∧ r1.1 = .ok () ∧ port r1.2 = be 49849 ∧ r2.1 = .ok () ∧ r3.1 = .ok t ∧
      r4.1 = .ok () ∧ port r4.2 = be 49849 := by
  decide +kernel

/-- Two sockets at the same time, each with its CONNECT command: ports 49849 and 49850. -/
example :
    let B := (Chip.dev demoSched noFaults).bus
    let c := Client.run B 9 (Client.initial Chip.powerUp ()) [.tcpSocket, .tcpSocket]
    let log (t : TcpSocket) := (Device.tcpConnect (traced B) 9 t demoRemote ⟨⟨c.dev.bus, []⟩, c.dev.state⟩).2.bus.log
    let before (t : TcpSocket) := (log t).takeWhile (· ≠ .wr t.socket.register 0x01 [0x04] (.ok ()))
    let t' : TcpSocket := ⟨Socket.new 1⟩
    c.live.map Handle.index = [0, 1] ∧ before demoSocket ≠ log demoSocket ∧ before t' ≠ log t' ∧
      localPort demoSocket.socket.register (before demoSocket) = some (be 49849) ∧
      localPort t'.socket.register (before t') = some (be 49850) := by
  decide +kernel

end W5500.Props
