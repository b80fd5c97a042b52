import Verif.Proofs.Strategy
/-! # Every program is a strategy -/

namespace W5500
open Spec
variable {E ε α H : Type}

/-- What a step of a client shows, what the client has afterwards, and the bus. -/
def bothParts {W X : Type} (x : X) (c : Client W H) : (X × Belongings H) × W := ((x, c.belongings), c.dev.bus)

theorem play_common (o : CommonOp) : Plays fun W (B : Bus W E) w => (o.seen B w, o.run B w) := by
  cases o with
  | gateway => exact (play_readIp (E := E) common.GATEWAY).map Seen.address
  | subnetMask => exact (play_readIp (E := E) common.SUBNET_MASK).map Seen.address
  | mac => exact (play_mac (E := E)).map Seen.mac
  | ip => exact (play_readIp (E := E) common.IP).map Seen.address
  | phyConfig => exact (play_phy (E := E)).map Seen.phy
  | resetDevice => exact (play_write (E := E) COMMON common.MODE [0b10000000]).map Seen.unit
  | version => exact (play_read1 (E := E) COMMON common.VERSION).map Seen.byte
  | currentRetryTimeout => exact (play_retryTimeout (E := E)).map Seen.time
  | currentRetryCount => exact (play_read1 (E := E) COMMON common.RETRY_COUNT).map Seen.byte
  | setMode m => exact (play_write (E := E) COMMON common.MODE m.toRegister).map Seen.unit
  | setRetryTimeout t => exact (play_write (E := E) COMMON common.RETRY_TIME t.toRegister).map Seen.unit
  | setRetryCount n => exact (play_write (E := E) COMMON common.RETRY_COUNT [n]).map Seen.unit

/-- A call with `&mut UdpSocket`. -/
theorem play_onUdp {b : Belongings H} {i : Nat} {f : Res ε α → UdpSocket → Seen E}
    {m : (W : Type) → Bus W E → M (UdpSocket × W) ε α} (hm : ∀ u, Play1 u m) :
    Plays fun W B w => bothParts ((b.client w).seenUdp i (Device.onSockBus (m W B)) f)
      ((b.client w).onUdp i (Device.onSockBus (m W B))) := by
  unfold Client.seenUdp Client.onUdp Belongings.client
  dsimp only
  rcases b.live[i]? with _ | u | t | s
  · exact Plays.done (Seen.nothing, b)
  · exact (hm u).map fun x => (f x.1 x.2, (⟨b.state, b.live.set i (.udp x.2), b.lost⟩ : Belongings H))
  · exact Plays.done (Seen.nothing, b)
  · exact Plays.done (Seen.nothing, b)

theorem play_onUdp_throw {b : Belongings H} {i : Nat} {f : Res ε α → UdpSocket → Seen E} {e : ε} :
    Plays fun W (_ : Bus W E) w => bothParts ((b.client w).seenUdp i (M.throw e) f)
      ((b.client w).onUdp i (M.throw (α := α) e)) := by
  unfold Client.seenUdp Client.onUdp Belongings.client
  dsimp only
  rcases hb : b.live[i]? with _ | u | t | s
  · exact Plays.done (Seen.nothing, b)
  · exact Plays.done (f (.err e) u, (⟨b.state, b.live.set i (.udp u), b.lost⟩ : Belongings H))
  · exact Plays.done (Seen.nothing, b)
  · exact Plays.done (Seen.nothing, b)

/-- `close`: a function on the bus, then the slot is released. -/
theorem play_close {b : Belongings H} {i : Nat} {h : Handle} {s : Socket} {f : Res ε Unit → Seen E}
    {m : (W : Type) → Bus W E → M W ε Unit} (hm : Play0 m) :
    Plays fun W B w => bothParts (f ((Device.onBus (H := H) (m W B) >>= fun _ => Device.releaseSocket s) (b.client w).dev).1)
      ((b.client w).consume i h ((Device.onBus (m W B) >>= fun _ => Device.releaseSocket s) (b.client w).dev)) := by
  refine (hm.map fun x => match x with
    | .ok _ => match b.state.releaseSocket s with
      | some st => (f (.ok ()), (⟨st, b.live.eraseIdx i, b.lost⟩ : Belongings H))
      | none => (f .panic, ⟨b.state, b.live.eraseIdx i, b.lost ++ [h.index]⟩)
    | .err e => (f (.err e), ⟨b.state, b.live.eraseIdx i, b.lost ++ [h.index]⟩)
    | .panic => (f .panic, ⟨b.state, b.live.eraseIdx i, b.lost ++ [h.index]⟩)
    | .fuel => (f .fuel, ⟨b.state, b.live.eraseIdx i, b.lost ++ [h.index]⟩)).congr ?_
  intro W B w
  unfold Client.consume Belongings.client bothParts Client.belongings
  dsimp only [bind, M.bind, Device.onBus, M.zoom, Device.releaseSocket]
  generalize m W B w = r
  obtain ⟨_ | _ | _ | _, t⟩ := r
  · dsimp only
    cases b.state.releaseSocket s <;> rfl
  · rfl
  · rfl
  · rfl

theorem play_udpReceived (u : UdpSocket) (fuel : Nat) (d : List U8) :
    Play1 d fun W (B : Bus W E) => (do
      let (received, header) ← u.socketReceive B fuel
      pure (received, SockAddr.v4 header.origin) : M (List U8 × W) (NbError (UdpSocketError E)) (Nat × SockAddr)) :=
  .bind (play_udpReceive u fuel d) fun a t => Plays.done (Res.ok (a.1, SockAddr.v4 a.2.origin), t)

theorem play_step (fuel : Nat) (b : Belongings H) (o : Op Unit) :
    Plays fun W (B : Bus W E) w => bothParts ((b.client w).seen B fuel (o.on W)) ((b.client w).step B fuel (o.on W)) := by
  cases o with
  | udpSocket =>
    unfold Client.seen Client.step Client.alloc Device.udpSocket Belongings.client Op.on
    dsimp only [bind, M.bind, Device.takeSocket]
    rcases b.state.socket with ⟨_ | s, st⟩
    · exact Plays.done (Seen.udpSocket (.err .noMoreSockets), (⟨st, b.live, b.lost⟩ : Belongings H))
    · exact Plays.done (Seen.udpSocket (.ok (.new s)), (⟨st, b.live ++ [.udp (.new s)], b.lost⟩ : Belongings H))
  | tcpSocket =>
    unfold Client.seen Client.step Client.alloc Device.tcpSocket Belongings.client Op.on
    dsimp only [bind, M.bind, Device.takeSocket]
    rcases b.state.socket with ⟨_ | s, st⟩
    · exact Plays.done (Seen.tcpSocket (.err .noMoreSockets), (⟨st, b.live, b.lost⟩ : Belongings H))
    · exact Plays.done (Seen.tcpSocket (.ok ⟨s⟩), (⟨st, b.live ++ [.tcp ⟨s⟩], b.lost⟩ : Belongings H))
  | takeSocket =>
    unfold Client.seen Client.step Belongings.client Op.on
    dsimp only [Device.takeSocket]
    rcases b.state.socket with ⟨_ | s, st⟩
    · exact Plays.done (Seen.socket (.ok none), (⟨st, b.live, b.lost⟩ : Belongings H))
    · exact Plays.done (Seen.socket (.ok (some s)), (⟨st, b.live ++ [.raw s], b.lost⟩ : Belongings H))
  | udpSetPort i p => exact play_onUdp fun u => play_setPort u p
  | udpConnect i r =>
    cases r with
    | v6 => exact play_onUdp_throw
    | v4 a => exact play_onUdp fun u => play_udpConnect u a
  | udpBind i p => exact play_onUdp fun u => play_udpBind u p
  | udpSend i d =>
    unfold Client.seen Client.step Belongings.client Op.on
    dsimp only
    rcases b.live[i]? with _ | u | t | s
    · exact Plays.done (Seen.nothing, b)
    · exact (play_udpSend (E := E) u fuel d).map fun x => (Seen.udpSent x u, b)
    · exact Plays.done (Seen.nothing, b)
    · exact Plays.done (Seen.nothing, b)
  | udpSendTo i r d =>
    cases r with
    | v6 => exact play_onUdp_throw
    | v4 a => exact play_onUdp fun u => play_udpSendTo u fuel a d
  | udpReceive i d =>
    unfold Client.seen Client.step Belongings.client Op.on
    dsimp only
    rcases b.live[i]? with _ | u | t | s
    · exact Plays.done (Seen.nothing, b)
    · exact (play_udpReceived (E := E) u fuel d).map fun x => (Seen.udpReceived x.1 x.2, b)
    · exact Plays.done (Seen.nothing, b)
    · exact Plays.done (Seen.nothing, b)
  | udpClose i =>
    unfold Client.seen Client.step Belongings.client Op.on
    dsimp only
    rcases b.live[i]? with _ | u | t | s
    · exact Plays.done (Seen.nothing, b)
    · exact play_close (f := Seen.udpClosed) (b := b) (h := .udp u) (play_udpClose u)
    · exact Plays.done (Seen.nothing, b)
    · exact Plays.done (Seen.nothing, b)
  | tcpConnect i r =>
    unfold Client.seen Client.step Belongings.client Op.on
    dsimp only
    rcases b.live[i]? with _ | u | t | s
    · exact Plays.done (Seen.nothing, b)
    · exact Plays.done (Seen.nothing, b)
    · cases r with
      | v6 => exact Plays.done (Seen.tcp (.err .unsupportedAddress), b)
      | v4 a =>
        exact (Play0.bind (play_tcpOpen (E := E) t _) fun _ => play_tcpConnect t fuel a).map fun x => (Seen.tcp x, b)
    · exact Plays.done (Seen.nothing, b)
  | tcpSend i d =>
    unfold Client.seen Client.step Belongings.client Op.on
    dsimp only
    rcases b.live[i]? with _ | u | t | s
    · exact Plays.done (Seen.nothing, b)
    · exact Plays.done (Seen.nothing, b)
    · exact (play_tcpSend (E := E) t fuel d).map fun x => (Seen.tcpSent x, b)
    · exact Plays.done (Seen.nothing, b)
  | tcpReceive i d =>
    unfold Client.seen Client.step Belongings.client Op.on
    dsimp only
    rcases b.live[i]? with _ | u | t | s
    · exact Plays.done (Seen.nothing, b)
    · exact Plays.done (Seen.nothing, b)
    · exact (play_tcpReceive (E := E) t fuel d).map fun x => (Seen.tcpReceived x.1 x.2, b)
    · exact Plays.done (Seen.nothing, b)
  | tcpClose i =>
    unfold Client.seen Client.step Op.on
    dsimp only [Belongings.client]
    rcases b.live[i]? with _ | u | t | s
    · exact Plays.done (Seen.nothing, b)
    · exact Plays.done (Seen.nothing, b)
    · exact play_close (f := Seen.tcp) (b := b) (h := .tcp t) (play_tcpClose t)
    · exact Plays.done (Seen.nothing, b)
  | releaseSocket i =>
    unfold Client.seen Client.step Client.consume Op.on
    dsimp only [Belongings.client, Device.releaseSocket]
    rcases b.live[i]? with _ | u | t | s
    · exact Plays.done (Seen.nothing, b)
    · exact Plays.done (Seen.nothing, b)
    · exact Plays.done (Seen.nothing, b)
    · dsimp only
      cases b.state.releaseSocket s with
      | some st => exact Plays.done (Seen.unit (.ok ()), (⟨st, b.live.eraseIdx i, b.lost⟩ : Belongings H))
      | none =>
        exact Plays.done (Seen.unit .panic, (⟨b.state, b.live.eraseIdx i, b.lost ++ [(Handle.raw s).index]⟩ : Belongings H))
  | leak i =>
    unfold Client.seen Client.step Belongings.client Op.on
    dsimp only
    rcases b.live[i]? with _ | x
    · exact Plays.done (Seen.nothing, b)
    · exact Plays.done (Seen.nothing, (⟨b.state, b.live.eraseIdx i, b.lost ++ [x.index]⟩ : Belongings H))
  | common o => exact (play_common (E := E) o).map fun x => (x, b)
  | reactivate g => exact Plays.done (Seen.nothing, b)

/-- Whole programs: everything that is shown, and what the client has at the end. -/
theorem play_program (b : Belongings H) (ops : List (Nat × Op Unit)) :
    Plays fun W (B : Bus W E) w => bothParts (Client.outputs B (b.client w) (onBusType W ops))
      (Client.after B (b.client w) (onBusType W ops)) := by
  induction ops generalizing b with
  | nil => exact Plays.done (([] : List (Seen E)), b)
  | cons o ops ih =>
    exact (play_step (E := E) o.1 b o.2).andThen fun x => (ih x.2).map fun y => (x.1 :: y.1, y.2)

end W5500
