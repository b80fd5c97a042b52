import Verif.Proofs.Relate
import Verif.Proofs.Client
/-! # Running the same client program on two related buses -/

namespace W5500
open Spec socketn
variable {W W' E ε α S H : Type}

/-- Devices that differ in the bus state only. -/
def DevLike (R : W → W' → Prop) (d : Device W H) (d' : Device W' H) : Prop := R d.bus d'.bus ∧ d.state = d'.state

theorem Rel.onBus {R : W → W' → Prop} {m : M W ε α} {m' : M W' ε α} (h : Rel R Eq m m') :
    Rel (DevLike (H := H) R) Eq (Device.onBus m) (Device.onBus m') :=
  .zoom (fun _ _ r => r.1) (fun _ _ _ _ r r' => ⟨r', r.2⟩) h

theorem Rel.onBufBus {R : W → W' → Prop} {m : M (S × W) ε α} {m' : M (S × W') ε α} (h : Rel (Both R) Eq m m') :
    Rel (Both (DevLike (H := H) R)) Eq (Device.onSockBus m) (Device.onSockBus m') :=
  .zoom (R' := Both R) (fun _ _ r => ⟨r.1, r.2.1⟩) (fun _ _ _ _ r r' => ⟨r'.1, r'.2, r.2.2⟩) h

theorem Rel.onSockBus {R : W → W' → Prop} {s : Socket} {m : M (UdpSocket × W) ε α} {m' : M (UdpSocket × W') ε α}
    (h : Rel (OnSock s R) Eq m m') :
    Rel (OnSock s (DevLike (H := H) R)) Eq (Device.onSockBus m) (Device.onSockBus m') :=
  .zoom (R' := OnSock s R) (fun _ _ r => ⟨r.1, r.2.1, r.2.2.1⟩) (fun _ _ _ _ r r' => ⟨r'.1, r'.2.1, r'.2.2, r.2.2.2⟩) h

theorem rel_release {R : W → W' → Prop} (s : Socket) :
    Rel (DevLike (H := H) R) Eq (Device.releaseSocket (E := ε) s) (Device.releaseSocket s) := by
  constructor
  intro d d' r
  unfold Device.releaseSocket
  rw [r.2]
  split
  · exact ⟨rfl, r.1, rfl⟩
  · exact ⟨trivial, r⟩

theorem rel_take {R : W → W' → Prop} :
    Rel (DevLike (H := H) R) Eq (Device.takeSocket (E := ε)) Device.takeSocket := by
  constructor
  intro d d' r
  unfold Device.takeSocket
  rw [r.2]
  exact ⟨rfl, r.1, rfl⟩

theorem rel_udpSocket {R : W → W' → Prop} :
    Rel (DevLike (H := H) R) Eq (Device.udpSocket (E := E)) Device.udpSocket := by
  unfold Device.udpSocket
  refine .bindEq rel_take fun o => ?_
  cases o
  · exact .throw
  · exact .pure rfl

theorem rel_tcpSocket {R : W → W' → Prop} :
    Rel (DevLike (H := H) R) Eq (Device.tcpSocket (E := E)) Device.tcpSocket := by
  unfold Device.tcpSocket
  refine .bindEq rel_take fun o => ?_
  cases o
  · exact .throw
  · exact .pure rfl

section
variable {F T : U8 → Prop} {D : List U8 → List U8 → Prop} {B : Bus W E} {B' : Bus W' E} {R : W → W' → Prop}

theorem rel_devUdpConnect (h : Respects F T D B B' R) {s : Socket} (hs : F s.register) (remote : SockAddr) :
    Rel (OnSock s (DevLike (H := H) R)) Eq (Device.udpConnect B remote) (Device.udpConnect B' remote) := by
  cases remote with
  | v6 => exact .throw
  | v4 a => exact .onSockBus (rel_udpConnectBus h hs a)

theorem rel_devUdpSendTo (h : Respects F T D B B' R) (hD : Cut D) {s : Socket} (hs : F s.register) (ht : T s.txBuffer)
    (fuel : Nat) (remote : SockAddr) {d d' : List U8} (hd : D d d') :
    Rel (OnSock s (DevLike (H := H) R)) Eq (Device.udpSendTo B fuel remote d) (Device.udpSendTo B' fuel remote d') := by
  cases remote with
  | v6 => exact .throw
  | v4 a => exact .onSockBus (rel_udpSendTo h hD hs ht fuel a hd)

theorem rel_devTcpConnect (h : Respects F T D B B' R) {t : TcpSocket} (hs : F t.socket.register) (fuel : Nat)
    (remote : SockAddr) :
    Rel (DevLike (H := H) R) Eq (Device.tcpConnect B fuel t remote) (Device.tcpConnect B' fuel t remote) := by
  cases remote with
  | v6 => exact .throw
  | v4 a => exact .onBus (.bindEq (rel_tcpOpen h hs _) fun _ => rel_tcpConnect h hs fuel a)

theorem rel_devUdpReceive (h : Respects F T D B B' R) {u : UdpSocket} (hs : F u.socket.register)
    (hr : F u.socket.rxBuffer) (fuel : Nat) :
    Rel (Both (DevLike (H := H) R)) Eq (Device.udpReceive B fuel u) (Device.udpReceive B' fuel u) :=
  .onBufBus (.bindEq (rel_udpReceive h hs hr fuel) fun _ => .pure rfl)

theorem rel_devUdpClose (h : Respects F T D B B' R) {u : UdpSocket} (hs : F u.socket.register) :
    Rel (DevLike (H := H) R) Eq (Device.udpClose B u) (Device.udpClose B' u) :=
  .bindEq (.onBus (rel_udpClose h hs)) fun _ => rel_release _

theorem rel_devTcpClose (h : Respects F T D B B' R) {t : TcpSocket} (hs : F t.socket.register) :
    Rel (DevLike (H := H) R) Eq (Device.tcpClose B t) (Device.tcpClose B' t) :=
  .bindEq (.onBus (rel_tcpClose h hs)) fun _ => rel_release _

theorem common_like (h : Respects F T D B B' R) (hc : F 0) (o : CommonOp) {w : W} {w' : W'} (r : R w w') :
    o.seen B w = o.seen B' w' ∧ R (o.run B w) (o.run B' w') := by
  have key : ∀ {ε α : Type} {m : M W ε α} {m' : M W' ε α} (f : Res ε α → Seen E), Rel R Eq m m' →
      f (m w).1 = f (m' w').1 ∧ R (m w).2 (m' w').2 := by
    intro ε α m m' f hm
    have := hm.run w w' r
    exact ⟨congrArg f (Res.same_eq.mp this.1), this.2⟩
  cases o with
  | gateway => exact key .address (rel_readIp h hc _)
  | subnetMask => exact key .address (rel_readIp h hc _)
  | mac => exact key .mac (rel_mac h hc)
  | ip => exact key .address (rel_readIp h hc _)
  | phyConfig => exact key .phy (rel_phy h hc)
  | resetDevice => exact key .unit (rel_write h hc _ _)
  | version => exact key .byte (rel_read1 h hc _)
  | currentRetryTimeout => exact key .time (rel_retryTimeout h hc)
  | currentRetryCount => exact key .byte (rel_read1 h hc _)
  | setMode m => exact key .unit (rel_write h hc _ _)
  | setRetryTimeout t => exact key .unit (rel_write h hc _ _)
  | setRetryCount n => exact key .unit (rel_write h hc _ _)

theorem Client_dev_like {c : Client W H} {c' : Client W' H} (hc : c.Like R c') {ε α : Type} {m : M (Device W H) ε α}
    {m' : M (Device W' H) ε α} (hm : Rel (DevLike R) Eq m m') (f : Res ε α → Seen E) :
    f (m c.dev).1 = f (m' c'.dev).1 ∧
    Client.Like R { c with dev := (m c.dev).2 } { c' with dev := (m' c'.dev).2 } := by
  have := hm.run _ _ ⟨hc.bus, hc.state⟩
  exact ⟨congrArg f (Res.same_eq.mp this.1), this.2.1, this.2.2, hc.live, hc.lost⟩

theorem alloc_like {c : Client W H} {c' : Client W' H} (hc : c.Like R c') {ε α : Type} {m : M (Device W H) ε α}
    {m' : M (Device W' H) ε α} (hm : Rel (DevLike R) Eq m m') (wrap : α → Handle) :
    (c.alloc wrap (m c.dev)).Like R (c'.alloc wrap (m' c'.dev)) := by
  obtain ⟨h1, h2⟩ := hm.run _ _ ⟨hc.bus, hc.state⟩
  rw [Res.same_eq] at h1
  unfold Client.alloc
  rw [← h1]
  split
  · exact ⟨h2.1, h2.2, by rw [hc.live], hc.lost⟩
  · exact ⟨h2.1, h2.2, hc.live, hc.lost⟩

theorem consume_like {c : Client W H} {c' : Client W' H} (hc : c.Like R c') {ε α : Type} {m : M (Device W H) ε α}
    {m' : M (Device W' H) ε α} (hm : Rel (DevLike R) Eq m m') (i : Nat) (x : Handle) (f : Res ε α → Seen E) :
    f (m c.dev).1 = f (m' c'.dev).1 ∧ (c.consume i x (m c.dev)).Like R (c'.consume i x (m' c'.dev)) := by
  obtain ⟨h1, h2⟩ := hm.run _ _ ⟨hc.bus, hc.state⟩
  rw [Res.same_eq] at h1
  unfold Client.consume
  rw [← h1]
  refine ⟨rfl, h2.1, h2.2, congrArg (·.eraseIdx i) hc.live, ?_⟩
  dsimp only
  rw [hc.lost]

theorem onUdp_like {c : Client W H} {c' : Client W' H} (hc : c.Like R c') {ε α : Type} {i : Nat}
    {m : M (UdpSocket × Device W H) ε α} {m' : M (UdpSocket × Device W' H) ε α}
    (hm : ∀ u, c.live[i]? = some (.udp u) → Rel (OnSock u.socket (DevLike R)) Eq m m') (f : Res ε α → UdpSocket → Seen E) :
    c.seenUdp i m f = c'.seenUdp i m' f ∧ (c.onUdp i m).Like R (c'.onUdp i m') := by
  unfold Client.seenUdp Client.onUdp
  rw [← hc.live]
  generalize hg : c.live[i]? = x at *
  cases x with
  | none => exact ⟨rfl, hc⟩
  | some x =>
    cases x with
    | udp u =>
      obtain ⟨h1, _, h2, h3⟩ := (hm u rfl).run (u, c.dev) (u, c'.dev) ⟨rfl, rfl, hc.bus, hc.state⟩
      rw [Res.same_eq] at h1
      dsimp only
      rw [← h1, ← h2]
      exact ⟨rfl, h3.1, h3.2, rfl, hc.lost⟩
    | tcp t => exact ⟨rfl, hc⟩
    | raw s => exact ⟨rfl, hc⟩

/-- The blocks `o` uses are among `F` and `T`. -/
structure Spec.Op.Within (F T : U8 → Prop) (c : Client W H) (o : Op W) : Prop where
  sock : ∀ i x, o.target = some i → c.live[i]? = some x → F x.socket.register ∧ F x.socket.rxBuffer ∧ T x.socket.txBuffer
  common : ∀ q, o = .common q → F 0

theorem AllocInv.within {c : Client W H} (hi : AllocInv c) (hb : Blocks F T) (o : Op W) : o.Within F T c where
  sock := by
    intro i x _ hx
    have hm := List.mem_of_getElem? hx
    have h8 : x.index < 8 := hi.bound _ (List.mem_append_left _ (List.mem_map_of_mem hm))
    rw [hi.canonical x hm]
    exact ⟨hb.reg _ h8, hb.rx _ h8, hb.tx _ h8⟩
  common := fun _ _ => hb.common

/-- One operation. -/
theorem step_like (h : Respects F T D B B' R) (hD : Cut D) {c : Client W H} {c' : Client W' H} (hc : c.Like R c') (fuel : Nat)
    {o : Op W} {o' : Op W'} (hu : o.Within F T c) (ho : o.Like D R o') :
    c.seen B fuel o = c'.seen B' fuel o' ∧ (c.step B fuel o).Like R (c'.step B' fuel o') := by
  have hsock : ∀ {i : Nat} {x : Handle}, o.target = some i → c.live[i]? = some x →
      F x.socket.register ∧ F x.socket.rxBuffer ∧ T x.socket.txBuffer := fun h1 h2 => hu.sock _ _ h1 h2
  cases ho with
  | udpSocket =>
    exact ⟨(Client_dev_like hc rel_udpSocket .udpSocket).1, alloc_like hc rel_udpSocket .udp⟩
  | tcpSocket =>
    exact ⟨(Client_dev_like hc rel_tcpSocket .tcpSocket).1, alloc_like hc rel_tcpSocket .tcp⟩
  | takeSocket =>
    obtain ⟨h1, h2⟩ := (rel_take (ε := E)).run _ _ (⟨hc.bus, hc.state⟩ : DevLike R c.dev c'.dev)
    rw [Res.same_eq] at h1
    refine ⟨congrArg Seen.socket h1, ?_⟩
    unfold Client.step
    generalize Device.takeSocket c.dev = x at h1 h2
    generalize Device.takeSocket c'.dev = y at h1 h2
    obtain ⟨x1, x2⟩ := x
    obtain ⟨y1, y2⟩ := y
    dsimp only at h1 h2 ⊢
    subst h1
    obtain (_ | _) | _ | _ | _ := x1
    · exact ⟨h2.1, h2.2, hc.live, hc.lost⟩
    · exact ⟨h2.1, h2.2, congrArg (· ++ _) hc.live, hc.lost⟩
    · exact ⟨h2.1, h2.2, hc.live, hc.lost⟩
    · exact ⟨h2.1, h2.2, hc.live, hc.lost⟩
    · exact ⟨h2.1, h2.2, hc.live, hc.lost⟩
  | udpSetPort i p => exact onUdp_like hc (fun u hu => .onSockBus (rel_setPort h (hsock rfl hu).1 p)) _
  | udpConnect i r => exact onUdp_like hc (fun u hu => rel_devUdpConnect h (hsock rfl hu).1 r) _
  | udpBind i p => exact onUdp_like hc (fun u hu => .onSockBus (rel_udpBindBus h (hsock rfl hu).1 p)) _
  | udpSendTo i r hd => exact onUdp_like hc (fun u hu => rel_devUdpSendTo h hD (hsock rfl hu).1 (hsock rfl hu).2.2 fuel r hd) _
  | udpSend i hd =>
    have hl : c'.live[i]? = c.live[i]? := by rw [hc.live]
    unfold Client.seen Client.step
    dsimp only
    rw [hl]
    rcases hx : c.live[i]? with _ | u | t | s
    · exact ⟨rfl, hc⟩
    · have hs := hsock rfl hx
      exact Client_dev_like hc (.onBus (rel_udpSend h hD hs.1 hs.2.2 fuel hd)) fun r => Seen.udpSent r u
    · exact ⟨rfl, hc⟩
    · exact ⟨rfl, hc⟩
  | tcpSend i hd =>
    have hl : c'.live[i]? = c.live[i]? := by rw [hc.live]
    unfold Client.seen Client.step
    dsimp only
    rw [hl]
    rcases hx : c.live[i]? with _ | u | t | s
    · exact ⟨rfl, hc⟩
    · exact ⟨rfl, hc⟩
    · have hs := hsock rfl hx
      exact Client_dev_like hc (.onBus (rel_tcpSend h hD hs.1 hs.2.2 fuel hd)) Seen.tcpSent
    · exact ⟨rfl, hc⟩
  | tcpConnect i r =>
    have hl : c'.live[i]? = c.live[i]? := by rw [hc.live]
    unfold Client.seen Client.step
    dsimp only
    rw [hl]
    rcases hx : c.live[i]? with _ | u | t | s
    · exact ⟨rfl, hc⟩
    · exact ⟨rfl, hc⟩
    · exact Client_dev_like hc (rel_devTcpConnect h (hsock rfl hx).1 fuel r) Seen.tcp
    · exact ⟨rfl, hc⟩
  | udpReceive i b =>
    have hl : c'.live[i]? = c.live[i]? := by rw [hc.live]
    unfold Client.seen Client.step
    dsimp only
    rw [hl]
    rcases hx : c.live[i]? with _ | u | t | s
    · exact ⟨rfl, hc⟩
    · have hs := hsock rfl hx
      obtain ⟨h1, h2, h3⟩ := (rel_devUdpReceive h hs.1 hs.2.1 fuel).run (b, c.dev) (b, c'.dev) ⟨rfl, hc.bus, hc.state⟩
      rw [Res.same_eq] at h1
      dsimp only
      rw [h1, h2]
      exact ⟨rfl, h3.1, h3.2, hc.live, hc.lost⟩
    · exact ⟨rfl, hc⟩
    · exact ⟨rfl, hc⟩
  | tcpReceive i b =>
    have hl : c'.live[i]? = c.live[i]? := by rw [hc.live]
    unfold Client.seen Client.step
    dsimp only
    rw [hl]
    rcases hx : c.live[i]? with _ | u | t | s
    · exact ⟨rfl, hc⟩
    · exact ⟨rfl, hc⟩
    · have hs := hsock rfl hx
      obtain ⟨h1, h2, h3⟩ := (Rel.onBufBus (rel_tcpReceive h hs.1 hs.2.1 fuel)).run (b, c.dev) (b, c'.dev)
        ⟨rfl, hc.bus, hc.state⟩
      rw [Res.same_eq] at h1
      unfold Device.tcpReceive
      dsimp only
      rw [h1, h2]
      exact ⟨rfl, h3.1, h3.2, hc.live, hc.lost⟩
    · exact ⟨rfl, hc⟩
  | udpClose i =>
    have hl : c'.live[i]? = c.live[i]? := by rw [hc.live]
    unfold Client.seen Client.step
    dsimp only
    rw [hl]
    rcases hx : c.live[i]? with _ | u | t | s
    · exact ⟨rfl, hc⟩
    · exact consume_like hc (rel_devUdpClose h (hsock rfl hx).1) i _ Seen.udpClosed
    · exact ⟨rfl, hc⟩
    · exact ⟨rfl, hc⟩
  | tcpClose i =>
    have hl : c'.live[i]? = c.live[i]? := by rw [hc.live]
    unfold Client.seen Client.step
    dsimp only
    rw [hl]
    rcases hx : c.live[i]? with _ | u | u | s
    · exact ⟨rfl, hc⟩
    · exact ⟨rfl, hc⟩
    · exact consume_like hc (rel_devTcpClose h (hsock rfl hx).1) i _ Seen.tcp
    · exact ⟨rfl, hc⟩
  | releaseSocket i =>
    have hl : c'.live[i]? = c.live[i]? := by rw [hc.live]
    unfold Client.seen Client.step
    dsimp only
    rw [hl]
    rcases hx : c.live[i]? with _ | u | t | s
    · exact ⟨rfl, hc⟩
    · exact ⟨rfl, hc⟩
    · exact ⟨rfl, hc⟩
    · exact consume_like hc (rel_release _) i _ Seen.unit
  | leak i =>
    refine ⟨rfl, ?_⟩
    have hl : c'.live[i]? = c.live[i]? := by rw [hc.live]
    unfold Client.step
    dsimp only
    rw [hl]
    rcases c.live[i]? with _ | x
    · exact hc
    · exact ⟨hc.bus, hc.state, congrArg (·.eraseIdx i) hc.live, congrArg (· ++ _) hc.lost⟩
  | common o =>
    obtain ⟨h1, h2⟩ := common_like h (hu.common o rfl) o hc.bus
    exact ⟨h1, h2, hc.state, hc.live, hc.lost⟩
  | reactivate hg => exact ⟨rfl, hg _ _ hc.bus, hc.state, hc.live, hc.lost⟩

/-- Any number of operations. -/
theorem outputs_like (h : Respects F T D B B' R) (hD : Cut D) (hb : Blocks F T) {ops : List (Nat × Op W)}
    {ops' : List (Nat × Op W')} (ho : Op.AllLike D R ops ops') {c : Client W H} {c' : Client W' H} (hi : AllocInv c)
    (hc : c.Like R c') : c.outputs B ops = c'.outputs B' ops' ∧ (c.after B ops).Like R (c'.after B' ops') := by
  induction ho generalizing c c' with
  | nil => exact ⟨rfl, hc⟩
  | cons fuel ho _ ih =>
    obtain ⟨h1, h2⟩ := step_like h hD hc fuel (hi.within hb _) ho
    obtain ⟨h3, h4⟩ := ih (hi.step _ _) h2
    exact ⟨by unfold Client.outputs; rw [h1, h3], h4⟩

end
end W5500
