import Verif.Spec.EndToEnd
import Verif.Props.System
import Verif.Props.Raw
/-! # From one program to another (C72) -/

namespace W5500.Props
open W5500 Spec

/-! ## C72 TCP: what one end reads is what the other end wrote -/

theorem drop_prefix {x p y z : List U8} (h : x ++ p = y ++ z) : x.drop y.length <+: z := by
  have := congrArg (List.drop y.length) h
  rw [List.drop_left, List.drop_append] at this
  exact ⟨_, this⟩

/-- C72, TCP: what `receive` delivered at one end, and what is waiting there, is the beginning of what `send` accepted at
the other end. -/
theorem C72_tcp {a0 a b0 b : Sock} {accA delA accB delB : List U8} (hA : TcpEnd a0 accA delA a) (hB : TcpEnd b0 accB delB b)
    (net : Stream a0 a b0 b) : delB ++ b.queue <+: accA := by
  obtain ⟨z1, s1, g1, i1, f1, r1, k1, t1, rfl, rfl⟩ := hA
  obtain ⟨z2, s2, g2, i2, f2, r2, k2, t2, rfl, rfl⟩ := hB
  have hs := (C61_tcp z1 s1 g1 i1 f1 r1 k1 t1).1
  obtain ⟨before, h0, h1⟩ := (C61_tcp z2 s2 g2 i2 f2 r2 k2 t2).2
  refine (net _ ⟨before, h0, by rw [h1, List.append_assoc]⟩).trans ?_
  exact drop_prefix hs

/-- C72, TCP, complete transmission: once nothing is pending in the sender's chip, everything transmitted has arrived, and
the receiver's buffer is empty, the receiver has read exactly what the sender wrote. -/
theorem C72_tcp_all {a0 a b0 b : Sock} {accA delA accB delB : List U8} (hA : TcpEnd a0 accA delA a)
    (hB : TcpEnd b0 accB delB b) (net : ∀ bs, Since b0 b bs → bs = a.stream.drop a0.stream.length) (hp : a.pending = [])
    (hq : b.queue = []) : delB = accA := by
  obtain ⟨z1, s1, g1, i1, f1, r1, k1, t1, rfl, rfl⟩ := hA
  obtain ⟨z2, s2, g2, i2, f2, r2, k2, t2, rfl, rfl⟩ := hB
  have hs := (C61_tcp z1 s1 g1 i1 f1 r1 k1 t1).1
  obtain ⟨before, h0, h1⟩ := (C61_tcp z2 s2 g2 i2 f2 r2 k2 t2).2
  have := net _ ⟨before, h0, by rw [h1, List.append_assoc]⟩
  rw [hq, List.append_nil] at this
  rw [hp, List.append_nil] at hs
  rw [this, hs, List.drop_left]

/-- A schedule for the demonstration: the connection is established while `connect` polls, then everything committed is
transmitted, and the same bytes arrive from the peer (which does the same). -/
def echoSched (k : Nat) : List (Nat × Act) :=
  if k < 16 then [] else [(0, .status 0x17), (0, .raise 0x10), (0, .transmit 9)] ++ if k = 30 then [(0, .arrive [7, 8, 9])] else []

def echoBus : Bus Chip Unit := (Chip.dev echoSched noFaults).bus
/-- A chip whose pointers start just below 2^16, and elsewhere again when connecting. -/
def oddChip : Chip :=
  { Chip.powerUp with
    socks := fun n => { Chip.powerUp.socks n with bases := fun p _ => if p = 0 then some (0x1234, 7) else some (0xFFFE, 0xFFFF) } }
def echoOpen : Client Chip Unit := (Client.initial oddChip ()).step echoBus 9 .tcpSocket
def echoConnected : Client Chip Unit := echoOpen.step echoBus 100 (.tcpConnect 0 demoRemote)
def echoSent : Client Chip Unit := echoConnected.step echoBus 9 (.tcpSend 0 [7, 8, 9])
def echoDone : Client Chip Unit := echoSent.step echoBus 9 (.tcpReceive 0 [0, 0])

theorem echo_end : TcpEnd (echoConnected.dev.bus.socks 0) [7, 8, 9] [7, 8] (echoDone.dev.bus.socks 0) := by
  have h1 : TcpClient echoSched noFaults 0 echoConnected [7, 8, 9] [] echoSent :=
    TcpClient.send (sched := echoSched) (faults := noFaults) (n := 0) (c0 := echoConnected) 9 0 demoSocket [7, 8, 9] 3 .start
      (by decide +kernel) rfl (by decide +kernel)
  have h2 : TcpClient echoSched noFaults 0 echoConnected [7, 8, 9] [7, 8] echoDone :=
    TcpClient.receive 9 0 demoSocket [0, 0] [7, 8] 2 h1 (by decide +kernel) rfl (by decide +kernel) (by decide +kernel)
  have h0 : ClientRun echoSched noFaults (Client.initial oddChip ()) echoOpen := .step 9 .tcpSocket .start nofun
  exact .mk (fun _ _ => powerUp_sizes) h0 (n := 0) (c1 := echoOpen) (c := echoDone) (i := 0) (t := demoSocket) (by decide +kernel) rfl 100 demoRemote
    (by decide +kernel) h2 (by rw [echoConnected, echoBus]) rfl

/-- C72_tcp is not vacuous: two such ends; one has sent three bytes, the other has read two of them. -/
example : TcpEnd (echoConnected.dev.bus.socks 0) [7, 8, 9] [7, 8] (echoDone.dev.bus.socks 0) ∧
    Stream (echoConnected.dev.bus.socks 0) (echoDone.dev.bus.socks 0) (echoConnected.dev.bus.socks 0) (echoDone.dev.bus.socks 0) ∧
    (echoDone.dev.bus.socks 0).queue = [9] ∧ (echoConnected.dev.bus.socks 0).txRd = 0xFFFE ∧
    (echoDone.dev.bus.socks 0).txRd = 1 := by
  refine ⟨echo_end, ?_, by decide +kernel, by decide +kernel, by decide +kernel⟩
  intro bs ⟨old, h1, h2⟩
  have e1 : (echoConnected.dev.bus.socks 0).arrived = [] := by decide +kernel
  have e2 : (echoDone.dev.bus.socks 0).arrived = [7, 8, 9] := by decide +kernel
  have e3 : (echoDone.dev.bus.socks 0).stream.drop (echoConnected.dev.bus.socks 0).stream.length = [7, 8, 9] := by decide +kernel
  rw [e1] at h1
  obtain ⟨rfl, _⟩ := List.append_eq_nil_iff.mp h1.symm
  rw [e2, List.nil_append] at h2
  rw [e3, ← h2]
  exact List.prefix_refl _

/-! ## C72 UDP: what one end receives is what the other end sent -/

theorem wire_inj {a b : SockAddr4} (h : wire a = wire b) : a = b := by
  obtain ⟨⟨a1, a2, a3, a4⟩, p⟩ := a
  obtain ⟨⟨b1, b2, b3, b4⟩, q⟩ := b
  simp only [wire, be, Prod.mk.injEq, List.cons.injEq, and_true] at h
  obtain ⟨⟨rfl, rfl, rfl, rfl⟩, h1, h2⟩ := h
  have h1 := congrArg BitVec.toNat h1
  have h2 := congrArg BitVec.toNat h2
  simp only [BitVec.toNat_ofNat] at h1 h2
  have : p = q := BitVec.eq_of_toNat_eq (by omega)
  rw [this]

/-- What a socket emitted to `dst` are pieces of the buffers sent to `dst`, in order. -/
theorem emitted_pieces {z : Nat} {log : List UdpSent} {sent : List Packet} (h : UdpSent.All z log sent) (dst : SockAddr4) :
    ((sent.filter fun p => p.delivered && decide ((p.ip, p.port) = wire dst)).map (·.data)).Sublist
      ((log.filter fun e => decide (e.dst = dst)).flatMap fun e => pieces z e.data) := by
  induction h with
  | nil => exact .slnil
  | @snoc log ps ps' e _ hby ih =>
    rw [List.filter_append, List.filter_append, List.map_append, List.flatMap_append]
    refine ih.append ?_
    obtain ⟨ds, hd, _, hc, hto⟩ := hby
    by_cases he : e.dst = dst
    · rw [List.filter_cons_of_pos (by simpa using he), List.filter_nil, List.flatMap_cons, List.flatMap_nil, List.append_nil]
      exact ((List.filter_sublist.map _).trans (hc ▸ hd.sublist))
    · have : (ps'.filter fun p => p.delivered && decide ((p.ip, p.port) = wire dst)) = [] := by
        refine List.filter_eq_nil_iff.mpr fun p hp hh => he (wire_inj ?_)
        have h2 := hto p hp
        have h3 : (p.ip, p.port) = wire dst := by simpa using ((Bool.and_eq_true _ _).mp hh).2
        rw [← h3, h2.1, h2.2]
      rw [this]
      exact List.nil_sublist _

/-- The receives from `src` hold the payloads of some of the datagrams from `src`, in order. -/
theorem among_holds {got : List UdpGot} {ds : List Dgram} (h : UdpGot.Among got ds) (src : SockAddr4) :
    ∃ ps, UdpGot.HoldAll (got.filter fun g => decide (g.origin = .v4 src)) ps ∧
      ps.Sublist ((ds.filter fun d => decide ((d.ip, d.port) = wire src)).map (·.payload)) := by
  have snoc : ∀ {got : List UdpGot} {ps : List (List U8)} {g : UdpGot} {p : List U8}, UdpGot.HoldAll got ps → g.Holds p →
      UdpGot.HoldAll (got ++ [g]) (ps ++ [p]) := by
    intro got ps g p h hg
    induction h with
    | nil => exact .cons hg .nil
    | cons h1 _ ih => exact .cons h1 ih
  induction h with
  | nil => exact ⟨[], .nil, .slnil⟩
  | lost d _ ih =>
    obtain ⟨ps, h1, h2⟩ := ih
    refine ⟨ps, h1, h2.trans ?_⟩
    rw [List.filter_append, List.map_append]
    exact List.sublist_append_left _ _
  | @got got ds g d _ hb ih =>
    obtain ⟨ps, h1, h2⟩ := ih
    obtain ⟨⟨a, ha, hw⟩, hp, hf, hk⟩ := hb
    rw [List.filter_append, List.filter_append, List.map_append]
    by_cases hs : a = src
    · subst hs
      rw [List.filter_cons_of_pos (by simpa using ha), List.filter_nil, List.filter_cons_of_pos (by simpa using hw.symm),
        List.filter_nil]
      exact ⟨ps ++ [d.payload], snoc h1 ⟨by omega, hp⟩, h2.append (List.Sublist.refl _)⟩
    · rw [List.filter_cons_of_neg (by rw [ha]; simpa using hs), List.filter_nil, List.append_nil]
      exact ⟨ps, h1, h2.trans (List.sublist_append_left _ _)⟩

/-- C72, UDP: the network may lose, duplicate and reorder datagrams, but not invent them. Then every successful `receive` at
one end that names `src` (the address of the other end) as the origin has put a piece of a buffer into the caller's buffer
that the other end gave to a send to `dst` (the address of this end). The buffer was cut into pieces of the sender's TX buffer
size. -/
theorem C72_udp {a0 a b0 b : Sock} {logA logB : List UdpSent} {gotA gotB : List UdpGot} (hA : UdpEnd a0 logA gotA a)
    (hB : UdpEnd b0 logB gotB b) (src dst : SockAddr4) (net : Unforged src dst a0 a b0 b) :
    ∀ g ∈ gotB, g.origin = .v4 src → ∃ e ∈ logA, e.dst = dst ∧ ∃ p ∈ pieces a0.txSize e.data, g.Holds p := by
  obtain ⟨z1, s1, w1, n1, t1, g1, i1, f1, o1, l1, rfl, rfl⟩ := hA
  obtain ⟨z2, s2, w2, n2, t2, g2, i2, f2, o2, l2, rfl, rfl⟩ := hB
  obtain ⟨sent, hall, hsent⟩ := (C61_udp z1 s1 w1 n1 t1 g1 i1 f1 o1 l1).1
  obtain ⟨A, ds, qs, h0, h1, _, hwf, hamong⟩ := (C61_udp z2 s2 w2 n2 t2 g2 i2 f2 o2 l2).2
  intro g hg horg
  have hin : ∃ d ∈ ds, g.Brings d := by
    clear h1 hwf l2
    induction hamong with
    | nil => cases hg
    | lost d _ ih =>
      obtain ⟨d', h, h'⟩ := ih hg
      exact ⟨d', List.mem_append_left _ h, h'⟩
    | @got _ _ g' d _ hb ih =>
      cases List.mem_append.mp hg with
      | inl hg =>
        obtain ⟨d', h, h'⟩ := ih hg
        exact ⟨d', List.mem_append_left _ h, h'⟩
      | inr hg =>
        cases List.mem_singleton.mp hg
        exact ⟨d, List.mem_append_right _ (List.mem_singleton.mpr rfl), hb⟩
  obtain ⟨d, hd, ⟨a, ha, hw⟩, hp, hf, hk⟩ := hin
  have hsrc : a = src := by
    rw [horg] at ha
    cases ha
    rfl
  subst hsrc
  obtain ⟨p, hpm, hpd⟩ := net _ hwf ⟨A, h0, h1⟩ d (List.mem_append_left _ hd) hw.symm
  unfold emitted at hpm
  rw [hsent, List.drop_left] at hpm
  have := (emitted_pieces hall dst).mem (List.mem_map_of_mem hpm)
  obtain ⟨e, he, hpe⟩ := List.mem_flatMap.mp this
  obtain ⟨he, hed⟩ := List.mem_filter.mp he
  exact ⟨e, he, by simpa using hed, _, hpe, by rw [hpd]; exact ⟨by omega, hp⟩⟩

/-- C72, UDP, whole messages: if the other end only sent buffers that fit its TX buffer, the caller's buffer starts with a
whole one of them. -/
theorem C72_udp_whole {a0 a b0 b : Sock} {logA logB : List UdpSent} {gotA gotB : List UdpGot} (hA : UdpEnd a0 logA gotA a)
    (hB : UdpEnd b0 logB gotB b) (src dst : SockAddr4) (net : Unforged src dst a0 a b0 b)
    (hfit : ∀ e ∈ logA, e.data.length ≤ a0.txSize) :
    ∀ g ∈ gotB, g.origin = .v4 src → ∃ e ∈ logA, e.dst = dst ∧ g.Holds e.data := by
  intro g hg ho
  obtain ⟨e, he, hd, p, hp, h⟩ := C72_udp hA hB src dst net g hg ho
  refine ⟨e, he, hd, ?_⟩
  have : p = e.data := by
    unfold pieces at hp
    split at hp
    · cases hp
    · rw [List.take_of_length_le (hfit e he), List.drop_of_length_le (hfit e he)] at hp
      unfold pieces at hp
      rw [dif_pos (Or.inl rfl)] at hp
      exact List.mem_singleton.mp hp
  exact this ▸ h

/-- C72, UDP, order: if the network neither reorders nor duplicates, then the messages received from the other end are, in
order, different pieces of the buffers the other end sent here. -/
theorem C72_udp_order {a0 a b0 b : Sock} {logA logB : List UdpSent} {gotA gotB : List UdpGot} (hA : UdpEnd a0 logA gotA a)
    (hB : UdpEnd b0 logB gotB b) (src dst : SockAddr4) (net : Orderly src dst a0 a b0 b) :
    ∃ ps, UdpGot.HoldAll (gotB.filter fun g => decide (g.origin = .v4 src)) ps ∧
      ps.Sublist ((logA.filter fun e => decide (e.dst = dst)).flatMap fun e => pieces a0.txSize e.data) := by
  obtain ⟨z1, s1, w1, n1, t1, g1, i1, f1, o1, l1, rfl, rfl⟩ := hA
  obtain ⟨z2, s2, w2, n2, t2, g2, i2, f2, o2, l2, rfl, rfl⟩ := hB
  obtain ⟨sent, hall, hsent⟩ := (C61_udp z1 s1 w1 n1 t1 g1 i1 f1 o1 l1).1
  obtain ⟨A, ds, qs, h0, h1, _, hwf, hamong⟩ := (C61_udp z2 s2 w2 n2 t2 g2 i2 f2 o2 l2).2
  obtain ⟨ps, hh, hs⟩ := among_holds hamong src
  refine ⟨ps, hh, hs.trans ?_⟩
  have h2 := net _ hwf ⟨A, h0, h1⟩
  unfold emitted at h2
  rw [hsent, List.drop_left, List.filter_append, List.map_append] at h2
  exact ((List.sublist_append_left _ _).trans h2).trans (emitted_pieces hall dst)

/-! ### Demonstration -/

/-- The sending program. -/
def talkBus : Bus Chip Unit := (Chip.dev emitSched noFaults).bus
def talkNew : Client Chip Unit := (Client.initial Chip.powerUp ()).step talkBus 9 .udpSocket
def talkOpen : Client Chip Unit := talkNew.step talkBus 9 (.udpConnect 0 (.v4 addrB))
def talkDone : Client Chip Unit := talkOpen.step talkBus 9 (.udpSend 0 [7, 8])

/-- The receiving program; the datagram of two bytes is from `addrA`. -/
def hearBus : Bus Chip Unit := (Chip.dev (arriveSched [dgramA]) noFaults).bus
def hearNew : Client Chip Unit := (Client.initial Chip.powerUp ()).step hearBus 9 .udpSocket
def hearOpen : Client Chip Unit := hearNew.step hearBus 9 (.udpBind 0 99)
def hearDone : Client Chip Unit := hearOpen.step hearBus 9 (.udpReceive 0 [0, 0, 0])

theorem talk_end : UdpEnd (talkOpen.dev.bus.socks 0) [⟨addrB, [7, 8], true⟩] [] (talkDone.dev.bus.socks 0) := by
  have h : UdpClient emitSched noFaults 0 talkOpen [⟨addrB, [7, 8], true⟩] [] talkDone :=
    UdpClient.call (sched := emitSched) (faults := noFaults) (n := 0) (log' := [⟨addrB, [7, 8], true⟩]) (got' := [])
      (u := { UdpSocket.new (Socket.new 0) with destination := some addrB }) (c0 := talkOpen) 9 0 (.udpSend 0 [7, 8]) .start
      (by decide +kernel) rfl (.send _ addrB rfl (by decide +kernel))
  have h0 : ClientRun emitSched noFaults (Client.initial Chip.powerUp ()) talkNew := .step 9 .udpSocket .start nofun
  exact .mk (fun _ _ => powerUp_sizes) h0 (n := 0) (c1 := talkNew) (c3 := talkNew) (o := .udpConnect 0 (.v4 addrB))
    (u := UdpSocket.new (Socket.new 0)) (by decide +kernel) (by decide) .start (by decide +kernel) rfl 9
    ⟨rfl, by decide +kernel⟩ h rfl rfl

theorem hear_end : UdpEnd (hearOpen.dev.bus.socks 0) [] [⟨[0, 0, 0], 3, .v4 addrA, [7, 8, 0]⟩] (hearDone.dev.bus.socks 0) := by
  have h : UdpClient (arriveSched [dgramA]) noFaults 0 hearOpen [] [⟨[0, 0, 0], 3, .v4 addrA, [7, 8, 0]⟩] hearDone :=
    UdpClient.call (sched := arriveSched [dgramA]) (faults := noFaults) (n := 0) (log' := [])
      (got' := [⟨[0, 0, 0], 3, .v4 addrA, [7, 8, 0]⟩])
      (u := { UdpSocket.new (Socket.new 0) with port := 99 }) (c0 := hearOpen) 9 0 (.udpReceive 0 [0, 0, 0]) .start
      (by decide +kernel) rfl (.receive _ _ _ _ (by decide +kernel) (by decide +kernel))
  have h0 : ClientRun (arriveSched [dgramA]) noFaults (Client.initial Chip.powerUp ()) hearNew := .step 9 .udpSocket .start nofun
  exact .mk (fun _ _ => powerUp_sizes) h0 (n := 0) (c1 := hearNew) (c3 := hearNew) (o := .udpBind 0 99)
    (u := UdpSocket.new (Socket.new 0)) (by decide +kernel) (by decide) .start (by decide +kernel) rfl 9
    ⟨rfl, by decide +kernel⟩ h rfl rfl

/-- The datagrams that arrived at the receiving program. -/
theorem hear_since {ds : List Dgram} (hw : ∀ d ∈ ds, d.Wf)
    (h : Since (hearOpen.dev.bus.socks 0) (hearDone.dev.bus.socks 0) (encAll ds)) : ds = [dgramA] := by
  obtain ⟨old, h1, h2⟩ := h
  have e1 : (hearOpen.dev.bus.socks 0).arrived = [] := by decide +kernel
  have e3 : (hearDone.dev.bus.socks 0).arrived = encAll [dgramA] := by decide +kernel
  rw [e1] at h1
  obtain ⟨rfl, _⟩ := List.append_eq_nil_iff.mp h1.symm
  rw [e3, List.nil_append] at h2
  exact encAll_inj hw (by decide) h2.symm

/-- C72_udp, C72_udp_whole and C72_udp_order are not vacuous: the receiving program has got the message of the sending one. -/
example :
    let a0 := talkOpen.dev.bus.socks 0; let a := talkDone.dev.bus.socks 0
    let b0 := hearOpen.dev.bus.socks 0; let b := hearDone.dev.bus.socks 0
    UdpEnd a0 [⟨addrB, [7, 8], true⟩] [] a ∧ UdpEnd b0 [] [⟨[0, 0, 0], 3, .v4 addrA, [7, 8, 0]⟩] b ∧
      Unforged addrA addrB a0 a b0 b ∧ Orderly addrA addrB a0 a b0 b ∧ a0.txSize = 2048 := by
  have he : (emitted addrB (talkOpen.dev.bus.socks 0) (talkDone.dev.bus.socks 0)) =
      [⟨[10, 9, 9, 9], [0, 99], [7, 8], true⟩] := by decide +kernel
  refine ⟨talk_end, hear_end, ?_, ?_, by decide +kernel⟩
  · intro ds hw h d hd _
    cases hear_since hw h
    cases List.mem_singleton.mp hd
    rw [he]
    exact ⟨_, List.mem_singleton.mpr rfl, rfl⟩
  · intro ds hw h
    cases hear_since hw h
    rw [he]
    decide

/-! ## C72 MACRAW: what one end reads is what the other end wrote -/

theorem rawSent_data {log : List RawSent} {ps : List Packet} (h : RawSent.All log ps) :
    (ps.map (·.data)).Sublist (log.map (·.frame)) := by
  induction h with
  | nil => exact .slnil
  | ok _ _ ih => rw [List.map_append, List.map_append]; exact ih.append (List.Sublist.refl _)
  | lost f _ ih => rw [List.map_append]; exact ih.trans (List.sublist_append_left _ _)
  | failed _ ih => rw [List.map_append, List.map_append]; exact ih.append (List.Sublist.refl _)

/-- What both ends know of the frames between them: what was transmitted, and what arrived. -/
theorem rawEnd_sent {a0 a : Sock} {log : List RawSent} {got : List RawGot} (h : RawEnd a0 log got a) :
    ((a.packets.drop a0.packets.length).map (·.data)).Sublist (log.map (·.frame)) := by
  obtain ⟨o, t, rfl, rfl⟩ := h
  obtain ⟨ps, h1, h2⟩ := C57_history o t
  rw [h2, List.drop_left]
  exact rawSent_data h1

theorem rawEnd_got {b0 b : Sock} {log : List RawSent} {got : List RawGot} (h : RawEnd b0 log got b) :
    ∃ fs queued, RawGot.All got fs ∧ (∀ f ∈ fs ++ queued, f.length + 2 < 65536) ∧ Since b0 b (encFrames (fs ++ queued)) := by
  obtain ⟨o, t, rfl, rfl⟩ := h
  obtain ⟨A, first, fs, queued, h1, h2, ⟨h3, h4⟩, h5, h6⟩ := C55_history o t
  refine ⟨fs, queued, h3, fun f hf => ?_, A, by rw [h1.2, h2], h6⟩
  rcases List.mem_append.mp hf with hf | hf
  · exact h4 f hf
  · exact h5.1 f hf

/-- C72, MACRAW: the frames `fs` that `read_frame` brought at one end: those with the source address of the other end
begin with (are, but for the padding) a frame that was given to `write_frame` there. -/
theorem C72_raw {a0 a b0 b : Sock} {logA logB : List RawSent} {gotA gotB : List RawGot} (hA : RawEnd a0 logA gotA a)
    (hB : RawEnd b0 logB gotB b) (mac : List U8) (net : WireUnforged mac a0 a b0 b) :
    ∃ fs, RawGot.All gotB fs ∧ ∀ f ∈ fs, sourceMac f = mac → ∃ e ∈ logA, e.frame <+: f := by
  obtain ⟨fs, queued, h1, h2, h3⟩ := rawEnd_got hB
  refine ⟨fs, h1, fun f hf hm => ?_⟩
  obtain ⟨p, hp, hd⟩ := net _ h2 h3 f (List.mem_append_left _ hf) hm
  obtain ⟨e, he, hh⟩ := List.mem_map.mp ((rawEnd_sent hA).mem (List.mem_map_of_mem hp))
  exact ⟨e, he, hh ▸ hd⟩

/-- C72, MACRAW, order: if the wire neither pads nor reorders nor duplicates, then the frames read are, in order, different
ones of the frames written at the other end. -/
theorem C72_raw_order {a0 a b0 b : Sock} {logA logB : List RawSent} {gotA gotB : List RawGot} (hA : RawEnd a0 logA gotA a)
    (hB : RawEnd b0 logB gotB b) (mac : List U8) (net : WireOrderly mac a0 a b0 b) :
    ∃ fs, RawGot.All gotB fs ∧ (fs.filter fun f => decide (sourceMac f = mac)).Sublist (logA.map (·.frame)) := by
  obtain ⟨fs, queued, h1, h2, h3⟩ := rawEnd_got hB
  refine ⟨fs, h1, .trans ?_ ((net _ h2 h3).trans (rawEnd_sent hA))⟩
  rw [List.filter_append]
  exact List.sublist_append_left _ _

/-- A frame of 14 bytes from the station 2:0:0:0:0:1. -/
def wireFrame : List U8 := [2, 0, 0, 0, 0, 2, 2, 0, 0, 0, 0, 1, 8, 0]
/-- Whatever is sent gets out at once, and one `wireFrame` arrives. -/
def wireSched (k : Nat) : List (Nat × Act) :=
  (if k = 18 then [(0, .frame wireFrame)] else []) ++ [(0, .emit true), (0, .raise 0x10)]
def wireOpen : Chip := (RawDevice.new (Chip.dev (E := Unit) wireSched noFaults).bus Chip.powerUp).2
def wireSent : Chip := (rawDemo.writeFrame (Chip.dev (E := Unit) wireSched noFaults).bus 9 wireFrame wireOpen).2
def wireRead : Res Unit Nat × List U8 × Chip :=
  rawDemo.readFrame (Chip.dev wireSched noFaults).bus 9 (List.replicate 20 0, wireSent)

theorem wire_end : RawEnd (wireOpen.socks 0) [⟨wireFrame, true⟩] [⟨List.replicate 20 0, 14, wireFrame ++ List.replicate 6 0⟩]
    (wireRead.2.2.socks 0) := by
  have h0 : RawOpened (E := Unit) wireSched noFaults rawDemo wireOpen := .new (run_eq (by decide +kernel))
  have h1 := RawRun.writeFrame (c1 := wireOpen) (E := Unit) 9 wireFrame 14 .start
    (run_eq (r := rawDemo.writeFrame (Chip.dev wireSched noFaults).bus 9 wireFrame wireOpen) (by decide +kernel))
  have h2 := RawRun.readFrame 9 (List.replicate 20 0) (wireFrame ++ List.replicate 6 0) 14 h1
    (run_eq' (r := wireRead) (by decide +kernel) (by decide +kernel))
  exact .mk h0 h2 rfl rfl

/-- C72_raw and C72_raw_order are not vacuous: two such ends, each has read the frame of the other one. -/
example : WireUnforged [2, 0, 0, 0, 0, 1] (wireOpen.socks 0) (wireRead.2.2.socks 0) (wireOpen.socks 0) (wireRead.2.2.socks 0) ∧
    WireOrderly [2, 0, 0, 0, 0, 1] (wireOpen.socks 0) (wireRead.2.2.socks 0) (wireOpen.socks 0) (wireRead.2.2.socks 0) ∧
    sourceMac wireFrame = [2, 0, 0, 0, 0, 1] := by
  have e1 : (wireOpen.socks 0).arrived = (wireOpen.socks 0).queue := by decide +kernel
  have e2 : (wireRead.2.2.socks 0).arrived = encFrames [wireFrame] := by decide +kernel
  have e3 : ((wireRead.2.2.socks 0).packets.drop (wireOpen.socks 0).packets.length) =
      [⟨[0, 0, 0, 0], [0, 0], wireFrame, true⟩] := by decide +kernel
  have key : ∀ fs, (∀ f ∈ fs, f.length + 2 < 65536) → Since (wireOpen.socks 0) (wireRead.2.2.socks 0) (encFrames fs) →
      fs = [wireFrame] := by
    rintro fs hf ⟨old, h1, h2⟩
    rw [e1] at h1
    have : old = [] := List.append_left_eq_self.mp h1.symm
    rw [this, e2, List.nil_append] at h2
    exact C55_unambiguous _ _ hf (by decide) h2.symm
  refine ⟨fun fs hf h => ?_, fun fs hf h => ?_, rfl⟩
  · cases key fs hf h
    intro f hf _
    cases List.mem_singleton.mp hf
    rw [e3]
    exact ⟨_, List.mem_singleton.mpr rfl, List.prefix_refl _⟩
  · cases key fs hf h
    rw [e3]
    decide

end W5500.Props
