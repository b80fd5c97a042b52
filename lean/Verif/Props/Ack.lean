import Verif.Proofs.Ack
import Verif.Proofs.AccessDev
import Verif.Props.Raw
/-! # Acknowledging interrupts: C94 -/

namespace W5500.Props
open W5500 W5500.Spec socketn
variable {W E H : Type} {B : Bus W E}

/-- C94. However the chip answers and whichever transfer fails: TCP send and receive, UDP send, send_to and receive write Sn_IR
of their socket only to acknowledge a single interrupt, and only after they have seen it set (and not written Sn_IR since). -/
theorem C94 (i : U8) (fuel : Nat) (data : List U8) (t : TcpSocket) (ht : t.socket = .new i) (u : UdpSocket) (hu : u.socket = .new i)
    (remote : SockAddr) (d : Device (TW W E) H) :
    (∃ evs, (Device.tcpSend (traced B) fuel t data d).2.bus.log = d.bus.log ++ evs ∧ Acknowledged (Socket.new i).register evs) ∧
    (∃ evs, (Device.tcpReceive (traced B) fuel t (data, d)).2.2.bus.log = d.bus.log ++ evs ∧ Acknowledged (Socket.new i).register evs) ∧
    (∃ evs, (Device.udpSend (traced B) fuel u data d).2.bus.log = d.bus.log ++ evs ∧ Acknowledged (Socket.new i).register evs) ∧
    (∃ evs, (Device.udpSendTo (traced B) fuel remote data (u, d)).2.2.bus.log = d.bus.log ++ evs ∧
      Acknowledged (Socket.new i).register evs) ∧
    ∃ evs, (Device.udpReceive (traced B) fuel u (data, d)).2.2.bus.log = d.bus.log ++ evs ∧ Acknowledged (Socket.new i).register evs := by
  obtain ⟨_⟩ := t
  cases ht
  refine ⟨Logs.acked (fun _ => .onBus (tcpSend_acks i fuel data)) d, Logs.acked (fun _ => .onSockBus (tcpReceive_acks i fuel)) (data, d),
    ?_, ?_, ?_⟩
  · exact hu ▸ Logs.acked (fun _ => .onBus (sendAll_acks hu fuel data)) d
  · cases remote with
    | v6 => exact ⟨[], (List.append_nil _).symm, fun before e after h => by simp at h⟩
    | v4 r => exact sendTo_acks r fuel data (u, d.bus) hu
  · refine hu ▸ Logs.acked (fun _ => .onSockBus ?_) (data, d)
    exact .bind (udpReceive_acks hu fuel) fun _ => .pure fun _ h => h

/-- Not so MACRAW: the first transfer of write_frame clears SENDOK unseen. -/
theorem C94_raw (r : RawDevice) (fuel : Nat) (frame : List U8) (w : W) :
    ∃ res rest, (r.writeFrame (traced B) fuel frame ⟨w, []⟩).2.log = .wr r.rawSocket.register 0x02 [0x10] res :: rest ∧
      ¬ Acknowledged r.rawSocket.register (.wr r.rawSocket.register 0x02 [0x10] res :: rest) := by
  have hno : ∀ res rest, ¬ Acknowledged (E := E) r.rawSocket.register (.wr r.rawSocket.register 0x02 [0x10] res :: rest) := by
    intro res rest h
    obtain ⟨_, _, _, _, before, _, _, h, _⟩ := h [] _ rest rfl ⟨rfl, rfl, 0, by simp [Ev.data], by simp [Ev.addr]⟩
    simp at h
  let L : Lang E := .all fun _ => True
  have hrest : Emits L (do
      let free ← r.rawSocket.getTxFreeSize (traced B)
      let count ← rawSeq (traced B) r.rawSocket frame free
      RawDevice.waitSendOk (traced B) r.rawSocket fuel
      pure count.toNat) := by
    have ht : ∀ e : Ev E, L.mem [e] := fun _ _ _ => trivial
    have hw : ∀ n, Emits L (RawDevice.waitSendOk (traced B) r.rawSocket n) := by
      intro n
      induction n with
      | zero => exact .outOfFuel
      | succ n ih =>
        refine .bind (.bind (.read1 fun _ _ _ => ht _) fun _ => .pure _) fun y => ?_
        split
        · exact .pure _
        · exact ih
    refine .bind (.read2 fun _ _ _ => ht _) fun free => .bind ?_ fun _ => .bind (hw _) fun _ => .pure _
    unfold rawSeq
    refine .bind (.read2 fun _ _ _ => ht _) fun p => ?_
    split
    · exact .bind (.write fun _ => ht _) fun _ => .bind (.write fun _ => ht _) fun _ => .pure _
    · exact .bind (.write fun _ => ht _) fun _ => .bind (.write fun _ => ht _) fun _ => .bind (.write fun _ => ht _) fun _ => .pure _
  rw [writeFrame_eq, M.bind_def]
  have h1 : (r.rawSocket.resetInterrupt (traced B) .sendOk ⟨w, []⟩).2.log =
      [.wr r.rawSocket.register 0x02 [0x10] (B.writeFrame w r.rawSocket.register 0x02 [0x10]).1] := rfl
  refine ⟨(B.writeFrame w r.rawSocket.register 0x02 [0x10]).1, ?_⟩
  rcases hr : r.rawSocket.resetInterrupt (traced B) .sendOk ⟨w, []⟩ with ⟨_ | _ | _ | _, t⟩
  all_goals rw [hr] at h1
  · obtain ⟨evs, h2, _⟩ := hrest.run t
    exact ⟨evs, h2.trans (by rw [show HasLog.log t = _ from h1]; rfl), hno _ _⟩
  all_goals exact ⟨[], h1, hno _ _⟩

/-- A chip that is connected, has one byte and a free buffer, and shows RECV and SENDOK. -/
def eagerBus : Bus Unit Unit := romBus fun a => if a = 0x03 then 0x17 else if a = 0x02 then 0x14 else if a = 0x27 then 1 else
  if a = 0x20 then 8 else 0

/-- C94 is about something: both interrupts are acknowledged. -/
example : let r := Device.tcpReceive (traced eagerBus) 3 ⟨.new 2⟩ ([0], (⟨⟨(), []⟩, DeviceState.new ()⟩ : Device (TW Unit Unit) Unit))
    r.1 = .ok 1 ∧ r.2.2.bus.log =
      [.rd 9 0x03 [0x17] (.ok ()), .rd 9 0x02 [0x14] (.ok ()), .rd 9 0x26 [0, 1] (.ok ()), .rd 9 0x26 [0, 1] (.ok ()),
        .rd 9 0x28 [0, 0] (.ok ()), .rd 11 0 [0] (.ok ()), .wr 9 0x28 [0, 1] (.ok ()), .wr 9 0x01 [0x40] (.ok ()),
        .wr 9 0x02 [0x04] (.ok ())] := by decide +kernel
example : let r := Device.tcpSend (traced eagerBus) 3 ⟨.new 2⟩ [7] (⟨⟨(), []⟩, DeviceState.new ()⟩ : Device (TW Unit Unit) Unit)
    r.1 = .ok 1 ∧ r.2.bus.log.drop 6 = [.rd 9 0x02 [0x14] (.ok ()), .wr 9 0x02 [0x10] (.ok ())] := by decide +kernel

end W5500.Props
