import Verif.Proofs.OutcomeRun
import Verif.Props.Refusals
/-! # Does a UDP send report faithfully what became of its datagram? (C69) -/

namespace W5500.Props
open W5500 W5500.Spec
variable {E H : Type} {sched : Nat → List (Nat × Act)} {faults : Nat → Option (E × Nat)}
  {sched0 : Nat → List (Nat × Act)} {faults0 : Nat → Option (E × Nat)}

/-- Between calls nothing is waiting, and nothing is announced or to be announced. -/
theorem rest_run {n : Nat} (hn : n < 8) (hp : Prompt sched n) {u0 u : UdpSocket} {c0 c : Chip} {log : List UdpSent}
    {got : List UdpGot} (ho : UdpOpened sched0 faults0 n u0 c0) (hs : (c0.socks n).Silent)
    (h : UdpSoundRun sched faults n u0 c0 log got u c) : Rest (c.socks n) := by
  obtain ⟨A, h0⟩ := opened_inv hn ho
  have hkeep : ∀ (s : Sock) (a : U16) (x : U8), destOrSize a → a ≠ 0x1E → a ≠ 0x1F → Rest s → Rest (s.setMem a x) :=
    fun s a x ha _ _ h => h.setMem x fun e => by subst e; revert ha; decide
  have hport : ∀ (s : Sock) (a : U16) (x : U8), a = 0x04 ∨ a = 0x05 → Rest s → Rest (s.setMem a x) :=
    fun s a x ha h => h.setMem x fun e => by subst e; revert ha; decide
  induction h with
  | start =>
    obtain ⟨_, _, _, _, _, _, hi⟩ := h0
    exact ⟨by rw [hi.idle.base.mode]; omega, hi.idle.base.rd, hs⟩
  | @send _ log got u d d' fuel data dst r hrun hr hsnd hd ih =>
    obtain ⟨hsk, hc, sent, ds, _, _, hi⟩ := udpRun_inv hn h0 (udpSound_run hn ho hrun)
    exact (send_truthful hn hp hsk hi ih.silent fuel data hr hsnd).2
  | @sendNowhere _ log got u d d' fuel data r hrun hr hd ih =>
    have hinv := udpRun_inv hn h0 (udpSound_run hn ho hrun)
    have := (udp_sendNowhere (sched := sched) (faults := faults) hn u hinv.sock hd stable_rest fuel data).run d.bus ih
    rw [onBus_run hr] at this
    cases r <;> exact this
  | @sendTo _ log got u u' d d' fuel dst data r hrun hr hsnd ih =>
    obtain ⟨hsk, hc, sent, ds, _, _, hi⟩ := udpRun_inv hn h0 (udpSound_run hn ho hrun)
    exact (sendTo_truthful hn hp hsk hi hc ih fuel data dst hr hsnd).2
  | @receive _ log got u d d' fuel buf buf' r hrun hr hsnd ih =>
    have hinv := udpRun_inv hn h0 (udpSound_run hn ho hrun)
    have hmv := (moves_deviceUdpReceive' (B := (Chip.dev sched faults).bus) u fuel).run (buf, d)
    rw [hr, hinv.sock] at hmv
    exact reach_recvRest hn hmv ih
  | @connect _ log got u u' d d' remote r hrun hr hsnd ih =>
    have hinv := udpRun_inv hn h0 (udpSound_run hn ho hrun)
    unfold Device.udpConnect at hr
    split at hr
    · cases hr; exact ih
    rename_i a
    have := (udp_connect (sched := sched) (faults := faults) hn u hinv.sock (udp_openRest hn u hinv.sock)
      stable_rest hkeep (fun _ h => h) a).run (u, d.bus) ⟨rfl, ih, hinv.coherent⟩
    rw [onSockBus_run hr] at this
    cases r with
    | ok x => exact this.2.1
    | err e => exact this.2.1
    | panic => exact this.2.1
    | fuel => exact this.2.1
  | @setPort _ log got u u' d d' port r hrun hr ih =>
    have hinv := udpRun_inv hn h0 (udpSound_run hn ho hrun)
    have := (udp_setPort (sched := sched) (faults := faults) hn u hinv.sock port stable_rest hport).run (u, d.bus) ⟨rfl, ih⟩
    rw [onSockBus_run hr] at this
    cases r with
    | ok x => exact this.2
    | err e => exact this.2
    | panic => exact this.2
    | fuel => exact this.2
  | @bind _ log got u u' d d' port r hrun hr ih =>
    have hinv := udpRun_inv hn h0 (udpSound_run hn ho hrun)
    unfold Device.udpBind at hr
    have := (udp_bind (sched := sched) (faults := faults) hn u hinv.sock port stable_rest hport (fun _ h => h)
      (udp_openRest hn { u with port := port } hinv.sock)).run (u, d.bus) ⟨rfl, ih⟩
    rw [onSockBus_run hr] at this
    cases r with
    | ok x => exact this.2
    | err e => exact this.2
    | panic => exact this.2
    | fuel => exact this.2
  | read block addr data _ ih => exact stable_rest.evolves ((Chip.readFrame_evolves _ block addr data).socks n) ih
  | write block addr data _ hf ih => exact foreign_keep stable_rest hf _ ih
  | pass _ hpass ih => exact stable_rest.evolves (hpass.evolves.socks n) ih

/-- C69 for `send`, on a chip that announces promptly what became of a packet (`Prompt`), for a socket that was opened
with nothing announced, while no call returns a bus error. Without `Prompt`: `C69_refuted`. -/
theorem C69_send_partial {n : Nat} (hn : n < 8) (hp : Prompt sched n) {u0 u : UdpSocket} {c0 : Chip} {log : List UdpSent}
    {got : List UdpGot} {d d' : Device Chip H} (ho : UdpOpened sched0 faults0 n u0 c0) (hs : (c0.socks n).Silent)
    (hrun : UdpSoundRun sched faults n u0 c0 log got u d.bus) (fuel : Nat) (data : List U8)
    (r : Res (NbError (UdpSocketError E)) Unit)
    (h : Device.udpSend (Chip.dev sched faults).bus fuel u data d = (r, d')) (hr : NbSound r) :
    Truthful n d.bus r d'.bus := by
  obtain ⟨A, h0⟩ := opened_inv hn ho
  obtain ⟨hsk, hc, sent, ds, _, _, hi⟩ := udpRun_inv hn h0 (udpSound_run hn ho hrun)
  exact (send_truthful hn hp hsk hi (rest_run hn hp ho hs hrun).silent fuel data h hr).1

/-- C69 for `send_to`, likewise. -/
theorem C69_send_to_partial {n : Nat} (hn : n < 8) (hp : Prompt sched n) {u0 u u' : UdpSocket} {c0 : Chip}
    {log : List UdpSent} {got : List UdpGot} {d d' : Device Chip H} (ho : UdpOpened sched0 faults0 n u0 c0)
    (hs : (c0.socks n).Silent) (hrun : UdpSoundRun sched faults n u0 c0 log got u d.bus) (fuel : Nat) (dst : SockAddr4)
    (data : List U8) (r : Res (NbError (UdpSocketError E)) Unit)
    (h : Device.udpSendTo (Chip.dev sched faults).bus fuel (.v4 dst) data (u, d) = (r, (u', d'))) (hr : NbSound r) :
    Truthful n d.bus r d'.bus := by
  obtain ⟨A, h0⟩ := opened_inv hn ho
  obtain ⟨hsk, hc, sent, ds, _, _, hi⟩ := udpRun_inv hn h0 (udpSound_run hn ho hrun)
  exact (sendTo_truthful hn hp hsk hi hc (rest_run hn hp ho hs hrun) fuel data dst h hr).1

/-- C69, what `Ok` means: every piece of the data left for the destination, in order, and none was dropped. -/
theorem C69_ok_partial {n : Nat} (hn : n < 8) (hp : Prompt sched n) {u0 u u' : UdpSocket} {c0 : Chip}
    {log : List UdpSent} {got : List UdpGot} {d d' : Device Chip H} (ho : UdpOpened sched0 faults0 n u0 c0)
    (hs : (c0.socks n).Silent) (hrun : UdpSoundRun sched faults n u0 c0 log got u d.bus) (fuel : Nat) (dst : SockAddr4)
    (data : List U8) (h : Device.udpSendTo (Chip.dev sched faults).bus fuel (.v4 dst) data (u, d) = (.ok (), (u', d'))) :
    (d'.bus.socks n).packets = (d.bus.socks n).packets ++
      (pieces (d.bus.socks n).txSize data).map fun p => ⟨(wire dst).1, (wire dst).2, p, true⟩ := by
  obtain ⟨ps, h1, h2⟩ := C36_send_to hn ho (udpSound_run hn ho hrun) fuel dst data h
  obtain ⟨qs, h3, ⟨_, h4⟩ | ⟨h4, _⟩⟩ := C69_send_to_partial hn hp ho hs hrun fuel dst data _ h (.inl ⟨_, rfl⟩)
  · rw [h1] at h4
    have h4 := List.append_cancel_left h4
    subst h4
    rw [h1, ← h2.1, List.map_map]
    congr 1
    refine (List.map_id ps).symm.trans (List.map_congr_left fun p hp => ?_)
    show p = ⟨_, _, p.data, true⟩
    rw [← (h2.2 p hp).1, ← (h2.2 p hp).2, ← h3 p hp]
  · cases h4

/-- A chip that announces promptly, and drops or delivers what leaves depending on the time. -/
def promptSched (k : Nat) : List (Nat × Act) := [(0, .emit (k % 3 != 0)), (0, .raise 0x18)]

theorem prompt_demo : Prompt promptSched 0 := by
  intro k before b after h
  refine ⟨0x18, ?_, by decide, by decide⟩
  unfold promptSched at h
  rcases before with _ | ⟨x, _ | ⟨y, _ | ⟨z, t⟩⟩⟩
  · cases h; exact .head _
  all_goals simp at h

def promptConnected : UdpSocket × Device Chip Unit :=
  (Device.udpConnect (Chip.dev promptSched noFaults).bus (.v4 addrA) (demoUdp, demoDevice)).2

/-- It is not vacuous: on that chip one call after the other returns `Ok`, `WriteTimeout` and `Ok`; the first and third
packet left, the second was dropped. -/
example :
    let B := (Chip.dev promptSched noFaults).bus
    let r := Device.udpSendTo B 9 (.v4 addrB) [1] promptConnected
    let r' := Device.udpSend B 9 r.2.1 [2] r.2.2
    let r'' := Device.udpSend B 9 r.2.1 [3] r'.2
    UdpOpened promptSched noFaults 0 promptConnected.1 promptConnected.2.bus ∧
    (promptConnected.2.bus.socks 0).Silent ∧
    UdpSoundRun promptSched noFaults 0 promptConnected.1 promptConnected.2.bus
      [⟨addrB, [1], true⟩, ⟨addrB, [2], false⟩] [] r.2.1 r'.2.bus ∧
    r.1 = .ok () ∧ r'.1 = .err (.other .writeTimeout) ∧ r''.1 = .ok () ∧
    (r''.2.bus.socks 0).packets = [⟨[10, 9, 9, 9], [0, 99], [1], true⟩, ⟨[10, 9, 9, 9], [0, 99], [2], false⟩,
      ⟨[10, 9, 9, 9], [0, 99], [3], true⟩] := by
  intro B r r' r''
  have h1 : r.1 = .ok () := by decide +kernel
  have h2 : r'.1 = .err (.other .writeTimeout) := by decide +kernel
  refine ⟨.connect (H := Unit) (u := demoUdp) (d := demoDevice) (.v4 addrA) (.new _ powerUp_sizes)
    (run_eq (by decide +kernel)), ?_, ?_, h1, h2, by decide +kernel, by decide +kernel⟩
  · rintro i (rfl | rfl) <;> decide +kernel
  · exact .send (d := r.2.2) 9 [2] addrB _ (.sendTo (u := promptConnected.1) (d := promptConnected.2) 9 addrB [1] _ .start
      (run_eq h1) (.inl ⟨_, rfl⟩)) (run_eq h2) (.inr ⟨_, rfl, nofun⟩) (by decide +kernel)

/-- A chip that drops a packet and says so only when the next one, which it delivers, has been handed to it. -/
def tardySched (k : Nat) : List (Nat × Act) :=
  if k < 39 then [(0, .emit false)] else [(0, .emit true), (0, .raise 0x08)]
def tardyConnected : UdpSocket × Device Chip Unit :=
  (Device.udpConnect (Chip.dev tardySched noFaults).bus (.v4 addrA) (demoUdp, demoDevice)).2

/-- C69 is false of chips that announce late. The crate waits until the TX pointers are equal, not until SENDOK or TIMEOUT
is set, and takes neither for success. A call returns `Ok`, though its packet is dropped; the next one returns
`WriteTimeout`, though its packet gets out. -/
theorem C69_refuted :
    let B := (Chip.dev tardySched noFaults).bus
    let r := Device.udpSendTo B 9 (.v4 addrB) [1] tardyConnected
    let r' := Device.udpSend B 9 r.2.1 [2] r.2.2
    UdpOpened tardySched noFaults 0 tardyConnected.1 tardyConnected.2.bus ∧ (tardyConnected.2.bus.socks 0).Silent ∧
    r.1 = .ok () ∧ r'.1 = .err (.other .writeTimeout) ∧
    (r'.2.bus.socks 0).packets = [⟨[10, 9, 9, 9], [0, 99], [1], false⟩, ⟨[10, 9, 9, 9], [0, 99], [2], true⟩] := by
  intro B r r'
  refine ⟨.connect (H := Unit) (u := demoUdp) (d := demoDevice) (.v4 addrA) (.new _ powerUp_sizes)
    (run_eq (by decide +kernel)), ?_, by decide +kernel, by decide +kernel, by decide +kernel⟩
  rintro i (rfl | rfl) <;> decide +kernel

end W5500.Props
