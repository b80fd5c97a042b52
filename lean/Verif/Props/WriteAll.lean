import Verif.Props.Success
import Verif.Proofs.WriteAll
/-! # Writing a whole buffer to a TCP connection

C95 A client that calls the TCP `send` again and again with the rest of its data gets all of it accepted, in order and
without gaps, after finitely many calls, if the network takes data; a full TX buffer makes single calls return `Ok(0)`.
If the peer stops acknowledging, the client spins for ever. -/

namespace W5500.Props
open W5500.Spec Sock
variable {W E H : Type} {sched : Nat → List (Nat × Act)} {faults : Nat → Option (E × Nat)}
  {sched0 : Nat → List (Nat × Act)} {faults0 : Nat → Option (E × Nat)}

/-- C95. After a `connect` and any calls: on a chip whose transfers do not fail, with a connection that stays, that confirms
sends and whose data is transmitted and acknowledged, the loop that writes all of `data` ends, all calls having returned
`Ok`. Exactly `data` was put at the end of what the peer has been and will be sent, and the connection stays. -/
theorem C95 {n : Nat} (hn : n < 8) (hf : ∀ i, faults i = none) (hs : StatusIn sched n (· = 0x17))
    (hc : Confirming sched n) (hd : Draining sched n) (fuel : Nat) (remote : SockAddr) (d0 d1 d : Device Chip H)
    (hz : SizesOk (d0.bus.socks n).mem)
    (hconn : Device.tcpConnect (Chip.dev sched0 faults0).bus fuel ⟨Socket.new (BitVec.ofNat 8 n)⟩ remote d0 = (.ok (), d1))
    (acc del : List U8) (hrun : TcpRun sched faults n d1.bus acc del d.bus)
    (hsr : (d.bus.socks n).sr = 0x17) (data : List U8) :
    ∃ d' : Device Chip H,
      Succeeds (fun fuel => sendWhole (Device.tcpSend (Chip.dev sched faults).bus fuel ⟨Socket.new (BitVec.ofNat 8 n)⟩) fuel data)
        d () d' ∧
      (d'.bus.socks n).stream ++ (d'.bus.socks n).pending = (d.bus.socks n).stream ++ (d.bus.socks n).pending ++ data ∧
      TcpRun sched faults n d1.bus (acc ++ data) del d'.bus ∧ (d'.bus.socks n).sr = 0x17 := by
  obtain ⟨_, _, ⟨S, A, hfr⟩, _⟩ := tcpConnect_idle hn hz hconn
  have idle := fun {acc : List U8} {d : Device Chip H} (h : TcpRun sched faults n d1.bus acc del d.bus) => tcpRun_idle hn h hfr.1
  let G (acc : List U8) (d : Device Chip H) (data : List U8) : Prop := ∃ (d' : Device Chip H) (N : Nat),
      (∀ fuel rounds, N ≤ fuel → N ≤ rounds →
        sendWhole (Device.tcpSend (Chip.dev sched faults).bus fuel ⟨Socket.new (BitVec.ofNat 8 n)⟩) rounds data d = (.ok (), d')) ∧
      TcpRun sched faults n d1.bus (acc ++ data) del d'.bus ∧ (d'.bus.socks n).sr = 0x17
  suffices key : G acc d data by
    obtain ⟨d', N, h1, h2, h3⟩ := key
    refine ⟨d', ⟨nofun, N, fun f hf => h1 f f hf hf⟩, ?_, h2, h3⟩
    rw [(idle h2).tx.out, (idle hrun).tx.out, List.append_assoc]
  -- one call
  have step : ∀ acc (d : Device Chip H) (data : List U8), data ≠ [] → TcpRun sched faults n d1.bus acc del d.bus →
      (d.bus.socks n).sr = 0x17 → (∀ (k : Nat) (d2 : Device Chip H) (N : Nat),
        Device.tcpSend (Chip.dev sched faults).bus N ⟨Socket.new (BitVec.ofNat 8 n)⟩ data d = (.ok k, d2) →
        TcpRun sched faults n d1.bus (acc ++ data.take k) del d2.bus → (d2.bus.socks n).sr = 0x17 →
        G (acc ++ data.take k) d2 (data.drop k)) → G acc d data := by
    intro acc d data hne hr hsr hrest
    obtain ⟨k, d2, ⟨_, N, hN⟩, hk, _, _, hsr2⟩ := C76_tcp_send hn hf hs hc fuel remote d0 d1 d hz hconn acc del hr hsr data
    have h2 := hN N (Nat.le_refl _)
    obtain ⟨d', N', hN', g1, g2⟩ := hrest k d2 N h2 (.send N data k hr h2) hsr2
    rw [List.append_assoc, List.take_append_drop] at g1
    refine ⟨d', max N N' + 1, fun f r hf hr => ?_, g1, g2⟩
    obtain ⟨r', rfl⟩ : ∃ r', r = r' + 1 := ⟨r - 1, by omega⟩
    unfold sendWhole
    rw [if_neg (by simpa using hne)]
    exact M.bind_eq_ok.mpr ⟨k, d2, hN _ (by omega), hN' f r' (by omega) (by omega)⟩
  -- shorter data first
  generalize hm : data.length = m
  induction m using Nat.strongRecOn generalizing acc d data with
  | ind m ih =>
    by_cases hne : data = []
    · subst hne
      refine ⟨d, 1, fun f r _ hr => ?_, by rw [List.append_nil]; exact hrun, hsr⟩
      obtain ⟨r', rfl⟩ : ∃ r', r = r' + 1 := ⟨r - 1, by omega⟩
      rfl
    have hlen : data.length ≠ 0 := fun h => hne (List.length_eq_zero_iff.mp h)
    have stepK : ∀ acc (d : Device Chip H), TcpRun sched faults n d1.bus acc del d.bus → (d.bus.socks n).sr = 0x17 →
        (∀ (d2 : Device Chip H) (N : Nat), TcpSocket.socketSend (Chip.dev sched faults).bus N ⟨sockOf n⟩ data d.bus = (.ok 0, d2.bus) →
          TcpRun sched faults n d1.bus acc del d2.bus → (d2.bus.socks n).sr = 0x17 → G acc d2 data) → G acc d data := by
      intro acc d hr hsr h0
      refine step acc d data hne hr hsr fun k d2 N hsend hr2 hsr2 => ?_
      by_cases hk : k = 0
      · subst hk
        rw [List.take_zero, List.append_nil] at hr2 ⊢
        exact h0 d2 N (onBus_run hsend) hr2 hsr2
      · exact ih (data.drop k).length (by rw [List.length_drop]; omega) d2 _ hr2 hsr2 _ rfl
    have rest : ∀ {acc : List U8} {d : Device Chip H}, TcpRun sched faults n d1.bus acc del d.bus →
        AtRest (d.bus.socks n).txWr (d.bus.socks n) := fun h =>
      ⟨(idle h).tx.tcp, (idle h).tx.base, rfl, (idle h).idle.symm⟩
    -- 256 bytes are free: some byte is accepted
    have stageC : ∀ acc (d : Device Chip H), TcpRun sched faults n d1.bus acc del d.bus → (d.bus.socks n).sr = 0x17 →
        (d.bus.socks n).used + 256 ≤ (d.bus.socks n).txSize → G acc d data := by
      intro acc d hr hsr hfree
      refine stepK acc d hr hsr fun d2 N hsend _ _ => ?_
      obtain ⟨_, f, ⟨v1, v2, f1, f2, f3, f4⟩, h4⟩ := (tcp_send (sched := sched) (faults := faults) hn _ _ _ _ _ N data).ok
        (s := d.bus) ⟨idle hr, Nat.le_refl _, rfl, rfl⟩ hsend
      exfalso
      omega
    -- some byte is free: the free size may be misread once
    have stageB : ∀ acc (d : Device Chip H), TcpRun sched faults n d1.bus acc del d.bus → (d.bus.socks n).sr = 0x17 →
        HasRoom (d.bus.socks n) → G acc d data := by
      intro acc d hr hsr hroom
      refine stepK acc d hr hsr fun d2 N hsend hr2 hsr2 => ?_
      exact stageC acc d2 hr2 hsr2 (zero_send_torn hn hne hsend (rest hr) hroom).2
    -- wait until a byte was transmitted and acknowledged
    obtain ⟨k1, hk1, j1, hj1, e1⟩ := hd.1 d.bus.clock
    obtain ⟨k2, hk2, j2, hj2, e2⟩ := hd.2 (k1 + 1)
    have stageA : ∀ r t acc (d : Device Chip H) p, TcpRun sched faults n d1.bus acc del d.bus → (d.bus.socks n).sr = 0x17 →
        RoomAt n p k1 k2 t d.bus → k2 + 1 - t = r → G acc d data := by
      intro r
      induction r with
      | zero =>
        intro t acc d p hr hsr hroom ht
        exact stageB acc d hr hsr (hroom.1.2.2 (by have := hroom.2; omega))
      | succ r ihr =>
        intro t acc d p hr hsr hroom ht
        refine stepK acc d hr hsr fun d2 N hsend hr2 hsr2 => ?_
        exact ihr (t + 1) acc d2 p hr2 hsr2 (zero_send_drains hn (by omega) hj1 hj2 e1 e2 hne hsend t hroom) (by omega)
    exact stageA _ d.bus.clock acc d _ hrun hsr ⟨⟨rest hrun, fun h => by omega, fun h => by omega⟩, Nat.le_refl _⟩ rfl

/-- C95, the limit: if the TX buffer is full and the peer does not acknowledge anything any more, the loop does not succeed,
however long it runs: every call accepts nothing. (`send` does not say that it would block.) -/
theorem C95_stalled {n : Nat} (hn : n < 8) (hno : ∀ k j, (n, .ack j) ∉ sched k) (fuel : Nat) (remote : SockAddr)
    (d0 d1 d : Device Chip H) (hz : SizesOk (d0.bus.socks n).mem)
    (hconn : Device.tcpConnect (Chip.dev sched faults).bus fuel ⟨Socket.new (BitVec.ofNat 8 n)⟩ remote d0 = (.ok (), d1))
    (acc del : List U8) (hrun : TcpRun sched faults n d1.bus acc del d.bus)
    (hfull : ((d.bus.socks n).txLimit - (d.bus.socks n).una).toNat = (d.bus.socks n).txSize) (data : List U8) (hne : data ≠ []) :
    (∀ f k d', Device.tcpSend (Chip.dev sched faults).bus f ⟨Socket.new (BitVec.ofNat 8 n)⟩ data d = (.ok k, d') → k = 0) ∧
    ∀ f r d', sendWhole (Device.tcpSend (Chip.dev sched faults).bus f ⟨Socket.new (BitVec.ofNat 8 n)⟩) r data d ≠ (.ok (), d') := by
  obtain ⟨_, _, ⟨S, A, hfr⟩, _⟩ := tcpConnect_idle hn hz hconn
  have h0 := tcpRun_idle hn hrun hfr.1
  have hF : FullAt n (d.bus.socks n).txWr d.bus := ⟨⟨h0.tx.tcp, h0.tx.base, rfl, h0.idle.symm⟩, hfull⟩
  refine ⟨fun f k d' h => (full_send hn _ hno hF (onBus_run h)).1, fun f r => ?_⟩
  generalize (d.bus.socks n).txWr = p at hF
  clear hfull h0 hrun
  induction r generalizing d with
  | zero => intro d' h; exact nomatch h
  | succ r ih =>
    intro d' h
    unfold sendWhole at h
    rw [if_neg (by simpa using hne)] at h
    obtain ⟨k, d2, h1, h2⟩ := M.bind_eq_ok.mp h
    obtain ⟨hk, hF2⟩ := full_send hn _ hno hF (onBus_run h1)
    subst hk
    exact ih d2 hF2 d' h2

/-! ## Concrete cases -/

/-- As `demoSched`, and from the time of the connection on the chip transmits 7 bytes and the peer acknowledges 5 before every
third SPI byte. -/
def drainSched (k : Nat) : List (Nat × Act) :=
  if k < 16 then [] else [(0, .status 0x17), (0, .raise 0x10)] ++ if k % 3 = 0 then [(0, .transmit 7), (0, .ack 5)] else []

theorem drain_status : StatusIn drainSched 0 (· = 0x17) := fun k x h => by
  unfold drainSched at h
  repeat' split at h
  all_goals simp at h
  all_goals exact h

theorem drain_draining : Draining drainSched 0 := by
  constructor <;> intro k
  · exact ⟨3 * k + 18, by omega, 7, by omega, by unfold drainSched; rw [if_neg (by omega), if_pos (by omega)]; simp⟩
  · exact ⟨3 * k + 18, by omega, 5, by omega, by unfold drainSched; rw [if_neg (by omega), if_pos (by omega)]; simp⟩

def drainConnected : Device Chip Unit :=
  (Device.tcpConnect (Chip.dev drainSched noFaults).bus 100 demoSocket demoRemote demoDevice).2

theorem drain_connect : Device.tcpConnect (Chip.dev drainSched noFaults).bus 100 demoSocket demoRemote demoDevice =
    (.ok (), drainConnected) := by
  rw [drainConnected]
  exact run_eq (by decide +kernel)

/-- C95: 100000 bytes through a TX buffer of 2048. -/
example : ∃ d' : Device Chip Unit,
    Succeeds (fun fuel => sendWhole (Device.tcpSend (Chip.dev drainSched noFaults).bus fuel demoSocket) fuel (List.replicate 100000 7))
      drainConnected () d' ∧
    (d'.bus.socks 0).stream ++ (d'.bus.socks 0).pending = List.replicate 100000 7 := by
  obtain ⟨d', h1, h2, _⟩ := C95 (n := 0) (faults := noFaults) (by decide) (fun _ => rfl) drain_status
    (fun k => ⟨k + 16, by omega, 0x10, by decide, by unfold drainSched; rw [if_neg (by omega)]; simp⟩) drain_draining 100 demoRemote
    demoDevice drainConnected drainConnected powerUp_sizes drain_connect [] [] .start (by decide +kernel) (List.replicate 100000 7)
  have h3 : (drainConnected.bus.socks 0).stream ++ (drainConnected.bus.socks 0).pending = [] := by decide +kernel
  rw [h3] at h2
  exact ⟨d', h1, h2⟩

/-- The buffer is filled; nothing is acknowledged. -/
def demoFull : Device Chip Unit :=
  (Device.tcpSend (Chip.dev demoSched noFaults).bus 100 demoSocket (List.replicate 2048 7) demoConnected).2

theorem demoFull_send : (Device.tcpSend (Chip.dev demoSched noFaults).bus 100 demoSocket (List.replicate 2048 7) demoConnected).1 =
    .ok 2048 := by decide +kernel

theorem demoFull_full : ((demoFull.bus.socks 0).txLimit - (demoFull.bus.socks 0).una).toNat = (demoFull.bus.socks 0).txSize := by
  decide +kernel

/-- C95_stalled: one more byte is never accepted. -/
example : ∀ f r d', sendWhole (Device.tcpSend (Chip.dev demoSched noFaults).bus f demoSocket) r [8] demoFull ≠ (.ok (), d') := by
  have hc : Device.tcpConnect (Chip.dev demoSched noFaults).bus 100 demoSocket demoRemote demoDevice =
      (.ok (), demoConnected) := by
    rw [demoConnected]
    exact run_eq (by decide +kernel)
  have hs : Device.tcpSend (Chip.dev demoSched noFaults).bus 100 demoSocket (List.replicate 2048 7) demoConnected =
      (.ok 2048, demoFull) := Prod.ext demoFull_send rfl
  exact (C95_stalled (n := 0) (by decide) (fun k j h => by
    unfold demoSched at h
    repeat' split at h
    all_goals simp at h) 100 demoRemote demoDevice demoConnected demoFull powerUp_sizes hc _ _ (.send 100 _ 2048 .start hs)
    demoFull_full [8] nofun).2

end W5500.Props
