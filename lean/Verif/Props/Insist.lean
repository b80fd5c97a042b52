import Verif.Spec.Insist
import Verif.Props.Persist
/-! # C138: all data gets through

At most `N` transfers ever fail. A program sends data over TCP: it offers what has not been taken yet, also when the call before returned a bus error. Or it sends
datagrams or frames, each again when the call returned a bus error. -/

namespace W5500.Props
open W5500.Spec Sock
variable {E H σ ε α X : Type} {sched : Nat → List (Nat × Act)} {faults : Nat → Option (E × Nat)}
  {sched0 : Nat → List (Nat × Act)} {faults0 : Nat → Option (E × Nat)}

theorem counts_dev (p : Plan E) {m : (W : Type) → Bus W E → M (Device W H) ε α} (hm : PlayDev m) (d : Device Chip H) :
    d.bus.txn ≤ (m Chip p.bus d).2.bus.txn := by
  obtain ⟨g, hg⟩ := hm d.state
  have h := (play_counts p g d.bus).2
  rw [← hg] at h
  exact h

theorem counts_raw (p : Plan E) (r : RawDevice) (fuel : Nat) (x : List U8) (c : Chip) : c.txn ≤ (r.writeFrame p.bus fuel x c).2.txn := by
  obtain ⟨g, hg⟩ := play_rawWrite (E := E) r fuel x
  have h := (play_counts p g c).2
  rw [← hg] at h
  exact h

theorem insists_count {send : Nat → List U8 → M σ ε Nat} {find : Res ε Nat → Option E} {chip : σ → Chip} {m : Nat} {data : List U8}
    (hok : ∀ i, find (.ok i) = none)
    (hcall : ∀ fuel x s, (find (send fuel x s).1).toList = failures faults (chip s).txn (chip (send fuel x s).2).txn)
    (hle : ∀ fuel x s, (chip s).txn ≤ (chip (send fuel x s).2).txn) {k j : Nat} {s s' : σ}
    (h : Insists send find chip m data k j s s') : (chip s).txn ≤ (chip s').txn ∧ (failures faults (chip s).txn (chip s').txn).length = k := by
  induction h with
  | start => exact ⟨Nat.le_refl _, by rw [failures_empty]; rfl⟩
  | took fuel i _ h1 ih =>
    rename_i k j s s1 s2 _
    have h2 := hcall fuel (data.drop j) s1
    have h3 := hle fuel (data.drop j) s1
    rw [h1] at h2 h3
    dsimp only at h2 h3
    rw [hok] at h2
    refine ⟨Nat.le_trans ih.1 h3, ?_⟩
    rw [failures_append ih.1 h3, List.length_append, ih.2, ← h2]
    rfl
  | failed fuel e _ h1 hr _ ih =>
    rename_i k j s s1 s2 r _ _
    have h2 := hcall fuel (data.drop j) s1
    have h3 := hle fuel (data.drop j) s1
    rw [h1] at h2 h3
    dsimp only at h2 h3
    rw [hr] at h2
    refine ⟨Nat.le_trans ih.1 h3, ?_⟩
    rw [failures_append ih.1 h3, List.length_append, ih.2, ← h2]
    rfl

/-- After `N` failures there are no more. -/
theorem exhausted {N i : Nat} {c : Chip} (hN : AtMost N faults) (h1 : i ≤ c.txn) (h2 : (failures faults i c.txn).length = N) : NoFaultsFrom faults c := by
  intro l hl
  cases h3 : faults l with
  | none => rfl
  | some x =>
    have h4 := failures_length hN i (l + 1)
    rw [failures_append (j := l) (by omega) (by omega), failures_append (j := c.txn) h1 hl, failures_cons (Nat.lt_succ_self l), h3] at h4
    simp only [List.length_append, h2, Option.map_some, Option.toList_some, List.length_singleton] at h4
    omega

/-- C138: whenever `k` calls have failed, early each, and `j` bytes have been taken:
* no more than `N` calls have failed;
* the peer has got, or is to get, just the first `j` bytes of the data, after what it got before;
* the next call returns `Ok`, or it fails on the bus;
* and once `N` calls have failed, sending the rest succeeds, and the peer has got, or is to get, all of the data, once. -/
theorem C138_tcp {n : Nat} (hn : n < 8) (fuel : Nat) (remote : SockAddr) (d0 d1 d d' : Device Chip H)
    (hz : SizesOk (d0.bus.socks n).mem)
    (hconn : Device.tcpConnect (Chip.dev sched0 faults0).bus fuel ⟨Socket.new (BitVec.ofNat 8 n)⟩ remote d0 = (.ok (), d1))
    (acc del : List U8) (hrun : TcpRough sched faults n d1.bus acc del d.bus) (data : List U8) {N k j : Nat} (hN : AtMost N faults)
    (hi : Insists (fun fuel x => Device.tcpSend (Chip.dev sched faults).bus fuel ⟨Socket.new (BitVec.ofNat 8 n)⟩ x) inTcp Device.bus 4 data k j d d')
    (hs : StatusFrom sched n (· = 0x17) d'.bus) (hsr : (d'.bus.socks n).sr = 0x17) (hc : Confirming sched n) (hd : Draining sched n) :
    k ≤ N ∧ (d'.bus.socks n).stream ++ (d'.bus.socks n).pending = (d1.bus.socks n).stream ++ acc ++ data.take j ∧
    (∃ (i : Nat) (d'' : Device Chip H), SucceedsUnless faults Device.bus inTcp
      (fun fuel => Device.tcpSend (Chip.dev sched faults).bus fuel ⟨Socket.new (BitVec.ofNat 8 n)⟩ (data.drop j)) d' i d'') ∧
    (k = N → ∃ d'' : Device Chip H,
      Succeeds (fun fuel => sendWhole (Device.tcpSend (Chip.dev sched faults).bus fuel ⟨Socket.new (BitVec.ofNat 8 n)⟩) fuel (data.drop j)) d' () d'' ∧
      (d''.bus.socks n).stream ++ (d''.bus.socks n).pending = (d1.bus.socks n).stream ++ acc ++ data) := by
  let p : Plan E := ⟨sched, faults⟩
  have hrun' : TcpRough sched faults n d1.bus (acc ++ data.take j) del d'.bus := by
    clear hs hsr
    induction hi with
    | start => rw [List.take_zero, List.append_nil]; exact hrun
    | took fuel i _ h1 ih =>
      rw [List.take_add, ← List.append_assoc]
      exact .send fuel _ i (ih hrun) h1
    | failed fuel e _ h1 h2 h3 ih => exact .failedSend fuel _ _ (ih hrun) h1 (fun _ h => by rw [h] at h2; cases h2) h3
  have hm : ∀ fuel x, PlayDev (H := H) (fun _ (B : Bus _ E) => Device.tcpSend B fuel ⟨Socket.new (BitVec.ofNat 8 n)⟩ x) := fun fuel x =>
    .onBus (play_tcpSend _ fuel x)
  obtain ⟨h1, h2⟩ := insists_count (fun _ => rfl) (fun fuel x => tally_dev p (hm fuel x) (fun p => FailStop.tcp (fs_tcpSend fuel x)))
    (fun fuel x => counts_dev p (hm fuel x)) hi
  refine ⟨h2 ▸ failures_length hN _ _, ?_, ?_, fun hk => ?_⟩
  · rw [(C131_tcp hn fuel remote d0 d1 hz hconn _ del _ hrun').1, List.append_assoc]
  · obtain ⟨i, d'', h3, _⟩ := C135_tcp_send hn fuel remote d0 d1 d' hz hconn _ del hrun' (data.drop j) hs hsr hc
    exact ⟨i, d'', h3⟩
  · obtain ⟨d'', h3, h4⟩ := C134_tcp_send hn fuel remote d0 d1 d' hz hconn _ del hrun' (data.drop j) (exhausted hN h1 (h2.trans hk)) hs hsr hc hd
    exact ⟨d'', h3, by rw [h4, List.append_assoc, List.append_assoc, List.append_assoc, List.take_append_drop]⟩

/-! ## Datagrams and frames -/

theorem delivers_count {call : Nat → X → M σ ε α} {find : Res ε α → Option E} {chip : σ → Chip} {m : Nat} {xs : List X}
    (hok : ∀ a, find (.ok a) = none)
    (hcall : ∀ fuel x s, (find (call fuel x s).1).toList = failures faults (chip s).txn (chip (call fuel x s).2).txn)
    (hle : ∀ fuel x s, (chip s).txn ≤ (chip (call fuel x s).2).txn) {k j : Nat} {s s' : σ}
    (h : Delivers call find chip m xs k j s s') : (chip s).txn ≤ (chip s').txn ∧ (failures faults (chip s).txn (chip s').txn).length = k := by
  induction h with
  | start => exact ⟨Nat.le_refl _, by rw [failures_empty]; rfl⟩
  | done fuel x a _ _ h1 ih =>
    rename_i k j s s1 s2 _ _
    have h2 := hcall fuel x s1
    have h3 := hle fuel x s1
    rw [h1] at h2 h3
    dsimp only at h2 h3
    rw [hok] at h2
    refine ⟨Nat.le_trans ih.1 h3, ?_⟩
    rw [failures_append ih.1 h3, List.length_append, ih.2, ← h2]
    rfl
  | failed fuel x e _ _ h1 hr _ ih =>
    rename_i k j s s1 s2 r _ _ _
    have h2 := hcall fuel x s1
    have h3 := hle fuel x s1
    rw [h1] at h2 h3
    dsimp only at h2 h3
    rw [hr] at h2
    refine ⟨Nat.le_trans ih.1 h3, ?_⟩
    rw [failures_append ih.1 h3, List.length_append, ih.2, ← h2]
    rfl

/-- Without further failures, there is only success. -/
theorem only_success {call : Nat → M σ ε α} {find : Res ε α → Option E} {chip : σ → Chip} {s s' : σ} {a : α} (hf : NoFaultsFrom faults (chip s))
    (h : SucceedsUnless faults chip find call s a s') : Succeeds call s a s' := by
  obtain ⟨N, hN⟩ := h
  refine ⟨nofun, N, fun fuel h => ?_⟩
  rcases hN fuel h with h1 | ⟨e, i, l, _, h2, _, h3⟩
  · exact h1
  · rw [hf i h2] at h3
    cases h3

theorem take_snoc {xs : List X} {j : Nat} {x : X} (h : xs[j]? = some x) : xs.take (j + 1) = xs.take j ++ [x] := by
  rw [List.take_add_one, h]
  rfl

/-- C138, UDP `send`: whenever `k` calls have failed, early each, and `j` returned `Ok`: no more than `N` have failed; the chip has sent the first `j` of the
datagrams, after those sent before, each once; and the next call returns `Ok`, or it fails on the bus, which it does not once `N` calls have failed. -/
theorem C138_udp {n : Nat} (hn : n < 8) {u0 u : UdpSocket} {c0 : Chip} {sent : List (SockAddr4 × List U8)} {got : List UdpGot}
    {d d' : Device Chip H} (ho : UdpOpened sched0 faults0 n u0 c0) (hr : UdpRough sched faults n u0 c0 sent got u d.bus) (dst : SockAddr4)
    (hdst : u.destination = some dst) (xs : List (List U8)) {N k j : Nat} (hN : AtMost N faults)
    (hi : Delivers (fun fuel x => Device.udpSend (Chip.dev sched faults).bus fuel u x) inNb Device.bus 6 xs k j d d')
    (hs : StatusFrom sched n (· = 0x22) d'.bus) (hl : LosslessFrom sched n d'.bus) (he : Emitting sched n)
    (hsr : (d'.bus.socks n).sr = 0x22) (hq : (d'.bus.socks n).NoTimeout) :
    k ≤ N ∧ j ≤ xs.length ∧
    (∃ ps, UdpSent.All (c0.socks n).txSize ((sent ++ (xs.take j).map fun x => (dst, x)).map fun x => ⟨x.1, x.2, true⟩) ps ∧
      (d'.bus.socks n).packets = (c0.socks n).packets ++ ps) ∧
    ∀ x, xs[j]? = some x → ∃ d'' : Device Chip H,
      SucceedsUnless faults Device.bus inNb (fun fuel => Device.udpSend (Chip.dev sched faults).bus fuel u x) d' () d'' ∧
      (k = N → Succeeds (fun fuel => Device.udpSend (Chip.dev sched faults).bus fuel u x) d' () d'') := by
  let p : Plan E := ⟨sched, faults⟩
  have hr' : j ≤ xs.length ∧ UdpRough sched faults n u0 c0 (sent ++ (xs.take j).map fun x => (dst, x)) got u d'.bus := by
    clear hs hsr hl hq
    induction hi with
    | start => exact ⟨Nat.zero_le _, by rw [List.take_zero, List.map_nil, List.append_nil]; exact hr⟩
    | done fuel x a _ hx h1 ih =>
      refine ⟨(List.getElem?_eq_some_iff.mp hx).1, ?_⟩
      rw [take_snoc hx, List.map_append, ← List.append_assoc]
      exact .send fuel x dst (ih hr).2 h1 hdst
    | failed fuel x e _ _ h1 h2 h3 ih => exact ⟨(ih hr).1, .failedSend fuel x _ (ih hr).2 h1 (fun h => by rw [h] at h2; cases h2) h3⟩
  have hm : ∀ fuel x, PlayDev (H := H) (fun _ (B : Bus _ E) => Device.udpSend B fuel u x) := fun fuel x => .onBus (play_udpSend u fuel x)
  obtain ⟨h1, h2⟩ := delivers_count (fun _ => rfl) (fun fuel x => tally_dev p (hm fuel x) (fun p => FailStop.nb (fs_udpSend fuel x)))
    (fun fuel x => counts_dev p (hm fuel x)) hi
  refine ⟨h2 ▸ failures_length hN _ _, hr'.1, (C131_udp hn ho hr'.2).1, fun x _ => ?_⟩
  obtain ⟨d'', h3, _⟩ := C135_udp_send hn ho hr'.2 dst hdst x hs hl he hsr hq
  exact ⟨d'', h3, fun hk => only_success (exhausted hN h1 (h2.trans hk)) h3⟩

/-- C138, `write_frame`. -/
theorem C138_raw {r : RawDevice} {c0 c c' : Chip} {sent : List (List U8)} {got : List RawGot} (ho : RawOpened sched0 faults0 r c0)
    (hr : RawRough sched faults r c0 sent got c) (xs : List (List U8)) {N k j : Nat} (hN : AtMost N faults)
    (hi : Delivers (fun fuel x => r.writeFrame (Chip.dev sched faults).bus fuel x) bare id 4 xs k j c c')
    (hl : LosslessFrom sched 0 c') (he : Emitting sched 0) (hc : Confirming sched 0) (hx : ∀ x ∈ xs, x ≠ [] ∧ x.length ≤ 16384) :
    k ≤ N ∧ j ≤ xs.length ∧
    (∃ ps, (c'.socks 0).packets = (c0.socks 0).packets ++ ps ∧ ps.map Packet.data = sent ++ xs.take j ∧ ∀ p ∈ ps, p.delivered = true) ∧
    ∀ x, xs[j]? = some x → ∃ c'',
      SucceedsUnless faults id bare (fun fuel => r.writeFrame (Chip.dev sched faults).bus fuel x) c' x.length c'' ∧
      (k = N → Succeeds (fun fuel => r.writeFrame (Chip.dev sched faults).bus fuel x) c' x.length c'') := by
  let p : Plan E := ⟨sched, faults⟩
  have hr' : j ≤ xs.length ∧ RawRough sched faults r c0 (sent ++ xs.take j) got c' := by
    clear hl
    induction hi with
    | start => exact ⟨Nat.zero_le _, by rw [List.take_zero, List.append_nil]; exact hr⟩
    | done fuel x a _ hx h1 ih =>
      refine ⟨(List.getElem?_eq_some_iff.mp hx).1, ?_⟩
      rw [take_snoc hx, ← List.append_assoc]
      exact .writeFrame fuel x a (ih hr).2 h1
    | failed fuel x e _ _ h1 h2 h3 ih => exact ⟨(ih hr).1, .failedWrite fuel x _ (ih hr).2 h1 (fun _ h => by rw [h] at h2; cases h2) h3⟩
  obtain ⟨h1, h2⟩ := delivers_count (fun _ => rfl) (fun fuel x c => chip_tally (play_rawWrite r fuel x) (f := fun x => (bare x).toList)
    (fun w p => FailStop.bare (fs_raw_writeFrame fuel r x) w) p c) (fun fuel x c => counts_raw p r fuel x c) hi
  refine ⟨h2 ▸ failures_length hN _ _, hr'.1, (C131_raw ho hr'.2).1, fun x h => ?_⟩
  obtain ⟨g1, g2⟩ := hx x (List.mem_of_getElem? h)
  obtain ⟨c'', h3, _⟩ := C135_raw_write ho hr'.2 x hl he hc g1 g2
  exact ⟨c'', h3, fun hk => only_success (chip := id) (exhausted hN h1 (h2.trans hk)) h3⟩

/-! Cases: the first `send` fails in its fourth transfer; then the rest is sent. -/

example : ∃ d' : Device Chip Unit,
    Succeeds (fun fuel => sendWhole (Device.tcpSend (Chip.dev drainSched (faultAt 15)).bus fuel ⟨Socket.new (BitVec.ofNat 8 0)⟩) fuel [7, 8, 9]) halfSent () d' ∧
    (d'.bus.socks 0).stream ++ (d'.bus.socks 0).pending = [7, 8, 9] := by
  obtain ⟨_, _, _, h⟩ := C138_tcp (n := 0) (by decide) 100 demoRemote demoDevice drainConnected drainConnected halfSent powerUp_sizes
    drain_connect [] [] (.start (sched := drainSched) (faults := faultAt 15)) [7, 8, 9] (faultAt_once 15) (.failed 9 () .start half_sent rfl (by decide +kernel))
    (fun k x _ h => drain_status k x h) (by decide +kernel) drain_confirming drain_draining
  rw [show (drainConnected.bus.socks 0).stream = [] by decide +kernel] at h
  exact h rfl

-- the second `send` took all
example := C138_tcp (n := 0) (by decide) 100 demoRemote demoDevice drainConnected drainConnected sentAgain powerUp_sizes
  drain_connect [] [] (.start (sched := drainSched) (faults := faultAt 15)) [7, 8, 9] (faultAt_once 15)
  (.took 9 3 (.failed 9 () .start half_sent rfl (by decide +kernel)) sent_again)
  (fun k x _ h => drain_status k x h) (by decide +kernel) drain_confirming drain_draining

example : ∃ d' : Device Chip Unit, Succeeds (fun fuel => Device.udpSend (Chip.dev emitSched (faultAt 13)).bus fuel (udpConnected noFaults).1 [7, 8, 9])
    halfUdp () d' := by
  obtain ⟨_, _, _, h⟩ := C138_udp (n := 0) (by decide) demo_opened (.start (sched := emitSched) (faults := faultAt 13)) addrA
    (by decide +kernel) [[7, 8, 9], [5]] (faultAt_once 13) (.failed 9 [7, 8, 9] () .start rfl half_udp rfl (by decide +kernel))
    (fun k x _ h => emit_status (p := (· = 0x22)) k x h) (fun k _ => emit_lossless k) emit_emitting (by decide +kernel)
    (by unfold Sock.NoTimeout; decide +kernel)
  obtain ⟨d', _, h1⟩ := h [7, 8, 9] rfl
  exact ⟨d', h1 rfl⟩

example : ∃ c', Succeeds (fun fuel => rawDemo.writeFrame (Chip.dev frameSched (faultAt 20)).bus fuel [7, 8]) halfWritten 2 c' := by
  obtain ⟨_, _, _, h⟩ := C138_raw rawDemo_opened (.start (sched := frameSched) (faults := faultAt 20)) [[7, 8], [9]] (faultAt_once 20)
    (.failed 9 [7, 8] () .start rfl half_written rfl (by decide +kernel)) (frame_lossless _) frame_emitting frame_confirming (by simp)
  obtain ⟨c', _, h1⟩ := h [7, 8] rfl
  exact ⟨c', h1 rfl⟩

end W5500.Props
