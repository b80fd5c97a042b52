import Verif.Spec.Collect
import Verif.Props.Insist
/-! # C139: all data is received

At most `N` transfers ever fail. A program receives data again and again, also after calls that returned a bus error. -/

namespace W5500.Props
open W5500.Spec Sock
variable {E H S σ ε α : Type} {sched : Nat → List (Nat × Act)} {faults : Nat → Option (E × Nat)}
  {sched0 : Nat → List (Nat × Act)} {faults0 : Nat → Option (E × Nat)}

theorem counts_with (p : Plan E) {m : (W : Type) → Bus W E → M (S × Device W H) ε α} (hm : ∀ s, PlayWith s m) (s : S × Device Chip H) :
    s.2.bus.txn ≤ (m Chip p.bus s).2.2.bus.txn := by
  obtain ⟨g, hg⟩ := hm s.1 s.2.state
  have h := (play_counts p g s.2.bus).2
  rw [← hg] at h
  exact h

theorem counts_read (p : Plan E) (r : RawDevice) (fuel : Nat) (s : List U8 × Chip) : s.2.txn ≤ (r.readFrame p.bus fuel s).2.2.txn := by
  obtain ⟨g, hg⟩ := play_rawRead (E := E) r fuel s.1
  have h := (play_counts p g s.2).2
  rw [← hg] at h
  exact h

theorem collects_count {recv : Nat → M (List U8 × σ) ε α} {find : Res ε α → Option E} {chip : σ → Chip} {m : Nat} (hok : ∀ a, find (.ok a) = none)
    (hcall : ∀ fuel s, (find (recv fuel s).1).toList = failures faults (chip s.2).txn (chip (recv fuel s).2.2).txn)
    (hle : ∀ fuel s, (chip s.2).txn ≤ (chip (recv fuel s).2.2).txn) {k : Nat} {l : List (List U8 × α × List U8)} {s s' : σ}
    (h : Collects recv find chip m k l s s') : (chip s).txn ≤ (chip s').txn ∧ (failures faults (chip s).txn (chip s').txn).length = k := by
  have step : ∀ {k : Nat} {s s1 s2 : σ} {r : Res ε α} {buf buf' : List U8} {fuel : Nat},
      (chip s).txn ≤ (chip s1).txn ∧ (failures faults (chip s).txn (chip s1).txn).length = k → recv fuel (buf, s1) = (r, (buf', s2)) →
      (chip s).txn ≤ (chip s2).txn ∧ (failures faults (chip s).txn (chip s2).txn).length = k + (find r).toList.length := by
    intro k s s1 s2 r buf buf' fuel ih h1
    have h2 := hcall fuel (buf, s1)
    have h3 := hle fuel (buf, s1)
    rw [h1] at h2 h3
    dsimp only at h2 h3
    refine ⟨Nat.le_trans ih.1 h3, ?_⟩
    rw [failures_append ih.1 h3, List.length_append, ih.2, ← h2]
  induction h with
  | start => exact ⟨Nat.le_refl _, by rw [failures_empty]; rfl⟩
  | got fuel buf buf' a _ h1 ih =>
    have h2 := step ih h1
    rw [hok] at h2
    exact h2
  | nothing fuel buf buf' _ h1 _ h2 _ ih =>
    have h3 := step ih h1
    rw [h2] at h3
    exact h3
  | failed fuel buf buf' e _ h1 h2 _ ih =>
    have h3 := step ih h1
    rw [h2] at h3
    exact h3

/-- C139, TCP `receive`: whenever `k` calls have failed on the bus, all errors early: no more than `N` have failed; the bytes brought so far and those queued
are all that arrived, in order, after what was brought before; and the next call returns `Ok`, or it fails on the bus, which it does not once `N` calls have
failed. -/
theorem C139_tcp {n : Nat} (hn : n < 8) (fuel : Nat) (remote : SockAddr) (d0 d1 d d' : Device Chip H)
    (hz : SizesOk (d0.bus.socks n).mem)
    (hconn : Device.tcpConnect (Chip.dev sched0 faults0).bus fuel ⟨Socket.new (BitVec.ofNat 8 n)⟩ remote d0 = (.ok (), d1))
    (acc del : List U8) (hrun : TcpRough sched faults n d1.bus acc del d.bus) {N k : Nat} (hN : AtMost N faults) {got : List (List U8 × Nat × List U8)}
    (hi : Collects (fun fuel => Device.tcpReceive (Chip.dev sched faults).bus fuel ⟨Socket.new (BitVec.ofNat 8 n)⟩) inTcp Device.bus 6 k got d d')
    (hs : StatusFrom sched n (· = 0x17) d'.bus) (hsr : (d'.bus.socks n).sr = 0x17) (buf : List U8) :
    k ≤ N ∧
    (∃ before, (d1.bus.socks n).arrived = before ++ (d1.bus.socks n).queue ∧
      (d'.bus.socks n).arrived = before ++ (del ++ got.flatMap fun x => x.2.2.take x.2.1) ++ (d'.bus.socks n).queue) ∧
    ∃ (j : Nat) (buf' : List U8) (d'' : Device Chip H),
      SucceedsUnless faults (fun s => s.2.bus) inTcp (fun fuel => Device.tcpReceive (Chip.dev sched faults).bus fuel ⟨Socket.new (BitVec.ofNat 8 n)⟩)
        (buf, d') j (buf', d'') ∧
      (k = N → Succeeds (fun fuel => Device.tcpReceive (Chip.dev sched faults).bus fuel ⟨Socket.new (BitVec.ofNat 8 n)⟩) (buf, d') j (buf', d'')) ∧
      ((d'.bus.socks n).ir &&& 4 ≠ 0 → min buf.length (d'.bus.socks n).queue.length ≤ j) := by
  let p : Plan E := ⟨sched, faults⟩
  have hrun' : TcpRough sched faults n d1.bus acc (del ++ got.flatMap fun x => x.2.2.take x.2.1) d'.bus := by
    clear hs hsr
    induction hi with
    | start => rw [List.flatMap_nil, List.append_nil]; exact hrun
    | got fuel buf buf' a _ h1 ih =>
      rw [List.flatMap_append, ← List.append_assoc, List.flatMap_singleton]
      exact .receive fuel buf buf' a (ih hrun) h1
    | nothing fuel buf buf' _ h1 h2 _ h3 ih => exact .failedReceive fuel buf buf' _ (ih hrun) h1 h2 h3
    | failed fuel buf buf' e _ h1 h2 h3 ih => exact .failedReceive fuel buf buf' _ (ih hrun) h1 (fun _ h => by rw [h] at h2; cases h2) h3
  have hm : ∀ fuel b, PlayWith (H := H) b (fun _ (B : Bus _ E) => Device.tcpReceive B fuel ⟨Socket.new (BitVec.ofNat 8 n)⟩) := fun fuel b =>
    .onSockBus (play_tcpReceive _ fuel b)
  obtain ⟨h1, h2⟩ := collects_count (fun _ => rfl) (fun fuel => tally_with p (hm fuel) (fun p => FailStop.tcp (fs_tcpReceive fuel)))
    (fun fuel => counts_with p (hm fuel)) hi
  obtain ⟨j, buf', d'', h3, h4, _⟩ := C135_tcp_receive hn fuel remote d0 d1 d' hz hconn acc _ hrun' hs hsr buf
  exact ⟨h2 ▸ failures_length hN _ _, (C131_tcp hn fuel remote d0 d1 hz hconn acc _ _ hrun').2, j, buf', d'', h3,
    fun hk => only_success (chip := fun s => s.2.bus) (exhausted hN h1 (h2.trans hk)) h3, h4⟩

/-- C139, UDP `receive`: the results brought datagrams in order of arrival, every one a different datagram; and if a datagram is queued and announced, then the
next call brings it, or it fails on the bus, which it does not once `N` calls have failed. -/
theorem C139_udp {n : Nat} (hn : n < 8) {u0 u : UdpSocket} {c0 : Chip} {sent : List (SockAddr4 × List U8)} {got0 : List UdpGot}
    {d d' : Device Chip H} (ho : UdpOpened sched0 faults0 n u0 c0) (hr : UdpRough sched faults n u0 c0 sent got0 u d.bus)
    {N k : Nat} (hN : AtMost N faults) {got : List (List U8 × (Nat × SockAddr) × List U8)}
    (hi : Collects (fun fuel => Device.udpReceive (Chip.dev sched faults).bus fuel u) inNb Device.bus 7 k got d d') :
    k ≤ N ∧
    (∃ A ds qs, (c0.socks n).arrived = A ++ (c0.socks n).queue ∧ (d'.bus.socks n).arrived = A ++ encAll (ds ++ qs) ∧
      (d'.bus.socks n).queue = encAll qs ∧ (∀ d ∈ ds ++ qs, d.Wf) ∧ UdpGot.Among (got0 ++ got.map fun x => ⟨x.1, x.2.1.1, x.2.1.2, x.2.2⟩) ds) ∧
    ∀ (dg : Dgram) (rest : List Dgram) (buf : List U8), (d'.bus.socks n).Queued (dg :: rest) → (d'.bus.socks n).ir &&& 4 ≠ 0 →
      StatusFrom sched n (· = 0x22) d'.bus → (d'.bus.socks n).sr = 0x22 → buf ≠ [] → dg.payload.length ≤ buf.length →
      ∃ (j : Nat) (a : SockAddr4) (buf' : List U8) (d'' : Device Chip H),
        SucceedsUnless faults (fun s => s.2.bus) inNb (fun fuel => Device.udpReceive (Chip.dev sched faults).bus fuel u) (buf, d') (j, .v4 a) (buf', d'') ∧
        (k = N → Succeeds (fun fuel => Device.udpReceive (Chip.dev sched faults).bus fuel u) (buf, d') (j, .v4 a) (buf', d'')) ∧
        wire a = (dg.ip, dg.port) ∧ buf'.take dg.payload.length = dg.payload := by
  let p : Plan E := ⟨sched, faults⟩
  have hr' : UdpRough sched faults n u0 c0 sent (got0 ++ got.map fun x => ⟨x.1, x.2.1.1, x.2.1.2, x.2.2⟩) u d'.bus := by
    induction hi with
    | start => rw [List.map_nil, List.append_nil]; exact hr
    | got fuel buf buf' a _ h1 ih =>
      rw [List.map_append, ← List.append_assoc]
      exact .receive fuel buf buf' a.1 a.2 (ih hr) h1
    | nothing fuel buf buf' _ h1 h2 _ h3 ih => exact .failedReceive fuel buf buf' _ (ih hr) h1 h2 h3
    | failed fuel buf buf' e _ h1 h2 h3 ih => exact .failedReceive fuel buf buf' _ (ih hr) h1 (fun _ h => by rw [h] at h2; cases h2) h3
  have hm : ∀ fuel b, PlayWith (H := H) b (fun _ (B : Bus _ E) => Device.udpReceive B fuel u) := fun fuel b => .onSockBus (play_udpReceived u fuel b)
  obtain ⟨h1, h2⟩ := collects_count (fun _ => rfl) (fun fuel => tally_with p (hm fuel) (fun p => FailStop.nb (fs_udpReceive fuel)))
    (fun fuel => counts_with p (hm fuel)) hi
  refine ⟨h2 ▸ failures_length hN _ _, (C131_udp hn ho hr').2, fun dg rest buf hq hir hs hsr hb hlen => ?_⟩
  obtain ⟨j, a, buf', d'', h3, h4⟩ := C135_udp_receive hn ho hr' dg rest hq hir hs hsr buf hb hlen
  exact ⟨j, a, buf', d'', h3, fun hk => only_success (chip := fun s => s.2.bus) (exhausted hN h1 (h2.trans hk)) h3, h4⟩

/-- C139, `read_frame`: every frame that arrived was brought by one call, or is still queued; and if a frame is queued, then the next call brings it, or it fails
on the bus, which it does not once `N` calls have failed. -/
theorem C139_raw {r : RawDevice} {c0 c c' : Chip} {sent : List (List U8)} {got0 : List RawGot} (ho : RawOpened sched0 faults0 r c0)
    (hr : RawRough sched faults r c0 sent got0 c) {N k : Nat} (hN : AtMost N faults) {got : List (List U8 × Nat × List U8)}
    (hi : Collects (fun fuel => r.readFrame (Chip.dev sched faults).bus fuel) bare id 4 k got c c') :
    k ≤ N ∧
    (∃ A first fs queued, (c0.socks 0).Frames first ∧ (c0.socks 0).arrived = A ++ encFrames first ∧
      (RawGot.All (got0 ++ got.map fun x => ⟨x.1, x.2.1, x.2.2⟩) fs ∧ ∀ f ∈ fs, f.length + 2 < 65536) ∧ (c'.socks 0).Frames queued ∧
      (c'.socks 0).arrived = A ++ encFrames (fs ++ queued)) ∧
    ∀ (f : List U8) (rest : List (List U8)) (buf : List U8), (c'.socks 0).Frames (f :: rest) →
      ∃ j buf' c'', SucceedsUnless faults Prod.snd bare (fun fuel => r.readFrame (Chip.dev sched faults).bus fuel) (buf, c') j (buf', c'') ∧
        (k = N → Succeeds (fun fuel => r.readFrame (Chip.dev sched faults).bus fuel) (buf, c') j (buf', c'')) ∧ RawGot.Brings ⟨buf, j, buf'⟩ f := by
  let p : Plan E := ⟨sched, faults⟩
  have hr' : RawRough sched faults r c0 sent (got0 ++ got.map fun x => ⟨x.1, x.2.1, x.2.2⟩) c' := by
    induction hi with
    | start => rw [List.map_nil, List.append_nil]; exact hr
    | got fuel buf buf' a _ h1 ih =>
      rw [List.map_append, ← List.append_assoc]
      exact .readFrame fuel buf buf' a (ih hr) h1
    | nothing fuel buf buf' _ h1 h2 _ h3 ih => exact .failedRead fuel buf buf' _ (ih hr) h1 h2 h3
    | failed fuel buf buf' e _ h1 h2 h3 ih => exact .failedRead fuel buf buf' _ (ih hr) h1 (fun _ h => by rw [h] at h2; cases h2) h3
  obtain ⟨h1, h2⟩ := collects_count (fun _ => rfl) (fun fuel s => tally_read p r fuel s) (fun fuel s => counts_read p r fuel s) hi
  refine ⟨h2 ▸ failures_length hN _ _, (C131_raw ho hr').2, fun f rest buf hq => ?_⟩
  obtain ⟨j, buf', c'', h3, h4⟩ := C135_raw_read ho hr' f rest hq buf
  exact ⟨j, buf', c'', h3, fun hk => only_success (chip := Prod.snd) (exhausted hN h1 (h2.trans hk)) h3, h4⟩

/-! Cases: one transfer fails, and the call that meets it is made again. -/

example := C139_tcp (n := 0) (by decide) 100 demoRemote demoDevice demoConnected demoArrived halfReceived.2 powerUp_sizes demo_connect [] []
  (.other (.start (sched := demoSched) (faults := faultAt 18)) demo_arrives) (faultAt_once 18)
  (.failed 9 [9, 9] halfReceived.1 () .start half_received rfl (by decide +kernel)) (fun k x _ h => demo_status k x h) (by decide +kernel) [9, 9]

example := (C139_udp (n := 0) (by decide) arrive_opened (.other (.start (sched := arriveSched [dgramA, dgramB]) (faults := faultAt 14)) arrive_arrives)
  (faultAt_once 14) (.failed 9 [9, 9] halfDgram.1 () .start half_dgram rfl (by decide +kernel))).2.2 dgramA [dgramB] halfDgram.1
  ⟨by simp [Dgram.Wf, dgramA, dgramB], by decide +kernel⟩ (by decide +kernel)
  (fun k x _ h => by unfold arriveSched at h; split at h <;> simp at h) (by decide +kernel) (by decide +kernel) (by decide +kernel)

example := (C139_raw rawDemo_opened (.other (.start (sched := frameSched) (faults := faultAt 22)) frame_arrives) (faultAt_once 22)
  (.failed 9 [9, 9] halfFrame.1 () .start half_frame rfl (by decide +kernel))).2.2 [1, 2, 3, 4] [[5, 6]] [9, 9] ⟨by simp, by decide +kernel⟩

end W5500.Props
