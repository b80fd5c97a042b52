import Verif.Spec.Persist
import Verif.Props.Either
import Verif.Props.Wary
/-! # C136: making a call again and again

At most `N` transfers ever fail. A program that makes a call again whenever it returned a bus error makes it at most `N + 1` times, and if the failures were early
(C131), then what was to be done is done, once. -/

namespace W5500.Props
open W5500.Spec Sock
variable {E H S σ ε α : Type} {sched : Nat → List (Nat × Act)} {faults : Nat → Option (E × Nat)}
  {sched0 : Nat → List (Nat × Act)} {faults0 : Nat → Option (E × Nat)}

/-! ## Counting -/

theorem failures_append {i j l : Nat} (h1 : i ≤ j) (h2 : j ≤ l) : failures faults i l = failures faults i j ++ failures faults j l := by
  unfold failures
  rw [← List.filterMap_append]
  congr 1
  have := List.range'_append (s := i) (m := j - i) (n := l - j) (step := 1)
  rw [show i + 1 * (j - i) = j by omega, show j - i + (l - j) = l - i by omega] at this
  exact this.symm

theorem tries_count {call : Nat → M σ ε α} {find : Res ε α → Option E} {chip : σ → Chip} {m : σ → Nat}
    (hcall : ∀ fuel s, (find (call fuel s).1).toList = failures faults (chip s).txn (chip (call fuel s).2).txn) {k : Nat} {s s' : σ}
    (h : Tries call find chip m k s s') : (chip s).txn ≤ (chip s').txn ∧ (failures faults (chip s).txn (chip s').txn).length = k := by
  induction h with
  | none => exact ⟨Nat.le_refl _, by rw [failures_empty]; rfl⟩
  | again fuel e _ h1 h2 _ ih =>
    rename_i k s s1 s2 r _ _
    have h3 := hcall fuel s1
    rw [h1] at h3
    dsimp only at h3
    rw [h2] at h3
    have h4 : (chip s1).txn ≤ (chip s2).txn := by
      obtain ⟨l, _, h5, h6, _⟩ := failures_mem (e := e) (by rw [← h3]; exact List.mem_singleton_self _)
      omega
    refine ⟨Nat.le_trans ih.1 h4, ?_⟩
    rw [failures_append ih.1 h4, List.length_append, ih.2, ← h3]
    rfl

/-- No more than `N` tries fail, and after `N` the call succeeds. -/
theorem persist {call : Nat → M σ ε α} {find : Res ε α → Option E} {chip : σ → Chip} {m : σ → Nat} {N : Nat} (hN : AtMost N faults)
    (hcall : ∀ fuel s, (find (call fuel s).1).toList = failures faults (chip s).txn (chip (call fuel s).2).txn) {k : Nat} {s s' s'' : σ} {a : α}
    (h : Tries call find chip m k s s') (hu : SucceedsUnless faults chip find call s' a s'') : k ≤ N ∧ (k = N → Succeeds call s' a s'') := by
  obtain ⟨h1, h2⟩ := tries_count hcall h
  refine ⟨h2 ▸ failures_length hN _ _, fun hk => ?_⟩
  obtain ⟨M, hM⟩ := hu
  refine ⟨nofun, M, fun fuel hf => ?_⟩
  rcases hM fuel hf with h3 | ⟨e, i, l, _, h4, h5, h6⟩
  · exact h3
  · have h7 := failures_length hN (chip s).txn (i + 1)
    rw [failures_append (j := i) (by omega) (by omega), failures_append (j := (chip s').txn) h1 h4, failures_cons (Nat.lt_succ_self i), h6] at h7
    simp only [List.length_append, h2, Option.map_some, Option.toList_some, List.length_singleton] at h7
    omega

theorem tally_dev (p : Plan E) {m : (W : Type) → Bus W E → M (Device W H) ε α} {find : Res ε α → Option E} (hm : PlayDev m)
    (ht : ∀ (p : Plan E), Tallies find (m (TW Chip E) (traced p.bus))) (d : Device Chip H) :
    (find (m Chip p.bus d).1).toList = failures p.faults d.bus.txn (m Chip p.bus d).2.bus.txn :=
  chip_tally (hm d.state) (f := fun x => (find x.1).toList) (fun w p => ht p ⟨w, d.state⟩) p d.bus

theorem tally_with (p : Plan E) {m : (W : Type) → Bus W E → M (S × Device W H) ε α} {find : Res ε α → Option E} (hm : ∀ s, PlayWith s m)
    (ht : ∀ (p : Plan E), Tallies find (m (TW Chip E) (traced p.bus))) (s : S × Device Chip H) :
    (find (m Chip p.bus s).1).toList = failures p.faults s.2.bus.txn (m Chip p.bus s).2.2.bus.txn :=
  chip_tally (hm s.1 s.2.state) (f := fun x => (find x.1).toList) (fun w p => ht p (s.1, ⟨w, s.2.state⟩)) p s.2.bus

theorem tally_read (p : Plan E) (r : RawDevice) (fuel : Nat) (s : List U8 × Chip) :
    (bare (r.readFrame p.bus fuel s).1).toList = failures p.faults s.2.txn (r.readFrame p.bus fuel s).2.2.txn :=
  chip_tally (play_rawRead (E := E) r fuel s.1) (f := fun x => (bare x.1).toList) (fun w _ => FailStop.bare (fs_raw_readFrame fuel r) (s.1, w)) p s.2

/-! ## TCP -/

/-- C136, TCP `send`: of the calls made again no more than `N` fail. The next one returns `Ok` unless it fails too, and it does not if `N` have failed; then the
peer has got, or is to get, the bytes accepted before, and those it took, once. -/
theorem C136_tcp_send {n : Nat} (hn : n < 8) (fuel : Nat) (remote : SockAddr) (d0 d1 d d' : Device Chip H)
    (hz : SizesOk (d0.bus.socks n).mem)
    (hconn : Device.tcpConnect (Chip.dev sched0 faults0).bus fuel ⟨Socket.new (BitVec.ofNat 8 n)⟩ remote d0 = (.ok (), d1))
    (acc del : List U8) (hrun : TcpRough sched faults n d1.bus acc del d.bus) (data : List U8) {N k : Nat} (hN : AtMost N faults)
    (ht : Tries (fun fuel => Device.tcpSend (Chip.dev sched faults).bus fuel ⟨Socket.new (BitVec.ofNat 8 n)⟩ data) inTcp Device.bus (fun _ => 4) k d d')
    (hs : StatusFrom sched n (· = 0x17) d'.bus) (hsr : (d'.bus.socks n).sr = 0x17) (hc : Confirming sched n) :
    k ≤ N ∧ ∃ (j : Nat) (d'' : Device Chip H),
      SucceedsUnless faults Device.bus inTcp
        (fun fuel => Device.tcpSend (Chip.dev sched faults).bus fuel ⟨Socket.new (BitVec.ofNat 8 n)⟩ data) d' j d'' ∧
      (k = N → Succeeds (fun fuel => Device.tcpSend (Chip.dev sched faults).bus fuel ⟨Socket.new (BitVec.ofNat 8 n)⟩ data) d' j d'') ∧
      j ≤ data.length ∧ (d''.bus.socks n).stream ++ (d''.bus.socks n).pending = (d1.bus.socks n).stream ++ acc ++ data.take j := by
  have hrun' : TcpRough sched faults n d1.bus acc del d'.bus := by
    clear hs hsr
    induction ht with
    | none => exact hrun
    | again fuel e _ h1 h2 h3 ih => exact .failedSend fuel data _ (ih hrun) h1 (fun _ h => by rw [h] at h2; cases h2) h3
  obtain ⟨j, d'', h1, h2, h3, _⟩ := C135_tcp_send hn fuel remote d0 d1 d' hz hconn acc del hrun' data hs hsr hc
  have key := persist hN (fun fuel => tally_dev (⟨sched, faults⟩ : Plan E) (m := fun _ B => Device.tcpSend B fuel ⟨Socket.new (BitVec.ofNat 8 n)⟩ data)
    (.onBus (play_tcpSend _ fuel data)) (fun p => FailStop.tcp (fs_tcpSend fuel data))) ht h1
  exact ⟨key.1, j, d'', h1, key.2, h2, h3⟩

/-- C136, TCP `receive`. -/
theorem C136_tcp_receive {n : Nat} (hn : n < 8) (fuel : Nat) (remote : SockAddr) (d0 d1 d d' : Device Chip H)
    (hz : SizesOk (d0.bus.socks n).mem)
    (hconn : Device.tcpConnect (Chip.dev sched0 faults0).bus fuel ⟨Socket.new (BitVec.ofNat 8 n)⟩ remote d0 = (.ok (), d1))
    (acc del : List U8) (hrun : TcpRough sched faults n d1.bus acc del d.bus) (buf0 buf : List U8) {N k : Nat} (hN : AtMost N faults)
    (ht : Tries (fun fuel => Device.tcpReceive (Chip.dev sched faults).bus fuel ⟨Socket.new (BitVec.ofNat 8 n)⟩) inTcp (fun s => s.2.bus) (fun _ => 6) k
      (buf0, d) (buf, d'))
    (hs : StatusFrom sched n (· = 0x17) d'.bus) (hsr : (d'.bus.socks n).sr = 0x17) :
    k ≤ N ∧ ∃ (j : Nat) (buf' : List U8) (d'' : Device Chip H),
      SucceedsUnless faults (fun s => s.2.bus) inTcp (fun fuel => Device.tcpReceive (Chip.dev sched faults).bus fuel ⟨Socket.new (BitVec.ofNat 8 n)⟩)
        (buf, d') j (buf', d'') ∧
      (k = N → Succeeds (fun fuel => Device.tcpReceive (Chip.dev sched faults).bus fuel ⟨Socket.new (BitVec.ofNat 8 n)⟩) (buf, d') j (buf', d'')) ∧
      ((d'.bus.socks n).ir &&& 4 ≠ 0 → min buf.length (d'.bus.socks n).queue.length ≤ j) ∧ j ≤ buf.length ∧ buf'.length = buf.length ∧
      ∃ before, (d1.bus.socks n).arrived = before ++ (d1.bus.socks n).queue ∧
        (d''.bus.socks n).arrived = before ++ (del ++ buf'.take j) ++ (d''.bus.socks n).queue := by
  have hrun' : TcpRough sched faults n d1.bus acc del d'.bus := by
    clear hs hsr
    suffices H : ∀ s s', Tries (fun fuel => Device.tcpReceive (Chip.dev sched faults).bus fuel ⟨Socket.new (BitVec.ofNat 8 n)⟩) inTcp (fun s => s.2.bus)
        (fun _ => 6) k s s' → TcpRough sched faults n d1.bus acc del s.2.bus → TcpRough sched faults n d1.bus acc del s'.2.bus from H _ _ ht hrun
    clear ht
    intro s s' h
    induction h with
    | none => exact id
    | again fuel e _ h1 h2 h3 ih => exact fun h => .failedReceive fuel _ _ _ (ih h) h1 (fun _ h => by rw [h] at h2; cases h2) h3
  obtain ⟨j, buf', d'', h1, h2⟩ := C135_tcp_receive hn fuel remote d0 d1 d' hz hconn acc del hrun' hs hsr buf
  have key := persist hN (fun fuel => tally_with (⟨sched, faults⟩ : Plan E) (m := fun _ B => Device.tcpReceive B fuel ⟨Socket.new (BitVec.ofNat 8 n)⟩)
    (fun b => .onSockBus (play_tcpReceive _ fuel b)) (fun p => FailStop.tcp (fs_tcpReceive fuel))) ht h1
  exact ⟨key.1, j, buf', d'', h1, key.2, h2⟩

/-! ## UDP -/

/-- C136, UDP `send`. -/
theorem C136_udp_send {n : Nat} (hn : n < 8) {u0 u : UdpSocket} {c0 : Chip} {sent : List (SockAddr4 × List U8)} {got : List UdpGot}
    {d d' : Device Chip H} (ho : UdpOpened sched0 faults0 n u0 c0) (hr : UdpRough sched faults n u0 c0 sent got u d.bus) (dst : SockAddr4)
    (hdst : u.destination = some dst) (data : List U8) {N k : Nat} (hN : AtMost N faults)
    (ht : Tries (fun fuel => Device.udpSend (Chip.dev sched faults).bus fuel u data) inNb Device.bus (fun _ => 6) k d d')
    (hs : StatusFrom sched n (· = 0x22) d'.bus) (hl : LosslessFrom sched n d'.bus) (he : Emitting sched n)
    (hsr : (d'.bus.socks n).sr = 0x22) (hq : (d'.bus.socks n).NoTimeout) :
    k ≤ N ∧ ∃ d'' : Device Chip H,
      SucceedsUnless faults Device.bus inNb (fun fuel => Device.udpSend (Chip.dev sched faults).bus fuel u data) d' () d'' ∧
      (k = N → Succeeds (fun fuel => Device.udpSend (Chip.dev sched faults).bus fuel u data) d' () d'') ∧
      ∃ ps, UdpSent.All (c0.socks n).txSize (sent.map fun x => ⟨x.1, x.2, true⟩) ps ∧
        (d''.bus.socks n).packets = (c0.socks n).packets ++ ps ++
          (pieces (d'.bus.socks n).txSize data).map (fun p => ⟨(wire dst).1, (wire dst).2, p, true⟩) := by
  have hr' : UdpRough sched faults n u0 c0 sent got u d'.bus := by
    clear hs hsr hl hq
    induction ht with
    | none => exact hr
    | again fuel e _ h1 h2 h3 ih => exact .failedSend fuel data _ (ih hr) h1 (fun h => by rw [h] at h2; cases h2) h3
  obtain ⟨d'', h1, h2⟩ := C135_udp_send hn ho hr' dst hdst data hs hl he hsr hq
  have key := persist hN (fun fuel => tally_dev (⟨sched, faults⟩ : Plan E) (m := fun _ B => Device.udpSend B fuel u data)
    (.onBus (play_udpSend u fuel data)) (fun p => FailStop.nb (fs_udpSend fuel data))) ht h1
  exact ⟨key.1, d'', h1, key.2, h2⟩

/-- C136, UDP `receive`. -/
theorem C136_udp_receive {n : Nat} (hn : n < 8) {u0 u : UdpSocket} {c0 : Chip} {sent : List (SockAddr4 × List U8)} {got : List UdpGot}
    {d d' : Device Chip H} (ho : UdpOpened sched0 faults0 n u0 c0) (hr : UdpRough sched faults n u0 c0 sent got u d.bus) (buf0 buf : List U8)
    {N k : Nat} (hN : AtMost N faults)
    (ht : Tries (fun fuel => Device.udpReceive (Chip.dev sched faults).bus fuel u) inNb (fun s => s.2.bus) (fun _ => 7) k (buf0, d) (buf, d'))
    (dg : Dgram) (rest : List Dgram) (hq : (d'.bus.socks n).Queued (dg :: rest)) (hir : (d'.bus.socks n).ir &&& 4 ≠ 0)
    (hs : StatusFrom sched n (· = 0x22) d'.bus) (hsr : (d'.bus.socks n).sr = 0x22) (hb : buf ≠ []) (hlen : dg.payload.length ≤ buf.length) :
    k ≤ N ∧ ∃ (j : Nat) (a : SockAddr4) (buf' : List U8) (d'' : Device Chip H),
      SucceedsUnless faults (fun s => s.2.bus) inNb (fun fuel => Device.udpReceive (Chip.dev sched faults).bus fuel u) (buf, d') (j, .v4 a) (buf', d'') ∧
      (k = N → Succeeds (fun fuel => Device.udpReceive (Chip.dev sched faults).bus fuel u) (buf, d') (j, .v4 a) (buf', d'')) ∧
      wire a = (dg.ip, dg.port) ∧ buf'.take dg.payload.length = dg.payload := by
  have hr' : UdpRough sched faults n u0 c0 sent got u d'.bus := by
    clear hs hsr hq hir hb hlen
    suffices H : ∀ s s', Tries (fun fuel => Device.udpReceive (Chip.dev sched faults).bus fuel u) inNb (fun s => s.2.bus) (fun _ => 7) k s s' →
        UdpRough sched faults n u0 c0 sent got u s.2.bus → UdpRough sched faults n u0 c0 sent got u s'.2.bus from H _ _ ht hr
    clear ht
    intro s s' h
    induction h with
    | none => exact id
    | again fuel e _ h1 h2 h3 ih => exact fun h => .failedReceive fuel _ _ _ (ih h) h1 (fun _ h => by rw [h] at h2; cases h2) h3
  obtain ⟨j, a, buf', d'', h1, h2⟩ := C135_udp_receive hn ho hr' dg rest hq hir hs hsr buf hb hlen
  have key := persist hN (fun fuel => tally_with (⟨sched, faults⟩ : Plan E) (m := fun _ B => Device.udpReceive B fuel u)
    (fun b => .onSockBus (play_udpReceived u fuel b)) (fun p => FailStop.nb (fs_udpReceive fuel))) ht h1
  exact ⟨key.1, j, a, buf', d'', h1, key.2, h2⟩

/-- C135, `send_to`, after a history in which `send_to` may have failed early too (C132): the call returns a bus error, or `Ok`; then all of its data has left for
the address. -/
theorem C135_udp_send_to {n : Nat} (hn : n < 8) {u0 u : UdpSocket} {c0 : Chip} {p : Option SockAddr4} {sent : List (SockAddr4 × List U8)}
    {got : List UdpGot} {d : Device Chip H} (ho : UdpOpened sched0 faults0 n u0 c0) (hr : UdpWary sched faults n u0 c0 p sent got u d.bus)
    (dst : SockAddr4) (hp : Safe p u dst) (data : List U8)
    (hs : StatusFrom sched n (· = 0x22) d.bus) (hl : LosslessFrom sched n d.bus) (he : Emitting sched n)
    (hsr : (d.bus.socks n).sr = 0x22) (hq : (d.bus.socks n).NoTimeout) :
    ∃ d' : Device Chip H, SucceedsUnless faults (fun s => s.2.bus) inNb (fun fuel => Device.udpSendTo (Chip.dev sched faults).bus fuel (.v4 dst) data)
        (u, d) () ({ u with destination := some dst }, d') ∧
      ∃ ps, UdpSent.All (c0.socks n).txSize (sent.map fun x => ⟨x.1, x.2, true⟩) ps ∧
        (d'.bus.socks n).packets = (c0.socks n).packets ++ ps ++
          (pieces (d.bus.socks n).txSize data).map (fun p => ⟨(wire dst).1, (wire dst).2, p, true⟩) := by
  obtain ⟨A, h0⟩ := opened_inv hn ho
  let q : Plan E := ⟨sched, faults⟩
  obtain ⟨d', ⟨h1, N, h2⟩, h3⟩ := sendTo_inv (sched := (q.calm d.bus).sched) (faults := (q.calm d.bus).faults) hn (fun _ => rfl) hs.since he.since
    hl.since (udpWary_inv hn h0 hr) hsr hq dst data
  obtain ⟨⟨ps, g1, g2⟩, _⟩ := C132 hn ho hr
  refine ⟨d', unless_with q (m := fun fuel _ B => Device.udpSendTo B fuel (.v4 dst) data) (fun fuel => playWith_udpSendTo u fuel (.v4 dst) data)
    (fun fuel p => FailStop.nb (fs_udpSendTo fuel (.v4 dst) data)) ⟨nofun, N, fun fuel hN => ?_⟩, ps, g1, by rw [h3, g2]⟩
  rcases hx : Device.udpSendTo (q.calm d.bus).bus fuel (.v4 dst) data (u, d) with ⟨r, u', d1⟩
  obtain ⟨v, g1, g2⟩ := ghost_sendTo _ fuel hp data d hx
  have g3 := g1.symm.trans (h2 fuel hN)
  cases g3
  rcases g2 with g2 | ⟨_, _, g2⟩
  · have e : (ghost p u).port = u.port := by
      unfold ghost
      split
      · rfl
      · split <;> rfl
    rw [← g2, ghost_socket, e] at hx
    exact hx
  · exact absurd rfl g2

/-- C136, `send_to`, always for the same address. -/
theorem C136_udp_send_to {n : Nat} (hn : n < 8) {u0 u u' : UdpSocket} {c0 : Chip} {p : Option SockAddr4} {sent : List (SockAddr4 × List U8)}
    {got : List UdpGot} {d d' : Device Chip H} (ho : UdpOpened sched0 faults0 n u0 c0) (hr : UdpWary sched faults n u0 c0 p sent got u d.bus)
    (dst : SockAddr4) (hp : Safe p u dst) (data : List U8) {N k : Nat} (hN : AtMost N faults)
    (ht : Tries (fun fuel => Device.udpSendTo (Chip.dev sched faults).bus fuel (.v4 dst) data) inNb (fun s => s.2.bus)
      (fun s => if s.1.destination = some dst then 6 else 8) k (u, d) (u', d'))
    (hs : StatusFrom sched n (· = 0x22) d'.bus) (hl : LosslessFrom sched n d'.bus) (he : Emitting sched n)
    (hsr : (d'.bus.socks n).sr = 0x22) (hq : (d'.bus.socks n).NoTimeout) :
    k ≤ N ∧ ∃ d'' : Device Chip H,
      SucceedsUnless faults (fun s => s.2.bus) inNb (fun fuel => Device.udpSendTo (Chip.dev sched faults).bus fuel (.v4 dst) data)
        (u', d') () ({ u' with destination := some dst }, d'') ∧
      (k = N → Succeeds (fun fuel => Device.udpSendTo (Chip.dev sched faults).bus fuel (.v4 dst) data) (u', d') ()
        ({ u' with destination := some dst }, d'')) ∧
      ∃ ps, UdpSent.All (c0.socks n).txSize (sent.map fun x => ⟨x.1, x.2, true⟩) ps ∧
        (d''.bus.socks n).packets = (c0.socks n).packets ++ ps ++
          (pieces (d'.bus.socks n).txSize data).map (fun p => ⟨(wire dst).1, (wire dst).2, p, true⟩) := by
  have hr' : ∃ p, UdpWary sched faults n u0 c0 p sent got u' d'.bus ∧ Safe p u' dst := by
    clear hs hsr hl hq
    suffices H : ∀ s s', Tries (fun fuel => Device.udpSendTo (Chip.dev sched faults).bus fuel (.v4 dst) data) inNb (fun s => s.2.bus)
        (fun s => if s.1.destination = some dst then 6 else 8) k s s' →
        (∃ p, UdpWary sched faults n u0 c0 p sent got s.1 s.2.bus ∧ Safe p s.1 dst) →
        ∃ p, UdpWary sched faults n u0 c0 p sent got s'.1 s'.2.bus ∧ Safe p s'.1 dst from H _ _ ht ⟨p, hr, hp⟩
    clear ht
    intro s s' h
    induction h with
    | none => exact id
    | again fuel e _ h1 h2 h3 ih =>
      intro h
      obtain ⟨p, g1, g2⟩ := ih h
      exact ⟨some dst, .failedSendTo fuel dst data _ g1 g2 h1 (fun h => by rw [h] at h2; cases h2) h3, .inr (.inl rfl)⟩
  obtain ⟨p', hr', hp'⟩ := hr'
  obtain ⟨d'', h1, h2⟩ := C135_udp_send_to hn ho hr' dst hp' data hs hl he hsr hq
  have key := persist hN (fun fuel => tally_with (⟨sched, faults⟩ : Plan E) (m := fun _ B => Device.udpSendTo B fuel (.v4 dst) data)
    (fun u => playWith_udpSendTo u fuel (.v4 dst) data) (fun p => FailStop.nb (fs_udpSendTo fuel (.v4 dst) data))) ht h1
  exact ⟨key.1, d'', h1, key.2, h2⟩

/-! ## MACRAW -/

/-- C136, `write_frame`. -/
theorem C136_raw_write {r : RawDevice} {c0 c c' : Chip} {sent : List (List U8)} {got : List RawGot} (ho : RawOpened sched0 faults0 r c0)
    (hr : RawRough sched faults r c0 sent got c) (frame : List U8) {N k : Nat} (hN : AtMost N faults)
    (ht : Tries (fun fuel => r.writeFrame (Chip.dev sched faults).bus fuel frame) bare id (fun _ => 4) k c c')
    (hl : LosslessFrom sched 0 c') (he : Emitting sched 0) (hc : Confirming sched 0) (hne : frame ≠ []) (hz : frame.length ≤ 16384) :
    k ≤ N ∧ ∃ c'', SucceedsUnless faults id bare (fun fuel => r.writeFrame (Chip.dev sched faults).bus fuel frame) c' frame.length c'' ∧
      (k = N → Succeeds (fun fuel => r.writeFrame (Chip.dev sched faults).bus fuel frame) c' frame.length c'') ∧
      ∃ ps, (c''.socks 0).packets = (c0.socks 0).packets ++ ps ∧ ps.map Packet.data = sent ++ [frame] ∧ ∀ p ∈ ps, p.delivered = true := by
  have hr' : RawRough sched faults r c0 sent got c' := by
    clear hl
    induction ht with
    | none => exact hr
    | again fuel e _ h1 h2 h3 ih => exact .failedWrite fuel frame _ (ih hr) h1 (fun _ h => by rw [h] at h2; cases h2) h3
  obtain ⟨c'', h1, h2⟩ := C135_raw_write ho hr' frame hl he hc hne hz
  have key := persist hN (fun fuel c => chip_tally (play_rawWrite r fuel frame) (f := fun x => (bare x).toList)
    (fun w p => FailStop.bare (fs_raw_writeFrame fuel r frame) w) (⟨sched, faults⟩ : Plan E) c) ht h1
  exact ⟨key.1, c'', h1, key.2, h2⟩

/-- C136, `read_frame`. -/
theorem C136_raw_read {r : RawDevice} {c0 c c' : Chip} {sent : List (List U8)} {got : List RawGot} (ho : RawOpened sched0 faults0 r c0)
    (hr : RawRough sched faults r c0 sent got c) (buf0 buf : List U8) {N k : Nat} (hN : AtMost N faults)
    (ht : Tries (fun fuel => r.readFrame (Chip.dev sched faults).bus fuel) bare Prod.snd (fun _ => 4) k (buf0, c) (buf, c'))
    (f : List U8) (rest : List (List U8)) (hq : (c'.socks 0).Frames (f :: rest)) :
    k ≤ N ∧ ∃ j buf' c'', SucceedsUnless faults Prod.snd bare (fun fuel => r.readFrame (Chip.dev sched faults).bus fuel) (buf, c') j (buf', c'') ∧
      (k = N → Succeeds (fun fuel => r.readFrame (Chip.dev sched faults).bus fuel) (buf, c') j (buf', c'')) ∧ RawGot.Brings ⟨buf, j, buf'⟩ f := by
  have hr' : RawRough sched faults r c0 sent got c' := by
    clear hq
    suffices H : ∀ s s', Tries (fun fuel => r.readFrame (Chip.dev sched faults).bus fuel) bare Prod.snd (fun _ => 4) k s s' →
        RawRough sched faults r c0 sent got s.2 → RawRough sched faults r c0 sent got s'.2 from H _ _ ht hr
    clear ht
    intro s s' h
    induction h with
    | none => exact id
    | again fuel e _ h1 h2 h3 ih => exact fun h => .failedRead fuel _ _ _ (ih h) h1 (fun _ h => by rw [h] at h2; cases h2) h3
  obtain ⟨j, buf', c'', h1, h2⟩ := C135_raw_read ho hr' f rest hq buf
  have key := persist hN (fun fuel s => tally_read ⟨sched, faults⟩ r fuel s) ht h1
  exact ⟨key.1, j, buf', c'', h1, key.2, h2⟩

/-! Cases: one transfer fails, and the call that meets it is made again. -/

theorem faultAt_once (i : Nat) : AtMost 1 (faultAt i) := ⟨[i], Nat.le_refl _, fun k h => by
  by_cases e : k = i
  · exact List.mem_singleton.mpr e
  · exact absurd (if_neg e) h⟩

example : ∃ (j : Nat) (d' : Device Chip Unit),
    Succeeds (fun fuel => Device.tcpSend (Chip.dev drainSched (faultAt 15)).bus fuel ⟨Socket.new (BitVec.ofNat 8 0)⟩ [7, 8, 9]) halfSent j d' ∧
    (d'.bus.socks 0).stream ++ (d'.bus.socks 0).pending = [7, 8, 9].take j := by
  obtain ⟨_, j, d', _, h1, _, h2⟩ := C136_tcp_send (n := 0) (by decide) 100 demoRemote demoDevice drainConnected drainConnected halfSent powerUp_sizes
    drain_connect [] [] (.start (sched := drainSched) (faults := faultAt 15)) [7, 8, 9] (faultAt_once 15) (.again 9 () .none half_sent rfl (by decide +kernel))
    (fun k x _ h => drain_status k x h) (by decide +kernel) drain_confirming
  rw [show (drainConnected.bus.socks 0).stream = [] by decide +kernel] at h2
  exact ⟨j, d', h1 rfl, h2⟩

example := C136_tcp_receive (n := 0) (by decide) 100 demoRemote demoDevice demoConnected demoArrived halfReceived.2 powerUp_sizes demo_connect [] []
  (.other (.start (sched := demoSched) (faults := faultAt 18)) demo_arrives) [9, 9] halfReceived.1 (faultAt_once 18)
  (.again 9 () .none half_received rfl (by decide +kernel)) (fun k x _ h => demo_status k x h) (by decide +kernel)

example : ∃ d' : Device Chip Unit, Succeeds (fun fuel => Device.udpSend (Chip.dev emitSched (faultAt 13)).bus fuel (udpConnected noFaults).1 [7, 8, 9])
    halfUdp () d' := by
  obtain ⟨_, d', _, h1, _⟩ := C136_udp_send (n := 0) (by decide) demo_opened (.start (sched := emitSched) (faults := faultAt 13)) addrA
    (by decide +kernel) [7, 8, 9] (faultAt_once 13) (.again 9 () .none half_udp rfl (by decide +kernel)) (fun k x _ h => emit_status (p := (· = 0x22)) k x h)
    (fun k _ => emit_lossless k) emit_emitting (by decide +kernel) (by unfold Sock.NoTimeout; decide +kernel)
  exact ⟨d', h1 rfl⟩

example := C136_udp_receive (n := 0) (by decide) arrive_opened (.other (.start (sched := arriveSched [dgramA, dgramB]) (faults := faultAt 14)) arrive_arrives)
  [9, 9] halfDgram.1 (faultAt_once 14) (.again 9 () .none half_dgram rfl (by decide +kernel)) dgramA [dgramB]
  ⟨by simp [Dgram.Wf, dgramA, dgramB], by decide +kernel⟩ (by decide +kernel)
  (fun k x _ h => by unfold arriveSched at h; split at h <;> simp at h) (by decide +kernel) (by decide +kernel) (by decide +kernel)

example : ∃ c', Succeeds (fun fuel => rawDemo.writeFrame (Chip.dev frameSched (faultAt 20)).bus fuel [7, 8]) halfWritten 2 c' ∧
    (c'.socks 0).packets.map Packet.data = [[7, 8]] := by
  obtain ⟨_, c', _, h1, ps, h2, h3, _⟩ := C136_raw_write rawDemo_opened (.start (sched := frameSched) (faults := faultAt 20)) [7, 8] (faultAt_once 20)
    (.again 9 () .none half_written rfl (by decide +kernel)) (frame_lossless _) frame_emitting frame_confirming (by simp) (by simp)
  refine ⟨c', h1 rfl, ?_⟩
  rw [h2, show ((rawChip noFaults).socks 0).packets = [] by decide +kernel]
  exact h3

example := C136_raw_read rawDemo_opened (.other (.start (sched := frameSched) (faults := faultAt 22)) frame_arrives) [9, 9] halfFrame.1 (faultAt_once 22)
  (.again 9 () .none half_frame rfl (by decide +kernel)) [1, 2, 3, 4] [[5, 6]] ⟨by simp, by decide +kernel⟩

/-- Two transfers fail. The first attempt meets one in its second transfer, the second attempt the other one in its eighth; the third is successful. -/
theorem weary_twice : AtMost 2 wearyFaults := ⟨[9, 17], Nat.le_refl _, fun k h => by
  by_cases e : k = 9 ∨ k = 17
  · rcases e with rfl | rfl <;> simp
  · exact absurd (if_neg e) h⟩
def weary4 : UdpSocket × Device Chip Unit := (Device.udpSendTo (Chip.dev emitSched wearyFaults).bus 9 (.v4 addrB) [7, 8, 9] weary1).2
theorem weary_4 : Device.udpSendTo (Chip.dev emitSched wearyFaults).bus 9 (.v4 addrB) [7, 8, 9] (weary1.1, weary1.2) =
    (.err (.other (.other ())), (weary4.1, weary4.2)) := by
  unfold weary4
  exact run_eta (by decide +kernel)
attribute [irreducible] weary4

example : ∃ d' : Device Chip Unit, Succeeds (fun fuel => Device.udpSendTo (Chip.dev emitSched wearyFaults).bus fuel (.v4 addrB) [7, 8, 9])
    (weary4.1, weary4.2) () ({ weary4.1 with destination := some addrB }, d') := by
  obtain ⟨_, d', _, h1, _⟩ := C136_udp_send_to (n := 0) (by decide) demo_opened (.start (sched := emitSched) (faults := wearyFaults)) addrB (.inl rfl)
    [7, 8, 9] weary_twice (.again 9 () (.again 9 () .none weary_1 rfl (by decide +kernel)) weary_4 rfl (by decide +kernel))
    (fun k x _ h => emit_status (p := (· = 0x22)) k x h) (fun k _ => emit_lossless k) emit_emitting (by decide +kernel)
    (by unfold Sock.NoTimeout; decide +kernel)
  exact ⟨d', h1 rfl⟩

-- between the two failures
example := C135_udp_send_to (n := 0) (by decide) demo_opened (.failedSendTo 9 addrB [7, 8, 9] _ (.start (sched := emitSched) (faults := wearyFaults))
  (.inl rfl) weary_1 nofun (by decide +kernel)) addrB (.inr (.inl rfl)) [7, 8, 9] (fun k x _ h => emit_status (p := (· = 0x22)) k x h)
  (fun k _ => emit_lossless k) emit_emitting (by decide +kernel) (by unfold Sock.NoTimeout; decide +kernel)

end W5500.Props
