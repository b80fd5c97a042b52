import Verif.Props.Wakeup
import Verif.Props.WriteAll
import Verif.Proofs.ReadAll
import Verif.Proofs.Fill
/-! # Reading a given number of bytes from a TCP connection

C96 A client that calls the TCP `receive` again and again for the rest of the bytes it needs gets them all, in order and
without gaps, after finitely many calls, if the peer keeps sending.

It is false: `receive` clears the RECV interrupt after it has made room, and looks at nothing but that interrupt. If the RX
buffer fills up in between, no further byte can arrive, so RECV is never raised again. -/

namespace W5500.Props
open W5500.Spec Sock
variable {W E H : Type} {sched : Nat → List (Nat × Act)} {faults : Nat → Option (E × Nat)}
  {sched0 : Nat → List (Nat × Act)} {faults0 : Nat → Option (E × Nat)}

/-- C96, the trap: once the RX buffer of a TCP connection is full and unannounced, no number of `receive` calls, with
whatever buffers, brings a byte, whatever the peer sends, and the loop does not end. -/
theorem C96_jam {n : Nat} (hn : n < 8) (hb : OnlyForBytes sched n) (fuel : Nat) (remote : SockAddr) (d0 d1 d : Device Chip H)
    (hz : SizesOk (d0.bus.socks n).mem)
    (hconn : Device.tcpConnect (Chip.dev sched0 faults0).bus fuel ⟨Socket.new (BitVec.ofNat 8 n)⟩ remote d0 = (.ok (), d1))
    (acc del : List U8) (hrun : TcpRun sched faults n d1.bus acc del d.bus) (hj : (d.bus.socks n).Jammed) :
    (∀ polls, let r := tcpPolls (Chip.dev sched faults).bus ⟨Socket.new (BitVec.ofNat 8 n)⟩ polls d
      (∀ k, .ok k ∈ r.1 → k = 0) ∧ (r.2.bus.socks n).queue = (d.bus.socks n).queue) ∧
    ∀ want, 0 < want → ∀ f r x d',
      receiveWhole (Device.tcpReceive (Chip.dev sched faults).bus f ⟨Socket.new (BitVec.ofNat 8 n)⟩) r want d ≠ (.ok x, d') := by
  obtain ⟨_, _, ⟨S, A, hfr⟩, _⟩ := tcpConnect_idle hn hz hconn
  have h0 := tcpRun_idle hn hrun hfr.1
  have hS : At n (Stuck (d.bus.socks n).queue) d.bus :=
    ⟨h0.tx.tcp, h0.rx.core.rxFits, hj.1, unannounced_iff.mp hj.2, rfl⟩
  have hT := stuck_ticks hb (d.bus.socks n).queue
  refine ⟨fun polls => ?_, fun want hw f r => ?_⟩
  · have := tcp_polls_unheard (faults := faults) hn hT (fun c h => h.2.2.2.1) polls d hS
    exact ⟨this.1, this.2.2.2.2.2⟩
  · generalize (d.bus.socks n).queue = q at hS hT
    clear hj h0 hrun
    induction r generalizing d with
    | zero => intro x d' h; exact nomatch h
    | succ r ih =>
      intro x d' h
      unfold receiveWhole at h
      rw [if_neg (by omega)] at h
      obtain ⟨⟨k, buf⟩, d2, h1, h2⟩ := M.bind_eq_ok.mp h
      dsimp only at h2
      obtain ⟨more, d3, h2, _⟩ := M.bind_eq_ok.mp h2
      have h3 := M.withLocal_eq_ok.mp h1
      obtain ⟨rfl, _, h4⟩ := (tcp_receive_unheard (faults := faults) hn hT (fun c h => h.2.2.2.1) f _).ok
        (s := (_, d.bus)) ⟨rfl, hS⟩ (onSockBus_run h3)
      exact ih d2 h4 _ _ h2

/-- C96, partial. After a `connect` and any calls: on a chip whose transfers do not fail, with a connection that stays and a
peer that keeps sending, the loop that reads `want` bytes ends, all calls having returned `Ok`, with exactly the next `want`
bytes of what has arrived and arrives; or, after some of the bytes, the RX buffer is full and unannounced when a call
returns, and the loop does not end. The latter happens only if it was so from the start, or as much as the whole RX buffer
holds comes in a stretch of `min want rxSize + 10` SPI bytes. Missing: that it does not happen; see `C96_refuted`. -/
theorem C96_partial {n : Nat} (hn : n < 8) (hf : ∀ i, faults i = none) (hs : StatusIn sched n (· = 0x17))
    (hfeed : Feeding sched n) (hb : OnlyForBytes sched n) (fuel : Nat) (remote : SockAddr) (d0 d1 d : Device Chip H)
    (hz : SizesOk (d0.bus.socks n).mem)
    (hconn : Device.tcpConnect (Chip.dev sched0 faults0).bus fuel ⟨Socket.new (BitVec.ofNat 8 n)⟩ remote d0 = (.ok (), d1))
    (acc del : List U8) (hrun : TcpRun sched faults n d1.bus acc del d.bus)
    (hsr : (d.bus.socks n).sr = 0x17) (want : Nat) :
    (∃ (got : List U8) (d' : Device Chip H),
      Succeeds (fun fuel => receiveWhole (Device.tcpReceive (Chip.dev sched faults).bus fuel ⟨Socket.new (BitVec.ofNat 8 n)⟩) fuel want)
        d got d' ∧ got.length = want ∧
      (∃ before, (d.bus.socks n).arrived = before ++ (d.bus.socks n).queue ∧
        (d'.bus.socks n).arrived = before ++ got ++ (d'.bus.socks n).queue) ∧
      TcpRun sched faults n d1.bus acc (del ++ got) d'.bus ∧ (d'.bus.socks n).sr = 0x17) ∨
    (∃ (got : List U8) (d' : Device Chip H), got.length < want ∧ TcpRun sched faults n d1.bus acc (del ++ got) d'.bus ∧
      (d'.bus.socks n).Jammed ∧
      (∀ f r x d'', receiveWhole (Device.tcpReceive (Chip.dev sched faults).bus f ⟨Socket.new (BitVec.ofNat 8 n)⟩) r want d ≠
        (.ok x, d'')) ∧
      ((d.bus.socks n).Jammed ∨ ∃ t, d.bus.clock ≤ t ∧
        (d.bus.socks n).rxSize ≤ load sched n t (min want (d.bus.socks n).rxSize + 10))) := by
  obtain ⟨_, _, ⟨S, A, hfr⟩, _⟩ := tcpConnect_idle hn hz hconn
  have idle := fun {del : List U8} {d : Device Chip H} (h : TcpRun sched faults n d1.bus acc del d.bus) => tcpRun_idle hn h hfr.1
  let call := fun f => (Device.tcpReceive (Chip.dev sched faults).bus f ⟨Socket.new (BitVec.ofNat 8 n)⟩ :
    M (List U8 × Device Chip H) (TcpSocketError E) Nat)
  let G : List U8 → Device Chip H → Nat → Prop := fun del d want =>
    (∃ (got : List U8) (d' : Device Chip H) (N : Nat),
      (∀ f r, N ≤ f → N ≤ r → receiveWhole (call f) r want d = (.ok got, d')) ∧ got.length = want ∧
      TcpRun sched faults n d1.bus acc (del ++ got) d'.bus ∧ (d'.bus.socks n).sr = 0x17) ∨
    (∃ (got : List U8) (d' : Device Chip H), got.length < want ∧ TcpRun sched faults n d1.bus acc (del ++ got) d'.bus ∧
      (d'.bus.socks n).Jammed ∧ (∀ f r x d'', receiveWhole (call f) r want d ≠ (.ok x, d'')) ∧
      ((d.bus.socks n).Jammed ∨ ∃ t, d.bus.clock ≤ t ∧ (d.bus.socks n).rxSize ≤ load sched n t (min want (d.bus.socks n).rxSize + 10)))
  suffices key : G del d want by
    rcases key with ⟨got, d', N, h1, h2, h3, h4⟩ | h
    · refine .inl ⟨got, d', ⟨nofun, N, fun f hf => h1 f f hf hf⟩, h2, ⟨A ++ del, (idle hrun).rx.core.arrived, ?_⟩, h3, h4⟩
      rw [(idle h3).rx.core.arrived, ← List.append_assoc A]
    · exact .inr h
  -- a call that does not fill the buffer
  have leaves : ∀ del (d : Device Chip H) (want k N : Nat) (buf' : List U8) (d2 : Device Chip H),
      TcpRun sched faults n d1.bus acc del d.bus → call N (List.replicate want 0, d) = (.ok k, (buf', d2)) → buf'.length = want → k < want →
      ((d2.bus.socks n).Jammed ∨ ∃ t, d2.bus.clock ≤ t ∧
        (d2.bus.socks n).rxSize ≤ load sched n t (min (want - k) (d2.bus.socks n).rxSize + 10)) →
      (d.bus.socks n).Jammed ∨ ∃ t, d.bus.clock ≤ t ∧ (d.bus.socks n).rxSize ≤ load sched n t (min want (d.bus.socks n).rxSize + 10) := by
    intro del d want k N buf' d2 hr hcall hl hk h
    have hz := tcpReceive_rxSize hn hcall
    rcases h with h | ⟨t, h1, h2⟩
    · have hlen : (buf'.take k).length = k := by rw [List.length_take]; omega
      have := tcp_leaves hn hf (idle hr) (idle (.receive N _ buf' k hr hcall)) (by simp only [List.length_append]; omega) hcall
        (by rw [List.length_replicate]; exact hk) h
      rw [List.length_replicate, h.1, hz] at this
      exact this
    · rw [hz] at h2
      exact .inr ⟨t, Nat.le_trans (tcpReceive_clock hf hcall) h1, Nat.le_trans h2 (load_mono (by omega))⟩
  -- one call
  have step : ∀ del (d : Device Chip H) (want : Nat), 0 < want → TcpRun sched faults n d1.bus acc del d.bus →
      (d.bus.socks n).sr = 0x17 → (∀ (k : Nat) (buf' : List U8) (d2 : Device Chip H) (N : Nat),
        call N (List.replicate want 0, d) = (.ok k, (buf', d2)) →
        ((d.bus.socks n).Announced → min want (d.bus.socks n).rsr.toNat ≤ k) → k ≤ want →
        TcpRun sched faults n d1.bus acc (del ++ buf'.take k) d2.bus → (d2.bus.socks n).sr = 0x17 →
        G (del ++ buf'.take k) d2 (want - k)) → G del d want := by
    intro del d want hw hr hsr hrest
    obtain ⟨k, buf', d2, ⟨_, N, hN⟩, hk, hk1, hk2, _, hsr2⟩ :=
      C76_tcp_receive hn hf hs fuel remote d0 d1 d hz hconn acc del hr hsr (List.replicate want 0)
    rw [List.length_replicate] at hk hk1 hk2
    rw [Sock.queue_length] at hk
    have h2 := hN N (Nat.le_refl _)
    have hann : (d.bus.socks n).Announced → (d.bus.socks n).ir &&& 4 ≠ 0 := by
      intro h e
      have := congrArg (fun x : U8 => x.getLsbD 2) e
      rw [BitVec.getLsbD_and, show (d.bus.socks n).ir.getLsbD 2 = true from h] at this
      exact nomatch this
    rcases hrest k buf' d2 N h2 (fun h => hk (hann h)) hk1 (.receive N _ buf' k hr h2) hsr2 with
      ⟨got, d', N', hN', g1, g2, g3⟩ | ⟨got, d', g1, g2, g3, g4, g5⟩
    · refine .inl ⟨buf'.take k ++ got, d', max N N' + 1, fun f r hf hr => ?_, ?_, ?_, g3⟩
      · obtain ⟨r', rfl⟩ : ∃ r', r = r' + 1 := ⟨r - 1, by omega⟩
        unfold receiveWhole
        rw [if_neg (by omega)]
        refine M.bind_eq_ok.mpr ⟨(k, buf'), d2, M.withLocal_eq_ok.mpr (hN f (by omega)), ?_⟩
        exact M.bind_eq_ok.mpr ⟨got, d', hN' f r' (by omega) (by omega), rfl⟩
      · rw [List.length_append, List.length_take]; omega
      · rw [← List.append_assoc]; exact g2
    · refine .inr ⟨buf'.take k ++ got, d', ?_, by rw [← List.append_assoc]; exact g2, g3, fun f r x d'' h => ?_,
        leaves del d want k N buf' d2 hr h2 hk2 (by omega) g5⟩
      · rw [List.length_append, List.length_take]; omega
      · cases r with
        | zero => exact nomatch h
        | succ r =>
          unfold receiveWhole at h
          rw [if_neg (by omega)] at h
          obtain ⟨⟨k3, buf3⟩, d3, h3, h4⟩ := M.bind_eq_ok.mp h
          have h3 : Device.tcpReceive (Chip.dev sched faults).bus f ⟨Socket.new (BitVec.ofNat 8 n)⟩ (List.replicate want 0, d) =
            (.ok k3, (buf3, d3)) := M.withLocal_eq_ok.mp h3
          have h5 := (le_tcpReceive (B := (Chip.dev sched faults).bus) (H := H) ⟨Socket.new (BitVec.ofNat 8 n)⟩
            (Nat.le_max_left f N)).run (List.replicate want 0, d) (by rw [h3]; nofun)
          have h6 := (hN _ (Nat.le_max_right f N)).symm.trans (h5.trans h3)
          cases h6
          dsimp only at h4
          obtain ⟨more, d4, h4, _⟩ := M.bind_eq_ok.mp h4
          exact g4 f r _ _ h4
  -- fewer bytes first
  induction want using Nat.strongRecOn generalizing del d with
  | ind want ih =>
    by_cases hw : want = 0
    · subst hw
      refine .inl ⟨[], d, 1, fun f r _ hr => ?_, rfl, by rw [List.append_nil]; exact hrun, hsr⟩
      obtain ⟨r', rfl⟩ : ∃ r', r = r' + 1 := ⟨r - 1, by omega⟩
      rfl
    have stepK : ∀ del (d : Device Chip H), TcpRun sched faults n d1.bus acc del d.bus → (d.bus.socks n).sr = 0x17 →
        (∀ (buf' : List U8) (d2 : Device Chip H) (N : Nat), call N (List.replicate want 0, d) = (.ok 0, (buf', d2)) →
          ((d.bus.socks n).Announced → (d.bus.socks n).rsr.toNat = 0) →
          TcpRun sched faults n d1.bus acc del d2.bus → (d2.bus.socks n).sr = 0x17 → G del d2 want) → G del d want := by
      intro del d hr hsr h0
      refine step del d want (by omega) hr hsr fun k buf' d2 N hcall hk hk' hr2 hsr2 => ?_
      by_cases hk0 : k = 0
      · subst hk0
        rw [List.take_zero, List.append_nil] at hr2 ⊢
        exact h0 buf' d2 N hcall (fun h => by have := hk h; omega) hr2 hsr2
      · exact ih (want - k) (by omega) d2 _ hr2 hsr2
    have hne : List.replicate want (0 : U8) ≠ [] := fun h => hw (List.replicate_eq_nil_iff _ |>.mp h)
    -- something is announced or there is room: wait for the next byte
    have wait : ∀ (l : Nat) (b : U8), (n, .arrive [b]) ∈ sched l → ∀ r del (d : Device Chip H),
        TcpRun sched faults n d1.bus acc del d.bus → (d.bus.socks n).sr = 0x17 →
        Hopeful (d.bus.socks n) ∧ (l < d.bus.clock → (d.bus.socks n).Announced) → l + 1 - d.bus.clock ≤ r → G del d want := by
      intro l b ha r
      induction r with
      | zero =>
        intro del d hr hsr hI ht
        refine stepK del d hr hsr fun buf' d2 N _ h0 _ _ => ?_
        have := hI.2 (by omega)
        have := hI.1.some this
        have := h0 (hI.2 (by omega))
        omega
      | succ r ihr =>
        intro del d hr hsr hI ht
        refine stepK del d hr hsr fun buf' d2 N hcall _ hr2 hsr2 => ?_
        obtain ⟨h1, h2⟩ := zero_recv hn (feeding_ticks hb ha) (fun c h => h.1) hne hI (onSockBus_run hcall)
        exact ihr del d2 hr2 hsr2 h1 (by omega)
    refine stepK del d hrun hsr fun buf' d2 N hcall _ hr2 hsr2 => ?_
    have hun := C77_tcp_unannounced hn N _ buf' d d2 0 hcall
    have hi := idle hr2
    by_cases hfull : (d2.bus.socks n).rsr.toNat = (d2.bus.socks n).rxSize
    · refine .inr ⟨[], d2, by simp only [List.length_nil]; omega, by rw [List.append_nil]; exact hr2, ⟨hfull, hun⟩, ?_⟩
      exact ⟨(C96_jam hn hb fuel remote d0 d1 d2 hz hconn acc del hr2 ⟨hfull, hun⟩).2 want (by omega), .inl ⟨hfull, hun⟩⟩
    · obtain ⟨l, hl, b, ha⟩ := hfeed d2.bus.clock
      have := hi.rx.core.fits
      exact wait l b ha _ del d2 hr2 hsr2 ⟨⟨hi.tx.tcp, hi.rx.core.rxFits, fun h => absurd h hun, .inr (by omega)⟩,
        fun h => by omega⟩ (Nat.le_refl _)

/-- C96 at a bounded pace: if the RX buffer is not full and unannounced when the loop starts, and never as much as it holds comes in a
stretch of `min want rxSize + 10` SPI bytes, then the loop ends with the next `want` bytes. -/
theorem C96_paced {n : Nat} (hn : n < 8) (hf : ∀ i, faults i = none) (hs : StatusIn sched n (· = 0x17))
    (hfeed : Feeding sched n) (hb : OnlyForBytes sched n) (fuel : Nat) (remote : SockAddr) (d0 d1 d : Device Chip H)
    (hz : SizesOk (d0.bus.socks n).mem)
    (hconn : Device.tcpConnect (Chip.dev sched0 faults0).bus fuel ⟨Socket.new (BitVec.ofNat 8 n)⟩ remote d0 = (.ok (), d1))
    (acc del : List U8) (hrun : TcpRun sched faults n d1.bus acc del d.bus)
    (hsr : (d.bus.socks n).sr = 0x17) (want : Nat) (hj : ¬ (d.bus.socks n).Jammed)
    (hload : ∀ t, d.bus.clock ≤ t → load sched n t (min want (d.bus.socks n).rxSize + 10) < (d.bus.socks n).rxSize) :
    ∃ (got : List U8) (d' : Device Chip H),
      Succeeds (fun fuel => receiveWhole (Device.tcpReceive (Chip.dev sched faults).bus fuel ⟨Socket.new (BitVec.ofNat 8 n)⟩) fuel want)
        d got d' ∧ got.length = want ∧
      (∃ before, (d.bus.socks n).arrived = before ++ (d.bus.socks n).queue ∧
        (d'.bus.socks n).arrived = before ++ got ++ (d'.bus.socks n).queue) ∧
      TcpRun sched faults n d1.bus acc (del ++ got) d'.bus ∧ (d'.bus.socks n).sr = 0x17 := by
  rcases C96_partial hn hf hs hfeed hb fuel remote d0 d1 d hz hconn acc del hrun hsr want with h | ⟨_, _, _, _, _, _, h | ⟨t, h1, h2⟩⟩
  · exact h
  · exact absurd h hj
  · exact absurd (hload t h1) (by omega)

/-! ## Concrete cases -/

/-- What fills the RX buffer. -/
def floodBytes : List U8 := List.replicate 2048 7

/-- As `demoSched`, but 2048 bytes arrive at once, and then the peer tries another byte before every SPI byte. -/
def floodSched (k : Nat) : List (Nat × Act) :=
  if k < 16 then [] else [(0, .status 0x17), (0, .raise 0x10), (0, .arrive (if k = 16 then floodBytes else [9]))]

theorem flood_mem {k : Nat} {a : Act} (h : (0, a) ∈ floodSched k) :
    a = .status 0x17 ∨ a = .raise 0x10 ∨ a = .arrive floodBytes ∨ a = .arrive [9] := by
  unfold floodSched at h
  split at h
  · exact nomatch h
  · simp only [List.mem_cons, Prod.mk.injEq, List.not_mem_nil, or_false, true_and] at h
    rcases h with h | h | h
    · exact .inl h
    · exact .inr (.inl h)
    · right; right
      split at h
      · exact .inl h
      · exact .inr h

theorem flood_status : StatusIn floodSched 0 (· = 0x17) := fun k x h => by
  rcases flood_mem h with h | h | h | h <;> cases h
  rfl

theorem flood_feeding : Feeding floodSched 0 := fun k =>
  ⟨k + 18, by omega, 9, by unfold floodSched; rw [if_neg (by omega), if_neg (by omega)]; simp⟩

theorem flood_bytes : OnlyForBytes floodSched 0 := fun k a h => by
  rcases flood_mem h with rfl | rfl | rfl | rfl
  · exact ⟨nofun, nofun⟩
  · exact ⟨nofun, fun b e => by cases e; rfl⟩
  · exact ⟨fun e => by injection e with e; exact absurd (List.replicate_eq_nil_iff _ |>.mp e) (by decide), nofun⟩
  · exact ⟨nofun, nofun⟩

def floodConnected : Device Chip Unit :=
  (Device.tcpConnect (Chip.dev floodSched noFaults).bus 100 demoSocket demoRemote demoDevice).2

theorem flood_connect : Device.tcpConnect (Chip.dev floodSched noFaults).bus 100 demoSocket demoRemote demoDevice =
    (.ok (), floodConnected) := by
  rw [floodConnected]
  exact run_eq (by decide +kernel)

def floodRead : Device Chip Unit :=
  (Device.tcpReceive (Chip.dev floodSched noFaults).bus 9 demoSocket ([0], floodConnected)).2.2

theorem flood_read : Device.tcpReceive (Chip.dev floodSched noFaults).bus 9 demoSocket ([0], floodConnected) =
    (.ok 1, ([7], floodRead)) := by
  have h : (Device.tcpReceive (Chip.dev floodSched noFaults).bus 9 demoSocket ([0], floodConnected)).1 = .ok 1 ∧
    (Device.tcpReceive (Chip.dev floodSched noFaults).bus 9 demoSocket ([0], floodConnected)).2.1 = [7] := by decide +kernel
  exact Prod.ext h.1 (Prod.ext h.2 rfl)

/-- C96 is false: the RX buffer is full, and the peer tries another byte before every SPI byte. A first `receive` takes one
byte. The next one is stored before RECV is cleared, so that the buffer is full again and unannounced: neither any number of
further `receive` calls nor the loop ever brings another byte, although the connection stays established. -/
theorem C96_refuted :
    StatusIn floodSched 0 (· = 0x17) ∧ Feeding floodSched 0 ∧ OnlyForBytes floodSched 0 ∧
    Device.tcpConnect (Chip.dev floodSched noFaults).bus 100 demoSocket demoRemote demoDevice = (.ok (), floodConnected) ∧
    Device.tcpReceive (Chip.dev floodSched noFaults).bus 9 demoSocket ([0], floodConnected) = (.ok 1, ([7], floodRead)) ∧
    (∀ polls, ∀ k, .ok k ∈ (tcpPolls (Chip.dev floodSched noFaults).bus demoSocket polls floodRead).1 → k = 0) ∧
    ∀ want, 0 < want → ∀ f r x d',
      receiveWhole (Device.tcpReceive (Chip.dev floodSched noFaults).bus f demoSocket) r want floodRead ≠ (.ok x, d') := by
  have := C96_jam (n := 0) (by decide) flood_bytes 100 demoRemote demoDevice floodConnected floodRead powerUp_sizes
    flood_connect [] ([] ++ [7]) (.receive 9 [0] [7] 1 .start flood_read) (by decide +kernel)
  exact ⟨flood_status, flood_feeding, flood_bytes, flood_connect, flood_read, fun polls => (this.1 polls).1, this.2⟩

/-- From the time of the connection on, a byte arrives before every fiftieth SPI byte. -/
def dripSched (k : Nat) : List (Nat × Act) :=
  if k < 16 then [] else (0, .status 0x17) :: if k % 50 = 0 then [(0, .arrive [BitVec.ofNat 8 (k / 50)])] else []

theorem drip_mem {k : Nat} {a : Act} (h : (0, a) ∈ dripSched k) : a = .status 0x17 ∨ ∃ b, a = .arrive [b] := by
  unfold dripSched at h
  repeat' split at h
  · exact nomatch h
  · simp only [List.mem_cons, Prod.mk.injEq, List.not_mem_nil, or_false, true_and] at h
    exact h.imp id fun h => ⟨_, h⟩
  · simp only [List.mem_cons, Prod.mk.injEq, List.not_mem_nil, or_false, true_and] at h
    exact .inl h

def dripConnected : Device Chip Unit :=
  (Device.tcpConnect (Chip.dev dripSched noFaults).bus 100 demoSocket demoRemote demoDevice).2

theorem drip_connect : Device.tcpConnect (Chip.dev dripSched noFaults).bus 100 demoSocket demoRemote demoDevice =
    (.ok (), dripConnected) := by
  rw [dripConnected]
  exact run_eq (by decide +kernel)

theorem drip_loop : (receiveWhole (Device.tcpReceive (Chip.dev dripSched noFaults).bus 9 demoSocket) 200 3 dripConnected).1 =
    .ok [1, 2, 3] := by decide +kernel

/-- C96_partial: three bytes are read, though most calls return 0. -/
example : ∃ got d', Succeeds (fun fuel =>
    receiveWhole (Device.tcpReceive (Chip.dev dripSched noFaults).bus fuel demoSocket) fuel 3) dripConnected got d' ∧ got.length = 3 := by
  rcases C96_partial (n := 0) (sched := dripSched) (faults := noFaults) (by decide) (fun _ => rfl)
    (fun k x h => by
      rcases drip_mem h with h | ⟨b, h⟩ <;> cases h
      rfl)
    (fun k => ⟨50 * (k + 1), by omega, BitVec.ofNat 8 (50 * (k + 1) / 50), by unfold dripSched; rw [if_neg (by omega), if_pos (by omega)]; simp⟩)
    (fun k a h => by
      rcases drip_mem h with rfl | ⟨b, rfl⟩
      · exact ⟨nofun, nofun⟩
      · exact ⟨nofun, nofun⟩)
    100 demoRemote demoDevice dripConnected dripConnected powerUp_sizes drip_connect [] [] .start (by decide +kernel) 3 with
    ⟨got, d', h1, h2, _⟩ | ⟨_, _, _, _, _, h, _⟩
  · exact ⟨got, d', h1, h2⟩
  · have e : ∀ x : Res (TcpSocketError Unit) (List U8) × Device Chip Unit, x.1 = .ok [1, 2, 3] → x = (.ok [1, 2, 3], x.2) := fun x h => by
      rw [← h]
    exact absurd (e _ drip_loop) (h 9 200 _ _)

theorem drip_load (t g : Nat) : load dripSched 0 t g ≤ (t + g + 49) / 50 - (t + 49) / 50 := by
  induction g with
  | zero => exact Nat.zero_le _
  | succ g ih =>
    have h : need 0 (dripSched (t + g)) ≤ if (t + g) % 50 = 0 then 1 else 0 := by
      unfold dripSched
      repeat' split
      all_goals simp [need]
    unfold load
    split at h <;> omega

/-- C96_paced: any number of bytes is read. -/
example (want : Nat) : ∃ got d', Succeeds (fun fuel =>
    receiveWhole (Device.tcpReceive (Chip.dev dripSched noFaults).bus fuel demoSocket) fuel want) dripConnected got d' ∧
    got.length = want := by
  have hd : ¬ (dripConnected.bus.socks 0).Jammed ∧ (dripConnected.bus.socks 0).rxSize = 2048 ∧ (dripConnected.bus.socks 0).sr = 0x17 := by
    decide +kernel
  obtain ⟨got, d', h1, h2, _⟩ := C96_paced (n := 0) (sched := dripSched) (faults := noFaults) (by decide) (fun _ => rfl)
    (fun k x h => by
      rcases drip_mem h with h | ⟨b, h⟩ <;> cases h
      rfl)
    (fun k => ⟨50 * (k + 1), by omega, BitVec.ofNat 8 (50 * (k + 1) / 50), by unfold dripSched; rw [if_neg (by omega), if_pos (by omega)]; simp⟩)
    (fun k a h => by
      rcases drip_mem h with rfl | ⟨b, rfl⟩
      · exact ⟨nofun, nofun⟩
      · exact ⟨nofun, nofun⟩)
    100 demoRemote demoDevice dripConnected dripConnected powerUp_sizes drip_connect [] [] .start hd.2.2 want hd.1
    (fun t _ => by rw [hd.2.1]; have := drip_load t (min want 2048 + 10); omega)
  exact ⟨got, d', h1, h2⟩

end W5500.Props
