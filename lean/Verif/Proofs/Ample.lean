import Verif.Spec.Ample
import Verif.Proofs.Load
import Verif.Proofs.Block
/-! # Buffers that are large enough -/

namespace W5500.Spec
open W5500 socketn Sock
variable {E ε α H : Type} {sched : Nat → List (Nat × Act)} {faults : Nat → Option (E × Nat)} {n : Nat}

theorem ticks_and {I J : Chip → Prop} (h : Chip.Ticks sched I) (h' : Chip.Ticks sched J) : Chip.Ticks sched fun c => I c ∧ J c :=
  ⟨fun c hc => ⟨h.tick c hc.1, h'.tick c hc.2⟩, fun c i hc => ⟨h.txn c i hc.1, h'.txn c i hc.2⟩⟩

/-- What has arrived after the bytes `A` is datagrams of at most `m` bytes of payload. -/
structure Comes (n T z m : Nat) (A : List U8) (c : Chip) : Prop where
  start : T ≤ c.clock
  proto : (c.socks n).proto = 2
  size : (c.socks n).rxSize = z
  list : ∃ l, (c.socks n).arrived = A ++ encAll l ∧ ∀ x ∈ l, x.Wf ∧ x.payload.length ≤ m

/-- An event adds at most one datagram. -/
theorem act_gains {s : Sock} (hp : s.proto = 2) (a : Act) : (s.act a).arrived = s.arrived ∨
    ∃ dg, a = .datagram dg ∧ dg.Wf ∧ dg.encode.length ≤ s.rxSize ∧ (s.act a).arrived = s.arrived ++ dg.encode := by
  cases a with
  | arrive bs => left; simp [act, hp]
  | datagram d =>
    by_cases hw : d.Wf
    · have he : s.act (.datagram d) = s.push d.encode := by simp only [act]; rw [if_pos ⟨hp, hw⟩]
      rw [he]
      by_cases hfit : s.rsr.toNat + d.encode.length ≤ s.rxSize
      · exact .inr ⟨d, rfl, hw, by omega, by rw [push, if_pos hfit]⟩
      · left; rw [push, if_neg hfit]
    · left; simp only [act]; rw [if_neg (fun x => hw x.2)]
  | frame f => left; simp [act, hp]
  | transmit k => left; simp [act, hp]
  | ack k => left; simp [act, hp]
  | emit b => left; simp only [act]; split <;> rfl
  | raise b => exact .inl rfl
  | status x => exact .inl rfl

theorem comes_events {T z m : Nat} {A : List U8} {l : List (Nat × Act)}
    (hl : ∀ dg, (n, .datagram dg) ∈ l → dg.Wf → dg.encode.length ≤ z → dg.payload.length ≤ m) {c : Chip} (h : Comes n T z m A c) :
    Comes n T z m A (l.foldl Chip.event c) := by
  induction l generalizing c with
  | nil => exact h
  | cons e l ih =>
    refine ih (fun dg hd => hl dg (List.mem_cons_of_mem _ hd)) ?_
    obtain ⟨i, a⟩ := e
    by_cases hi : i = n
    · subst hi
      have es : (c.event (i, a)).socks i = (c.socks i).act a := Chip.setSock_self _ _ _
      obtain ⟨l', h1, h2⟩ := h.list
      refine ⟨h.start, by rw [es, act_proto]; exact h.proto, by rw [es, act_rxSize]; exact h.size, ?_⟩
      rw [es]
      rcases act_gains h.proto a with g | ⟨dg, rfl, g1, g2, g3⟩
      · exact ⟨l', by rw [g]; exact h1, h2⟩
      · refine ⟨l' ++ [dg], by rw [g3, h1, encAll_append, encAll_cons]; simp [encAll], fun x hx => ?_⟩
        rcases List.mem_append.mp hx with hx | hx
        · exact h2 x hx
        · rw [List.mem_singleton.mp hx]
          exact ⟨g1, hl dg (List.mem_cons_self ..) g1 (by rw [← h.size]; exact g2)⟩
    · have es : (c.event (i, a)).socks n = c.socks n := Chip.setSock_other _ _ _ _ (Ne.symm hi)
      exact ⟨h.start, by rw [es]; exact h.proto, by rw [es]; exact h.size, by rw [es]; exact h.list⟩

theorem comes_ticks {T z m : Nat} {A : List U8}
    (hl : ∀ k dg, T ≤ k → (n, .datagram dg) ∈ sched k → dg.Wf → dg.encode.length ≤ z → dg.payload.length ≤ m) :
    Chip.Ticks sched (Comes n T z m A) := by
  refine ⟨fun c h => ?_, fun c i h => ⟨h.start, h.proto, h.size, h.list⟩⟩
  have := comes_events (l := sched c.clock) (fun dg => hl _ dg h.start) h
  exact ⟨by rw [Chip.tick_clock]; exact Nat.le_succ_of_le h.start, this.proto, this.size, this.list⟩

/-- Writing registers that do not matter. -/
theorem Comes.poke {T z m : Nat} {A : List U8} {b : BitVec 5} {a : U16} {x : U8} {c : Chip} (h : Comes n T z m A c)
    (h1 : ((c.poke b a x).socks n).proto = (c.socks n).proto) (h2 : ((c.poke b a x).socks n).rxSize = (c.socks n).rxSize)
    (h3 : ((c.poke b a x).socks n).arrived = (c.socks n).arrived) : Comes n T z m A (c.poke b a x) :=
  ⟨by rw [Chip.poke_clock]; exact h.start, h1.trans h.proto, h2.trans h.size, by rw [h3]; exact h.list⟩

theorem getFrames_proto (hn : n < 8) {b : U8} {ad : U16} {d : List U8} (h : GetFrames (sockOf n) b ad d) (i : Nat)
    (hi : i < d.length) (c : Chip) :
    ((c.poke (b.setWidth 5) (ad + BitVec.ofNat 16 i) d[i]).socks n).proto = (c.socks n).proto := by
  cases h with
  | rd x y =>
    refine Chip.poke_reg' (P := fun s => s.proto = (c.socks n).proto) hn ?_
    rcases index_two (by rfl) hi with rfl | rfl <;> rfl
  | ir x =>
    refine Chip.poke_reg' (P := fun s => s.proto = (c.socks n).proto) hn ?_
    obtain rfl := index_one (by rfl) hi
    rfl
  | recv =>
    refine Chip.poke_reg' (P := fun s => s.proto = (c.socks n).proto) hn ?_
    obtain rfl := index_one (by rfl) hi
    rfl

theorem toFrames_arrived (hn : n < 8) {b : U8} {a : U16} {d : List U8} (h : ToFrames (sockOf n) b a d) (i : Nat)
    (hi : i < d.length) (c : Chip) :
    ((c.poke (b.setWidth 5) (a + BitVec.ofNat 16 i) d[i]).socks n).arrived = (c.socks n).arrived ∧
    ((c.poke (b.setWidth 5) (a + BitVec.ofNat 16 i) d[i]).socks n).queue = (c.socks n).queue := by
  cases h with
  | send h =>
    cases h with
    | tx a d => exact Chip.poke_tx' (P := fun s => s.arrived = (c.socks n).arrived ∧ s.queue = (c.socks n).queue) hn ⟨rfl, rfl⟩
    | wr x y =>
      refine Chip.poke_reg' (P := fun s => s.arrived = (c.socks n).arrived ∧ s.queue = (c.socks n).queue) hn ?_
      rcases index_two (by rfl) hi with rfl | rfl <;> exact ⟨rfl, rfl⟩
    | ir x hx =>
      refine Chip.poke_reg' (P := fun s => s.arrived = (c.socks n).arrived ∧ s.queue = (c.socks n).queue) hn ?_
      obtain rfl := index_one (by rfl) hi
      exact ⟨rfl, rfl⟩
    | send =>
      refine Chip.poke_reg' (P := fun s => s.arrived = (c.socks n).arrived ∧ s.queue = (c.socks n).queue) hn ?_
      obtain rfl := index_one (by rfl) hi
      exact ⟨rfl, rfl⟩
  | ip d hd =>
    refine Chip.poke_reg' (P := fun s => s.arrived = (c.socks n).arrived ∧ s.queue = (c.socks n).queue) hn ?_
    obtain rfl | rfl | rfl | rfl : i = 0 ∨ i = 1 ∨ i = 2 ∨ i = 3 := by omega
    all_goals exact ⟨rfl, rfl⟩
  | port d hd =>
    refine Chip.poke_reg' (P := fun s => s.arrived = (c.socks n).arrived ∧ s.queue = (c.socks n).queue) hn ?_
    obtain rfl | rfl : i = 0 ∨ i = 1 := by omega
    all_goals exact ⟨rfl, rfl⟩

/-- What receiving writes. -/
theorem comes_get (hn : n < 8) (hf : ∀ i, faults i = none) {T z m : Nat} {A : List U8} (hT : Chip.Ticks sched (Comes n T z m A))
    {c c' : Chip} (h : Reach (Chip.dev sched faults).bus (GetFrames (sockOf n)) c c') (hc : Comes n T z m A c) : Comes n T z m A c' :=
  reach_ticks hf hT (fun _ _ _ hfr i hi c hc =>
    hc.poke (getFrames_proto hn hfr i hi c) (getFrames_poke hn hfr i hi c).1 (getFrames_poke hn hfr i hi c).2) h hc

theorem comes_receive (hn : n < 8) (hf : ∀ i, faults i = none) {T z m : Nat} {A : List U8} (hT : Chip.Ticks sched (Comes n T z m A))
    {u : UdpSocket} (hu : u.socket = sockOf n) {fuel : Nat} {buf buf' : List U8} {x : Nat × SockAddr} {d d' : Device Chip H}
    (h : Device.udpReceive (Chip.dev sched faults).bus fuel u (buf, d) = (.ok x, (buf', d'))) (hd : Comes n T z m A d.bus) :
    Comes n T z m A d'.bus := by
  unfold Device.udpReceive at h
  have h := onSockBus_run h
  obtain ⟨y, ⟨b1, c1⟩, h, hy⟩ := M.bind_eq_ok.mp h
  cases hy
  rw [receive_split] at h
  obtain ⟨p, ⟨b2, c2⟩, h0, h2⟩ := M.bind_eq_ok.mp h
  obtain ⟨h1, e⟩ := M.onSnd_eq_ok.mp h0
  dsimp only at h1 e
  clear h0 h
  subst e
  have hm := (Props.moves_recvHead (Chip.dev sched faults).bus fuel buf.length u).run d.bus
  rw [h1] at hm
  obtain ⟨q1, q2, q3⟩ := p
  dsimp only at h2
  have hreach := (moves_recvTail (B := (Chip.dev sched faults).bus) u buf.length q1 q2 q3).run (buf, c2)
  rw [h2, hu] at hreach
  exact comes_get hn hf hT hreach (hT.readsOnly hm hd)

/-- What sending writes. -/
theorem comes_to (hn : n < 8) (hf : ∀ i, faults i = none) {T z m : Nat} {A : List U8} (hT : Chip.Ticks sched (Comes n T z m A))
    {c c' : Chip} (h : Reach (Chip.dev sched faults).bus (ToFrames (sockOf n)) c c') (hc : Comes n T z m A c) : Comes n T z m A c' :=
  reach_ticks hf hT (fun _ _ _ hfr i hi c hc =>
    hc.poke (toFrames_sameRx hn hfr i hi c).proto (toFrames_sameRx hn hfr i hi c).size (toFrames_arrived hn hfr i hi c).1) h hc

/-- Sending leaves alone what waits. -/
theorem core_to (hn : n < 8) (hf : ∀ i, faults i = none) {A : List U8} {c c' : Chip}
    (h : Reach (Chip.dev sched faults).bus (ToFrames (sockOf n)) c c') (hc : RxCore A (c.socks n)) : RxCore A (c'.socks n) :=
  reach_ticks (I := At n (RxCore A)) hf (stable_rxCore A).stays.ticks (fun _ _ _ hfr i hi c hc =>
    have e := toFrames_sameRx hn hfr i hi c
    have e' := toFrames_arrived hn hfr i hi c
    ⟨by rw [e.size]; exact hc.size, by rw [e.size, e.rsr]; exact hc.fits, by rw [e'.1, e'.2]; exact hc.arrived⟩) h hc

end W5500.Spec
