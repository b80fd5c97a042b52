import Verif.Spec.UdpHistory
import Verif.Proofs.ChipUdp
import Verif.Proofs.ChipMoves
/-! # Datagram queue, opening and destination of a UDP socket on the chip -/

namespace W5500.Spec
open W5500 socketn Sock
variable {E ε α : Type} {sched : Nat → List (Nat × Act)} {faults : Nat → Option (E × Nat)}

/-! ## The queue -/

theorem encAll_append (a b : List Dgram) : encAll (a ++ b) = encAll a ++ encAll b := by
  simp [encAll]

theorem encAll_cons (d : Dgram) (ds : List Dgram) : encAll (d :: ds) = d.encode ++ encAll ds := by
  simp [encAll]

/-- An event on a UDP socket adds at most one datagram. -/
theorem act_queued {qs : List Dgram} {s : Sock} (hp : s.proto = 2) (hf : RxFits s) (h : Queued qs s) (a : Act) :
    ∃ more, Queued (qs ++ more) (s.act a) := by
  have same : (s.act a).rxMem = s.rxMem → (s.act a).rxRd = s.rxRd → (s.act a).rxWr = s.rxWr →
      ∃ more, Queued (qs ++ more) (s.act a) := by
    intro h1 h2 h3
    refine ⟨[], ?_⟩
    rw [List.append_nil]
    refine ⟨h.1, ?_⟩
    rw [← h.2]
    unfold queue rsr
    rw [h1, h2, h3, act_rxSize]
  cases a with
  | arrive bs => apply same <;> simp [act, hp]
  | datagram d =>
    by_cases hw : d.Wf
    · have he : s.act (.datagram d) = s.push d.encode := by simp only [act]; rw [if_pos ⟨hp, hw⟩]
      rw [he]
      by_cases hfit : s.rsr.toNat + d.encode.length ≤ s.rxSize
      · refine ⟨[d], ?_, ?_⟩
        · intro x hx
          rcases List.mem_append.mp hx with hx | hx
          · exact h.1 x hx
          · rw [List.mem_singleton.mp hx]; exact hw
        · rw [(push_queue hf hfit).1, h.2, encAll_append]
          simp [encAll]
      · refine ⟨[], ?_⟩
        rw [List.append_nil, push, if_neg hfit]
        exact h
    · apply same <;> simp only [act] <;> rw [if_neg (fun x => hw x.2)]
  | frame f => apply same <;> simp [act, hp]
  | transmit k => apply same <;> simp [act, hp]
  | ack k => apply same <;> simp [act, hp]
  | emit b => apply same <;> simp only [act] <;> split <;> rfl
  | raise b => exact same rfl rfl rfl
  | status x => exact same rfl rfl rfl

/-- At least the datagrams `qs` are queued. -/
def QueuedMore (qs : List Dgram) (s : Sock) : Prop := ∃ more, Queued (qs ++ more) s

theorem act_queuedMore {qs : List Dgram} {s : Sock} (hp : s.proto = 2) (hf : RxFits s) (h : QueuedMore qs s) (a : Act) :
    QueuedMore qs (s.act a) := by
  obtain ⟨m, h⟩ := h
  obtain ⟨m', h⟩ := act_queued hp hf h a
  exact ⟨m ++ m', by rw [← List.append_assoc]; exact h⟩

theorem stable_queuedMore (m : Nat) (hm : m = 2) (d : List U8 × List U8) (K : List Packet) (A : List U8) (qs : List Dgram) :
    StableS (fun s => PktIdle m d K A s ∧ QueuedMore qs s) := fun s a h =>
  ⟨stable_pktIdle (by omega) d K A s a h.1,
    act_queuedMore (h.1.base.mode.trans hm) h.1.rx.core.rxFits h.2 a⟩

/-- A UDP socket in working order: TX idle after the packets `K`, TX buffer of `z` bytes, RX bytes `A` consumed, whole
datagrams in the queue, beginning with `qs`. -/
structure UdpIdle (K : List Packet) (A : List U8) (z : Nat) (qs : List Dgram) (s : Sock) : Prop where
  idle : PktIdle 2 s.dest K A s
  size : s.txSize = z
  queue : QueuedMore qs s

theorem stable_udpIdle (K : List Packet) (A : List U8) (z : Nat) (qs : List Dgram) : StableS (UdpIdle K A z qs) := by
  intro s a h
  refine ⟨?_, (act_txSize s a).trans h.size,
    act_queuedMore h.idle.base.mode h.idle.rx.core.rxFits h.queue a⟩
  rw [act_dest]
  exact stable_pktIdle (by decide) _ K A s a h.idle

theorem UdpIdle.of {d : List U8 × List U8} {K : List Packet} {A : List U8} {z : Nat} {qs : List Dgram} {s : Sock}
    (h : PktIdle 2 d K A s) (hz : s.txSize = z) (hq : QueuedMore qs s) : UdpIdle K A z qs s :=
  ⟨by rw [h.base.dst]; exact h, hz, hq⟩

/-- Registers that do not matter to the buffers. -/
def indifferent (a : U16) : Prop := a ∉ ([0x00, 0x1E, 0x1F, 0x24, 0x25, 0x28, 0x29] : List U16)

instance : DecidablePred indifferent := fun a => inferInstanceAs (Decidable (a ∉ _))

theorem UdpIdle.setMem {K : List Packet} {A : List U8} {z : Nat} {qs : List Dgram} {s : Sock} (h : UdpIdle K A z qs s)
    (a : U16) (x : U8) (ha : indifferent a) : UdpIdle K A z qs (s.setMem a x) := by
  simp only [indifferent, List.mem_cons, List.not_mem_nil, or_false, not_or] at ha
  obtain ⟨h0, h1, h2, h3, h4, h5, h6⟩ := ha
  have hm : ∀ b : U16, b ≠ a → (s.setMem a x).mem b = s.mem b := fun b hb => if_neg hb
  have e1 : (s.setMem a x).proto = s.proto := by unfold proto; rw [hm _ (Ne.symm h0)]
  have e2 : (s.setMem a x).txSize = s.txSize := by unfold txSize; rw [hm _ (Ne.symm h2)]
  have e3 : (s.setMem a x).rxSize = s.rxSize := by unfold rxSize; rw [hm _ (Ne.symm h1)]
  have e4 : (s.setMem a x).txWr = s.txWr := by
    unfold txWr reg16
    rw [hm _ (Ne.symm h3), hm (0x24 + 1) (Ne.symm h4)]
  have e5 : (s.setMem a x).rxRdReg = s.rxRdReg := by
    unfold rxRdReg reg16
    rw [hm _ (Ne.symm h5), hm (0x28 + 1) (Ne.symm h6)]
  have e6 : (s.setMem a x).queue = s.queue := by
    unfold Sock.queue
    rw [e3]
    rfl
  obtain ⟨⟨⟨b1, b2, b3, b4, b5, b6⟩, w, ⟨⟨r1, r2, r3⟩, r4⟩⟩, hz, more, q1, q2⟩ := h
  refine ⟨⟨⟨e1.trans b1, e2 ▸ b2, rfl, b4, b5, b6⟩, e4.trans w, ⟨⟨e3 ▸ r1, e3 ▸ r2, ?_⟩, e5.trans r4⟩⟩, e2.trans hz,
    more, q1, e6.trans q2⟩
  rw [e6]
  exact r3

/-- Changes of status, interrupt flags. -/
theorem UdpIdle.quiet {K : List Packet} {A : List U8} {z : Nat} {qs : List Dgram} {s : Sock} (h : UdpIdle K A z qs s)
    (i x : U8) : UdpIdle K A z qs { s with ir := i, sr := x } := by
  obtain ⟨⟨⟨b1, b2, b3, b4, b5, b6⟩, w, ⟨⟨r1, r2, r3⟩, r4⟩⟩, hz, more, q1, q2⟩ := h
  exact ⟨⟨⟨b1, b2, rfl, b4, b5, b6⟩, w, ⟨⟨r1, r2, r3⟩, r4⟩⟩, hz, more, q1, q2⟩

theorem open_rsr (s : Sock) : (s.command 0x01).rsr = 0 := by
  show (_ - _ : U16) = 0
  exact BitVec.sub_self _

/-- OPEN in UDP mode empties both buffers. -/
theorem open_udpIdle {s : Sock} (hz : SizesOk s.mem) (hp : s.proto = 2) :
    UdpIdle s.packets s.arrived s.txSize [] (s.command 0x01) := by
  have hsz : (s.command 0x01).txSize = s.txSize := rfl
  have hrz : (s.command 0x01).rxSize = s.rxSize := rfl
  have hq : (s.command 0x01).queue = [] := by
    unfold Sock.queue
    rw [open_rsr]; rfl
  refine ⟨⟨⟨hp, ?_, rfl, rfl, rfl, rfl⟩, ?_, ⟨⟨?_, ?_, ?_⟩, ?_⟩⟩, rfl, [], nofun, hq⟩
  · rw [hsz]; exact hz.1
  · exact U16.halves _
  · rw [hrz]; exact hz.2
  · rw [open_rsr]; simp
  · rw [hq, List.append_nil]; rfl
  · exact U16.halves _

/-! ## Opening -/

theorem UdpIdle.sizes {K : List Packet} {A : List U8} {z : Nat} {qs : List Dgram} {s : Sock} (h : UdpIdle K A z qs s) :
    SizesOk s.mem := ⟨h.idle.base.size, h.idle.rx.core.size⟩

/-- A successful `open` puts the socket in working order. -/
theorem udp_open {n : Nat} (hn : n < 8) (u : UdpSocket) (hu : u.socket = sockOf n) (z : Nat) :
    Hoare (At n fun s => SizesOk s.mem ∧ s.txSize = z) (u.open (Chip.dev sched faults).bus)
      (fun _ => At n fun s => ∃ K A, UdpIdle K A z [] s) (fun _ => True) := by
  have hT : ∀ (m : U16 → U8) (a : U16) (x : U8), a ≠ 0x1E → a ≠ 0x1F →
      (SizesOk m ∧ 1024 * (m 0x1F).toNat = z) →
      (SizesOk (fun b => if b = a then x else m b) ∧ 1024 * ((fun b => if b = a then x else m b) 0x1F).toNat = z) := by
    rintro m a x h1 h2 ⟨h3, h4⟩
    refine ⟨sizes_keep h3 _ _ h1 h2, ?_⟩
    dsimp only
    rw [if_neg (Ne.symm h2)]
    exact h4
  let T : (U16 → U8) → Prop := fun m => SizesOk m ∧ 1024 * (m 0x1F).toNat = z
  unfold UdpSocket.open
  rw [hu]
  refine .bind (.exc (hs_commandMem hn T _ (by decide) (by decide)) fun _ _ => trivial) fun _ => ?_
  refine .bind (.exc (hs_clearMem hn T _) fun _ _ => trivial) fun _ => ?_
  refine .bind (.exc (hs_storeMem hn T _ _ (by simp [toBeBytes]) ?_ ?_) fun _ _ => trivial) fun _ => ?_
  · intro i hi
    rcases index_two (by rfl) hi with rfl | rfl <;> rfl
  · intro m i x hi h
    rcases index_two (by rfl) hi with rfl | rfl
    all_goals exact hT m _ _ (by decide) (by decide) h
  refine .bind (.exc (.pre (hs_storeMem hn T _ _ (by simp) ?_ ?_) fun c h => h.1) fun _ _ => trivial) fun _ => ?_
  · intro i hi
    obtain rfl := index_one (by rfl) hi
    rfl
  · intro m i x hi h
    obtain rfl := index_one (by rfl) hi
    exact hT m _ _ (by decide) (by decide) h
  refine .bind (.exc (.pre (hs_storeMem hn (fun m => T m ∧ m 0 = 2) _ _ (by simp) ?_ ?_) fun c h => ?_)
    fun _ _ => trivial) fun _ => ?_
  · intro i hi
    obtain rfl := index_one (by rfl) hi
    rfl
  · intro m i x hi h
    obtain rfl := index_one (by rfl) hi
    exact ⟨hT m _ _ (by decide) (by decide) h.1, h.2⟩
  · exact ⟨h.1, h.2 0 (by simp)⟩
  have hst : StableS (fun s => T s.mem ∧ s.mem 0 = 2) := stable_mem (fun m => T m ∧ m 0 = 2)
  refine .exc (.pre (hs_write1 hn hst _ _ (fun s h => ?_)) fun c h => h.1) fun _ _ => trivial
  have hp : s.proto = 2 := by
    show (s.mem 0).toNat % 16 = 2
    rw [h.2]; rfl
  have hz : s.txSize = z := h.1.2
  rw [← hz]
  exact ⟨_, _, open_udpIdle h.1.1 hp⟩

/-- In working order after losing some more datagrams. -/
def IdleLost (K : List Packet) (A : List U8) (z : Nat) (s : Sock) : Prop :=
  ∃ lost, (∀ d ∈ lost, d.Wf) ∧ UdpIdle K (A ++ encAll lost) z [] s

theorem IdleLost.none {K : List Packet} {A : List U8} {z : Nat} {s : Sock} (h : UdpIdle K A z [] s) : IdleLost K A z s :=
  ⟨[], nofun, by rw [show encAll [] = [] from rfl, List.append_nil]; exact h⟩

theorem stable_idleLost (K : List Packet) (A : List U8) (z : Nat) : StableS (IdleLost K A z) :=
  fun s a ⟨l, w, h⟩ => ⟨l, w, stable_udpIdle K _ z [] s a h⟩

theorem IdleLost.setMem {K : List Packet} {A : List U8} {z : Nat} {s : Sock} (h : IdleLost K A z s)
    (a : U16) (x : U8) (ha : indifferent a) : IdleLost K A z (s.setMem a x) := by
  obtain ⟨l, w, h⟩ := h
  exact ⟨l, w, h.setMem a x ha⟩

/-- Opening a socket in working order again never transmits anything, loses what is queued, and keeps the socket in
working order, at whatever point it fails. -/
theorem udp_openAgain {n : Nat} (hn : n < 8) (u : UdpSocket) (hu : u.socket = sockOf n) (K : List Packet) (A : List U8)
    (z : Nat) :
    Hoare (At n (IdleLost K A z)) (u.open (Chip.dev sched faults).bus)
      (fun _ => At n (IdleLost K A z)) (At n (IdleLost K A z)) := by
  have hP := stable_idleLost K A z
  unfold UdpSocket.open
  rw [hu]
  refine .bind (.exc (hs_write1 (Q := IdleLost K A z) hn hP _ _ (fun s ⟨l, w, h⟩ => ⟨l, w, h.quiet s.ir 0⟩))
    fun _ h => h.elim id id) fun _ => ?_
  refine .bind (hs_clearIr hn hP _ fun s i ⟨l, w, h⟩ => ⟨l, w, h.quiet i s.sr⟩) fun _ => ?_
  refine .bind (.post (hs_store hn hP _ _ (by simp [toBeBytes]) ?_ ?_) fun _ _ h => h.1) fun _ => ?_
  · intro i hi
    rcases index_two (by rfl) hi with rfl | rfl <;> rfl
  · rintro s i x hi h
    rcases index_two (by rfl) hi with rfl | rfl
    all_goals exact h.setMem _ _ (by decide)
  have hmode : ∀ s : Sock, IdleLost K A z s → IdleLost K A z (s.pokeReg 0 2) := by
    rintro s ⟨l, lw, ⟨⟨b1, b2, b3, b4, b5, b6⟩, w, ⟨⟨r1, r2, r3⟩, r4⟩⟩, hz, more, q1, q2⟩
    exact ⟨l, lw, ⟨⟨rfl, b2, rfl, b4, b5, b6⟩, w, ⟨⟨r1, r2, r3⟩, r4⟩⟩, hz, more, q1, q2⟩
  refine .bind (.exc (hs_write1 (Q := IdleLost K A z) hn hP _ _ hmode) fun _ h => h.elim id id) fun _ => ?_
  refine .bind (.post (hs_store hn hP _ _ (by simp) ?_ ?_) fun _ _ h => h.1) fun _ => ?_
  · intro i hi
    obtain rfl := index_one (by rfl) hi
    rfl
  · rintro s i x hi h
    obtain rfl := index_one (by rfl) hi
    exact h.setMem _ _ (by decide)
  refine .exc (hs_write1 (Q := IdleLost K A z) hn hP _ _ fun s ⟨l, lw, h⟩ => ?_) fun _ h => h.elim id id
  obtain ⟨more, q1, q2⟩ := h.queue
  refine ⟨l ++ more, fun d hd => (List.mem_append.mp hd).elim (lw d) (q1 d), ?_⟩
  have := open_udpIdle h.sizes h.idle.base.mode
  rw [h.idle.base.out, h.size, h.idle.rx.core.arrived, q2] at this
  rw [encAll_append, ← List.append_assoc]
  exact this

/-! ## Destination -/

theorem dest_stored {s : Sock} {a : SockAddr4} (h1 : Stored s.mem 0x0C a.ip.octets) (h2 : Stored s.mem 0x10 (toBeBytes a.port)) :
    s.dest = wire a := by
  have i0 := h1 0 (by simp [Ipv4.octets])
  have i1 := h1 1 (by simp [Ipv4.octets])
  have i2 := h1 2 (by simp [Ipv4.octets])
  have i3 := h1 3 (by simp [Ipv4.octets])
  have p0 := h2 0 (by simp [toBeBytes])
  have p1 := h2 1 (by simp [toBeBytes])
  unfold dest wire
  refine Prod.ext ?_ ?_
  · show [s.mem 0x0C, s.mem (0x0C + BitVec.ofNat 16 1), s.mem (0x0C + BitVec.ofNat 16 2), s.mem (0x0C + BitVec.ofNat 16 3)] = _
    rw [i1, i2, i3, show s.mem 0x0C = _ from i0]
    rfl
  · show [s.mem 0x10, s.mem (0x10 + BitVec.ofNat 16 1)] = _
    rw [p1, show s.mem 0x10 = _ from p0]
    show toBeBytes a.port = be a.port.toNat
    unfold toBeBytes be
    congr 1
    · apply BitVec.eq_of_toNat_eq
      simp [BitVec.extractLsb'_toNat, Nat.shiftRight_eq_div_pow]
    · congr 1
      apply BitVec.eq_of_toNat_eq
      simp [BitVec.extractLsb'_toNat]

/-- `set_destination`, for a predicate that does not depend on the destination registers. -/
theorem udp_setDestination {n : Nat} (hn : n < 8) {P : Sock → Prop} (hP : StableS P)
    (hk : ∀ s a x, destOrSize a → a ≠ 0x1E → a ≠ 0x1F → P s → P (s.setMem a x)) (u0 : UdpSocket)
    (hu : u0.socket = sockOf n) (a : SockAddr4) :
    Hoare (fun s : UdpSocket × Chip => s.1 = u0 ∧ At n P s.2 ∧ Coherent n u0 s.2)
      (UdpSocket.setDestination (Chip.dev sched faults).bus a)
      (fun _ s => s.1 = { u0 with destination := some a } ∧ At n P s.2 ∧ (s.2.socks n).dest = wire a)
      (fun s => s.1 = u0 ∧ At n P s.2 ∧ u0.destination ≠ some a) := by
  unfold UdpSocket.setDestination
  refine .bind (Q := fun d s => d.1 = u0 ∧ s.1 = u0 ∧ At n P s.2 ∧ Coherent n u0 s.2) (.get fun s h => ⟨h.1, h⟩) fun d => ?_
  refine .fact fun hd => ?_
  rw [hd]
  dsimp only
  refine .ite (fun hdiff => ?_) fun hsame => .pure fun s h => ?_
  · have hne : u0.destination ≠ some a := by
      intro e
      rw [e] at hdiff
      simp at hdiff
    rw [hu]
    refine .pre (P := fun s => s.1 = u0 ∧ At n P s.2) ?_ fun s h => ⟨h.1, h.2.1⟩
    refine .bind (.exc (.mapErr (.onSnd' u0 (hs_store hn hP _ _ (by simp [Ipv4.octets]) ?_ ?_))) fun s h => ⟨h.1, h.2, hne⟩) fun _ => ?_
    · intro i hi
      rcases octets_index hi with rfl | rfl | rfl | rfl <;> rfl
    · intro s i x hi h
      rcases octets_index hi with rfl | rfl | rfl | rfl
      all_goals exact hk s _ x (by decide) (by decide) (by decide) h
    refine .bind (.exc (.mapErr (.onSnd' u0 (hs_store hn (hP.and (stable_mem fun m => Stored m 0x0C a.ip.octets)) _ _
      (by simp [toBeBytes]) ?_ ?_))) fun s h => ⟨h.1, h.2.1, hne⟩) fun _ => ?_
    · intro i hi
      rcases index_two (by rfl) hi with rfl | rfl <;> rfl
    · rintro s i x hi ⟨h1, h2⟩
      refine ⟨?_, ?_⟩
      · rcases index_two (by rfl) hi with rfl | rfl
        all_goals exact hk s _ x (by decide) (by decide) (by decide) h1
      · intro j hj
        rcases index_two (by rfl) hi with rfl | rfl
        all_goals
          rcases octets_index hj with rfl | rfl | rfl | rfl
          all_goals exact h2 _ hj
    · exact .modify fun s h => ⟨by rw [h.1, hu], h.2.1.1, dest_stored h.2.1.2 h.2.2⟩
  · obtain ⟨h1, h2, h3⟩ := h
    have : u0.destination = some a := by
      revert hsame
      cases hdst : u0.destination with
      | none => simp
      | some x => simp
    refine ⟨?_, h2, h3 a this⟩
    rw [h1, ← this]

end W5500.Spec
