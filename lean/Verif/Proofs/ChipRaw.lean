import Verif.Spec.RawHistory
import Verif.Proofs.ChipUdpRx
import Verif.Proofs.RawSplit
/-! # MACRAW on the chip -/

namespace W5500.Spec
open W5500 socketn Sock
variable {E ε α : Type} {sched : Nat → List (Nat × Act)} {faults : Nat → Option (E × Nat)}

/-! ## The queue -/

theorem encFrames_append (a b : List (List U8)) : encFrames (a ++ b) = encFrames a ++ encFrames b := by
  simp [encFrames]

theorem encFrames_cons (f : List U8) (fs : List (List U8)) : encFrames (f :: fs) = encodeFrame f ++ encFrames fs := by
  simp [encFrames]

theorem encodeFrame_length (f : List U8) : (encodeFrame f).length = f.length + 2 := by
  simp only [encodeFrame, be, List.length_append, List.length_cons, List.length_nil]
  omega

/-- An event on a MACRAW socket adds at most one frame. -/
theorem act_frames {fs : List (List U8)} {s : Sock} (hp : s.proto = 4) (hf : RxFits s) (h : Frames fs s) (a : Act) :
    ∃ more, Frames (fs ++ more) (s.act a) := by
  have same : (s.act a).rxMem = s.rxMem → (s.act a).rxRd = s.rxRd → (s.act a).rxWr = s.rxWr →
      ∃ more, Frames (fs ++ more) (s.act a) := by
    intro h1 h2 h3
    refine ⟨[], ?_⟩
    rw [List.append_nil]
    refine ⟨h.1, ?_⟩
    rw [← h.2]
    unfold queue rsr
    rw [h1, h2, h3, act_rxSize]
  cases a with
  | arrive bs => apply same <;> simp [act, hp]
  | datagram d => apply same <;> simp [act, hp]
  | frame f =>
    by_cases hw : f.length + 2 < 65536
    · have he : s.act (.frame f) = s.push (encodeFrame f) := by simp only [act]; rw [if_pos ⟨hp, hw⟩]
      rw [he]
      by_cases hfit : s.rsr.toNat + (encodeFrame f).length ≤ s.rxSize
      · refine ⟨[f], ?_, ?_⟩
        · intro x hx
          rcases List.mem_append.mp hx with hx | hx
          · exact h.1 x hx
          · rw [List.mem_singleton.mp hx]; exact hw
        · rw [(push_queue hf hfit).1, h.2, encFrames_append]
          simp [encFrames]
      · refine ⟨[], ?_⟩
        rw [List.append_nil, push, if_neg hfit]
        exact h
    · apply same <;> simp only [act] <;> rw [if_neg (fun x => hw x.2)]
  | transmit k => apply same <;> simp [act, hp]
  | ack k => apply same <;> simp [act, hp]
  | emit b => apply same <;> simp only [act] <;> split <;> rfl
  | raise b => exact same rfl rfl rfl
  | status x => exact same rfl rfl rfl

/-- At least the frames `fs` are queued. -/
def FramesMore (fs : List (List U8)) (s : Sock) : Prop := ∃ more, Frames (fs ++ more) s

theorem act_framesMore {fs : List (List U8)} {s : Sock} (hp : s.proto = 4) (hf : RxFits s) (h : FramesMore fs s) (a : Act) :
    FramesMore fs (s.act a) := by
  obtain ⟨m, h⟩ := h
  obtain ⟨m', h⟩ := act_frames hp hf h a
  exact ⟨m ++ m', by rw [← List.append_assoc]; exact h⟩

theorem act_owed {s : Sock} (h1 : s.proto ≠ 1) (h2 : s.txRd = s.txLimit) (h : s.owed.getLsbD 4 = false) (a : Act) :
    (s.act a).owed.getLsbD 4 = false := by
  have := (act_idle h1 h2 a).2.2.2
  rw [← this, BitVec.getLsbD_and, h, Bool.and_false]

/-- A MACRAW socket in working order; RX_RD may have been written already. `p`: where the queue starts. -/
structure RawBusy (K : List Packet) (A : List U8) (z : Nat) (fs : List (List U8)) (p : U16) (s : Sock) : Prop where
  base : PktBase 4 s.dest K s
  wr : s.txWr = s.txLimit
  size : s.txSize = z
  owed : s.owed.getLsbD 4 = false
  core : RxCore A s
  queue : FramesMore fs s
  rd : s.rxRd = p

/-- A MACRAW socket in working order: TX idle after the packets `K`, TX buffer of `z` bytes, no SENDOK to come, RX bytes
`A` consumed, whole frames in the queue, beginning with `fs`. -/
structure RawIdle (K : List Packet) (A : List U8) (z : Nat) (fs : List (List U8)) (s : Sock) : Prop where
  busy : RawBusy K A z fs s.rxRd s
  reg : s.rxRdReg = s.rxRd

theorem RawBusy.idle {K : List Packet} {A : List U8} {z : Nat} {fs : List (List U8)} {p : U16} {s : Sock}
    (h : RawBusy K A z fs p s) (hr : s.rxRdReg = p) : RawIdle K A z fs s :=
  ⟨h.rd ▸ h, hr.trans h.rd.symm⟩

theorem RawBusy.fewer {K : List Packet} {A : List U8} {z : Nat} {fs more : List (List U8)} {p : U16} {s : Sock}
    (h : RawBusy K A z (fs ++ more) p s) : RawBusy K A z fs p s := by
  obtain ⟨h1, h2, h3, h4, h5, ⟨t, h6⟩, h7⟩ := h
  exact ⟨h1, h2, h3, h4, h5, ⟨more ++ t, by rw [← List.append_assoc]; exact h6⟩, h7⟩

theorem RawIdle.fewer {K : List Packet} {A : List U8} {z : Nat} {fs more : List (List U8)} {s : Sock}
    (h : RawIdle K A z (fs ++ more) s) : RawIdle K A z fs s := ⟨h.busy.fewer, h.reg⟩

theorem stable_rawBusy (K : List Packet) (A : List U8) (z : Nat) (fs : List (List U8)) (p : U16) :
    StableS (RawBusy K A z fs p) := by
  intro s a h
  refine ⟨?_, by rw [act_txWr, act_txLimit]; exact h.wr, (act_txSize s a).trans h.size,
    act_owed (by rw [h.base.mode]; decide) h.base.rd h.owed a, stable_rxCore A s a h.core,
    act_framesMore h.base.mode h.core.rxFits h.queue a, (act_rxRd s a).trans h.rd⟩
  rw [act_dest]
  exact stable_pktBase (by decide) _ K s a h.base

theorem stable_rawIdle (K : List Packet) (A : List U8) (z : Nat) (fs : List (List U8)) : StableS (RawIdle K A z fs) := by
  intro s a h
  refine ⟨?_, by rw [act_rxRdReg, act_rxRd]; exact h.reg⟩
  rw [act_rxRd]
  exact stable_rawBusy K A z fs _ s a h.busy

theorem RawBusy.setRxRd {K : List Packet} {A : List U8} {z : Nat} {fs : List (List U8)} {p : U16} {s : Sock}
    (h : RawBusy K A z fs p s) (a : U16) (x : U8) (ha : a = 0x28 ∨ a = 0x29) : RawBusy K A z fs p (s.setMem a x) := by
  obtain ⟨⟨b1, b2, b3, b4, b5, b6⟩, w, hz, o, ⟨c1, c2, c3⟩, ⟨t, q⟩, r⟩ := h
  rcases ha with rfl | rfl
  · exact ⟨⟨b1, b2, rfl, b4, b5, b6⟩, w, hz, o, ⟨c1, c2, c3⟩, ⟨t, q⟩, r⟩
  · exact ⟨⟨b1, b2, rfl, b4, b5, b6⟩, w, hz, o, ⟨c1, c2, c3⟩, ⟨t, q⟩, r⟩

theorem RawBusy.prefix {K : List Packet} {A : List U8} {z : Nat} {fs : List (List U8)} {p : U16} {s : Sock}
    (h : RawBusy K A z fs p s) : encFrames fs <+: s.queue := by
  obtain ⟨t, _, ht⟩ := h.queue
  exact ⟨encFrames t, by rw [ht, encFrames_append]⟩

/-- RECV takes the oldest frame off the queue. -/
theorem RawBusy.recv {K : List Packet} {A : List U8} {z : Nat} {f : List U8} {rest : List (List U8)} {p : U16} {s : Sock}
    (h : RawBusy K A z (f :: rest) p s) (hr : s.rxRdReg = p + BitVec.ofNat 16 (encodeFrame f).length) :
    RawIdle K (A ++ encodeFrame f) z rest { s with rxRd := s.rxRdReg } := by
  have hpre : encodeFrame f <+: s.queue := by
    have := h.prefix
    rw [encFrames_cons] at this
    exact (List.prefix_append _ _).trans this
  obtain ⟨h1, h2⟩ := recv_ready h.core hpre (by rw [h.rd]; exact hr)
  obtain ⟨⟨b1, b2, b3, b4, b5, b6⟩, w, hz, o, c, ⟨t, q1, q2⟩, r⟩ := h
  refine ⟨⟨⟨b1, b2, rfl, b4, b5, b6⟩, w, hz, o, h1.core, ⟨t, fun d hd => q1 d (List.mem_cons_of_mem _ hd), ?_⟩, rfl⟩, rfl⟩
  rw [h2, q2, List.cons_append, encFrames_cons, List.drop_left]

theorem RawIdle.setMem {K : List Packet} {A : List U8} {z : Nat} {fs : List (List U8)} {s : Sock} (h : RawIdle K A z fs s)
    (x : U8) : RawIdle K A z fs (s.setMem 0x2C x) := by
  obtain ⟨⟨⟨b1, b2, b3, b4, b5, b6⟩, w, hz, o, ⟨c1, c2, c3⟩, ⟨t, q⟩, r⟩, g⟩ := h
  exact ⟨⟨⟨b1, b2, rfl, b4, b5, b6⟩, w, hz, o, ⟨c1, c2, c3⟩, ⟨t, q⟩, rfl⟩, g⟩

theorem RawIdle.ir {K : List Packet} {A : List U8} {z : Nat} {fs : List (List U8)} {s : Sock} (h : RawIdle K A z fs s)
    (i : U8) : RawIdle K A z fs { s with ir := i } := by
  obtain ⟨⟨⟨b1, b2, b3, b4, b5, b6⟩, w, hz, o, ⟨c1, c2, c3⟩, ⟨t, q⟩, r⟩, g⟩ := h
  exact ⟨⟨⟨b1, b2, rfl, b4, b5, b6⟩, w, hz, o, ⟨c1, c2, c3⟩, ⟨t, q⟩, rfl⟩, g⟩

/-- OPEN in MACRAW mode empties both buffers. -/
theorem open_rawIdle {s : Sock} (hz : SizesOk s.mem) (hp : s.proto = 4) :
    RawIdle s.packets s.arrived s.txSize [] (s.command 0x01) := by
  have hsz : (s.command 0x01).txSize = s.txSize := rfl
  have hrz : (s.command 0x01).rxSize = s.rxSize := rfl
  have hq : (s.command 0x01).queue = [] := by
    unfold Sock.queue
    rw [open_rsr]; rfl
  refine ⟨⟨⟨hp, ?_, rfl, rfl, rfl, rfl⟩, ?_, rfl, ?_, ⟨?_, ?_, ?_⟩, ⟨[], nofun, hq⟩, rfl⟩, ?_⟩
  · rw [hsz]; exact hz.1
  · exact U16.halves _
  · show (0 : U8).getLsbD 4 = false
    rfl
  · rw [hrz]; exact hz.2
  · rw [open_rsr]; simp
  · rw [hq, List.append_nil]; rfl
  · exact U16.halves _

/-! ## read_frame -/

/-- Up to the length bytes: nothing changes, and they are those of the oldest frame. -/
theorem raw_head {n : Nat} (hn : n < 8) (K : List Packet) (A : List U8)
    (z : Nat) (fs : List (List U8)) (r0 : U16) (fuel : Nat) :
    Hoare (At n fun s => RawIdle K A z fs s ∧ s.rxRdReg = r0) (rawHead (Chip.dev sched faults).bus fuel (sockOf n))
      (fun x c => match x with
        | none => fs = [] ∧ At n (fun s => RawIdle K A z [] s ∧ s.rxRdReg = r0) c
        | some (p, av, ex) => ∃ f rest more, f :: rest = fs ++ more ∧ f.length + 2 < 65536 ∧ p = r0 ∧
          ex = f.length ∧ ex ≤ av ∧ At n (fun s => RawIdle K A z (f :: rest) s ∧ s.rxRdReg = r0) c)
      (At n fun s => RawIdle K A z fs s ∧ s.rxRdReg = r0) := by
  have hst : ∀ fs, StableS (fun s => RawIdle K A z fs s ∧ s.rxRdReg = r0) := fun fs =>
    (stable_rawIdle K A z fs).and fun s a h => (act_rxRdReg s a).trans h
  unfold rawHead
  refine .bind (hs_receiveSize hn (hst fs) (fun s h => h.1.busy.core.rxFits) fuel) fun v => ?_
  refine .pre (P := fun c => ∃ ds more, ds = fs ++ more ∧ v.toNat = (encFrames ds).length ∧
    At n (fun s => RawIdle K A z ds s ∧ s.rxRdReg = r0) c) ?_ ?_
  · refine .exists_pre fun ds => .exists_pre fun more => .fact fun hds => .fact fun hl => ?_
    have weak : ∀ s, RawIdle K A z ds s ∧ s.rxRdReg = r0 → RawIdle K A z fs s ∧ s.rxRdReg = r0 :=
      fun s h => ⟨(hds ▸ h.1).fewer, h.2⟩
    refine .bind (Q := fun p c => p = r0 ∧ At n (fun s => RawIdle K A z ds s ∧ s.rxRdReg = r0) c)
      (.exc (.post (hs_readMem hn (hst _) _ (.inr rfl)) fun p c h => ?_) fun c h => weak _ h) fun p => ?_
    · have : p = (c.socks n).rxRdReg := h.2
      exact ⟨this.trans h.1.2, h.1⟩
    refine .fact fun hp => ?_
    subst hp
    cases ds with
    | nil =>
      have h0 : v = 0 := BitVec.eq_of_toNat_eq hl
      rw [if_pos h0]
      refine .pure fun c h => ⟨?_, h⟩
      exact (List.append_eq_nil_iff.mp hds.symm).1
    | cons f rest =>
    rw [encFrames_cons, List.length_append, encodeFrame_length] at hl
    have h0 : v ≠ 0 := by
      intro e
      rw [e] at hl
      have : (0 : U16).toNat = 0 := rfl
      omega
    rw [if_neg h0]
    refine .pre (P := fun c => f.length + 2 < 65536 ∧ At n (fun s => RawIdle K A z (f :: rest) s ∧ s.rxRdReg = p) c)
      (.fact fun hw => ?_) fun c h => ⟨?_, h⟩
    · refine .bind (.exc (hs_readRxBuf hn (hst (f :: rest)) p (List.replicate (min v.toNat 2) 0) (be (f.length + 2)) ?_ ?_)
        fun c h => weak _ h) fun h => ?_
      · intro s h i hi
        have hpre : be (f.length + 2) <+: s.queue := by
          have := h.1.busy.prefix
          rw [encFrames_cons] at this
          exact ((List.prefix_append _ _).trans (List.prefix_append _ _)).trans this
        have hr : p = s.rxRd := h.2.symm.trans h.1.reg
        rw [hr]
        exact peekRx_queue h.1.busy.core.size.dvd hpre i hi
      · rw [List.length_replicate]
        show min v.toNat 2 ≤ 2
        omega
      · refine .fact' fun hh => ?_
        rw [List.length_replicate, show min v.toNat 2 = 2 by omega] at hh
        rw [hh]
        unfold be
        dsimp only [List.take]
        refine .pure fun c h => ⟨f, rest, more, hds, hw, rfl, ?_, ?_, h⟩
        · simp only [BitVec.toNat_ofNat]
          omega
        · simp only [BitVec.toNat_ofNat]
          omega
    · obtain ⟨t, h1, _⟩ := h.1.busy.queue
      exact h1 f (by simp)
  · rintro c ⟨h1, s0, ⟨p1, p2⟩, e, rfl⟩
    obtain ⟨more, hq⟩ := p1.busy.queue
    refine ⟨fs ++ more, more, rfl, ?_, ?_, h1.2⟩
    · rw [← hq.2, queue_length]
    · obtain ⟨⟨b1, b2, b3, b4, b5, b6, b7⟩, g⟩ := p1
      exact (stable_rawIdle K A z (fs ++ more)).evolves e ⟨⟨b1, b2, b3, b4, b5, ⟨[], by rw [List.append_nil]; exact hq⟩, b7⟩, g⟩

theorem raw_tail {n : Nat} (hn : n < 8) (K : List Packet) (A : List U8)
    (z : Nat) (f : List U8) (rest : List (List U8)) (hw : f.length + 2 < 65536) (r0 : U16) (av : Nat)
    (hav : f.length ≤ av) (b0 : List U8) :
    Hoare (fun s : List U8 × Chip => s.1 = b0 ∧ At n (fun s => RawIdle K A z (f :: rest) s ∧ s.rxRdReg = r0) s.2)
      (rawTail (Chip.dev sched faults).bus (sockOf n) b0.length r0 av f.length)
      (fun k s => RawGot.Brings ⟨b0, k, s.1⟩ f ∧ At n (RawIdle K (A ++ encodeFrame f) z rest) s.2)
      (fun s => At n (fun s => s.rxRdReg = r0 → RawIdle K A z (f :: rest) s) s.2) := by
  unfold rawTail
  rw [Nat.min_eq_right (show min b0.length f.length ≤ av by omega), Nat.min_eq_right hav]
  generalize hk : min b0.length f.length = k
  have hst : StableS (fun s => RawBusy K A z (f :: rest) r0 s ∧ s.rxRdReg = r0) :=
    (stable_rawBusy K A z _ r0).and fun s a h => (act_rxRdReg s a).trans h
  have hbusy : ∀ s, RawIdle K A z (f :: rest) s ∧ s.rxRdReg = r0 → RawBusy K A z (f :: rest) r0 s ∧ s.rxRdReg = r0 := by
    intro s h
    refine ⟨?_, h.2⟩
    have := h.1.busy
    rw [← h.1.reg, h.2] at this
    exact this
  refine .bind (Q := fun _ s => ∃ b, b = f.take k ++ b0.drop k ∧ s.1 = b ∧ At n (RawBusy K A z (f :: rest) r0) s.2)
    (.ite (fun h0 => .pure fun s h => ?_) fun h0 => .withPrefix (fun buf hbuf => ?_) fun s h hlt => ?_) fun _ => ?_
  · refine ⟨b0, ?_, h.1, (hbusy _ h.2).1⟩
    rw [h0]
    rfl
  · refine .pre (P := fun s : List U8 × Chip => buf = b0 ∧ At n (fun s => RawBusy K A z (f :: rest) r0 s ∧
        s.rxRdReg = r0) s.2 ∧ s.1.length = (f.take k).length) (.fact fun hb => ?_) ?_
    · subst hb
      refine .exc (.post (hs_readRx hn hst (r0 + 2) (f.take k) fun s h i hi => ?_)
        fun _ s h => ?_) fun s h hr => h.1.idle hr
      · rw [List.length_take] at hi
        have hpre : encodeFrame f <+: s.queue := by
          have := h.1.prefix
          rw [encFrames_cons] at this
          exact (List.prefix_append _ _).trans this
        have := peekRx_queue h.1.core.size.dvd hpre (2 + i) (by rw [encodeFrame_length]; omega)
        rw [h.1.rd, BitVec.ofNat_add, ← BitVec.add_assoc] at this
        refine this.trans ?_
        rw [List.getElem_take]
        unfold encodeFrame
        rw [List.getElem_append_right (by show 2 ≤ _; omega)]
        congr 1
        show 2 + i - 2 = i
        omega
      · exact ⟨_, by rw [h.2], rfl, h.1.1⟩
    · rintro s ⟨h1, h2, h3⟩
      refine ⟨h2, hbusy _ h3, ?_⟩
      have h2 : buf = b0 := h2
      rw [h1, List.length_take, List.length_take, h2]
      omega
  · rw [h.1] at hlt
    omega
  refine .exists_pre fun b => .fact fun hb => ?_
  have hlen : 2 + f.length = (encodeFrame f).length := by rw [encodeFrame_length]; omega
  rw [hlen]
  refine .bind (Q := fun _ s => s.1 = b ∧ At n (fun s => RawBusy K A z (f :: rest) r0 s ∧
      s.rxRdReg = r0 + BitVec.ofNat 16 (encodeFrame f).length) s.2)
    (.exc (.onSnd' b (R := At n (RawBusy K A z (f :: rest) r0)) ?_) fun s h hr => RawBusy.idle h.2 hr) fun _ => ?_
  · unfold Socket.setRxReadPointer
    refine .post (hs_store hn (stable_rawBusy K A z (f :: rest) r0) _ _ (by simp [toBeBytes]) ?_ ?_)
      fun _ c h => ⟨h.1, stored_reg16 h.2⟩
    · intro i hi
      rcases index_two (by rfl) hi with rfl | rfl <;> rfl
    · intro s i x hi h
      rcases index_two (by rfl) hi with rfl | rfl
      · exact h.setRxRd _ x (.inl rfl)
      · exact h.setRxRd _ x (.inr rfl)
  have hb2 : StableS (fun s => RawBusy K A z (f :: rest) r0 s ∧ s.rxRdReg = r0 + BitVec.ofNat 16 (encodeFrame f).length) :=
    (stable_rawBusy K A z _ r0).and fun s a h => (act_rxRdReg s a).trans h
  have hne : r0 + BitVec.ofNat 16 (encodeFrame f).length ≠ r0 := by
    rw [encodeFrame_length]
    intro e
    have := congrArg BitVec.toNat e
    simp only [BitVec.toNat_add, BitVec.toNat_ofNat] at this
    have := r0.isLt
    omega
  refine .bind (.exc (.onSnd' b (hs_write1 (Q := fun s => RawIdle K (A ++ encodeFrame f) z rest s ∧
    s.rxRdReg = r0 + BitVec.ofNat 16 (encodeFrame f).length) hn hb2 _ _ fun s h => ?_))
    fun s h hr => ?_) fun _ => .pure fun s h => ?_
  · have he : s.pokeReg COMMAND Command.receive.toU8 = { s with rxRd := s.rxRdReg } := rfl
    rw [he]
    exact ⟨h.1.recv h.2, h.2⟩
  · rcases h.2 with h | h
    · exact h.1.idle hr
    · exact absurd (h.2.symm.trans hr) hne
  · refine ⟨⟨hk.symm, ?_⟩, h.2.1⟩
    exact h.1.trans hb

/-- `read_frame`. -/
theorem raw_readFrame {n : Nat} (hn : n < 8) (d : RawDevice) (hd : d.rawSocket = sockOf n) (K : List Packet) (A : List U8)
    (z : Nat) (fs : List (List U8)) (r0 : U16) (fuel : Nat) (b0 : List U8) :
    Hoare (fun s : List U8 × Chip => s.1 = b0 ∧ At n (fun s => RawIdle K A z fs s ∧ s.rxRdReg = r0) s.2)
      (d.readFrame (Chip.dev sched faults).bus fuel)
      (fun k s => (fs = [] ∧ RawGot.Nothing ⟨b0, k, s.1⟩ ∧ At n (RawIdle K A z []) s.2) ∨
        ∃ f rest more, f :: rest = fs ++ more ∧ f.length + 2 < 65536 ∧ RawGot.Brings ⟨b0, k, s.1⟩ f ∧
          At n (RawIdle K (A ++ encodeFrame f) z rest) s.2)
      (fun s => At n (fun s => s.rxRdReg = r0 → RawIdle K A z fs s) s.2) := by
  suffices H : Hoare (fun s : List U8 × Chip => s.1 = b0 ∧ At n (fun s => RawIdle K A z fs s ∧ s.rxRdReg = r0) s.2)
      (M.onSnd (rawHead (Chip.dev sched faults).bus fuel d.rawSocket) >>= fun x => match x with
        | none => pure 0
        | some (p, av, ex) => rawTail (Chip.dev sched faults).bus d.rawSocket b0.length p av ex)
      (fun k s => (fs = [] ∧ RawGot.Nothing ⟨b0, k, s.1⟩ ∧ At n (RawIdle K A z []) s.2) ∨
        ∃ f rest more, f :: rest = fs ++ more ∧ f.length + 2 < 65536 ∧ RawGot.Brings ⟨b0, k, s.1⟩ f ∧
          At n (RawIdle K (A ++ encodeFrame f) z rest) s.2)
      (fun s => At n (fun s => s.rxRdReg = r0 → RawIdle K A z fs s) s.2) by
    constructor
    rintro ⟨b, c⟩ hs
    have hb : b = b0 := hs.1
    subst hb
    have := H.run (b, c) hs
    rw [readFrame_split]
    exact this
  rw [hd]
  refine .bind (.exc (.onSnd' b0 (raw_head hn K A z fs r0 fuel)) fun s h _ => h.2.1) fun x => ?_
  cases x with
  | none => exact .pure fun s h => .inl ⟨h.2.1, ⟨rfl, h.1⟩, h.2.2.1⟩
  | some x =>
    obtain ⟨p, av, ex⟩ := x
    constructor
    rintro s ⟨hb, f, rest, more, h1, h2, h3, h4, h5, h6⟩
    subst h4
    rw [h3]
    refine Hoare.post_mono ?_ ?_ ((raw_tail hn K A z f rest h2 r0 av h5 b0).run s ⟨hb, h6⟩)
    · intro y t h
      exact .inr ⟨f, rest, more, h1, h2, h⟩
    · intro t h hr
      have := h hr
      rw [h1] at this
      exact this.fewer

/-! ## write_frame -/

/-- An event cannot set SENDOK if none is to come. -/
theorem act_ir {s : Sock} (h1 : s.proto ≠ 1) (ho : s.owed.getLsbD 4 = false) (hi : s.ir.getLsbD 4 = false) (a : Act) :
    (s.act a).ir.getLsbD 4 = false := by
  have push : ∀ bs, (s.push bs).ir.getLsbD 4 = false := by
    intro bs
    unfold Sock.push
    split
    · show (s.ir ||| 0x04).getLsbD 4 = false
      rw [BitVec.getLsbD_or, hi]
      rfl
    · exact hi
  cases a with
  | arrive bs => simp only [act, if_neg h1]; exact hi
  | datagram dg =>
    simp only [act]; split
    · exact push _
    · exact hi
  | frame f =>
    simp only [act]; split
    · exact push _
    · exact hi
  | transmit k => simp only [act, if_neg h1]; exact hi
  | ack k => simp only [act, if_neg h1]; exact hi
  | emit b => simp only [act]; split <;> exact hi
  | raise b =>
    show (s.ir ||| (if s.proto = 1 then b else b &&& (s.owed ||| 0xE7))).getLsbD 4 = false
    rw [if_neg h1, BitVec.getLsbD_or, BitVec.getLsbD_and, BitVec.getLsbD_or, hi, ho]
    simp
  | status x => exact hi

/-- While `write_frame` prepares the frame. -/
structure RawTx (d : List U8 × List U8) (K : List Packet) (A : List U8) (z : Nat) (fs : List (List U8)) (s : Sock) : Prop where
  base : PktBase 4 d K s
  size : s.txSize = z
  owed : s.owed.getLsbD 4 = false
  ir : s.ir.getLsbD 4 = false
  rx : RxReady A s
  queue : FramesMore fs s

theorem RawTx.idle {d : List U8 × List U8} {K : List Packet} {A : List U8} {z : Nat} {fs : List (List U8)} {s : Sock}
    (h : RawTx d K A z fs s) (hw : s.txWr = s.txLimit) : RawIdle K A z fs s :=
  ⟨⟨by rw [h.base.dst]; exact h.base, hw, h.size, h.owed, h.rx.core, h.queue, rfl⟩, h.rx.reg⟩

theorem frame_rawTx (d : List U8 × List U8) (K : List Packet) (A : List U8) (z : Nat) (fs : List (List U8)) :
    TxFrame (RawTx d K A z fs) where
  stable s a h :=
    have hp : s.proto ≠ 1 := by rw [h.base.mode]; decide
    ⟨stable_pktBase (by decide) d K s a h.base, (act_txSize s a).trans h.size, act_owed hp h.base.rd h.owed a,
      act_ir hp h.owed h.ir a, stable_rxReady A s a h.rx, act_framesMore h.base.mode h.rx.core.rxFits h.queue a⟩
  base _ h := h.base.txBase
  pokeTx s a x h hf := by
    obtain ⟨b, z, o, i, ⟨⟨c1, c2, c3⟩, c4⟩, ⟨t, q⟩⟩ := h
    exact ⟨(frame_pktBase (by decide) d K).pokeTx s a x b hf, z, o, i, ⟨⟨c1, c2, c3⟩, c4⟩, ⟨t, q⟩⟩
  pokeWr s a x ha h := by
    obtain ⟨b, z, o, i, ⟨⟨c1, c2, c3⟩, c4⟩, ⟨t, q⟩⟩ := h
    refine ⟨(frame_pktBase (by decide) d K).pokeWr s a x ha b, ?_, ?_, ?_, ?_, ?_⟩
    all_goals rw [pokeWr_eq s x ha]
    all_goals rcases ha with rfl | rfl
    all_goals first | exact z | exact o | exact i | exact ⟨⟨c1, c2, c3⟩, c4⟩ | exact ⟨t, q⟩

/-- While `write_frame` waits for SENDOK. -/
structure RawWait (d : List U8 × List U8) (K : List Packet) (A : List U8) (z : Nat) (fs : List (List U8)) (p : U16)
    (data : List U8) (s : Sock) : Prop where
  sent : PktSent 4 d K p data s
  size : s.txSize = z
  flag : s.owed.getLsbD 4 = true ∨ s.ir.getLsbD 4 = true → s.packets = K ++ [⟨d.1, d.2, data, true⟩]
  once : s.ir.getLsbD 4 = true → s.owed.getLsbD 4 = false
  rx : RxReady A s
  queue : FramesMore fs s

theorem stable_rawWait (d : List U8 × List U8) (K : List Packet) (A : List U8) (z : Nat) (fs : List (List U8)) (p : U16)
    (data : List U8) : StableS (RawWait d K A z fs p data) := by
  intro s a h
  have hp : s.proto ≠ 1 := by rw [h.sent.mode]; decide
  have hs := stable_pktSent (.inr rfl) d K p data s a h.sent
  suffices H : ((s.act a).owed.getLsbD 4 = true ∨ (s.act a).ir.getLsbD 4 = true →
      (s.act a).packets = K ++ [⟨d.1, d.2, data, true⟩]) ∧ ((s.act a).ir.getLsbD 4 = true → (s.act a).owed.getLsbD 4 = false) from
    ⟨hs, (act_txSize s a).trans h.size, H.1, H.2, stable_rxReady A s a h.rx,
      act_framesMore h.sent.mode h.rx.core.rxFits h.queue a⟩
  have same : (s.act a).owed = s.owed → (s.act a).ir.getLsbD 4 = s.ir.getLsbD 4 → (s.act a).packets = s.packets →
      ((s.act a).owed.getLsbD 4 = true ∨ (s.act a).ir.getLsbD 4 = true →
      (s.act a).packets = K ++ [⟨d.1, d.2, data, true⟩]) ∧ ((s.act a).ir.getLsbD 4 = true → (s.act a).owed.getLsbD 4 = false) := by
    intro h1 h2 h3
    rw [h1, h2, h3]
    exact ⟨h.flag, h.once⟩
  have pushed : ∀ bs, (s.push bs).owed = s.owed ∧ (s.push bs).ir.getLsbD 4 = s.ir.getLsbD 4 ∧ (s.push bs).packets = s.packets := by
    intro bs
    unfold Sock.push
    split
    · refine ⟨rfl, ?_, rfl⟩
      show (s.ir ||| 0x04).getLsbD 4 = _
      rw [BitVec.getLsbD_or]
      simp
    · exact ⟨rfl, rfl, rfl⟩
  cases a with
  | arrive bs => apply same <;> simp only [act, if_neg hp]
  | datagram dg =>
    by_cases hc : s.proto = 2 ∧ dg.Wf
    · apply same <;> simp only [act, if_pos hc]
      · exact (pushed _).1
      · exact (pushed _).2.1
      · exact (pushed _).2.2
    · apply same <;> simp only [act, if_neg hc]
  | frame f =>
    by_cases hc : s.proto = 4 ∧ f.length + 2 < 65536
    · apply same <;> simp only [act, if_pos hc]
      · exact (pushed _).1
      · exact (pushed _).2.1
      · exact (pushed _).2.2
    · apply same <;> simp only [act, if_neg hc]
  | transmit k => apply same <;> simp only [act, if_neg hp]
  | ack k => apply same <;> simp only [act, if_neg hp]
  | emit b =>
    by_cases hc : (s.proto = 2 ∨ s.proto = 4) ∧ s.txRd ≠ s.txLimit
    · rcases h.sent.out with ⟨o, _⟩ | ⟨_, o, o'⟩
      · exact absurd o hc.2
      have hno : ¬ (s.owed.getLsbD 4 = true ∨ s.ir.getLsbD 4 = true) := by
        intro hf
        have := h.flag hf
        rw [o] at this
        have := congrArg List.length this
        simp at this
      rcases hs.out with ⟨_, b', ho⟩ | ⟨ho, _⟩
      · cases b with
        | true =>
          refine ⟨fun _ => ?_, fun hi => ?_⟩
          · have hl : (s.act (.emit true)).packets = K ++ [⟨[s.mem 0x0C, s.mem 0x0D, s.mem 0x0E, s.mem 0x0F],
                [s.mem 0x10, s.mem 0x11], s.pending, true⟩] := by
              simp only [act, if_pos hc]
              rw [o]
            rw [hl] at ho
            have ho := List.append_cancel_left ho
            simp only [List.cons.injEq, Packet.mk.injEq, and_true] at ho
            rw [hl, ho.1, ho.2.1, ho.2.2.1]
          · simp only [act, if_pos hc] at hi
            exact absurd (.inr hi) hno
        | false =>
          have e1 : (s.act (.emit false)).owed = s.owed ||| 0x08 := by simp only [act, if_pos hc]; rfl
          have e2 : (s.act (.emit false)).ir = s.ir := by simp only [act, if_pos hc]
          rw [e1, e2, BitVec.getLsbD_or]
          have : (0x08 : U8).getLsbD 4 = false := rfl
          rw [this, Bool.or_false]
          exact ⟨fun hf => absurd hf hno, fun hf => absurd (.inr hf) hno⟩
      · have : (s.act (.emit b)).txRd = s.txLimit := by simp only [act, if_pos hc]
        rw [this, h.sent.lim] at ho
        exact absurd ho.symm (advanced_ne h.sent.len)
    · apply same <;> simp only [act, if_neg hc]
  | raise b =>
    have e1 : (s.act (.raise b)).owed.getLsbD 4 = (s.owed.getLsbD 4 && !b.getLsbD 4) := by
      show (s.owed &&& ~~~b).getLsbD 4 = _
      rw [BitVec.getLsbD_and, BitVec.getLsbD_not]
      simp
    have e2 : (s.act (.raise b)).ir.getLsbD 4 = (s.ir.getLsbD 4 || (b.getLsbD 4 && s.owed.getLsbD 4)) := by
      show (s.ir ||| (if s.proto = 1 then b else b &&& (s.owed ||| 0xE7))).getLsbD 4 = _
      rw [if_neg hp, BitVec.getLsbD_or, BitVec.getLsbD_and, BitVec.getLsbD_or]
      simp
    have e3 : (s.act (.raise b)).packets = s.packets := rfl
    rw [e1, e2, e3]
    have h1 := h.flag
    have h2 := h.once
    revert h1 h2
    cases s.owed.getLsbD 4 <;> cases s.ir.getLsbD 4 <;> cases b.getLsbD 4 <;> simp
  | status x => exact same rfl rfl rfl

/-- What is known when `write_frame` ended in any way. -/
def RawEnded (K : List Packet) (frame : List U8) (A : List U8) (z : Nat) (fs : List (List U8)) (s : Sock) : Prop :=
  ∃ ps, (ps = [] ∨ (0 < frame.length ∧ frame.length ≤ 16384) ∧ ∃ ip port b, ps = [⟨ip, port, frame, b⟩]) ∧ s.packets = K ++ ps ∧
    (s.txRd = s.txWr → s.owed.getLsbD 4 = false → RawIdle (K ++ ps) A z fs s)

theorem RawEnded.idle {K : List Packet} {frame : List U8} {A : List U8} {z : Nat} {fs : List (List U8)} {s : Sock}
    (h : RawIdle K A z fs s) : RawEnded K frame A z fs s :=
  ⟨[], .inl rfl, by rw [List.append_nil]; exact h.busy.base.out, fun _ _ => by rw [List.append_nil]; exact h⟩

theorem RawEnded.tx {d : List U8 × List U8} {K : List Packet} {frame : List U8} {A : List U8} {z : Nat}
    {fs : List (List U8)} {s : Sock} (h : RawTx d K A z fs s) : RawEnded K frame A z fs s :=
  ⟨[], .inl rfl, by rw [List.append_nil]; exact h.base.out, fun e _ => by
    rw [List.append_nil]; exact h.idle (e.symm.trans h.base.rd)⟩

theorem RawWait.done {d : List U8 × List U8} {K : List Packet} {frame : List U8} {A : List U8} {z : Nat}
    {fs : List (List U8)} {p : U16} {s : Sock} (h : RawWait d K A z fs p frame s) (hr : s.txRd = s.txLimit)
    (ho : s.owed.getLsbD 4 = false) : ∃ b, RawIdle (K ++ [⟨d.1, d.2, frame, b⟩]) A z fs s := by
  obtain ⟨b, hb⟩ := h.sent.done hr
  exact ⟨b, ⟨by rw [hb.dst]; exact hb, h.sent.wr, h.size, ho, h.rx.core, h.queue, rfl⟩, h.rx.reg⟩

theorem RawEnded.wait {d : List U8 × List U8} {K : List Packet} {frame : List U8} {A : List U8} {z : Nat}
    {fs : List (List U8)} {p : U16} {s : Sock} (h : RawWait d K A z fs p frame s) : RawEnded K frame A z fs s := by
  rcases h.sent.out with ⟨o, b, hb⟩ | ⟨o, o', _⟩
  · refine ⟨_, .inr ⟨h.sent.len, d.1, d.2, b, rfl⟩, hb, fun _ ho => ?_⟩
    obtain ⟨b', h'⟩ := h.done o ho
    have : b' = b := by
      have := h'.busy.base.out.symm.trans hb
      simpa using List.append_cancel_left this
    exact this ▸ h'
  · refine ⟨[], .inl rfl, by rw [List.append_nil]; exact o', fun e _ => ?_⟩
    have : s.txRd = s.txLimit := e.trans h.sent.wr
    exact absurd (o.symm.trans (this.trans h.sent.lim)) (advanced_ne h.sent.len)

/-- Waiting for SENDOK ends only if the frame got out. -/
theorem raw_wait {n : Nat} (hn : n < 8) (d : List U8 × List U8) (K : List Packet) (A : List U8) (z : Nat)
    (fs : List (List U8)) (p : U16) (frame : List U8) (fuel : Nat) :
    Hoare (At n (RawWait d K A z fs p frame)) (RawDevice.waitSendOk (Chip.dev sched faults).bus (sockOf n) fuel)
      (fun _ => At n (RawIdle (K ++ [⟨d.1, d.2, frame, true⟩]) A z fs)) (At n (RawEnded K frame A z fs)) := by
  have hP := stable_rawWait d K A z fs p frame
  induction fuel with
  | zero => exact .outOfFuel fun _ h => .wait h
  | succ k ih =>
    unfold RawDevice.waitSendOk Socket.hasInterrupt
    refine .bind (Q := fun b => At n fun s => RawWait d K A z fs p frame s ∧
        (b = true → RawIdle (K ++ [⟨d.1, d.2, frame, true⟩]) A z fs s))
      (.bind (.exc (hs_read1 hn hP _) fun _ h => .wait h) fun x => .pure fun c h => ?_) fun b => ?_
    · refine ⟨h.1, fun hb => ?_⟩
      obtain ⟨h1, s0, h2, he, hx⟩ := h
      have hi : s0.ir.getLsbD 4 = true := by
        have hx : x = s0.ir := hx
        rw [hx] at hb
        have hb := of_decide_eq_true hb
        cases hc : s0.ir.getLsbD 4 with
        | true => rfl
        | false =>
          refine absurd ?_ hb
          show s0.ir &&& 0x10 = 0
          revert hc
          generalize s0.ir = y
          revert y
          decide +kernel
      have hk := h2.flag (.inr hi)
      have hr : s0.txRd = s0.txLimit := by
        rcases h2.sent.out with ⟨o, _⟩ | ⟨_, o, _⟩
        · exact o
        · rw [o] at hk
          have := congrArg List.length hk
          simp at this
      obtain ⟨b', h'⟩ := h2.done hr (h2.once hi)
      have : b' = true := by
        have := h'.busy.base.out.symm.trans hk
        simpa using List.append_cancel_left this
      exact (stable_rawIdle _ A z fs).evolves he (this ▸ h')
    · refine .ite (fun hb => .pure fun c h => h.2 hb) fun _ => .pre ih fun c h => h.1

/-- Without a packet SENDOK never comes. -/
theorem raw_never {n : Nat} (hn : n < 8) (d : List U8 × List U8) (K : List Packet) (A : List U8) (z : Nat)
    (fs : List (List U8)) (fuel : Nat) :
    Hoare (At n fun s => RawTx d K A z fs s ∧ s.txWr = s.txLimit)
      (RawDevice.waitSendOk (Chip.dev sched faults).bus (sockOf n) fuel)
      (fun _ _ => False) (At n fun s => RawTx d K A z fs s ∧ s.txWr = s.txLimit) := by
  have hP : StableS (fun s => RawTx d K A z fs s ∧ s.txWr = s.txLimit) := fun s a h =>
    ⟨(frame_rawTx d K A z fs).stable s a h.1, by rw [act_txWr, act_txLimit]; exact h.2⟩
  induction fuel with
  | zero => exact .outOfFuel fun _ h => h
  | succ k ih =>
    unfold RawDevice.waitSendOk Socket.hasInterrupt
    refine .bind (Q := fun b w => b = false ∧ At n (fun s => RawTx d K A z fs s ∧ s.txWr = s.txLimit) w)
      (.bind (hs_read1 hn hP _) fun x => .pure fun c h => ?_) fun b => .fact fun hb => ?_
    · obtain ⟨h1, s0, h2, _, hx⟩ := h
      refine ⟨decide_eq_false fun hb => hb ?_, h1⟩
      have hx : x = s0.ir := hx
      have hi := h2.1.ir
      rw [hx]
      revert hi
      show s0.ir.getLsbD 4 = false → s0.ir &&& 0x10 = 0
      generalize s0.ir = y
      revert y
      decide +kernel
    · subst hb
      exact .ite (fun h => absurd h (by decide)) fun _ => ih

/-- `write_frame`: it returns `Ok` only after the frame has been transmitted. -/
theorem raw_writeFrame {n : Nat} (hn : n < 8) (r : RawDevice) (hr : r.rawSocket = sockOf n) (K : List Packet) (A : List U8)
    (z : Nat) (fs : List (List U8)) (fuel : Nat) (frame : List U8) :
    Hoare (At n (RawIdle K A z fs)) (r.writeFrame (Chip.dev sched faults).bus fuel frame)
      (fun k => At n fun s => (k = frame.length ∧ frame ≠ [] ∧ frame.length ≤ z) ∧
        ∃ ip port, RawIdle (K ++ [⟨ip, port, frame, true⟩]) A z fs s)
      (At n (RawEnded K frame A z fs)) := by
  unfold RawDevice.writeFrame Socket.resetInterrupt TxCursor.new Socket.getTxFreeSize Socket.getTxWritePointer
  rw [hr]
  refine .bind (Q := fun _ => At n fun s => ∃ d, RawTx d K A z fs s ∧ s.txWr = s.txLimit)
    (.exc (hs_write1 (Q := fun s => ∃ d, RawTx d K A z fs s ∧ s.txWr = s.txLimit) hn (stable_rawIdle K A z fs) _ _ ?_)
      fun c h => ?_) fun _ => ?_
  · intro s h
    have he : s.pokeReg INTERRUPT Interrupt.sendOk.toU8 = { s with ir := s.ir &&& ~~~0x10 } := rfl
    rw [he]
    have h' := h.ir (s.ir &&& ~~~0x10)
    refine ⟨s.dest, ⟨h'.busy.base, h'.busy.size, h'.busy.owed, ?_, ⟨h'.busy.core, h'.reg⟩, h'.busy.queue⟩, h'.busy.wr⟩
    show (s.ir &&& ~~~0x10).getLsbD 4 = false
    rw [BitVec.getLsbD_and]
    simp
  · rcases h with h | ⟨d, h, _⟩
    · exact .idle h
    · exact .tx h
  have hpre : ∀ c, At n (fun s => ∃ d, RawTx d K A z fs s ∧ s.txWr = s.txLimit) c →
      ∃ d, At n (fun s => RawTx d K A z fs s ∧ s.txWr = s.txLimit) c := fun c ⟨d, h⟩ => ⟨d, h⟩
  refine .pre (.exists_pre fun d => ?_) hpre
  have hP : StableS (fun s => RawTx d K A z fs s ∧ s.txWr = s.txLimit) := fun s a h =>
    ⟨(frame_rawTx d K A z fs).stable s a h.1, by rw [act_txWr, act_txLimit]; exact h.2⟩
  have hexc : ∀ c, At n (fun s => RawTx d K A z fs s ∧ s.txWr = s.txLimit) c → At n (RawEnded K frame A z fs) c :=
    fun c h => .tx h.1
  refine .bind (Q := fun c => fun w => (c.sock = sockOf n ∧ c.size.toNat = z) ∧
      At n (fun s => (RawTx d K A z fs s ∧ s.txWr = s.txLimit) ∧ s.txWr = c.ptr) w)
    (.bind (Q := fun v w => v.toNat = z ∧ At n (fun s => RawTx d K A z fs s ∧ s.txWr = s.txLimit) w)
      (.exc (.post (hs_readFree hn hP fun s h => ⟨h.1.base.txBase, h.2⟩) ?_) hexc) fun v => .fact fun hv =>
      .bind (.exc (hs_readMem hn hP _ (.inl rfl)) hexc) fun p => .pure fun c h => ⟨⟨rfl, hv⟩, h.1, h.2.symm⟩) fun c => ?_
  · rintro v c ⟨h1, _, s1, s2, p1, p2, _, _, h2, _⟩
    refine ⟨?_, h1⟩
    have f : ∀ s, RawTx d K A z fs s ∧ s.txWr = s.txLimit → s.fsr.toNat = z := by
      intro s h
      rw [fsr_eq h.1.base.txBase h.2, h.1.base.used, Nat.sub_zero]
      exact h.1.size
    rw [h2, f s1 p1, f s2 p2]
    omega
  refine .fact fun hc => ?_
  obtain ⟨sock, p, size⟩ := c
  obtain ⟨rfl, hz⟩ := hc
  dsimp only at hz ⊢
  unfold TxCursor.write TxCursor.available TxCursor.commit
  dsimp only
  by_cases hfit : (frame.isEmpty || decide (frame.length > size.toNat)) = true
  · -- nothing is written: SENDOK never comes
    rw [if_pos hfit]
    have hG := frame_rawTx d K A z fs
    have hst : StableS (fun s => RawTx d K A z fs s ∧ s.txWr = p + BitVec.ofNat 16 ([] : List U8).length ∧ s.txLimit = p ∧
        s.used + ([] : List U8).length ≤ s.txSize ∧ ring s.txMem s.txSize p ([] : List U8).length = []) := by
      rintro s a ⟨h1, h2, h3, h4, h5⟩
      have := (act_txBase h1.base.txBase a).2
      exact ⟨hG.stable s a h1, by rw [act_txWr]; exact h2, by rw [act_txLimit]; exact h3,
        by rw [act_txSize]; exact Nat.le_trans this h4, rfl⟩
    have he : p + BitVec.ofNat 16 ([] : List U8).length = p := BitVec.add_zero p
    refine .bind (Q := fun x w => x = (0, ⟨sockOf n, p, size⟩) ∧
        At n (fun s => (RawTx d K A z fs s ∧ s.txWr = s.txLimit) ∧ s.txWr = p) w)
      (.pure fun c h => ⟨rfl, h⟩) fun x => .fact fun hx => ?_
    subst hx
    dsimp only
    unfold Socket.setTxWritePointer Socket.command
    refine .bind (Q := fun _ => At n fun s => RawTx d K A z fs s ∧ s.txWr = s.txLimit) (.bind
      (Q := fun _ => At n fun s => RawTx d K A z fs s ∧ s.txWr = p + BitVec.ofNat 16 ([] : List U8).length ∧ s.txLimit = p ∧
        s.used + ([] : List U8).length ≤ s.txSize ∧ ring s.txMem s.txSize p ([] : List U8).length = []) ?_ fun _ =>
      (hs_write1 (Q := fun s => RawTx d K A z fs s ∧ s.txWr = s.txLimit) hn hst _ _ fun s h => ?_).exc fun c h => ?_) fun _ => ?_
    · have := hs_advance (sched := sched) (faults := faults) hn hG p []
      rw [he] at this
      rw [he]
      refine this.conseq (fun c h => ?_) (fun _ _ h => h) fun c h => .tx h.1
      obtain ⟨⟨h1, h2⟩, h3⟩ := h
      exact ⟨h1, h3, h2.symm.trans h3, by rw [h1.base.used]; exact Nat.zero_le _, rfl⟩
    · obtain ⟨h1, h2, h3, _⟩ := h
      rw [he] at h2
      have hs : s.pokeReg COMMAND Command.send.toU8 = s := by
        show { s with txLimit := s.txWr } = s
        rw [h2, ← h3]
      rw [hs]
      exact ⟨h1, h2.trans h3.symm⟩
    · rcases h with h | h
      · exact .tx h.1
      · exact .tx h.1
    · refine .bind (Q := fun _ _ => False) (.exc (raw_never hn d K A z fs fuel) hexc) fun _ => .pure fun _ h => h.elim
  · rw [if_neg hfit]
    have hf : frame ≠ [] ∧ frame.length ≤ size.toNat := by
      rw [Bool.or_eq_true, not_or] at hfit
      obtain ⟨h1, h2⟩ := hfit
      refine ⟨fun e => h1 (by rw [e]; rfl), ?_⟩
      exact Nat.le_of_not_lt fun h => h2 (decide_eq_true h)
    have hlen : (BitVec.ofNat 16 frame.length).toNat = frame.length := by
      rw [BitVec.toNat_ofNat]
      have := size.isLt
      omega
    unfold M.sliceTo
    rw [hlen, if_pos (Nat.le_refl _), List.take_length]
    have hG := frame_rawTx d K A z fs
    refine .bind (Q := fun x w => x = (BitVec.ofNat 16 frame.length, ⟨sockOf n, p + BitVec.ofNat 16 frame.length,
        size - BitVec.ofNat 16 frame.length⟩) ∧ At n (fun s => RawTx d K A z fs s ∧ s.txWr = p ∧ s.txLimit = p ∧
          s.used + frame.length ≤ s.txSize ∧ ring s.txMem s.txSize p frame.length = frame) w)
      (.bind (Q := fun x w => x = frame ∧ At n (fun s => RawTx d K A z fs s ∧ s.txWr = p ∧ s.txLimit = p ∧
          s.used + frame.length ≤ s.txSize) w) (.pure fun c h => ⟨rfl, h.1.1, h.2, h.1.2.symm.trans h.2, ?_⟩) fun x => .fact fun hx => ?_)
      fun x => .fact fun hx => ?_
    · rw [h.1.1.base.used, h.1.1.size, Nat.zero_add]
      exact Nat.le_trans hf.2 (Nat.le_of_eq hz)
    · subst hx
      exact .bind ((hs_payload hn hG p x).exc fun c h => .tx h.1) fun _ => .pure fun c h => ⟨rfl, h⟩
    · subst hx
      dsimp only
      unfold Socket.setTxWritePointer Socket.command
      have hstG : StableS (fun s => RawTx d K A z fs s ∧
          s.txWr = p + BitVec.ofNat 16 frame.length ∧ s.txLimit = p ∧
          s.used + frame.length ≤ s.txSize ∧ ring s.txMem s.txSize p frame.length = frame) := by
        rintro s a ⟨h1, h2, h3, h4, h5⟩
        have := (act_txBase h1.base.txBase a).2
        exact ⟨hG.stable s a h1, by rw [act_txWr]; exact h2, by rw [act_txLimit]; exact h3,
          by rw [act_txSize]; omega, by rw [act_txMem, act_txSize]; exact h5⟩
      refine .bind (Q := fun _ => At n (RawWait d K A z fs p frame))
        (.bind ((hs_advance hn hG p frame).exc fun c h => .tx h.1) fun _ =>
          (hs_write1 (Q := RawWait d K A z fs p frame) hn hstG _ _ fun s h => ?_).exc fun c h => ?_) fun _ => ?_
      · obtain ⟨h1, h2, h3, h4, h5⟩ := h
        refine ⟨send_pkt h1.base hf.1 h2 h3 h4 h5, h1.size, ?_, ?_, h1.rx.send, ?_⟩
        · rintro (h | h)
          · exact absurd (h1.owed.symm.trans h) (by decide)
          · exact absurd (h1.ir.symm.trans h) (by decide)
        · intro _
          exact h1.owed
        · obtain ⟨t, q⟩ := h1.queue
          exact ⟨t, q⟩
      · rcases h with h | h
        · exact .tx h.1
        · exact .wait h
      · refine .bind (raw_wait hn d K A z fs p frame fuel) fun _ => .pure fun c h => ?_
        exact ⟨⟨hlen, hf.1, by omega⟩, d.1, d.2, h⟩

end W5500.Spec
