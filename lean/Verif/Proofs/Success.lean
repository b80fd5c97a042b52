import Verif.Spec.Success
import Verif.Spec.Outcome
import Verif.Proofs.Faultless
import Verif.Proofs.OutcomeUdp
import Verif.Proofs.RecvReturns
/-! # Calls that succeed -/

namespace W5500
variable {σ ε ε' α : Type} {P : σ → Prop} {Q : α → σ → Prop} {R : ε → σ → Prop}

/-- An operation that has no errors. -/
theorem HoareE.sure {m : M σ ε' α} {f : ε' → ε} {T : σ → Prop} (h : Hoare P m Q T) (he : ErrIn (fun _ => False) m) :
    HoareE P (M.mapErr f m) Q R := by
  constructor
  intro s hs
  have h1 := h.run s hs
  have h2 := he.run s
  rw [M.mapErr_def]
  generalize m s = r at h1 h2
  obtain ⟨_ | _ | _ | _, t⟩ := r
  · exact h1
  · exact (h2 _ rfl).elim
  · trivial
  · trivial

theorem HoareE.ok {m : M σ ε α} (h : HoareE P m Q R) {s s' : σ} {a : α} (hp : P s) (he : m s = (.ok a, s')) : Q a s' := by
  have := h.run s hp
  rwa [he] at this

theorem HoareE.also {m : M σ ε α} {P' T : σ → Prop} {Q' : α → σ → Prop} (h : HoareE P m Q R) (h' : Hoare P' m Q' T) :
    HoareE (fun s => P s ∧ P' s) m (fun a s => Q a s ∧ Q' a s) R := by
  constructor
  intro s hs
  have h1 := h.run s hs.1
  have h2 := h'.run s hs.2
  generalize m s = r at h1 h2
  obtain ⟨_ | _ | _ | _, t⟩ := r
  · exact ⟨h1, h2⟩
  · exact h1
  · trivial
  · trivial

namespace Spec
open socketn Sock
variable {E : Type} {sched : Nat → List (Nat × Act)} {faults : Nat → Option (E × Nat)}

/-- Kept by everything that the schedule does to socket `n`. -/
def Stays (sched : Nat → List (Nat × Act)) (n : Nat) (P : Sock → Prop) : Prop :=
  ∀ k a, (n, a) ∈ sched k → ∀ s, P s → P (s.act a)

theorem Stays.ticks {n : Nat} {P : Sock → Prop} (h : Stays sched n P) : Chip.Ticks sched (At n P) :=
  ⟨fun c hc => (Chip.foldl_event (D := fun _ => True) (a := .emit true) (sched c.clock) (fun s b hb => h _ b hb s)
    (fun _ _ _ _ _ => trivial) (fun _ _ => trivial) c hc).1, fun _ _ h => h⟩

/-- A write to the registers of socket `n`, byte by byte. -/
theorem Stays.writeReg {n : Nat} (hn : n < 8) {P : Sock → Prop} (h : Stays sched n P) (a : U16) (d : List U8)
    (hk : ∀ i (hi : i < d.length) s, P s → P (s.pokeReg (a + BitVec.ofNat 16 i) d[i])) :
    Hoare (At n P) ((Chip.dev sched faults).bus.write (sockOf n).register a d) (fun _ => At n P) (At n P) := by
  have hbytes : ∀ (l : List U8) (c : Chip) (a : U16),
      (∀ i (hi : i < l.length) s, P s → P (s.pokeReg (a + BitVec.ofNat 16 i) l[i])) → At n P c →
      At n P ((Chip.dev sched faults).writeBytes c ((sockOf n).register.setWidth 5) a l) := by
    intro l
    induction l with
    | nil => exact fun _ _ _ h => h
    | cons x l ih =>
      intro c a hk hc
      refine ih _ _ (fun i hi s hs => ?_) ?_
      · have := hk (i + 1) (by simpa using hi) s hs
        rwa [BitVec.ofNat_add, BitVec.add_comm (BitVec.ofNat 16 i), ← BitVec.add_assoc] at this
      · have h0 := hk 0 (by simp) _ (h.ticks.tick c hc)
        rw [BitVec.add_zero] at h0
        have hr := Chip.reg_toNat n hn
        show At n P (Chip.poke (c.tick sched) _ a x)
        unfold Chip.poke
        rw [if_neg (Chip.ne_zero_of_toNat (by omega)), if_pos (by omega), show _ / 4 = n by omega]
        show P _
        rw [Chip.setSock_self]
        exact h0
  constructor
  intro c hc
  unfold Bus.write
  simp only [ByteDev.bus]
  split
  · rename_i c1 hc1
    have : c1 = { c with txn := c.txn + 1 } := by simp only [Chip.dev, Prod.mk.injEq] at hc1; exact hc1.2.symm
    subst this
    exact hbytes _ _ _ hk hc
  · rename_i e k c1 hc1
    have : c1 = { c with txn := c.txn + 1 } := by simp only [Chip.dev, Prod.mk.injEq] at hc1; exact hc1.2.symm
    subst this
    refine hbytes _ _ _ (fun i hi s hs => ?_) hc
    rw [List.length_take] at hi
    rw [List.getElem_take]
    exact hk i (by omega) s hs

/-- A write to its TX memory. -/
theorem Stays.writeTx {n : Nat} (hn : n < 8) {P : Sock → Prop} (h : Stays sched n P) (a : U16) (d : List U8)
    (hk : ∀ s a x, P s → P (s.pokeTx a x)) :
    Hoare (At n P) ((Chip.dev sched faults).bus.write (sockOf n).txBuffer a d) (fun _ => At n P) (At n P) := by
  have hbytes : ∀ (l : List U8) (c : Chip) (a : U16), At n P c →
      At n P ((Chip.dev sched faults).writeBytes c ((sockOf n).txBuffer.setWidth 5) a l) := by
    intro l
    induction l with
    | nil => exact fun _ _ h => h
    | cons x l ih =>
      intro c a hc
      refine ih _ _ ?_
      have hr := Chip.tx_toNat n hn
      show At n P (Chip.poke (c.tick sched) _ a x)
      unfold Chip.poke
      rw [if_neg (Chip.ne_zero_of_toNat (by omega)), if_neg (by omega), if_pos (by omega), show _ / 4 = n by omega]
      show P _
      rw [Chip.setSock_self]
      exact hk _ _ _ (h.ticks.tick c hc)
  constructor
  intro c hc
  unfold Bus.write
  simp only [ByteDev.bus]
  split
  · rename_i c1 hc1
    have : c1 = { c with txn := c.txn + 1 } := by simp only [Chip.dev, Prod.mk.injEq] at hc1; exact hc1.2.symm
    subst this
    exact hbytes _ _ _ hc
  · rename_i e k c1 hc1
    have : c1 = { c with txn := c.txn + 1 } := by simp only [Chip.dev, Prod.mk.injEq] at hc1; exact hc1.2.symm
    subst this
    exact hbytes _ _ _ hc

/-- A status read. -/
theorem Stays.status {n : Nat} (hn : n < 8) {P : Sock → Prop} (h : Stays sched n P) :
    Hoare (At n P) ((Chip.dev sched faults).bus.read1 (sockOf n).register 0x03)
      (fun x c => At n P c ∧ x = (c.socks n).sr) (fun _ => True) :=
  .conseq ((h.ticks.read1 _ _).and (Chip.read1_value hn 0x03)) (fun _ h => ⟨h, trivial⟩) (fun _ _ h => h) fun _ _ => trivial

namespace Sock

/-- An open UDP socket in good order: no packet was dropped since the packets `K` had left. -/
structure Steady (K : List Packet) (s : Sock) : Prop where
  sr : s.sr = 0x22
  mode : s.proto = 2
  quiet : s.flag 3 = false
  sent : ∃ ps : List Packet, s.packets = K ++ ps ∧ ∀ q ∈ ps, q.delivered = true

theorem noTimeout_iff {s : Sock} : s.NoTimeout ↔ s.flag 3 = false := by
  unfold NoTimeout flag
  rw [Bool.or_eq_false_iff]

theorem act_sr' {s : Sock} {a : Act} (h : ∀ x, a ≠ .status x) : (s.act a).sr = s.sr := by
  unfold Sock.act Sock.push
  split
  all_goals first | exact absurd rfl (h _) | skip
  all_goals (repeat' split) <;> rfl

end Sock

theorem steady_stays {n : Nat} (hs : StatusIn sched n (· = 0x22)) (hl : Lossless sched n) (K : List Packet) :
    Stays sched n (Steady K) := by
  intro k a ha s h
  by_cases he : ∃ b, a = .emit b
  · obtain ⟨b, rfl⟩ := he
    have hb : b = true := by
      cases b with
      | true => rfl
      | false => exact absurd ha (hl k)
    subst hb
    refine ⟨(act_sr' (a := .emit true) (fun _ => nofun)).trans h.sr, (act_proto s _).trans h.mode, ?_, ?_⟩
    · have hq := h.quiet
      simp only [act]
      split
      · unfold flag at hq ⊢
        show (s.ir.getLsbD 3 || (s.owed ||| 0x10).getLsbD 3) = false
        rw [BitVec.getLsbD_or]
        show (_ || (_ || false)) = false
        rw [Bool.or_false]
        exact hq
      · exact hq
    · obtain ⟨ps, h1, h2⟩ := h.sent
      simp only [act]
      split
      · refine ⟨ps ++ [_], by rw [h1, List.append_assoc], fun q hq => ?_⟩
        rcases List.mem_append.mp hq with hq | hq
        · exact h2 q hq
        · rw [List.mem_singleton] at hq
          rw [hq]
      · exact ⟨ps, h1, h2⟩
  · have hne : ∀ b, a ≠ .emit b := fun b hb => he ⟨b, hb⟩
    refine ⟨?_, (act_proto s _).trans h.mode, ?_, ?_⟩
    · by_cases hx : ∃ x, a = .status x
      · obtain ⟨x, rfl⟩ := hx
        exact hs k x ha
      · exact (act_sr' fun x e => hx ⟨x, e⟩).trans h.sr
    · rw [(act_flags (by rw [h.mode]; omega) a fun b hb => absurd hb (hne b)).1 3 (.inl rfl)]
      exact h.quiet
    · rw [act_packets s a hne]
      exact h.sent

theorem Sock.Steady.pokeReg {K : List Packet} {s : Sock} (h : Steady K s) {a : U16} {x : U8} (ha : a ≠ 0x00)
    (h1 : a = 0x01 → x = 0x20 ∨ x = 0x40) : Steady K (s.pokeReg a x) := by
  unfold Sock.pokeReg
  split
  · rcases h1 ‹_› with rfl | rfl
    · exact ⟨h.sr, h.mode, h.quiet, h.sent⟩
    · exact ⟨h.sr, h.mode, h.quiet, h.sent⟩
  · split
    · refine ⟨h.sr, h.mode, ?_, h.sent⟩
      have hq := h.quiet
      unfold flag at hq ⊢
      rw [Bool.or_eq_false_iff] at hq ⊢
      refine ⟨?_, hq.2⟩
      show (s.ir &&& ~~~x).getLsbD 3 = false
      rw [BitVec.getLsbD_and, hq.1, Bool.false_and]
    · split
      · exact h
      · refine ⟨h.sr, ?_, h.quiet, h.sent⟩
        rw [← h.mode]
        unfold proto
        show (if (0x00 : U16) = a then x else s.mem 0x00).toNat % 16 = _
        rw [if_neg (Ne.symm ha)]

theorem Sock.Steady.pokeTx {K : List Packet} {s : Sock} (h : Steady K s) (a : U16) (x : U8) : Steady K (s.pokeTx a x) :=
  ⟨h.sr, h.mode, h.quiet, h.sent⟩

section udp
variable {n : Nat} (hn : n < 8) (hf : ∀ i, faults i = none) (hs : StatusIn sched n (· = 0x22)) (hl : Lossless sched n)
include hn hf hs hl

theorem steady_status (K : List Packet) (u : UdpSocket) (hu : u.socket = sockOf n) :
    HoareE (At n (Steady K)) (u.checkStatus (Chip.dev sched faults).bus) (fun _ => At n (Steady K)) (fun _ _ => False) := by
  unfold UdpSocket.checkStatus Socket.getStatus
  rw [hu]
  refine .bind (.sure ((steady_stays hs hl K).status hn) (.read1 (faultless_chip hf) _ _)) fun x => ⟨fun c h => ?_⟩
  obtain ⟨h1, rfl⟩ := h
  rw [show (c.socks n).sr = 0x22 from h1.sr]
  exact h1

theorem steady_tryFlush (K : List Packet) (u : UdpSocket) (hu : u.socket = sockOf n) :
    HoareE (At n (Steady K)) (u.tryFlushTx (Chip.dev sched faults).bus) (fun _ => At n (Steady K))
      (fun e c => e = .wouldBlock ∧ At n (Steady K) c) := by
  have hB := faultless_chip (sched := sched) hf
  have hS := steady_stays hs hl K
  unfold UdpSocket.tryFlushTx Socket.hasInterrupt Socket.getTxReadPointer Socket.getTxWritePointer Socket.resetInterrupt
  rw [hu]
  refine .bind (.sure (hS.ticks.read2 _ _) (.read2 hB _ _)) fun v => ?_
  refine .bind (.sure (hS.ticks.read2 _ _) (.read2 hB _ _)) fun w => ?_
  have readIr : ∀ x : U8, HoareE (At n (Steady K)) (M.mapErr (NbError.ofBus (E := E)) (do
        let y ← (Chip.dev sched faults).bus.read1 (sockOf n).register 0x02
        pure (decide (y &&& x ≠ 0)))) (fun b c => At n (Steady K) c ∧ (b = true → ∃ y : U8, y = (c.socks n).ir ∧ y &&& x ≠ 0))
        (fun e c => e = .wouldBlock ∧ At n (Steady K) c) := by
    intro x
    refine .sure (T := fun _ => True) (.bind (Q := fun y c => At n (Steady K) c ∧ y = (c.socks n).ir)
      (.conseq ((hS.ticks.read1 _ _).and (Chip.read1_value hn 0x02)) (fun _ h => ⟨h, trivial⟩) (fun _ _ h => h)
        fun _ _ => trivial) fun y => .pure fun c h => ⟨h.1, fun hb => ⟨y, h.2, of_decide_eq_true hb⟩⟩)
      (.bind (.read1 hB _ _) fun _ => .pure _)
  refine .ite (fun _ => ?_) fun _ => .throw fun c h => ⟨rfl, h⟩
  refine .bind (readIr _) fun b => ?_
  refine .ite (fun _ => ?_) fun _ => ?_
  · refine .pre (P := At n (Steady K)) (.sure (hS.writeReg hn 0x02 _ fun i hi s h => ?_) (.write hB _ _ _)) fun _ h => h.1
    have : i = 0 := Nat.lt_one_iff.mp hi
    subst this
    exact h.pokeReg (by decide) nofun
  · refine .bind (.pre (readIr _) fun _ h => h.1) fun b => ?_
    refine .ite (fun hb => ⟨fun c h => ?_⟩) fun _ => .pure fun _ h => h.1
    obtain ⟨h1, h2⟩ := h
    obtain ⟨y, rfl, hy⟩ := h2 hb
    have := h1.quiet
    unfold flag at this
    rw [Bool.or_eq_false_iff] at this
    exfalso
    revert this hy
    generalize (c.socks n).ir = y
    rintro hy ⟨h, _⟩
    revert hy h
    show y &&& 0x08 ≠ 0 → y.getLsbD 3 = false → False
    revert y
    decide +kernel

theorem steady_flushLoop (K : List Packet) (u : UdpSocket) (hu : u.socket = sockOf n) (fuel : Nat) :
    HoareE (At n (Steady K)) (u.flushLoop (Chip.dev sched faults).bus fuel) (fun _ => At n (Steady K)) (fun _ _ => False) := by
  induction fuel with
  | zero => exact .outOfFuel
  | succ k ih =>
    constructor
    intro c hc
    have h := (steady_tryFlush (sched := sched) (faults := faults) hn hf hs hl K u hu).run c hc
    unfold UdpSocket.flushLoop
    generalize u.tryFlushTx (Chip.dev sched faults).bus c = r at h
    obtain ⟨r, c'⟩ := r
    cases r with
    | ok a => exact h
    | err e =>
      obtain ⟨rfl, h⟩ := h
      exact ih.run c' h
    | panic => exact trivial
    | fuel => exact trivial

theorem steady_piece (K0 : List Packet) (d : List U8 × List U8) (K : List Packet) (A : List U8) (z : Nat) (hz : z ≠ 0)
    (u : UdpSocket) (hu : u.socket = sockOf n) (hd : u.destination.isNone = false) (fuel : Nat) (data : List U8) :
    HoareE (fun c => At n (Steady K0) c ∧ At n (fun s => PktIdle 2 d K A s ∧ s.txSize = z) c)
      (u.socketSend (Chip.dev sched faults).bus fuel data) (fun _ => At n (Steady K0)) (fun _ _ => False) := by
  have hB := faultless_chip (sched := sched) hf
  have hS := steady_stays hs hl K0
  have hP : StableS (fun s => PktIdle 2 d K A s ∧ s.txSize = z) :=
    (stable_pktIdle (by omega) d K A).and (stable_txSize z)
  unfold UdpSocket.socketSend Socket.getTxFreeSize
  refine .bind ((steady_status hn hf hs hl K0 u hu).also (hs_checkStatus hn hP u hu)) fun _ => ?_
  rw [hd]
  refine .ite (fun h => nomatch h) fun _ => ?_
  rw [hu]
  refine .bind (.sure ((hS.ticks.read2 _ _).and (hs_freeIdle hn (by omega) d K A z)) (.read2 hB _ _)) fun v => ?_
  refine .ite (fun hv => ⟨fun c h => ?_⟩) fun _ => ?_
  · refine absurd ?_ hz
    rw [← h.2.2, hv]
    rfl
  refine .pre (P := At n (Steady K0)) ?_ fun _ h => h.1
  dsimp only
  have H : ∀ data : List U8, HoareE (At n (Steady K0)) (do
      let writePointer ← M.mapErr (NbError.ofBus (E := E)) (Socket.getTxWritePointer (Chip.dev sched faults).bus (sockOf n))
      M.mapErr NbError.ofBus ((Chip.dev sched faults).bus.write (sockOf n).txBuffer writePointer data)
      M.mapErr NbError.ofBus (Socket.setTxWritePointer (Chip.dev sched faults).bus (sockOf n)
            (writePointer + BitVec.ofNat 16 data.length))
      u.blockSendCommand (Chip.dev sched faults).bus fuel
      pure data.length) (fun _ => At n (Steady K0)) (fun _ _ => False) := by
    intro data
    refine .bind (.sure (hS.ticks.read2 _ _) (.read2 hB _ _)) fun p => ?_
    refine .bind (.sure (hS.writeTx hn _ _ fun s a x h => h.pokeTx a x) (.write hB _ _ _)) fun _ => ?_
    refine .bind (.sure (hS.writeReg hn 0x24 _ fun i hi s h => h.pokeReg ?_ ?_) (.write hB _ _ _)) fun _ => ?_
    · have : i < 2 := hi
      match i, this with
      | 0, _ => decide
      | 1, _ => decide
    · have : i < 2 := hi
      match i, this with
      | 0, _ => nofun
      | 1, _ => nofun
    unfold UdpSocket.blockSendCommand Socket.command
    rw [hu]
    refine .bind ?_ fun _ => .pure fun _ h => h
    refine .bind (.sure (hS.writeReg hn 0x01 _ fun i hi s h => ?_) (.write hB _ _ _)) fun _ =>
      steady_flushLoop hn hf hs hl K0 u hu fuel
    have : i = 0 := Nat.lt_one_iff.mp hi
    subst this
    exact h.pokeReg (by decide) fun _ => .inl rfl
  split
  · exact H _
  · unfold M.sliceTo
    split
    · exact H _
    · exact ⟨fun _ _ => trivial⟩

theorem steady_loop (K0 : List Packet) (d : List U8 × List U8) (A : List U8) (z : Nat) (hz : z ≠ 0) (u : UdpSocket)
    (hu : u.socket = sockOf n) (hd : u.destination.isNone = false) (fuel : Nat) (buf : List U8) (k : Nat) (v : U16)
    (hv : v.toNat = z) : ∀ (K : List Packet) (t : Nat), t ≤ buf.length →
    HoareE (fun c => At n (Steady K0) c ∧ At n (fun s => PktIdle 2 d K A s ∧ s.txSize = z) c)
      (u.sendAllLoop (Chip.dev sched faults).bus fuel buf k v t) (fun _ => At n (Steady K0)) (fun _ _ => False) := by
  have hB := faultless_chip (sched := sched) hf
  have hS := steady_stays hs hl K0
  induction k generalizing v with
  | zero => exact fun K t _ => .outOfFuel
  | succ k ih =>
    intro K t ht
    unfold UdpSocket.sendAllLoop
    refine .ite (fun he => .pure fun c h => h.1) fun hne => ?_
    have hrem : buf.drop t ≠ [] := by
      intro e
      have := congrArg List.length e
      rw [List.length_drop] at this
      simp only [List.length_nil] at this
      omega
    have htk : (buf.drop t).take (min v.toNat (buf.drop t).length) = (buf.drop t).take z := by
      rw [hv]
      by_cases h : z ≤ (buf.drop t).length
      · rw [Nat.min_eq_left h]
      · rw [Nat.min_eq_right (by omega), List.take_length, List.take_of_length_le (by omega)]
    unfold M.sliceFrom M.sliceTo
    rw [if_pos ht]
    refine .bind (Q := fun r c => (At n (Steady K0) c ∧ At n (fun s => PktIdle 2 d K A s ∧ s.txSize = z) c) ∧ r = buf.drop t)
      (.pure fun _ h => ⟨h, rfl⟩) fun r => HoareE.fact' fun hr => ?_
    subst hr
    dsimp only
    rw [if_pos (Nat.min_le_right _ _), htk]
    refine .bind (Q := fun r c => (At n (Steady K0) c ∧ At n (fun s => PktIdle 2 d K A s ∧ s.txSize = z) c) ∧
      r = (buf.drop t).take z) (.pure fun _ h => ⟨h, rfl⟩) fun r => HoareE.fact' fun hr => ?_
    subst hr
    have hpl : ((buf.drop t).take z).length = min z (buf.drop t).length := List.length_take
    have hpos := List.length_pos_iff.mpr hrem
    have hne' : (buf.drop t).take z ≠ [] := List.length_pos_iff.mp (by omega)
    refine .bind (.pre ((steady_piece hn hf hs hl K0 d K A z hz u hu hd fuel _).also
      (udp_sendPiece hn d K A z u hu fuel _ hne' (by omega))) fun c h => ⟨h, h.2⟩) fun sent => ?_
    constructor
    rintro c ⟨h1, hs', ⟨b, h2⟩, h3⟩
    refine HoareE.run (P := fun c => At n (Steady K0) c ∧
      At n (fun s => PktIdle 2 d (K ++ [⟨d.1, d.2, (buf.drop t).take z, b⟩]) A s ∧ s.txSize = z) c) ?_ c ⟨h1, h2, h3⟩
    unfold Socket.getTxFreeSize
    rw [hu]
    refine .bind (.sure ((hS.ticks.read2 _ _).and (hs_freeIdle hn (by omega) d _ A z)) (.read2 hB _ _)) fun v' => ?_
    refine .pre (P := fun c => (At n (Steady K0) c ∧
      At n (fun s => PktIdle 2 d (K ++ [⟨d.1, d.2, (buf.drop t).take z, b⟩]) A s ∧ s.txSize = z) c) ∧ v'.toNat = z)
      (HoareE.fact' fun hv' => ?_) fun c h => ⟨⟨h.1, h.2.1⟩, h.2.2⟩
    exact ih v' hv' _ _ (by rw [hs', hpl, List.length_drop]; omega)

theorem steady_sendAll (K0 : List Packet) (d : List U8 × List U8) (K : List Packet) (A : List U8) (z : Nat) (hz : z ≠ 0)
    (u : UdpSocket) (hu : u.socket = sockOf n) (hd : u.destination.isNone = false) (fuel : Nat) (buf : List U8) :
    HoareE (fun c => At n (Steady K0) c ∧ At n (fun s => PktIdle 2 d K A s ∧ s.txSize = z) c)
      (u.socketSendAll (Chip.dev sched faults).bus fuel buf) (fun _ => At n (Steady K0)) (fun _ _ => False) := by
  have hB := faultless_chip (sched := sched) hf
  have hS := steady_stays hs hl K0
  have hP : StableS (fun s => PktIdle 2 d K A s ∧ s.txSize = z) :=
    (stable_pktIdle (by omega) d K A).and (stable_txSize z)
  unfold UdpSocket.socketSendAll Socket.getTxFreeSize
  refine .bind ((steady_status hn hf hs hl K0 u hu).also (hs_checkStatus hn hP u hu)) fun _ => ?_
  rw [hd]
  refine .ite (fun h => nomatch h) fun _ => ?_
  rw [hu]
  refine .bind (.sure ((hS.ticks.read2 _ _).and (hs_freeIdle hn (by omega) d K A z)) (.read2 hB _ _)) fun v => ?_
  refine .pre (P := fun c => (At n (Steady K0) c ∧ At n (fun s => PktIdle 2 d K A s ∧ s.txSize = z) c) ∧ v.toNat = z)
      (HoareE.fact' fun hv => ?_) fun c h => ⟨⟨h.1, h.2.1⟩, h.2.2⟩
  refine .ite (fun h => ?_) fun _ => steady_loop hn hf hs hl K0 d A z hz u hu hd fuel buf fuel v hv K 0 (Nat.zero_le _)
  refine absurd ?_ hz
  rw [← hv, h]
  rfl

/-- `send_to`. -/
theorem steady_setDestination (K0 : List Packet) (u : UdpSocket) (hu : u.socket = sockOf n) (a : SockAddr4) :
    HoareE (fun s : UdpSocket × Chip => s.1 = u ∧ At n (Steady K0) s.2)
      (UdpSocket.setDestination (Chip.dev sched faults).bus a) (fun _ s => At n (Steady K0) s.2) (fun _ _ => False) := by
  have hB := faultless_chip (sched := sched) hf
  have hS := steady_stays hs hl K0
  unfold UdpSocket.setDestination
  refine .bind (Q := fun s t => s.1 = u ∧ t.1 = u ∧ At n (Steady K0) t.2) ⟨fun s h => ⟨h.1, h⟩⟩ fun s => HoareE.fact fun hsu => ?_
  have W : ∀ (b : U16) (d : List U8), (∀ i, i < d.length → b + BitVec.ofNat 16 i ≠ 0x00 ∧ b + BitVec.ofNat 16 i ≠ 0x01) →
      HoareE (fun t : UdpSocket × Chip => t.1 = u ∧ At n (Steady K0) t.2)
        (M.mapErr (UdpSocketError.other (E := E)) (M.onSnd ((Chip.dev sched faults).bus.write (sockOf n).register b d)))
        (fun _ t => t.1 = u ∧ At n (Steady K0) t.2) (fun _ _ => False) := by
    intro b d h
    refine .sure (.onSnd' u (hS.writeReg hn b d fun i hi s hs => ?_)) (.onSnd (.write hB _ _ _))
    exact hs.pokeReg (h i hi).1 fun e => absurd e (h i hi).2
  unfold Socket.setDestinationIp Socket.setDestinationPort
  rw [hsu]
  dsimp only
  rw [hu]
  refine .ite (fun _ => ?_) fun _ => .pure fun _ h => h.2
  refine .bind (W 0x0C _ fun i hi => ?_) fun _ => .bind (W 0x10 _ fun i hi => ?_) fun _ => ⟨fun s h => h.2⟩
  · have : i < 4 := hi
    match i, this with
    | 0, _ => decide
    | 1, _ => decide
    | 2, _ => decide
    | 3, _ => decide
  · have : i < 2 := hi
    match i, this with
    | 0, _ => decide
    | 1, _ => decide

theorem steady_sendTo (K0 K : List Packet) (A : List U8) (z : Nat) (hz : z ≠ 0) (qs : List Dgram) (u : UdpSocket)
    (hu : u.socket = sockOf n) (a : SockAddr4) (fuel : Nat) (buf : List U8) :
    HoareE (fun s : UdpSocket × Chip => s.1 = u ∧ At n (fun s => Steady K0 s ∧ UdpIdle K A z qs s) s.2 ∧ Coherent n u s.2)
      (UdpSocket.socketSendTo (Chip.dev sched faults).bus fuel a buf) (fun _ s => At n (Steady K0) s.2) (fun _ _ => False) := by
  unfold UdpSocket.socketSendTo
  have h1 := (steady_setDestination (sched := sched) (faults := faults) hn hf hs hl K0 u hu a).also
    (udp_setDestination (sched := sched) (faults := faults) hn (stable_udpIdle K A z qs)
      (fun s b x h1 h2 h3 h => h.setMem b x (dest_indifferent h1 h2 h3)) u hu a)
  refine .bind (Q := fun _ s => At n (Steady K0) s.2 ∧ s.1 = { u with destination := some a } ∧ At n (UdpIdle K A z qs) s.2)
    ⟨fun s h => ?_⟩ fun _ => ?_
  · have := h1.run s ⟨⟨h.1, h.2.1.1⟩, h.1, h.2.1.2, h.2.2⟩
    rw [M.mapErr_def]
    generalize UdpSocket.setDestination (Chip.dev sched faults).bus a s = r at this
    obtain ⟨_ | _ | _ | _, t⟩ := r
    · exact ⟨this.1, this.2.1, this.2.2.1⟩
    · exact this
    · trivial
    · trivial
  · constructor
    rintro ⟨u', c⟩ ⟨h1, h2, h3⟩
    dsimp only at h2
    subst h2
    have := (steady_sendAll (sched := sched) (faults := faults) hn hf hs hl K0 _ K A z hz
      { u with destination := some a } hu rfl fuel buf).run c ⟨h1, h3.idle, h3.size⟩
    show Res.postE _ _ (M.onSnd _ _)
    rw [M.onSnd_apply]
    dsimp only
    generalize UdpSocket.socketSendAll _ _ _ _ c = r at this ⊢
    obtain ⟨_ | _ | _ | _, t⟩ := r
    · exact this
    · exact this
    · trivial
    · trivial

end udp
end Spec
end W5500
