import Verif.Proofs.ChipSock
/-! # Transmitting -/

namespace W5500.Spec
open W5500 socketn
variable {E ε α : Type} {sched : Nat → List (Nat × Act)} {faults : Nat → Option (E × Nat)}

namespace Sock

theorem sub_add_toNat {a b : U16} {n : Nat} (h : n ≤ (a - b).toNat) :
    (a - (b + BitVec.ofNat 16 n)).toNat = (a - b).toNat - n := by
  simp only [BitVec.toNat_sub, BitVec.toNat_add, BitVec.toNat_ofNat] at *
  have := a.isLt
  have := b.isLt
  omega

theorem add_sub_toNat {a b : U16} {n : Nat} (h : (a - b).toNat + n < 65536) :
    (a + BitVec.ofNat 16 n - b).toNat = (a - b).toNat + n := by
  simp only [BitVec.toNat_sub, BitVec.toNat_add, BitVec.toNat_ofNat] at *
  have := a.isLt
  have := b.isLt
  omega

theorem sub_split {a b c : U16} (h : (b - a).toNat + (c - b).toNat < 65536) :
    (c - a).toNat = (b - a).toNat + (c - b).toNat := by
  simp only [BitVec.toNat_sub] at *
  have := a.isLt
  have := b.isLt
  have := c.isLt
  omega

theorem add_sub_ofNat (a b : U16) : b + BitVec.ofNat 16 (a - b).toNat = a := by
  rw [ofNat_toNat_self, BitVec.add_comm]; exact BitVec.sub_add_cancel _ _

/-- Bytes in the TX buffer up to the last SEND that are not acknowledged. -/
def used (s : Sock) : Nat := (s.txLimit - s.una).toNat

/-- Buffer size legal, and the unacknowledged and unsent bytes fit. -/
structure TxBase (s : Sock) : Prop where
  size : GoodSize s.txSize
  fits : (s.txRd - s.una).toNat + (s.txLimit - s.txRd).toNat ≤ s.txSize

theorem TxBase.used_eq {s : Sock} (h : TxBase s) : s.used = (s.txRd - s.una).toNat + (s.txLimit - s.txRd).toNat := by
  have := h.fits
  have := h.size.le
  exact sub_split (by omega)

theorem TxBase.used_le {s : Sock} (h : TxBase s) : s.used ≤ s.txSize := by rw [h.used_eq]; exact h.fits

theorem push_used (s : Sock) (bs : List U8) : (s.push bs).used = s.used := by
  unfold used; rw [push_txLimit, push_una]

theorem TxBase.push {s : Sock} (h : TxBase s) (bs : List U8) : TxBase (s.push bs) := by
  constructor
  · unfold txSize; rw [push_mem]; exact h.size
  · unfold txSize; rw [push_mem, push_txRd, push_una, push_txLimit]; exact h.fits

theorem act_txBase {s : Sock} (h : TxBase s) (a : Act) : TxBase (s.act a) ∧ (s.act a).used ≤ s.used := by
  have hf := h.fits
  have hz := h.size.le
  have hu := h.used_eq
  cases a with
  | arrive bs =>
    simp only [act]; split
    · exact ⟨h.push _, by rw [push_used]; exact Nat.le_refl _⟩
    · exact ⟨h, Nat.le_refl _⟩
  | datagram d =>
    simp only [act]; split
    · exact ⟨h.push _, by rw [push_used]; exact Nat.le_refl _⟩
    · exact ⟨h, Nat.le_refl _⟩
  | frame f =>
    simp only [act]; split
    · exact ⟨h.push _, by rw [push_used]; exact Nat.le_refl _⟩
    · exact ⟨h, Nat.le_refl _⟩
  | transmit k =>
    simp only [act]; split
    · refine ⟨⟨h.size, ?_⟩, Nat.le_refl _⟩
      show (s.txRd + BitVec.ofNat 16 (min k (s.txLimit - s.txRd).toNat) - s.una).toNat +
        (s.txLimit - (s.txRd + BitVec.ofNat 16 (min k (s.txLimit - s.txRd).toNat))).toNat ≤ s.txSize
      rw [sub_add_toNat (Nat.min_le_right _ _), add_sub_toNat (by omega)]
      omega
    · exact ⟨h, Nat.le_refl _⟩
  | ack k =>
    simp only [act]; split
    · have h1 : (s.txRd - (s.una + BitVec.ofNat 16 (min k (s.txRd - s.una).toNat))).toNat =
          (s.txRd - s.una).toNat - min k (s.txRd - s.una).toNat := sub_add_toNat (Nat.min_le_right _ _)
      have h2 : TxBase { s with una := s.una + BitVec.ofNat 16 (min k (s.txRd - s.una).toNat) } := by
        refine ⟨h.size, ?_⟩
        show (s.txRd - (s.una + _)).toNat + (s.txLimit - s.txRd).toNat ≤ s.txSize
        rw [h1]; omega
      refine ⟨h2, ?_⟩
      rw [h2.used_eq, hu]
      show (s.txRd - (s.una + _)).toNat + (s.txLimit - s.txRd).toNat ≤ _
      rw [h1]; omega
    · exact ⟨h, Nat.le_refl _⟩
  | emit d =>
    simp only [act]; split
    · refine ⟨⟨h.size, ?_⟩, ?_⟩
      · show (s.txLimit - s.txLimit).toNat + (s.txLimit - s.txLimit).toNat ≤ s.txSize
        rw [BitVec.sub_self]; exact Nat.zero_le _
      · show (s.txLimit - s.txLimit).toNat ≤ _
        rw [BitVec.sub_self]; exact Nat.zero_le _
    · exact ⟨h, Nat.le_refl _⟩
  | raise b => exact ⟨⟨h.size, h.fits⟩, Nat.le_refl _⟩
  | status x => exact ⟨⟨h.size, h.fits⟩, Nat.le_refl _⟩

theorem stable_txBase : StableS TxBase := fun _ a h => (act_txBase h a).1

theorem used_mono {s s' : Sock} (h : TxBase s) (e : s.Evolves s') : s'.used ≤ s.used := by
  have : StableS (fun t => TxBase t ∧ t.used ≤ s.used) :=
    fun t a ⟨h1, h2⟩ => ⟨(act_txBase h1 a).1, Nat.le_trans (act_txBase h1 a).2 h2⟩
  exact (this.evolves e ⟨h, Nat.le_refl _⟩).2

/-- The free-size register when nothing is written behind the last SEND. -/
theorem fsr_eq {s : Sock} (h : TxBase s) (hi : s.txWr = s.txLimit) : s.fsr.toNat = s.txSize - s.used := by
  have h1 := h.used_le
  have h2 := h.size.le
  unfold fsr
  rw [hi, BitVec.toNat_sub, BitVec.toNat_ofNat]
  show (2 ^ 16 - s.used + _) % _ = _
  omega

/-- What the environment of a transmission must respect: it is stable, it implies `TxBase`, it does not depend on
the free part of the TX memory nor on Sn_TX_WR. -/
structure TxFrame (G : Sock → Prop) : Prop where
  stable : StableS G
  base : ∀ s, G s → TxBase s
  pokeTx : ∀ s a x, G s → (∀ j, j < s.used → (s.una.toNat + j) % s.txSize ≠ a.toNat % s.txSize) → G (s.pokeTx a x)
  pokeWr : ∀ s (a : U16) x, a = 0x24 ∨ a = 0x25 → G s → G (s.pokeReg a x)

theorem pokeWr_eq (s : Sock) {a : U16} (x : U8) (h : a = 0x24 ∨ a = 0x25) :
    s.pokeReg a x = { s with mem := fun b => if b = a then x else s.mem b } := by
  rcases h with rfl | rfl <;> rfl

/-- Cells behind the used ones are free. -/
theorem free_cell {s : Sock} (h : TxBase s) {i k : Nat} (hk : s.used + k ≤ s.txSize) (hi : i < k) (j : Nat)
    (hj : j < s.used) :
    (s.una.toNat + j) % s.txSize ≠ (s.txLimit + BitVec.ofNat 16 i).toNat % s.txSize := by
  have := ring_cells_ne h.size.dvd s.una (m := s.used) (n := k) hk hj hi
  rw [show s.una + BitVec.ofNat 16 s.used = s.txLimit from add_sub_ofNat _ _] at this
  rwa [ptr_mod h.size.dvd]

/-- Writing the next payload byte extends the payload written so far. -/
theorem ring_poke {s : Sock} (hz : GoodSize s.txSize) {p : U16} {i : Nat} {x : U8} (hi : i < s.txSize) :
    ring (s.pokeTx (p + BitVec.ofNat 16 i) x).txMem s.txSize p (i + 1) = ring s.txMem s.txSize p i ++ [x] := by
  rw [ring_add hz.dvd]
  congr 1
  · apply ring_congr
    intro j hj
    show (if _ then _ else _) = _
    rw [if_neg]
    have := ring_cells_ne hz.dvd p (m := i) (n := 1) (by omega) hj (Nat.zero_lt_one)
    simpa using this
  · show [_] = [x]
    simp [pokeTx]

end Sock

open Sock

/-- Payload write: from a state where nothing is written behind the last SEND, `data` is stored behind it. -/
theorem hs_payload {n : Nat} (hn : n < 8) {G : Sock → Prop} (hG : TxFrame G) (p : U16) (data : List U8) :
    Hoare (At n fun s => G s ∧ s.txWr = p ∧ s.txLimit = p ∧ s.used + data.length ≤ s.txSize)
      ((Chip.dev sched faults).bus.write (sockOf n).txBuffer p data)
      (fun _ => At n fun s => G s ∧ s.txWr = p ∧ s.txLimit = p ∧ s.used + data.length ≤ s.txSize ∧
        ring s.txMem s.txSize p data.length = data)
      (At n fun s => G s ∧ s.txWr = p ∧ s.txLimit = p ∧ s.used + data.length ≤ s.txSize) := by
  have hst : ∀ i, StableS (fun s => G s ∧ s.txWr = p ∧ s.txLimit = p ∧ s.used + data.length ≤ s.txSize ∧
        ring s.txMem s.txSize p i = data.take i) := by
    rintro i s a ⟨h1, h2, h3, h4, h5⟩
    have := (act_txBase (hG.base s h1) a).2
    exact ⟨hG.stable s a h1, by rw [act_txWr]; exact h2, by rw [act_txLimit]; exact h3,
      by rw [act_txSize]; omega, by rw [act_txMem, act_txSize]; exact h5⟩
  have := hs_writeTx (sched := sched) (faults := faults) hn
    (I := fun i s => G s ∧ s.txWr = p ∧ s.txLimit = p ∧ s.used + data.length ≤ s.txSize ∧
        ring s.txMem s.txSize p i = data.take i) p data (fun i _ _ => hst i) (by
      rintro i hi s ⟨h1, h2, h3, h4, h5⟩
      have hb := hG.base s h1
      refine ⟨hG.pokeTx s _ _ h1 (fun j hj => ?_), h2, h3, h4, ?_⟩
      · rw [← h3]
        exact free_cell hb h4 hi j hj
      · have := ring_poke hb.size (p := p) (i := i) (x := data[i]) (by omega)
        show ring (s.pokeTx _ _).txMem s.txSize p (i + 1) = _
        rw [this, h5, List.take_succ_eq_append_getElem hi])
  refine this.conseq (fun c h => ?_) (fun _ c h => ?_) (fun c h => ?_)
  · obtain ⟨h1, h2, h3, h4⟩ := h
    exact ⟨h1, h2, h3, h4, by simp [ring_zero]⟩
  · obtain ⟨h1, h2, h3, h4, h5⟩ := h
    exact ⟨h1, h2, h3, h4, by rw [h5, List.take_length]⟩
  · obtain ⟨i, _, h1, h2, h3, h4, _⟩ := h
    exact ⟨h1, h2, h3, h4⟩

/-- Advancing Sn_TX_WR. -/
theorem hs_advance {n : Nat} (hn : n < 8) {G : Sock → Prop} (hG : TxFrame G) (p : U16) (data : List U8) :
    Hoare (At n fun s => G s ∧ s.txWr = p ∧ s.txLimit = p ∧ s.used + data.length ≤ s.txSize ∧
        ring s.txMem s.txSize p data.length = data)
      ((Chip.dev sched faults).bus.write (sockOf n).register 0x24 (toBeBytes (p + BitVec.ofNat 16 data.length)))
      (fun _ => At n fun s => G s ∧ s.txWr = p + BitVec.ofNat 16 data.length ∧ s.txLimit = p ∧
        s.used + data.length ≤ s.txSize ∧ ring s.txMem s.txSize p data.length = data)
      (At n fun s => G s ∧ s.txLimit = p) := by
  have hsz : ∀ (s : Sock) (a : U16) x, a = 0x24 ∨ a = 0x25 → (s.pokeReg a x).txSize = s.txSize := by
    intro s a x h
    rw [pokeWr_eq s x h]
    rcases h with rfl | rfl <;> rfl
  have hrest : ∀ (s : Sock) (a : U16) x, a = 0x24 ∨ a = 0x25 → (s.pokeReg a x).txLimit = s.txLimit ∧
      (s.pokeReg a x).used = s.used ∧ (s.pokeReg a x).txMem = s.txMem := by
    intro s a x h
    rw [pokeWr_eq s x h]
    exact ⟨rfl, rfl, rfl⟩
  have hst : ∀ T : (U16 → U8) → Prop, StableS (fun s => G s ∧ T s.mem ∧ s.txLimit = p ∧
      s.used + data.length ≤ s.txSize ∧ ring s.txMem s.txSize p data.length = data) := by
    rintro T s a ⟨h1, h2, h3, h4, h5⟩
    have := (act_txBase (hG.base s h1) a).2
    exact ⟨hG.stable s a h1, by rw [act_mem]; exact h2, by rw [act_txLimit]; exact h3,
      by rw [act_txSize]; omega, by rw [act_txMem, act_txSize]; exact h5⟩
  have := hs_write2 (sched := sched) (faults := faults) hn
    (P := fun s => G s ∧ s.txWr = p ∧ s.txLimit = p ∧ s.used + data.length ≤ s.txSize ∧
        ring s.txMem s.txSize p data.length = data)
    (P1 := fun s => G s ∧ s.mem 0x24 = (p + BitVec.ofNat 16 data.length).extractLsb' 8 8 ∧ s.txLimit = p ∧
      s.used + data.length ≤ s.txSize ∧ ring s.txMem s.txSize p data.length = data)
    (Q := fun s => G s ∧ s.txWr = p + BitVec.ofNat 16 data.length ∧ s.txLimit = p ∧
        s.used + data.length ≤ s.txSize ∧ ring s.txMem s.txSize p data.length = data)
    (hst (fun m => m 0x24 ++ m (0x24 + 1) = p))
    (hst (fun m => m 0x24 = (p + BitVec.ofNat 16 data.length).extractLsb' 8 8))
    0x24 (p + BitVec.ofNat 16 data.length)
    (by
      rintro s ⟨h1, h2, h3, h4, h5⟩
      obtain ⟨e1, e2, e3⟩ := hrest s 0x24 ((p + BitVec.ofNat 16 data.length).extractLsb' 8 8) (.inl rfl)
      have e4 := hsz s 0x24 ((p + BitVec.ofNat 16 data.length).extractLsb' 8 8) (.inl rfl)
      refine ⟨hG.pokeWr _ _ _ (.inl rfl) h1, ?_, ?_, ?_, ?_⟩
      · rw [pokeWr_eq s _ (.inl rfl)]; rfl
      · rw [e1]; exact h3
      · rw [e2, e4]; exact h4
      · rw [e3, e4]; exact h5)
    (by
      rintro s ⟨h1, h2, h3, h4, h5⟩
      obtain ⟨e1, e2, e3⟩ := hrest s 0x25 ((p + BitVec.ofNat 16 data.length).extractLsb' 0 8) (.inr rfl)
      have e4 := hsz s 0x25 ((p + BitVec.ofNat 16 data.length).extractLsb' 0 8) (.inr rfl)
      refine ⟨hG.pokeWr _ _ _ (.inr rfl) h1, ?_, ?_, ?_, ?_⟩
      · show Sock.txWr (s.pokeReg 0x25 _) = _
        rw [pokeWr_eq s _ (.inr rfl)]
        show (s.mem 0x24 ++ (p + BitVec.ofNat 16 data.length).extractLsb' 0 8 : BitVec (8 + 8)) = _
        rw [h2]
        exact whole _
      · show Sock.txLimit (s.pokeReg 0x25 _) = _
        rw [e1]; exact h3
      · show Sock.used (s.pokeReg 0x25 _) + _ ≤ Sock.txSize (s.pokeReg 0x25 _)
        rw [e2, e4]; exact h4
      · show ring (Sock.txMem (s.pokeReg 0x25 _)) (Sock.txSize (s.pokeReg 0x25 _)) _ _ = _
        rw [e3, e4]; exact h5)
  refine this.exc (fun c h => ?_)
  rcases h with ⟨h1, _, h2, _⟩ | ⟨h1, _, h2, _⟩ | ⟨h1, _, h2, _⟩ <;> exact ⟨h1, h2⟩

/-- Reading a 16-bit host register. -/
theorem hs_readMem {n : Nat} (hn : n < 8) {P : Sock → Prop} (hP : StableS P) (a : U16)
    (ha : a = 0x24 ∨ a = 0x28) :
    Hoare (At n P) ((Chip.dev sched faults).bus.read2 (sockOf n).register a)
      (fun v => At n fun s => P s ∧ v = s.reg16 a) (At n P) := by
  refine (hs_read2 hn hP a).post ?_
  rintro v c ⟨h1, s1, s2, _, _, e1, e2, h2⟩
  refine ⟨h1, ?_⟩
  have m2 : (c.socks n).mem = s2.mem := (stable_mem (fun m => m = s2.mem)).evolves e2 rfl
  have m1 : s2.mem = s1.mem := (stable_mem (fun m => m = s1.mem)).evolves e1 rfl
  rw [h2]
  unfold reg16
  rw [m2]
  rcases ha with rfl | rfl
  · show (s1.mem 0x24 ++ s2.mem 0x25 : BitVec (8 + 8)) = _
    rw [← m1]; rfl
  · show (s1.mem 0x28 ++ s2.mem 0x29 : BitVec (8 + 8)) = _
    rw [← m1]; rfl

/-- Reading the free size: never more than what is free at the end of the read. -/
theorem hs_readFree {n : Nat} (hn : n < 8) {P : Sock → Prop} (hP : StableS P)
    (hb : ∀ s, P s → TxBase s ∧ s.txWr = s.txLimit) :
    Hoare (At n P) ((Chip.dev sched faults).bus.read2 (sockOf n).register 0x20)
      (fun v => At n fun s => P s ∧ s.used + v.toNat ≤ s.txSize ∧
        ∃ s1 s2, P s1 ∧ P s2 ∧ s1.Evolves s2 ∧ s2.Evolves s ∧
          v.toNat = s1.fsr.toNat / 256 * 256 + s2.fsr.toNat % 256 ∧ s1.fsr.toNat ≤ s2.fsr.toNat) (At n P) := by
  refine (hs_read2 hn hP 0x20).post ?_
  rintro v c ⟨h1, s1, s2, p1, p2, e1, e2, h2⟩
  have hv : v.toNat = s1.fsr.toNat / 256 * 256 + s2.fsr.toNat % 256 := by
    rw [h2]
    exact torn _ _
  have f0 := fsr_eq (hb _ p1).1 (hb _ p1).2
  have f2 := fsr_eq (hb _ p2).1 (hb _ p2).2
  have u1 := used_mono (hb _ p1).1 e1
  have u2 := used_mono (hb _ p2).1 e2
  have z1 : s2.txSize = s1.txSize := (stable_mem (fun m => 1024 * (m 0x1F).toNat = s1.txSize)).evolves e1 rfl
  have z2 : (c.socks n).txSize = s2.txSize :=
    (stable_mem (fun m => 1024 * (m 0x1F).toNat = s2.txSize)).evolves e2 rfl
  have := (hb _ h1).1.used_le
  have := (hb _ p1).1.used_le
  have := (hb _ p2).1.used_le
  exact ⟨h1, by omega, s1, s2, p1, p2, e1, e2, hv, by omega⟩

/-- Writing Sn_IR only clears interrupt bits. -/
theorem hs_clearIr {n : Nat} (hn : n < 8) {P : Sock → Prop} (hP : StableS P) (x : U8)
    (h : ∀ s i, P s → P { s with ir := i }) :
    Hoare (At n P) ((Chip.dev sched faults).bus.write (sockOf n).register 0x02 [x]) (fun _ => At n P) (At n P) :=
  (hs_write1 (Q := P) hn hP 0x02 x (fun s hs => h s _ hs)).exc (fun _ h => h.elim id id)

/-- `while !has_interrupt(SendOk)? {}` -/
theorem hs_waitSendOk {n : Nat} (hn : n < 8) {P : Sock → Prop} (hP : StableS P) (fuel : Nat) :
    Hoare (At n P) (RawDevice.waitSendOk (Chip.dev sched faults).bus (sockOf n) fuel) (fun _ => At n P) (At n P) := by
  induction fuel with
  | zero => exact .outOfFuel (fun _ h => h)
  | succ k ih =>
    unfold RawDevice.waitSendOk Socket.hasInterrupt
    refine .bind (Q := fun _ => At n P) (.bind (Q := fun _ => At n P) ?_ fun x => .pure (fun _ h => h)) fun b => ?_
    · exact (hs_read1 hn hP _).post (fun _ _ h => h.1)
    · exact .ite (fun _ => .pure (fun _ h => h)) (fun _ => ih)

/-- A status or interrupt read only lets the environment act. -/
theorem hs_read1' {n : Nat} (hn : n < 8) {P : Sock → Prop} (hP : StableS P) (a : U16) :
    Hoare (At n P) ((Chip.dev sched faults).bus.read1 (sockOf n).register a) (fun _ => At n P) (At n P) :=
  (hs_read1 hn hP a).post (fun _ _ h => h.1)

end W5500.Spec

namespace W5500.Spec
open W5500 socketn Sock
variable {E ε α : Type} {sched : Nat → List (Nat × Act)} {faults : Nat → Option (E × Nat)}

/-- Two equal consecutive samples of a growing counter are a value it really had. -/
theorem two_samples {v1 v2 v3 v4 : U16} (h12 : v1.toNat ≤ v2.toNat) (h23 : v2.toNat ≤ v3.toNat)
    (h : ((v1.extractLsb' 8 8 : U8) ++ (v2.extractLsb' 0 8 : U8) : U16) =
      ((v3.extractLsb' 8 8 : U8) ++ (v4.extractLsb' 0 8 : U8) : U16)) :
    ((v1.extractLsb' 8 8 : U8) ++ (v2.extractLsb' 0 8 : U8) : U16) = v2 := by
  apply BitVec.eq_of_toNat_eq
  have := congrArg BitVec.toNat h
  rw [torn, torn] at this
  rw [torn]
  omega

/-- `get_receive_size` returns a value Sn_RX_RSR really had during the call. -/
theorem hs_receiveSize {n : Nat} (hn : n < 8) {P : Sock → Prop} (hP : StableS P)
    (hb : ∀ s, P s → RxFits s) (fuel : Nat) :
    Hoare (At n P) (Socket.getReceiveSize (Chip.dev sched faults).bus (sockOf n) fuel)
      (fun v => At n fun s => P s ∧ ∃ s0, P s0 ∧ s0.Evolves s ∧ v = s0.rsr) (At n P) := by
  induction fuel with
  | zero => exact .outOfFuel (fun _ h => h)
  | succ k ih =>
    unfold Socket.getReceiveSize
    refine .bind (hs_read2 hn hP _) fun v => ?_
    have hP' : StableS (fun s => P s ∧ ∃ s1 s2, P s1 ∧ P s2 ∧ s1.Evolves s2 ∧ s2.Evolves s ∧
        v = s1.peekReg 0x26 ++ s2.peekReg (0x26 + 1)) := by
      rintro s a ⟨h1, s1, s2, p1, p2, e1, e2, h2⟩
      exact ⟨hP s a h1, s1, s2, p1, p2, e1, e2.trans (.act s a), h2⟩
    refine .bind ((hs_read2 hn hP' _).exc fun c h => h.1) fun w => ?_
    refine .ite (fun heq => .pure ?_) (fun _ => ih.pre fun c h => h.1.1)
    rintro c ⟨⟨h1, _⟩, s3, s4, ⟨p3, s1, s2, p1, p2, e1, e2, hv⟩, ⟨p4, _⟩, e3, e4, hw⟩
    refine ⟨h1, s2, p2, (e2.trans e3).trans e4, ?_⟩
    rw [hw] at heq
    rw [hv] at heq ⊢
    exact two_samples (rsr_mono' (hb _ p1) e1) (rsr_mono' (hb _ p2) e2) heq

end W5500.Spec
