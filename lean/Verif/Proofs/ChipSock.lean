import Verif.Proofs.Chip
/-! # Frames on one socket of the chip -/

namespace W5500.Spec
open W5500 socketn
variable {E ε α : Type} {sched : Nat → List (Nat × Act)} {faults : Nat → Option (E × Nat)}

/-- The handle of socket `n`. -/
abbrev sockOf (n : Nat) : Socket := Socket.new (BitVec.ofNat 8 n)

/-- A predicate on socket `n` of the chip. -/
def At (n : Nat) (P : Sock → Prop) : Chip → Prop := fun c => P (c.socks n)

/-- Preserved by the environment. -/
def StableS (P : Sock → Prop) : Prop := ∀ s a, P s → P (s.act a)

theorem StableS.at {P : Sock → Prop} (h : StableS P) (n : Nat) : Chip.Stable (At n P) := Chip.Stable.sock n h

theorem StableS.evolves {P : Sock → Prop} (h : StableS P) {s s' : Sock} (e : s.Evolves s') (hp : P s) : P s' :=
  e.induct h hp

theorem StableS.and {P Q : Sock → Prop} (h : StableS P) (h' : StableS Q) : StableS (fun s => P s ∧ Q s) :=
  fun s a ⟨x, y⟩ => ⟨h s a x, h' s a y⟩

theorem StableS.const (p : Prop) : StableS (fun _ => p) := fun _ _ h => h

theorem StableS.true : StableS (fun _ => True) := fun _ _ h => h

namespace Chip

theorem reg_toNat : ∀ n, n < 8 → ((sockOf n).register.setWidth 5).toNat = 4 * n + 1 := by decide
theorem tx_toNat : ∀ n, n < 8 → ((sockOf n).txBuffer.setWidth 5).toNat = 4 * n + 2 := by decide
theorem rx_toNat : ∀ n, n < 8 → ((sockOf n).rxBuffer.setWidth 5).toNat = 4 * n + 3 := by decide

theorem ne_zero_of_toNat {b : BitVec 5} (h : b.toNat ≠ 0) : b ≠ 0 := by
  rintro rfl; simp at h

theorem peek_reg {n : Nat} (hn : n < 8) (c : Chip) (a : U16) :
    c.peek ((sockOf n).register.setWidth 5) a = (c.socks n).peekReg a := by
  have h := reg_toNat n hn
  unfold peek
  rw [if_neg (ne_zero_of_toNat (by omega)), if_pos (by omega), show _ / 4 = n by omega]

theorem poke_reg {n : Nat} (hn : n < 8) (c : Chip) (a : U16) (x : U8) :
    c.poke ((sockOf n).register.setWidth 5) a x = c.setSock n ((c.socks n).pokeReg a x) := by
  have h := reg_toNat n hn
  unfold poke
  rw [if_neg (ne_zero_of_toNat (by omega)), if_pos (by omega), show _ / 4 = n by omega]

theorem poke_tx {n : Nat} (hn : n < 8) (c : Chip) (a : U16) (x : U8) :
    c.poke ((sockOf n).txBuffer.setWidth 5) a x = c.setSock n ((c.socks n).pokeTx a x) := by
  have h := tx_toNat n hn
  unfold poke
  rw [if_neg (ne_zero_of_toNat (by omega)), if_neg (by omega), if_pos (by omega), show _ / 4 = n by omega]

theorem peek_rx {n : Nat} (hn : n < 8) (c : Chip) (a : U16) :
    c.peek ((sockOf n).rxBuffer.setWidth 5) a = (c.socks n).peekRx a := by
  have h := rx_toNat n hn
  unfold peek
  rw [if_neg (ne_zero_of_toNat (by omega)), if_neg (by omega), if_neg (by omega), if_pos (by omega),
    show _ / 4 = n by omega]

end Chip

/-! ## Rules -/

theorem hs_read1 {n : Nat} (hn : n < 8) {P : Sock → Prop} (hP : StableS P) (a : U16) :
    Hoare (At n P) ((Chip.dev sched faults).bus.read1 (sockOf n).register a)
      (fun x => At n fun s => P s ∧ ∃ s0, P s0 ∧ s0.Evolves s ∧ x = s0.peekReg a) (At n P) := by
  refine (Chip.hoare_read1 (hP.at n) _ a).post ?_
  rintro x c ⟨h1, c0, h2, h3, h4⟩
  exact ⟨h1, c0.socks n, h2, h3.socks n, by rw [h4, Chip.peek_reg hn]⟩

theorem hs_read2 {n : Nat} (hn : n < 8) {P : Sock → Prop} (hP : StableS P) (a : U16) :
    Hoare (At n P) ((Chip.dev sched faults).bus.read2 (sockOf n).register a)
      (fun v => At n fun s => P s ∧ ∃ s1 s2, P s1 ∧ P s2 ∧ s1.Evolves s2 ∧ s2.Evolves s ∧
        v = s1.peekReg a ++ s2.peekReg (a + 1)) (At n P) := by
  refine (Chip.hoare_read2 (hP.at n) _ a).post ?_
  rintro x c ⟨h1, c1, c2, h2, h3, h4, h5, h6⟩
  exact ⟨h1, c1.socks n, c2.socks n, h2, h3, h4.socks n, h5.socks n, by
    rw [h6, Chip.peek_reg hn, Chip.peek_reg hn]⟩

/-- Writing registers, with an assertion for every byte position. -/
theorem hs_write {n : Nat} (hn : n < 8) {I : Nat → Sock → Prop} (a : U16) (data : List U8)
    (hst : ∀ i, i ≤ data.length → (i = 0 ∨ i < data.length) → StableS (I i))
    (hstep : ∀ i (h : i < data.length) s, I i s → I (i + 1) (s.pokeReg (a + BitVec.ofNat 16 i) data[i])) :
    Hoare (At n (I 0)) ((Chip.dev sched faults).bus.write (sockOf n).register a data)
      (fun _ => At n (I data.length)) (At n fun s => ∃ i, i ≤ data.length ∧ I i s) :=
  Chip.hoare_write (I := fun i => At n (I i)) _ a data (fun i h h' => (hst i h h').at n)
    (fun i h c hc => by
      show I (i + 1) _
      rw [Chip.poke_reg hn, Chip.setSock_self]
      exact hstep i h _ hc)

theorem hs_write1 {n : Nat} (hn : n < 8) {P Q : Sock → Prop} (hP : StableS P) (a : U16) (x : U8)
    (h : ∀ s, P s → Q (s.pokeReg a x)) :
    Hoare (At n P) ((Chip.dev sched faults).bus.write (sockOf n).register a [x])
      (fun _ => At n Q) (At n fun s => P s ∨ Q s) := by
  have key : ∀ c, At n P c → At n Q (c.poke ((sockOf n).register.setWidth 5) a x) := by
    intro c hc
    show Q _
    rw [Chip.poke_reg hn, Chip.setSock_self]
    exact h _ hc
  refine (Chip.hoare_write1 (hP.at n) _ a x).conseq (fun _ h => h) ?_ ?_
  · rintro _ _ ⟨c, hc, rfl⟩
    exact key c hc
  · rintro _ (hc | ⟨c, hc, rfl⟩)
    · exact .inl hc
    · exact .inr (key c hc)

theorem hs_write2 {n : Nat} (hn : n < 8) {P P1 Q : Sock → Prop} (hP : StableS P) (hP1 : StableS P1) (a : U16)
    (v : U16) (h1 : ∀ s, P s → P1 (s.pokeReg a (v.extractLsb' 8 8)))
    (h2 : ∀ s, P1 s → Q (s.pokeReg (a + 1) (v.extractLsb' 0 8))) :
    Hoare (At n P) ((Chip.dev sched faults).bus.write (sockOf n).register a (toBeBytes v))
      (fun _ => At n Q) (At n fun s => P s ∨ P1 s ∨ Q s) :=
  Chip.hoare_write2 (hP.at n) (hP1.at n) _ a _ _
    (fun c hc => by
      show P1 _
      rw [Chip.poke_reg hn, Chip.setSock_self]
      exact h1 _ hc)
    (fun c hc => by
      show Q _
      rw [Chip.poke_reg hn, Chip.setSock_self]
      exact h2 _ hc)

/-- Writing TX memory, with an assertion for every byte position. -/
theorem hs_writeTx {n : Nat} (hn : n < 8) {I : Nat → Sock → Prop} (p : U16) (data : List U8)
    (hst : ∀ i, i ≤ data.length → (i = 0 ∨ i < data.length) → StableS (I i))
    (hstep : ∀ i (h : i < data.length) s, I i s → I (i + 1) (s.pokeTx (p + BitVec.ofNat 16 i) data[i])) :
    Hoare (At n (I 0)) ((Chip.dev sched faults).bus.write (sockOf n).txBuffer p data)
      (fun _ => At n (I data.length)) (At n fun s => ∃ i, i ≤ data.length ∧ I i s) :=
  Chip.hoare_write (I := fun i => At n (I i)) _ p data (fun i h h' => (hst i h h').at n)
    (fun i h c hc => by
      show I (i + 1) _
      rw [Chip.poke_tx hn, Chip.setSock_self]
      exact hstep i h _ hc)

/-- Reading known, stable cells of RX memory. -/
theorem hs_readRx {n : Nat} (hn : n < 8) {P : Sock → Prop} (hP : StableS P) (p : U16) (bs : List U8)
    (hb : ∀ s, P s → ∀ i (h : i < bs.length), s.peekRx (p + BitVec.ofNat 16 i) = bs[i]) :
    Hoare (fun s : List U8 × Chip => At n P s.2 ∧ s.1.length = bs.length)
      ((Chip.dev sched faults).bus.readSlice (sockOf n).rxBuffer p) (fun _ s => At n P s.2 ∧ s.1 = bs)
      (fun s => At n P s.2) :=
  Chip.hoare_readSlice (hP.at n) _ p bs (fun c hc i h => by rw [Chip.peek_rx hn]; exact hb _ hc i h)

/-- Reading at least the known, stable cells. -/
theorem hs_readRxPrefix {n : Nat} (hn : n < 8) {P : Sock → Prop} (hP : StableS P) (p : U16) (k : Nat) (bs : List U8)
    (hk : bs.length ≤ k)
    (hb : ∀ s, P s → ∀ i (h : i < bs.length), s.peekRx (p + BitVec.ofNat 16 i) = bs[i]) :
    Hoare (fun s : List U8 × Chip => At n P s.2 ∧ s.1.length = k)
      ((Chip.dev sched faults).bus.readSlice (sockOf n).rxBuffer p)
      (fun _ s => At n P s.2 ∧ s.1.length = k ∧ s.1.take bs.length = bs)
      (fun s => At n P s.2) :=
  Chip.hoare_readSlicePrefix (hP.at n) _ p k bs hk (fun c hc i h => by rw [Chip.peek_rx hn]; exact hb _ hc i h)

/-- Reading known, stable cells of RX memory into a local array. -/
theorem hs_readRxBuf {n : Nat} (hn : n < 8) {P : Sock → Prop} (hP : StableS P) (p : U16) (init bs : List U8)
    (hb : ∀ s, P s → ∀ i (h : i < bs.length), s.peekRx (p + BitVec.ofNat 16 i) = bs[i])
    (hl : init.length ≤ bs.length) :
    Hoare (At n P) ((Chip.dev sched faults).bus.readBuf (sockOf n).rxBuffer p init)
      (fun d c => At n P c ∧ d = bs.take init.length) (At n P) := by
  refine (Chip.hoare_readBuf (hP.at n) _ p init).post ?_
  rintro d c ⟨h1, h2, c0, h3, h4⟩
  refine ⟨h1, ?_⟩
  rw [← h2]
  exact Chip.samples_known (hP.at n) (fun c hc i h => by rw [Chip.peek_rx hn]; exact hb _ hc i h) h3 h4 (by omega)

/-! ## What events leave alone -/

namespace Sock

theorem push_mem (s : Sock) (bs : List U8) : (s.push bs).mem = s.mem := by unfold push; split <;> rfl
theorem push_txMem (s : Sock) (bs : List U8) : (s.push bs).txMem = s.txMem := by unfold push; split <;> rfl
theorem push_txLimit (s : Sock) (bs : List U8) : (s.push bs).txLimit = s.txLimit := by unfold push; split <;> rfl
theorem push_txRd (s : Sock) (bs : List U8) : (s.push bs).txRd = s.txRd := by unfold push; split <;> rfl
theorem push_una (s : Sock) (bs : List U8) : (s.push bs).una = s.una := by unfold push; split <;> rfl
theorem push_stream (s : Sock) (bs : List U8) : (s.push bs).stream = s.stream := by unfold push; split <;> rfl
theorem push_packets (s : Sock) (bs : List U8) : (s.push bs).packets = s.packets := by unfold push; split <;> rfl
theorem push_rxRd (s : Sock) (bs : List U8) : (s.push bs).rxRd = s.rxRd := by unfold push; split <;> rfl
theorem push_sr (s : Sock) (bs : List U8) : (s.push bs).sr = s.sr := by unfold push; split <;> rfl

theorem act_mem (s : Sock) (a : Act) : (s.act a).mem = s.mem := by
  cases a <;> simp only [act] <;> (repeat' split) <;> simp [push_mem]
theorem act_txMem (s : Sock) (a : Act) : (s.act a).txMem = s.txMem := by
  cases a <;> simp only [act] <;> (repeat' split) <;> simp [push_txMem]
theorem act_txLimit (s : Sock) (a : Act) : (s.act a).txLimit = s.txLimit := by
  cases a <;> simp only [act] <;> (repeat' split) <;> simp [push_txLimit]
theorem act_rxRd (s : Sock) (a : Act) : (s.act a).rxRd = s.rxRd := by
  cases a <;> simp only [act] <;> (repeat' split) <;> simp [push_rxRd]

theorem act_proto (s : Sock) (a : Act) : (s.act a).proto = s.proto := by unfold proto; rw [act_mem]
theorem act_txSize (s : Sock) (a : Act) : (s.act a).txSize = s.txSize := by unfold txSize; rw [act_mem]
theorem act_rxSize (s : Sock) (a : Act) : (s.act a).rxSize = s.rxSize := by unfold rxSize; rw [act_mem]
theorem act_txWr (s : Sock) (a : Act) : (s.act a).txWr = s.txWr := by unfold txWr reg16; rw [act_mem]
theorem act_rxRdReg (s : Sock) (a : Act) : (s.act a).rxRdReg = s.rxRdReg := by unfold rxRdReg reg16; rw [act_mem]

/-- Predicates on the host registers are stable. -/
theorem stable_mem (P : (U16 → U8) → Prop) : StableS (fun s => P s.mem) := by
  intro s a h
  show P _
  rwa [act_mem]

theorem GoodSize.dvd {n : Nat} (h : GoodSize n) : n ∣ 65536 := by
  rcases h with rfl | rfl | rfl | rfl | rfl <;> decide

theorem GoodSize.le {n : Nat} (h : GoodSize n) : n ≤ 16384 := by
  rcases h with rfl | rfl | rfl | rfl | rfl <;> decide

theorem GoodSize.pos {n : Nat} (h : GoodSize n) : 1024 ≤ n := by
  rcases h with rfl | rfl | rfl | rfl | rfl <;> decide

/-! ## Receiving -/

/-- `A`: bytes that were released (by RECV) or discarded so far; the rest of what arrived is in the queue. -/
structure RxCore (A : List U8) (s : Sock) : Prop where
  size : GoodSize s.rxSize
  fits : s.rsr.toNat ≤ s.rxSize
  arrived : s.arrived = A ++ s.queue

/-- Buffer size legal, and the queued bytes fit. -/
structure RxFits (s : Sock) : Prop where
  size : GoodSize s.rxSize
  fits : s.rsr.toNat ≤ s.rxSize

theorem RxCore.rxFits {A : List U8} {s : Sock} (h : RxCore A s) : RxFits s := ⟨h.size, h.fits⟩

theorem queue_length (s : Sock) : s.queue.length = s.rsr.toNat := ring_length _ _ _ _

theorem ofNat_toNat_self (x : U16) : BitVec.ofNat 16 x.toNat = x := by simp

theorem add_rsr (s : Sock) : s.rxRd + s.rsr = s.rxWr := by unfold rsr; rw [BitVec.add_comm]; exact BitVec.sub_add_cancel _ _

theorem push_queue {s : Sock} (h : RxFits s) {bs : List U8} (hf : s.rsr.toNat + bs.length ≤ s.rxSize) :
    (s.push bs).queue = s.queue ++ bs ∧ (s.push bs).rsr.toNat = s.rsr.toNat + bs.length := by
  have hsz := h.size.le
  have hr : (s.push bs).rsr = s.rsr + BitVec.ofNat 16 bs.length := by
    rw [push, if_pos hf]
    show s.rxWr + BitVec.ofNat 16 bs.length - s.rxRd = s.rxWr - s.rxRd + BitVec.ofNat 16 bs.length
    rw [BitVec.sub_eq_add_neg, BitVec.sub_eq_add_neg, BitVec.add_assoc, BitVec.add_assoc,
      BitVec.add_comm (BitVec.ofNat 16 bs.length)]
  have hn : (s.push bs).rsr.toNat = s.rsr.toNat + bs.length := by
    rw [hr, BitVec.toNat_add, BitVec.toNat_ofNat]
    omega
  refine ⟨?_, hn⟩
  unfold queue
  rw [hn]
  have := ring_append_store h.size.dvd s.rxMem s.rxRd s.rsr.toNat bs hf
  rw [ofNat_toNat_self, add_rsr] at this
  rw [← this, push, if_pos hf]
  rfl

theorem push_rxCore {A : List U8} {s : Sock} (h : RxCore A s) (bs : List U8) : RxCore A (s.push bs) := by
  by_cases hf : s.rsr.toNat + bs.length ≤ s.rxSize
  · obtain ⟨h1, h2⟩ := push_queue h.rxFits hf
    have hs : (s.push bs).rxSize = s.rxSize := by unfold rxSize; rw [push_mem]
    refine ⟨by rw [hs]; exact h.size, by rw [hs, h2]; exact hf, ?_⟩
    rw [h1, ← List.append_assoc, ← h.arrived]
    rw [push, if_pos hf]
  · rw [push, if_neg hf]; exact h

/-- The queue only grows at its end. -/
theorem push_prefix {A : List U8} {s : Sock} (h : RxCore A s) (bs : List U8) :
    ∃ more, (s.push bs).queue = s.queue ++ more := by
  by_cases hf : s.rsr.toNat + bs.length ≤ s.rxSize
  · exact ⟨bs, (push_queue h.rxFits hf).1⟩
  · exact ⟨[], by rw [push, if_neg hf, List.append_nil]⟩

theorem act_rx {A : List U8} {s : Sock} (h : RxCore A s) (a : Act) :
    RxCore A (s.act a) ∧ ∃ more, (s.act a).queue = s.queue ++ more := by
  have same : ∀ s' : Sock, s'.mem = s.mem → s'.rxRd = s.rxRd → s'.rxWr = s.rxWr → s'.rxMem = s.rxMem →
      s'.arrived = s.arrived → RxCore A s' ∧ ∃ more, s'.queue = s.queue ++ more := by
    intro s' h1 h2 h3 h4 h5
    have hq : s'.queue = s.queue := by unfold queue rsr rxSize; rw [h1, h2, h3, h4]
    have hs : s'.rxSize = s.rxSize := by unfold rxSize; rw [h1]
    have hr : s'.rsr = s.rsr := by unfold rsr; rw [h2, h3]
    exact ⟨⟨by rw [hs]; exact h.size, by rw [hs, hr]; exact h.fits, by rw [hq, h5]; exact h.arrived⟩,
      [], by rw [hq, List.append_nil]⟩
  cases a with
  | arrive bs => 
    simp only [act]
    split
    · exact ⟨push_rxCore h _, push_prefix h _⟩
    · exact ⟨h, [], by simp⟩
  | datagram d => 
    simp only [act]
    split
    · exact ⟨push_rxCore h _, push_prefix h _⟩
    · exact ⟨h, [], by simp⟩
  | frame f => 
    simp only [act]
    split
    · exact ⟨push_rxCore h _, push_prefix h _⟩
    · exact ⟨h, [], by simp⟩
  | transmit k => 
    simp only [act]
    split
    · exact same _ rfl rfl rfl rfl rfl
    · exact ⟨h, [], by simp⟩
  | ack k => 
    simp only [act]
    split
    · exact same _ rfl rfl rfl rfl rfl
    · exact ⟨h, [], by simp⟩
  | emit d => 
    simp only [act]
    split
    · exact same _ rfl rfl rfl rfl rfl
    · exact ⟨h, [], by simp⟩
  | raise b => exact same _ rfl rfl rfl rfl rfl
  | status x => exact same _ rfl rfl rfl rfl rfl

theorem stable_rxCore (A : List U8) : StableS (RxCore A) := fun _ a h => (act_rx h a).1

/-- A known prefix of the queue stays. -/
theorem stable_queue (A bs : List U8) : StableS (fun s => RxCore A s ∧ bs <+: s.queue) := by
  rintro s a ⟨h, t, ht⟩
  obtain ⟨h1, more, h2⟩ := act_rx h a
  exact ⟨h1, t ++ more, by rw [h2, ← ht, List.append_assoc]⟩

theorem queue_mono {A : List U8} {s s' : Sock} (h : RxCore A s) (e : s.Evolves s') : s.queue <+: s'.queue := by
  have : RxCore A s' ∧ s.queue <+: s'.queue := (stable_queue A s.queue).evolves e ⟨h, List.prefix_refl _⟩
  exact this.2

theorem act_rxFits {s : Sock} (h : RxFits s) (a : Act) : RxFits (s.act a) ∧ s.rsr.toNat ≤ (s.act a).rsr.toNat := by
  have hpush : ∀ bs, RxFits (s.push bs) ∧ s.rsr.toNat ≤ (s.push bs).rsr.toNat := by
    intro bs
    by_cases hf : s.rsr.toNat + bs.length ≤ s.rxSize
    · obtain ⟨_, h2⟩ := push_queue h hf
      have hs : (s.push bs).rxSize = s.rxSize := by unfold rxSize; rw [push_mem]
      exact ⟨⟨by rw [hs]; exact h.size, by rw [hs, h2]; exact hf⟩, by omega⟩
    · rw [push, if_neg hf]; exact ⟨h, Nat.le_refl _⟩
  have same : ∀ s' : Sock, s'.mem = s.mem → s'.rxRd = s.rxRd → s'.rxWr = s.rxWr →
      RxFits s' ∧ s.rsr.toNat ≤ s'.rsr.toNat := by
    intro s' h1 h2 h3
    have hs : s'.rxSize = s.rxSize := by unfold rxSize; rw [h1]
    have hr : s'.rsr = s.rsr := by unfold rsr; rw [h2, h3]
    exact ⟨⟨by rw [hs]; exact h.size, by rw [hs, hr]; exact h.fits⟩, by rw [hr]; exact Nat.le_refl _⟩
  cases a <;> simp only [act] <;> (repeat' split) <;> first | exact hpush _ | exact same _ rfl rfl rfl

theorem stable_rxFits : StableS RxFits := fun _ a h => (act_rxFits h a).1

theorem rsr_mono' {s s' : Sock} (h : RxFits s) (e : s.Evolves s') : s.rsr.toNat ≤ s'.rsr.toNat := by
  have : StableS (fun t => RxFits t ∧ s.rsr.toNat ≤ t.rsr.toNat) :=
    fun t a ⟨h1, h2⟩ => ⟨(act_rxFits h1 a).1, Nat.le_trans h2 (act_rxFits h1 a).2⟩
  exact (this.evolves e ⟨h, Nat.le_refl _⟩).2

theorem rsr_mono {A : List U8} {s s' : Sock} (h : RxCore A s) (e : s.Evolves s') : s.rsr.toNat ≤ s'.rsr.toNat := by
  rw [← queue_length, ← queue_length]
  exact (queue_mono h e).length_le

/-- The cells of a known prefix of the queue. -/
theorem peekRx_queue {s : Sock} (hd : s.rxSize ∣ 65536) {bs : List U8} (h : bs <+: s.queue) (i : Nat)
    (hi : i < bs.length) : s.peekRx (s.rxRd + BitVec.ofNat 16 i) = bs[i] := by
  have hl := h.length_le
  rw [queue_length] at hl
  rw [h.getElem hi]
  unfold queue peekRx
  rw [ring_get _ _ _ _ _ (by omega), ptr_mod hd]

/-! ## Torn samples -/

theorem torn (v w : U16) : ((v.extractLsb' 8 8 : U8) ++ (w.extractLsb' 0 8 : U8) : U16).toNat =
    v.toNat / 256 * 256 + w.toNat % 256 := by
  have h : ∀ a b : U8, (a ++ b : BitVec 16).toNat = a.toNat * 256 + b.toNat := by
    intro a b
    rw [BitVec.toNat_append, Nat.shiftLeft_eq]
    rw [Nat.mul_comm]
    exact (Nat.two_pow_add_eq_or_of_lt b.isLt a.toNat).symm
  have h1 : (v.extractLsb' 8 8).toNat = v.toNat / 256 := by
    rw [BitVec.extractLsb'_toNat, Nat.shiftRight_eq_div_pow]
    have := v.isLt
    omega
  have h2 : (w.extractLsb' 0 8).toNat = w.toNat % 256 := by
    rw [BitVec.extractLsb'_toNat, Nat.shiftRight_zero]
  rw [h, h1, h2]

theorem whole (v : U16) : ((v.extractLsb' 8 8 : U8) ++ (v.extractLsb' 0 8 : U8) : U16) = v := by
  apply BitVec.eq_of_toNat_eq
  rw [torn]
  omega

end Sock
end W5500.Spec
