import Verif.Proofs.Ring
import Verif.Proofs.Hoare
/-! # Frames on the chip -/

namespace W5500.Spec
open W5500
variable {E : Type}

/-- `s'` is reached from `s` by environment events. -/
def Sock.Evolves (s s' : Sock) : Prop := ∃ acts : List Act, s' = acts.foldl Sock.act s

theorem Sock.Evolves.refl (s : Sock) : s.Evolves s := ⟨[], rfl⟩

theorem Sock.Evolves.trans {s t u : Sock} (h : s.Evolves t) (h' : t.Evolves u) : s.Evolves u := by
  obtain ⟨a, rfl⟩ := h
  obtain ⟨b, rfl⟩ := h'
  exact ⟨a ++ b, by rw [List.foldl_append]⟩

theorem Sock.Evolves.act (s : Sock) (a : Act) : s.Evolves (s.act a) := ⟨[a], rfl⟩

/-- A predicate preserved by every event is preserved by evolution. -/
theorem Sock.Evolves.induct {P : Sock → Prop} (hP : ∀ s a, P s → P (s.act a)) {s s' : Sock} (h : s.Evolves s')
    (hs : P s) : P s' := by
  obtain ⟨acts, rfl⟩ := h
  induction acts generalizing s with
  | nil => exact hs
  | cons a acts ih => exact ih (hP s a hs)

namespace Chip

/-- Environment events on all sockets. -/
structure Evolves (c c' : Chip) : Prop where
  cmem : c'.cmem = c.cmem
  socks : ∀ n, (c.socks n).Evolves (c'.socks n)

theorem Evolves.refl (c : Chip) : c.Evolves c := ⟨rfl, fun _ => .refl _⟩

theorem Evolves.trans {c d e : Chip} (h : c.Evolves d) (h' : d.Evolves e) : c.Evolves e :=
  ⟨h'.cmem.trans h.cmem, fun n => (h.socks n).trans (h'.socks n)⟩

theorem setSock_self (c : Chip) (n : Nat) (s : Sock) : (c.setSock n s).socks n = s := by
  simp [setSock]

theorem setSock_other (c : Chip) (n m : Nat) (s : Sock) (h : m ≠ n) : (c.setSock n s).socks m = c.socks m := by
  simp [setSock, h]

theorem setSock_cmem (c : Chip) (n : Nat) (s : Sock) : (c.setSock n s).cmem = c.cmem := rfl

theorem event_evolves (c : Chip) (e : Nat × Act) : c.Evolves (c.event e) := by
  refine ⟨rfl, fun n => ?_⟩
  by_cases h : n = e.1
  · subst h
    rw [event, setSock_self]
    exact .act _ _
  · rw [event, setSock_other _ _ _ _ h]
    exact .refl _

theorem tick_evolves (sched : Nat → List (Nat × Act)) (c : Chip) : c.Evolves (c.tick sched) := by
  have : ∀ (l : List (Nat × Act)) (c : Chip), c.Evolves (l.foldl event c) := by
    intro l
    induction l with
    | nil => exact fun c => .refl c
    | cons e l ih => exact fun c => (event_evolves c e).trans (ih _)
  exact ⟨(this _ c).cmem, (this _ c).socks⟩

theorem txn_evolves (c : Chip) (k : Nat) : c.Evolves { c with txn := k } := ⟨rfl, fun _ => .refl _⟩

/-- Predicates that the environment cannot break. -/
def Stable (P : Chip → Prop) : Prop := ∀ c c', c.Evolves c' → P c → P c'

theorem Stable.and {P Q : Chip → Prop} (h : Stable P) (h' : Stable Q) : Stable (fun c => P c ∧ Q c) :=
  fun c c' e ⟨a, b⟩ => ⟨h c c' e a, h' c c' e b⟩

theorem Stable.reach {P : Chip → Prop} (h : Stable P) (c0 : Chip) : Stable (fun c => P c ∧ c0.Evolves c) :=
  fun c c' e ⟨a, b⟩ => ⟨h c c' e a, b.trans e⟩

theorem Stable.const (p : Prop) : Stable (fun _ => p) := fun _ _ _ h => h

theorem Stable.ex {ι : Type} {P : ι → Chip → Prop} (h : ∀ i, Stable (P i)) : Stable (fun c => ∃ i, P i c) :=
  fun c c' e ⟨i, a⟩ => ⟨i, h i c c' e a⟩

/-- Predicates on one socket. -/
theorem Stable.sock {P : Sock → Prop} (n : Nat) (h : ∀ s a, P s → P (s.act a)) : Stable (fun c => P (c.socks n)) :=
  fun _ _ e hp => (e.socks n).induct h hp

variable {sched : Nat → List (Nat × Act)} {faults : Nat → Option (E × Nat)}

/-! ## Reads -/

/-- `d` was sampled byte by byte while the chip evolved from `c` to `c'`. -/
inductive Samples (b : BitVec 5) : U16 → Chip → List U8 → Chip → Prop where
  | nil {a c c'} : c.Evolves c' → Samples b a c [] c'
  | cons {a c c1 c' d} : c.Evolves c1 → Samples b (a + 1) c1 d c' → Samples b a c (c1.peek b a :: d) c'

theorem Samples.evolves {b : BitVec 5} {a : U16} {c c' : Chip} {d : List U8} (h : Samples b a c d c') :
    c.Evolves c' := by
  induction h with
  | nil h => exact h
  | cons h _ ih => exact h.trans ih

theorem readBytes_samples (c : Chip) (b : BitVec 5) (a : U16) (n : Nat) :
    Samples b a c ((dev sched faults).readBytes c b a n).1 ((dev sched faults).readBytes c b a n).2 := by
  induction n generalizing c a with
  | zero => exact .nil (.refl _)
  | succ n ih => exact .cons (tick_evolves sched c) (ih _ _)

theorem readFrame_ok {c c' : Chip} {block : U8} {a : U16} {d d' : List U8}
    (h : (dev sched faults).bus.readFrame c block a d = (.ok (), d', c')) :
    Samples (block.setWidth 5) a c d' c' ∧ d'.length = d.length := by
  have hl := (dev sched faults).bus.read_length c block a d
  rw [h] at hl
  refine ⟨?_, hl⟩
  simp only [ByteDev.bus] at h
  split at h
  · rename_i c1 hc
    simp only [Prod.mk.injEq, true_and] at h
    obtain ⟨rfl, rfl⟩ := h
    have hc1 : c.Evolves c1 := by
      have : c1 = { c with txn := c.txn + 1 } := by
        simp only [dev, Prod.mk.injEq] at hc; exact hc.2.symm
      rw [this]; exact txn_evolves _ _
    have := readBytes_samples (sched := sched) (faults := faults) c1 (block.setWidth 5) a d.length
    generalize ((dev sched faults).readBytes c1 (block.setWidth 5) a d.length).1 = dd at this
    cases this with
    | nil h => exact .nil (hc1.trans h)
    | cons h1 h2 => exact .cons (hc1.trans h1) h2
  · simp at h

theorem readFrame_evolves (c : Chip) (block : U8) (a : U16) (d : List U8) :
    c.Evolves ((dev sched faults).bus.readFrame c block a d).2.2 := by
  simp only [ByteDev.bus]
  split
  · rename_i c1 hc
    have : c1 = { c with txn := c.txn + 1 } := by simp only [dev, Prod.mk.injEq] at hc; exact hc.2.symm
    subst this
    exact (txn_evolves _ _).trans (readBytes_samples _ _ _ _).evolves
  · rename_i e k c1 hc
    have : c1 = { c with txn := c.txn + 1 } := by simp only [dev, Prod.mk.injEq] at hc; exact hc.2.symm
    subst this
    exact (txn_evolves _ _).trans (readBytes_samples _ _ _ _).evolves

theorem samples_one {b : BitVec 5} {a : U16} {c c' : Chip} {x : U8} (h : Samples b a c [x] c') :
    ∃ c1, c.Evolves c1 ∧ c1.Evolves c' ∧ x = c1.peek b a := by
  cases h with
  | cons h1 h2 => exact ⟨_, h1, h2.evolves, rfl⟩

theorem samples_two {b : BitVec 5} {a : U16} {c c' : Chip} {x y : U8} (h : Samples b a c [x, y] c') :
    ∃ c1 c2, c.Evolves c1 ∧ c1.Evolves c2 ∧ c2.Evolves c' ∧ x = c1.peek b a ∧ y = c2.peek b (a + 1) := by
  cases h with
  | cons h1 h2 =>
    cases h2 with
    | cons h2 h3 => exact ⟨_, _, h1, h2, h3.evolves, rfl, rfl⟩

/-- Reading cells whose contents are known and stable. -/
theorem samples_known {P : Chip → Prop} (hP : Stable P) {b : BitVec 5} {bs : List U8} {a : U16} {c c' : Chip}
    {d : List U8} (hb : ∀ c, P c → ∀ i (h : i < bs.length), c.peek b (a + BitVec.ofNat 16 i) = bs[i])
    (hp : P c) (h : Samples b a c d c') (hl : d.length ≤ bs.length) : d = bs.take d.length := by
  induction h generalizing bs with
  | nil => rfl
  | @cons a c c1 c' d h1 h2 ih =>
    cases bs with
    | nil => simp at hl
    | cons x bs =>
      have hp1 := hP _ _ h1 hp
      have hx := hb c1 hp1 0 (by simp)
      simp only [BitVec.add_zero, List.getElem_cons_zero] at hx
      rw [List.length_cons, List.take_succ_cons, hx]
      congr 1
      exact ih (fun c hc i hi => by
        have := hb c hc (i + 1) (by simpa using hi)
        rw [List.getElem_cons_succ] at this
        rw [← this]
        congr 1
        rw [BitVec.add_assoc, show (1 : U16) = BitVec.ofNat 16 1 from rfl, ← BitVec.ofNat_add, Nat.add_comm])
        hp1 (by simpa using hl)

/-- Sampling at least the known cells. -/
theorem samples_prefix {P : Chip → Prop} (hP : Stable P) {b : BitVec 5} {bs : List U8} {a : U16} {c c' : Chip}
    {d : List U8} (hb : ∀ c, P c → ∀ i (h : i < bs.length), c.peek b (a + BitVec.ofNat 16 i) = bs[i])
    (hp : P c) (h : Samples b a c d c') (hl : bs.length ≤ d.length) : d.take bs.length = bs := by
  induction h generalizing bs with
  | nil =>
    rw [List.length_eq_zero_iff.mp (Nat.le_zero.mp hl)]
    rfl
  | @cons a c c1 c' d h1 h2 ih =>
    cases bs with
    | nil => rfl
    | cons x bs =>
      have hp1 := hP _ _ h1 hp
      have hx := hb c1 hp1 0 (by simp)
      simp only [BitVec.add_zero, List.getElem_cons_zero] at hx
      rw [List.length_cons, List.take_succ_cons, hx]
      congr 1
      exact ih (fun c hc i hi => by
        have := hb c hc (i + 1) (by simpa using hi)
        rw [List.getElem_cons_succ] at this
        rw [← this]
        congr 1
        rw [BitVec.add_assoc, show (1 : U16) = BitVec.ofNat 16 1 from rfl, ← BitVec.ofNat_add, Nat.add_comm])
        hp1 (by simpa using hl)

/-- `read_frame` into a local array. -/
theorem hoare_readBuf {P : Chip → Prop} (hP : Stable P) (block : U8) (a : U16) (init : List U8) :
    Hoare P ((dev sched faults).bus.readBuf block a init)
      (fun d c' => P c' ∧ d.length = init.length ∧ ∃ c, P c ∧ Samples (block.setWidth 5) a c d c') P := by
  constructor
  intro c hc
  unfold Bus.readBuf
  have hev := readFrame_evolves (sched := sched) (faults := faults) c block a init
  rcases hr : (dev sched faults).bus.readFrame c block a init with ⟨r, d, c'⟩
  rw [hr] at hev
  cases r with
  | ok u =>
    obtain ⟨h1, h2⟩ := readFrame_ok hr
    exact ⟨hP _ _ hev hc, h2, c, hc, h1⟩
  | err e => exact hP _ _ hev hc
  | panic => exact hP _ _ hev hc
  | fuel => exact hP _ _ hev hc

theorem hoare_read1 {P : Chip → Prop} (hP : Stable P) (block : U8) (a : U16) :
    Hoare P ((dev sched faults).bus.read1 block a)
      (fun x c' => P c' ∧ ∃ c, P c ∧ c.Evolves c' ∧ x = c.peek (block.setWidth 5) a) P := by
  unfold Bus.read1
  apply Hoare.bind (hoare_readBuf hP block a [0])
  intro d
  constructor
  intro c' ⟨h1, h2, c, hc, hs⟩
  match d, h2, hs with
  | [x], _, hs =>
    obtain ⟨c1, h3, h4, rfl⟩ := samples_one hs
    exact ⟨h1, c1, hP _ _ h3 hc, h4, rfl⟩

theorem hoare_read2 {P : Chip → Prop} (hP : Stable P) (block : U8) (a : U16) :
    Hoare P ((dev sched faults).bus.read2 block a)
      (fun v c' => P c' ∧ ∃ c1 c2, P c1 ∧ P c2 ∧ c1.Evolves c2 ∧ c2.Evolves c' ∧
        v = c1.peek (block.setWidth 5) a ++ c2.peek (block.setWidth 5) (a + 1)) P := by
  unfold Bus.read2
  apply Hoare.bind (hoare_readBuf hP block a [0, 0])
  intro d
  constructor
  intro c' ⟨h1, h2, c, hc, hs⟩
  match d, h2, hs with
  | [x, y], _, hs =>
    obtain ⟨c1, c2, h3, h4, h5, rfl, rfl⟩ := samples_two hs
    exact ⟨h1, c1, c2, hP _ _ h3 hc, hP _ _ (h3.trans h4) hc, h4, h5, rfl⟩

/-- `read_frame` into the caller's slice, from cells with known, stable contents. -/
theorem hoare_readSlice {P : Chip → Prop} (hP : Stable P) (block : U8) (a : U16) (bs : List U8)
    (hb : ∀ c, P c → ∀ i (h : i < bs.length), c.peek (block.setWidth 5) (a + BitVec.ofNat 16 i) = bs[i]) :
    Hoare (fun s : List U8 × Chip => P s.2 ∧ s.1.length = bs.length)
      ((dev sched faults).bus.readSlice block a) (fun _ s => P s.2 ∧ s.1 = bs)
      (fun s => P s.2) := by
  constructor
  intro s ⟨hc, hlen⟩
  unfold Bus.readSlice
  have hev := readFrame_evolves (sched := sched) (faults := faults) s.2 block a s.1
  rcases hr : (dev sched faults).bus.readFrame s.2 block a s.1 with ⟨r, d, c'⟩
  rw [hr] at hev
  cases r with
  | ok u =>
    obtain ⟨h1, h2⟩ := readFrame_ok hr
    refine ⟨hP _ _ hev hc, ?_⟩
    have := samples_known hP hb hc h1 (by omega)
    rw [this, h2, hlen, List.take_length]
  | err e => exact hP _ _ hev hc
  | panic => exact hP _ _ hev hc
  | fuel => exact hP _ _ hev hc

theorem hoare_readSlicePrefix {P : Chip → Prop} (hP : Stable P) (block : U8) (a : U16) (k : Nat) (bs : List U8)
    (hk : bs.length ≤ k)
    (hb : ∀ c, P c → ∀ i (h : i < bs.length), c.peek (block.setWidth 5) (a + BitVec.ofNat 16 i) = bs[i]) :
    Hoare (fun s : List U8 × Chip => P s.2 ∧ s.1.length = k)
      ((dev sched faults).bus.readSlice block a) (fun _ s => P s.2 ∧ s.1.length = k ∧ s.1.take bs.length = bs)
      (fun s => P s.2) := by
  constructor
  intro s ⟨hc, hlen⟩
  unfold Bus.readSlice
  have hev := readFrame_evolves (sched := sched) (faults := faults) s.2 block a s.1
  rcases hr : (dev sched faults).bus.readFrame s.2 block a s.1 with ⟨r, d, c'⟩
  rw [hr] at hev
  cases r with
  | ok u =>
    obtain ⟨h1, h2⟩ := readFrame_ok hr
    exact ⟨hP _ _ hev hc, h2.trans hlen, samples_prefix hP hb hc h1 (Nat.le_trans hk (Nat.le_of_eq (hlen.symm.trans h2.symm)))⟩
  | err e => exact hP _ _ hev hc
  | panic => exact hP _ _ hev hc
  | fuel => exact hP _ _ hev hc

/-! ## Writes -/

/-- `write_frame`, with an assertion `I i` for the state after `i` data bytes. If the call fails, some prefix of the
data was written. -/
theorem hoare_write {I : Nat → Chip → Prop} (block : U8) (a : U16) (data : List U8)
    (hst : ∀ i, i ≤ data.length → (i = 0 ∨ i < data.length) → Stable (I i))
    (hstep : ∀ i (h : i < data.length) c, I i c →
      I (i + 1) (c.poke (block.setWidth 5) (a + BitVec.ofNat 16 i) data[i])) :
    Hoare (I 0) ((dev sched faults).bus.write block a data) (fun _ => I data.length)
      (fun c => ∃ i, i ≤ data.length ∧ I i c) := by
  have key : ∀ (l : List U8) (c : Chip) (j : Nat), I j c → j + l.length ≤ data.length →
      (∀ i (h : i < l.length), l[i] = data[j + i]!) →
      I (j + l.length) ((dev sched faults).writeBytes c (block.setWidth 5) (a + BitVec.ofNat 16 j) l) := by
    intro l
    induction l with
    | nil => intro c j hj _ _; exact hj
    | cons x l ih =>
      intro c j hj hl hd
      simp only [List.length_cons] at hl
      have h0 := hd 0 (by simp)
      simp only [List.getElem_cons_zero, Nat.add_zero] at h0
      rw [getElem!_pos data j (by omega)] at h0
      have h1 : I (j + 1) ((c.tick sched).poke (block.setWidth 5) (a + BitVec.ofNat 16 j) x) := by
        rw [h0]
        exact hstep j (by omega) _ (hst j (by omega) (.inr (by omega)) _ _ (tick_evolves sched c) hj)
      have := ih _ (j + 1) h1 (by omega) (fun i hi => by
        have := hd (i + 1) (by simpa using hi)
        rw [List.getElem_cons_succ] at this
        rw [this]; congr 1; omega)
      rw [show j + (x :: l).length = j + 1 + l.length by simp; omega]
      rw [show a + BitVec.ofNat 16 (j + 1) = a + BitVec.ofNat 16 j + 1 by
        rw [BitVec.ofNat_add, BitVec.add_assoc]; rfl] at this
      exact this
  constructor
  intro c hc
  unfold Bus.write
  simp only [ByteDev.bus]
  split
  · rename_i c1 hc1
    have : c1 = { c with txn := c.txn + 1 } := by simp only [dev, Prod.mk.injEq] at hc1; exact hc1.2.symm
    subst this
    have h0 := hst 0 (by omega) (.inl rfl) _ _ (txn_evolves c (c.txn + 1)) hc
    have := key data _ 0 h0 (by omega) (fun i hi => by rw [Nat.zero_add, getElem!_pos data i hi])
    simpa [Res.post] using this
  · rename_i e k c1 hc1
    have : c1 = { c with txn := c.txn + 1 } := by simp only [dev, Prod.mk.injEq] at hc1; exact hc1.2.symm
    subst this
    have h0 := hst 0 (by omega) (.inl rfl) _ _ (txn_evolves c (c.txn + 1)) hc
    have := key (data.take (k - 3)) _ 0 h0 (by simp; omega) (fun i hi => by
      simp only [List.length_take] at hi
      rw [Nat.zero_add, getElem!_pos data i (by omega)]
      simp)
    simp only [BitVec.add_zero, Nat.zero_add] at this
    exact ⟨_, by simp; omega, this⟩

/-- A one-byte write. -/
theorem hoare_write1 {P : Chip → Prop} (hP : Stable P) (block : U8) (a : U16) (x : U8) :
    Hoare P ((dev sched faults).bus.write block a [x])
      (fun _ c' => ∃ c, P c ∧ c' = c.poke (block.setWidth 5) a x)
      (fun c' => P c' ∨ ∃ c, P c ∧ c' = c.poke (block.setWidth 5) a x) := by
  have := hoare_write (sched := sched) (faults := faults)
    (I := fun i c' => if i = 0 then P c' else ∃ c, P c ∧ c' = c.poke (block.setWidth 5) a x) block a [x]
    (by
      intro i hi h
      have : i = 0 := by simp at hi h; omega
      subst this
      simpa using hP)
    (by
      intro i hi c hc
      have : i = 0 := by simp at hi; omega
      subst this
      simp only [if_true] at hc
      exact ⟨c, hc, by simp⟩)
  refine this.conseq (fun c h => by simpa using h) (fun _ c h => by simpa using h) (fun c h => ?_)
  obtain ⟨i, _, h⟩ := h
  split at h
  · exact .inl h
  · exact .inr h

/-- A two-byte write; `P1` describes the states after the first byte. -/
theorem hoare_write2 {P P1 Q : Chip → Prop} (hP : Stable P) (hP1 : Stable P1) (block : U8) (a : U16) (x y : U8)
    (h1 : ∀ c, P c → P1 (c.poke (block.setWidth 5) a x))
    (h2 : ∀ c, P1 c → Q (c.poke (block.setWidth 5) (a + 1) y)) :
    Hoare P ((dev sched faults).bus.write block a [x, y]) (fun _ => Q) (fun c => P c ∨ P1 c ∨ Q c) := by
  have := hoare_write (sched := sched) (faults := faults)
    (I := fun i c' => if i = 0 then P c' else if i = 1 then P1 c' else Q c') block a [x, y]
    (by
      intro i hi h
      simp only [List.length_cons, List.length_nil] at hi h
      rcases (by omega : i = 0 ∨ i = 1) with rfl | rfl
      · simpa using hP
      · simpa using hP1)
    (by
      intro i hi c hc
      simp only [List.length_cons, List.length_nil] at hi
      rcases (by omega : i = 0 ∨ i = 1) with rfl | rfl
      · simpa using h1 c (by simpa using hc)
      · simpa using h2 c (by simpa using hc))
  refine this.conseq (fun c h => by simpa using h) (fun _ c h => by simpa using h) (fun c h => ?_)
  obtain ⟨i, _, h⟩ := h
  split at h
  · exact .inl h
  · split at h
    · exact .inr (.inl h)
    · exact .inr (.inr h)

end Chip
end W5500.Spec
