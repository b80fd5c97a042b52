import Verif.Spec.Outcome
import Verif.Proofs.Refusals
import Verif.Proofs.ChipReturns
/-! # What became of a packet, and what the caller is told -/

namespace W5500.Spec
open W5500 socketn Sock
variable {E ε α : Type} {sched : Nat → List (Nat × Act)} {faults : Nat → Option (E × Nat)}

namespace Sock

/-- Announced or to be announced. -/
def flag (s : Sock) (i : Nat) : Bool := s.ir.getLsbD i || s.owed.getLsbD i

theorem silent_iff {s : Sock} : s.Silent ↔ s.flag 3 = false ∧ s.flag 4 = false := by
  unfold Silent flag
  simp only [Bool.or_eq_false_iff]
  constructor
  · intro h
    exact ⟨h 3 (.inl rfl), h 4 (.inr rfl)⟩
  · rintro ⟨h3, h4⟩ i (rfl | rfl)
    · exact h3
    · exact h4

/-- Announced, but only once. -/
def Once (s : Sock) : Prop := ∀ i, i = 3 ∨ i = 4 → ¬ (s.ir.getLsbD i = true ∧ s.owed.getLsbD i = true)

theorem Silent.once {s : Sock} (h : s.Silent) : s.Once := fun i hi e => by
  have := (h i hi).1
  rw [e.1] at this
  exact nomatch this

theorem push_flags (s : Sock) (bs : List U8) : (s.push bs).owed = s.owed ∧ ∀ i, i = 3 ∨ i = 4 →
    (s.push bs).ir.getLsbD i = s.ir.getLsbD i := by
  unfold push
  split
  · refine ⟨rfl, ?_⟩
    rintro i (rfl | rfl)
    · show (s.ir ||| 0x04).getLsbD 3 = _
      rw [BitVec.getLsbD_or]
      exact Bool.or_false _
    · show (s.ir ||| 0x04).getLsbD 4 = _
      rw [BitVec.getLsbD_or]
      exact Bool.or_false _
  · exact ⟨rfl, fun _ _ => rfl⟩

/-- Raising moves announcements that are due into Sn_IR. -/
theorem raise_flags {s : Sock} (hp : s.proto ≠ 1) (bits : U8) {i : Nat} (hi : i = 3 ∨ i = 4) :
    (s.act (.raise bits)).ir.getLsbD i = (s.ir.getLsbD i || (bits.getLsbD i && s.owed.getLsbD i)) ∧
    (s.act (.raise bits)).owed.getLsbD i = (s.owed.getLsbD i && !bits.getLsbD i) := by
  constructor
  · show (s.ir ||| (if s.proto = 1 then bits else bits &&& (s.owed ||| 0xE7))).getLsbD i = _
    rw [if_neg hp, BitVec.getLsbD_or, BitVec.getLsbD_and, BitVec.getLsbD_or]
    have : (0xE7 : U8).getLsbD i = false := by rcases hi with rfl | rfl <;> rfl
    rw [this, Bool.or_false]
  · show (s.owed &&& ~~~bits).getLsbD i = _
    rw [BitVec.getLsbD_and, BitVec.getLsbD_not]
    have : decide (i < 8) = true := by rcases hi with rfl | rfl <;> rfl
    rw [this, Bool.true_and]

/-- Events that are not a packet leaving. -/
theorem act_flags {s : Sock} (hp : s.proto ≠ 1) (a : Act) (ha : ∀ b, a = .emit b → s.txRd = s.txLimit) :
    (∀ i, i = 3 ∨ i = 4 → (s.act a).flag i = s.flag i) ∧ (s.Once → (s.act a).Once) := by
  have push : ∀ bs, (∀ i, i = 3 ∨ i = 4 → (s.push bs).flag i = s.flag i) ∧ (s.Once → (s.push bs).Once) := by
    intro bs
    obtain ⟨h1, h2⟩ := push_flags s bs
    refine ⟨fun i hi => ?_, fun h i hi => ?_⟩
    · unfold flag; rw [h1, h2 i hi]
    · rw [h1, h2 i hi]; exact h i hi
  have same : (∀ i, i = 3 ∨ i = 4 → s.flag i = s.flag i) ∧ (s.Once → s.Once) := ⟨fun _ _ => rfl, id⟩
  cases a with
  | arrive bs => rw [show s.act (.arrive bs) = s by simp only [act, if_neg hp]]; exact same
  | datagram dg =>
    simp only [act]
    split
    · exact push _
    · exact same
  | frame f =>
    simp only [act]
    split
    · exact push _
    · exact same
  | transmit k => rw [show s.act (.transmit k) = s by simp only [act, if_neg hp]]; exact same
  | ack k => rw [show s.act (.ack k) = s by simp only [act, if_neg hp]]; exact same
  | emit b => rw [show s.act (.emit b) = s by simp only [act]; rw [if_neg (fun h => h.2 (ha b rfl))]]; exact same
  | raise bits =>
    refine ⟨fun i hi => ?_, fun h i hi => ?_⟩
    · obtain ⟨h1, h2⟩ := raise_flags hp bits hi
      unfold flag
      rw [h1, h2]
      cases s.ir.getLsbD i <;> cases s.owed.getLsbD i <;> cases bits.getLsbD i <;> rfl
    · obtain ⟨h1, h2⟩ := raise_flags hp bits hi
      have := h i hi
      rw [h1, h2]
      revert this
      cases s.ir.getLsbD i <;> cases s.owed.getLsbD i <;> cases bits.getLsbD i <;> decide
  | status x => exact same

/-- A packet leaves. -/
theorem emit_flags {s : Sock} (hc : (s.proto = 2 ∨ s.proto = 4) ∧ s.txRd ≠ s.txLimit) (hs : s.Silent) (b : Bool) :
    (s.act (.emit b)).flag 4 = b ∧ (s.act (.emit b)).flag 3 = (!b) ∧ (s.act (.emit b)).Once := by
  have e1 : (s.act (.emit b)).ir = s.ir := by simp only [act, if_pos hc]
  have e2 : (s.act (.emit b)).owed = s.owed ||| (if b then 0x10 else 0x08) := by simp only [act, if_pos hc]
  have h3 := hs 3 (.inl rfl)
  have h4 := hs 4 (.inr rfl)
  unfold flag Once
  rw [e1, e2]
  refine ⟨?_, ?_, ?_⟩
  · rw [BitVec.getLsbD_or, h4.1, h4.2]; cases b <;> rfl
  · rw [BitVec.getLsbD_or, h3.1, h3.2]; cases b <;> rfl
  · rintro i hi ⟨h, _⟩
    rw [(hs i hi).1] at h
    exact nomatch h

/-- Nothing outstanding. -/
def Paid (s : Sock) : Prop := s.owed.getLsbD 3 = false ∧ s.owed.getLsbD 4 = false

theorem Silent.paid {s : Sock} (h : s.Silent) : s.Paid := ⟨(h 3 (.inl rfl)).2, (h 4 (.inr rfl)).2⟩

theorem paid_act {s : Sock} (h : s.Paid) (a : Act) (ha : ∀ b, a ≠ .emit b) : (s.act a).Paid := by
  have push : ∀ bs, (s.push bs).Paid := fun bs => by unfold Paid; rw [(push_flags s bs).1]; exact h
  cases a with
  | arrive bs =>
    simp only [act]
    split
    · exact push _
    · exact h
  | datagram dg =>
    simp only [act]
    split
    · exact push _
    · exact h
  | frame f =>
    simp only [act]
    split
    · exact push _
    · exact h
  | transmit k => simp only [act]; split <;> exact h
  | ack k => simp only [act]; split <;> exact h
  | emit b => exact absurd rfl (ha b)
  | raise bits =>
    refine ⟨?_, ?_⟩
    · show (s.owed &&& ~~~bits).getLsbD 3 = false
      rw [BitVec.getLsbD_and, h.1, Bool.false_and]
    · show (s.owed &&& ~~~bits).getLsbD 4 = false
      rw [BitVec.getLsbD_and, h.2, Bool.false_and]
  | status x => exact h

theorem paid_raise (s : Sock) {bits : U8} (h3 : bits.getLsbD 3 = true) (h4 : bits.getLsbD 4 = true) :
    (s.act (.raise bits)).Paid := by
  refine ⟨?_, ?_⟩
  · show (s.owed &&& ~~~bits).getLsbD 3 = false
    rw [BitVec.getLsbD_and, BitVec.getLsbD_not, h3]
    exact Bool.and_false _
  · show (s.owed &&& ~~~bits).getLsbD 4 = false
    rw [BitVec.getLsbD_and, BitVec.getLsbD_not, h4]
    exact Bool.and_false _

theorem paid_pokeReg {s : Sock} (h : s.Paid) (a : U16) (x : U8) : (s.pokeReg a x).Paid := by
  have hc : s.connecting.Paid := by
    unfold connecting
    split
    · exact ⟨show (0 : U8).getLsbD 3 = false by decide, show (0 : U8).getLsbD 4 = false by decide⟩
    · exact h
  unfold pokeReg command
  repeat' split
  all_goals first | exact h | exact hc | exact ⟨show (0 : U8).getLsbD 3 = false by decide, show (0 : U8).getLsbD 4 = false by decide⟩

end Sock

/-! ## Prompt announcements -/

theorem prompt_fold {n : Nat} (l : List (Nat × Act))
    (hl : ∀ before b after, l = before ++ (n, .emit b) :: after →
      ∃ bits : U8, (n, .raise bits) ∈ after ∧ bits.getLsbD 3 = true ∧ bits.getLsbD 4 = true)
    (c : Chip) (h : Sock.Paid (c.socks n) ∨
      ∃ bits : U8, (n, .raise bits) ∈ l ∧ bits.getLsbD 3 = true ∧ bits.getLsbD 4 = true) :
    Sock.Paid ((l.foldl Chip.event c).socks n) := by
  induction l generalizing c with
  | nil => exact h.elim id fun ⟨_, h, _⟩ => nomatch h
  | cons e l ih =>
    refine ih (fun before b after hb => hl (e :: before) b after (by rw [hb]; rfl)) (c.event e) ?_
    obtain ⟨m, a⟩ := e
    unfold Chip.event
    by_cases hm : m = n
    · subst hm
      rw [Chip.setSock_self]
      by_cases he : ∃ b, a = .emit b
      · obtain ⟨b, rfl⟩ := he
        exact .inr (hl [] b l rfl)
      · have hne : ∀ b, a ≠ .emit b := fun b hb => he ⟨b, hb⟩
        rcases h with h | ⟨bits, h1, h2, h3⟩
        · exact .inl (paid_act h a hne)
        · rcases List.mem_cons.mp h1 with h1 | h1
          · cases h1
            exact .inl (paid_raise _ h2 h3)
          · exact .inr ⟨bits, h1, h2, h3⟩
    · rw [Chip.setSock_other _ _ _ _ (Ne.symm hm)]
      rcases h with h | ⟨bits, h1, h2, h3⟩
      · exact .inl h
      · rcases List.mem_cons.mp h1 with h1 | h1
        · cases h1; exact absurd rfl hm
        · exact .inr ⟨bits, h1, h2, h3⟩

theorem prompt_ticks {n : Nat} (hp : Prompt sched n) : Chip.Ticks sched (At n Sock.Paid) :=
  ⟨fun c hc => prompt_fold _ (hp c.clock) c (.inl hc), fun _ _ h => h⟩

/-- Also the host's writes keep this. -/
theorem prompt_write {n : Nat} (hp : Prompt sched n) (b : U8) (a : U16) (d : List U8) :
    Hoare (At n Sock.Paid) ((Chip.dev sched faults).bus.write b a d) (fun _ => At n Sock.Paid) (At n Sock.Paid) := by
  have hpoke : ∀ (c : Chip) (b : BitVec 5) a x, At n Sock.Paid c → At n Sock.Paid (c.poke b a x) := by
    intro c b a x h
    have hset : ∀ m s, Sock.Paid s → (m = n → Sock.Paid s) → At n Sock.Paid (c.setSock m s) := by
      intro m s h1 _
      show Sock.Paid _
      by_cases hm : m = n
      · subst hm; rw [Chip.setSock_self]; exact h1
      · rw [Chip.setSock_other _ _ _ _ (Ne.symm hm)]; exact h
    unfold Chip.poke
    split
    · unfold Chip.pokeCommon
      repeat' split
      · exact h
      · exact ⟨show (0 : U8).getLsbD 3 = false by decide, show (0 : U8).getLsbD 4 = false by decide⟩
      · exact h
    · split
      · by_cases hm : b.toNat / 4 = n
        · rw [hm]; exact hset n _ (paid_pokeReg h a x) fun _ => paid_pokeReg h a x
        · show Sock.Paid _
          rw [Chip.setSock_other _ _ _ _ (Ne.symm hm)]; exact h
      · split
        · by_cases hm : b.toNat / 4 = n
          · rw [hm]; exact hset n _ h fun _ => h
          · show Sock.Paid _
            rw [Chip.setSock_other _ _ _ _ (Ne.symm hm)]; exact h
        · exact h
  have hbytes : ∀ (l : List U8) (c : Chip) (b : BitVec 5) (a : U16), At n Sock.Paid c →
      At n Sock.Paid ((Chip.dev sched faults).writeBytes c b a l) := by
    intro l
    induction l with
    | nil => exact fun _ _ _ h => h
    | cons x l ih => exact fun c b a h => ih _ _ _ (hpoke _ _ _ _ ((prompt_ticks hp).tick c h))
  constructor
  intro c hc
  unfold Bus.write
  simp only [ByteDev.bus]
  split
  · rename_i c1 hc1
    have : c1 = { c with txn := c.txn + 1 } := by simp only [Chip.dev, Prod.mk.injEq] at hc1; exact hc1.2.symm
    subst this
    exact hbytes _ _ _ _ hc
  · rename_i e k c1 hc1
    have : c1 = { c with txn := c.txn + 1 } := by simp only [Chip.dev, Prod.mk.injEq] at hc1; exact hc1.2.symm
    subst this
    exact hbytes _ _ _ _ hc

end W5500.Spec
