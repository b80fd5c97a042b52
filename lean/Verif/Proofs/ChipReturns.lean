import Verif.Proofs.Returns
import Verif.Proofs.ChipRaw
/-! # Calls that return, on the chip -/

namespace W5500.Spec
open W5500 socketn Sock
variable {E ε α : Type} {sched : Nat → List (Nat × Act)} {faults : Nat → Option (E × Nat)}

theorem bus_returns {C : Type} (D : ByteDev C E) : Returning D.bus := by
  constructor
  · intro w b a d
    unfold ByteDev.bus
    dsimp only
    split <;> nofun
  · intro w b a d
    unfold ByteDev.bus
    dsimp only
    split <;> nofun

/-! ## The received size -/

namespace Sock

/-- The received size can only grow, and only as far as the buffer goes. -/
def RsrStep (s t : Sock) : Prop :=
  t.rxSize = s.rxSize ∧ (t.rsr = s.rsr ∨ s.rsr.toNat < t.rsr.toNat ∧ t.rsr.toNat ≤ s.rxSize)

theorem RsrStep.trans {s t u : Sock} (h : RsrStep s t) (h' : RsrStep t u) : RsrStep s u := by
  obtain ⟨a1, a2⟩ := h
  obtain ⟨b1, b2⟩ := h'
  refine ⟨b1.trans a1, ?_⟩
  rw [a1] at b2
  rcases a2 with e | a2 <;> rcases b2 with e' | b2
  · exact .inl (e'.trans e)
  · rw [e] at b2; exact .inr b2
  · rw [e']; exact .inr a2
  · exact .inr ⟨by omega, by omega⟩

theorem push_rsr {s : Sock} (h : s.rxSize < 65536) (bs : List U8) :
    (s.push bs).rsr = s.rsr ∨ s.rsr.toNat < (s.push bs).rsr.toNat ∧ (s.push bs).rsr.toNat ≤ s.rxSize := by
  by_cases hf : s.rsr.toNat + bs.length ≤ s.rxSize
  · have hr : (s.push bs).rsr = s.rsr + BitVec.ofNat 16 bs.length := by
      rw [push, if_pos hf]
      show s.rxWr + BitVec.ofNat 16 bs.length - s.rxRd = s.rxWr - s.rxRd + BitVec.ofNat 16 bs.length
      rw [BitVec.sub_eq_add_neg, BitVec.sub_eq_add_neg, BitVec.add_assoc, BitVec.add_assoc,
        BitVec.add_comm (BitVec.ofNat 16 bs.length)]
    generalize s.rxSize = z at *
    rw [hr]
    by_cases h0 : bs.length = 0
    · left; rw [h0, BitVec.add_zero]
    · right
      rw [BitVec.toNat_add, BitVec.toNat_ofNat]
      omega
  · left; rw [push, if_neg hf]

theorem act_rsr {s : Sock} (h : s.rxSize < 65536) (a : Act) : RsrStep s (s.act a) := by
  suffices H : ∀ s' : Sock, s' = s.act a → s'.rsr = s.rsr ∨ s.rsr.toNat < s'.rsr.toNat ∧ s'.rsr.toNat ≤ s.rxSize from
    ⟨act_rxSize s a, H _ rfl⟩
  intro s' hs'
  have hpush : ∀ bs, s' = s.push bs → s'.rsr = s.rsr ∨ s.rsr.toNat < s'.rsr.toNat ∧ s'.rsr.toNat ≤ s.rxSize := by
    rintro bs rfl
    exact push_rsr h bs
  clear h
  have same : s'.rxRd = s.rxRd → s'.rxWr = s.rxWr →
      s'.rsr = s.rsr ∨ s.rsr.toNat < s'.rsr.toNat ∧ s'.rsr.toNat ≤ s.rxSize := by
    intro h2 h3
    left
    unfold rsr
    rw [h2, h3]
  cases a <;> simp only [act] at hs' <;> (repeat' split at hs') <;> first | exact hpush _ hs' | (subst hs'; exact same rfl rfl)

theorem evolves_rsr {s t : Sock} (h : s.rxSize < 65536) (e : s.Evolves t) : RsrStep s t := by
  refine Sock.Evolves.induct (P := fun t => RsrStep s t) (fun u a hu => hu.trans (act_rsr (by rw [hu.1]; exact h) a)) e ⟨rfl, .inl rfl⟩

end Sock

/-- Two different samples in a row: meanwhile bytes arrived. -/
theorem receiveSize_returns {n : Nat} (hn : n < 8) (fuel : Nat) (c : Chip) (hz : (c.socks n).rxSize < 65536)
    (hf : (c.socks n).rxSize - (c.socks n).rsr.toNat < fuel) :
    ((sockOf n).getReceiveSize (Chip.dev sched faults).bus fuel c).1 ≠ .fuel := by
  induction fuel generalizing c with
  | zero => omega
  | succ k ih =>
    intro g0
    unfold Socket.getReceiveSize at g0
    have hB := bus_returns (Chip.dev sched faults)
    rcases bind_eq_fuel g0 with h | ⟨v, c1, h1, g1, _⟩
    · exact absurd h ((NoFuel.read2 hB _ _).run _)
    rcases bind_eq_fuel g1 with h | ⟨w, c2, h2, g2, _⟩
    · exact absurd h ((NoFuel.read2 hB _ _).run _)
    clear g0 g1
    split at g2
    · exact nomatch g2
    rename_i hne
    have hP : ∀ s0 : Sock, StableS (fun s => s0.Evolves s) := fun s0 s a e => e.trans (.act s a)
    obtain ⟨e1, s1, s2, p1, p2, q1, q2, rfl⟩ := (hs_read2 (sched := sched) (faults := faults) hn (hP (c.socks n)) _).ok
      (s := c) (.refl _) h1
    obtain ⟨e2, s3, s4, p3, p4, q3, q4, rfl⟩ := (hs_read2 (sched := sched) (faults := faults) hn (hP (c1.socks n)) _).ok
      (s := c1) (.refl _) h2
    -- the counter must have moved
    have z0 := evolves_rsr hz (e1.trans e2)
    rcases z0.2 with heq | ⟨hlt, hle⟩
    · apply hne
      have mid : ∀ t : Sock, (c.socks n).Evolves t → t.Evolves (c2.socks n) → t.rsr = (c.socks n).rsr := by
        intro t a b
        have ha := evolves_rsr hz a
        have hb := evolves_rsr (by rw [ha.1]; exact hz) b
        rcases ha.2 with e | ⟨x, _⟩
        · exact e
        · rcases hb.2 with e | ⟨y, _⟩
          · rw [← heq, e]
          · rw [heq] at y; omega
      show (s1.rsr.extractLsb' 8 8 : U8) ++ (s2.rsr.extractLsb' 0 8 : U8) =
        (s3.rsr.extractLsb' 8 8 : U8) ++ (s4.rsr.extractLsb' 0 8 : U8)
      rw [mid s1 p1 (q1.trans (q2.trans e2)), mid s2 p2 (q2.trans e2), mid s3 (e1.trans p3) (q3.trans q4),
        mid s4 (e1.trans p4) q4]
    · refine ih c2 (by rw [z0.1]; exact hz) ?_ g2
      rw [z0.1]
      omega

end W5500.Spec

namespace W5500
open socketn Spec
variable {σ τ ε ε' α β : Type}

/-- From a state with `P`, some number of rounds is enough. -/
structure Total (P : σ → Prop) (m : Nat → M σ ε α) : Prop where
  run : ∀ s, P s → ∃ k, (m k s).1 ≠ .fuel

namespace Total
variable {P P' : σ → Prop}

theorem of {m : M σ ε α} (h : NoFuel m) : Total P (fun _ => m) := ⟨fun s _ => ⟨0, h.run s⟩⟩

theorem pre {m : Nat → M σ ε α} (h : Total P m) (hp : ∀ s, P' s → P s) : Total P' m := ⟨fun s hs => h.run s (hp s hs)⟩

theorem fact' {p : Prop} {m : Nat → M σ ε α} (h : p → Total P m) : Total (fun s => P s ∧ p) m :=
  ⟨fun s hs => (h hs.2).run s hs.1⟩

theorem ite {c : Prop} [Decidable c] {m m' : Nat → M σ ε α} (h : c → Total P m) (h' : ¬ c → Total P m') :
    Total P (fun k => if c then m k else m' k) := by
  split
  · exact h ‹_›
  · exact h' ‹_›

theorem step {m : M σ ε α} {f : Nat → α → M σ ε β} {Q : α → σ → Prop} {R : σ → Prop} (hn : NoFuel m) (h : Hoare P m Q R)
    (hf : ∀ a, Total (Q a) (fun k => f k a)) : Total P (fun k => m >>= f k) := by
  constructor
  intro s hs
  have h1 := hn.run s
  have h2 := h.run s hs
  rcases hm : m s with ⟨_ | _ | _ | _, t⟩ <;> rw [hm] at h1 h2
  · obtain ⟨k, hk⟩ := (hf _).run t h2
    exact ⟨k, by rw [M.bind_ok hm]; exact hk⟩
  · exact ⟨0, by rw [M.bind_def, hm]; nofun⟩
  · exact ⟨0, by rw [M.bind_def, hm]; nofun⟩
  · exact absurd rfl h1

theorem andThen {m : Nat → M σ ε α} {f : α → M σ ε β} (h : Total P m) (hf : ∀ a, NoFuel (f a)) :
    Total P (fun k => m k >>= f) := by
  constructor
  intro s hs
  obtain ⟨k, hk⟩ := h.run s hs
  refine ⟨k, ?_⟩
  rw [M.bind_def]
  rcases hm : m k s with ⟨_ | _ | _ | _, t⟩ <;> rw [hm] at hk
  · exact (hf _).run t
  · nofun
  · nofun
  · exact absurd rfl hk

theorem mapErr {m : Nat → M σ ε α} {f : ε → ε'} (h : Total P m) : Total P (fun k => M.mapErr f (m k)) := by
  constructor
  intro s hs
  obtain ⟨k, hk⟩ := h.run s hs
  refine ⟨k, ?_⟩
  rw [M.mapErr_def]
  rcases hm : m k s with ⟨_ | _ | _ | _, t⟩ <;> rw [hm] at hk
  · nofun
  · nofun
  · nofun
  · exact absurd rfl hk

end Total

theorem NoFuel.ite {c : Prop} [Decidable c] {m m' : M σ ε α} (h : NoFuel m) (h' : NoFuel m') :
    NoFuel (if c then m else m') := by
  split
  · exact h
  · exact h'

end W5500

namespace W5500.Spec
open W5500 socketn Sock
variable {E ε α : Type} {sched : Nat → List (Nat × Act)} {faults : Nat → Option (E × Nat)}

/-! ## Time -/

namespace Chip

/-- Kept as time passes under the schedule. -/
structure Ticks (sched : Nat → List (Nat × Act)) (I : Chip → Prop) : Prop where
  tick : ∀ c, I c → I (c.tick sched)
  txn : ∀ c k, I c → I { c with txn := k }

theorem Ticks.readBytes {I : Chip → Prop} (h : Ticks sched I) (c : Chip) (b : BitVec 5) (a : U16) (n : Nat) (hc : I c) :
    I ((dev sched faults).readBytes c b a n).2 := by
  induction n generalizing c a with
  | zero => exact hc
  | succ n ih => exact ih _ _ (h.tick c hc)

theorem Ticks.readFrame {I : Chip → Prop} (h : Ticks sched I) (c : Chip) (b : U8) (a : U16) (d : List U8) (hc : I c) :
    I ((dev sched faults).bus.readFrame c b a d).2.2 := by
  simp only [ByteDev.bus]
  split
  · rename_i c1 hc1
    have : c1 = { c with txn := c.txn + 1 } := by simp only [dev, Prod.mk.injEq] at hc1; exact hc1.2.symm
    subst this
    exact h.readBytes _ _ _ _ (h.txn c _ hc)
  · rename_i e k c1 hc1
    have : c1 = { c with txn := c.txn + 1 } := by simp only [dev, Prod.mk.injEq] at hc1; exact hc1.2.symm
    subst this
    exact h.readBytes _ _ _ _ (h.txn c _ hc)

theorem Ticks.readBuf {I : Chip → Prop} (h : Ticks sched I) (b : U8) (a : U16) (d : List U8) :
    Hoare I ((dev sched faults).bus.readBuf b a d) (fun _ => I) I := by
  constructor
  intro c hc
  have := h.readFrame (faults := faults) c b a d hc
  unfold Bus.readBuf
  generalize (dev sched faults).bus.readFrame c b a d = r at this
  obtain ⟨_ | _ | _ | _, _, _⟩ := r <;> exact this

theorem Ticks.read1 {I : Chip → Prop} (h : Ticks sched I) (b : U8) (a : U16) :
    Hoare I ((dev sched faults).bus.read1 b a) (fun _ => I) I := by
  refine .bind (h.readBuf b a _) fun d => ?_
  split
  · exact .pure fun _ h => h
  · exact .panic fun _ h => h

theorem Ticks.read2 {I : Chip → Prop} (h : Ticks sched I) (b : U8) (a : U16) :
    Hoare I ((dev sched faults).bus.read2 b a) (fun _ => I) I := by
  refine .bind (h.readBuf b a _) fun d => ?_
  split
  · exact .pure fun _ h => h
  · exact .panic fun _ h => h

theorem tick_clock (c : Chip) : (c.tick sched).clock = c.clock + 1 := rfl

theorem readBytes_clock (c : Chip) (b : BitVec 5) (a : U16) (n : Nat) :
    ((dev sched faults).readBytes c b a n).2.clock = c.clock + n := by
  induction n generalizing c a with
  | zero => rfl
  | succ n ih =>
    show ((dev sched faults).readBytes (c.tick sched) b (a + 1) n).2.clock = _
    rw [ih, tick_clock]
    omega

/-- A successful read takes its time. -/
theorem readBuf_clock (b : U8) (a : U16) (d : List U8) (t : Nat) :
    Hoare (fun c => c.clock = t) ((dev sched faults).bus.readBuf b a d) (fun _ c => c.clock = t + d.length) (fun _ => True) := by
  constructor
  intro c hc
  unfold Bus.readBuf
  rcases hr : (dev sched faults).bus.readFrame c b a d with ⟨_ | _ | _ | _, d', c'⟩
  · simp only [ByteDev.bus] at hr
    split at hr
    · rename_i c1 hc1
      have : c1 = { c with txn := c.txn + 1 } := by simp only [dev, Prod.mk.injEq] at hc1; exact hc1.2.symm
      subst this
      simp only [Prod.mk.injEq, true_and] at hr
      show c'.clock = _
      rw [← hr.2, readBytes_clock, ← hc]
    · simp at hr
  · trivial
  · trivial
  · trivial

theorem read1_clock (b : U8) (a : U16) (t : Nat) :
    Hoare (fun c => c.clock = t) ((dev sched faults).bus.read1 b a) (fun _ c => c.clock = t + 1) (fun _ => True) := by
  refine .bind (readBuf_clock b a _ t) fun d => ?_
  split
  · exact .pure fun _ h => h
  · exact .panic fun _ _ => trivial

theorem read2_clock (b : U8) (a : U16) (t : Nat) :
    Hoare (fun c => c.clock = t) ((dev sched faults).bus.read2 b a) (fun _ c => c.clock = t + 2) (fun _ => True) := by
  refine .bind (readBuf_clock b a _ t) fun d => ?_
  split
  · exact .pure fun _ h => h
  · exact .panic fun _ _ => trivial

/-- Events that happen, one after the other, when one of them makes `D` true. -/
theorem foldl_event {n : Nat} {P D : Sock → Prop} {a : Act} (l : List (Nat × Act))
    (hP : ∀ s b, (n, b) ∈ l → P s → P (s.act b)) (hD : ∀ s b, (n, b) ∈ l → P s → D s → D (s.act b))
    (he : ∀ s, P s → D (s.act a)) (c : Chip) (hp : P (c.socks n)) :
    P ((l.foldl event c).socks n) ∧ (D (c.socks n) ∨ (n, a) ∈ l → D ((l.foldl event c).socks n)) := by
  induction l generalizing c with
  | nil => exact ⟨hp, fun h => h.elim id (fun h => nomatch h)⟩
  | cons e l ih =>
    have h1 : P ((c.event e).socks n) ∧ (D (c.socks n) ∨ (n, a) = e → D ((c.event e).socks n)) := by
      unfold event
      by_cases hn : e.1 = n
      · have hm : (n, e.2) ∈ e :: l := by rw [← hn]; exact List.mem_cons_self ..
        rw [hn, setSock_self]
        refine ⟨hP _ _ hm hp, ?_⟩
        rintro (h | h)
        · exact hD _ _ hm hp h
        · rw [← h]; exact he _ hp
      · rw [setSock_other _ _ _ _ (Ne.symm hn)]
        refine ⟨hp, ?_⟩
        rintro (h | h)
        · exact h
        · rw [← h] at hn; exact absurd rfl hn
    obtain ⟨i1, i2⟩ := ih (fun s b hb => hP s b (List.mem_cons_of_mem _ hb)) (fun s b hb => hD s b (List.mem_cons_of_mem _ hb))
      (c.event e) h1.1
    refine ⟨i1, fun h => i2 ?_⟩
    rcases h with h | h
    · exact .inl (h1.2 (.inl h))
    · rcases List.mem_cons.mp h with h | h
      · exact .inl (h1.2 (.inr h))
      · exact .inr h

/-- An event that happens at time `k` on socket `n` and makes `D` true of its state: it is true from then on. -/
theorem ticks_event {n : Nat} {P D : Sock → Prop} (hP : StableS P) (hD : ∀ s a, P s → D s → D (s.act a)) {k : Nat} {a : Act}
    (ha : (n, a) ∈ sched k) (he : ∀ s, P s → D (s.act a)) :
    Ticks sched (fun c => P (c.socks n) ∧ (k < c.clock → D (c.socks n))) := by
  refine ⟨fun c hc => ?_, fun c k hc => hc⟩
  obtain ⟨h1, h2⟩ := foldl_event (sched c.clock) (fun s b _ => hP s b) (fun s b _ => hD s b) he c hc.1
  refine ⟨h1, fun hk => h2 ?_⟩
  rw [tick_clock] at hk
  by_cases hlt : k < c.clock
  · exact .inl (hc.2 hlt)
  · right
    rw [show c.clock = k by omega]
    exact ha

/-- Two events, the second of which makes `D'` true if `D` is true already. `P` and `D` are kept by what the schedule
does to the socket. -/
theorem ticks_events {n : Nat} {P D D' : Sock → Prop} (hP : ∀ j s a, (n, a) ∈ sched j → P s → P (s.act a))
    (hD : ∀ j s a, (n, a) ∈ sched j → P s → D s → D (s.act a)) (hD' : ∀ j s a, (n, a) ∈ sched j → P s → D' s → D' (s.act a))
    {k k' : Nat} (hk : k < k') {a a' : Act} (ha : (n, a) ∈ sched k) (ha' : (n, a') ∈ sched k')
    (he : ∀ s, P s → D (s.act a)) (he' : ∀ s, P s → D s → D' (s.act a')) :
    Ticks sched (fun c => P (c.socks n) ∧ (k < c.clock → D (c.socks n)) ∧ (k' < c.clock → D' (c.socks n))) := by
  refine ⟨fun c hc => ?_, fun c k hc => hc⟩
  obtain ⟨h1, h2⟩ := foldl_event (sched c.clock) (hP _) (hD _) he c hc.1
  refine ⟨h1, fun hlt => h2 ?_, fun hlt => ?_⟩ <;> rw [tick_clock] at hlt
  · by_cases h : k < c.clock
    · exact .inl (hc.2.1 h)
    · right
      rw [show c.clock = k by omega]
      exact ha
  · refine (foldl_event (P := fun s => P s ∧ D s) (D := D') (a := a') (sched c.clock)
      (fun s b hb h => ⟨hP _ s b hb h.1, hD _ s b hb h.1 h.2⟩) (fun s b hb h => hD' _ s b hb h.1) (fun s h => he' s h.1 h.2) c
      ⟨hc.1, hc.2.1 (by omega)⟩).2 ?_
    by_cases h : k' < c.clock
    · exact .inl (hc.2.2 h)
    · right
      rw [show c.clock = k' by omega]
      exact ha'

/-- A byte that was read is what the register held at the end of the transaction. -/
theorem read1_value {n : Nat} (hn : n < 8) (a : U16) :
    Hoare (fun _ => True) ((dev sched faults).bus.read1 (sockOf n).register a)
      (fun x c => x = (c.socks n).peekReg a) (fun _ => True) := by
  refine .bind (Q := fun d c => d = [(c.socks n).peekReg a]) ⟨fun c _ => ?_⟩ fun d => ?_
  · unfold Bus.readBuf
    rcases hr : (dev sched faults).bus.readFrame c (sockOf n).register a [0] with ⟨_ | _ | _ | _, d', c'⟩
    · simp only [ByteDev.bus] at hr
      split at hr
      · simp only [Prod.mk.injEq, true_and] at hr
        show d' = [(c'.socks n).peekReg a]
        rw [← hr.1, ← hr.2]
        show [_] = [_]
        rw [List.cons.injEq]
        exact ⟨peek_reg hn .., rfl⟩
      · simp at hr
    · trivial
    · trivial
    · trivial
  · split
    · refine .pure fun c h => ?_
      simpa using h
    · exact .panic fun _ _ => trivial

end Chip
end W5500.Spec
