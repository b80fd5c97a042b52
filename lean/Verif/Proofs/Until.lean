import Verif.Spec.Until
import Verif.Proofs.StrategyClient
/-! # Runs on two plans that are the same while they last -/

namespace W5500
open Spec
variable {E ε α β S X H : Type} {p q : Plan E}

theorem foldl_event_counts (l : List (Nat × Act)) (c : Chip) : (l.foldl Chip.event c).clock = c.clock ∧ (l.foldl Chip.event c).txn = c.txn := by
  induction l generalizing c with
  | nil => exact ⟨rfl, rfl⟩
  | cons e l ih => exact ih _

theorem poke_counts (c : Chip) (b : BitVec 5) (a : U16) (x : U8) : (c.poke b a x).clock = c.clock ∧ (c.poke b a x).txn = c.txn := by
  unfold Chip.poke Chip.pokeCommon
  repeat' split
  all_goals exact ⟨rfl, rfl⟩

theorem readBytes_counts (p : Plan E) (c : Chip) (b : BitVec 5) (a : U16) (n : Nat) :
    ((Chip.dev p.sched p.faults).readBytes c b a n).2.clock = c.clock + n ∧ ((Chip.dev p.sched p.faults).readBytes c b a n).2.txn = c.txn := by
  induction n generalizing c a with
  | zero => exact ⟨rfl, rfl⟩
  | succ n ih =>
    obtain ⟨h1, h2⟩ := ih (c.tick p.sched) (a + 1)
    refine ⟨h1.trans ?_, h2.trans (foldl_event_counts _ c).2⟩
    show c.clock + 1 + n = _
    omega

theorem writeBytes_counts (p : Plan E) (c : Chip) (b : BitVec 5) (a : U16) (l : List U8) :
    ((Chip.dev p.sched p.faults).writeBytes c b a l).clock = c.clock + l.length ∧
    ((Chip.dev p.sched p.faults).writeBytes c b a l).txn = c.txn := by
  induction l generalizing c a with
  | nil => exact ⟨rfl, rfl⟩
  | cons x l ih =>
    obtain ⟨h1, h2⟩ := ih ((c.tick p.sched).poke b a x) (a + 1)
    refine ⟨h1.trans ?_, h2.trans (((poke_counts _ _ _ _).2).trans (foldl_event_counts _ c).2)⟩
    rw [(poke_counts _ _ _ _).1]
    show c.clock + 1 + l.length = _
    rw [List.length_cons]
    omega

theorem readBytes_until {s t : Nat} (h : ∀ k, s ≤ k → k < t → p.sched k = q.sched k) (c : Chip) (b : BitVec 5) (a : U16) (n : Nat) (hs : s ≤ c.clock)
    (hc : c.clock + n ≤ t) :
    (Chip.dev q.sched q.faults).readBytes c b a n = (Chip.dev p.sched p.faults).readBytes c b a n := by
  induction n generalizing c a with
  | zero => rfl
  | succ n ih =>
    have e : c.tick q.sched = c.tick p.sched := by unfold Chip.tick; rw [h c.clock hs (by omega)]
    have := ih (c.tick p.sched) (a + 1) (Nat.le_trans hs (Nat.le_succ _)) (by show c.clock + 1 + n ≤ t; omega)
    simp only [ByteDev.readBytes, Chip.dev] at this ⊢
    rw [e, this]

theorem writeBytes_until {s t : Nat} (h : ∀ k, s ≤ k → k < t → p.sched k = q.sched k) (c : Chip) (b : BitVec 5) (a : U16) (l : List U8) (hs : s ≤ c.clock)
    (hc : c.clock + l.length ≤ t) :
    (Chip.dev q.sched q.faults).writeBytes c b a l = (Chip.dev p.sched p.faults).writeBytes c b a l := by
  induction l generalizing c a with
  | nil => rfl
  | cons x l ih =>
    rw [List.length_cons] at hc
    have e : c.tick q.sched = c.tick p.sched := by unfold Chip.tick; rw [h c.clock hs (by omega)]
    have := ih ((c.tick p.sched).poke b a x) (a + 1) (by rw [(poke_counts _ _ _ _).1]; exact Nat.le_trans hs (Nat.le_succ _)) (by rw [(poke_counts _ _ _ _).1]; show c.clock + 1 + l.length ≤ t; omega)
    simp only [ByteDev.writeBytes, Chip.dev] at this ⊢
    rw [e, this]

/-- A transaction counts. -/
theorem readFrame_counts (p : Plan E) (c : Chip) (b : U8) (a : U16) (d : List U8) :
    c.clock ≤ (p.bus.readFrame c b a d).2.2.clock ∧ c.txn + 1 ≤ (p.bus.readFrame c b a d).2.2.txn := by
  unfold Plan.bus ByteDev.bus
  dsimp only
  generalize hr : (Chip.dev p.sched p.faults).fault c = r
  have hr : (p.faults c.txn, { c with txn := c.txn + 1 }) = r := hr
  obtain ⟨_ | ⟨e, k⟩, c1⟩ := r
  · obtain ⟨-, rfl⟩ := Prod.mk.inj hr
    have := readBytes_counts p { c with txn := c.txn + 1 } (b.setWidth 5) a d.length
    dsimp only at this ⊢
    omega
  · obtain ⟨-, rfl⟩ := Prod.mk.inj hr
    have := readBytes_counts p { c with txn := c.txn + 1 } (b.setWidth 5) a (min (k - 3) d.length)
    dsimp only at this ⊢
    omega

theorem writeFrame_counts (p : Plan E) (c : Chip) (b : U8) (a : U16) (d : List U8) :
    c.clock ≤ (p.bus.writeFrame c b a d).2.clock ∧ c.txn + 1 ≤ (p.bus.writeFrame c b a d).2.txn := by
  unfold Plan.bus ByteDev.bus
  dsimp only
  generalize hr : (Chip.dev p.sched p.faults).fault c = r
  have hr : (p.faults c.txn, { c with txn := c.txn + 1 }) = r := hr
  obtain ⟨_ | ⟨e, k⟩, c1⟩ := r
  · obtain ⟨-, rfl⟩ := Prod.mk.inj hr
    have := writeBytes_counts p { c with txn := c.txn + 1 } (b.setWidth 5) a d
    dsimp only at this ⊢
    omega
  · obtain ⟨-, rfl⟩ := Prod.mk.inj hr
    have := writeBytes_counts p { c with txn := c.txn + 1 } (b.setWidth 5) a (d.take (k - 3))
    dsimp only at this ⊢
    omega

theorem readFrame_until {c c1 c2 : Chip} (h : p.AgreeBetween q c1 c2) (b : U8) (a : U16) (d : List U8) (i1 : c1.clock ≤ c.clock) (i2 : c1.txn ≤ c.txn)
    (h1 : (p.bus.readFrame c b a d).2.2.clock ≤ c2.clock) (h2 : (p.bus.readFrame c b a d).2.2.txn ≤ c2.txn) : q.bus.readFrame c b a d = p.bus.readFrame c b a d := by
  have h3 := (readFrame_counts p c b a d).2
  unfold Plan.bus ByteDev.bus at *
  dsimp only at *
  have e : (Chip.dev q.sched q.faults).fault c = (Chip.dev p.sched p.faults).fault c := by
    show (q.faults c.txn, _) = (p.faults c.txn, _)
    rw [h.faults c.txn i2 (by omega)]
  rw [e]
  generalize hr : (Chip.dev p.sched p.faults).fault c = r at *
  have hr : (p.faults c.txn, { c with txn := c.txn + 1 }) = r := hr
  obtain ⟨_ | ⟨e, k⟩, c3⟩ := r
  · have i3 : c3.clock = c.clock := by rw [← (Prod.mk.inj hr).2]
    have := readBytes_counts p c3 (b.setWidth 5) a d.length
    dsimp only at this h1 ⊢
    rw [readBytes_until h.sched _ _ _ _ (by omega) (by omega)]
  · have i3 : c3.clock = c.clock := by rw [← (Prod.mk.inj hr).2]
    have := readBytes_counts p c3 (b.setWidth 5) a (min (k - 3) d.length)
    dsimp only at this h1 ⊢
    rw [readBytes_until h.sched _ _ _ _ (by omega) (by omega)]

theorem writeFrame_until {c c1 c2 : Chip} (h : p.AgreeBetween q c1 c2) (b : U8) (a : U16) (d : List U8) (i1 : c1.clock ≤ c.clock) (i2 : c1.txn ≤ c.txn)
    (h1 : (p.bus.writeFrame c b a d).2.clock ≤ c2.clock) (h2 : (p.bus.writeFrame c b a d).2.txn ≤ c2.txn) : q.bus.writeFrame c b a d = p.bus.writeFrame c b a d := by
  have h3 := (writeFrame_counts p c b a d).2
  unfold Plan.bus ByteDev.bus at *
  dsimp only at *
  have e : (Chip.dev q.sched q.faults).fault c = (Chip.dev p.sched p.faults).fault c := by
    show (q.faults c.txn, _) = (p.faults c.txn, _)
    rw [h.faults c.txn i2 (by omega)]
  rw [e]
  generalize hr : (Chip.dev p.sched p.faults).fault c = r at *
  have hr : (p.faults c.txn, { c with txn := c.txn + 1 }) = r := hr
  obtain ⟨_ | ⟨e, k⟩, c3⟩ := r
  · have i3 : c3.clock = c.clock := by rw [← (Prod.mk.inj hr).2]
    have := writeBytes_counts p c3 (b.setWidth 5) a d
    dsimp only at this h1 ⊢
    rw [writeBytes_until h.sched _ _ _ _ (by omega) (by omega)]
  · have i3 : c3.clock = c.clock := by rw [← (Prod.mk.inj hr).2]
    have := writeBytes_counts p c3 (b.setWidth 5) a (d.take (k - 3))
    dsimp only at this h1 ⊢
    rw [writeBytes_until h.sched _ _ _ _ (by omega) (by omega)]

/-- Time does not run backwards. -/
theorem play_counts (p : Plan E) (g : Strategy E X) (c : Chip) : c.clock ≤ (g.play p.bus c).2.clock ∧ c.txn ≤ (g.play p.bus c).2.txn := by
  induction g generalizing c with
  | done x => exact ⟨Nat.le_refl _, Nat.le_refl _⟩
  | read b a d k ih =>
    have h1 := readFrame_counts p c b a d
    have h2 := ih (p.bus.readFrame c b a d).1 (p.bus.readFrame c b a d).2.1 (p.bus.readFrame c b a d).2.2
    rw [Strategy.play]
    omega
  | write b a d k ih =>
    have h1 := writeFrame_counts p c b a d
    have h2 := ih (p.bus.writeFrame c b a d).1 (p.bus.writeFrame c b a d).2
    rw [Strategy.play]
    omega

/-- A run that ends before the plans differ. -/
theorem play_until {c1 c2 : Chip} (h : p.AgreeBetween q c1 c2) (g : Strategy E X) (c : Chip) (i1 : c1.clock ≤ c.clock) (i2 : c1.txn ≤ c.txn)
    (h1 : (g.play p.bus c).2.clock ≤ c2.clock) (h2 : (g.play p.bus c).2.txn ≤ c2.txn) : g.play q.bus c = g.play p.bus c := by
  induction g generalizing c with
  | done x => rfl
  | read b a d k ih =>
    rw [Strategy.play] at *
    have h3 := play_counts p (k (p.bus.readFrame c b a d).1 (p.bus.readFrame c b a d).2.1) (p.bus.readFrame c b a d).2.2
    have h4 := readFrame_counts p c b a d
    rw [readFrame_until h b a d i1 i2 (by omega) (by omega)]
    exact ih _ _ _ (by omega) (by omega) h1 h2
  | write b a d k ih =>
    rw [Strategy.play] at *
    have h3 := play_counts p (k (p.bus.writeFrame c b a d).1) (p.bus.writeFrame c b a d).2
    have h4 := writeFrame_counts p c b a d
    rw [writeFrame_until h b a d i1 i2 (by omega) (by omega)]
    exact ih _ _ (by omega) (by omega) h1 h2

theorem plays_until {F : (W : Type) → Bus W E → W → X × W} (hF : Plays F) {c : Chip} (h : p.AgreeBetween q c (F Chip p.bus c).2) :
    F Chip q.bus c = F Chip p.bus c := by
  obtain ⟨g, hg⟩ := hF
  rw [hg] at h
  rw [hg, hg]
  exact play_until h g c (Nat.le_refl _) (Nat.le_refl _) (Nat.le_refl _) (Nat.le_refl _)

end W5500
