import Verif.Spec.Recover
import Verif.Proofs.RelateClient
import Verif.Proofs.Veil
import Verif.Proofs.Sendok
import Verif.Proofs.Cost
/-! # Only what is to come matters -/

namespace W5500.Spec
open W5500
variable {E ε α H S : Type} {p q : Plan E}

/-- Equal states, not before the given times. -/
def SameFrom (t j : Nat) (c c' : Chip) : Prop := c = c' ∧ t ≤ c.clock ∧ j ≤ c.txn

namespace Chip

theorem readBytes_from {t : Nat} (h : ∀ k, t ≤ k → p.sched k = q.sched k) (c : Chip) (hc : t ≤ c.clock) (b : BitVec 5) (a : U16)
    (n : Nat) : (dev p.sched p.faults).readBytes c b a n = (dev q.sched q.faults).readBytes c b a n := by
  induction n generalizing c a with
  | zero => rfl
  | succ n ih =>
    have e : c.tick p.sched = c.tick q.sched := by unfold tick; rw [h _ hc]
    show ((c.tick p.sched).peek b a :: ((dev p.sched p.faults).readBytes (c.tick p.sched) b (a + 1) n).1,
      ((dev p.sched p.faults).readBytes (c.tick p.sched) b (a + 1) n).2) =
      ((c.tick q.sched).peek b a :: ((dev q.sched q.faults).readBytes (c.tick q.sched) b (a + 1) n).1,
      ((dev q.sched q.faults).readBytes (c.tick q.sched) b (a + 1) n).2)
    rw [ih _ (by rw [tick_clock]; omega), e]

theorem writeBytes_from {t : Nat} (h : ∀ k, t ≤ k → p.sched k = q.sched k) (c : Chip) (hc : t ≤ c.clock) (b : BitVec 5) (a : U16)
    (l : List U8) : (dev p.sched p.faults).writeBytes c b a l = (dev q.sched q.faults).writeBytes c b a l := by
  induction l generalizing c a with
  | nil => rfl
  | cons x l ih =>
    have e : c.tick p.sched = c.tick q.sched := by unfold tick; rw [h _ hc]
    show (dev p.sched p.faults).writeBytes ((c.tick p.sched).poke b a x) b (a + 1) l =
      (dev q.sched q.faults).writeBytes ((c.tick q.sched).poke b a x) b (a + 1) l
    rw [ih _ (by rw [poke_clock, tick_clock]; omega), e]

end Chip

theorem respects_from {t j : Nat} (hs : ∀ k, t ≤ k → p.sched k = q.sched k) (hf : ∀ k, j ≤ k → p.faults k = q.faults k) :
    Respects (fun _ => True) (fun _ => True) Eq p.bus q.bus (SameFrom t j) := by
  have hw : ∀ b a d (w w' : Chip), SameFrom t j w w' → (p.bus.writeFrame w b a d).1 = (q.bus.writeFrame w' b a d).1 ∧
      SameFrom t j (p.bus.writeFrame w b a d).2 (q.bus.writeFrame w' b a d).2 := by
    rintro b a d w _ ⟨rfl, h1, h2⟩
    simp only [Plan.bus, ByteDev.bus, Chip.dev]
    rw [hf _ h2]
    rcases q.faults w.txn with _ | ⟨e, k⟩
    · refine ⟨rfl, Chip.writeBytes_from hs { w with txn := w.txn + 1 } h1 _ _ _, ?_, ?_⟩
      · have := Chip.writeBytes_clock (sched := p.sched) (faults := p.faults) d { w with txn := w.txn + 1 } (b.setWidth 5) a
        exact this ▸ Nat.le_trans h1 (Nat.le_add_right _ _)
      · have := Chip.writeBytes_txn (sched := p.sched) (faults := p.faults) d { w with txn := w.txn + 1 } (b.setWidth 5) a
        exact this ▸ Nat.le_trans h2 (Nat.le_succ _)
    · refine ⟨rfl, Chip.writeBytes_from hs { w with txn := w.txn + 1 } h1 _ _ _, ?_, ?_⟩
      · have := Chip.writeBytes_clock (sched := p.sched) (faults := p.faults) (d.take (k - 3)) { w with txn := w.txn + 1 }
          (b.setWidth 5) a
        exact this ▸ Nat.le_trans h1 (Nat.le_add_right _ _)
      · have := Chip.writeBytes_txn (sched := p.sched) (faults := p.faults) (d.take (k - 3)) { w with txn := w.txn + 1 }
          (b.setWidth 5) a
        exact this ▸ Nat.le_trans h2 (Nat.le_succ _)
  refine ⟨?_, fun b a d w w' _ r => hw b a d w w' r, fun b a d d' w w' _ hd r => hd ▸ hw b a d w w' r⟩
  rintro b a d w _ _ ⟨rfl, h1, h2⟩
  simp only [Plan.bus, ByteDev.bus, Chip.dev]
  rw [hf _ h2]
  have key : ∀ n, SameFrom t j ((Chip.dev p.sched p.faults).readBytes { w with txn := w.txn + 1 } (b.setWidth 5) a n).2
      ((Chip.dev q.sched q.faults).readBytes { w with txn := w.txn + 1 } (b.setWidth 5) a n).2 := fun n => by
    refine ⟨congrArg Prod.snd (Chip.readBytes_from hs { w with txn := w.txn + 1 } h1 _ _ _), ?_, ?_⟩
    · rw [Chip.readBytes_clock]
      exact Nat.le_trans h1 (Nat.le_add_right _ _)
    · rw [Chip.readBytes_txn]
      exact Nat.le_trans h2 (Nat.le_succ _)
  have e := fun n => congrArg Prod.fst (Chip.readBytes_from hs { w with txn := w.txn + 1 } h1 (b.setWidth 5) a n)
  rcases q.faults w.txn with _ | ⟨x, k⟩
  · exact ⟨rfl, e _, key _⟩
  · exact ⟨rfl, congrArg (· ++ _) (e _), key _⟩

/-- A call that is the same on both, from equal states. -/
theorem from_eq {t j : Nat} {m m' : M Chip ε α} (h : Rel (SameFrom t j) Eq m m') {c : Chip} (h1 : t ≤ c.clock) (h2 : j ≤ c.txn) :
    m c = m' c ∧ t ≤ (m c).2.clock ∧ j ≤ (m c).2.txn := by
  obtain ⟨a, b, h3, h4⟩ := h.run c c ⟨rfl, h1, h2⟩
  exact ⟨Prod.ext (Res.same_eq.mp a) b, h3, h4⟩

theorem from_dev {t j : Nat} {m m' : M (Device Chip H) ε α} (h : Rel (DevLike (SameFrom t j)) Eq m m') {d : Device Chip H}
    (h1 : t ≤ d.bus.clock) (h2 : j ≤ d.bus.txn) : m d = m' d ∧ t ≤ (m d).2.bus.clock ∧ j ≤ (m d).2.bus.txn := by
  obtain ⟨a, ⟨b, h3, h4⟩, b'⟩ := h.run d d ⟨⟨rfl, h1, h2⟩, rfl⟩
  have : (m d).2 = (m' d).2 := by
    generalize (m d).2 = x at b b'
    generalize (m' d).2 = y at b b'
    cases x; cases y; cases b; cases b'; rfl
  exact ⟨Prod.ext (Res.same_eq.mp a) this, h3, h4⟩

theorem from_sock {t j : Nat} {u : UdpSocket} {m m' : M (UdpSocket × Device Chip H) ε α}
    (h : Rel (OnSock u.socket (DevLike (SameFrom t j))) Eq m m') {d : Device Chip H}
    (h1 : t ≤ d.bus.clock) (h2 : j ≤ d.bus.txn) :
    m (u, d) = m' (u, d) ∧ t ≤ (m (u, d)).2.2.bus.clock ∧ j ≤ (m (u, d)).2.2.bus.txn := by
  obtain ⟨a, _, b0, ⟨b, h3, h4⟩, b'⟩ := h.run (u, d) (u, d) ⟨rfl, rfl, ⟨rfl, h1, h2⟩, rfl⟩
  have : (m (u, d)).2.2 = (m' (u, d)).2.2 := by
    generalize (m (u, d)).2.2 = x at b b'
    generalize (m' (u, d)).2.2 = y at b b'
    cases x; cases y; cases b; cases b'; rfl
  exact ⟨Prod.ext (Res.same_eq.mp a) (Prod.ext b0 this), h3, h4⟩

/-! ## Forgetting the past -/

/-- Nothing happened before the state `c`. -/
def Plan.since (p : Plan E) (c : Chip) : Plan E where
  sched k := if c.clock ≤ k then p.sched k else []
  faults k := if c.txn ≤ k then p.faults k else none

theorem Plan.since_respects (p : Plan E) (c : Chip) :
    Respects (fun _ => True) (fun _ => True) Eq p.bus (p.since c).bus (SameFrom c.clock c.txn) :=
  respects_from (fun _ h => (if_pos h).symm) (fun _ h => (if_pos h).symm)

variable {sched : Nat → List (Nat × Act)} {faults : Nat → Option (E × Nat)} {c : Chip} {n : Nat}

theorem NoFaultsFrom.since (h : NoFaultsFrom faults c) (i : Nat) : ((⟨sched, faults⟩ : Plan E).since c).faults i = none := by
  show (if c.txn ≤ i then faults i else none) = none
  split
  · exact h i ‹_›
  · rfl

theorem since_mem {k : Nat} {e : Nat × Act} : e ∈ ((⟨sched, faults⟩ : Plan E).since c).sched k ↔ c.clock ≤ k ∧ e ∈ sched k := by
  show e ∈ (if c.clock ≤ k then sched k else []) ↔ _
  split
  · exact ⟨fun h => ⟨‹_›, h⟩, fun h => h.2⟩
  · exact ⟨fun h => (nomatch h), fun h => absurd h.1 ‹_›⟩

theorem StatusFrom.since {P : U8 → Prop} (h : StatusFrom sched n P c) : StatusIn ((⟨sched, faults⟩ : Plan E).since c).sched n P :=
  fun k x hx => h k x (since_mem.mp hx).1 (since_mem.mp hx).2

theorem LosslessFrom.since (h : LosslessFrom sched n c) : Lossless ((⟨sched, faults⟩ : Plan E).since c).sched n :=
  fun k hx => h k (since_mem.mp hx).1 (since_mem.mp hx).2

theorem Emitting.since (h : Emitting sched n) : Emitting ((⟨sched, faults⟩ : Plan E).since c).sched n := by
  intro k
  obtain ⟨l, hl, b, hb⟩ := h (max k c.clock)
  exact ⟨l, by omega, b, since_mem.mpr ⟨by omega, hb⟩⟩

theorem Confirming.since (h : Confirming sched n) : Confirming ((⟨sched, faults⟩ : Plan E).since c).sched n := by
  intro k
  obtain ⟨l, hl, b, hb, ha⟩ := h (max k c.clock)
  exact ⟨l, by omega, b, hb, since_mem.mpr ⟨by omega, ha⟩⟩

theorem Draining.since (h : Draining sched n) : Draining ((⟨sched, faults⟩ : Plan E).since c).sched n := by
  constructor
  · intro k
    obtain ⟨l, hl, b, hb, ha⟩ := h.1 (max k c.clock)
    exact ⟨l, by omega, b, hb, since_mem.mpr ⟨by omega, ha⟩⟩
  · intro k
    obtain ⟨l, hl, b, hb, ha⟩ := h.2 (max k c.clock)
    exact ⟨l, by omega, b, hb, since_mem.mpr ⟨by omega, ha⟩⟩

theorem Answering.since (h : Answering sched n) : Answering ((⟨sched, faults⟩ : Plan E).since c).sched n := by
  intro k
  obtain ⟨l, hl, ⟨x, hx, ha⟩, hall⟩ := h (max k c.clock)
  exact ⟨l, by omega, ⟨x, hx, since_mem.mpr ⟨by omega, ha⟩⟩, fun y hy => hall y (since_mem.mp hy).2⟩

/-! ## Loops -/

theorem allSent_from {t j : Nat} (h : Respects (fun _ => True) (fun _ => True) Eq p.bus q.bus (SameFrom t j)) (u : UdpSocket)
    (xs : List (List U8)) {d d' : Device Chip H} (h1 : t ≤ d.bus.clock) (h2 : j ≤ d.bus.txn) (hs : AllSent q.bus u xs d d') :
    AllSent p.bus u xs d d' := by
  induction xs generalizing d with
  | nil => exact hs
  | cons x xs ih =>
    obtain ⟨d1, ⟨hne, N, hN⟩, hrest⟩ := hs
    have e := fun fuel => from_dev (.onBus (rel_udpSend h Cut.eq (u := u) trivial trivial fuel (rfl : x = x))) h1 h2
    have e' := fun fuel => (e fuel).1
    refine ⟨d1, ⟨hne, N, fun fuel hf => (e' fuel).trans (hN fuel hf)⟩, ih ?_ ?_ hrest⟩
    · have := (e N).2.1
      rw [e', show (Device.onBus (u.socketSendAll q.bus N x) d : _) = _ from hN N (Nat.le_refl _)] at this
      exact this
    · have := (e N).2.2
      rw [e', show (Device.onBus (u.socketSendAll q.bus N x) d : _) = _ from hN N (Nat.le_refl _)] at this
      exact this

theorem rel_sendWhole {R : Device Chip H → Device Chip H → Prop} {call call' : List U8 → M (Device Chip H) ε Nat}
    (h : ∀ d, Rel R Eq (call d) (call' d)) (rounds : Nat) (data : List U8) :
    Rel R Eq (sendWhole call rounds data) (sendWhole call' rounds data) := by
  induction rounds generalizing data with
  | zero => exact .outOfFuel
  | succ r ih =>
    unfold sendWhole
    exact .ite (fun _ => .pure rfl) fun _ => .bindEq (h data) fun k => ih _

theorem allWritten_from {t j : Nat} (h : Respects (fun _ => True) (fun _ => True) Eq p.bus q.bus (SameFrom t j)) (r : RawDevice)
    (xs : List (List U8)) {c c' : Chip} (h1 : t ≤ c.clock) (h2 : j ≤ c.txn) (hs : AllWritten q.bus r xs c c') :
    AllWritten p.bus r xs c c' := by
  induction xs generalizing c with
  | nil => exact hs
  | cons x xs ih =>
    obtain ⟨c1, ⟨hne, N, hN⟩, hrest⟩ := hs
    have e := fun fuel => from_eq (rel_rawWrite h Cut.eq (d := r) trivial trivial fuel (rfl : x = x)) h1 h2
    have e1 := e N
    rw [(e N).1, show r.writeFrame q.bus N x c = _ from hN N (Nat.le_refl _)] at e1
    exact ⟨c1, ⟨hne, N, fun fuel hf => (e fuel).1.trans (hN fuel hf)⟩, ih e1.2.1 e1.2.2 hrest⟩

end W5500.Spec
