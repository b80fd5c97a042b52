import Verif.Spec.Farewell
import Verif.Proofs.Poll
/-! # Until the peer closes the connection -/

namespace W5500.Spec
open W5500 Sock
variable {E : Type} {sched : Nat → List (Nat × Act)} {faults : Nat → Option (E × Nat)} {n : Nat}

/-- The network as it is from `T` until `X`; before and after, SENDOK is raised and everything sent is taken with every byte. -/
def filled (sched : Nat → List (Nat × Act)) (n T X k : Nat) : List (Nat × Act) :=
  if T ≤ k ∧ k < X then sched k else [(n, .raise 0x10), (n, .transmit 65536), (n, .ack 65536)]

theorem filled_in {T X k : Nat} (h1 : T ≤ k) (h2 : k < X) : filled sched n T X k = sched k := if_pos ⟨h1, h2⟩

theorem filled_out {T X k : Nat} (h : ¬ (T ≤ k ∧ k < X)) : filled sched n T X k = [(n, .raise 0x10), (n, .transmit 65536), (n, .ack 65536)] := if_neg h

theorem filled_news {T X k : Nat} (h : ¬ (T ≤ k ∧ k < X)) : news n (filled sched n T X k) = [] := by
  rw [filled_out h]
  simp [news, Act.isNews]

theorem filled_status {T X : Nat} (h : ∀ k x, T ≤ k → k < X → (n, .status x) ∈ sched k → x = 0x17) : StatusIn (filled sched n T X) n (· = 0x17) := by
  intro k x hx
  by_cases hk : T ≤ k ∧ k < X
  · rw [filled_in hk.1 hk.2] at hx
    exact h k x hk.1 hk.2 hx
  · rw [filled_out hk] at hx
    simp at hx

theorem filled_confirming {L T X : Nat} (hX : T ≤ X) (h : ConfirmingUntil L sched n T X) : ConfirmingIn L (filled sched n T X) n := by
  have hL : 1 ≤ L := by
    rcases L with _ | L
    · obtain ⟨l, h1, h2, _⟩ := h T (Nat.le_refl _) hX
      omega
    · omega
  have out : ∀ k, ¬ (T ≤ k ∧ k < X) → ∃ b : U8, b.getLsbD 4 = true ∧ (n, Act.raise b) ∈ filled sched n T X k := fun k hk =>
    ⟨0x10, by decide, by rw [filled_out hk]; simp⟩
  intro k
  by_cases h1 : T ≤ k
  · by_cases h2 : k + L ≤ X
    · obtain ⟨l, g1, g2, b, g3, g4⟩ := h k h1 h2
      exact ⟨l, g1, g2, b, g3, by rw [filled_in (by omega) (by omega)]; exact g4⟩
    · exact ⟨max k X, by omega, by omega, out _ (by omega)⟩
  · exact ⟨k, Nat.le_refl _, by omega, out _ (by omega)⟩

theorem filled_taking {L T X : Nat} (hX : T ≤ X) (h : TakingUntil L sched n T X) : TakingIn (L + 1) (filled sched n T X) n := by
  have hL : 1 ≤ L := by
    rcases L with _ | L
    · obtain ⟨i, j, h1, h2, h3, _⟩ := h T (Nat.le_refl _) hX
      omega
    · omega
  have out1 : ∀ k, ¬ (T ≤ k ∧ k < X) → ∃ a, 65536 ≤ a ∧ (n, Act.transmit a) ∈ filled sched n T X k := fun k hk =>
    ⟨65536, Nat.le_refl _, by rw [filled_out hk]; simp⟩
  have out2 : ∀ k, ¬ (T ≤ k ∧ k < X) → ∃ b, 65536 ≤ b ∧ (n, Act.ack b) ∈ filled sched n T X k := fun k hk =>
    ⟨65536, Nat.le_refl _, by rw [filled_out hk]; simp⟩
  intro k
  by_cases h1 : T ≤ k
  · by_cases h2 : k + L ≤ X
    · obtain ⟨i, j, g1, g2, g3, g4, g5⟩ := h k h1 h2
      exact ⟨i, j, g1, g2, by omega, by rw [filled_in (by omega) (by omega)]; exact g4, by rw [filled_in (by omega) (by omega)]; exact g5⟩
    · exact ⟨max k X, max k X + 1, by omega, by omega, by omega, out1 _ (by omega), out2 _ (by omega)⟩
  · by_cases h3 : k + 1 < T
    · exact ⟨k, k + 1, Nat.le_refl _, by omega, by omega, out1 _ (by omega), out2 _ (by omega)⟩
    · by_cases h2 : T + L ≤ X
      · obtain ⟨i, j, g1, g2, g3, g4, g5⟩ := h T (Nat.le_refl _) h2
        exact ⟨k, j, by omega, by omega, by omega, out1 _ (by omega), by rw [filled_in (by omega) (by omega)]; exact g5⟩
      · exact ⟨k, X, by omega, by omega, by omega, out1 _ (by omega), out2 _ (by omega)⟩

theorem filled_apart {gap T X l : Nat} (h : Apart sched n gap T l) : Apart (filled sched n T X) n gap T l := by
  intro k hk hne
  by_cases h1 : k < X
  · rw [filled_in hk h1] at hne ⊢
    obtain ⟨g1, g2⟩ := h k hk hne
    refine ⟨g1, fun j h2 h3 => ?_⟩
    by_cases h4 : j < X
    · rw [filled_in (by omega) h4]
      exact g2 j h2 h3
    · exact filled_news (by omega)
  · exact absurd (filled_news (by omega)) hne

theorem filled_parcels {T X : Nat} (g : Nat) (h : T + g ≤ X) : parcels (filled sched n T X) n T g = parcels sched n T g := by
  induction g with
  | zero => rfl
  | succ g ih =>
    rw [parcels, parcels, ih (by omega), filled_in (by omega) (by omega)]

theorem parcels_quiet {T : Nat} (g g' : Nat) (hg : g ≤ g') (h : ∀ k, T + g ≤ k → news n (sched k) = []) :
    parcels sched n T g' = parcels sched n T g := by
  obtain ⟨i, rfl⟩ : ∃ i, g' = g + i := ⟨g' - g, by omega⟩
  clear hg
  induction i with
  | zero => rfl
  | succ i ih =>
    rw [show g + (i + 1) = (g + i) + 1 by omega, parcels, ih, h _ (by omega)]
    simp

theorem filled_arrivals {T X : Nat} (g : Nat) (h : T + g ≤ X) : arrivals (filled sched n T X) n T g = arrivals sched n T g := by
  induction g with
  | zero => rfl
  | succ g ih =>
    rw [arrivals, arrivals, ih (by omega), filled_in (by omega) (by omega)]

theorem arrivals_quiet {T : Nat} (g g' : Nat) (hg : g ≤ g') (h : ∀ k, T + g ≤ k → news n (sched k) = []) :
    arrivals sched n T g' = arrivals sched n T g := by
  obtain ⟨i, rfl⟩ : ∃ i, g' = g + i := ⟨g' - g, by omega⟩
  clear hg
  induction i with
  | zero => rfl
  | succ i ih =>
    rw [show g + (i + 1) = (g + i) + 1 by omega, arrivals, ih, h _ (by omega)]
    simp

/-! ## The last calls -/

theorem sr_events {p : U8 → Prop} (l : List (Nat × Act)) (h : ∀ x, (n, .status x) ∈ l → p x) (c : Chip)
    (hc : p (c.socks n).sr ∨ ∃ x, (n, Act.status x) ∈ l) : p ((l.foldl Chip.event c).socks n).sr := by
  induction l generalizing c with
  | nil => exact hc.elim id (fun ⟨x, hx⟩ => by cases hx)
  | cons e l ih =>
    refine ih (fun x hx => h x (.tail _ hx)) _ ?_
    by_cases he : ∃ x, e = (n, .status x)
    · obtain ⟨x, rfl⟩ := he
      left
      have : ((c.event (n, .status x)).socks n) = (c.socks n).act (.status x) := Chip.setSock_self _ _ _
      rw [this]
      exact h x (.head _)
    · rcases hc with hc | ⟨x, hx⟩
      · left
        obtain ⟨m, a⟩ := e
        by_cases hm : m = n
        · subst hm
          have : ((c.event (m, a)).socks m) = (c.socks m).act a := Chip.setSock_self _ _ _
          rw [this, act_sr' fun x e => he ⟨x, by rw [e]⟩]
          exact hc
        · have : ((c.event (m, a)).socks n) = c.socks n := Chip.setSock_other _ _ _ _ (Ne.symm hm)
          rw [this]
          exact hc
      · cases hx with
        | head => exact absurd ⟨x, rfl⟩ he
        | tail _ hx => exact .inr ⟨x, hx⟩

/-- Nothing waits and nothing comes any more; the connection ends at time `X`. -/
structure Waning (n t X z : Nat) (Y S A : List U8) (c : Chip) : Prop where
  timed : Timed n 1 t (X + 9) 0 z Y [] c
  idle : At n (TcpIdle S A) c
  still : c.clock ≤ X → (c.socks n).sr = 0x17
  gone : X < c.clock → (c.socks n).sr ≠ 0x17

theorem waning_ticks {t X z T : Nat} {Y S A : List U8} (hT : T ≤ t) (h : EndingAt sched n T X) (hq : ∀ k, t ≤ k → news n (sched k) = []) :
    Chip.Ticks sched (Waning n t X z Y S A) := by
  have h1 : Chip.Ticks sched (Timed n 1 t (X + 9) 0 z Y []) := due_ticks (fun k hk _ => hq k hk) (by omega)
  have h2 : Chip.Ticks sched (At n (TcpIdle S A)) := (StableS.stays (stable_tcpIdle S A)).ticks
  refine ⟨fun c hc => ⟨h1.tick c hc.timed, h2.tick c hc.idle, fun hk => ?_, fun hk => ?_⟩,
    fun c i hc => ⟨h1.txn c i hc.timed, h2.txn c i hc.idle, hc.still, hc.gone⟩⟩
  · have hs := hc.timed.start
    rw [Chip.tick_clock] at hk
    exact sr_events (p := (· = 0x17)) (sched c.clock) (fun x hx => h.before _ x (by omega) (by omega) hx) c (.inl (hc.still (by omega)))
  · rw [Chip.tick_clock] at hk
    refine sr_events (p := (· ≠ 0x17)) (sched c.clock) (fun x hx => h.after _ x (by omega) hx) c ?_
    by_cases e : c.clock = X
    · rw [e]
      exact .inr h.now
    · exact .inl (hc.gone (by omega))

theorem read_now (hn : n < 8) (hf : ∀ i, faults i = none) (a : U16) (c : Chip) :
    ∃ c', (Chip.dev sched faults).bus.readFrame c (sockOf n).register a [0] = (.ok (), [(c'.socks n).peekReg a], c') ∧ c'.clock = c.clock + 1 ∧
      ∀ I, Chip.Ticks sched I → I c → I c' := by
  rcases hr : (Chip.dev sched faults).bus.readFrame c (sockOf n).register a [0] with ⟨r, d', c'⟩
  have ok : r = .ok () ∧ d'.length = 1 := by
    simp only [ByteDev.bus] at hr
    rw [show (Chip.dev sched faults).fault c = (none, { c with txn := c.txn + 1 }) from Prod.ext (hf _) rfl] at hr
    simp only [Prod.mk.injEq] at hr
    rw [← hr.1, ← hr.2.1]
    exact ⟨rfl, rfl⟩
  obtain ⟨rfl, hl⟩ := ok
  obtain ⟨x, rfl⟩ := List.length_eq_one_iff.mp hl
  have h1 := (Chip.read1_clock (sched := sched) (faults := faults) _ a c.clock).ok (s := c) rfl (read1_ok hr)
  have h2 := (Chip.read1_value (sched := sched) (faults := faults) hn a).ok (s := c) trivial (read1_ok hr)
  refine ⟨c', by rw [← h2], h1, fun I hI hc => ?_⟩
  have h3 := hI.readFrame (faults := faults) c (sockOf n).register a [0] hc
  rw [hr] at h3
  exact h3

end W5500.Spec
