import Verif.Spec.Slow
import Verif.Proofs.StrategyClient
/-! # Slow chips in adaptive environments can be replayed on the chip with a fixed schedule

The replay runs the commands when they are written. What happens on a socket while a command is pending is moved to the
moment before the command. This is the prophecy `pre`: what will still happen on each socket before its pending command
is taken up. -/

namespace W5500
open Spec
variable {X E Y Z : Type}

namespace Spec

/-- The socket of the replay. -/
def replaySock (busy : Option U8) (pre : List Act) (s : Sock) : Sock :=
  match busy with
  | none => s
  | some x => (pre.foldl Sock.act s).command x

/-- The chip of the replay. -/
def Slow.replay (s : Slow) (pre : Nat → List Act) : Chip :=
  { s.chip with socks := fun n => replaySock (s.busy n) (pre n) (s.chip.socks n) }

theorem Slow.replay_nil (s : Slow) : s.replay (fun _ => []) = s.settled := by
  unfold Slow.replay Slow.settled replaySock
  rfl

theorem Slow.replay_idle (c : Chip) (pre : Nat → List Act) : (Slow.idle c).replay pre = c := rfl

theorem Chip.ext' {c d : Chip} (h1 : c.cmem = d.cmem) (h2 : ∀ n, c.socks n = d.socks n) (h3 : c.clock = d.clock)
    (h4 : c.txn = d.txn) : c = d := by
  cases c; cases d
  simp only at h1 h2 h3 h4
  obtain rfl := h1
  obtain rfl := funext h2
  subst h3 h4
  rfl

theorem Sock.reset_command (s : Sock) (x : U8) : (s.command x).reset = s.reset := by
  have h : s.connecting.reset = s.reset := by
    unfold Sock.connecting
    split <;> rfl
  unfold Sock.command
  repeat (first | exact h | rfl | split)

theorem Chip.event_clock (c : Chip) (e : Nat × Act) : (c.event e).clock = c.clock := rfl
theorem Chip.event_txn (c : Chip) (e : Nat × Act) : (c.event e).txn = c.txn := rfl
theorem Chip.events_clock (l : List (Nat × Act)) (c : Chip) : (l.foldl Chip.event c).clock = c.clock := by
  induction l generalizing c with
  | nil => rfl
  | cons e l ih => exact ih _

/-- All prophesied events are of the kind `P`. -/
def OfKind (P : Nat → Act → Prop) (pre : Nat → List Act) : Prop := ∀ n, ∀ a ∈ pre n, P n a

/-- Change one entry. -/
def put (pre : Nat → List Act) (n : Nat) (l : List Act) : Nat → List Act := fun m => if m = n then l else pre m

theorem OfKind.put {P : Nat → Act → Prop} {pre : Nat → List Act} {n : Nat} {l : List Act} (h : OfKind P pre)
    (hl : ∀ a ∈ l, P n a) : OfKind P (put pre n l) := by
  intro m a ha
  unfold Spec.put at ha
  split at ha
  · rename_i hm
    exact hm ▸ hl a ha
  · exact h m a ha

namespace Slow
variable {P : Nat → Act → Prop}

theorem replay_accept (s : Slow) (n : Nat) (pre : Nat → List Act) : s.replay (put pre n []) = (s.accept n).replay pre := by
  apply Chip.ext'
  · unfold accept; cases s.busy n <;> rfl
  · intro m
    unfold accept replay put replaySock
    by_cases hm : m = n
    · subst hm
      cases hb : s.busy m with
      | none => simp [hb]
      | some x => simp [hb, Chip.setSock]
    · cases hb : s.busy n with
      | none => simp [hm]
      | some x => simp [hm, Chip.setSock]
  · unfold accept; cases s.busy n <;> rfl
  · unfold accept; cases s.busy n <;> rfl

/-- One happening. -/
theorem replay_happen (s : Slow) (e : Nat × Happening) (he : ∀ a, e.2 = .act a → P e.1 a) (pre1 : Nat → List Act)
    (h1 : OfKind P pre1) :
    ∃ (pre : Nat → List Act) (l : List (Nat × Act)), OfKind P pre ∧ (∀ x ∈ l, P x.1 x.2) ∧ l.foldl Chip.event (s.replay pre) = (s.happen e).replay pre1 := by
  obtain ⟨n, a | _⟩ := e
  · cases hb : s.busy n with
    | none =>
      refine ⟨pre1, [(n, a)], h1, by simpa using he a rfl, ?_⟩
      refine Chip.ext' rfl ?_ rfl rfl
      intro m
      by_cases hm : m = n
      · subst hm
        simp [happen, replay, Chip.event, Chip.setSock, replaySock, hb]
      · simp [happen, replay, Chip.event, Chip.setSock, replaySock, hm]
    | some x =>
      refine ⟨put pre1 n (a :: pre1 n), [], h1.put ?_, by simp, ?_⟩
      · intro b hb
        rcases List.mem_cons.mp hb with rfl | hb
        · exact he _ rfl
        · exact h1 n b hb
      refine Chip.ext' rfl ?_ rfl rfl
      intro m
      by_cases hm : m = n
      · subst hm
        simp [happen, replay, Chip.event, Chip.setSock, replaySock, hb, put]
      · simp [happen, replay, Chip.event, Chip.setSock, replaySock, put, hm]
  · exact ⟨put pre1 n [], [], h1.put (by simp), by simp, replay_accept s n pre1⟩

theorem replay_happens (l : List (Nat × Happening)) (s : Slow) (hl : ∀ n a, (n, .act a) ∈ l → P n a)
    (pre1 : Nat → List Act) (h1 : OfKind P pre1) :
    ∃ (pre : Nat → List Act) (l' : List (Nat × Act)), OfKind P pre ∧ (∀ x ∈ l', P x.1 x.2) ∧ l'.foldl Chip.event (s.replay pre) = (l.foldl happen s).replay pre1 := by
  induction l generalizing s with
  | nil => exact ⟨pre1, [], h1, by simp, rfl⟩
  | cons e l ih =>
    obtain ⟨pre2, l2, h2, hl2, e2⟩ := ih (s.happen e) (fun n a h => hl n a (List.mem_cons_of_mem _ h))
    obtain ⟨pre, l1, h3, hl1, e1⟩ := replay_happen (P := P) s e
      (fun a ha => hl e.1 a (by rw [← ha]; exact List.mem_cons_self)) pre2 h2
    refine ⟨pre, l1 ++ l2, h3, ?_, ?_⟩
    · intro x hx
      rcases List.mem_append.mp hx with hx | hx
      · exact hl1 x hx
      · exact hl2 x hx
    · rw [List.foldl_append, e1, e2]
      rfl

theorem accept_busy (s : Slow) (n : Nat) : (s.accept n).busy n = none := by
  unfold accept
  cases hb : s.busy n with
  | none => exact hb
  | some x => simp

theorem access_busy (s : Slow) {b : BitVec 5} (hb : b ≠ 0) : (s.access b).busy (b.toNat / 4) = none := by
  unfold access
  rw [if_neg hb]
  exact accept_busy _ _

theorem replay_access (s : Slow) (b : BitVec 5) (pre1 : Nat → List Act) (h1 : OfKind P pre1) :
    ∃ pre, OfKind P pre ∧ s.replay pre = (s.access b).replay pre1 := by
  unfold access
  split
  · exact ⟨pre1, h1, rfl⟩
  · exact ⟨_, h1.put (by simp), replay_accept _ _ _⟩

theorem accept_clock (s : Slow) (n : Nat) : (s.accept n).chip.clock = s.chip.clock ∧ (s.accept n).chip.txn = s.chip.txn := by
  unfold accept
  cases s.busy n <;> exact ⟨rfl, rfl⟩

theorem happen_clock (s : Slow) (e : Nat × Happening) :
    (s.happen e).chip.clock = s.chip.clock ∧ (s.happen e).chip.txn = s.chip.txn := by
  obtain ⟨n, a | _⟩ := e
  · exact ⟨rfl, rfl⟩
  · exact accept_clock s n

theorem happens_clock (l : List (Nat × Happening)) (s : Slow) :
    (l.foldl happen s).chip.clock = s.chip.clock ∧ (l.foldl happen s).chip.txn = s.chip.txn := by
  induction l generalizing s with
  | nil => exact ⟨rfl, rfl⟩
  | cons e l ih =>
    have h := happen_clock s e
    have h' := ih (s.happen e)
    exact ⟨h'.1.trans h.1, h'.2.trans h.2⟩

theorem turn_clock (s : Slow) (l : List (Nat × Happening)) (b : BitVec 5) :
    (s.turn l b).chip.clock = s.chip.clock + 1 ∧ (s.turn l b).chip.txn = s.chip.txn := by
  have h := happens_clock l s
  unfold turn access
  dsimp only
  split
  · exact ⟨by rw [h.1], h.2⟩
  · have h' := accept_clock (l.foldl happen s) (b.toNat / 4)
    exact ⟨by rw [h'.1, h.1], by rw [h'.2, h.2]⟩

/-- What happens before a byte. -/
theorem replay_turn (s : Slow) (l : List (Nat × Happening)) (b : BitVec 5) (hl : ∀ n a, (n, .act a) ∈ l → P n a)
    (pre1 : Nat → List Act) (h1 : OfKind P pre1) :
    ∃ (pre : Nat → List Act) (l' : List (Nat × Act)), OfKind P pre ∧ (∀ x ∈ l', P x.1 x.2) ∧
      ∀ sched, sched s.chip.clock = l' → (s.replay pre).tick sched = (s.turn l b).replay pre1 := by
  obtain ⟨pre2, h2, e2⟩ := replay_access (P := P) (l.foldl happen s) b pre1 h1
  obtain ⟨pre, l', h3, hl', e3⟩ := replay_happens (P := P) l s hl pre2 h2
  refine ⟨pre, l', h3, hl', ?_⟩
  rintro sched hs
  unfold Chip.tick
  have hc : (s.replay pre).clock = s.chip.clock := rfl
  rw [hc, hs, e3, e2]
  have hk := (happens_clock l s).1
  have hk' : ((l.foldl happen s).access b).chip.clock = s.chip.clock := by
    unfold access
    split
    · exact hk
    · rw [(accept_clock _ _).1, hk]
  unfold turn replay
  simp only [hk']

theorem turn_busy (s : Slow) (l : List (Nat × Happening)) {b : BitVec 5} (hb : b ≠ 0) :
    (s.turn l b).busy (b.toNat / 4) = none := access_busy _ hb

/-- A byte that is read. -/
theorem replay_peek (s : Slow) (b : BitVec 5) (a : U16) (pre : Nat → List Act) (hb : b ≠ 0 → s.busy (b.toNat / 4) = none) :
    (s.replay pre).peek b a = s.chip.peek b a := by
  unfold Chip.peek
  split
  · rfl
  · rename_i h
    have hs : (s.replay pre).socks (b.toNat / 4) = s.chip.socks (b.toNat / 4) := by
      unfold replay replaySock
      simp only [hb h]
    rw [hs]

/-- Events on one socket. -/
theorem events_on (l : List Act) (n : Nat) (c : Chip) :
    ((l.map fun a => (n, a)).foldl Chip.event c).cmem = c.cmem ∧ ((l.map fun a => (n, a)).foldl Chip.event c).clock = c.clock ∧
    ((l.map fun a => (n, a)).foldl Chip.event c).txn = c.txn ∧
    ((l.map fun a => (n, a)).foldl Chip.event c).socks n = l.foldl Sock.act (c.socks n) ∧
    ∀ m, m ≠ n → ((l.map fun a => (n, a)).foldl Chip.event c).socks m = c.socks m := by
  induction l generalizing c with
  | nil => exact ⟨rfl, rfl, rfl, rfl, fun _ _ => rfl⟩
  | cons a l ih =>
    obtain ⟨f1, f2, f3, f4, f5⟩ := ih (c.event (n, a))
    refine ⟨f1, f2, f3, f4.trans ?_, fun m hm => (f5 m hm).trans ?_⟩
    · simp [Chip.event, Chip.setSock]
    · simp [Chip.event, Chip.setSock, hm]

/-- A byte that is written: some events right before it, then the write. -/
theorem replay_poke (s : Slow) (b : BitVec 5) (a : U16) (x : U8) (hb : b ≠ 0 → s.busy (b.toNat / 4) = none)
    (pre1 : Nat → List Act) (h1 : OfKind P pre1) :
    ∃ (pre : Nat → List Act) (l : List (Nat × Act)), OfKind P pre ∧ (∀ x ∈ l, P x.1 x.2) ∧
      (l.foldl Chip.event (s.replay pre)).poke b a x = (s.poke b a x).replay pre1 := by
  by_cases hcr : b.toNat % 4 = 1 ∧ a = 0x01
  · have hb0 : b ≠ 0 := by rintro rfl; simp at hcr
    have hn := hb hb0
    refine ⟨pre1, (pre1 (b.toNat / 4)).map fun a => (b.toNat / 4, a), h1, ?_, ?_⟩
    · intro x hx
      obtain ⟨y, hy, rfl⟩ := List.mem_map.mp hx
      exact h1 _ y hy
    · obtain ⟨f1, f2, f3, f4, f5⟩ := events_on (pre1 (b.toNat / 4)) (b.toNat / 4) (s.replay pre1)
      unfold poke
      rw [if_pos hcr]
      unfold Chip.poke
      rw [if_neg hb0, if_pos hcr.1]
      apply Chip.ext'
      · exact f1
      · intro m
        by_cases hm : m = b.toNat / 4
        · subst hm
          have hs : (s.replay pre1).socks (b.toNat / 4) = s.chip.socks (b.toNat / 4) := by
            unfold replay replaySock
            simp only [hn]
          rw [hs] at f4
          unfold Chip.setSock
          simp only [if_true, f4]
          rw [hcr.2]
          simp [Sock.pokeReg, replay, replaySock]
        · unfold Chip.setSock
          simp only [if_neg hm, f5 m hm]
          simp [replay, hm]
      · exact f2
      · exact f3
  · by_cases hr : b = 0 ∧ a = 0x00 ∧ x.getLsbD 7
    · refine ⟨fun _ => [], [], fun _ _ h => (by simp at h), by simp, ?_⟩
      unfold poke
      rw [if_neg hcr, if_pos hr]
      obtain ⟨rfl, rfl, hx⟩ := hr
      unfold Chip.poke Chip.pokeCommon
      rw [if_pos rfl, if_pos rfl, if_neg (by decide), if_pos ⟨rfl, hx⟩, if_neg (by decide), if_pos ⟨rfl, hx⟩]
      refine Chip.ext' rfl ?_ rfl rfl
      intro m
      show ((s.replay fun _ => []).socks m).reset = (s.chip.socks m).reset
      unfold replay replaySock
      dsimp only
      cases s.busy m with
      | none => rfl
      | some y => exact Sock.reset_command _ _
    · refine ⟨pre1, [], h1, by simp, ?_⟩
      unfold poke
      rw [if_neg hcr, if_neg hr]
      show (s.replay pre1).poke b a x = _
      unfold Chip.poke
      by_cases hb0 : b = 0
      · rw [if_pos hb0, if_pos hb0]
        have hr' : ¬(a = 0x00 ∧ x.getLsbD 7) := fun h => hr ⟨hb0, h⟩
        unfold Chip.pokeCommon
        rw [if_neg hr', if_neg hr']
        split
        · rfl
        · rfl
      · have hn := hb hb0
        have hs : (s.replay pre1).socks (b.toNat / 4) = s.chip.socks (b.toNat / 4) := by
          unfold replay replaySock
          simp only [hn]
        rw [if_neg hb0, if_neg hb0, hs]
        have hset : ∀ t, (s.replay pre1).setSock (b.toNat / 4) t =
            replay { s with chip := s.chip.setSock (b.toNat / 4) t } pre1 := by
          intro t
          refine Chip.ext' rfl ?_ rfl rfl
          intro m
          unfold replay replaySock Chip.setSock
          by_cases hm : m = b.toNat / 4
          · subst hm; simp [hn]
          · simp [hm]
        split
        · exact hset _
        · split
          · exact hset _
          · rfl

end Slow

theorem Chip.event_later (l : List (Nat × Act)) (c : Chip) :
    l.foldl Chip.event { c with clock := c.clock + 1 } = { l.foldl Chip.event c with clock := (l.foldl Chip.event c).clock + 1 } := by
  induction l generalizing c with
  | nil => rfl
  | cons e l ih => exact ih (c.event e)

theorem Chip.tick_append (c : Chip) (sched : Nat → List (Nat × Act)) (l l' : List (Nat × Act)) (h : sched c.clock = l ++ l') :
    c.tick sched = l'.foldl Chip.event (c.tick fun _ => l) := by
  unfold Chip.tick
  rw [h, List.foldl_append]
  have hk := Chip.events_clock l c
  have h2 := Chip.event_later l' (l.foldl Chip.event c)
  have hk' := Chip.events_clock l' (l.foldl Chip.event c)
  simp only [hk', hk] at h2 ⊢
  exact h2.symm

theorem Slow.poke_clock (s : Slow) (b : BitVec 5) (a : U16) (x : U8) :
    (s.poke b a x).chip.clock = s.chip.clock ∧ (s.poke b a x).chip.txn = s.chip.txn := by
  unfold Slow.poke Chip.poke Chip.pokeCommon
  repeat (first | exact ⟨rfl, rfl⟩ | split)

/-! ## Runs -/

/-- `p` does what `r` does between `s` and `t`. -/
def Plan.Same (p r : Plan E) (s t : Slow) : Prop :=
  (∀ i, s.chip.clock ≤ i → i < t.chip.clock → p.sched i = r.sched i) ∧
  ∀ i, s.chip.txn ≤ i → i < t.chip.txn → p.faults i = r.faults i

/-- Time passes. -/
def Slow.Before (s t : Slow) : Prop := s.chip.clock ≤ t.chip.clock ∧ s.chip.txn ≤ t.chip.txn

/-- `m` on the slow chip can be replayed by `m'` on the chip with a plan. -/
def Replays (K : Kinds E) (m : X × Slow → Y × (X × Slow)) (m' : Plan E → Chip → Y × Chip) : Prop :=
  ∀ s, s.2.Before (m s).2.2 ∧ ∀ pre1, OfKind K.event pre1 → ∃ pre r, OfKind K.event pre ∧ r.Only K ∧
    ∀ p, p.Same r s.2 (m s).2.2 → m' p (s.2.replay pre) = ((m s).1, (m s).2.2.replay pre1)

namespace Replays
variable {K : Kinds E}

theorem done (y : Y) : Replays K (X := X) (fun s => (y, s)) fun _ c => (y, c) :=
  fun _ => ⟨⟨Nat.le_refl _, Nat.le_refl _⟩, fun pre1 h1 => ⟨pre1, ⟨fun _ => [], fun _ => none⟩, h1,
    ⟨fun _ _ h => (by simp at h), fun _ _ h => (by simp at h)⟩, fun _ _ => rfl⟩⟩

theorem andThen {m : X × Slow → Y × (X × Slow)} {m' : Plan E → Chip → Y × Chip}
    {k : Y → X × Slow → Z × (X × Slow)} {k' : Y → Plan E → Chip → Z × Chip} (hm : Replays K m m')
    (hk : ∀ y, Replays K (k y) (k' y)) :
    Replays K (fun s => k (m s).1 (m s).2) fun p c => k' (m' p c).1 p (m' p c).2 := by
  intro s
  obtain ⟨b1, h1⟩ := hm s
  obtain ⟨b2, h2⟩ := hk (m s).1 (m s).2
  refine ⟨⟨Nat.le_trans b1.1 b2.1, Nat.le_trans b1.2 b2.2⟩, fun pre1 hp1 => ?_⟩
  obtain ⟨pre2, r2, hp2, hr2, e2⟩ := h2 pre1 hp1
  obtain ⟨pre, r, hp, hr, e⟩ := h1 pre2 hp2
  refine ⟨pre, ⟨fun i => if i < (m s).2.2.chip.clock then r.sched i else r2.sched i,
    fun i => if i < (m s).2.2.chip.txn then r.faults i else r2.faults i⟩, hp, ⟨?_, ?_⟩, fun p hsame => ?_⟩
  · intro t x hx
    dsimp only at hx
    split at hx
    · exact hr.event t x hx
    · exact hr2.event t x hx
  · intro t x hx
    dsimp only at hx
    split at hx
    · exact hr.fault t x hx
    · exact hr2.fault t x hx
  · have e' := e p ⟨fun i h3 h4 => (hsame.1 i h3 (Nat.lt_of_lt_of_le h4 b2.1)).trans (if_pos h4),
      fun i h3 h4 => (hsame.2 i h3 (Nat.lt_of_lt_of_le h4 b2.2)).trans (if_pos h4)⟩
    have e2' := e2 p ⟨fun i h3 h4 => (hsame.1 i (Nat.le_trans b1.1 h3) h4).trans (if_neg (Nat.not_lt.mpr h3)),
      fun i h3 h4 => (hsame.2 i (Nat.le_trans b1.2 h3) h4).trans (if_neg (Nat.not_lt.mpr h3))⟩
    dsimp only
    rw [e']
    exact e2'

theorem congr {m n : X × Slow → Y × (X × Slow)} {m' n' : Plan E → Chip → Y × Chip} (h : Replays K m m')
    (h1 : ∀ s, n s = m s) (h2 : ∀ p c, n' p c = m' p c) : Replays K n n' := by
  obtain rfl : n = m := funext h1
  obtain rfl : n' = m' := funext fun p => funext (h2 p)
  exact h

theorem map {m : X × Slow → Y × (X × Slow)} {m' : Plan E → Chip → Y × Chip} (hm : Replays K m m') (f : Y → Z) :
    Replays K (fun s => (f (m s).1, (m s).2)) fun p c => (f (m' p c).1, (m' p c).2) :=
  hm.andThen fun y => done (f y)

variable {v : Env X E} (hv : v.Only K)
include hv

theorem readByte (b : BitVec 5) (a : U16) :
    Replays K (fun s => v.dev.readByte s b a) fun p c => (Chip.dev (E := E) p.sched p.faults).readByte c b a := by
  intro s
  have hc := Slow.turn_clock s.2 (v.before s.1 s.2 b a none).1 b
  refine ⟨⟨by show _ ≤ (s.2.turn _ b).chip.clock; omega, by show _ ≤ (s.2.turn _ b).chip.txn; omega⟩, fun pre1 h1 => ?_⟩
  obtain ⟨pre, l', h2, hl', e⟩ := Slow.replay_turn (P := K.event) s.2 (v.before s.1 s.2 b a none).1 b
    (fun n e h => hv.event _ _ _ _ _ _ _ h) pre1 h1
  refine ⟨pre, ⟨fun _ => l', fun _ => none⟩, h2, ⟨fun _ x hx => hl' x hx, fun _ _ h => (by simp at h)⟩, fun p hp => ?_⟩
  have hs := hp.1 s.2.chip.clock (Nat.le_refl _) (by show _ < (s.2.turn _ b).chip.clock; omega)
  have e' := e p.sched hs
  show (((s.2.replay pre).tick p.sched).peek b a, (s.2.replay pre).tick p.sched) = _
  rw [e', Slow.replay_peek _ b a pre1 (fun hb => Slow.turn_busy _ _ hb)]
  rfl

theorem writeByte (b : BitVec 5) (a : U16) (x : U8) :
    Replays K (fun s => ((), v.dev.writeByte s b a x))
      fun p c => ((), (Chip.dev (E := E) p.sched p.faults).writeByte c b a x) := by
  intro s
  have hc := Slow.turn_clock s.2 (v.before s.1 s.2 b a (some x)).1 b
  have hc' := Slow.poke_clock (s.2.turn (v.before s.1 s.2 b a (some x)).1 b) b a x
  refine ⟨⟨by show _ ≤ ((s.2.turn _ b).poke b a x).chip.clock; omega, by show _ ≤ ((s.2.turn _ b).poke b a x).chip.txn; omega⟩, fun pre1 h1 => ?_⟩
  obtain ⟨pre2, l2, h2, hl2, e2⟩ := Slow.replay_poke (P := K.event) (s.2.turn (v.before s.1 s.2 b a (some x)).1 b) b a x
    (fun hb => Slow.turn_busy _ _ hb) pre1 h1
  obtain ⟨pre, l', h3, hl', e⟩ := Slow.replay_turn (P := K.event) s.2 (v.before s.1 s.2 b a (some x)).1 b
    (fun n e h => hv.event _ _ _ _ _ _ _ h) pre2 h2
  refine ⟨pre, ⟨fun _ => l' ++ l2, fun _ => none⟩, h3, ⟨fun _ x hx => ?_, fun _ _ h => (by simp at h)⟩, fun p hp => ?_⟩
  · rcases List.mem_append.mp hx with hx | hx
    · exact hl' x hx
    · exact hl2 x hx
  have hs := hp.1 s.2.chip.clock (Nat.le_refl _) (by show _ < ((s.2.turn _ b).poke b a x).chip.clock; omega)
  have e' := e (fun _ => l') rfl
  show ((), ((s.2.replay pre).tick p.sched).poke b a x) = _
  rw [Chip.tick_append (s.2.replay pre) p.sched l' l2 hs, e', e2]
  rfl

theorem fault : Replays K (fun s => v.dev.fault s) fun p c => (Chip.dev (E := E) p.sched p.faults).fault c := by
  intro s
  refine ⟨⟨Nat.le_refl _, Nat.le_succ _⟩, fun pre1 h1 => ⟨pre1, ⟨fun _ => [], fun _ => (v.fault s.1 s.2).1⟩, h1,
    ⟨fun _ _ h => (by simp at h), fun _ f h => hv.fault _ _ f h⟩, fun p hp => ?_⟩⟩
  have hs := hp.2 s.2.chip.txn (Nat.le_refl _) (Nat.lt_succ_self _)
  show (p.faults s.2.chip.txn, _) = ((v.fault s.1 s.2).1, _)
  rw [hs]
  rfl

theorem readBytes (b : BitVec 5) (a : U16) (n : Nat) :
    Replays K (fun s => v.dev.readBytes s b a n) fun p c => (Chip.dev (E := E) p.sched p.faults).readBytes c b a n := by
  induction n generalizing a with
  | zero => exact done []
  | succ n ih => exact (readByte hv b a).andThen fun x => (ih (a + 1)).map fun xs => x :: xs

theorem writeBytes (b : BitVec 5) (a : U16) (d : List U8) :
    Replays K (fun s => ((), v.dev.writeBytes s b a d))
      fun p c => ((), (Chip.dev (E := E) p.sched p.faults).writeBytes c b a d) := by
  induction d generalizing a with
  | nil => exact done ()
  | cons x d ih => exact (writeByte hv b a x).andThen fun _ => ih (a + 1)

theorem readFrame (b : U8) (a : U16) (d : List U8) :
    Replays K (fun s => (((v.dev.bus.readFrame s b a d).1, (v.dev.bus.readFrame s b a d).2.1), (v.dev.bus.readFrame s b a d).2.2))
      fun p c => ((((Chip.dev p.sched p.faults).bus.readFrame c b a d).1, ((Chip.dev p.sched p.faults).bus.readFrame c b a d).2.1),
        ((Chip.dev (E := E) p.sched p.faults).bus.readFrame c b a d).2.2) := by
  refine ((fault hv).andThen (k := fun f s => match f with
    | none => ((Res.ok (), (v.dev.readBytes s (b.setWidth 5) a d.length).1), (v.dev.readBytes s (b.setWidth 5) a d.length).2)
    | some (e, k) => ((Res.err e, (v.dev.readBytes s (b.setWidth 5) a (min (k - 3) d.length)).1 ++ d.drop (min (k - 3) d.length)),
        (v.dev.readBytes s (b.setWidth 5) a (min (k - 3) d.length)).2))
    (k' := fun f p c => match f with
    | none => ((Res.ok (), ((Chip.dev (E := E) p.sched p.faults).readBytes c (b.setWidth 5) a d.length).1),
        ((Chip.dev (E := E) p.sched p.faults).readBytes c (b.setWidth 5) a d.length).2)
    | some (e, k) => ((Res.err e, ((Chip.dev (E := E) p.sched p.faults).readBytes c (b.setWidth 5) a (min (k - 3) d.length)).1 ++
        d.drop (min (k - 3) d.length)),
        ((Chip.dev (E := E) p.sched p.faults).readBytes c (b.setWidth 5) a (min (k - 3) d.length)).2)) ?_).congr ?_ ?_
  · rintro (_ | ⟨e, k⟩)
    · exact (readBytes hv _ _ _).map fun l => (Res.ok (), l)
    · exact (readBytes hv _ _ _).map fun l => (Res.err e, l ++ d.drop (min (k - 3) d.length))
  · intro s
    unfold ByteDev.bus
    dsimp only
    rcases v.dev.fault s with ⟨_ | ⟨e, k⟩, t⟩ <;> rfl
  · intro p c
    unfold ByteDev.bus
    dsimp only
    rcases (Chip.dev p.sched p.faults).fault c with ⟨_ | ⟨e, k⟩, t⟩ <;> rfl

theorem writeFrame (b : U8) (a : U16) (d : List U8) :
    Replays K (fun s => v.dev.bus.writeFrame s b a d) fun p c => (Chip.dev (E := E) p.sched p.faults).bus.writeFrame c b a d := by
  refine ((fault hv).andThen (k := fun f s => match f with
    | none => (Res.ok (), v.dev.writeBytes s (b.setWidth 5) a d)
    | some (e, k) => (Res.err e, v.dev.writeBytes s (b.setWidth 5) a (d.take (k - 3))))
    (k' := fun f p c => match f with
    | none => (Res.ok (), (Chip.dev (E := E) p.sched p.faults).writeBytes c (b.setWidth 5) a d)
    | some (e, k) => (Res.err e, (Chip.dev (E := E) p.sched p.faults).writeBytes c (b.setWidth 5) a (d.take (k - 3))))
    ?_).congr ?_ ?_
  · rintro (_ | ⟨e, k⟩)
    · exact (writeBytes hv _ _ _).map fun _ => Res.ok ()
    · exact (writeBytes hv _ _ _).map fun _ => Res.err e
  · intro s
    unfold ByteDev.bus
    dsimp only
    rcases v.dev.fault s with ⟨_ | ⟨e, k⟩, t⟩ <;> rfl
  · intro p c
    unfold ByteDev.bus
    dsimp only
    rcases (Chip.dev p.sched p.faults).fault c with ⟨_ | ⟨e, k⟩, t⟩ <;> rfl

theorem play (g : Strategy E Y) : Replays K (fun s => g.play v.dev.bus s)
    fun p c => g.play (Chip.dev p.sched p.faults).bus c := by
  induction g with
  | done y => exact done y
  | read b a d k ih => exact (readFrame hv b a d).andThen fun x => ih x.1 x.2
  | write b a d k ih => exact (writeFrame hv b a d).andThen fun x => ih x

end Replays

/-- Every strategy, played against a slow chip in an adaptive environment, runs exactly as on the chip with some plan. -/
theorem replay {K : Kinds E} {v : Env X E} (hv : v.Only K) {F : (W : Type) → Bus W E → W → Y × W} (hF : Plays F)
    (x : X) (s : Slow) : ∃ (pre : Nat → List Act) (p : Plan E), OfKind K.event pre ∧ p.Only K ∧
      F Chip (Chip.dev p.sched p.faults).bus (s.replay pre) =
        ((F (X × Slow) v.dev.bus (x, s)).1, (F (X × Slow) v.dev.bus (x, s)).2.2.settled) := by
  obtain ⟨g, hg⟩ := hF
  obtain ⟨_, h⟩ := Replays.play hv g (x, s)
  obtain ⟨pre, r, h1, h2, e⟩ := h (fun _ => []) (fun _ _ h => by simp at h)
  refine ⟨pre, r, h1, h2, ?_⟩
  rw [hg, hg, ← Slow.replay_nil]
  exact e r ⟨fun _ _ _ => rfl, fun _ _ _ => rfl⟩

end Spec
end W5500
