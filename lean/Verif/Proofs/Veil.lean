import Verif.Spec.Veil
import Verif.Proofs.Relate
/-! # Veiled chips cannot be told apart -/

namespace W5500
open Spec
variable {W W' E : Type}

theorem Cut.eq : Cut Eq := ⟨fun h => h ▸ rfl, fun _ h => h ▸ rfl, fun _ h => h ▸ rfl⟩

theorem Cut.sameLength : Cut SameLength :=
  ⟨id, fun n h => by unfold SameLength at *; simp [h], fun n h => by unfold SameLength at *; simp [h]⟩

theorem blocks_tx : Blocks OtherBlock TxBlock where
  common := by unfold OtherBlock; decide
  reg := by unfold OtherBlock; decide +kernel
  rx := by unfold OtherBlock; decide +kernel
  tx := by unfold TxBlock; decide +kernel

theorem blocks_all : Blocks (fun _ => True) (fun _ => True) := ⟨trivial, fun _ _ => trivial, fun _ _ => trivial, fun _ _ => trivial⟩

/-- Observing both buses. -/
theorem Spec.Respects.traced {F T : U8 → Prop} {D : List U8 → List U8 → Prop} {B : Bus W E} {B' : Bus W' E} {R : W → W' → Prop}
    (h : Respects F T D B B' R) : Respects F T D (W5500.traced B) (W5500.traced B')
      (fun t t' => R t.w t'.w ∧ LogLike T D t.log t'.log) where
  read := by
    intro b a d t t' hb ⟨r, l⟩
    obtain ⟨h1, h2, h3⟩ := h.read b a d t.w t'.w hb r
    refine ⟨h1, h2, h3, ?_⟩
    show LogLike T D (t.log ++ _) (t'.log ++ _)
    rw [h1, h2]
    exact .snoc l (.same _)
  write := by
    intro b a d t t' hb ⟨r, l⟩
    obtain ⟨h1, h2⟩ := h.write b a d t.w t'.w hb r
    refine ⟨h1, h2, ?_⟩
    show LogLike T D (t.log ++ _) (t'.log ++ _)
    rw [h1]
    exact .snoc l (.same _)
  store := by
    intro b a d d' t t' hb hd ⟨r, l⟩
    obtain ⟨h1, h2⟩ := h.store b a d d' t.w t'.w hb hd r
    refine ⟨h1, h2, ?_⟩
    show LogLike T D (t.log ++ _) (t'.log ++ _)
    rw [h1]
    exact .snoc l (.store a _ hb hd)

namespace Spec.Sock

/-- The other socket is the first with other contents. -/
theorem Veiled.form {s s' : Sock} (h : s.Veiled s') :
    s' = { s with txMem := s'.txMem, stream := s'.stream, packets := s'.packets } := by
  obtain ⟨h1, h2, h3, h4, h5, h6, h7, h8, h9, h10, h11, h12, h13, _, _⟩ := h
  cases s
  cases s'
  simp_all

theorem Veiled.of {s : Sock} {m : Nat → U8} {st : List U8} {ps : List Packet} (h1 : s.stream.length = st.length)
    (h2 : s.packets.map Packet.shape = ps.map Packet.shape) :
    s.Veiled { s with txMem := m, stream := st, packets := ps } :=
  ⟨rfl, rfl, rfl, rfl, rfl, rfl, rfl, rfl, rfl, rfl, rfl, rfl, rfl, h1, h2⟩

theorem Veiled.exists {s s' : Sock} (h : s.Veiled s') :
    ∃ m st ps, s' = { s with txMem := m, stream := st, packets := ps } ∧ s.stream.length = st.length ∧
      s.packets.map Packet.shape = ps.map Packet.shape :=
  ⟨_, _, _, h.form, h.stream, h.packets⟩

theorem ring_len (m : Nat → U8) (size : Nat) (p : U16) (n : Nat) : (ring m size p n).length = n := by simp [ring]

theorem Veiled.push {s s' : Sock} (h : s.Veiled s') (bs : List U8) : (s.push bs).Veiled (s'.push bs) := by
  obtain ⟨m, st, ps, rfl, h1, h2⟩ := h.exists
  unfold Sock.push
  show Veiled (if s.rsr.toNat + _ ≤ s.rxSize then _ else _) (if s.rsr.toNat + _ ≤ s.rxSize then _ else _)
  split
  · exact ⟨rfl, rfl, rfl, rfl, rfl, rfl, rfl, rfl, rfl, rfl, rfl, rfl, rfl, h1, h2⟩
  · exact .of h1 h2

theorem Veiled.act {s s' : Sock} (h : s.Veiled s') (e : Act) : (s.act e).Veiled (s'.act e) := by
  have hp : s.proto = s'.proto := by unfold Sock.proto; rw [h.mem]
  cases e with
  | arrive bs =>
    simp only [Sock.act, ← hp]
    split
    · exact h.push _
    · exact h
  | datagram d =>
    simp only [Sock.act, ← hp]
    split
    · exact h.push _
    · exact h
  | frame f =>
    simp only [Sock.act, ← hp]
    split
    · exact h.push _
    · exact h
  | transmit k =>
    simp only [Sock.act, ← hp]
    split
    · obtain ⟨m, st, ps, rfl, h1, h2⟩ := h.exists
      refine ⟨rfl, rfl, rfl, rfl, rfl, rfl, rfl, rfl, rfl, rfl, rfl, rfl, rfl, ?_, h2⟩
      simp only [List.length_append, ring_len, h1]
    · exact h
  | ack k =>
    simp only [Sock.act, ← hp]
    split
    · obtain ⟨m, st, ps, rfl, h1, h2⟩ := h.exists
      exact ⟨rfl, rfl, rfl, rfl, rfl, rfl, rfl, rfl, rfl, rfl, rfl, rfl, rfl, h1, h2⟩
    · exact h
  | emit b =>
    simp only [Sock.act, ← hp, ← h.txRd, ← h.txLimit]
    split
    · obtain ⟨m, st, ps, rfl, h1, h2⟩ := h.exists
      refine ⟨rfl, rfl, rfl, rfl, rfl, rfl, rfl, rfl, rfl, rfl, rfl, rfl, rfl, h1, ?_⟩
      simp only [List.map_append, h2, List.map_cons, List.map_nil, Packet.shape, Sock.pending, ring_len]
    · exact h
  | raise bits =>
    simp only [Sock.act, ← hp]
    obtain ⟨m, st, ps, rfl, h1, h2⟩ := h.exists
    exact ⟨rfl, rfl, rfl, rfl, rfl, rfl, rfl, rfl, rfl, rfl, rfl, rfl, rfl, h1, h2⟩
  | status x =>
    obtain ⟨m, st, ps, rfl, h1, h2⟩ := h.exists
    exact ⟨rfl, rfl, rfl, rfl, rfl, rfl, rfl, rfl, rfl, rfl, rfl, rfl, rfl, h1, h2⟩

theorem Veiled.connecting {s s' : Sock} (h : s.Veiled s') : s.connecting.Veiled s'.connecting := by
  obtain ⟨m, st, ps, rfl, h1, h2⟩ := h.exists
  unfold Sock.connecting
  show Veiled (match s.proto, s.bases s.txRd s.rxRd with | 1, some (p, q) => _ | _, _ => _)
    (match s.proto, s.bases s.txRd s.rxRd with | 1, some (p, q) => _ | _, _ => _)
  split
  all_goals exact ⟨rfl, rfl, rfl, rfl, rfl, rfl, rfl, rfl, rfl, rfl, rfl, rfl, rfl, h1, h2⟩

theorem Veiled.command {s s' : Sock} (h : s.Veiled s') (x : U8) : (s.command x).Veiled (s'.command x) := by
  have hc := h.connecting
  obtain ⟨m, st, ps, rfl, h1, h2⟩ := h.exists
  unfold Sock.command
  split
  · exact ⟨rfl, rfl, rfl, rfl, rfl, rfl, rfl, rfl, rfl, rfl, rfl, rfl, rfl, h1, h2⟩
  split
  · exact ⟨rfl, rfl, rfl, rfl, rfl, rfl, rfl, rfl, rfl, rfl, rfl, rfl, rfl, h1, h2⟩
  split
  · exact ⟨hc.1, hc.2, rfl, hc.4, hc.5, hc.6, hc.7, hc.8, hc.9, hc.10, hc.11, hc.12, hc.13, hc.14, hc.15⟩
  split
  · exact ⟨rfl, rfl, rfl, rfl, rfl, rfl, rfl, rfl, rfl, rfl, rfl, rfl, rfl, h1, h2⟩
  split
  · exact ⟨rfl, rfl, rfl, rfl, rfl, rfl, rfl, rfl, rfl, rfl, rfl, rfl, rfl, h1, h2⟩
  split
  · exact ⟨rfl, rfl, rfl, rfl, rfl, rfl, rfl, rfl, rfl, rfl, rfl, rfl, rfl, h1, h2⟩
  split
  · exact ⟨rfl, rfl, rfl, rfl, rfl, rfl, rfl, rfl, rfl, rfl, rfl, rfl, rfl, h1, h2⟩
  exact ⟨rfl, rfl, rfl, rfl, rfl, rfl, rfl, rfl, rfl, rfl, rfl, rfl, rfl, h1, h2⟩

theorem Veiled.peekReg {s s' : Sock} (h : s.Veiled s') (a : U16) : s.peekReg a = s'.peekReg a := by
  obtain ⟨m, st, ps, rfl, h1, h2⟩ := h.exists
  rfl

theorem Veiled.peekRx {s s' : Sock} (h : s.Veiled s') (a : U16) : s.peekRx a = s'.peekRx a := by
  obtain ⟨m, st, ps, rfl, h1, h2⟩ := h.exists
  rfl

theorem Veiled.pokeReg {s s' : Sock} (h : s.Veiled s') (a : U16) (x : U8) : (s.pokeReg a x).Veiled (s'.pokeReg a x) := by
  unfold Sock.pokeReg
  split
  · exact h.command x
  · obtain ⟨m, st, ps, rfl, h1, h2⟩ := h.exists
    repeat' split
    all_goals exact ⟨rfl, rfl, rfl, rfl, rfl, rfl, rfl, rfl, rfl, rfl, rfl, rfl, rfl, h1, h2⟩

theorem Veiled.pokeTx {s s' : Sock} (h : s.Veiled s') (a : U16) (x x' : U8) : (s.pokeTx a x).Veiled (s'.pokeTx a x') := by
  obtain ⟨m, st, ps, rfl, h1, h2⟩ := h.exists
  exact ⟨rfl, rfl, rfl, rfl, rfl, rfl, rfl, rfl, rfl, rfl, rfl, rfl, rfl, h1, h2⟩

theorem Veiled.reset {s s' : Sock} (h : s.Veiled s') : s.reset.Veiled s'.reset := by
  obtain ⟨m, st, ps, rfl, h1, h2⟩ := h.exists
  exact ⟨rfl, rfl, rfl, rfl, rfl, rfl, rfl, rfl, rfl, rfl, rfl, rfl, rfl, h1, h2⟩

theorem Veiled.refl (s : Sock) : s.Veiled s := ⟨rfl, rfl, rfl, rfl, rfl, rfl, rfl, rfl, rfl, rfl, rfl, rfl, rfl, rfl, rfl⟩

end Spec.Sock

namespace Spec.Chip

theorem Veiled.refl (c : Chip) : c.Veiled c := ⟨rfl, fun _ => .refl _, rfl, rfl⟩

theorem Veiled.setSock {c c' : Chip} (h : c.Veiled c') (n : Nat) {s s' : Sock} (hs : s.Veiled s') :
    (c.setSock n s).Veiled (c'.setSock n s') where
  cmem := h.cmem
  socks m := by
    show Sock.Veiled (if m = n then s else c.socks m) (if m = n then s' else c'.socks m)
    split
    · exact hs
    · exact h.socks m
  clock := h.clock
  txn := h.txn

theorem Veiled.event {c c' : Chip} (h : c.Veiled c') (e : Nat × Act) : (c.event e).Veiled (c'.event e) :=
  h.setSock _ ((h.socks _).act _)

theorem Veiled.events {c c' : Chip} (h : c.Veiled c') (es : List (Nat × Act)) :
    (es.foldl Chip.event c).Veiled (es.foldl Chip.event c') := by
  induction es generalizing c c' with
  | nil => exact h
  | cons e es ih => exact ih (h.event e)

theorem Veiled.tick {c c' : Chip} (h : c.Veiled c') (sched : Nat → List (Nat × Act)) :
    (c.tick sched).Veiled (c'.tick sched) := by
  have := h.events (sched c.clock)
  unfold Chip.tick
  rw [← h.clock]
  exact ⟨this.cmem, this.socks, rfl, this.txn⟩

theorem Veiled.peek {c c' : Chip} (h : c.Veiled c') {b : BitVec 5} (hb : b.toNat % 4 ≠ 2) (a : U16) :
    c.peek b a = c'.peek b a := by
  unfold Chip.peek
  rw [h.cmem, if_neg hb, if_neg hb, (h.socks _).peekReg, (h.socks _).peekRx]

theorem Veiled.poke {c c' : Chip} (h : c.Veiled c') {b : BitVec 5} {x x' : U8} (hb : b.toNat % 4 = 2 ∨ x = x') (a : U16) :
    (c.poke b a x).Veiled (c'.poke b a x') := by
  unfold Chip.poke
  split
  · rename_i h0
    subst h0
    have hx : x = x' := hb.resolve_left (by decide)
    subst hx
    unfold Chip.pokeCommon
    split
    · exact h
    · split
      · exact ⟨rfl, fun n => (h.socks n).reset, h.clock, h.txn⟩
      · exact ⟨by rw [h.cmem], h.socks, h.clock, h.txn⟩
  · split
    · rename_i h1
      have hx : x = x' := hb.resolve_left (by omega)
      subst hx
      exact h.setSock _ ((h.socks _).pokeReg a x)
    · split
      · exact h.setSock _ ((h.socks _).pokeTx a x x')
      · exact h

variable {sched : Nat → List (Nat × Act)} {faults : Nat → Option (E × Nat)}

theorem Veiled.readBytes {c c' : Chip} (h : c.Veiled c') {b : BitVec 5} (hb : b.toNat % 4 ≠ 2) (a : U16) (n : Nat) :
    ((dev sched faults).readBytes c b a n).1 = ((dev sched faults).readBytes c' b a n).1 ∧
    ((dev sched faults).readBytes c b a n).2.Veiled ((dev sched faults).readBytes c' b a n).2 := by
  induction n generalizing c c' a with
  | zero => exact ⟨rfl, h⟩
  | succ n ih =>
    obtain ⟨h1, h2⟩ := ih (h.tick sched) (a + 1)
    refine ⟨?_, h2⟩
    show (c.tick sched).peek b a :: _ = (c'.tick sched).peek b a :: _
    rw [(h.tick sched).peek hb]
    exact congrArg _ h1

theorem Veiled.writeBytes {c c' : Chip} (h : c.Veiled c') {b : BitVec 5} {d d' : List U8}
    (hb : d = d' ∨ (b.toNat % 4 = 2 ∧ d.length = d'.length)) (a : U16) :
    ((dev sched faults).writeBytes c b a d).Veiled ((dev sched faults).writeBytes c' b a d') := by
  induction d generalizing c c' a d' with
  | nil =>
    cases d' with
    | nil => exact h
    | cons => simp at hb
  | cons x xs ih =>
    cases d' with
    | nil => simp at hb
    | cons x' xs' =>
      refine ih (h.tick sched |>.poke ?_ a) ?_ (a + 1)
      · rcases hb with hb | hb
        · exact .inr (List.cons.inj hb).1
        · exact .inl hb.1
      · rcases hb with hb | hb
        · exact .inl (List.cons.inj hb).2
        · exact .inr ⟨hb.1, by simpa using hb.2⟩

/-- Frames do not see through the veil. -/
theorem veiled_respects : Respects OtherBlock TxBlock SameLength (dev sched faults).bus (dev sched faults).bus Veiled := by
  have hf : ∀ {c c' : Chip}, c.Veiled c' → Veiled { c with txn := c.txn + 1 } { c' with txn := c.txn + 1 } :=
    fun h => ⟨h.cmem, h.socks, h.clock, rfl⟩
  have hw : ∀ b a d d' w w', d = d' ∨ (TxBlock b ∧ SameLength d d') → Veiled w w' →
      ((dev sched faults).bus.writeFrame w b a d).1 = ((dev sched faults).bus.writeFrame w' b a d').1 ∧
      Veiled ((dev sched faults).bus.writeFrame w b a d).2 ((dev sched faults).bus.writeFrame w' b a d').2 := by
    intro b a d d' w w' hb r
    simp only [ByteDev.bus, Chip.dev, ← r.txn]
    rcases faults w.txn with _ | ⟨e, k⟩
    · exact ⟨rfl, (hf r).writeBytes (sched := sched) (faults := faults) hb a⟩
    · refine ⟨rfl, (hf r).writeBytes (sched := sched) (faults := faults) ?_ a⟩
      rcases hb with rfl | ⟨h1, h2⟩
      · exact .inl rfl
      · exact .inr ⟨h1, Cut.sameLength.take _ h2⟩
  refine ⟨?_, fun b a d w w' _ r => hw b a d d w w' (.inl rfl) r, fun b a d d' w w' hb hd r => hw b a d d' w w' (.inr ⟨hb, hd⟩) r⟩
  intro b a d w w' hb r
  simp only [ByteDev.bus, Chip.dev, ← r.txn]
  rcases faults w.txn with _ | ⟨e, k⟩
  · obtain ⟨h1, h2⟩ := (hf r).readBytes (sched := sched) (faults := faults) hb a d.length
    exact ⟨rfl, h1, h2⟩
  · obtain ⟨h1, h2⟩ := (hf r).readBytes (sched := sched) (faults := faults) hb a (min (k - 3) d.length)
    exact ⟨rfl, congrArg (· ++ _) h1, h2⟩

end Spec.Chip
end W5500
