import Verif.Spec.Several
import Verif.Proofs.Respond
import Verif.Proofs.OutcomeRun
import Verif.Proofs.SuccessRun
import Verif.Proofs.Load
import Verif.Proofs.System
/-! # Serving several sockets -/

namespace W5500.Spec
open W5500 socketn Sock
variable {E H : Type} {sched : Nat → List (Nat × Act)} {faults : Nat → Option (E × Nat)} {n : Nat}

/-- A UDP socket from which nothing is being sent, and no `send` has timed out. -/
structure Still (P : List Packet) (z : Nat) (s : Sock) : Prop where
  base : PktBase 2 s.dest P s
  size : s.txSize = z
  quiet : s.flag 3 = false

theorem stable_still (P : List Packet) (z : Nat) : StableS (Still P z) := fun s a h =>
  ⟨by rw [act_dest]; exact stable_pktBase (by decide) _ P s a h.base, (act_txSize s a).trans h.size, by
    rw [(act_flags (by rw [h.base.mode]; decide) a fun _ _ => h.base.rd).1 3 (.inl rfl)]
    exact h.quiet⟩

theorem still_ticks (P : List Packet) (z : Nat) : Chip.Ticks sched (At n (Still P z)) := (stable_still P z).stays.ticks

theorem still_receive (hn : n < 8) (hf : ∀ i, faults i = none) {P : List Packet} {z : Nat} {u : UdpSocket} (hu : u.socket = sockOf n) {fuel : Nat}
    {buf buf' : List U8} {r : Res (NbError (UdpSocketError E)) (Nat × SockAddr)} {d d' : Device Chip H}
    (h : Device.udpReceive (Chip.dev sched faults).bus fuel u (buf, d) = (r, (buf', d'))) (hd : Still P z (d.bus.socks n)) :
    Still P z (d'.bus.socks n) := by
  have hr := (moves_deviceUdpReceive' (B := (Chip.dev sched faults).bus) (H := H) u fuel).run (buf, d)
  rw [h, hu] at hr
  refine reach_ticks (I := At n (Still P z)) hf (still_ticks P z) (fun b a d hfr i hi c hc => ?_) hr hd
  obtain ⟨⟨h1, h2, h3, h4, h5, h6⟩, h7, h8⟩ := (hc : Still P z (c.socks n))
  cases hfr with
  | rd x y =>
    refine Chip.poke_reg' (P := Still P z) hn ?_
    rcases index_two (by rfl) hi with rfl | rfl <;> exact ⟨⟨h1, h2, rfl, h4, h5, h6⟩, h7, h8⟩
  | ir x =>
    refine Chip.poke_reg' (P := Still P z) hn ?_
    obtain rfl := index_one (by rfl) hi
    refine ⟨⟨h1, h2, rfl, h4, h5, h6⟩, h7, ?_⟩
    unfold flag at h8 ⊢
    rw [Bool.or_eq_false_iff] at h8 ⊢
    refine ⟨?_, h8.2⟩
    show ((c.socks n).ir &&& ~~~x).getLsbD 3 = false
    rw [BitVec.getLsbD_and, h8.1, Bool.false_and]
  | recv =>
    refine Chip.poke_reg' (P := Still P z) hn ?_
    obtain rfl := index_one (by rfl) hi
    exact ⟨⟨h1, h2, rfl, h4, h5, h6⟩, h7, h8⟩

/-- What is kept by anything that does not concern the socket. -/
theorem aside_keeps (hf : ∀ i, faults i = none) {I : Chip → Prop} (hT : Chip.Ticks sched I)
    (hI : ∀ c c' : Chip, c'.socks n = c.socks n → c'.clock = c.clock → I c → I c') {c c' : Chip}
    (h : Reach (Chip.dev sched faults).bus (Foreign n) c c') (hc : I c) : I c' :=
  reach_ticks hf hT (fun _ _ _ hfr i hi c hc => hI _ _ (foreign_poke hfr i hi c) (Chip.poke_clock ..) hc) h hc

theorem UdpGot.All.length {got : List UdpGot} {ds : List Dgram} (h : UdpGot.All got ds) : got.length = ds.length := by
  induction h with
  | nil => rfl
  | cons _ _ ih => simp only [List.length_cons, ih]

theorem UdpGot.All.last {got more : List UdpGot} {ds ds' : List Dgram} (h : UdpGot.All got ds) (h' : UdpGot.All (got ++ more) (ds ++ ds')) :
    UdpGot.All more ds' := by
  induction h with
  | nil => exact h'
  | cons _ _ ih =>
    cases h' with
    | cons _ h' => exact ih h'

theorem replies_append {got got' : List UdpGot} {ds ds' : List Dgram} (z : Nat) (answer : SockAddr → List U8 → List U8) (h : got.length = ds.length) :
    replies z answer (got ++ got') (ds ++ ds') = replies z answer got ds ++ replies z answer got' ds' := by
  induction got generalizing ds with
  | nil =>
    cases ds with
    | nil => cases got' <;> cases ds' <;> rfl
    | cons => cases h
  | cons g got ih =>
    cases ds with
    | nil => cases h
    | cons d ds =>
      simp only [List.cons_append, replies, List.append_assoc]
      rw [ih (by simpa using h)]

theorem Spaced.mono {gap gap' T : Nat} {P Q : Dgram → Prop} (h : Spaced sched n gap T P) (hg : gap' ≤ gap) (hP : ∀ dg, P dg → Q dg) :
    Spaced sched n gap' T Q := fun k hk hne => by
  obtain ⟨⟨dg, h1, h2⟩, h3⟩ := h k hk hne
  exact ⟨⟨dg, h1, hP dg h2⟩, fun j q1 q2 => h3 j q1 (by omega)⟩

theorem Apart.mono {gap gap' T l : Nat} (h : Apart sched n gap T l) (hg : gap' ≤ gap) : Apart sched n gap' T l := fun k hk hne => by
  obtain ⟨h1, h3⟩ := h k hk hne
  exact ⟨h1, fun j q1 q2 => h3 j q1 (by omega)⟩

end W5500.Spec
