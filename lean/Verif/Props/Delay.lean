import Verif.Proofs.Delay
import Verif.Props.Reply
/-! # C123: no frame waits long -/

namespace W5500.Props
open W5500 W5500.Spec W5500.Spec.Sock socketn
variable {E : Type} {sched : Nat → List (Nat × Act)} {faults : Nat → Option (E × Nat)}
  {sched0 : Nat → List (Nat × Act)} {faults0 : Nat → Option (E × Nat)}

/-- C123. At first the frames `q0` are queued. Then frames come on average at most once in `P` SPI bytes, in bursts of at most `k` more,
`q0.length + k + 2` of them fit into the RX buffer, and a program calls `read_frame` again and again, each call ending at most `P` SPI bytes after the
one before (C121). Then whatever was queued or came `(q0.length + k + 2) * P` SPI bytes ago or before is among what the calls have brought. -/
theorem C123 (hf : ∀ i, faults i = none) {r : RawDevice} {cz c0 : Chip} {log : List RawSent} {got0 : List RawGot} (ho : RawOpened sched0 faults0 r cz)
    (hr : RawRun sched faults r cz log got0 c0) {q0 : List (List U8)} (hq : (c0.socks 0).Frames q0) {P k s : Nat} (hP : 0 < P)
    (hqs : ∀ f ∈ q0, f.length + 2 ≤ s) (hp : Paced sched 0 P k s c0.clock) (hz : (q0.length + k + 2) * s ≤ (c0.socks 0).rxSize)
    {got : List RawGot} {t : Nat} {c : Chip} (h : Reads sched faults r P c0 got t c) (ht : c.clock ≤ t + P) :
    ∃ taken rest, RawGot.All got taken ∧ taken ++ rest = q0 ++ flow sched 0 c0.clock (c.clock - c0.clock) ∧ (c.socks 0).Frames rest ∧
      ∀ g, c0.clock + g + (q0.length + k + 2) * P ≤ c.clock → q0 ++ flow sched 0 c0.clock g <+: taken := by
  obtain ⟨h1, K, A, h2⟩ := rawRun_idle ho hr
  obtain ⟨K', taken, h3, h4, h5, rest, q, s0, j, h6⟩ := flowInv h1 hf hp hz h2 hq.2 hqs h
  obtain ⟨e, hl⟩ := h6.later hp h5.start ht
  refine ⟨taken, _, h4, e, ⟨fun f hf => ?_, h5.waits ht e⟩, fun g hg => h6.waited hP hp ht hg⟩
  have h7 : f ∈ q0 ++ flow sched 0 c0.clock (c.clock - c0.clock) := by rw [← e]; exact List.mem_append_right _ hf
  have h7 := (List.mem_append.mp h7).elim (hqs f) (hp.fit _ f)
  have h8 := GoodSize.le h2.busy.core.size
  have h9 : 2 * s ≤ (q0.length + k + 2) * s := Nat.mul_le_mul_right _ (by omega)
  omega

/-- C123, answers: the program of C122 has answered, after any number of rounds, whatever was queued or came `(q0.length + k + 2) * P` SPI bytes ago or
before; the answers got out, and a round takes at least 6 SPI bytes, so that every frame is answered. -/
theorem C123_answers {L L' : Nat} (hf : ∀ i, faults i = none) (he : EmittingIn L sched 0) (hc : ConfirmingIn L' sched 0) (hl : Lossless sched 0)
    {r : RawDevice} {cz c0 : Chip} {log : List RawSent} {got0 : List RawGot} (ho : RawOpened sched0 faults0 r cz)
    (hr : RawRun sched faults r cz log got0 c0) {q0 : List (List U8)} (hq : (c0.socks 0).Frames q0) {P k s : Nat}
    (hqs : ∀ f ∈ q0, f.length + 2 ≤ s) (hp : Paced sched 0 P k s c0.clock) (hz : (q0.length + k + 2) * s ≤ (c0.socks 0).rxSize)
    (buf : List U8) (hb : buf ≠ []) {a : Nat} (answer : List U8 → List U8)
    (ha : ∀ x, x ≠ [] → x.length ≤ buf.length → answer x ≠ [] ∧ (answer x).length ≤ a) (haz : a ≤ 16384)
    (hP : 4 * k + buf.length + L + L' + a + 24 ≤ P) (fuel : Nat) (hf1 : k + 2 ≤ fuel) (hf2 : L + L' + 1 ≤ fuel) (rounds : Nat) :
    ∃ buf' c ps, replier (Chip.dev sched faults).bus r answer rounds fuel (buf, c0) = (.ok (), (buf', c)) ∧
      c0.clock + 6 * rounds ≤ c.clock ∧ (c.socks 0).packets = (c0.socks 0).packets ++ ps ∧ (∀ p ∈ ps, p.delivered = true) ∧
      ∀ g, c0.clock + g + (q0.length + k + 2) * P ≤ c.clock →
        ((q0 ++ flow sched 0 c0.clock g).filter fun f => f ≠ []).map (fun f => answer (f.take buf.length)) <+: ps.map Packet.data := by
  obtain ⟨got, buf', t, c, ps, h1, _, h2, hg, h3, h4, h5, h6, h7⟩ := replier_reads hf he hc hl ho hr hq.2 hqs hp hz answer ha haz (by omega) fuel hf1 hf2 rounds
    .start (Nat.le_add_right _ _) buf rfl
  obtain ⟨taken, rest, k1, k2, k3, k4⟩ := C123 hf ho hr hq (by omega) hqs hp hz h3 (by omega)
  obtain ⟨g1, K, A, g2⟩ := rawRun_idle ho hr
  obtain ⟨g3, g4⟩ := reads_least g1 hf hp hz g2 hq.2 hqs h3
  rw [List.nil_append, hg] at g3
  refine ⟨buf', c, ps, h1, by omega, h5, h7, fun g hg => ?_⟩
  rw [List.nil_append] at k1
  rw [h6, answers_taken answer (fun e => hb (List.length_eq_zero_iff.mp e)) k1 h2]
  obtain ⟨x, hx⟩ := k4 g hg
  exact ⟨((x.filter fun f => f ≠ []).map fun f => answer (f.take buf.length)), by subst hx; simp only [List.filter_append, List.map_append]⟩

theorem stream_first : flow streamSched 0 18 150 = [[1, 2, 3, 0], [1, 2, 3, 1], [1, 2, 3, 2]] := by decide +kernel

/-- C123: after sixty rounds the three frames that came during the first 150 SPI bytes are answered. -/
example : ∃ buf' c ps, replier (Chip.dev streamSched noFaults).bus rawDemo (fun f => 9 :: f.take 9) 60 9 (List.replicate 10 0, streamChip) =
      (.ok (), (buf', c)) ∧ (c.socks 0).packets = (streamChip.socks 0).packets ++ ps ∧ (∀ p ∈ ps, p.delivered = true) ∧
    [[9, 1, 2, 3, 0], [9, 1, 2, 3, 1], [9, 1, 2, 3, 2]] <+: ps.map Packet.data := by
  obtain ⟨h1, h2, h3⟩ := stream_prompt
  obtain ⟨buf', c, ps, k1, k2, k3, k4, k5⟩ := C123_answers (fun _ => rfl) h1 h2 h3 stream_opened .start stream_none nofun (stream_paced _)
    (by rw [stream_chip.2]; decide) (List.replicate 10 0) nofun (a := 10) (fun f => 9 :: f.take 9)
    (fun x _ _ => ⟨nofun, by rw [List.length_cons, List.length_take]; omega⟩) (by decide)
    (by rw [List.length_replicate]; decide) 9 (by decide) (by decide) 60
  have := k5 150 (by show _ + 150 + (0 + 1 + 2) * 50 ≤ _; omega)
  rw [stream_clocks.1, stream_first, List.nil_append] at this
  exact ⟨buf', c, ps, k1, k3, k4, this⟩

/-- C123: whatever came up to 150 SPI bytes before is in the program's hands. -/
example {got : List RawGot} {t : Nat} {c : Chip} (h : Reads streamSched noFaults rawDemo 50 streamChip got t c) (ht : c.clock ≤ t + 50) (hc : 318 ≤ c.clock) :
    ∃ taken, RawGot.All got taken ∧ [[1, 2, 3, 0], [1, 2, 3, 1], [1, 2, 3, 2]] <+: taken := by
  obtain ⟨taken, _, h1, _, _, h2⟩ := C123 (fun _ => rfl) stream_opened .start stream_none (by decide) nofun (stream_paced _) (by rw [stream_chip.2]; decide) h ht
  have := h2 150 (by rw [stream_clocks.1]; show 18 + 150 + (0 + 1 + 2) * 50 ≤ _; omega)
  rw [stream_clocks.1, stream_first, List.nil_append] at this
  exact ⟨taken, h1, this⟩

/-- C123: the four frames that were queued at first are answered after sixty rounds. -/
example : ∃ buf' c ps, replier (Chip.dev streamSched noFaults).bus rawDemo (fun f => 9 :: f.take 9) 60 9 (List.replicate 10 0, streamLate) =
      (.ok (), (buf', c)) ∧ (c.socks 0).packets = (streamLate.socks 0).packets ++ ps ∧ (∀ p ∈ ps, p.delivered = true) ∧
    [[9, 1, 2, 3, 0], [9, 1, 2, 3, 1], [9, 1, 2, 3, 2], [9, 1, 2, 3, 3]] <+: ps.map Packet.data := by
  obtain ⟨h1, h2, h3⟩ := stream_prompt
  obtain ⟨buf', c, ps, k1, k2, k3, k4, k5⟩ := C123_answers (fun _ => rfl) h1 h2 h3 stream_opened stream_late streamLate_queue (by decide)
    (stream_paced _) (by rw [streamLate_chip.1]; decide) (List.replicate 10 0) nofun (a := 10) (fun f => 9 :: f.take 9)
    (fun x _ _ => ⟨nofun, by rw [List.length_cons, List.length_take]; omega⟩) (by decide)
    (by rw [List.length_replicate]; decide) 9 (by decide) (by decide) 60
  exact ⟨buf', c, ps, k1, k3, k4, k5 0 (by show _ + 0 + (4 + 1 + 2) * 50 ≤ _; omega)⟩

end W5500.Props
