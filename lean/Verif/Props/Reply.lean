import Verif.Proofs.Reply
import Verif.Props.Flow
/-! # C122: a MACRAW program answers every frame if they come slowly enough -/

namespace W5500.Props
open W5500 W5500.Spec W5500.Spec.Sock socketn
variable {E : Type} {sched : Nat → List (Nat × Act)} {faults : Nat → Option (E × Nat)}
  {sched0 : Nat → List (Nat × Act)} {faults0 : Nat → Option (E × Nat)}

/-- C122. What is committed leaves within `L` SPI bytes and is not dropped, SENDOK is raised within `L'`. Frames come on average at most once in `P`
SPI bytes, in bursts of at most `k` more, and `k + 2` of them fit into the RX buffer beside as many as are queued at first. A program
looks for a frame, with a buffer of `bl` bytes, answers it with at most `a` bytes if there is one, and looks again, any number of times. If `P` is at least `4 * k + bl + L + L' + a + 24`, then no frame is
lost and the program answers each one (that is not empty) once, in order, those that were queued and those that came; at most `k + 2` more than at
first are still queued at the end. -/
theorem C122 {L L' : Nat} (hf : ∀ i, faults i = none) (he : EmittingIn L sched 0) (hc : ConfirmingIn L' sched 0) (hl : Lossless sched 0)
    {r : RawDevice} {cz c0 : Chip} {log : List RawSent} {got0 : List RawGot} (ho : RawOpened sched0 faults0 r cz)
    (hr : RawRun sched faults r cz log got0 c0) {q0 : List (List U8)} (hq : (c0.socks 0).Frames q0) {P k s : Nat}
    (hqs : ∀ f ∈ q0, f.length + 2 ≤ s) (hp : Paced sched 0 P k s c0.clock) (hz : (q0.length + k + 2) * s ≤ (c0.socks 0).rxSize)
    (buf : List U8) (hb : buf ≠ []) {a : Nat} (answer : List U8 → List U8)
    (ha : ∀ x, x ≠ [] → x.length ≤ buf.length → answer x ≠ [] ∧ (answer x).length ≤ a) (haz : a ≤ 16384)
    (hP : 4 * k + buf.length + L + L' + a + 24 ≤ P) (fuel : Nat) (hf1 : k + 2 ≤ fuel) (hf2 : L + L' + 1 ≤ fuel) (rounds : Nat) :
    ∃ buf' c taken rest ps, replier (Chip.dev sched faults).bus r answer rounds fuel (buf, c0) = (.ok (), (buf', c)) ∧
      taken ++ rest = q0 ++ flow sched 0 c0.clock (c.clock - c0.clock) ∧ (c.socks 0).Frames rest ∧ rest.length ≤ q0.length + k + 2 ∧
      (c.socks 0).packets = (c0.socks 0).packets ++ ps ∧ (∀ p ∈ ps, p.delivered = true) ∧
      ps.map Packet.data = (taken.filter fun f => f ≠ []).map fun f => answer (f.take buf.length) := by
  obtain ⟨got, buf', t, c, ps, h1, _, h2, _, h3, h4, h5, h6, h7⟩ := replier_reads hf he hc hl ho hr hq.2 hqs hp hz answer ha haz (by omega) fuel hf1 hf2 rounds
    .start (Nat.le_add_right _ _) buf rfl
  obtain ⟨taken, rest, k1, k2, k3, k4⟩ := C121 hf ho hr hq hqs hp hz h3 (by omega)
  refine ⟨buf', c, taken, rest, ps, h1, k2, k3, k4, h5, h7, ?_⟩
  rw [h6]
  exact answers_taken answer (fun e => hb (List.length_eq_zero_iff.mp e)) k1 h2

theorem stream_prompt : EmittingIn 1 streamSched 0 ∧ ConfirmingIn 1 streamSched 0 ∧ Lossless streamSched 0 := by
  refine ⟨fun k => ⟨k, Nat.le_refl _, by omega, true, ?_⟩, fun k => ⟨k, Nat.le_refl _, by omega, 0x10, by decide, ?_⟩, fun k h => ?_⟩
  · unfold streamSched; simp
  · unfold streamSched; simp
  · unfold streamSched at h
    split at h <;> simp at h

/-- C122: a program with a buffer of ten bytes sends every frame back with a byte in front, for a thousand rounds. -/
example : ∃ buf' c taken rest ps, replier (Chip.dev streamSched noFaults).bus rawDemo (fun f => 9 :: f.take 9) 1000 9 (List.replicate 10 0, streamChip) =
      (.ok (), (buf', c)) ∧
    taken ++ rest = [] ++ flow streamSched 0 streamChip.clock (c.clock - streamChip.clock) ∧ (c.socks 0).Frames rest ∧ rest.length ≤ 0 + 1 + 2 ∧
    (c.socks 0).packets = (streamChip.socks 0).packets ++ ps ∧ (∀ p ∈ ps, p.delivered = true) ∧
    ps.map Packet.data = (taken.filter fun f => f ≠ []).map fun f => 9 :: (f.take 10).take 9 := by
  obtain ⟨h1, h2, h3⟩ := stream_prompt
  exact C122 (fun _ => rfl) h1 h2 h3 stream_opened .start stream_none nofun (stream_paced _) (by rw [stream_chip.2]; decide) (List.replicate 10 0) nofun
    (a := 10) (fun f => 9 :: f.take 9) (fun x _ _ => ⟨nofun, by rw [List.length_cons, List.length_take]; omega⟩) (by decide)
    (by rw [List.length_replicate]; decide) 9 (by decide) (by decide) 1000

end W5500.Props
