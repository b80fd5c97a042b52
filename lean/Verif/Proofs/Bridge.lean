import Verif.Spec.Bridge
import Verif.Proofs.Block
import Verif.Proofs.Irq
import Verif.Proofs.Exchange
/-! # What has arrived on a MACRAW socket since a given moment -/

namespace W5500.Spec
open W5500 socketn Sock
variable {E : Type} {sched : Nat → List (Nat × Act)} {faults : Nat → Option (E × Nat)}

/-- Since `B` had arrived, only frames have arrived that are not empty. The RX buffer has `m` bytes or more. -/
structure Fed (B : List U8) (m : Nat) (s : Sock) : Prop where
  raw : s.proto = 4
  size : m ≤ s.rxSize
  frames : ∃ fs, (∀ f ∈ fs, f.length + 2 < 65536) ∧ s.arrived = B ++ encFrames fs ∧ [] ∉ fs

theorem fed_stays {B : List U8} {m n : Nat} (hne : ∀ k, (n, .frame []) ∉ sched k) : Stays sched n (Fed B m) := by
  rintro k a ha s ⟨h1, h2, fs, h3, h4, h5⟩
  refine ⟨by rw [act_proto]; exact h1, by rw [act_rxSize]; exact h2, ?_⟩
  have same : (s.act a).arrived = s.arrived →
      ∃ fs, (∀ f ∈ fs, f.length + 2 < 65536) ∧ (s.act a).arrived = B ++ encFrames fs ∧ [] ∉ fs := fun e => ⟨fs, h3, e.trans h4, h5⟩
  cases a with
  | frame f =>
    by_cases hw : f.length + 2 < 65536
    · have e : s.act (.frame f) = s.push (encodeFrame f) := by simp only [act]; rw [if_pos ⟨h1, hw⟩]
      rw [e] at same ⊢
      unfold push at same ⊢
      split at same
      · rename_i hp
        rw [if_pos hp]
        refine ⟨fs ++ [f], fun x hx => ?_, ?_, fun hm => ?_⟩
        · rcases List.mem_append.mp hx with hx | hx
          · exact h3 x hx
          · rw [List.mem_singleton.mp hx]; exact hw
        · show s.arrived ++ encodeFrame f = _
          rw [h4, encFrames_append, show encFrames [f] = encodeFrame f from by simp [encFrames], List.append_assoc]
        · rcases List.mem_append.mp hm with hm | hm
          · exact h5 hm
          · rw [← List.mem_singleton.mp hm] at ha
            exact hne k ha
      · rename_i hp
        rw [if_neg hp]
        exact same rfl
    · refine same ?_
      simp only [act]
      rw [if_neg fun h => hw h.2]
  | arrive bs => exact same (by simp [act, h1])
  | datagram d => exact same (by simp [act, h1])
  | transmit k => exact same (by simp only [act]; split <;> rfl)
  | ack k => exact same (by simp only [act]; split <;> rfl)
  | emit b => exact same (by simp only [act]; split <;> rfl)
  | raise b => exact same rfl
  | status x => exact same rfl

theorem fed_poke {B : List U8} {m n : Nat} (hn : n < 8) {b : U8} {a : U16} {d : List U8} (h : RawFrames (sockOf n) b a d) (i : Nat)
    (hi : i < d.length) (c : Chip) (hc : Fed B m (c.socks n)) : Fed B m ((c.poke (b.setWidth 5) (a + BitVec.ofNat 16 i) d[i]).socks n) := by
  have key : ∀ s : Sock, s.proto = (c.socks n).proto → s.rxSize = (c.socks n).rxSize → s.arrived = (c.socks n).arrived → Fed B m s :=
    fun s e1 e2 e3 => ⟨e1.trans hc.raw, by rw [e2]; exact hc.size, by rw [e3]; exact hc.frames⟩
  cases h with
  | tx a d => exact Chip.poke_tx' (P := Fed B m) hn (key _ rfl rfl rfl)
  | wr x y =>
    refine Chip.poke_reg' (P := Fed B m) hn ?_
    rcases index_two (by rfl) hi with rfl | rfl <;> exact key _ rfl rfl rfl
  | rd x y =>
    refine Chip.poke_reg' (P := Fed B m) hn ?_
    rcases index_two (by rfl) hi with rfl | rfl <;> exact key _ rfl rfl rfl
  | ir =>
    refine Chip.poke_reg' (P := Fed B m) hn ?_
    obtain rfl := index_one (by rfl) hi
    exact key _ rfl rfl rfl
  | send =>
    refine Chip.poke_reg' (P := Fed B m) hn ?_
    obtain rfl := index_one (by rfl) hi
    exact key _ rfl rfl rfl
  | recv =>
    refine Chip.poke_reg' (P := Fed B m) hn ?_
    obtain rfl := index_one (by rfl) hi
    exact key _ rfl rfl rfl

theorem fed_reach {B : List U8} {m n : Nat} (hn : n < 8) (hf : ∀ i, faults i = none) (hne : ∀ k, (n, .frame []) ∉ sched k) {c c' : Chip}
    (h : Reach (Chip.dev sched faults).bus (RawFrames (sockOf n)) c c') (hc : Fed B m (c.socks n)) : Fed B m (c'.socks n) :=
  reach_ticks hf (fed_stays hne).ticks (fun _ _ _ hfr i hi c hc => fed_poke hn hfr i hi c hc) h hc

theorem moves_untilSome {W : Type} {B : Bus W E} (s : Socket) (fuel r : Nat) :
    MovesOn B (RawFrames s) (fun x : List U8 × W => x.2) (untilSome (RawDevice.readFrame B fuel ⟨s⟩) r) := by
  induction r with
  | zero => exact ⟨fun s => .refl _⟩
  | succ r ih =>
    unfold untilSome
    refine .bind ⟨fun x => moves_readFrame s fuel x.1 x.2⟩ fun k => ?_
    split
    · exact ih
    · exact .pure _

end W5500.Spec
