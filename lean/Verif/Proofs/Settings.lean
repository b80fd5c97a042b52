import Verif.Spec.Settings
import Verif.Proofs.System
import Verif.Proofs.Init
/-! # The network settings in programs -/

namespace W5500.Spec
open W5500 socketn
variable {E H : Type} {sched : Nat → List (Nat × Act)} {faults : Nat → Option (E × Nat)}

theorem Configured.of_cells {c c' : Chip} {mac : Mac} {ip gateway subnet : Ipv4} (h : Configured c mac ip gateway subnet)
    (hc : SameCells c c') : Configured c' mac ip gateway subnet :=
  ⟨(hc.ipAt _ (by decide) (by decide)).trans h.1, (hc.ipAt _ (by decide) (by decide)).trans h.2.1, hc.macAt.trans h.2.2.1,
    (hc.ipAt _ (by decide) (by decide)).trans h.2.2.2⟩

theorem SameCells.trans {c c' c'' : Chip} (h : SameCells c c') (h' : SameCells c' c'') : SameCells c c'' :=
  fun a h1 h2 => (h' a h1 h2).trans (h a h1 h2)

theorem other_common {b : U8} {a : U16} {d : List U8} (h : CommonFrames b a d) : OtherSettings b a d := by
  obtain ⟨rfl, h⟩ := h
  intro _ i hi
  rcases h with ⟨m, rfl, rfl⟩ | ⟨t, rfl, rfl⟩ | ⟨x, rfl, rfl⟩
  · have : i = 0 := by simp only [Mode.toRegister, List.length_cons, List.length_nil] at hi; omega
    subst this
    refine ⟨fun _ => ?_, .inl rfl⟩
    show m.toU8.getLsbD 7 = false
    rcases m with ⟨_ | _, _ | _, _ | _, _ | _⟩ <;> rfl
  · have : i = 0 ∨ i = 1 := by
      simp only [RetryTime.toRegister, toBeBytes, List.length_cons, List.length_nil] at hi; omega
    rcases this with rfl | rfl <;> exact ⟨fun h0 => absurd h0 (by decide), .inr (by decide)⟩
  · have : i = 0 := by simp only [List.length_cons, List.length_nil] at hi; omega
    subst this
    exact ⟨fun h0 => absurd h0 (by decide), .inr (by decide)⟩

theorem cells_reach {F : U8 → U16 → List U8 → Prop} (hF : ∀ b a d, F b a d → OtherSettings b a d) {c c' : Chip}
    (h : Reach (Chip.dev sched faults).bus F c c') : SameCells c c' :=
  h.induct (I := fun x => SameCells c x) (fun _ _ _ _ hi => hi.trans (cells_read _ _ _))
    (fun _ _ _ _ hf hi => hi.trans (cells_write (hF _ _ _ hf))) (fun _ _ _ => rfl)

/-- No operation other than `reset_device` changes the settings, however it ends. -/
theorem step_cells {c : Client Chip H} (hi : AllocInv c) (fuel : Nat) {o : Op Chip} (ho : o ≠ .common .resetDevice)
    (hp : ∀ g, o = .reactivate g → Passes c.dev.bus (g c.dev.bus)) :
    SameCells c.dev.bus (c.step (Chip.dev sched faults).bus fuel o).dev.bus := by
  cases ht : o.target with
  | some i =>
    cases hg : c.live[i]? with
    | none => rw [step_noHandle c fuel o i ht hg]; exact fun _ _ _ => rfl
    | some h =>
      have hm := List.mem_of_getElem? hg
      have h8 : h.index < 8 := hi.bound _ (List.mem_append_left _ (List.mem_map_of_mem hm))
      have := step_target (B := (Chip.dev sched faults).bus) c fuel o i ht h hg
      rw [hi.canonical h hm] at this
      have hc := reach_cmem h8 this
      exact fun a _ _ => congrFun hc a
  | none =>
    cases o with
    | udpSocket => rw [(step_alloc c fuel _ (.inl rfl)).1]; exact fun _ _ _ => rfl
    | tcpSocket => rw [(step_alloc c fuel _ (.inr (.inl rfl))).1]; exact fun _ _ _ => rfl
    | takeSocket => rw [(step_alloc c fuel _ (.inr (.inr rfl))).1]; exact fun _ _ _ => rfl
    | common o =>
      exact cells_reach (fun _ _ _ => other_common) (moves_common o (fun h => ho (h ▸ rfl)) c.dev.bus)
    | reactivate g => exact fun a _ _ => congrFun (hp g rfl).1 a
    | _ => cases ht

/-- `reset_device` sets them to 0 or, if it fails, possibly leaves them. -/
theorem reset_cells {c c' : Chip} {r : Res E Unit} (h : resetChip (Chip.dev sched faults).bus c = (r, c')) :
    (r ≠ .ok () ∧ c'.cmem = c.cmem) ∨ c'.cmem = Chip.commonReset := by
  obtain ⟨k, hk, e⟩ := Chip.regs_write (sched := sched) (faults := faults) h
  cases k with
  | zero =>
    refine .inl ⟨fun hr => ?_, congrArg RegFile.cmem e⟩
    exact absurd (hk hr) (by decide)
  | succ k =>
    rw [show [(0x80 : U8)].take (k + 1) = [0x80] by simp] at e
    exact .inr ((congrArg RegFile.cmem e).trans rfl)

theorem configured_reset {c : Chip} (h : c.cmem = Chip.commonReset) :
    Configured c ⟨0, 0, 0, 0, 0, 0⟩ ⟨0, 0, 0, 0⟩ ⟨0, 0, 0, 0⟩ ⟨0, 0, 0, 0⟩ := by
  unfold Configured ipAt macAt
  rw [h]; exact ⟨rfl, rfl, rfl, rfl⟩

theorem KeepRun.inv {c0 c : Client Chip H} (hi : AllocInv c0) (h : KeepRun sched faults c0 c) : AllocInv c := by
  induction h with
  | start => exact hi
  | step fuel o _ _ _ ih => exact ih.step fuel o

theorem ClientRun.allocInv {c0 c : Client Chip H} (hi : AllocInv c0) (h : ClientRun sched faults c0 c) : AllocInv c := by
  induction h with
  | start => exact hi
  | step fuel o _ _ ih => exact ih.step fuel o

end W5500.Spec
