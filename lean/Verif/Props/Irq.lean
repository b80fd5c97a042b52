import Verif.Proofs.Irq
import Verif.Props.Raw
import Verif.Props.Registers
/-! # Interrupt-driven MACRAW reception: C93 -/

namespace W5500.Props
open W5500 W5500.Spec W5500.Spec.Sock socketn
variable {E : Type} {sched : Nat → List (Nat × Act)} {faults : Nat → Option (E × Nat)}
  {sched0 : Nat → List (Nat × Act)} {faults0 : Nat → Option (E × Nat)}

theorem attends_run {r : RawDevice} {c00 c0 c : Chip} {log0 : List RawSent} {got0 : List RawGot} {b : Bool}
    (h0 : RawRun sched faults r c00 log0 got0 c0) (h : Attends sched faults r c0 b c) :
    ∃ log got, RawRun sched faults r c00 log got c := by
  induction h with
  | start => exact ⟨_, _, h0⟩
  | clear x _ hx ih => obtain ⟨_, _, ih⟩ := ih; exact ⟨_, _, .clear x ih hx⟩
  | nothing fuel buf buf' _ hx _ _ ih => obtain ⟨_, _, ih⟩ := ih; exact ⟨_, _, .readFrame fuel buf buf' 0 ih hx⟩
  | readFrame fuel buf buf' k _ hx ih => obtain ⟨_, _, ih⟩ := ih; exact ⟨_, _, .readFrame fuel buf buf' k ih hx⟩
  | failedRead fuel buf buf' x _ hx hn hp ih => obtain ⟨_, _, ih⟩ := ih; exact ⟨_, _, .failedRead fuel buf buf' x ih hx hn hp⟩
  | writeFrame fuel frame k _ hx ih => obtain ⟨_, _, ih⟩ := ih; exact ⟨_, _, .writeFrame fuel frame k ih hx⟩
  | failedWrite fuel frame x _ hx hn hq ih => obtain ⟨_, _, ih⟩ := ih; exact ⟨_, _, .failedWrite fuel frame x ih hx hn hq⟩
  | read block addr data _ ih => obtain ⟨_, _, ih⟩ := ih; exact ⟨_, _, .read block addr data ih⟩
  | write block addr data _ hf _ ih => obtain ⟨_, _, ih⟩ := ih; exact ⟨_, _, .write block addr data ih hf⟩
  | pass _ hp ih => obtain ⟨_, _, ih⟩ := ih; exact ⟨_, _, .pass ih hp⟩

theorem attends_inv {r : RawDevice} {c00 c0 c : Chip} {log0 : List RawSent} {got0 : List RawGot} {b : Bool} {m : U8}
    (ho : RawOpened sched0 faults0 r c00) (h0 : RawRun sched faults r c00 log0 got0 c0) (hm : Masks m c0)
    (h : Attends sched faults r c0 b c) : Masks m c ∧ (b = true → (c.socks 0).Noticed) := by
  obtain rfl := (raw_inv ho h0).1
  have hread : ∀ {b : Bool} {c c' : Chip} {fuel : Nat} {buf buf' : List U8} {x : Res E Nat},
      RawDevice.readFrame (Chip.dev sched faults).bus fuel ⟨sockOf 0⟩ (buf, c) = (x, (buf', c')) →
      Masks m c ∧ (b = true → (c.socks 0).Noticed) → Masks m c' ∧ (b = true → (c'.socks 0).Noticed) := by
    intro b c c' fuel buf buf' x hx ih
    have hr := moves_readFrame (B := (Chip.dev sched faults).bus) (sockOf 0) fuel buf c
    rw [hx] at hr
    exact ⟨reach_masks RawFrames.sock hr ih.1, fun hb => noticed_readFrame fuel hx (ih.2 hb)⟩
  have hwrite : ∀ {b : Bool} {c c' : Chip} {fuel : Nat} {frame : List U8} {x : Res E Nat},
      RawDevice.writeFrame (Chip.dev sched faults).bus fuel ⟨sockOf 0⟩ frame c = (x, c') →
      Masks m c ∧ (b = true → (c.socks 0).Noticed) → Masks m c' ∧ (b = true → (c'.socks 0).Noticed) := by
    intro b c c' fuel frame x hx ih
    have hr := (moves_writeFrame (B := (Chip.dev sched faults).bus) ⟨sockOf 0⟩ fuel frame).run c
    rw [hx] at hr
    exact ⟨reach_masks (fun b a d h => (h.raw).sock) hr ih.1, fun hb => noticed_writeFrame fuel hx (ih.2 hb)⟩
  induction h with
  | start => exact ⟨hm, nofun⟩
  | @clear b c c' x _ hx ih =>
    refine ⟨?_, nofun⟩
    have hr : Reach (Chip.dev sched faults).bus (SockFrames (sockOf 0) rawRegs) c
        (RawDevice.clearInterrupts (Chip.dev sched faults).bus ⟨sockOf 0⟩ c).2 :=
      (MovesOn.write (Or.inr ⟨rfl, by simp [rawRegs, INTERRUPT]⟩)).run c
    rw [hx] at hr
    exact reach_masks (fun _ _ _ h => h) hr ih.1
  | @nothing b c c' fuel buf buf' hrun hx hb hne ih =>
    obtain ⟨log, got, hR⟩ := attends_run h0 hrun
    obtain ⟨_, _, _, _, _, _, _, hi⟩ := raw_inv ho hR
    obtain ⟨queued, hq⟩ := hi.busy.queue
    have hq : (c.socks 0).Frames queued := by simpa using hq
    refine hread (b := true) hx ⟨ih.1, fun _ hne' => ?_⟩
    rcases C55_call ho hR queued hq fuel buf buf' 0 hx with ⟨rfl, _⟩ | ⟨f, rest, more, e, hf, _⟩
    · exact absurd hq.2 hne'
    · cases queued with
      | nil => exact absurd hq.2 hne'
      | cons g gs =>
        obtain ⟨rfl, _⟩ := List.cons.inj e
        have hl := hf.len
        dsimp only at hl
        have : buf.length ≠ 0 := fun e => hb (List.length_eq_zero_iff.mp e)
        have hf0 : f = [] := List.length_eq_zero_iff.mp (by omega)
        exact absurd (by rw [hf0]; simp) (hne _ hq)
  | readFrame fuel buf buf' k _ hx ih => exact hread hx ih
  | failedRead fuel buf buf' x _ hx _ _ ih => exact hread hx ih
  | writeFrame fuel frame k _ hx ih => exact hwrite hx ih
  | failedWrite fuel frame x _ hx _ _ ih => exact hwrite hx ih
  | @read b c block addr data _ ih =>
    have e := Chip.readFrame_evolves (sched := sched) (faults := faults) c block addr data
    exact ⟨stable_masks m _ _ e ih.1, fun hb => stable_noticed.evolves (e.socks 0) (ih.2 hb)⟩
  | write block addr data _ hf hs ih =>
    exact ⟨masks_write hf hs ih.1, fun hb => foreign_keep (P := Noticed) stable_noticed hf _ (ih.2 hb)⟩
  | pass _ hp ih =>
    exact ⟨stable_masks m _ _ hp.evolves ih.1, fun hb => stable_noticed.evolves (hp.evolves.socks 0) (ih.2 hb)⟩

/-! ## C93 A program that sleeps until the interrupt misses no frame -/

/-- C93: after `enable_interrupts` with RECV (bit 2), the program serves interrupts with `clear_interrupts`, and then
`read_frame` until that returns 0. From then on, whatever it does before the next `clear_interrupts`, whatever arrives and
whatever fails: while a frame waits, the chip asserts its interrupt pin. -/
theorem C93 {r : RawDevice} {c00 c0 c1 c : Chip} {log : List RawSent} {got : List RawGot} {m : U8}
    (ho : RawOpened sched0 faults0 r c00) (hr : RawRun sched faults r c00 log got c0)
    (he : r.enableInterrupts (Chip.dev sched faults).bus m c0 = (.ok (), c1)) (hm : m.getLsbD 2 = true)
    (h : Attends sched faults r c1 true c) (hq : (c.socks 0).queue ≠ []) : c.Interrupting := by
  obtain rfl := (raw_inv ho hr).1
  obtain ⟨e1, e2, _⟩ := (C59 (sched := sched) (faults := faults) m c0 c1).1 he
  obtain ⟨⟨h1, h2⟩, h3⟩ := attends_inv ho (hr.enable m _ he) ⟨e2, e1⟩ h
  exact ⟨0, by decide, by rw [h1]; decide, 2, by decide, h3 rfl hq, by rw [h2]; exact hm⟩

/-- Nothing is pending that is let through. -/
theorem not_interrupting {c : Chip} (h : c.cmem 0x18 = 1) (h0 : (c.socks 0).ir &&& (c.socks 0).mem 0x2C = 0) : ¬ c.Interrupting := by
  rintro ⟨n, hn, h1, i, hi, h2, h3⟩
  rw [h] at h1
  have hn0 : n = 0 := by
    have : ∀ n, n < 8 → (1 : U8).getLsbD n = true → n = 0 := by decide
    exact this n hn h1
  subst hn0
  have := congrArg (·.getLsbD i) h0
  simp only [BitVec.getLsbD_and, h2, h3] at this
  simp at this

/-! Both parts of the protocol are needed: reading until 0 is returned, and clearing before that. -/

def irqEnabled : Chip := (rawDemo.enableInterrupts (Chip.dev frameSched noFaults).bus 0x04 (rawChip noFaults)).2
def irqCleared : Chip := (rawDemo.clearInterrupts (Chip.dev frameSched noFaults).bus irqEnabled).2
def irqOne : Chip := (rawRead noFaults [0, 0, 0, 0] irqCleared).2.2
def irqTwo : Chip := (rawRead noFaults [0, 0, 0, 0] irqOne).2.2
def irqAll : Chip := (rawRead noFaults [0, 0, 0, 0] irqTwo).2.2
/-- A frame arrives. -/
def irqLater : Chip := irqAll.event (0, .frame [9, 9])
def irqLost : Chip := (rawDemo.clearInterrupts (Chip.dev frameSched noFaults).bus irqLater).2

theorem irq_enabled : rawDemo.enableInterrupts (Chip.dev frameSched noFaults).bus 0x04 (rawChip noFaults) = (.ok (), irqEnabled) :=
  run_eq (by decide +kernel)

theorem irq_cleared : Attends frameSched noFaults rawDemo irqEnabled false irqCleared :=
  .clear (.ok ()) .start (run_eq (by decide +kernel))

theorem irq_one : rawDemo.readFrame (Chip.dev frameSched noFaults).bus 9 ([0, 0, 0, 0], irqCleared) = (.ok 4, ([1, 2, 3, 4], irqOne)) :=
  run_eq' (r := rawRead noFaults [0, 0, 0, 0] irqCleared) (by decide +kernel) (by decide +kernel)

theorem irq_two : rawDemo.readFrame (Chip.dev frameSched noFaults).bus 9 ([0, 0, 0, 0], irqOne) = (.ok 2, ([5, 6, 0, 0], irqTwo)) :=
  run_eq' (r := rawRead noFaults [0, 0, 0, 0] irqOne) (by decide +kernel) (by decide +kernel)

theorem irq_all : rawDemo.readFrame (Chip.dev frameSched noFaults).bus 9 ([0, 0, 0, 0], irqTwo) = (.ok 0, ([0, 0, 0, 0], irqAll)) :=
  run_eq' (r := rawRead noFaults [0, 0, 0, 0] irqTwo) (by decide +kernel) (by decide +kernel)

/-- No failure, RECV enabled, interrupts cleared, and then one frame read: the second frame waits, and the pin is quiet. -/
theorem C93_one_frame : ∃ (sched : Nat → List (Nat × Act)) (r : RawDevice) (c0 c1 c2 c3 : Chip) (buf : List U8),
    RawOpened (E := Unit) sched noFaults r c0 ∧ r.enableInterrupts (Chip.dev (E := Unit) sched noFaults).bus 0x04 c0 = (.ok (), c1) ∧
    Attends (E := Unit) sched noFaults r c1 false c2 ∧
    r.readFrame (Chip.dev (E := Unit) sched noFaults).bus 9 ([0, 0, 0, 0], c2) = (.ok 4, (buf, c3)) ∧
    (c3.socks 0).queue ≠ [] ∧ ¬ c3.Interrupting :=
  ⟨frameSched, rawDemo, rawChip noFaults, irqEnabled, irqCleared, irqOne, _, rawDemo_opened, irq_enabled, irq_cleared, irq_one,
    by decide +kernel, not_interrupting (by decide +kernel) (by decide +kernel)⟩

theorem irq_empty : (irqTwo.socks 0).queue = encFrames [] := by decide +kernel

theorem irq_later : Passes irqAll irqLater := by
  generalize h : irqAll = c
  unfold irqLater
  rw [h]
  refine ⟨rfl, fun n => ?_⟩
  by_cases hn : n = 0
  · subst hn
    exact ⟨[.frame [9, 9]], rfl⟩
  · exact ⟨[], if_neg hn⟩

theorem irq_asleep : Attends frameSched noFaults rawDemo irqEnabled true irqLater := by
  have h2 : Attends frameSched noFaults rawDemo irqEnabled false irqTwo := (irq_cleared.readFrame 9 _ _ _ irq_one).readFrame 9 _ _ _ irq_two
  refine .pass (.nothing 9 _ _ h2 irq_all (by simp) fun fs hfs => ?_) irq_later
  obtain rfl := C55_unambiguous fs [] hfs.1 nofun (hfs.2.symm.trans irq_empty)
  exact nofun

/-- No failure, all frames read until 0 was returned, and then, a frame having arrived, interrupts cleared: the frame waits, and
the pin is quiet. -/
theorem C93_late_clear : ∃ (sched : Nat → List (Nat × Act)) (r : RawDevice) (c0 c1 c2 c3 : Chip),
    RawOpened (E := Unit) sched noFaults r c0 ∧ r.enableInterrupts (Chip.dev (E := Unit) sched noFaults).bus 0x04 c0 = (.ok (), c1) ∧
    Attends (E := Unit) sched noFaults r c1 true c2 ∧
    r.clearInterrupts (Chip.dev (E := Unit) sched noFaults).bus c2 = (.ok (), c3) ∧
    (c3.socks 0).queue ≠ [] ∧ ¬ c3.Interrupting :=
  ⟨frameSched, rawDemo, rawChip noFaults, irqEnabled, irqLater, irqLost, rawDemo_opened, irq_enabled, irq_asleep, run_eq (by decide +kernel),
    by decide +kernel, not_interrupting (by decide +kernel) (by decide +kernel)⟩

/-- C93: asleep, a frame arrives, and the pin is asserted. -/
example : irqLater.Interrupting := C93 rawDemo_opened .start irq_enabled (by decide) irq_asleep (by decide +kernel)

end W5500.Props
