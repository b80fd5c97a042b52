import Verif.Proofs.Flow
import Verif.Props.Bridge
/-! # C121: a MACRAW program that reads often enough loses no frame -/

namespace W5500.Props
open W5500 W5500.Spec W5500.Spec.Sock socketn
variable {E : Type} {sched : Nat → List (Nat × Act)} {faults : Nat → Option (E × Nat)}
  {sched0 : Nat → List (Nat × Act)} {faults0 : Nat → Option (E × Nat)}

theorem rawRun_idle {r : RawDevice} {c0 c : Chip} {log : List RawSent} {got : List RawGot} (ho : RawOpened sched0 faults0 r c0)
    (hr : RawRun sched faults r c0 log got c) : r = ⟨sockOf 0⟩ ∧ ∃ K A, RawIdle K A 16384 [] (c.socks 0) := by
  obtain ⟨h1, A, _, ps, fs, _, _, h2⟩ := raw_inv ho hr
  exact ⟨h1, _, _, h2⟩

/-- C121. A MACRAW device, after any history, has the frames `q0` queued at `c0`. From then on frames come on average at most once in `P` SPI bytes,
in bursts of at most `k` more, and `k + 2` of them fit into the RX buffer beside as many as were queued. A program calls `read_frame` again and again, each call ending at most `P` SPI
bytes after the one before; in between it may send frames, set interrupts and use the bus for other things. Then no frame is ever lost: what was
queued and what came is, in order, what the calls brought, followed by what is queued, and at most `k + 2` frames more than at first are queued. -/
theorem C121 (hf : ∀ i, faults i = none) {r : RawDevice} {cz c0 : Chip} {log : List RawSent} {got0 : List RawGot} (ho : RawOpened sched0 faults0 r cz)
    (hr : RawRun sched faults r cz log got0 c0) {q0 : List (List U8)} (hq : (c0.socks 0).Frames q0) {P k s : Nat}
    (hqs : ∀ f ∈ q0, f.length + 2 ≤ s) (hp : Paced sched 0 P k s c0.clock) (hz : (q0.length + k + 2) * s ≤ (c0.socks 0).rxSize)
    {got : List RawGot} {t : Nat} {c : Chip} (h : Reads sched faults r P c0 got t c) (ht : c.clock ≤ t + P) :
    ∃ taken rest, RawGot.All got taken ∧ taken ++ rest = q0 ++ flow sched 0 c0.clock (c.clock - c0.clock) ∧ (c.socks 0).Frames rest ∧
      rest.length ≤ q0.length + k + 2 := by
  obtain ⟨h1, K, A, h2⟩ := rawRun_idle ho hr
  obtain ⟨K', taken, h3, h4, h5, rest, q, s0, j, h6⟩ := flowInv h1 hf hp hz h2 hq.2 hqs h
  obtain ⟨e, hl⟩ := h6.later hp h5.start ht
  refine ⟨taken, _, h4, e, ⟨fun f hf => ?_, h5.waits ht e⟩, hl⟩
  have h7 : f ∈ q0 ++ flow sched 0 c0.clock (c.clock - c0.clock) := by rw [← e]; exact List.mem_append_right _ hf
  have h7 := (List.mem_append.mp h7).elim (hqs f) (hp.fit _ f)
  have h8 := GoodSize.le h2.busy.core.size
  have h9 : 2 * s ≤ (q0.length + k + 2) * s := Nat.mul_le_mul_right _ (by omega)
  omega

/-- C121, one call: if the frames come slowly enough, a call takes at most `4 * k + 15` SPI bytes and those that the buffer holds. So the calls of a
program that begins each of them early enough end early enough. -/
theorem C121_call (hf : ∀ i, faults i = none) {r : RawDevice} {cz c0 : Chip} {log : List RawSent} {got0 : List RawGot} (ho : RawOpened sched0 faults0 r cz)
    (hr : RawRun sched faults r cz log got0 c0) {q0 : List (List U8)} (hq : (c0.socks 0).Frames q0) {P k s : Nat}
    (hqs : ∀ f ∈ q0, f.length + 2 ≤ s) (hp : Paced sched 0 P k s c0.clock) (hz : (q0.length + k + 2) * s ≤ (c0.socks 0).rxSize)
    {got : List RawGot} {t : Nat} {c : Chip} (h : Reads sched faults r P c0 got t c)
    (buf : List U8) (hb : c.clock + (4 * k + buf.length + 15) ≤ t + P) (fuel : Nat) (hfu : k + 2 ≤ fuel) :
    ∃ m buf' c', r.readFrame (Chip.dev sched faults).bus fuel (buf, c) = (.ok m, (buf', c')) ∧
      c'.clock ≤ c.clock + (4 * k + buf.length + 15) ∧ Reads sched faults r P c0 (got ++ [⟨buf, m, buf'⟩]) c'.clock c' := by
  obtain ⟨h1, K, A, h2⟩ := rawRun_idle ho hr
  obtain ⟨_, _, _, _, h5, _⟩ := flowInv h1 hf hp hz h2 hq.2 hqs h
  have := h5.start
  obtain ⟨m, buf', c', h6, h7⟩ := flow_call h1 hf hp hz h2 hq.2 hqs h buf (by omega) fuel hfu
  exact ⟨m, buf', c', h6, h7, .readFrame fuel buf buf' m h h6 (by omega)⟩

/-- C121, a whole program that does nothing but read, for any number of rounds. -/
theorem C121_collect (hf : ∀ i, faults i = none) {r : RawDevice} {cz c0 : Chip} {log : List RawSent} {got0 : List RawGot}
    (ho : RawOpened sched0 faults0 r cz) (hr : RawRun sched faults r cz log got0 c0) {q0 : List (List U8)} (hq : (c0.socks 0).Frames q0) {P k s : Nat}
    (hqs : ∀ f ∈ q0, f.length + 2 ≤ s) (hp : Paced sched 0 P k s c0.clock) (hz : (q0.length + k + 2) * s ≤ (c0.socks 0).rxSize)
    (buf : List U8) (hb : 4 * k + buf.length + 15 ≤ P)
    (fuel : Nat) (hfu : k + 2 ≤ fuel) (rounds : Nat) :
    ∃ got c taken rest, collect (Chip.dev sched faults).bus r buf rounds fuel c0 = (.ok got, c) ∧ got.length = rounds ∧
      (∀ g ∈ got, g.before = buf) ∧ RawGot.All got taken ∧ taken ++ rest = q0 ++ flow sched 0 c0.clock (c.clock - c0.clock) ∧
      (c.socks 0).Frames rest ∧ rest.length ≤ q0.length + k + 2 := by
  obtain ⟨h1, K, A, h2⟩ := rawRun_idle ho hr
  obtain ⟨got, c, h3, h4, h5, h6⟩ := collect_reads h1 hf hp hz h2 hq.2 hqs buf hb fuel hfu rounds .start
  obtain ⟨taken, rest, h7⟩ := C121 hf ho hr hq hqs hp hz h6 (Nat.le_add_right _ _)
  exact ⟨got, c, taken, rest, h3, h4, h5, h7⟩

/-- C121, what a call that returns 0 means, if no frame is empty and the buffer is not: the calls before it brought all frames that came before it
began. -/
theorem C121_caught_up (hf : ∀ i, faults i = none) {r : RawDevice} {cz c0 : Chip} {log : List RawSent} {got0 : List RawGot}
    (ho : RawOpened sched0 faults0 r cz) (hr : RawRun sched faults r cz log got0 c0) {q0 : List (List U8)} (hq : (c0.socks 0).Frames q0) {P k s : Nat}
    (hqs : ∀ f ∈ q0, f.length + 2 ≤ s) (hp : Paced sched 0 P k s c0.clock) (hz : (q0.length + k + 2) * s ≤ (c0.socks 0).rxSize)
    (hne : ∀ g, ∀ f ∈ q0 ++ flow sched 0 c0.clock g, f ≠ [])
    {got : List RawGot} {t : Nat} {c : Chip} (h : Reads sched faults r P c0 got t c) (ht : c.clock ≤ t + P) (fuel : Nat) {buf buf' : List U8}
    (hb : buf ≠ []) {c' : Chip} (hm : r.readFrame (Chip.dev sched faults).bus fuel (buf, c) = (.ok 0, (buf', c'))) :
    RawGot.All got (q0 ++ flow sched 0 c0.clock (c.clock - c0.clock)) ∧ (c.socks 0).queue = [] := by
  obtain ⟨taken, rest, h1, h2, h3, _⟩ := C121 hf ho hr hq hqs hp hz h ht
  obtain ⟨log', run⟩ := reads_run hr h
  rcases C55_call ho run rest h3 fuel buf buf' 0 hm with ⟨rfl, _⟩ | ⟨f, rest', more, e, hbr, _⟩
  · rw [List.append_nil] at h2
    rw [← h2]
    exact ⟨h1, h3.2⟩
  · cases rest with
    | nil =>
      rw [List.append_nil] at h2
      rw [← h2]
      exact ⟨h1, h3.2⟩
    | cons g rest =>
      rw [List.cons_append, List.cons.injEq] at e
      obtain ⟨rfl, _⟩ := e
      have h4 : f ≠ [] := hne (c.clock - c0.clock) f (by rw [← h2]; exact List.mem_append_right _ (List.mem_cons_self ..))
      have h5 : 0 = min buf.length f.length := hbr.len
      have h6 : buf.length ≠ 0 := fun e => hb (List.length_eq_zero_iff.mp e)
      have h7 : f.length ≠ 0 := fun e => h4 (List.length_eq_zero_iff.mp e)
      omega

/-! ## A stream of frames -/

/-- Every 50 SPI bytes a frame comes, each time another one. -/
def streamSched (k : Nat) : List (Nat × Act) :=
  (if k % 50 = 49 then [(0, .frame [1, 2, 3, BitVec.ofNat 8 (k / 50)])] else []) ++ [(0, .emit true), (0, .raise 0x10)]

def streamChip : Chip := (RawDevice.new (Chip.dev streamSched noFaults).bus Chip.powerUp).2

theorem stream_opened : RawOpened streamSched noFaults rawDemo streamChip := .new (run_eq (by decide +kernel))

theorem stream_chip : (streamChip.socks 0).queue = [] ∧ (streamChip.socks 0).rxSize = 16384 := by decide +kernel

theorem stream_none : (streamChip.socks 0).Frames [] := ⟨nofun, stream_chip.1⟩

theorem stream_frames (k : Nat) : framesOf 0 (streamSched k) = if k % 50 = 49 then [[1, 2, 3, BitVec.ofNat 8 (k / 50)]] else [] := by
  unfold streamSched
  split <;> rfl

theorem stream_flow (t g : Nat) : (flow streamSched 0 t g).length = (t + g) / 50 - t / 50 := by
  induction g with
  | zero => simp [flow]
  | succ g ih =>
    rw [flow, List.length_append, ih, stream_frames]
    split
    · rw [List.length_singleton]; omega
    · rw [List.length_nil]; omega

theorem stream_fit (t g : Nat) : ∀ f ∈ flow streamSched 0 t g, f.length = 4 := by
  induction g with
  | zero => nofun
  | succ g ih =>
    intro f hf
    rcases List.mem_append.mp hf with hf | hf
    · exact ih f hf
    · rw [stream_frames] at hf
      split at hf
      · rw [List.mem_singleton.mp hf]; rfl
      · exact nomatch hf

theorem stream_paced (T : Nat) : Paced streamSched 0 50 1 6 T :=
  ⟨fun t g _ => by rw [stream_flow]; omega, fun g f hf => by rw [stream_fit T g f hf]; decide⟩

/-- C121: a program that reads, ten thousand times, into a buffer of 30 bytes. -/
example : ∃ got c taken rest, collect (Chip.dev streamSched noFaults).bus rawDemo (List.replicate 30 0) 10000 9 streamChip = (.ok got, c) ∧
    got.length = 10000 ∧ (∀ g ∈ got, g.before = List.replicate 30 0) ∧ RawGot.All got taken ∧
    taken ++ rest = [] ++ flow streamSched 0 streamChip.clock (c.clock - streamChip.clock) ∧ (c.socks 0).Frames rest ∧ rest.length ≤ 0 + 1 + 2 :=
  C121_collect (fun _ => rfl) stream_opened .start stream_none nofun (stream_paced _) (by rw [stream_chip.2]; decide) _ (by rw [List.length_replicate]; decide)
    9 (by decide) 10000

/-- The program reads another register first, and then a frame. -/
def streamRead : Chip := ((Chip.dev streamSched noFaults).bus.readFrame streamChip 0 0x39 [0]).2.2

theorem stream_reads : Reads streamSched noFaults rawDemo 50 streamChip [] streamChip.clock streamRead := .meantime .start (.read _ _ _ _)

theorem streamRead_clock : streamRead.clock = streamChip.clock + 1 := by decide +kernel

/-- The chip after six calls. The sixth brought the first frame, the seventh brings nothing. -/
def streamSix : Chip := (collect (Chip.dev streamSched noFaults).bus rawDemo (List.replicate 6 0) 6 9 streamChip).2
def streamSeven : Chip := (rawDemo.readFrame (Chip.dev streamSched noFaults).bus 9 (List.replicate 6 0, streamSix)).2.2

theorem stream_seven : rawDemo.readFrame (Chip.dev streamSched noFaults).bus 9 (List.replicate 6 0, streamSix) =
    (.ok 0, (List.replicate 6 0, streamSeven)) := run_eq' (r := rawDemo.readFrame (Chip.dev streamSched noFaults).bus 9 (List.replicate 6 0, streamSix)) (by decide +kernel) (by decide +kernel)

theorem stream_clocks : streamChip.clock = 18 ∧ streamSix.clock = 63 := by decide +kernel

/-- The program does something else for 200 SPI bytes before it begins to read. -/
def streamLate : Chip := ((Chip.dev streamSched noFaults).bus.readFrame streamChip 0 0 (List.replicate 200 0)).2.2

theorem stream_late : RawRun streamSched noFaults rawDemo streamChip [] [] streamLate := .read _ _ _ .start

theorem streamLate_queue : (streamLate.socks 0).Frames [[1, 2, 3, 0], [1, 2, 3, 1], [1, 2, 3, 2], [1, 2, 3, 3]] :=
  ⟨by decide, by decide +kernel⟩

theorem streamLate_chip : (streamLate.socks 0).rxSize = 16384 ∧ streamLate.clock = 218 := by decide +kernel

attribute [irreducible] streamChip streamRead streamSix streamSeven streamLate

/-- C121: a program that begins to read when four frames are queued. -/
example : ∃ got c taken rest, collect (Chip.dev streamSched noFaults).bus rawDemo (List.replicate 30 0) 10000 9 streamLate = (.ok got, c) ∧
    got.length = 10000 ∧ (∀ g ∈ got, g.before = List.replicate 30 0) ∧ RawGot.All got taken ∧
    taken ++ rest = [[1, 2, 3, 0], [1, 2, 3, 1], [1, 2, 3, 2], [1, 2, 3, 3]] ++ flow streamSched 0 streamLate.clock (c.clock - streamLate.clock) ∧
    (c.socks 0).Frames rest ∧ rest.length ≤ 4 + 1 + 2 :=
  C121_collect (fun _ => rfl) stream_opened stream_late streamLate_queue (by decide) (stream_paced _) (by rw [streamLate_chip.1]; decide) _
    (by rw [List.length_replicate]; decide) 9 (by decide) 10000

/-- C121: the call takes at most 22 SPI bytes; whatever came by then was read or is queued. -/
example : ∃ m buf' c', rawDemo.readFrame (Chip.dev streamSched noFaults).bus 3 ([0, 0, 0], streamRead) = (.ok m, (buf', c')) ∧
    c'.clock ≤ streamRead.clock + 22 ∧ ∃ taken rest, RawGot.All [⟨[0, 0, 0], m, buf'⟩] taken ∧
      taken ++ rest = [] ++ flow streamSched 0 streamChip.clock (c'.clock - streamChip.clock) ∧ (c'.socks 0).Frames rest ∧ rest.length ≤ 0 + 1 + 2 := by
  have hz : (([] : List (List U8)).length + 1 + 2) * 6 ≤ (streamChip.socks 0).rxSize := by rw [stream_chip.2]; decide
  obtain ⟨m, buf', c', h1, h2, h3⟩ := C121_call (fun _ => rfl) stream_opened .start stream_none nofun (stream_paced _) hz stream_reads [0, 0, 0]
    (by rw [streamRead_clock]; show _ + 1 + 22 ≤ _ + 50; omega) 3 (by decide)
  exact ⟨m, buf', c', h1, h2, C121 (fun _ => rfl) stream_opened .start stream_none nofun (stream_paced _) hz h3 (Nat.le_add_right _ _)⟩

/-- C121: what the six calls brought is all that came before the seventh began. -/
example : ∃ got, Reads streamSched noFaults rawDemo 50 streamChip got streamSix.clock streamSix ∧ RawGot.All got [[1, 2, 3, 0]] := by
  have hz : (([] : List (List U8)).length + 1 + 2) * 6 ≤ (streamChip.socks 0).rxSize := by rw [stream_chip.2]; decide
  obtain ⟨h1, K, A, h2⟩ := rawRun_idle (sched := streamSched) (faults := noFaults) stream_opened .start
  obtain ⟨got, c, h3, _, _, h4⟩ := collect_reads (faults := noFaults) h1 (fun _ => rfl) (stream_paced _) hz h2 stream_chip.1 nofun (List.replicate 6 0)
    (by rw [List.length_replicate]; decide) 9 (by decide) 6 .start
  have e : c = streamSix := by unfold streamSix; exact (congrArg Prod.snd h3).symm
  subst e
  obtain ⟨h5, _⟩ := C121_caught_up (faults := noFaults) (buf := List.replicate 6 0) (fun _ => rfl) stream_opened .start stream_none nofun (stream_paced _) hz
    (fun g f hf => by have := stream_fit _ g f (by rw [List.nil_append] at hf; exact hf); intro e; rw [e] at this; exact nomatch this) h4 (Nat.le_add_right _ _) 9 (by decide) stream_seven
  rw [stream_clocks.1, stream_clocks.2] at h5
  exact ⟨_, h4, h5⟩

end W5500.Props
