import Verif.Proofs.Bridge
import Verif.Props.Block
/-! # Answering frames

C113 A program on a MACRAW device that waits for a frame and sends an answer, again and again, answers every frame it gets, each
once and in order, and goes on doing so as long as frames come. -/

namespace W5500.Props
open W5500.Spec Sock
variable {W E H : Type} {sched : Nat → List (Nat × Act)} {faults : Nat → Option (E × Nat)}
  {sched0 : Nat → List (Nat × Act)} {faults0 : Nat → Option (E × Nat)}

/-- What a call brought is the beginning of the frame. -/
theorem brings_take {b b' : List U8} {k : Nat} {f : List U8} (h : RawGot.Brings ⟨b, k, b'⟩ f) :
    k ≤ b'.length ∧ b'.length = b.length ∧ b'.take k = f.take b.length := by
  obtain ⟨h1, h2⟩ := h
  dsimp only at h1 h2
  have hk : (f.take k).length = k := by rw [List.length_take]; omega
  have hl : b'.length = b.length := by rw [h2, List.length_append, hk, List.length_drop]; omega
  refine ⟨by omega, hl, ?_⟩
  rw [h2, List.take_append_of_le_length (by omega), List.take_of_length_le (by omega)]
  rw [h1]
  by_cases h : b.length ≤ f.length
  · rw [Nat.min_eq_left h]
  · rw [Nat.min_eq_right (by omega), List.take_of_length_le (Nat.le_refl _), List.take_of_length_le (by omega)]

/-- C113, one round. -/
theorem C113_round (hf : ∀ i, faults i = none) (he : Emitting sched 0) (hc : Confirming sched 0) (hl : Lossless sched 0)
    {r : RawDevice} {c0 c : Chip} {log : List RawSent} {got : List RawGot}
    (ho : RawOpened sched0 faults0 r c0) (hr : RawRun sched faults r c0 log got c) (m : Nat) (hm : m ≤ (c.socks 0).rxSize)
    (hoff : FramesOffered sched 0 m) (hne : ∀ k, (0, .frame []) ∉ sched k) (queued : List (List U8))
    (hq : (c.socks 0).Frames queued) (hq0 : [] ∉ queued) (buf : List U8) (hb : buf ≠ []) (answer : List U8 → List U8)
    (ha : ∀ f, answer f ≠ [] ∧ (answer f).length ≤ 16384) :
    ∃ buf' c' f rest more, Succeeds (respond (Chip.dev sched faults).bus r answer) (buf, c) () (buf', c') ∧
      f :: rest = queued ++ more ∧ (c'.socks 0).Frames rest ∧ [] ∉ more ∧
      (c'.socks 0).arrived = (c.socks 0).arrived ++ encFrames more ∧
      (∃ ip port, (c'.socks 0).packets = (c.socks 0).packets ++ [⟨ip, port, answer (f.take buf.length), true⟩]) ∧
      buf'.length = buf.length ∧ m ≤ (c'.socks 0).rxSize ∧ ∃ log' got', RawRun sched faults r c0 log' got' c' := by
  obtain ⟨k, buf', c1, f, rest, more, ⟨_, N1, h1⟩, h2, h3, h4, h4', hp, ⟨later, h5, h6⟩, vain, _, hr1⟩ :=
    C97_raw hf ho hr m hm hoff hne queued hq hq0 buf hb
  obtain ⟨t1, t2, t3⟩ := brings_take h4
  obtain ⟨c2, ⟨_, N2, h7⟩, ip, port, h8⟩ := C76_raw_write hf he hc hl ho hr1 (answer (f.take buf.length)) (ha _).1 (ha _).2
  have hr2 := RawRun.writeFrame N2 _ _ hr1 (h7 N2 (Nat.le_refl _))
  have hsock := (raw_inv ho hr).1
  have hfed1 : Fed (c.socks 0).arrived m (c1.socks 0) := by
    refine fed_reach (n := 0) (by decide) hf hne (c := c) ?_ ⟨?_, hm, [], nofun, (List.append_nil _).symm, nofun⟩
    · have := (moves_untilSome (B := (Chip.dev sched faults).bus) (sockOf 0) N1 N1).run (buf, c)
      rw [← hsock, show untilSome _ N1 (buf, c) = _ from h1 N1 (Nat.le_refl _)] at this
      exact this
    · obtain ⟨_, _, _, _, _, _, _, hi⟩ := raw_inv ho hr
      exact hi.busy.base.mode
  have hfed : Fed (c.socks 0).arrived m (c2.socks 0) := by
    refine fed_reach (n := 0) (by decide) hf hne (c := c1) ?_ hfed1
    have := (moves_writeFrame (B := (Chip.dev sched faults).bus) r N2 (answer (f.take buf.length))).run c1
    rw [show RawDevice.writeFrame _ N2 r _ c1 = _ from h7 N2 (Nat.le_refl _), hsock] at this
    exact this.mono RawSendFrames.raw
  -- what waits after `write_frame`
  obtain ⟨later2, h9, h10⟩ : ∃ later2, (c2.socks 0).Frames (rest ++ (later ++ later2)) ∧
      (c2.socks 0).arrived = (c.socks 0).arrived ++ encFrames (more ++ (later ++ later2)) := by
    obtain ⟨_, A, _, ps, fs, _, _, hi⟩ := raw_inv ho hr1
    have hi : RawIdle ((c0.socks 0).packets ++ ps) (A ++ encFrames fs) 16384 (rest ++ later) (c1.socks 0) := by
      obtain ⟨⟨b1, b2, b3, b4, b5, _, b7⟩, g⟩ := hi
      exact ⟨⟨b1, b2, b3, b4, b5, ⟨[], by rw [List.append_nil]; exact h5⟩, b7⟩, g⟩
    obtain ⟨_, ip, port, h11⟩ := (raw_writeFrame (sched := sched) (faults := faults) (n := 0) (by decide) r (by rw [hsock])
      _ _ _ (rest ++ later) N2 _).ok hi (h7 N2 (Nat.le_refl _))
    obtain ⟨later2, h12⟩ := h11.busy.queue
    refine ⟨later2, by rw [← List.append_assoc]; exact h12, ?_⟩
    have e1 := hi.busy.core.arrived
    rw [h5.2] at e1
    rw [h11.busy.core.arrived, h12.2, encFrames_append, ← List.append_assoc, ← e1, h6, List.append_assoc, ← encFrames_append,
      List.append_assoc]
  obtain ⟨_, hsz, all, g1, g2, g3⟩ := hfed
  rw [h10] at g2
  have hlen : ∀ x ∈ more ++ (later ++ later2), x.length + 2 < 65536 := by
    intro x hx
    rcases List.mem_append.mp hx with hx | hx
    · have : x ∈ f :: rest := by rw [h3]; exact List.mem_append_right _ hx
      rcases List.mem_cons.mp this with rfl | hx
      · exact h4'
      · exact h9.1 x (List.mem_append_left _ hx)
    · exact h9.1 x (List.mem_append_right _ hx)
  have hall := C55_unambiguous _ _ hlen g1 (List.append_cancel_left g2)
  refine ⟨buf', c2, f, rest ++ (later ++ later2), more ++ (later ++ later2), ⟨nofun, max N1 N2, fun fuel hfu => ?_⟩,
    by rw [← List.append_assoc queued, ← h3]; rfl, h9, by rw [hall]; exact g3, h10, ⟨ip, port, by rw [h8, hp]⟩, t2, hsz, _, _, hr2⟩
  unfold respond
  refine M.bind_eq_ok.mpr ⟨k, (buf', c1), h1 fuel (by omega), ?_⟩
  refine M.bind_eq_ok.mpr ⟨(buf', c1), (buf', c1), rfl, ?_⟩
  refine M.bind_eq_ok.mpr ⟨buf'.take k, (buf', c1), ?_, ?_⟩
  · unfold M.sliceTo
    rw [if_pos t1]
    rfl
  · refine M.bind_eq_ok.mpr ⟨(answer (f.take buf.length)).length, (buf', c2), M.onSnd_eq_ok.mpr ⟨?_, rfl⟩, rfl⟩
    rw [t3]
    exact h7 fuel (by omega)

/-- C113: after `RawDevice::new` and any calls, on a chip whose transfers do not fail, that sends what it is told to send, and to
which frames come that are not empty and fit into its RX buffer: the program ends any number `N` of rounds, and has then answered `N` frames
(`fs`), the oldest first; those that were queued (`queued`) and have arrived since (`more`), and have not been answered, are
queued (`rest`). The answer is what `answer` makes of the frame, in as far as the buffer holds it. Nothing else was sent. -/
theorem C113 (hf : ∀ i, faults i = none) (he : Emitting sched 0) (hc : Confirming sched 0) (hl : Lossless sched 0)
    {r : RawDevice} {c0 c : Chip} {log : List RawSent} {got : List RawGot}
    (ho : RawOpened sched0 faults0 r c0) (hr : RawRun sched faults r c0 log got c) (m : Nat) (hm : m ≤ (c.socks 0).rxSize)
    (hoff : FramesOffered sched 0 m) (hne : ∀ k, (0, .frame []) ∉ sched k) (queued : List (List U8))
    (hq : (c.socks 0).Frames queued) (hq0 : [] ∉ queued) (buf : List U8) (hb : buf ≠ []) (answer : List U8 → List U8)
    (ha : ∀ f, answer f ≠ [] ∧ (answer f).length ≤ 16384) (N : Nat) :
    ∃ buf' c' fs rest more, Succeeds (responder (Chip.dev sched faults).bus r answer N) (buf, c) () (buf', c') ∧
      fs.length = N ∧ fs ++ rest = queued ++ more ∧ (c'.socks 0).Frames rest ∧
      (c'.socks 0).arrived = (c.socks 0).arrived ++ encFrames more ∧
      ∃ ps, (c'.socks 0).packets = (c.socks 0).packets ++ ps ∧ ps.map (·.data) = fs.map (fun f => answer (f.take buf.length)) ∧
        ∀ p ∈ ps, p.delivered = true := by
  induction N generalizing c log got queued buf with
  | zero => exact ⟨buf, c, [], queued, [], ⟨nofun, 0, fun _ _ => rfl⟩, rfl, (List.append_nil _).symm, hq, (List.append_nil _).symm,
      [], (List.append_nil _).symm, rfl, nofun⟩
  | succ N ih =>
    obtain ⟨b1, c1, f, rest1, more1, ⟨_, N1, h1⟩, h2, h3, h4, h5, ⟨ip, port, h6⟩, h7, h8, log1, got1, hr1⟩ :=
      C113_round hf he hc hl ho hr m hm hoff hne queued hq hq0 buf hb answer ha
    have h0 : [] ∉ rest1 := fun h => by
      have : [] ∈ f :: rest1 := List.mem_cons_of_mem _ h
      rw [h2] at this
      rcases List.mem_append.mp this with h | h
      · exact hq0 h
      · exact h4 h
    have hb1 : b1 ≠ [] := by
      intro e
      rw [e] at h7
      exact hb (List.length_eq_zero_iff.mp h7.symm)
    obtain ⟨b2, c2, fs, rest2, more2, ⟨_, N2, k1⟩, k2, k3, k4, k5, ps, k6, k7, k8⟩ := ih hr1 h8 rest1 h3 h0 b1 hb1
    refine ⟨b2, c2, f :: fs, rest2, more1 ++ more2, ⟨nofun, max N1 N2, fun fuel hfu => ?_⟩, by rw [List.length_cons, k2], ?_, k4, ?_,
      ⟨ip, port, answer (f.take buf.length), true⟩ :: ps, ?_, ?_, ?_⟩
    · unfold responder
      exact M.bind_eq_ok.mpr ⟨(), (b1, c1), h1 fuel (by omega), k1 fuel (by omega)⟩
    · rw [List.cons_append, k3, ← List.append_assoc queued, ← h2]
      rfl
    · rw [k5, h5, encFrames_append, List.append_assoc]
    · rw [k6, h6, List.append_assoc]
      rfl
    · rw [List.map_cons, List.map_cons, k7, h7]
    · intro p hp
      rcases List.mem_cons.mp hp with rfl | hp
      · rfl
      · exact k8 p hp

/-- A frame comes before every fiftieth SPI byte; what is to be sent is sent, and announced. -/
def relaySched (k : Nat) : List (Nat × Act) :=
  if k % 50 = 0 then [(0, .frame [1, 2, 3]), (0, .emit true), (0, .raise 0x10)] else []

theorem relay_mem {k : Nat} {a : Act} (h : (0, a) ∈ relaySched k) : a = .frame [1, 2, 3] ∨ a = .emit true ∨ a = .raise 0x10 := by
  unfold relaySched at h
  split at h
  · simpa using h
  · exact nomatch h

theorem relay_often (k : Nat) : ∃ l, k ≤ l ∧ relaySched l = [(0, .frame [1, 2, 3]), (0, .emit true), (0, .raise 0x10)] :=
  ⟨50 * (k + 1), by omega, by unfold relaySched; rw [if_pos (by omega)]⟩

def relayChip : Chip := (RawDevice.new (Chip.dev relaySched noFaults).bus Chip.powerUp).2

theorem relay_raw : RawOpened relaySched noFaults rawDemo relayChip := .new (run_eq (by decide +kernel))

theorem relay_chip : (relayChip.socks 0).rsr = 0 ∧ (relayChip.socks 0).rxSize = 16384 ∧ (relayChip.socks 0).packets = [] := by
  decide +kernel

/-- C113: a program that sends every frame back, with a byte in front. After a thousand rounds a thousand frames have been sent. -/
example : ∃ buf' c', Succeeds (responder (Chip.dev relaySched noFaults).bus rawDemo (fun f => 9 :: f.take 100) 1000)
      (List.replicate 64 0, relayChip) () (buf', c') ∧ (c'.socks 0).packets.length = 1000 := by
  obtain ⟨h1, h2, h3⟩ := relay_chip
  obtain ⟨buf', c', fs, rest, more, g1, g2, _, _, _, ps, g3, g4, _⟩ := C113 (sched := relaySched) (faults := noFaults) (fun _ => rfl)
    (fun k => (relay_often k).imp fun l h => ⟨h.1, true, by rw [h.2]; simp⟩)
    (fun k => (relay_often k).imp fun l h => ⟨h.1, 0x10, by decide, by rw [h.2]; simp⟩)
    (fun k h => by rcases relay_mem h with h | h | h <;> exact nomatch h) relay_raw .start 5 (by rw [h2]; decide)
    (fun k => (relay_often k).imp fun l h => ⟨h.1, [1, 2, 3], by decide, by rw [h.2]; simp⟩)
    (fun k h => by rcases relay_mem h with h | h | h <;> exact nomatch h)
    [] ⟨nofun, by unfold Sock.queue; rw [h1]; rfl⟩ nofun (List.replicate 64 0) nofun (fun f => 9 :: f.take 100)
    (fun f => ⟨nofun, by rw [List.length_cons, List.length_take]; omega⟩) 1000
  refine ⟨buf', c', g1, ?_⟩
  have := congrArg List.length g4
  rw [List.length_map, List.length_map] at this
  rw [g3, h3, List.nil_append, this, g2]

end W5500.Props
