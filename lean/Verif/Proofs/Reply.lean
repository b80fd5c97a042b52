import Verif.Spec.Reply
import Verif.Proofs.Flow
import Verif.Props.Swift
/-! # Answering frames in time -/

namespace W5500.Spec
open W5500 socketn Sock
variable {E : Type} {sched : Nat → List (Nat × Act)} {faults : Nat → Option (E × Nat)}
  {sched0 : Nat → List (Nat × Act)} {faults0 : Nat → Option (E × Nat)}

/-- `write_frame` returns `Ok` in time. -/
theorem write_timely {L L' : Nat} (hf : ∀ i, faults i = none) (he : EmittingIn L sched 0) (hc : ConfirmingIn L' sched 0) (hl : Lossless sched 0)
    {r : RawDevice} {c0 c : Chip} {log : List RawSent} {got : List RawGot} (ho : RawOpened sched0 faults0 r c0)
    (hr : RawRun sched faults r c0 log got c) (frame : List U8) (hne : frame ≠ []) (hz : frame.length ≤ 16384) (fuel : Nat)
    (hfu : L + L' + 1 ≤ fuel) :
    ∃ k c', r.writeFrame (Chip.dev sched faults).bus fuel frame c = (.ok k, c') ∧ c'.clock ≤ c.clock + (L + L' + frame.length + 9) ∧
      ∃ ip port, (c'.socks 0).packets = (c.socks 0).packets ++ [⟨ip, port, frame, true⟩] := by
  obtain ⟨h1, h2⟩ := Props.C118_raw_write he hc hl ho hr frame hne hz fuel
  have h1 := h1 hfu
  rcases hm : r.writeFrame (Chip.dev sched faults).bus fuel frame c with ⟨k | e | _ | _, c'⟩
  · rw [hm] at h2
    obtain ⟨_, _, _, h3⟩ := Props.C57_chip ho hr fuel frame k hm
    exact ⟨k, c', rfl, h2, h3⟩
  · exact absurd (congrArg Prod.fst hm) ((noerr_rawWrite (faultless_chip (sched := sched) hf) r fuel frame).run c e)
  · exact absurd (congrArg Prod.fst hm) ((np_rawWrite (Props.calm_bus _) r fuel frame).run c)
  · rw [hm] at h1
    exact absurd rfl h1

/-- The answers to what the calls brought. -/
def answersOf (answer : List U8 → List U8) (got : List RawGot) : List (List U8) :=
  (got.filter fun g => g.len ≠ 0).map fun g => answer (g.buf.take g.len)

theorem answers_taken (answer : List U8 → List U8) {bl : Nat} (hbl : bl ≠ 0) {got : List RawGot} {fs : List (List U8)} (h : RawGot.All got fs)
    (hg : ∀ g ∈ got, g.before.length = bl) :
    answersOf answer got = (fs.filter fun f => f ≠ []).map fun f => answer (f.take bl) := by
  induction h with
  | nil => rfl
  | @nothing got fs g _ hn ih =>
    rw [← ih fun x hx => hg x (List.mem_append_left _ hx)]
    unfold answersOf
    rw [List.filter_append, List.filter_cons_of_neg (by simp [hn.len])]
    simp
  | @got got fs g f _ hb ih =>
    have hb1 := hg g (List.mem_append_right _ (List.mem_cons_self ..))
    have hlen := hb.len
    rw [hb1] at hlen
    have ih := ih fun x hx => hg x (List.mem_append_left _ hx)
    unfold answersOf at ih ⊢
    rw [List.filter_append, List.filter_append, List.map_append, List.map_append, ih]
    congr 1
    by_cases h0 : f = []
    · subst h0
      rw [List.filter_cons_of_neg (by simp [hlen]), List.filter_cons_of_neg (by simp)]
      rfl
    · have : f.length ≠ 0 := fun e => h0 (List.length_eq_zero_iff.mp e)
      rw [List.filter_cons_of_pos (by simp; omega), List.filter_cons_of_pos (by simp [h0])]
      show [answer (g.buf.take g.len)] = [answer (f.take bl)]
      rw [hb.buf, List.take_append_of_le_length (by rw [List.length_take]; omega), List.take_take, Nat.min_self, hlen]
      congr 2
      rcases Nat.le_total bl f.length with h | h
      · rw [Nat.min_eq_left h]
      · rw [Nat.min_eq_right h, List.take_length, List.take_of_length_le h]

/-- The program, round by round. -/
theorem replier_reads {L L' : Nat} (hf : ∀ i, faults i = none) (he : EmittingIn L sched 0) (hc : ConfirmingIn L' sched 0) (hl : Lossless sched 0)
    {r : RawDevice} {cz c0 : Chip} {log : List RawSent} {got0 : List RawGot} (ho : RawOpened sched0 faults0 r cz)
    (hr : RawRun sched faults r cz log got0 c0) {q0 : List (List U8)} (hq : (c0.socks 0).queue = encFrames q0) {P k s : Nat}
    (hqs : ∀ f ∈ q0, f.length + 2 ≤ s) (hp : Paced sched 0 P k s c0.clock)
    (hz : (q0.length + k + 2) * s ≤ (c0.socks 0).rxSize) {bl a : Nat} (answer : List U8 → List U8)
    (ha : ∀ x, x ≠ [] → x.length ≤ bl → answer x ≠ [] ∧ (answer x).length ≤ a) (haz : a ≤ 16384)
    (hP : (4 * k + bl + 15) + (L + L' + a + 9) ≤ P) (fuel : Nat) (hf1 : k + 2 ≤ fuel) (hf2 : L + L' + 1 ≤ fuel) (rounds : Nat)
    {got : List RawGot} {t : Nat} {c : Chip} (h : Reads sched faults r P c0 got t c) (ht : c.clock ≤ t + (L + L' + a + 9)) (buf : List U8)
    (hb : buf.length = bl) :
    ∃ more buf' t' c' ps, replier (Chip.dev sched faults).bus r answer rounds fuel (buf, c) = (.ok (), (buf', c')) ∧ buf'.length = bl ∧
      (∀ g ∈ more, g.before.length = bl) ∧ more.length = rounds ∧ Reads sched faults r P c0 (got ++ more) t' c' ∧
      c'.clock ≤ t' + (L + L' + a + 9) ∧ (c'.socks 0).packets = (c.socks 0).packets ++ ps ∧ ps.map Packet.data = answersOf answer more ∧
      ∀ p ∈ ps, p.delivered = true := by
  induction rounds generalizing got t c buf with
  | zero => exact ⟨[], buf, t, c, [], rfl, hb, nofun, rfl, by rw [List.append_nil]; exact h, ht, (List.append_nil _).symm, rfl, nofun⟩
  | succ rounds ih =>
    obtain ⟨h1, A, h2, ps0, fs0, _, _, h3⟩ := Props.raw_inv ho hr
    obtain ⟨m, buf1, c1, g1, g2⟩ := flow_call h1 hf hp hz h3 hq hqs h buf (by omega) fuel hf1
    have hcost := (co_rawRead (Meter.chip_on sched faults) r fuel buf.length).run (buf, c) (Nat.le_refl _)
    rw [g1] at hcost
    have hb1 : buf1.length = bl := hcost.2.trans hb
    have r1 : Reads sched faults r P c0 (got ++ [⟨buf, m, buf1⟩]) c1.clock c1 := .readFrame fuel buf buf1 m h g1 (by omega)
    obtain ⟨log1, run⟩ := reads_run hr h
    have hpk : (c1.socks 0).packets = (c.socks 0).packets ∧ m ≤ bl := by
      obtain ⟨_, A', _, ps', fs', _, _, h4⟩ := Props.raw_inv ho run
      have := (raw_readFrame (sched := sched) (faults := faults) (by decide) r (by rw [h1]) _ _ _ [] (c.socks 0).rxRdReg fuel buf).run (buf, c)
        ⟨rfl, h4, rfl⟩
      rw [g1] at this
      rcases this with ⟨_, hno, hi⟩ | ⟨f, rest, more, _, _, hbr, hi⟩
      · exact ⟨RawIdle.busy hi |>.base.out.trans h4.busy.base.out.symm, by rw [show m = 0 from hno.len]; exact Nat.zero_le _⟩
      · refine ⟨RawIdle.busy hi |>.base.out.trans h4.busy.base.out.symm, ?_⟩
        have : m = min buf.length f.length := hbr.len
        omega
    unfold replier
    by_cases hm : m = 0
    · obtain ⟨more, buf', t', c', ps, k1, k2, k3, k4, k5, k6, k7, k8, k9⟩ := ih r1 (by omega) buf1 hb1
      refine ⟨⟨buf, m, buf1⟩ :: more, buf', t', c', ps, ?_, k2, fun g hg => ?_, by rw [List.length_cons, k4], by rw [List.append_assoc] at k5; exact k5, k6,
        by rw [k7, hpk.1], ?_, k9⟩
      · have e : reply (Chip.dev sched faults).bus r answer fuel (buf, c) = (.ok (), (buf1, c1)) := by
          unfold reply
          rw [M.bind_ok g1, if_pos hm]
          rfl
        rw [M.bind_ok e]
        exact k1
      · rcases List.mem_cons.mp hg with rfl | hg
        · exact hb
        · exact k3 g hg
      · rw [k8]
        unfold answersOf
        rw [List.filter_cons_of_neg (by simp [hm])]
    · obtain ⟨log2, run2⟩ := reads_run hr r1
      have hx : (buf1.take m).length = m := by rw [List.length_take]; omega
      obtain ⟨a1, a2⟩ := ha (buf1.take m) (fun e => hm (by rw [← hx, e]; rfl)) (by omega)
      obtain ⟨j, c2, w1, w2, ip, port, w3⟩ := write_timely hf he hc hl ho run2 (answer (buf1.take m)) a1 (by omega) fuel hf2
      obtain ⟨more, buf', t', c', ps, k1, k2, k3, k4, k5, k6, k7, k8, k9⟩ := ih (.meantime r1 (.writeFrame fuel _ j w1)) (by omega) buf1 hb1
      refine ⟨⟨buf, m, buf1⟩ :: more, buf', t', c', ⟨ip, port, answer (buf1.take m), true⟩ :: ps, ?_, k2, fun g hg => ?_, by rw [List.length_cons, k4],
        by rw [List.append_assoc] at k5; exact k5, k6, by rw [k7, w3, hpk.1, List.append_assoc]; rfl, ?_, fun p hp => ?_⟩
      · have e : reply (Chip.dev sched faults).bus r answer fuel (buf, c) = (.ok (), (buf1, c2)) := by
          unfold reply
          rw [M.bind_ok g1, if_neg hm, M.bind_ok (show M.get (buf1, c1) = (.ok (buf1, c1), (buf1, c1)) from rfl)]
          rw [M.bind_ok (show M.sliceTo (buf1, c1).1 m (buf1, c1) = (.ok (buf1.take m), (buf1, c1)) from
            M.sliceTo_eq_ok.mpr ⟨by dsimp only; omega, rfl, rfl⟩)]
          rw [M.bind_ok (show M.onSnd (r.writeFrame (Chip.dev sched faults).bus fuel (answer (buf1.take m))) (buf1, c1) = (.ok j, (buf1, c2)) from
            M.onSnd_eq_ok.mpr ⟨w1, rfl⟩)]
          rfl
        rw [M.bind_ok e]
        exact k1
      · rcases List.mem_cons.mp hg with rfl | hg
        · exact hb
        · exact k3 g hg
      · unfold answersOf at k8 ⊢
        rw [List.filter_cons_of_pos (by simp [hm]), List.map_cons, List.map_cons, k8]
      · rcases List.mem_cons.mp hp with rfl | hp
        · rfl
        · exact k9 p hp

end W5500.Spec
