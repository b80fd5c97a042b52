import Verif.Props.UdpChip
import Verif.Proofs.RawHistory
import Verif.Proofs.Faultless
import Verif.Proofs.Samples
/-! # MACRAW: C55–C58 -/

namespace W5500.Props
open W5500 W5500.Spec W5500.Spec.Sock socketn
variable {W E : Type} {sched : Nat → List (Nat × Act)} {faults : Nat → Option (E × Nat)}
  {sched0 : Nat → List (Nat × Act)} {faults0 : Nat → Option (E × Nat)}

theorem raw_inv {r : RawDevice} {c0 c : Chip} {log : List RawSent} {got : List RawGot}
    (ho : RawOpened sched0 faults0 r c0) (hr : RawRun sched faults r c0 log got c) :
    r = ⟨sockOf 0⟩ ∧ ∃ A, RawIdle (c0.socks 0).packets A 16384 [] (c0.socks 0) ∧
      RawInv (c0.socks 0).packets A 16384 log got c := by
  obtain ⟨h1, K, A, h2⟩ := rawOpened ho
  have hK := h2.busy.base.out
  rw [← hK] at h2
  refine ⟨h1, A, h2, rawRun_inv h1 ⟨[], [], .nil, ⟨.nil, nofun⟩, ?_⟩ hr⟩
  rw [List.append_nil, show encFrames [] = [] from rfl, List.append_nil]
  exact h2

/-! ## C55 MACRAW frames are received one by one -/

/-- How frames lie in RX memory is unambiguous. -/
theorem C55_unambiguous (fs gs : List (List U8)) (hf : ∀ f ∈ fs, f.length + 2 < 65536) (hg : ∀ f ∈ gs, f.length + 2 < 65536)
    (h : encFrames fs = encFrames gs) : fs = gs := by
  induction fs generalizing gs with
  | nil =>
    cases gs with
    | nil => rfl
    | cons g gs =>
      have := congrArg List.length h
      rw [encFrames_cons, List.length_append, encodeFrame_length] at this
      rw [show encFrames [] = [] from rfl, List.length_nil] at this
      omega
  | cons f fs ih =>
    cases gs with
    | nil =>
      have := congrArg List.length h
      rw [encFrames_cons, List.length_append, encodeFrame_length] at this
      rw [show encFrames [] = [] from rfl, List.length_nil] at this
      omega
    | cons g gs =>
      have h1 := hf f (by simp)
      have h2 := hg g (by simp)
      rw [encFrames_cons, encFrames_cons] at h
      unfold encodeFrame at h
      rw [List.append_assoc, List.append_assoc] at h
      obtain ⟨hb, h⟩ := List.append_inj h rfl
      have hl : f.length = g.length := by
        unfold be at hb
        simp only [List.cons.injEq, and_true] at hb
        have e1 := congrArg BitVec.toNat hb.1
        have e2 := congrArg BitVec.toNat hb.2
        simp only [BitVec.toNat_ofNat] at e1 e2
        omega
      obtain ⟨rfl, h⟩ := List.append_inj h hl
      rw [ih gs (fun x hx => hf x (by simp [hx])) (fun x hx => hg x (by simp [hx])) (List.append_cancel_left h)]

/-- C55 over a whole history: since the device was opened (when `first` was queued), the `read_frame` calls brought frames
one by one, in order of arrival: every frame was brought by one call, truncated to the buffer (`RawGot.Brings`), or is still
queued; the other calls brought nothing. -/
theorem C55_history {r : RawDevice} {c0 c : Chip} {log : List RawSent} {got : List RawGot}
    (ho : RawOpened sched0 faults0 r c0) (hr : RawRun sched faults r c0 log got c) :
    ∃ A first fs queued, (c0.socks 0).Frames first ∧ (c0.socks 0).arrived = A ++ encFrames first ∧
      (RawGot.All got fs ∧ ∀ f ∈ fs, f.length + 2 < 65536) ∧ (c.socks 0).Frames queued ∧
      (c.socks 0).arrived = A ++ encFrames (fs ++ queued) := by
  obtain ⟨_, A, h2, _, fs, _, h3, h4⟩ := raw_inv ho hr
  obtain ⟨first, q1⟩ := h2.busy.queue
  obtain ⟨queued, q2⟩ := h4.busy.queue
  refine ⟨A, first, fs, queued, q1, ?_, h3, q2, ?_⟩
  · rw [h2.busy.core.arrived, q1.2, List.nil_append]
  · rw [h4.busy.core.arrived, q2.2, List.nil_append, encFrames_append, List.append_assoc]

/-- C55 for one call: `queued` is queued (more may arrive during the call); the call brings the first frame and removes
this one only. With nothing queued it brings nothing, or a frame that arrived during the call. Everything that arrived during the
call and was not brought is queued afterwards. Nothing is sent. -/
theorem C55_call {r : RawDevice} {c0 c c' : Chip} {log : List RawSent} {got : List RawGot}
    (ho : RawOpened sched0 faults0 r c0) (hr : RawRun sched faults r c0 log got c) (queued : List (List U8))
    (hq : (c.socks 0).Frames queued) (fuel : Nat) (buf buf' : List U8) (k : Nat)
    (h : r.readFrame (Chip.dev sched faults).bus fuel (buf, c) = (.ok k, (buf', c'))) :
    (queued = [] ∧ RawGot.Nothing ⟨buf, k, buf'⟩) ∨
    ∃ f rest more, f :: rest = queued ++ more ∧ RawGot.Brings ⟨buf, k, buf'⟩ f ∧
      f.length + 2 < 65536 ∧ (c'.socks 0).packets = (c.socks 0).packets ∧
      ∃ later, (c'.socks 0).Frames (rest ++ later) ∧ (c'.socks 0).arrived = (c.socks 0).arrived ++ encFrames (more ++ later) := by
  obtain ⟨h1, A, h2, ps, fs, _, h3, h4⟩ := raw_inv ho hr
  have hi : RawIdle ((c0.socks 0).packets ++ ps) (A ++ encFrames fs) 16384 queued (c.socks 0) := by
    obtain ⟨⟨b1, b2, b3, b4, b5, _, b7⟩, g⟩ := h4
    exact ⟨⟨b1, b2, b3, b4, b5, ⟨[], by rw [List.append_nil]; exact hq⟩, b7⟩, g⟩
  have := (raw_readFrame (sched := sched) (faults := faults) (by decide) r (by rw [h1]) _ _ _ queued
      (c.socks 0).rxRdReg fuel buf).run (buf, c) ⟨rfl, hi, rfl⟩
  rw [h] at this
  rcases this with ⟨h5, h6, _⟩ | ⟨f, rest, more, h5, h9, h6, h7⟩
  · exact .inl ⟨h5, h6⟩
  · obtain ⟨later, h8⟩ := h7.busy.queue
    refine .inr ⟨f, rest, more, h5, h6, h9, by rw [h7.busy.base.out, hi.busy.base.out], later, h8, ?_⟩
    rw [h7.busy.core.arrived, hi.busy.core.arrived, h8.2, hq.2, encFrames_append, List.append_assoc _ (encodeFrame f),
      ← List.append_assoc (encodeFrame f), ← encFrames_cons, h5, encFrames_append, encFrames_append]
    simp only [List.append_assoc]

/-! ## C56 MACRAW receive never overruns -/

theorem readBuf_ok {B : Bus W E} {b : U8} {a : U16} {init d : List U8} {w w' : W}
    (h : B.readBuf b a init w = (.ok d, w')) : B.readFrame w b a init = (.ok (), d, w') := by
  unfold Bus.readBuf at h
  rcases hr : B.readFrame w b a init with ⟨_ | _ | _ | _, d', w1⟩ <;> rw [hr] at h <;> cases h
  rfl

/-- What a successful `read_frame` does, on any bus. `size` is the reported received size, `p` the read pointer, `hi`, `lo`
the two length bytes. -/
theorem C56 (B : Bus W E) (fuel : Nat) (r : RawDevice) (buf buf' : List U8) (w w' : W) (k : Nat)
    (h : r.readFrame B fuel (buf, w) = (.ok k, (buf', w'))) :
    ∃ size w1 x y p w2, ReadsTwice B r.rawSocket.register 0x26 fuel w size w1 ∧
      B.readFrame w1 r.rawSocket.register 0x28 [0, 0] = (.ok (), [x, y], w2) ∧ p = x.toNat * 256 + y.toNat ∧
      ((size = 0 ∧ k = 0 ∧ buf' = buf ∧ w' = w2) ∨
       ∃ hi lo w3 exp w4 w5, 2 ≤ size ∧
        B.readFrame w2 r.rawSocket.rxBuffer (BitVec.ofNat 16 p) [0, 0] = (.ok (), [hi, lo], w3) ∧
        exp = hi.toNat * 256 + lo.toNat - 2 ∧ k = min (size - 2) (min buf.length exp) ∧
        ((min buf.length exp = 0 ∧ buf' = buf ∧ w4 = w3) ∨
          ∃ bytes, B.readFrame w3 r.rawSocket.rxBuffer (BitVec.ofNat 16 (p + 2)) (buf.take k) = (.ok (), bytes, w4) ∧
            buf' = bytes ++ buf.drop k) ∧
        2 + min (size - 2) exp ≤ size ∧
        B.writeFrame w4 r.rawSocket.register 0x28 (be ((p + (2 + min (size - 2) exp)) % 65536)) = (.ok (), w5) ∧
        B.writeFrame w5 r.rawSocket.register 0x01 [0x40] = (.ok (), w')) := by
  rw [readFrame_split] at h
  simp only [M.bind_eq_ok, M.onSnd_eq_ok] at h
  obtain ⟨o, ⟨b1, w3⟩, ⟨hh, rfl⟩, h⟩ := h
  unfold rawHead at hh
  simp only [M.bind_eq_ok] at hh
  obtain ⟨size, w1, h1, p, w2, h2, hh⟩ := hh
  have hp := h2
  unfold Socket.getRxReadPointer at hp
  rw [Bus.read2_eq_ok] at hp
  obtain ⟨x, y, h3, rfl⟩ := hp
  refine ⟨size.toNat, w1, x, y, _, w2, receiveSize_iff.mp h1, h3, rfl, ?_⟩
  split at hh
  · rename_i hz
    rw [M.pure_eq_ok] at hh
    obtain ⟨rfl, rfl⟩ := hh
    dsimp only at h
    rw [M.pure_eq_ok] at h
    simp only [Prod.mk.injEq] at h
    obtain ⟨rfl, rfl, rfl⟩ := h
    subst hz
    exact .inl ⟨rfl, rfl, rfl, rfl⟩
  · rename_i hz
    right
    have hs0 : size.toNat ≠ 0 := fun e => hz (BitVec.eq_of_toNat_eq e)
    rw [M.bind_eq_ok] at hh
    obtain ⟨hdr, w3', h4, hh⟩ := hh
    replace h4 := readBuf_ok h4
    have hl := B.read_length w2 r.rawSocket.rxBuffer (fromBeBytes x y) (List.replicate (min size.toNat 2) 0)
    rw [h4, List.length_replicate] at hl
    dsimp only at hl
    split at hh
    · rename_i hi lo
      have h2s : min size.toNat 2 = 2 := hl.symm
      rw [M.pure_eq_ok] at hh
      obtain ⟨rfl, rfl⟩ := hh
      dsimp only at h
      unfold rawTail at h
      simp only [M.bind_eq_ok, M.onSnd_eq_ok, M.pure_eq_ok] at h
      obtain ⟨_, ⟨b4, w4⟩, h5, _, ⟨b5, w5⟩, ⟨h6, rfl⟩, _, ⟨b6, w6⟩, ⟨h7, rfl⟩, rfl, h8⟩ := h
      obtain ⟨rfl, rfl⟩ := Prod.mk.injEq .. ▸ h8
      rw [h2s] at h4
      have hpn : ∀ j, fromBeBytes x y + BitVec.ofNat 16 j = BitVec.ofNat 16 (x.toNat * 256 + y.toNat + j) := by
        intro j
        apply BitVec.eq_of_toNat_eq
        rw [BitVec.toNat_add, fromBeBytes_toNat, BitVec.toNat_ofNat, BitVec.toNat_ofNat]
        omega
      have h0 := hpn 0
      rw [BitVec.add_zero, Nat.add_zero] at h0
      refine ⟨hi, lo, _, _, w4, w5, by omega, by rw [← h0]; exact h4, rfl, rfl, ?_, by omega, ?_, h7⟩
      · split at h5
        · rename_i hc
          rw [M.pure_eq_ok] at h5
          obtain ⟨_, h5⟩ := h5
          obtain ⟨rfl, rfl⟩ := Prod.mk.injEq .. ▸ h5
          exact .inl ⟨hc, rfl, rfl⟩
        · right
          rw [M.withPrefix_eq_ok] at h5
          obtain ⟨_, bytes, h5, hb⟩ := h5
          refine ⟨bytes, ?_, hb⟩
          rw [← hpn 2]
          exact h5
      · have : be ((x.toNat * 256 + y.toNat + (2 + min (size.toNat - 2) (hi.toNat * 256 + lo.toNat - 2))) % 65536) =
            toBeBytes (fromBeBytes x y + BitVec.ofNat 16 (2 + min (size.toNat - 2) (hi.toNat * 256 + lo.toNat - 2))) := by
          rw [toBeBytes_eq_be, hpn, BitVec.toNat_ofNat]
        rw [this]
        exact h6
    · cases hh

/-- The length of the caller's buffer does not change. -/
def Sized {ε α : Type} (m : M (List U8 × W) ε α) : Prop := ∀ s, (m s).2.1.length = s.1.length

theorem Sized.bind {ε α β : Type} {m : M (List U8 × W) ε α} {f : α → M (List U8 × W) ε β} (h : Sized m)
    (hf : ∀ a, Sized (f a)) : Sized (m >>= f) := by
  intro s
  have := h s
  rw [M.bind_def]
  rcases hm : m s with ⟨_ | _ | _ | _, t⟩ <;> rw [hm] at this
  · exact (hf _ t).trans this
  all_goals exact this

theorem Sized.onSnd {ε α : Type} (m : M W ε α) : Sized (M.onSnd m) := fun _ => rfl
theorem Sized.pure {ε α : Type} (a : α) : Sized (Pure.pure a : M (List U8 × W) ε α) := fun _ => rfl

theorem Sized.withPrefix {ε α : Type} {m : M (List U8 × W) ε α} (n : Nat) (h : Sized m) : Sized (M.withPrefix n m) := by
  intro s
  obtain ⟨b, w⟩ := s
  rw [withPrefix_apply]
  split
  · have := h (b.take n, w)
    rw [List.length_take] at this
    show List.length (_ ++ _) = _
    rw [List.length_append, List.length_drop, this]
    dsimp only
    omega
  · rfl

/-- C56, however the call ends: the buffer keeps its length. -/
theorem C56_length (B : Bus W E) (fuel : Nat) (r : RawDevice) (buf : List U8) (w : W) :
    (r.readFrame B fuel (buf, w)).2.1.length = buf.length := by
  rw [readFrame_split]
  refine Sized.bind (.onSnd _) (fun x => ?_) (buf, w)
  cases x with
  | none => exact .pure _
  | some x =>
    refine .bind ?_ fun _ => .bind (.onSnd _) fun _ => .bind (.onSnd _) fun _ => .pure _
    split
    · exact .pure _
    · exact .withPrefix _ fun s => B.read_length s.2 _ _ s.1

/-- C56, the buffer: the returned count is at most its length, and bytes beyond the count are unchanged. -/
theorem C56_buffer (B : Bus W E) (fuel : Nat) (r : RawDevice) (buf buf' : List U8) (w w' : W) (k : Nat)
    (h : r.readFrame B fuel (buf, w) = (.ok k, (buf', w'))) :
    k ≤ buf.length ∧ buf'.length = buf.length ∧ buf'.drop k = buf.drop k := by
  have hl := C56_length B fuel r buf w
  rw [h] at hl
  obtain ⟨size, w1, x, y, p, w2, _, _, _, ⟨_, rfl, rfl, _⟩ | ⟨hi, lo, w3, exp, w4, w5, _, _, _, rfl, hd, _⟩⟩ :=
    C56 B fuel r buf buf' w w' k h
  · exact ⟨Nat.zero_le _, rfl, rfl⟩
  · refine ⟨by omega, hl, ?_⟩
    rcases hd with ⟨_, rfl, _⟩ | ⟨bytes, hr, rfl⟩
    · rfl
    · have := B.read_length w3 r.rawSocket.rxBuffer (BitVec.ofNat 16 (p + 2)) (buf.take (min (size - 2) (min buf.length exp)))
      rw [hr, List.length_take] at this
      dsimp only at this
      rw [List.drop_left' (by omega)]

theorem readFrame_panic (B : Bus W E) (hB : Calm B) (fuel : Nat) (r : RawDevice) (buf buf' : List U8) (w w' : W) :
    r.readFrame B fuel (buf, w) = (.panic, (buf', w')) ↔
      ∃ w1 x y w2 b, r.rawSocket.getReceiveSize B fuel w = (.ok 1, w1) ∧
        B.readFrame w1 r.rawSocket.register 0x28 [0, 0] = (.ok (), [x, y], w2) ∧
        B.readFrame w2 r.rawSocket.rxBuffer (BitVec.ofNat 16 (x.toNat * 256 + y.toNat)) [0] = (.ok (), [b], w') ∧ buf' = buf := by
  have hp : ∀ x y : U8, BitVec.ofNat 16 (x.toNat * 256 + y.toNat) = fromBeBytes x y := by
    intro x y
    apply BitVec.eq_of_toNat_eq
    have := x.isLt
    have := y.isLt
    rw [fromBeBytes_toNat, BitVec.toNat_ofNat]
    omega
  rw [readFrame_split]
  constructor
  · intro h
    rcases M.bind_eq_panic.mp h with h | ⟨o, ⟨b1, w3⟩, h1, h2⟩
    · rw [M.onSnd_apply] at h
      simp only [Prod.mk.injEq] at h
      obtain ⟨ha, rfl, hw⟩ := h
      have h := Prod.ext (x := rawHead B fuel r.rawSocket w) (y := (.panic, w')) ha hw
      unfold rawHead at h
      rcases M.bind_eq_panic.mp h with h | ⟨size, w1, h1, h⟩
      · exact absurd (congrArg Prod.fst h) ((np_receiveSize hB _ _).run _)
      rcases M.bind_eq_panic.mp h with h | ⟨p, w2, h2, h⟩
      · exact absurd (congrArg Prod.fst h) ((NoPanic.read2 hB _ _).run _)
      split at h
      · cases h
      rename_i hz
      rcases M.bind_eq_panic.mp h with h | ⟨hdr, w3, h3, h⟩
      · exact absurd (congrArg Prod.fst h) ((NoPanic.readBuf hB _ _ _).run _)
      have h3 := readBuf_ok h3
      have hl := B.read_length w2 r.rawSocket.rxBuffer p (List.replicate (min size.toNat 2) 0)
      rw [h3, List.length_replicate] at hl
      dsimp only at hl
      have hs0 : size.toNat ≠ 0 := fun e => hz (BitVec.eq_of_toNat_eq e)
      split at h
      · cases h
      · rename_i hne
        cases h
        unfold Socket.getRxReadPointer at h2
        obtain ⟨x, y, h2', rfl⟩ := Bus.read2_eq_ok.mp h2
        have hs1 : size.toNat = 1 := by
          match hdr, hl with
          | [_], hl => simp only [List.length_singleton] at hl; omega
          | [a, b], _ => exact absurd rfl (hne a b)
          | [], hl => simp only [List.length_nil] at hl; omega
          | _ :: _ :: _ :: _, hl => simp only [List.length_cons] at hl; omega
        obtain rfl : size = 1 := BitVec.eq_of_toNat_eq hs1
        match hdr, hl with
        | [b], _ => exact ⟨w1, x, y, w2, b, h1, h2', by rw [hp]; exact h3, rfl⟩
    · cases o with
      | none => cases h2
      | some o =>
        exfalso
        obtain ⟨p, av, ex⟩ := o
        rw [M.onSnd_eq_ok] at h1
        obtain ⟨_, rfl⟩ := h1
        have : Fits buf.length (rawTail B r.rawSocket buf.length p av ex) := by
          unfold rawTail Socket.setRxReadPointer Socket.command
          refine .bind ?_ fun _ => .bind (.onSnd (.write hB _ _ _)) fun _ => .bind (.onSnd (.write hB _ _ _)) fun _ => .pure _
          split
          · exact .pure _
          · exact .withPrefix (by omega) (.readSlice hB _ _)
        exact (this.run (buf, w3) rfl).1 (congrArg Prod.fst h2)
  · rintro ⟨w1, x, y, w2, b, h1, h2, h3, rfl⟩
    have hb : B.readBuf r.rawSocket.rxBuffer (fromBeBytes x y) [0] w2 = (.ok [b], w') := by
      unfold Bus.readBuf
      rw [← hp, h3]
    have hr : r.rawSocket.getRxReadPointer B w1 = (.ok (fromBeBytes x y), w2) := Bus.read2_eq_ok.mpr ⟨x, y, h2, rfl⟩
    have : rawHead B fuel r.rawSocket w = (.panic, w') := by
      unfold rawHead
      rw [M.bind_ok h1, M.bind_ok hr, if_neg (by decide)]
      exact M.bind_ok hb
    rw [M.bind_def, M.onSnd_apply, this]

/-- C56, panics: on a bus that does not panic, `read_frame` panics iff the reported received size is exactly 1 (and the
reads up to there succeed). The buffer is then as before. -/
theorem C56_panic (B : Bus W E) (hB : Calm B) (fuel : Nat) (r : RawDevice) (buf buf' : List U8) (w w' : W) :
    r.readFrame B fuel (buf, w) = (.panic, (buf', w')) ↔
      ∃ w1 x y w2 b, ReadsTwice B r.rawSocket.register 0x26 fuel w 1 w1 ∧
        B.readFrame w1 r.rawSocket.register 0x28 [0, 0] = (.ok (), [x, y], w2) ∧
        B.readFrame w2 r.rawSocket.rxBuffer (BitVec.ofNat 16 (x.toNat * 256 + y.toNat)) [0] = (.ok (), [b], w') ∧ buf' = buf := by
  rw [readFrame_panic B hB]
  simp only [receiveSize_iff]
  rfl

/-! ## C57 MACRAW send is all or nothing -/

theorem waitSendOk_ok {B : Bus W E} {s : Socket} {fuel : Nat} {w w' : W}
    (h : RawDevice.waitSendOk B s fuel w = (.ok (), w')) :
    ∃ ys w1 y, Polls B s.register 0x02 w ys w1 ∧ (∀ z ∈ ys, z &&& 0x10 = 0) ∧
      B.readFrame w1 s.register 0x02 [0] = (.ok (), [y], w') ∧ y &&& 0x10 ≠ 0 := by
  induction fuel generalizing w with
  | zero => cases h
  | succ k ih =>
    unfold RawDevice.waitSendOk Socket.hasInterrupt at h
    simp only [M.bind_eq_ok, Bus.read1_eq_ok, M.pure_eq_ok] at h
    obtain ⟨b, w1, ⟨y, w2, h1, rfl, rfl⟩, h⟩ := h
    split at h
    · rename_i hb
      cases h
      exact ⟨[], w, y, .nil _, nofun, h1, of_decide_eq_true hb⟩
    · rename_i hb
      obtain ⟨ys, w3, z, h2, h3, h4⟩ := ih h
      refine ⟨y :: ys, w3, z, .cons h1 h2, ?_, h4⟩
      intro x hx
      rcases List.mem_cons.mp hx with rfl | hx
      · by_cases hy : x &&& 0x10 = 0
        · exact hy
        · exact absurd (decide_eq_true hy) hb
      · exact h3 x hx

/-- C57 on any bus: what a successful `write_frame` does. `f` is the reported free size, `p` the write pointer. Either the
whole frame is written at `p` and the pointer advanced by its length, which is returned; or nothing is written to the TX
buffer, the pointer keeps its value, and 0 is returned. In both cases SEND follows, and the SENDOK flag (cleared before)
is awaited. -/
theorem C57_bus (B : Bus W E) (fuel : Nat) (r : RawDevice) (frame : List U8) (w w' : W) (k : Nat)
    (h : r.writeFrame B fuel frame w = (.ok k, w')) :
    ∃ w1 f1 f2 f w2 p1 p2 p w3 w4 w5 w6 ys w7 y,
      B.writeFrame w r.rawSocket.register 0x02 [0x10] = (.ok (), w1) ∧
      B.readFrame w1 r.rawSocket.register 0x20 [0, 0] = (.ok (), [f1, f2], w2) ∧ f = f1.toNat * 256 + f2.toNat ∧
      B.readFrame w2 r.rawSocket.register 0x24 [0, 0] = (.ok (), [p1, p2], w3) ∧ p = p1.toNat * 256 + p2.toNat ∧
      ((frame ≠ [] ∧ frame.length ≤ f ∧ k = frame.length ∧
          B.writeFrame w3 r.rawSocket.txBuffer (BitVec.ofNat 16 p) frame = (.ok (), w4)) ∨
        ((frame = [] ∨ f < frame.length) ∧ k = 0 ∧ w4 = w3)) ∧
      B.writeFrame w4 r.rawSocket.register 0x24 (be ((p + k) % 65536)) = (.ok (), w5) ∧
      B.writeFrame w5 r.rawSocket.register 0x01 [0x20] = (.ok (), w6) ∧
      Polls B r.rawSocket.register 0x02 w6 ys w7 ∧ (∀ z ∈ ys, z &&& 0x10 = 0) ∧
      B.readFrame w7 r.rawSocket.register 0x02 [0] = (.ok (), [y], w') ∧ y &&& 0x10 ≠ 0 := by
  unfold RawDevice.writeFrame Socket.resetInterrupt TxCursor.new Socket.getTxFreeSize Socket.getTxWritePointer at h
  simp only [M.bind_eq_ok, Bus.read2_eq_ok, M.pure_eq_ok, Bus.write_apply] at h
  obtain ⟨_, w1, h1, _, _, ⟨fs, w2, ⟨f1, f2, h2, rfl⟩, p, w3, ⟨p1, p2, h3, rfl⟩, rfl, rfl⟩, ⟨cnt, cur⟩, w4, h4, h⟩ := h
  unfold TxCursor.commit Socket.setTxWritePointer Socket.command at h
  simp only [M.bind_eq_ok, Bus.write_apply] at h
  obtain ⟨_, w6, ⟨_, w5, h5, h6⟩, _, _, h7, rfl, rfl⟩ := h
  obtain ⟨ys, w7, y, h8, h9, h10, h11⟩ := waitSendOk_ok h7
  have hpn : ∀ j, fromBeBytes p1 p2 + BitVec.ofNat 16 j = BitVec.ofNat 16 (p1.toNat * 256 + p2.toNat + j) := by
    intro j
    apply BitVec.eq_of_toNat_eq
    rw [BitVec.toNat_add, fromBeBytes_toNat, BitVec.toNat_ofNat, BitVec.toNat_ofNat]
    omega
  have h0 := hpn 0
  rw [BitVec.add_zero, Nat.add_zero] at h0
  refine ⟨w1, f1, f2, _, w2, p1, p2, _, w3, w4, w5, w6, ys, w7, y, h1, h2, rfl, h3, rfl, ?_⟩
  unfold TxCursor.write TxCursor.available at h4
  split at h4
  · rename_i hc
    cases h4
    refine ⟨.inr ⟨?_, rfl, rfl⟩, ?_, h6, h8, h9, h10, h11⟩
    · rw [Bool.or_eq_true] at hc
      rcases hc with hc | hc
      · exact .inl (List.isEmpty_iff.mp hc)
      · right
        have := of_decide_eq_true hc
        rw [fromBeBytes_toNat] at this
        exact this
    · show B.writeFrame w3 _ _ (be ((_ + 0) % 65536)) = _
      rw [Nat.add_zero]
      have : be ((p1.toNat * 256 + p2.toNat) % 65536) = toBeBytes (fromBeBytes p1 p2) := by
        rw [toBeBytes_eq_be, h0, BitVec.toNat_ofNat]
      rw [this]
      exact h5
  · rename_i hc
    rw [Bool.or_eq_true, not_or] at hc
    have hlen : frame.length ≤ f1.toNat * 256 + f2.toNat := by
      have := hc.2
      rw [decide_eq_true_eq, fromBeBytes_toNat] at this
      omega
    have hcnt : (BitVec.ofNat 16 frame.length).toNat = frame.length := by
      have := f1.isLt
      have := f2.isLt
      rw [BitVec.toNat_ofNat]
      omega
    simp only [M.bind_eq_ok, M.sliceTo_eq_ok, M.pure_eq_ok, Bus.write_apply, Prod.mk.injEq] at h4
    obtain ⟨_, _, ⟨_, rfl, rfl⟩, _, w4', hw, ⟨rfl, rfl⟩, rfl⟩ := h4
    rw [hcnt, List.take_length, h0] at hw
    refine ⟨.inl ⟨fun e => hc.1 (List.isEmpty_iff.mpr e), hlen, hcnt, hw⟩, ?_, h6, h8, h9, h10, h11⟩
    have : be ((p1.toNat * 256 + p2.toNat + (BitVec.ofNat 16 frame.length).toNat) % 65536) =
        toBeBytes (fromBeBytes p1 p2 + BitVec.ofNat 16 frame.length) := by
      rw [hcnt, toBeBytes_eq_be, hpn, BitVec.toNat_ofNat (x := _ + _)]
    rw [this]
    exact h5

/-- C57 on the chip: `write_frame` returns only the frame length, and then exactly that frame has been transmitted during
the call, and it got out. -/
theorem C57_chip {r : RawDevice} {c0 c c' : Chip} {log : List RawSent} {got : List RawGot}
    (ho : RawOpened sched0 faults0 r c0) (hr : RawRun sched faults r c0 log got c) (fuel : Nat) (frame : List U8) (k : Nat)
    (h : r.writeFrame (Chip.dev sched faults).bus fuel frame c = (.ok k, c')) :
    k = frame.length ∧ frame ≠ [] ∧ frame.length ≤ 16384 ∧
      ∃ ip port, (c'.socks 0).packets = (c.socks 0).packets ++ [⟨ip, port, frame, true⟩] := by
  obtain ⟨h1, A, h2, ps, fs, _, h3, h4⟩ := raw_inv ho hr
  obtain ⟨⟨h5, h6, h7⟩, ip, port, h8⟩ := (raw_writeFrame (sched := sched) (faults := faults) (by decide) r (by rw [h1])
    _ _ _ [] fuel frame).ok h4 h
  refine ⟨h5, h6, h7, ip, port, ?_⟩
  rw [h8.busy.base.out, h4.busy.base.out]

/-- C57, failures on the chip: however the call ends, at most one packet has been transmitted, and it is this frame, which
is not empty and fits into the buffer. -/
theorem C57_failed {r : RawDevice} {c0 c c' : Chip} {log : List RawSent} {got : List RawGot}
    (ho : RawOpened sched0 faults0 r c0) (hr : RawRun sched faults r c0 log got c) (fuel : Nat) (frame : List U8)
    (x : Res E Nat) (h : r.writeFrame (Chip.dev sched faults).bus fuel frame c = (x, c')) :
    ∃ ps, (c'.socks 0).packets = (c.socks 0).packets ++ ps ∧ (ps = [] ∨
      (0 < frame.length ∧ frame.length ≤ 16384) ∧ ∃ ip port b, ps = [⟨ip, port, frame, b⟩]) := by
  obtain ⟨h1, A, h2, ps, fs, _, h3, h4⟩ := raw_inv ho hr
  have := (raw_writeFrame (sched := sched) (faults := faults) (by decide) r (by rw [h1]) _ _ _ [] fuel frame).run c h4
  rw [h] at this
  have ended : RawEnded ((c0.socks 0).packets ++ ps) frame (A ++ encFrames fs) 16384 [] (c'.socks 0) →
      ∃ ps, (c'.socks 0).packets = (c.socks 0).packets ++ ps ∧ (ps = [] ∨
      (0 < frame.length ∧ frame.length ≤ 16384) ∧ ∃ ip port b, ps = [⟨ip, port, frame, b⟩]) := by
    rintro ⟨qs, h5, h6, _⟩
    exact ⟨qs, by rw [h6, h4.busy.base.out], h5⟩
  cases x with
  | ok k =>
    obtain ⟨⟨_, h6, h7⟩, ip, port, h8⟩ := this
    exact ⟨_, by rw [h8.busy.base.out, h4.busy.base.out], .inr ⟨⟨List.length_pos_iff.mpr h6, h7⟩, ip, port, true, rfl⟩⟩
  | err e => exact ended this
  | panic => exact ended this
  | fuel => exact ended this

/-- C57 over a whole history: the packets transmitted since the device was opened are, call by call, the frames given to
`write_frame`; one delivered packet for each successful call, at most one for a failed call. -/
theorem C57_history {r : RawDevice} {c0 c : Chip} {log : List RawSent} {got : List RawGot}
    (ho : RawOpened sched0 faults0 r c0) (hr : RawRun sched faults r c0 log got c) :
    ∃ ps, RawSent.All log ps ∧ (c.socks 0).packets = (c0.socks 0).packets ++ ps := by
  obtain ⟨_, A, _, ps, fs, h1, _, h4⟩ := raw_inv ho hr
  exact ⟨ps, h1, h4.busy.base.out⟩

/-! ## C58 MACRAW send of an oversized frame is harmless -/

/-- C58, partial: a frame larger than the TX buffer is never transmitted, however the call ends. Missing: the call does not
return 0; it issues SEND and never returns `Ok`, see `C58_never_ok`, `C58_refuted`. -/
theorem C58_partial {r : RawDevice} {c0 c c' : Chip} {log : List RawSent} {got : List RawGot}
    (ho : RawOpened sched0 faults0 r c0) (hr : RawRun sched faults r c0 log got c) (fuel : Nat) (frame : List U8)
    (hf : 16384 < frame.length) (x : Res E Nat) (h : r.writeFrame (Chip.dev sched faults).bus fuel frame c = (x, c')) :
    (c'.socks 0).packets = (c.socks 0).packets := by
  obtain ⟨ps, h1, rfl | ⟨h2, _⟩⟩ := C57_failed ho hr fuel frame x h
  · rw [h1, List.append_nil]
  · omega

/-- C58 is false: for an empty frame, and for one larger than the TX buffer, `write_frame` never returns `Ok`, whatever
happens on the chip and on the wire. -/
theorem C58_never_ok {r : RawDevice} {c0 c c' : Chip} {log : List RawSent} {got : List RawGot}
    (ho : RawOpened sched0 faults0 r c0) (hr : RawRun sched faults r c0 log got c) (fuel : Nat) (frame : List U8)
    (hf : frame = [] ∨ 16384 < frame.length) (k : Nat) :
    r.writeFrame (Chip.dev sched faults).bus fuel frame c ≠ (.ok k, c') := by
  intro h
  obtain ⟨_, h1, h2, _⟩ := C57_chip ho hr fuel frame k h
  rcases hf with hf | hf
  · exact h1 hf
  · omega

/-- C58 is false: if the wire is without faults, such a call does not return at all: it is still waiting after any number
of polls of the interrupt register. -/
theorem C58_refuted {r : RawDevice} {c0 c : Chip} {log : List RawSent} {got : List RawGot}
    (ho : RawOpened sched0 faults0 r c0) (hr : RawRun sched faults r c0 log got c) (hw : ∀ i, faults i = none) (fuel : Nat)
    (frame : List U8) (hf : frame = [] ∨ 16384 < frame.length) :
    (r.writeFrame (Chip.dev sched faults).bus fuel frame c).1 = .fuel := by
  have h1 := C58_never_ok (c' := (r.writeFrame (Chip.dev sched faults).bus fuel frame c).2) ho hr fuel frame hf
  have h2 := (np_rawWrite (calm_bus (Chip.dev sched faults)) r fuel frame).run c
  have h3 := (noerr_rawWrite (faultless_chip (sched := sched) hw) r fuel frame).run c
  generalize r.writeFrame (Chip.dev sched faults).bus fuel frame c = x at h1 h2 h3
  obtain ⟨_ | _ | _ | _, c'⟩ := x
  · exact absurd rfl (h1 _)
  · exact (h3 _ rfl).elim
  · exact absurd rfl h2
  · rfl

/-! ## Concrete runs -/

/-- Two frames have arrived when `RawDevice::new` returns; whatever is sent gets out at once. -/
def frameSched (k : Nat) : List (Nat × Act) :=
  (if k = 18 then [(0, .frame [1, 2, 3, 4]), (0, .frame [5, 6])] else []) ++ [(0, .emit true), (0, .raise 0x10)]

def rawDemo : RawDevice := ⟨Socket.new 0⟩
/-- The chip after `RawDevice::new`. -/
def rawChip (faults : Nat → Option (Unit × Nat)) : Chip := (RawDevice.new (Chip.dev frameSched faults).bus Chip.powerUp).2
def rawRead (faults : Nat → Option (Unit × Nat)) (buf : List U8) (c : Chip) : Res Unit Nat × List U8 × Chip :=
  rawDemo.readFrame (Chip.dev frameSched faults).bus 9 (buf, c)

theorem rawDemo_opened : RawOpened frameSched noFaults rawDemo (rawChip noFaults) := .new (run_eq (by decide +kernel))

/-- C55, C57: three reads into a buffer of three bytes bring the first frame, cut off, the second frame, and nothing; then
a frame is sent. -/
example : ∃ c, RawRun frameSched noFaults rawDemo (rawChip noFaults) [⟨[7, 8], true⟩]
    [⟨[0, 0, 0], 3, [1, 2, 3]⟩, ⟨[0, 0, 0], 2, [5, 6, 0]⟩, ⟨[0, 0, 0], 0, [0, 0, 0]⟩] c ∧
    (c.socks 0).packets.map (·.data) = [[7, 8]] := by
  have h1 := RawRun.readFrame (c1 := rawChip noFaults) 9 [0, 0, 0] [1, 2, 3] 3 .start
    (run_eq' (r := rawRead noFaults [0, 0, 0] (rawChip noFaults)) (by decide +kernel) (by decide +kernel))
  have h2 := RawRun.readFrame 9 [0, 0, 0] [5, 6, 0] 2 h1
    (run_eq' (r := rawRead noFaults [0, 0, 0] _) (by decide +kernel) (by decide +kernel))
  have h3 := RawRun.readFrame 9 [0, 0, 0] [0, 0, 0] 0 h2
    (run_eq' (r := rawRead noFaults [0, 0, 0] _) (by decide +kernel) (by decide +kernel))
  have h4 := RawRun.writeFrame 9 [7, 8] 2 h3
    (run_eq (r := rawDemo.writeFrame (Chip.dev frameSched noFaults).bus 9 [7, 8] _) (by decide +kernel))
  exact ⟨_, h4, by decide +kernel⟩

/-- The condition on failed reads in `RawRun` is needed: if the transfer of the RECV command fails, Sn_RX_RD has been
advanced already, the error is returned, and the next call brings the second frame. The first one is lost. -/
example :
    let r1 := rawRead (faultAt 24) [0, 0, 0, 0] (rawChip (faultAt 24))
    let r2 := rawRead (faultAt 24) [0, 0, 0, 0] r1.2.2
    r1.1 = .err () ∧ r2.1 = .ok 2 ∧ r2.2.1 = [5, 6, 0, 0] ∧
      (r1.2.2.socks 0).rxRdReg ≠ ((rawChip (faultAt 24)).socks 0).rxRdReg := by
  decide +kernel

/-- Whereas a failure while the frame is being read loses nothing. -/
example :
    let r1 := rawRead (faultAt 22) [0, 0, 0, 0] (rawChip (faultAt 22))
    let r2 := rawRead (faultAt 22) [0, 0, 0, 0] r1.2.2
    r1.1 = .err () ∧ r2.1 = .ok 4 ∧ r2.2.1 = [1, 2, 3, 4] ∧
      (r1.2.2.socks 0).rxRdReg = ((rawChip (faultAt 22)).socks 0).rxRdReg := by
  decide +kernel

/-- A bus on which every register and buffer byte reads as given by its address. -/
def romBus (rom : U16 → U8) : Bus Unit Unit where
  readFrame _ _ a init := (.ok (), (List.range init.length).map (fun i => rom (a + BitVec.ofNat 16 i)), ())
  writeFrame _ _ _ _ := (.ok (), ())
  read_length _ _ _ init := by simp

/-- C56 with a nonsensical chip: 5 bytes are reported, the length bytes say 0x0909, the buffer holds 4 bytes; 3 are
stored. -/
example : rawDemo.readFrame (romBus fun a => if a = 0x26 then 0 else if a = 0x27 then 5 else 9) 9
    ([1, 1, 1, 1], ()) = (.ok 3, ([9, 9, 9, 1], ())) := by
  decide +kernel

/-- C56: one reported byte, and the call panics. -/
example : (rawDemo.readFrame (romBus fun a => if a = 0x27 then 1 else 0) 9 ([1, 1, 1, 1], ())).1 = .panic := by
  decide +kernel

/-- C58: an empty frame; the call does not return. -/
example : (rawDemo.writeFrame (Chip.dev frameSched noFaults).bus 50 [] (rawChip noFaults)).1 = .fuel :=
  C58_refuted rawDemo_opened .start (fun _ => rfl) _ _ (.inl rfl)

/-- C58: an oversized frame; the call does not return. -/
example : (rawDemo.writeFrame (Chip.dev frameSched noFaults).bus 50 (List.replicate 20000 0) (rawChip noFaults)).1 = .fuel :=
  C58_refuted rawDemo_opened .start (fun _ => rfl) _ _ (.inr (by rw [List.length_replicate]; decide))

end W5500.Props
