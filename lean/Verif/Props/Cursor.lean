import Verif.Spec.Cursor
import Verif.Spec.Accessors
import Verif.Proofs.ChipUdpRx
import Verif.Proofs.AccessDev
import Verif.Props.Tcp
/-! # C101: the ring buffer cursors -/

namespace W5500.Props
open W5500 W5500.Spec W5500.Spec.Sock socketn
variable {W E : Type} {sched : Nat → List (Nat × Act)} {faults : Nat → Option (E × Nat)}

/-! ## Any bus -/

theorem minU16_val (a b : U16) : (minU16 a b).toNat = min a.toNat b.toNat := by
  unfold minU16
  split <;> omega

/-- A cursor moved on by `k`. -/
def RxCursor.past (c : RxCursor) (k : Nat) : RxCursor :=
  { c with ptr := c.ptr + BitVec.ofNat 16 k, size := c.size - BitVec.ofNat 16 k }

theorem skip_eq (c : RxCursor) (n : U16) {k : Nat} (h : k = min n.toNat c.size.toNat) :
    c.skip n = (BitVec.ofNat 16 k, RxCursor.past c k) := by
  have : minU16 c.size n = BitVec.ofNat 16 k := by
    apply BitVec.eq_of_toNat_eq
    rw [minU16_val, BitVec.toNat_ofNat, h]
    have := n.isLt
    omega
  show (minU16 c.size n, ({ c with ptr := c.ptr + minU16 c.size n, size := c.size - minU16 c.size n } : RxCursor)) = _
  rw [this]
  rfl

theorem read_eq (B : Bus W E) (c : RxCursor) (b : List U8) (hb : b.length < 65536) (w : W) :
    c.read B (b, w) =
      if b = [] then (.ok (0, c), (b, w))
      else
        let k := min b.length c.size.toNat
        let r := B.readFrame w c.sock.rxBuffer c.ptr (b.take k)
        ((oneTransfer r.1 (BitVec.ofNat 16 k, RxCursor.past c k) r.2.2).1, (r.2.1 ++ b.drop k, r.2.2)) := by
  unfold RxCursor.read
  rw [M.bind_def]
  simp only [M.get]
  cases b with
  | nil => rfl
  | cons x t =>
  rw [if_neg (by simp), if_neg (by simp)]
  have hc : (minU16 c.available (BitVec.ofNat 16 (x :: t).length)).toNat = min (x :: t).length c.size.toNat := by
    rw [minU16_val, BitVec.toNat_ofNat]
    show min c.size.toNat _ = _
    omega
  rw [skip_eq c _ (k := min (x :: t).length c.size.toNat) (by rw [hc]; omega), M.bind_def]
  simp only [M.withPrefix, hc]
  rw [if_pos (by omega)]
  simp only [Bus.readSlice]
  generalize B.readFrame w c.sock.rxBuffer c.ptr _ = r
  obtain ⟨_ | _ | _ | _, d, w'⟩ := r <;> rfl

theorem withLocal_one {b : List U8} {m : M (List U8 × W) E (U16 × RxCursor)} {w : W} {r : Res E Unit × List U8 × W} {x : U16 × RxCursor}
    {t : List U8} (h : m (b, w) = ((oneTransfer r.1 x r.2.2).1, (r.2.1 ++ t, r.2.2))) :
    M.withLocal b m w = oneTransfer r.1 (x, r.2.1 ++ t) r.2.2 := by
  unfold M.withLocal
  rw [h]
  obtain ⟨_ | _ | _ | _, d, w'⟩ := r <;> rfl

/-- C101: `skip` takes as many bytes as asked for, or all there are, and moves the cursor past them. -/
theorem C101_skip (B : Bus W E) (c : RxCursor) (n : U16) (w : W) :
    let k := min n.toNat c.size.toNat
    (RxOp.skip n).run B c w =
      (.ok ((BitVec.ofNat 16 k, { c with ptr := c.ptr + BitVec.ofNat 16 k, size := c.size - BitVec.ofNat 16 k }), []), w) := by
  show (Res.ok (c.skip n, []), w) = _
  rw [skip_eq c n rfl]
  rfl

/-- C101: `read` takes as many bytes as the buffer holds, or all there are; it fetches them with one transfer, from where the
cursor is, to the beginning of the buffer, and moves the cursor past them. It makes no transfer for an empty buffer.
Missing: buffers of 65536 bytes and more, for which it does not do so, see `C101_refuted`. -/
theorem C101_read_partial (B : Bus W E) (c : RxCursor) (b : List U8) (hb : b.length < 65536) (w : W) :
    let k := min b.length c.size.toNat
    let r := B.readFrame w c.sock.rxBuffer c.ptr (b.take k)
    (RxOp.read b).run B c w =
      if b.length = 0 then (.ok ((0, c), b), w)
      else oneTransfer r.1 ((BitVec.ofNat 16 k,
        { c with ptr := c.ptr + BitVec.ofNat 16 k, size := c.size - BitVec.ofNat 16 k }), r.2.1 ++ b.drop k) r.2.2 := by
  intro k r
  have h := read_eq B c b hb w
  split
  · rename_i h0
    rw [if_pos (List.length_eq_zero_iff.mp h0)] at h
    show M.withLocal b (c.read B) w = _
    unfold M.withLocal
    rw [h]
  · rename_i h0
    rw [if_neg (fun e => h0 (by rw [e]; rfl))] at h
    exact withLocal_one h

/-- C101: `read_upto` does the same for the first `max` bytes of the buffer, whatever its length. -/
theorem C101_read_upto (B : Bus W E) (c : RxCursor) (b : List U8) (max : U16) (w : W) :
    let k := min (min b.length max.toNat) c.size.toNat
    let r := B.readFrame w c.sock.rxBuffer c.ptr (b.take k)
    (RxOp.upto b max).run B c w =
      if b.length = 0 ∨ max = 0 then (.ok ((0, c), b), w)
      else oneTransfer r.1 ((BitVec.ofNat 16 k,
        { c with ptr := c.ptr + BitVec.ofNat 16 k, size := c.size - BitVec.ofNat 16 k }), r.2.1 ++ b.drop k) r.2.2 := by
  intro k r
  have hm := max.isLt
  have hz : (max = 0) ↔ max.toNat = 0 := ⟨fun e => by rw [e]; rfl, fun e => BitVec.eq_of_toNat_eq e⟩
  by_cases hl : b.length > max.toNat
  · have hu : c.readUpto B max (b, w) = M.withPrefix max.toNat (c.read B) (b, w) := by
      unfold RxCursor.readUpto
      rw [M.bind_def]
      simp only [M.get]
      rw [if_pos hl]
    have h := read_eq B c (b.take max.toNat) (by rw [List.length_take]; omega) w
    unfold M.withPrefix at hu
    rw [if_pos (show max.toNat ≤ (b, w).1.length by show _ ≤ b.length; omega)] at hu
    dsimp only at hu
    by_cases h0 : max = 0
    · rw [if_pos (.inr h0)]
      have hn : b.take max.toNat = [] := by rw [h0]; rfl
      rw [if_pos hn] at h
      show M.withLocal b (c.readUpto B max) w = _
      unfold M.withLocal
      rw [hu, h, hn, hz.mp h0]
      rfl
    · have h1 : max.toNat ≠ 0 := fun e => h0 (hz.mpr e)
      rw [if_neg (by rintro (e | e); omega; exact h0 e)]
      rw [if_neg (fun e => by have := congrArg List.length e; rw [List.length_take, List.length_nil] at this; omega)] at h
      have hk : min (b.take max.toNat).length c.size.toNat = k := by
        rw [List.length_take]
        show _ = min (min b.length max.toNat) c.size.toNat
        omega
      have hkm : k ≤ max.toNat := by show min (min b.length max.toNat) c.size.toNat ≤ _; omega
      dsimp only at h
      rw [hk, List.take_take, Nat.min_eq_left hkm] at h
      refine withLocal_one (r := r) (x := (BitVec.ofNat 16 k, RxCursor.past c k)) (hu.trans ?_)
      rw [h]
      show (_, (r.2.1 ++ (b.take max.toNat).drop k ++ b.drop max.toNat, r.2.2)) = _
      have : (b.take max.toNat).drop k ++ b.drop max.toNat = b.drop k := by
        have e := List.take_append_drop max.toNat b
        conv => rhs; rw [← e, List.drop_append_of_le_length (by rw [List.length_take]; omega)]
      rw [List.append_assoc, this]
  · have hu : c.readUpto B max (b, w) = c.read B (b, w) := by
      unfold RxCursor.readUpto
      rw [M.bind_def]
      simp only [M.get]
      rw [if_neg hl]
    have h := C101_read_partial B c b (by omega) w
    have e : (RxOp.upto b max).run B c w = (RxOp.read b).run B c w := by
      show M.withLocal b (c.readUpto B max) w = M.withLocal b (c.read B) w
      unfold M.withLocal
      rw [hu]
    have hk : min b.length c.size.toNat = k := by
      show _ = min (min b.length max.toNat) c.size.toNat
      omega
    rw [e, h, hk]
    by_cases h0 : b.length = 0
    · rw [if_pos h0, if_pos (.inl h0)]
    · rw [if_neg h0, if_neg (by rintro (e | e); exact h0 e; exact h0 (by have := hz.mp e; omega))]

/-- C101, the missing part of `C101_read_partial`: into a buffer whose length is a multiple of 65536, `read` takes nothing,
however much there is, because the length is cut to 16 bits: it makes a transfer of no bytes, returns 0 and stays where it is. -/
theorem C101_refuted (B : Bus W E) (c : RxCursor) (b : List U8) (hb : b.length % 65536 = 0) (h0 : b ≠ []) (w : W) :
    let r := B.readFrame w c.sock.rxBuffer c.ptr []
    (RxOp.read b).run B c w = oneTransfer r.1 ((0, c), b) r.2.2 := by
  have hz : minU16 c.available (BitVec.ofNat 16 b.length) = 0 := by
    apply BitVec.eq_of_toNat_eq
    rw [minU16_val, BitVec.toNat_ofNat, hb]
    exact Nat.min_zero _
  have hs : c.skip 0 = (0, c) := by
    rw [skip_eq c 0 (k := 0) (by show 0 = min 0 _; omega)]
    show ((0 : U16), ({ c with ptr := c.ptr + 0, size := c.size - 0 } : RxCursor)) = _
    rw [show c.ptr + 0 = c.ptr from BitVec.add_zero _, show c.size - 0 = c.size from BitVec.sub_zero _]
  have hl := B.read_length w c.sock.rxBuffer c.ptr []
  show M.withLocal b (c.read B) w = _
  unfold M.withLocal RxCursor.read
  rw [M.bind_def]
  simp only [M.get]
  rw [if_neg (by simpa using h0), M.bind_def, hz, hs]
  simp only [M.withPrefix, Bus.readSlice]
  rw [if_pos (by exact Nat.zero_le _), show BitVec.toNat (0 : U16) = 0 from rfl, List.take_zero]
  generalize B.readFrame w c.sock.rxBuffer c.ptr [] = r at *
  obtain ⟨r, t, w1⟩ := r
  have ht : t = [] := List.length_eq_zero_iff.mp hl
  subst ht
  cases r <;> rfl

/-- C101: `write` takes the whole buffer if it is not empty and there is room for it, and nothing otherwise; it stores the
bytes with one transfer where the cursor is, and moves the cursor past them. -/
theorem C101_write (B : Bus W E) (c : TxCursor) (b : List U8) (w : W) :
    let r := B.writeFrame w c.sock.txBuffer c.ptr b
    c.write B b w =
      if 0 < b.length ∧ b.length ≤ c.size.toNat then
        oneTransfer r.1 (BitVec.ofNat 16 b.length,
          { c with ptr := c.ptr + BitVec.ofNat 16 b.length, size := c.size - BitVec.ofNat 16 b.length }) r.2
      else (.ok (0, c), w) := by
  intro r
  by_cases h : 0 < b.length ∧ b.length ≤ c.size.toNat
  · rw [if_pos h, tx_write_accept B c b (by simp; constructor; exact List.length_pos_iff.mp h.1; exact h.2), M.bind_def]
    show (match B.writeFrame w c.sock.txBuffer c.ptr b with | r => _) = _
    show _ = oneTransfer (B.writeFrame w c.sock.txBuffer c.ptr b).1 _ (B.writeFrame w c.sock.txBuffer c.ptr b).2
    unfold Bus.write
    generalize B.writeFrame w c.sock.txBuffer c.ptr b = r
    obtain ⟨_ | _ | _ | _, w'⟩ := r <;> rfl
  · rw [if_neg h, tx_write_reject B c b]
    · rfl
    · simp
      by_cases h0 : b = []
      · exact .inl h0
      · have := List.length_pos_iff.mpr h0
        right; omega

/-! ## On the chip: reading -/

/-- The bytes `full` are queued, from `p` on, and nothing has been released. -/
def AtFront (A full : List U8) (p : U16) (s : Sock) : Prop := RxReady A s ∧ full <+: s.queue ∧ s.rxRd = p

theorem stable_atFront (A full : List U8) (p : U16) : StableS (AtFront A full p) := by
  rintro s a ⟨h1, h2, h3⟩
  exact ⟨stable_rxReady A s a h1, (stable_queue A full s a ⟨h1.core, h2⟩).2, (act_rxRd s a).trans h3⟩

/-- The cursor `c` is at the end of `done`, before `rest`. -/
structure RxAt (n : Nat) (p : U16) (done rest : List U8) (c : RxCursor) : Prop where
  sock : c.sock = sockOf n
  ptr : c.ptr = p + BitVec.ofNat 16 done.length
  size : c.size.toNat = rest.length

theorem RxAt.past {n : Nat} {p : U16} {done rest : List U8} {c : RxCursor} (h : RxAt n p done rest c) {k : Nat}
    (hk : k ≤ rest.length) : RxAt n p (done ++ rest.take k) (rest.drop k) (RxCursor.past c k) := by
  have hc := c.size.isLt
  have hs := h.size
  refine ⟨h.sock, ?_, ?_⟩
  · show c.ptr + BitVec.ofNat 16 k = _
    rw [h.ptr, List.length_append, List.length_take, Nat.min_eq_left hk, BitVec.add_assoc, ← BitVec.ofNat_add]
  · show (c.size - BitVec.ofNat 16 k).toNat = _
    have hk' : (BitVec.ofNat 16 k).toNat = k := by rw [BitVec.toNat_ofNat]; omega
    rw [BitVec.toNat_sub, hk', List.length_drop]
    omega

theorem RxAt.past0 {n : Nat} {p : U16} {done rest : List U8} {c : RxCursor} (h : RxAt n p done rest c) :
    RxAt n p (done ++ rest.take 0) (rest.drop 0) c := by
  rw [List.take_zero, List.append_nil, List.drop_zero]
  exact h

/-- One transfer of a cursor. -/
theorem rx_transfer {n : Nat} (hn : n < 8) {A done rest : List U8} {p : U16} {c : RxCursor} (hc : RxAt n p done rest c)
    {b : List U8} {k : Nat} (hb : k ≤ b.length) (hk : k ≤ rest.length) {w : Chip} (hw : At n (AtFront A (done ++ rest) p) w) {x : U16 × RxCursor} :
    Res.post (fun r w' => At n (AtFront A (done ++ rest) p) w' ∧ r = (x, rest.take k ++ b.drop k)) (At n (AtFront A (done ++ rest) p))
      (oneTransfer ((Chip.dev sched faults).bus.readFrame w c.sock.rxBuffer c.ptr (b.take k)).1
        (x, ((Chip.dev sched faults).bus.readFrame w c.sock.rxBuffer c.ptr (b.take k)).2.1 ++ b.drop k)
        ((Chip.dev sched faults).bus.readFrame w c.sock.rxBuffer c.ptr (b.take k)).2.2) := by
  have h := (hs_readRx (sched := sched) (faults := faults) hn (stable_atFront A (done ++ rest) p) c.ptr (rest.take k) (by
    intro s hs i hi
    rw [List.length_take] at hi
    have hd : done.length + i < (done ++ rest).length := by rw [List.length_append]; omega
    have := peekRx_queue hs.1.core.size.dvd hs.2.1 (done.length + i) hd
    rw [hs.2.2] at this
    rw [hc.ptr, BitVec.add_assoc, ← BitVec.ofNat_add, this, List.getElem_append_right (by omega), List.getElem_take]
    simp)).run (b.take k, w) ⟨hw, by simp only [List.length_take]; omega⟩
  rw [hc.sock]
  unfold Bus.readSlice at h
  dsimp only at h
  generalize (Chip.dev sched faults).bus.readFrame w (sockOf n).rxBuffer c.ptr (b.take k) = r at *
  obtain ⟨_ | _ | _ | _, d, w'⟩ := r
  · exact ⟨h.1, by rw [show d = _ from h.2]⟩
  · exact h
  · exact h
  · exact h

/-- A call on a cursor. -/
theorem rx_op {n : Nat} (hn : n < 8) {A done rest : List U8} {p : U16} {c : RxCursor} (hc : RxAt n p done rest c) (o : RxOp) (ho : o.Sized) :
    Hoare (At n (AtFront A (done ++ rest) p)) (o.run (Chip.dev sched faults).bus c)
      (fun r w => At n (AtFront A (done ++ rest) p) w ∧ (r.1.1.toNat, r.2) = (o.on rest).1 ∧
        RxAt n p (done ++ rest.take (min o.want rest.length)) (o.on rest).2 r.1.2)
      (At n (AtFront A (done ++ rest) p)) := by
  constructor
  intro w hw
  have hl : rest.length < 65536 := by rw [← hc.size]; exact c.size.isLt
  have hof : ∀ m, (BitVec.ofNat 16 (min m rest.length)).toNat = min m rest.length := by
    intro m
    rw [BitVec.toNat_ofNat]
    omega
  cases o with
  | skip m =>
    rw [C101_skip]
    refine ⟨hw, ?_, ?_⟩
    · show ((BitVec.ofNat 16 (min m.toNat c.size.toNat)).toNat, []) = _
      rw [hc.size, hof]
      rfl
    · have := hc.past (k := min m.toNat rest.length) (by omega)
      rw [hc.size]
      exact this
  | read b =>
    rw [C101_read_partial _ _ _ ho]
    rw [hc.size]
    split
    · rename_i h0
      have hb : b = [] := List.length_eq_zero_iff.mp h0
      subst hb
      refine ⟨hw, ?_, ?_⟩
      · simp [RxOp.on, RxOp.want]
      · have := hc.past0
        simpa [RxOp.on, RxOp.want] using this
    · refine Hoare.post_mono ?_ (fun _ h => h) (rx_transfer hn hc (by omega) (by omega) hw)
      rintro _ w' ⟨h1, rfl⟩
      refine ⟨h1, ?_, ?_⟩
      · show ((BitVec.ofNat 16 (min b.length rest.length)).toNat, _) = _
        rw [hof]
        rfl
      · exact hc.past (by omega)
  | upto b max =>
    rw [C101_read_upto]
    rw [hc.size]
    split
    · rename_i h0
      have hz : min b.length max.toNat = 0 := by
        rcases h0 with h0 | rfl
        · omega
        · exact Nat.min_zero _
      refine ⟨hw, ?_, ?_⟩
      · simp [RxOp.on, RxOp.want, hz]
      · have := hc.past0
        simpa [RxOp.on, RxOp.want, hz] using this
    · refine Hoare.post_mono ?_ (fun _ h => h) (rx_transfer hn hc (by omega) (by omega) hw)
      rintro _ w' ⟨h1, rfl⟩
      refine ⟨h1, ?_, ?_⟩
      · show ((BitVec.ofNat 16 (min (min b.length max.toNat) rest.length)).toNat, _) = _
        rw [hof]
        rfl
      · exact hc.past (by omega)

/-- Calls on a cursor. -/
theorem rx_all {n : Nat} (hn : n < 8) {A : List U8} {p : U16} (os : List RxOp) (ho : ∀ o ∈ os, o.Sized) :
    ∀ {done rest : List U8} {c : RxCursor}, RxAt n p done rest c →
    Hoare (At n (AtFront A (done ++ rest) p)) (RxOp.runAll (Chip.dev sched faults).bus c os)
      (fun r w => At n (AtFront A (done ++ rest) p) w ∧ r.1.map (fun x => (x.1.toNat, x.2)) = (RxOp.onAll rest os).1 ∧
        ∃ taken, taken ++ (RxOp.onAll rest os).2 = rest ∧ RxAt n p (done ++ taken) (RxOp.onAll rest os).2 r.2)
      (At n (AtFront A (done ++ rest) p)) := by
  induction os with
  | nil =>
    intro done rest c hc
    exact .pure fun w h => ⟨h, rfl, [], rfl, by rw [List.append_nil]; exact hc⟩
  | cons o os ih =>
    intro done rest c hc
    unfold RxOp.runAll
    refine .bind (rx_op hn hc o (ho o (by simp))) fun r => ?_
    refine .pre (P := fun w => ((r.1.1.toNat, r.2) = (o.on rest).1 ∧
      RxAt n p (done ++ rest.take (min o.want rest.length)) (o.on rest).2 r.1.2) ∧ At n (AtFront A (done ++ rest) p) w) ?_ fun w h => ⟨h.2, h.1⟩
    refine .fact fun hr => ?_
    have hd : (o.on rest).2 = rest.drop (min o.want rest.length) := by cases o <;> rfl
    have hsplit : done ++ rest = (done ++ rest.take (min o.want rest.length)) ++ (o.on rest).2 := by
      rw [hd, List.append_assoc, List.take_append_drop]
    rw [hsplit]
    refine .bind (ih (fun x hx => ho x (List.mem_cons_of_mem _ hx)) hr.2) fun rs => .pure fun w h => ?_
    obtain ⟨h1, h2, t, h3, h4⟩ := h
    refine ⟨h1, ?_, rest.take (min o.want rest.length) ++ t, ?_, ?_⟩
    · show (r.1.1.toNat, r.2) :: _ = (o.on rest).1 :: _
      rw [hr.1, ← h2]
    · show _ ++ (RxOp.onAll (o.on rest).2 os).2 = _
      rw [List.append_assoc, h3, hd, List.take_append_drop]
    · rw [List.append_assoc] at h4
      exact h4

/-- A cursor is made: it covers what is queued. -/
theorem rx_new {n : Nat} (hn : n < 8) {A q : List U8} (fuel : Nat) :
    Hoare (At n fun s => RxReady A s ∧ q <+: s.queue) (RxCursor.new (Chip.dev sched faults).bus fuel (sockOf n))
      (fun c w => ∃ bs p, q <+: bs ∧ RxAt n p [] bs c ∧ At n (AtFront A bs p) w)
      (At n (RxReady A)) := by
  have hst : ∀ q, StableS (fun s => RxReady A s ∧ q <+: s.queue) := fun q s a h =>
    ⟨stable_rxReady A s a h.1, (stable_queue A q s a ⟨h.1.core, h.2⟩).2⟩
  unfold RxCursor.new
  refine .bind (.exc (hs_receiveSize hn (hst q) (fun s h => h.1.core.rxFits) fuel) fun c h => h.1) fun v => ?_
  refine .pre (P := fun w => ∃ bs : List U8, (q <+: bs ∧ v.toNat = bs.length) ∧ At n (fun s => RxReady A s ∧ bs <+: s.queue) w) ?_ ?_
  · refine .exists_pre fun bs => .fact fun hb => ?_
    refine .bind (.exc (hs_readMem hn (hst bs) _ (.inr rfl)) fun c h => h.1) fun p => .pure fun w h => ?_
    obtain ⟨⟨h1, h2⟩, h3⟩ := h
    have h3 : p = (w.socks n).rxRdReg := h3
    exact ⟨bs, p, hb.1, ⟨rfl, by simp, hb.2⟩, h1, h2, by rw [h3]; exact h1.reg.symm⟩
  · rintro w ⟨h1, s0, ⟨p1, p2⟩, e, rfl⟩
    exact ⟨s0.queue, ⟨p2, (queue_length _).symm⟩, h1.1, queue_mono p1.core e⟩

/-- `commit` releases what was taken. -/
theorem rx_commit {n : Nat} (hn : n < 8) {A taken rest : List U8} {p : U16} {c : RxCursor} (hc : RxAt n p taken rest c) :
    Hoare (At n (AtFront A taken p)) (c.commit (Chip.dev sched faults).bus) (fun _ => At n (RxReady (A ++ taken)))
      (fun _ => True) := by
  unfold RxCursor.commit
  rw [hc.sock, hc.ptr]
  refine .bind (.pre (.exc (hs_setRxRd hn (G := fun _ => True) (fun _ _ _ => trivial) (fun _ _ _ _ _ => trivial) A taken p _)
    fun _ _ => trivial) fun w h => ⟨trivial, ⟨h.1.core, h.2.1⟩, h.2.2⟩) fun _ => ?_
  exact .exc (.post (hs_recv hn (G := fun _ => True) (fun _ _ _ => trivial) (fun _ _ _ => trivial) A taken p) fun _ w h => h.2)
    fun _ _ => trivial

/-- C101: a receive cursor used in any way, on the chip. Suppose all but `A` of what arrived is in the queue, and Sn_RX_RD is
where the queue starts. However the session ends, this is still so. If it ends with `Ok`, then the numbers and buffers are
those of the same calls on some bytes `bs`: these begin with all that was queued before, and are still at the beginning of the
queue. If then `commit` returns `Ok`, exactly the bytes that were taken are released. -/
theorem C101_session_partial {n : Nat} (hn : n < 8) (fuel : Nat) (os : List RxOp) (ho : ∀ o ∈ os, o.Sized) (w : Chip) (A : List U8)
    (hz : Sock.GoodSize (w.socks n).rxSize) (hf : (w.socks n).rsr.toNat ≤ (w.socks n).rxSize)
    (ha : (w.socks n).arrived = A ++ (w.socks n).queue) (hr : (w.socks n).rxRdReg = (w.socks n).rxRd)
    (x : Res E (List (U16 × List U8) × RxCursor)) (w' : Chip)
    (h : RxOp.session (Chip.dev sched faults).bus fuel (sockOf n) os w = (x, w')) :
    ((w'.socks n).arrived = A ++ (w'.socks n).queue ∧ (w'.socks n).rxRdReg = (w'.socks n).rxRd) ∧
    ∀ rs c, x = .ok (rs, c) → ∃ bs, (w.socks n).queue <+: bs ∧ bs <+: (w'.socks n).queue ∧
      rs.map (fun r => (r.1.toNat, r.2)) = (RxOp.onAll bs os).1 ∧ c.size.toNat = (RxOp.onAll bs os).2.length ∧
      ∀ w'', c.commit (Chip.dev sched faults).bus w' = (.ok (), w'') →
        ∃ taken, taken ++ (RxOp.onAll bs os).2 = bs ∧ (w''.socks n).arrived = A ++ taken ++ (w''.socks n).queue ∧
          (w''.socks n).rxRdReg = (w''.socks n).rxRd := by
  have H : Hoare (At n fun s => RxReady A s ∧ (w.socks n).queue <+: s.queue)
      (RxOp.session (Chip.dev sched faults).bus fuel (sockOf n) os)
      (fun r v => ∃ bs p, (w.socks n).queue <+: bs ∧ At n (AtFront A bs p) v ∧
        r.1.map (fun x => (x.1.toNat, x.2)) = (RxOp.onAll bs os).1 ∧
        ∃ taken, taken ++ (RxOp.onAll bs os).2 = bs ∧ RxAt n p taken (RxOp.onAll bs os).2 r.2)
      (At n (RxReady A)) := by
    unfold RxOp.session
    refine .bind (rx_new hn fuel) fun c => ?_
    refine .exists_pre fun bs => .exists_pre fun p => .fact fun hq => .fact fun hc => ?_
    refine .conseq (rx_all hn os ho hc) (fun _ h => h) (fun r v hv => ?_) fun _ h => h.1
    obtain ⟨h1, h2, t, h3, h4⟩ := hv
    exact ⟨bs, p, hq, h1, h2, t, h3, h4⟩
  have hrun := H.run w ⟨⟨⟨hz, hf, ha⟩, hr⟩, List.prefix_refl _⟩
  rw [h] at hrun
  cases x with
  | ok r =>
    obtain ⟨bs, p, h1, h2, h3, t, h4, h5⟩ := hrun
    refine ⟨⟨h2.1.core.arrived, h2.1.reg⟩, ?_⟩
    rintro rs c ⟨⟩
    refine ⟨bs, h1, h2.2.1, h3, h5.size, fun w'' hw => ⟨t, h4, ?_⟩⟩
    have := (rx_commit (sched := sched) (faults := faults) (A := A) hn h5).ok ⟨h2.1, List.IsPrefix.trans ⟨_, h4⟩ h2.2.1, h2.2.2⟩ hw
    exact ⟨this.core.arrived, this.reg⟩
  | err e => exact ⟨⟨hrun.core.arrived, hrun.reg⟩, nofun⟩
  | panic => exact ⟨⟨hrun.core.arrived, hrun.reg⟩, nofun⟩
  | fuel => exact ⟨⟨hrun.core.arrived, hrun.reg⟩, nofun⟩

/-! ## On the chip: writing -/

/-- `t` is stored behind the last SEND at `p`, and there is room for `free` bytes more. -/
def Behind (G : Sock → Prop) (p : U16) (t : List U8) (free : Nat) (s : Sock) : Prop :=
  G s ∧ s.txWr = p ∧ s.txLimit = p ∧ s.used + (t.length + free) ≤ s.txSize ∧ ring s.txMem s.txSize p t.length = t

theorem stable_behind {G : Sock → Prop} (hG : TxFrame G) (p : U16) (t : List U8) (free : Nat) : StableS (Behind G p t free) := by
  rintro s a ⟨h1, h2, h3, h4, h5⟩
  have := (act_txBase (hG.base s h1) a).2
  exact ⟨hG.stable s a h1, by rw [act_txWr]; exact h2, by rw [act_txLimit]; exact h3,
    by rw [act_txSize]; omega, by rw [act_txMem, act_txSize]; exact h5⟩

/-- Bytes are appended. -/
theorem tx_append {n : Nat} (hn : n < 8) {G : Sock → Prop} (hG : TxFrame G) (p : U16) (t data : List U8) (free : Nat)
    (hd : data.length ≤ free) :
    Hoare (At n (Behind G p t free))
      ((Chip.dev sched faults).bus.write (sockOf n).txBuffer (p + BitVec.ofNat 16 t.length) data)
      (fun _ => At n (Behind G p (t ++ data) (free - data.length)))
      (At n (Behind G p [] 0)) := by
  have := hs_writeTx (sched := sched) (faults := faults) hn
    (I := fun i => Behind G p (t ++ data.take i) (free - i)) (p + BitVec.ofNat 16 t.length) data
    (fun i _ _ => stable_behind hG p _ _) (by
      rintro i hi s ⟨h1, h2, h3, h4, h5⟩
      have hb := hG.base s h1
      rw [List.length_append, List.length_take] at h4 h5
      have hl : min i data.length = i := by omega
      rw [hl] at h4 h5
      have ha : p + BitVec.ofNat 16 t.length + BitVec.ofNat 16 i = p + BitVec.ofNat 16 (t.length + i) := by
        rw [BitVec.add_assoc, ← BitVec.ofNat_add]
      rw [ha]
      refine ⟨hG.pokeTx s _ _ h1 (fun j hj => ?_), h2, h3, ?_, ?_⟩
      · rw [← h3]
        exact free_cell hb (k := t.length + free) (by omega) (by omega) j hj
      · show s.used + _ ≤ s.txSize
        rw [List.length_append, List.length_take]
        omega
      · have := ring_poke hb.size (p := p) (i := t.length + i) (x := data[i]) (by omega)
        show ring (s.pokeTx _ _).txMem s.txSize p _ = _
        rw [List.length_append, List.length_take, show t.length + min (i + 1) data.length = t.length + i + 1 by omega, this, h5,
          List.append_assoc, List.take_succ_eq_append_getElem hi])
  refine this.conseq (fun c h => ?_) (fun _ c h => ?_) (fun c h => ?_)
  · have h : Behind G p t free (c.socks n) := h
    show Behind G p (t ++ data.take 0) (free - 0) (c.socks n)
    rw [List.take_zero, List.append_nil]
    exact h
  · have h : Behind G p (t ++ data.take data.length) (free - data.length) (c.socks n) := h
    rw [List.take_length] at h
    exact h
  · obtain ⟨i, _, h1, h2, h3, h4, _⟩ := h
    have h4 : (c.socks n).used + _ ≤ (c.socks n).txSize := h4
    refine ⟨h1, h2, h3, ?_, by simp [ring_zero]⟩
    simp only [List.length_nil]
    omega

/-- Writes on a cursor. -/
theorem tx_all {n : Nat} (hn : n < 8) {G : Sock → Prop} (hG : TxFrame G) (p : U16) (bs : List (List U8)) :
    ∀ {t : List U8} {c : TxCursor}, c.sock = sockOf n → c.ptr = p + BitVec.ofNat 16 t.length →
    Hoare (At n (Behind G p t c.size.toNat)) (txAll (Chip.dev sched faults).bus c bs)
      (fun r w => r.1.map BitVec.toNat = (txOn c.size.toNat bs).1 ∧ r.2.sock = sockOf n ∧
        r.2.ptr = p + BitVec.ofNat 16 (t ++ (txOn c.size.toNat bs).2).length ∧
        At n (Behind G p (t ++ (txOn c.size.toNat bs).2) 0) w)
      (At n (Behind G p [] 0)) := by
  have weak : ∀ (t : List U8) f s, Behind G p t f s → Behind G p t 0 s := by
    rintro t f s ⟨h1, h2, h3, h4, h5⟩
    exact ⟨h1, h2, h3, by omega, h5⟩
  induction bs with
  | nil =>
    intro t c hs hp
    refine .pure fun w h => ⟨rfl, hs, ?_, ?_⟩
    · show c.ptr = p + BitVec.ofNat 16 (t ++ []).length
      rw [List.append_nil]; exact hp
    · show Behind G p (t ++ []) 0 (w.socks n)
      rw [List.append_nil]; exact weak _ _ _ h
  | cons b bs ih =>
    intro t c hs hp
    have hsz := c.size.isLt
    unfold txAll
    by_cases hb : 0 < b.length ∧ b.length ≤ c.size.toNat
    · have hofn : (BitVec.ofNat 16 b.length).toNat = b.length := by rw [BitVec.toNat_ofNat]; omega
      have hsub : (c.size - BitVec.ofNat 16 b.length).toNat = c.size.toNat - b.length := by
        rw [BitVec.toNat_sub, hofn]; omega
      refine .bind (Q := fun r w => r = (BitVec.ofNat 16 b.length,
          { c with ptr := c.ptr + BitVec.ofNat 16 b.length, size := c.size - BitVec.ofNat 16 b.length }) ∧
          At n (Behind G p (t ++ b) (c.size.toNat - b.length)) w) ⟨fun w hw => ?_⟩ fun r => ?_
      · have := (tx_append (sched := sched) (faults := faults) hn hG p t b c.size.toNat hb.2).run w hw
        rw [C101_write, if_pos hb, hs, hp]
        unfold Bus.write at this
        generalize (Chip.dev sched faults).bus.writeFrame w (sockOf n).txBuffer (p + BitVec.ofNat 16 t.length) b = r at *
        obtain ⟨_ | _ | _ | _, w'⟩ := r
        · exact ⟨rfl, this⟩
        · exact this
        · exact this
        · exact this
      · refine .fact fun hr => ?_
        subst hr
        have h := ih (t := t ++ b) (c := { c with ptr := c.ptr + BitVec.ofNat 16 b.length, size := c.size - BitVec.ofNat 16 b.length })
          hs (by
            show c.ptr + _ = _
            rw [hp, List.length_append, BitVec.add_assoc, ← BitVec.ofNat_add])
        dsimp only at h
        rw [hsub] at h
        refine .bind h fun rs => .pure fun w hw => ?_
        obtain ⟨h1, h2, h3, h4⟩ := hw
        simp only [txOn, if_pos hb.2]
        rw [← List.append_assoc]
        refine ⟨?_, h2, h3, h4⟩
        rw [List.map_cons, hofn, h1]
    · refine .bind (Q := fun r w => r = ((0 : U16), c) ∧ At n (Behind G p t c.size.toNat) w) ⟨fun w hw => ?_⟩ fun r => ?_
      · rw [C101_write, if_neg hb]
        exact ⟨rfl, hw⟩
      · refine .fact fun hr => ?_
        subst hr
        refine .bind (ih hs hp) fun rs => .pure fun w hw => ?_
        obtain ⟨h1, h2, h3, h4⟩ := hw
        by_cases h0 : b.length ≤ c.size.toNat
        · have hz : b = [] := List.length_eq_zero_iff.mp (by omega)
          subst hz
          simp only [txOn, List.length_nil, Nat.zero_le, if_true, Nat.sub_zero, List.nil_append]
          exact ⟨by rw [List.map_cons, h1]; rfl, h2, h3, h4⟩
        · simp only [txOn, if_neg h0]
          exact ⟨by rw [List.map_cons, h1]; rfl, h2, h3, h4⟩

/-- `commit` sends what was stored. -/
theorem tx_commit {n : Nat} (hn : n < 8) {m : Nat} (hm : m = 2 ∨ m = 4) {d : List U8 × List U8} {K : List Packet} {p : U16} {t : List U8}
    {c : TxCursor} (hs : c.sock = sockOf n) (hp : c.ptr = p + BitVec.ofNat 16 t.length) :
    Hoare (At n (Behind (PktBase m d K) p t 0)) (c.commit (Chip.dev sched faults).bus)
      (fun _ => At n fun s => if t = [] then s.packets = K ∧ s.txRd = s.txLimit else PktSent m d K p t s) (fun _ => True) := by
  have hG := frame_pktBase (m := m) (by omega) d K
  unfold TxCursor.commit
  rw [hs, hp]
  refine .bind (.pre (.exc (hs_advance hn hG p t) fun _ _ => trivial) fun w h => ?_) fun _ => ?_
  · obtain ⟨h1, h2, h3, h4, h5⟩ := h
    exact ⟨h1, h2, h3, h4, h5⟩
  have hst : StableS (fun s => PktBase m d K s ∧ s.txWr = p + BitVec.ofNat 16 t.length ∧ s.txLimit = p ∧
      s.used + t.length ≤ s.txSize ∧ ring s.txMem s.txSize p t.length = t) := by
    rintro s a ⟨h1, h2, h3, h4, h5⟩
    have := (act_txBase h1.txBase a).2
    exact ⟨hG.stable s a h1, by rw [act_txWr]; exact h2, by rw [act_txLimit]; exact h3,
      by rw [act_txSize]; omega, by rw [act_txMem, act_txSize]; exact h5⟩
  refine .exc (hs_write1 hn hst _ _ fun s h => ?_) fun _ _ => trivial
  obtain ⟨h1, h2, h3, h4, h5⟩ := h
  split
  · rename_i h0
    subst h0
    refine ⟨h1.out, ?_⟩
    show s.txRd = s.txWr
    rw [h2, h1.rd, h3]
    simp
  · rename_i h0
    exact send_pkt h1 h0 h2 h3 h4 h5

/-- C101: a transmit cursor used in any way, on the chip. Suppose the socket is in UDP or MACRAW mode, and nothing is waiting to
be sent. Until `commit`, nothing leaves, and Sn_TX_WR is not touched, however the session ends. If it ends with `Ok`, then each
buffer was taken whole or not at all, by whether there was room for it in what the buffers before it had left of the transmit
buffer; the numbers returned say which. If then `commit` returns `Ok`, all the bytes taken, one buffer after the other, have
become one packet: it has left, or waits to. If nothing was taken, no packet leaves. -/
theorem C101_transmit {n : Nat} (hn : n < 8) (bs : List (List U8)) (w : Chip)
    (hm : (w.socks n).proto = 2 ∨ (w.socks n).proto = 4) (hz : Sock.GoodSize (w.socks n).txSize)
    (hr : (w.socks n).txRd = (w.socks n).txLimit) (hu : (w.socks n).una = (w.socks n).txLimit)
    (hw : (w.socks n).txWr = (w.socks n).txLimit)
    (x : Res E (List U16 × TxCursor)) (w' : Chip) (h : txSession (Chip.dev sched faults).bus (sockOf n) bs w = (x, w')) :
    ((w'.socks n).packets = (w.socks n).packets ∧ (w'.socks n).txWr = (w.socks n).txWr ∧ (w'.socks n).txRd = (w'.socks n).txLimit) ∧
    ∀ rs c, x = .ok (rs, c) → rs.map BitVec.toNat = (txOn (w.socks n).txSize bs).1 ∧
      ∀ w'', c.commit (Chip.dev sched faults).bus w' = (.ok (), w'') →
        let data := (txOn (w.socks n).txSize bs).2
        if data = [] then (w''.socks n).packets = (w.socks n).packets ∧ (w''.socks n).txRd = (w''.socks n).txLimit
        else
          ((w''.socks n).txRd = (w''.socks n).txLimit ∧ ∃ b, (w''.socks n).packets =
            (w.socks n).packets ++ [⟨(w.socks n).dest.1, (w.socks n).dest.2, data, b⟩]) ∨
          ((w''.socks n).packets = (w.socks n).packets ∧ (w''.socks n).pending = data) := by
  generalize hmm : (w.socks n).proto = m at hm
  generalize hdd : (w.socks n).dest = d
  generalize hkk : (w.socks n).packets = K
  generalize hzz : (w.socks n).txSize = z at hz
  generalize hpp : (w.socks n).txWr = p
  have hG := frame_pktBase (m := m) (by omega) d K
  have hP : StableS (fun s => (PktBase m d K s ∧ s.txWr = s.txLimit) ∧ s.txSize = z ∧ s.txWr = p) :=
    (hG.stable.and fun s a h => by rw [act_txWr, act_txLimit]; exact h).and
      ((stable_txSize z).and fun s a h => by rw [act_txWr]; exact h)
  have hexc : ∀ w : Chip, At n (fun s => (PktBase m d K s ∧ s.txWr = s.txLimit) ∧ s.txSize = z ∧ s.txWr = p) w →
      At n (Behind (PktBase m d K) p [] 0) w := by
    rintro w ⟨⟨h1, h2⟩, h3, h4⟩
    refine ⟨h1, h4, h2.symm.trans h4, ?_, by simp [ring_zero]⟩
    rw [h1.used]
    exact Nat.zero_le _
  have hfsr : ∀ s : Sock, (PktBase m d K s ∧ s.txWr = s.txLimit) ∧ s.txSize = z ∧ s.txWr = p → s.fsr.toNat = z := by
    rintro s ⟨⟨h1, h2⟩, h3, -⟩
    rw [fsr_eq h1.txBase h2, h1.used, Nat.sub_zero, h3]
  have H : Hoare (At n fun s => (PktBase m d K s ∧ s.txWr = s.txLimit) ∧ s.txSize = z ∧ s.txWr = p)
      (txSession (Chip.dev sched faults).bus (sockOf n) bs)
      (fun r w => r.1.map BitVec.toNat = (txOn z bs).1 ∧ r.2.sock = sockOf n ∧
        r.2.ptr = p + BitVec.ofNat 16 (txOn z bs).2.length ∧ At n (Behind (PktBase m d K) p (txOn z bs).2 0) w)
      (At n (Behind (PktBase m d K) p [] 0)) := by
    unfold txSession TxCursor.new
    refine .bind (Q := fun c w => (c.sock = sockOf n ∧ c.ptr = p ∧ c.size.toNat = z) ∧
      At n (fun s => (PktBase m d K s ∧ s.txWr = s.txLimit) ∧ s.txSize = z ∧ s.txWr = p) w) ?_ fun c => ?_
    · refine .bind (.exc (hs_readFree hn hP fun s h => ⟨h.1.1.txBase, h.1.2⟩) hexc) fun v => ?_
      refine .pre (P := fun w => v.toNat = z ∧ At n (fun s => (PktBase m d K s ∧ s.txWr = s.txLimit) ∧ s.txSize = z ∧ s.txWr = p) w)
        (.fact fun hv => ?_) ?_
      · refine .bind (.exc (hs_readMem hn hP _ (.inl rfl)) hexc) fun q => .pure fun w h => ?_
        obtain ⟨h1, h2⟩ := h
        exact ⟨⟨rfl, h2.trans h1.2.2, hv⟩, h1⟩
      · rintro w ⟨h1, _, s1, s2, p1, p2, _, _, h2, _⟩
        refine ⟨?_, h1⟩
        rw [h2, hfsr s1 p1, hfsr s2 p2]
        omega
    · refine .fact fun hc => ?_
      obtain ⟨h1, h2, h3⟩ := hc
      have := tx_all (sched := sched) (faults := faults) hn hG p bs (t := []) h1 (by rw [h2]; simp)
      rw [h3] at this
      refine .conseq this (fun w h => ?_) (fun r w h => ?_) fun _ h => h
      · obtain ⟨⟨g1, g2⟩, g3, g4⟩ := h
        refine ⟨g1, g4, g2.symm.trans g4, ?_, by simp [ring_zero]⟩
        rw [g1.used, List.length_nil]
        omega
      · obtain ⟨g1, g2, g3, g4⟩ := h
        exact ⟨g1, g2, g3, g4⟩
  have hrun := H.run w ⟨⟨⟨hmm, hzz ▸ hz, hdd, hr, hu, hkk⟩, hw⟩, hzz, hpp⟩
  rw [h] at hrun
  have hbad : ∀ t f, At n (Behind (PktBase m d K) p t f) w' → (w'.socks n).packets = K ∧ (w'.socks n).txWr = p ∧
      (w'.socks n).txRd = (w'.socks n).txLimit := fun t f g => ⟨g.1.out, g.2.1, g.1.rd⟩
  cases x with
  | ok r =>
    obtain ⟨h1, h2, h3, h4⟩ := hrun
    refine ⟨hbad _ _ h4, ?_⟩
    rintro rs c ⟨⟩
    refine ⟨h1, fun w'' hc => ?_⟩
    have := (tx_commit (sched := sched) (faults := faults) hn hm h2 h3).ok h4 hc
    have this : (if (txOn z bs).2 = [] then (w''.socks n).packets = K ∧ (w''.socks n).txRd = (w''.socks n).txLimit
      else PktSent m d K p (txOn z bs).2 (w''.socks n)) := this
    dsimp only
    split
    · rename_i h0
      rw [if_pos h0] at this
      exact this
    · rename_i h0
      rw [if_neg h0] at this
      rcases this.out with h | h
      · exact .inl h
      · exact .inr h.2
  | err e => exact ⟨hbad _ _ hrun, nofun⟩
  | panic => exact ⟨hbad _ _ hrun, nofun⟩
  | fuel => exact ⟨hbad _ _ hrun, nofun⟩

/-! ## Non-trivial cases -/

/-- A chip in MACRAW mode, in whose queue there is a frame. -/
def cursorChip : Chip :=
  (Uninit.initializeMacraw (Chip.dev (E := Unit) (fun _ => []) (fun _ => none)).bus ⟨1, 2, 3, 4, 5, 6⟩ Chip.powerUp).2.event
    (0, .frame [10, 11, 12])

/-- While the driver works, further frames arrive. -/
def cursorSched (k : Nat) : List (Nat × Act) := if k % 3 = 0 then [(0, .frame [7])] else []

/-- The length, then one byte is skipped, then more is asked for than there is. -/
def cursorOps : List RxOp := [.read [0, 0], .skip 1, .upto [9, 9, 9, 9, 9] 3, .read [], .read (List.replicate 20 5)]

/-- C101: the hypotheses of `C101_session_partial` hold, and the session ends with `Ok`: it reads on into the
frames that came in before the cursor was made. -/
example :
    Sock.GoodSize (cursorChip.socks 0).rxSize ∧ (cursorChip.socks 0).rsr.toNat ≤ (cursorChip.socks 0).rxSize ∧
    (cursorChip.socks 0).arrived = [] ++ (cursorChip.socks 0).queue ∧ (cursorChip.socks 0).rxRdReg = (cursorChip.socks 0).rxRd ∧
    (cursorChip.socks 0).queue = [0, 5, 10, 11, 12] ∧ (∀ o ∈ cursorOps, o.Sized) ∧
    (RxOp.session (Chip.dev (E := Unit) cursorSched (fun _ => none)).bus 9 (sockOf 0) cursorOps cursorChip).1 =
      .ok ([(2, [0, 5]), (1, []), (3, [11, 12, 0, 9, 9]), (0, []), (5, [3, 7, 0, 3, 7] ++ List.replicate 15 5)],
        ⟨sockOf 0, 11, 0⟩) := by
  refine ⟨.inr (.inr (.inr (.inr (by decide +kernel)))), by decide +kernel, by decide +kernel, by decide +kernel, by decide +kernel, ?_,
    by decide +kernel⟩
  intro o ho
  simp only [cursorOps, List.mem_cons, List.not_mem_nil, or_false] at ho
  rcases ho with rfl | rfl | rfl | rfl | rfl
  · exact (by decide : 2 < 65536)
  · trivial
  · trivial
  · exact (by decide : 0 < 65536)
  · show (List.replicate 20 (5 : U8)).length < 65536
    rw [List.length_replicate]
    decide

/-- C101: … and those of `C101_transmit`; a buffer too big is left out, and the others become one packet. -/
example :
    let bs := [[1, 2], [], List.replicate 20000 3, [4]]
    let B := (Chip.dev (E := Unit) (fun k => if k % 7 = 0 then [(0, .emit true)] else []) (fun _ => none)).bus
    let r := txSession B (sockOf 0) bs cursorChip
    (cursorChip.socks 0).proto = 4 ∧ (cursorChip.socks 0).txSize = 16384 ∧
    (cursorChip.socks 0).txRd = (cursorChip.socks 0).txLimit ∧ (cursorChip.socks 0).una = (cursorChip.socks 0).txLimit ∧
    (cursorChip.socks 0).txWr = (cursorChip.socks 0).txLimit ∧ txOn 16384 bs = ([2, 0, 0, 1], [1, 2, 4]) ∧
    ∃ c, r.1 = .ok ([2, 0, 0, 1], c) ∧ (c.commit B r.2).1 = .ok () := by
  refine ⟨by decide +kernel, by decide +kernel, by decide +kernel, by decide +kernel, by decide +kernel, by decide +kernel,
    ⟨sockOf 0, 3, 16381⟩, by decide +kernel, by decide +kernel⟩

/-- C101: with five bytes there, and a buffer of 65536, `read` returns `Ok(0)`. -/
example : (RxOp.read (List.replicate 65536 9)).run (Chip.dev (E := Unit) cursorSched (fun _ => none)).bus ⟨sockOf 0, 0, 5⟩ cursorChip =
    (.ok ((0, ⟨sockOf 0, 0, 5⟩), List.replicate 65536 9), { cursorChip with txn := cursorChip.txn + 1 }) := by
  rw [C101_refuted _ _ _ (by rw [List.length_replicate]) (List.ne_nil_of_length_pos (by rw [List.length_replicate]; decide))]
  rfl

end W5500.Props
