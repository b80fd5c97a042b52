import Verif.Model.Raw
import Verif.Proofs.Monad
import Verif.Proofs.Bytes
import Verif.Proofs.Runs
/-! # `read_frame` in two steps: sizes and header, then the data -/

namespace W5500.Spec
open W5500 socketn
variable {W E : Type}

/-- What `read_frame` finds out first: `none` if nothing is there; else the read pointer, the number of bytes after the two
length bytes, and the announced frame length. -/
def rawHead (B : Bus W E) (fuel : Nat) (s : Socket) : M W E (Option (U16 × Nat × Nat)) := do
  let size ← s.getReceiveSize B fuel
  let ptr ← s.getRxReadPointer B
  if size = 0 then
    pure none
  else
    let hdr ← B.readBuf s.rxBuffer ptr (List.replicate (min size.toNat 2) 0)
    match hdr with
    | [hi, lo] => pure (some (ptr, size.toNat - 2, hi.toNat * 256 + lo.toNat - 2))
    | _ => M.panic

/-- The rest: data, pointer, RECV. -/
def rawTail (B : Bus W E) (s : Socket) (bl : Nat) (ptr : U16) (avail exp : Nat) : M (List U8 × W) E Nat := do
  (if min bl exp = 0 then pure () else M.withPrefix (min avail (min bl exp)) (B.readSlice s.rxBuffer (ptr + 2)))
  M.onSnd (s.setRxReadPointer B (ptr + BitVec.ofNat 16 (2 + min avail exp)))
  M.onSnd (s.command B .receive)
  pure (min avail (min bl exp))

theorem minU16_toNat (a b : U16) : (minU16 a b).toNat = min a.toNat b.toNat := by
  unfold minU16
  split <;> omega

theorem saturatingSub_toNat (a b : U16) : (RawDevice.saturatingSub a b).toNat = a.toNat - b.toNat := by
  unfold RawDevice.saturatingSub
  split
  · rw [BitVec.toNat_sub_of_le (BitVec.le_def.mpr ‹_›)]
  · show 0 = _
    omega

theorem rx_read_eq (B : Bus W E) (c : RxCursor) (buf : List U8) (w : W) (hne : buf ≠ []) (hl : buf.length < 65536) :
    c.read B (buf, w) = (M.withPrefix (min c.size.toNat buf.length) (B.readSlice c.sock.rxBuffer c.ptr) >>= fun _ =>
      pure (BitVec.ofNat 16 (min c.size.toNat buf.length), { c with
        ptr := c.ptr + BitVec.ofNat 16 (min c.size.toNat buf.length)
        size := c.size - BitVec.ofNat 16 (min c.size.toNat buf.length) })) (buf, w) := by
  have hcount : minU16 c.available (BitVec.ofNat 16 buf.length) = BitVec.ofNat 16 (min c.size.toNat buf.length) := by
    apply BitVec.eq_of_toNat_eq
    have := c.size.isLt
    rw [minU16_toNat, BitVec.toNat_ofNat, BitVec.toNat_ofNat, show c.available = c.size from rfl]
    omega
  have hmin : minU16 c.available (BitVec.ofNat 16 (min c.size.toNat buf.length)) = BitVec.ofNat 16 (min c.size.toNat buf.length) := by
    apply BitVec.eq_of_toNat_eq
    have := c.size.isLt
    rw [minU16_toNat, BitVec.toNat_ofNat, show c.available = c.size from rfl]
    omega
  unfold RxCursor.read
  rw [M.bind_ok (show M.get (buf, w) = (.ok (buf, w), (buf, w)) from rfl)]
  dsimp only
  rw [if_neg (by simpa using hne), hcount, show (BitVec.ofNat 16 (min c.size.toNat buf.length)).toNat =
    min c.size.toNat buf.length by rw [BitVec.toNat_ofNat]; omega]
  unfold RxCursor.skip
  rw [hmin]

theorem rx_read_nil (B : Bus W E) (c : RxCursor) (w : W) : c.read B ([], w) = (.ok (0, c), ([], w)) := rfl

/-- Reading the two length bytes. -/
theorem rx_head_eq (B : Bus W E) (c : RxCursor) (w : W) :
    M.withLocal [0, 0] (c.read B) w =
      match B.readFrame w c.sock.rxBuffer c.ptr (List.replicate (min c.size.toNat 2) 0) with
      | (.ok _, d, w') => (.ok ((BitVec.ofNat 16 (min c.size.toNat 2), { c with
          ptr := c.ptr + BitVec.ofNat 16 (min c.size.toNat 2), size := c.size - BitVec.ofNat 16 (min c.size.toNat 2) }),
          d ++ List.replicate (2 - min c.size.toNat 2) 0), w')
      | (.err e, _, w') => (.err e, w')
      | (.panic, _, w') => (.panic, w')
      | (.fuel, _, w') => (.fuel, w') := by
  have hr : ([0, 0] : List U8).take (min c.size.toNat 2) = List.replicate (min c.size.toNat 2) 0 := by
    rw [show ([0, 0] : List U8) = List.replicate 2 0 from rfl, List.take_replicate]
    congr 1
    omega
  have hd : ([0, 0] : List U8).drop (min c.size.toNat 2) = List.replicate (2 - min c.size.toNat 2) 0 := by
    rw [show ([0, 0] : List U8) = List.replicate 2 0 from rfl, List.drop_replicate]
  unfold M.withLocal
  rw [rx_read_eq B c [0, 0] w (by simp) (by simp), M.bind_def]
  unfold M.withPrefix
  rw [show ([0, 0] : List U8).length = 2 from rfl, if_pos (Nat.min_le_right _ _)]
  dsimp only
  unfold Bus.readSlice
  dsimp only
  rw [hr, hd]
  rcases B.readFrame w c.sock.rxBuffer c.ptr (List.replicate (min c.size.toNat 2) 0) with ⟨_ | _ | _ | _, d, w'⟩ <;> rfl

theorem withPrefix_apply (n : Nat) (m : M (List U8 × W) E α) (b : List U8) (w : W) :
    M.withPrefix n m (b, w) = if n ≤ b.length then
      ((m (b.take n, w)).1, ((m (b.take n, w)).2.1 ++ b.drop n, (m (b.take n, w)).2.2)) else (.panic, (b, w)) := rfl

/-- Reading the data. -/
theorem rx_upto_eq (B : Bus W E) (c : RxCursor) (m : U16) (buf : List U8) (w : W) :
    c.readUpto B m (buf, w) =
      ((if min buf.length m.toNat = 0 then pure () else
          M.withPrefix (min c.size.toNat (min buf.length m.toNat)) (B.readSlice c.sock.rxBuffer c.ptr)) >>= fun _ =>
        pure (BitVec.ofNat 16 (min c.size.toNat (min buf.length m.toNat)), { c with
          ptr := c.ptr + BitVec.ofNat 16 (min c.size.toNat (min buf.length m.toNat))
          size := c.size - BitVec.ofNat 16 (min c.size.toNat (min buf.length m.toNat)) })) (buf, w) := by
  have hm := m.isLt
  unfold RxCursor.readUpto
  rw [M.bind_ok (show M.get (buf, w) = (.ok (buf, w), (buf, w)) from rfl)]
  dsimp only
  by_cases hl : buf.length > m.toNat
  · rw [if_pos hl, show min buf.length m.toNat = m.toNat by omega]
    have hlen : (buf.take m.toNat).length = m.toNat := by rw [List.length_take]; omega
    by_cases h0 : m.toNat = 0
    · rw [if_pos h0, h0, withPrefix_apply, if_pos (Nat.zero_le _), List.take_zero, rx_read_nil, Nat.min_zero]
      simp [M.bind_def, Pure.pure, M.pure]
    · rw [if_neg h0, withPrefix_apply, if_pos (by omega),
        rx_read_eq B c _ w (by intro e; rw [e] at hlen; exact h0 hlen.symm) (by omega), hlen, M.bind_def, M.bind_def,
        withPrefix_apply, withPrefix_apply, if_pos (by omega), if_pos (by omega), List.take_take,
        Nat.min_eq_left (Nat.min_le_right _ _)]
      unfold Bus.readSlice
      dsimp only
      rcases B.readFrame w c.sock.rxBuffer c.ptr (List.take (min c.size.toNat m.toNat) buf) with ⟨r, bs, w'⟩
      have hcat : (bs ++ (buf.take m.toNat).drop (min c.size.toNat m.toNat)) ++ buf.drop m.toNat =
          bs ++ buf.drop (min c.size.toNat m.toNat) := by
        rw [List.append_assoc]
        congr 1
        conv => rhs; rw [← List.take_append_drop m.toNat buf]
        rw [List.drop_append_of_le_length (by omega)]
      rcases r with _ | _ | _ | _ <;> simp only [Pure.pure, M.pure, hcat]
  · rw [if_neg hl, show min buf.length m.toNat = buf.length by omega]
    by_cases h0 : buf = []
    · subst h0
      rw [rx_read_nil, if_pos (show ([] : List U8).length = 0 from rfl), List.length_nil, Nat.min_zero]
      simp [M.bind_def, Pure.pure, M.pure]
    · rw [if_neg (by simpa using h0), rx_read_eq B c _ w h0 (by omega)]

theorem readFrame_split (B : Bus W E) (fuel : Nat) (d : RawDevice) (buf : List U8) (w : W) :
    d.readFrame B fuel (buf, w) = (M.onSnd (rawHead B fuel d.rawSocket) >>= fun x => match x with
      | none => pure 0
      | some (p, av, ex) => rawTail B d.rawSocket buf.length p av ex) (buf, w) := by
  unfold RawDevice.readFrame RxCursor.new rawHead
  rw [M.bind_def, M.bind_def, M.onSnd_apply, M.onSnd_apply, M.bind_def, M.bind_def]
  dsimp only
  rcases d.rawSocket.getReceiveSize B fuel w with ⟨size | _ | _ | _, w1⟩ <;> try rfl
  dsimp only
  rw [M.bind_def, M.bind_def]
  rcases d.rawSocket.getRxReadPointer B w1 with ⟨ptr | _ | _ | _, w2⟩ <;> try rfl
  dsimp only [pure, M.pure]
  by_cases hz : size = 0
  · subst hz
    rfl
  rw [if_neg (by exact hz), if_neg hz, M.bind_def, M.bind_def, M.onSnd_apply, rx_head_eq]
  dsimp only
  unfold Bus.readBuf
  rcases hh : B.readFrame w2 d.rawSocket.rxBuffer ptr (List.replicate (min size.toNat 2) 0) with ⟨_ | _ | _ | _, hd, w3⟩ <;>
    try rfl
  have hlen := B.read_length w2 d.rawSocket.rxBuffer ptr (List.replicate (min size.toNat 2) 0)
  rw [hh] at hlen
  simp only [List.length_replicate] at hlen
  dsimp only
  have hs := size.isLt
  have hs0 : size.toNat ≠ 0 := fun e => hz (BitVec.eq_of_toNat_eq e)
  by_cases h1 : size.toNat = 1
  · rw [h1] at hlen ⊢
    match hd, hlen with
    | [x], _ => rfl
  · rw [show min size.toNat 2 = 2 by omega] at hlen ⊢
    match hd, hlen with
    | [hi, lo], _ =>
      dsimp only [Nat.sub_self, List.replicate_zero, List.append_nil, List.cons_append, List.nil_append]
      rw [if_neg (by decide)]
      show (_ >>= _ : M (List U8 × W) E Nat) (buf, w3) = rawTail B d.rawSocket buf.length ptr (size.toNat - 2)
        (hi.toNat * 256 + lo.toNat - 2) (buf, w3)
      rw [M.bind_def, rx_upto_eq]
      have hsz : (size - 2#16).toNat = size.toNat - 2 := by
        rw [BitVec.toNat_sub_of_le (BitVec.le_def.mpr (by show 2 ≤ _; omega))]
        rfl
      have hex : (RawDevice.saturatingSub (fromBeBytes hi lo) 2).toNat = hi.toNat * 256 + lo.toNat - 2 := by
        rw [saturatingSub_toNat, fromBeBytes_toNat]
        rfl
      have hexl : hi.toNat * 256 + lo.toNat - 2 < 65536 := by rw [← hex]; exact BitVec.isLt _
      generalize RawDevice.saturatingSub (fromBeBytes hi lo) 2 = ex at hex ⊢
      dsimp only
      rw [hsz, hex]
      generalize hi.toNat * 256 + lo.toNat - 2 = e at hex hexl ⊢
      generalize hav : size.toNat - 2 = av at hsz ⊢
      unfold rawTail
      rw [M.bind_def, M.bind_def]
      rcases (if min buf.length e = 0 then pure () else
        M.withPrefix (min av (min buf.length e)) (B.readSlice d.rawSocket.rxBuffer (ptr + 2#16)) :
          M (List U8 × W) E Unit) (buf, w3) with ⟨_ | _ | _ | _, st⟩ <;> try rfl
      dsimp only [pure, M.pure]
      rw [BitVec.toNat_ofNat, Nat.mod_eq_of_lt (show min av (min buf.length e) < 2 ^ 16 by omega)]
      generalize hk : min av (min buf.length e) = k
      have hc : ∀ c : RxCursor, c.sock = d.rawSocket → c.ptr = ptr + BitVec.ofNat 16 (2 + min av e) →
          ((c.commit B).onSnd >>= fun _ => M.pure k : M (List U8 × W) E Nat) =
            ((Socket.setRxReadPointer B d.rawSocket (ptr + BitVec.ofNat 16 (2 + min av e))).onSnd >>= fun _ => do
              (Socket.command B d.rawSocket Command.receive).onSnd
              M.pure k) := by
        intro c hs hp
        unfold RxCursor.commit
        rw [hs, hp, M.onSnd_bind, bind_assoc]
      rw [hc _ ?_ ?_]
      · split <;> rfl
      · split
        · rename_i hlt
          have hske : (ex - BitVec.ofNat 16 k).toNat = e - k := by
            rw [BitVec.toNat_sub_of_le (BitVec.le_def.mpr (by
              rw [BitVec.toNat_ofNat, Nat.mod_eq_of_lt (show k < 2 ^ 16 by omega)]; omega)), hex,
              BitVec.toNat_ofNat, Nat.mod_eq_of_lt (show k < 2 ^ 16 by omega)]
          have hska : (size - 2#16 - BitVec.ofNat 16 k).toNat = av - k := by
            rw [BitVec.toNat_sub_of_le (BitVec.le_def.mpr (by
              rw [BitVec.toNat_ofNat, Nat.mod_eq_of_lt (show k < 2 ^ 16 by omega), hsz]; omega)), hsz,
              BitVec.toNat_ofNat, Nat.mod_eq_of_lt (show k < 2 ^ 16 by omega)]
          show ptr + 2#16 + BitVec.ofNat 16 k + minU16 (size - 2#16 - BitVec.ofNat 16 k) (ex - BitVec.ofNat 16 k) = _
          rw [show minU16 (size - 2#16 - BitVec.ofNat 16 k) (ex - BitVec.ofNat 16 k) = BitVec.ofNat 16 (min av e - k) by
              apply BitVec.eq_of_toNat_eq
              rw [minU16_toNat, hske, hska, BitVec.toNat_ofNat]
              omega, BitVec.add_assoc, BitVec.add_assoc, ← BitVec.ofNat_add, ← BitVec.ofNat_add]
          congr 2
          omega
        · show ptr + 2#16 + BitVec.ofNat 16 k = _
          rw [BitVec.add_assoc, ← BitVec.ofNat_add]
          congr 2
          omega

end W5500.Spec
