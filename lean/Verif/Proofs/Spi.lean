import Verif.Spec.Spi
import Verif.Proofs.Bytes
/-! # The frame decoder -/

namespace W5500.Spec.ByteDev
open W5500
variable {C E : Type} (D : ByteDev C E)

theorem add_one_ofNat (a : U16) (n : Nat) : a + 1 + BitVec.ofNat 16 n = a + BitVec.ofNat 16 (n + 1) := by
  apply BitVec.eq_of_toNat_eq
  simp only [BitVec.toNat_add, BitVec.toNat_ofNat, show BitVec.toNat (1 : U16) = 1 from rfl]
  omega

/-- Read data phase in variable-length mode. -/
theorem xfer_read (k : Nat) (b : BitVec 5) (a : U16) (c : C) (d : List U8) :
    D.xfer k (.data b false a none) c d =
      (let r := D.readBytes c b a (min k d.length)
       (r.1 ++ d.drop k, k - d.length, .data b false (a + BitVec.ofNat 16 (min k d.length)) none, r.2)) := by
  induction d generalizing k a c with
  | nil => simp [xfer, readBytes]
  | cons x xs ih =>
    cases k with
    | zero => simp [xfer, readBytes]
    | succ k =>
      simp only [xfer, shift, nextData, ih, List.length_cons, Nat.add_min_add_right, readBytes,
        List.drop_succ_cons, List.cons_append, Nat.add_sub_add_right, Prod.mk.injEq, true_and, and_true]
      congr 1
      exact add_one_ofNat _ _

/-- Write data phase in variable-length mode. -/
theorem xfer_write (k : Nat) (b : BitVec 5) (a : U16) (c : C) (d : List U8) :
    (D.xfer k (.data b true a none) c d).2 =
      (k - d.length, .data b true (a + BitVec.ofNat 16 (min k d.length)) none,
        D.writeBytes c b a (d.take k)) := by
  induction d generalizing k a c with
  | nil => simp [xfer, writeBytes]
  | cons x xs ih =>
    cases k with
    | zero => simp [xfer, writeBytes]
    | succ k =>
      simp only [xfer, shift, nextData, ih, List.length_cons, Nat.add_min_add_right,
        Nat.add_sub_add_right, List.take_succ_cons, writeBytes, Prod.mk.injEq, true_and, and_true]
      congr 1
      exact add_one_ofNat _ _

theorem hiLo (a : U16) : a.extractLsb' 8 8 ++ a.extractLsb' 0 8 = a := by
  apply BitVec.eq_of_getLsbD_eq
  intro i hi
  rw [BitVec.getLsbD_append]
  split
  · simp; omega
  · simp; rw [show 8 + (i - 8) = i by omega]; simp; intro; omega

/-- The control byte of a four-wire read frame. -/
theorem ctrl_read (b : U8) :
    (b <<< 3).extractLsb' 3 5 = b.setWidth 5 ∧ (b <<< 3).getLsbD 2 = false ∧
    (b <<< 3).extractLsb' 0 2 = 0#2 := by
  refine ⟨?_, ?_, ?_⟩
  · apply BitVec.eq_of_getLsbD_eq; intro i hi; simp [hi]; intro; omega
  · simp
  · apply BitVec.eq_of_getLsbD_eq; intro i hi; simp; omega

/-- The control byte of a four-wire write frame. -/
theorem ctrl_write (b : U8) :
    ((b <<< 3) ||| 4#8).extractLsb' 3 5 = b.setWidth 5 ∧ ((b <<< 3) ||| 4#8).getLsbD 2 = true ∧
    ((b <<< 3) ||| 4#8).extractLsb' 0 2 = 0#2 := by
  revert b; decide +kernel

/-- The three header bytes of a transaction, with budget `k` of bytes. -/
theorem ops_header (k : Nat) (c : C) (a : U16) (x : U8) (o : SpiOp) :
    (D.ops (k + 3) .idle c [.write (toBeBytes a), .write [x], o]) =
      (let r := D.xfer k (.data (x.extractLsb' 3 5) (x.getLsbD 2) a (omLength (x.extractLsb' 0 2))) c o.data
       ([toBeBytes a, [x], match o with
          | .write d => d
          | .transferInPlace _ => r.1], r.2.2.2)) := by
  simp only [ops, toBeBytes, SpiOp.data, xfer, shift, hiLo]
  rfl

theorem xfer_zero (p : Phase) (c : C) (d : List U8) : D.xfer 0 p c d = (d, 0, p, c) := by
  cases d <;> rfl

/-- A transaction that fails within the header does nothing. -/
theorem ops_short (k : Nat) (hk : k ≤ 3) (c : C) (a : U16) (x : U8) (o : SpiOp) :
    (D.ops k .idle c [.write (toBeBytes a), .write [x], o]) = ([toBeBytes a, [x], o.data], c) := by
  match k, hk with
  | 0, _ => cases o <;> simp only [ops, xfer_zero, SpiOp.data]
  | 1, _ => cases o <;> simp only [ops, toBeBytes, xfer_zero, SpiOp.data, xfer, shift]
  | 2, _ => cases o <;> simp only [ops, toBeBytes, xfer_zero, SpiOp.data, xfer, shift]
  | 3, _ => cases o <;> simp only [ops, toBeBytes, xfer_zero, SpiOp.data, xfer, shift]

/-! ## Fixed-length mode -/

theorem xfer_fixed (b : BitVec 5) (a : U16) (c : C) (d : List U8) (l : Nat) (hl : d.length ≤ l) (h0 : 0 < l) :
    D.xfer d.length (.data b false a (some l)) c d =
      (let r := D.readBytes c b a d.length
       (r.1, 0, if d.length = l then .idle else .data b false (a + BitVec.ofNat 16 d.length) (some (l - d.length)),
        r.2)) := by
  induction d generalizing a c l with
  | nil => simp [xfer, readBytes]; omega
  | cons x xs ih =>
    simp only [List.length_cons, xfer, shift, nextData, readBytes]
    simp only [List.length_cons] at hl
    by_cases h1 : l ≤ 1
    · have hx : xs = [] := List.eq_nil_of_length_eq_zero (by omega)
      subst hx
      have : l = 1 := by simp at hl; omega
      subst this
      simp [xfer, readBytes]
    · rw [if_neg h1, ih _ _ (l - 1) (by omega) (by omega)]
      dsimp only
      have : (xs.length = l - 1) ↔ (xs.length + 1 = l) := by omega
      simp only [this, add_one_ofNat, Prod.mk.injEq, true_and, and_true]
      split
      · rfl
      · congr 2; omega

theorem spiBus_addr {E' : Type} (c : C) (a : U16) :
    (D.spiBus E').write (.idle, c) (toBeBytes a) = (.ok (), (.ctrl a, c)) := by
  simp [spiBus, toBeBytes, xfer, shift, hiLo]

theorem spiBus_ctrl {E' : Type} (c : C) (a : U16) (x : U8) :
    (D.spiBus E').write (.ctrl a, c) [x] =
      (.ok (), (.data (x.extractLsb' 3 5) (x.getLsbD 2) a (omLength (x.extractLsb' 0 2)), c)) := by
  simp [spiBus, xfer, shift]

theorem readBytes_add (c : C) (b : BitVec 5) (a : U16) (m n : Nat) :
    D.readBytes c b a (m + n) =
      (let r := D.readBytes c b a m
       let s := D.readBytes r.2 b (a + BitVec.ofNat 16 m) n
       (r.1 ++ s.1, s.2)) := by
  induction m generalizing c a with
  | zero => simp [readBytes]
  | succ m ih =>
    rw [show m + 1 + n = (m + n) + 1 by omega]
    simp only [readBytes, ih, add_one_ofNat, List.cons_append]

/-- A control byte for block `b`, read direction. -/
def CtrlRead (b : BitVec 5) (x : U8) : Prop := x.extractLsb' 3 5 = b ∧ x.getLsbD 2 = false

theorem CtrlRead.or (b : BitVec 5) (x m : U8) (hm : m = 1 ∨ m = 2 ∨ m = 3) (h : CtrlRead b x) :
    CtrlRead b (x ||| m) := by
  obtain ⟨h1, h2⟩ := h
  subst h1
  unfold CtrlRead
  rcases hm with rfl | rfl | rfl <;> revert x <;> decide +kernel

theorem or3 (x : U8) : x ||| 3#8 ||| 3#8 = x ||| 3#8 := by revert x; decide +kernel
theorem om_or3 (x : U8) : omLength ((x ||| 3#8).extractLsb' 0 2) = some 4 := by revert x; decide +kernel

theorem advance_ok (oc : Bool) (a : U16) (n : Nat) (h : oc = true → a.toNat + n ≤ 65535) :
    ThreeWire.advance oc a n = some (a + BitVec.ofNat 16 n) := by
  unfold ThreeWire.advance
  rw [if_neg]
  cases oc
  · simp
  · have := h rfl
    simp; omega

theorem chunk_ge4 {n : Nat} (h : 4 ≤ n) : ThreeWire.chunk n = (3#8, 4) := by
  simp [ThreeWire.chunk, h, ThreeWire.FIXED_DATA_LENGTH_MODE_4]

theorem add_ofNat_toNat (a : U16) (n : Nat) (h : a.toNat + n ≤ 65535) :
    (a + BitVec.ofNat 16 n).toNat = a.toNat + n := by
  simp only [BitVec.toNat_add, BitVec.toNat_ofNat]
  omega

theorem add_ofNat_add (a : U16) (m n : Nat) :
    a + BitVec.ofNat 16 m + BitVec.ofNat 16 n = a + BitVec.ofNat 16 (m + n) := by
  apply BitVec.eq_of_toNat_eq
  simp only [BitVec.toNat_add, BitVec.toNat_ofNat]
  omega

/-- The four-byte chunks of a read are in step with the chip. -/
theorem readLoop_quads {E' : Type} (oc : Bool) (b : BitVec 5) (k : Nat) (x : U8) (hx : CtrlRead b x) (c : C)
    (a : U16) (d : List U8) (hd : 4 * k ≤ d.length) (ho : oc = true → a.toNat + 4 * k ≤ 65535) :
    ThreeWire.readLoop oc (D.spiBus E') (.idle, c) x a d =
      (let r := D.readBytes c b a (4 * k)
       let t := ThreeWire.readLoop oc (D.spiBus E') (.idle, r.2) (if k = 0 then x else x ||| 3#8)
         (a + BitVec.ofNat 16 (4 * k)) (d.drop (4 * k))
       (t.1, r.1 ++ t.2.1, t.2.2)) := by
  induction k generalizing x c a d with
  | zero => simp [readBytes]
  | succ k ih =>
    have h4 : 4 ≤ d.length := by omega
    rw [ThreeWire.readLoop]
    rw [dif_neg (by intro h; simp [h] at h4)]
    have hlen : (d.take 4).length = 4 := by simp; omega
    obtain ⟨hc1, hc2⟩ := CtrlRead.or b x 3 (by simp) hx
    have hx' : CtrlRead b (x ||| 3#8) := ⟨hc1, hc2⟩
    change BitVec.extractLsb' 3 5 (x ||| 3#8) = b at hc1
    change (x ||| 3#8).getLsbD 2 = false at hc2
    have ht := D.xfer_fixed b a c (d.take 4) 4 (by omega) (by omega)
    rw [hlen, if_pos rfl] at ht
    simp only [chunk_ge4 h4, spiBus_addr, spiBus_ctrl, hc1, hc2, om_or3]
    simp only [spiBus, hlen, ht]
    rw [advance_ok oc a 4 (fun h => by have := ho h; omega)]
    dsimp only
    have ho' : oc = true → (a + BitVec.ofNat 16 4).toNat + 4 * k ≤ 65535 := by
      intro h
      have := ho h
      rw [add_ofNat_toNat _ _ (by omega)]; omega
    have := ih (x ||| 3#8) hx' (D.readBytes c b a 4).2 (a + BitVec.ofNat 16 4) (d.drop 4)
      (by simp; omega) ho'
    simp only [spiBus] at this
    rw [this]
    simp only [or3, ite_self, add_ofNat_add, List.drop_drop]
    rw [show 4 * (k + 1) = 4 + 4 * k by omega]
    simp only [readBytes_add D c b a 4 (4 * k), List.append_assoc]
    simp

/-- One chunk of a read, in a decoder mode that expects `l` bytes. -/
theorem readLoop_piece {E' : Type} (oc : Bool) (b : BitVec 5) (x m : U8) (n l : Nat) (c : C) (a : U16) (d : List U8)
    (hd : d ≠ []) (hch : ThreeWire.chunk d.length = (m, n)) (hn : n ≤ d.length) (hx : CtrlRead b (x ||| m))
    (hl : omLength ((x ||| m).extractLsb' 0 2) = some l) (hnl : n ≤ l) (h0 : 0 < l)
    (ho : oc = true → a.toNat + n ≤ 65535) :
    ThreeWire.readLoop oc (D.spiBus E') (.idle, c) x a d =
      (let r := D.readBytes c b a n
       let t := ThreeWire.readLoop oc (D.spiBus E')
         (if n = l then .idle else .data b false (a + BitVec.ofNat 16 n) (some (l - n)), r.2) (x ||| m)
         (a + BitVec.ofNat 16 n) (d.drop n)
       (t.1, r.1 ++ t.2.1, t.2.2)) := by
  have hlen : (d.take n).length = n := by simp; omega
  obtain ⟨hc1, hc2⟩ := hx
  have ht := D.xfer_fixed b a c (d.take n) l (by omega) h0
  rw [hlen] at ht
  rw [ThreeWire.readLoop, dif_neg hd]
  simp only [hch, spiBus_addr, spiBus_ctrl, hc1, hc2, hl]
  simp only [spiBus, hlen, ht, advance_ok oc a n ho]

theorem readLoop_nil {E' : Type} (oc : Bool) (S : SpiBus C E') (c : C) (x : U8) (a : U16) :
    ThreeWire.readLoop oc S c x a [] = (.ok (), [], c) := by
  rw [ThreeWire.readLoop, dif_pos rfl]

/-- The four-byte chunks of a write frame are decoded as *reads* (direction bit clear). -/
theorem writeLoop_quads {E' : Type} (oc : Bool) (b : BitVec 5) (k : Nat) (x : U8) (hx : CtrlRead b x) (c : C)
    (a : U16) (d : List U8) (hd : 4 * k ≤ d.length) (ho : oc = true → a.toNat + 4 * k ≤ 65535) :
    ThreeWire.writeLoop oc (D.spiBus E') (.idle, c) x a d =
      ThreeWire.writeLoop oc (D.spiBus E') (.idle, (D.readBytes c b a (4 * k)).2) (if k = 0 then x else x ||| 3#8)
         (a + BitVec.ofNat 16 (4 * k)) (d.drop (4 * k)) := by
  induction k generalizing x c a d with
  | zero => simp [readBytes]
  | succ k ih =>
    have h4 : 4 ≤ d.length := by omega
    rw [ThreeWire.writeLoop]
    rw [dif_neg (by intro h; simp [h] at h4)]
    have hlen : (d.take 4).length = 4 := by simp; omega
    obtain ⟨hc1, hc2⟩ := CtrlRead.or b x 3 (by simp) hx
    have hx' : CtrlRead b (x ||| 3#8) := ⟨hc1, hc2⟩
    change BitVec.extractLsb' 3 5 (x ||| 3#8) = b at hc1
    change (x ||| 3#8).getLsbD 2 = false at hc2
    have ht := D.xfer_fixed b a c (d.take 4) 4 (by omega) (by omega)
    rw [hlen, if_pos rfl] at ht
    simp only [chunk_ge4 h4, spiBus_addr, spiBus_ctrl, hc1, hc2, om_or3]
    simp only [spiBus, hlen, ht]
    rw [advance_ok oc a 4 (fun h => by have := ho h; omega)]
    dsimp only
    have ho' : oc = true → (a + BitVec.ofNat 16 4).toNat + 4 * k ≤ 65535 := by
      intro h
      have := ho h
      rw [add_ofNat_toNat _ _ (by omega)]; omega
    have := ih (x ||| 3#8) hx' (D.readBytes c b a 4).2 (a + BitVec.ofNat 16 4) (d.drop 4)
      (by simp; omega) ho'
    simp only [spiBus] at this
    rw [this]
    simp only [or3, ite_self, add_ofNat_add, List.drop_drop]
    rw [show 4 * (k + 1) = 4 + 4 * k by omega]
    simp only [readBytes_add D c b a 4 (4 * k)]
    simp

/-- One chunk of a write frame whose direction bit is clear: decoded as a read. -/
theorem writeLoop_piece {E' : Type} (oc : Bool) (b : BitVec 5) (x m : U8) (n l : Nat) (c : C) (a : U16) (d : List U8)
    (hd : d ≠ []) (hch : ThreeWire.chunk d.length = (m, n)) (hn : n ≤ d.length) (hx : CtrlRead b (x ||| m))
    (hl : omLength ((x ||| m).extractLsb' 0 2) = some l) (hnl : n ≤ l) (h0 : 0 < l)
    (ho : oc = true → a.toNat + n ≤ 65535) :
    ThreeWire.writeLoop oc (D.spiBus E') (.idle, c) x a d =
      ThreeWire.writeLoop oc (D.spiBus E')
         (if n = l then .idle else .data b false (a + BitVec.ofNat 16 n) (some (l - n)), (D.readBytes c b a n).2)
         (x ||| m) (a + BitVec.ofNat 16 n) (d.drop n) := by
  have hlen : (d.take n).length = n := by simp; omega
  obtain ⟨hc1, hc2⟩ := hx
  have ht := D.xfer_fixed b a c (d.take n) l (by omega) h0
  rw [hlen] at ht
  rw [ThreeWire.writeLoop, dif_neg hd]
  simp only [hch, spiBus_addr, spiBus_ctrl, hc1, hc2, hl]
  simp only [spiBus, hlen, ht, advance_ok oc a n ho]

theorem writeLoop_nil {E' : Type} (oc : Bool) (S : SpiBus C E') (c : C) (x : U8) (a : U16) :
    ThreeWire.writeLoop oc S c x a [] = (.ok (), c) := by
  rw [ThreeWire.writeLoop, dif_pos rfl]

end W5500.Spec.ByteDev
