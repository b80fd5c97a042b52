import Verif.Proofs.Spi
/-! # C01 – C05: the SPI buses -/

namespace W5500.Props
open W5500 Spec ByteDev
variable {C W E : Type}

/-! ## C01 -/

/-- **C01 (read).** A four-wire read frame on the SPI slave is the direct read of the addressed bytes. -/
theorem C01_read (D : ByteDev C E) (c : C) (block : U8) (addr : U16) (data : List U8) :
    FourWire.readFrame D.spiDevice c block addr data = D.bus.readFrame c block addr data := by
  obtain ⟨h1, h2, h3⟩ := ctrl_read block
  simp only [FourWire.readFrame, spiDevice, ByteDev.bus]
  split
  · rename_i c1 hc
    simp only [List.map_cons, List.map_nil, List.sum_cons, List.sum_nil, SpiOp.data, toBeBytes,
      List.length_cons, List.length_nil]
    rw [show 0 + 1 + 1 + (0 + 1 + (data.length + 0)) = data.length + 3 by omega]
    have := D.ops_header data.length c1 addr (block <<< 3) (.transferInPlace data)
    rw [toBeBytes] at this
    rw [this]
    simp only [h1, h2, h3, SpiOp.data, show omLength 0#2 = none from rfl, xfer_read]
    simp
  · rename_i e k c1 hc
    by_cases hk : 3 ≤ k
    · obtain ⟨k, rfl⟩ : ∃ j, k = j + 3 := ⟨k - 3, by omega⟩
      rw [ops_header]
      simp only [h1, h2, h3, SpiOp.data, show omLength 0#2 = none from rfl, xfer_read]
      simp only [List.getLastD_cons, List.getLastD_nil, Nat.add_sub_cancel, Prod.mk.injEq, true_and,
        List.append_cancel_left_eq, and_true]
      by_cases hl : k ≤ data.length
      · rw [Nat.min_eq_left hl]
      · rw [Nat.min_eq_right (by omega), List.drop_of_length_le (by omega), List.drop_of_length_le (by omega)]
    · rw [ops_short _ _ (by omega)]
      simp [show k - 3 = 0 by omega, readBytes, SpiOp.data]

/-- **C01 (write).** A four-wire write frame on the SPI slave is the direct write of the addressed bytes. -/
theorem C01_write (D : ByteDev C E) (c : C) (block : U8) (addr : U16) (data : List U8) :
    FourWire.writeFrame D.spiDevice c block addr data = D.bus.writeFrame c block addr data := by
  obtain ⟨h1, h2, h3⟩ := ctrl_write block
  have hm : FourWire.WRITE_MODE_MASK = 4#8 := rfl
  simp only [FourWire.writeFrame, spiDevice, ByteDev.bus, hm]
  split
  · rename_i c1 hc
    simp only [List.map_cons, List.map_nil, List.sum_cons, List.sum_nil, SpiOp.data, toBeBytes,
      List.length_cons, List.length_nil]
    rw [show 0 + 1 + 1 + (0 + 1 + (data.length + 0)) = data.length + 3 by omega]
    have := D.ops_header data.length c1 addr ((block <<< 3) ||| 4#8) (.write data)
    rw [toBeBytes] at this
    rw [this]
    simp only [h1, h2, h3, SpiOp.data, show omLength 0#2 = none from rfl, xfer_write]
    simp
  · rename_i e k c1 hc
    by_cases hk : 3 ≤ k
    · obtain ⟨k, rfl⟩ : ∃ j, k = j + 3 := ⟨k - 3, by omega⟩
      rw [ops_header]
      simp only [h1, h2, h3, SpiOp.data, show omLength 0#2 = none from rfl, xfer_write]
      simp
    · rw [ops_short _ _ (by omega)]
      simp [show k - 3 = 0 by omega, writeBytes]

/-- **C01.** The four-wire bus in front of any chip that follows the variable-length SPI framing *is* the bus
that accesses the chip's registers directly: the two `Bus` implementations are equal. Hence every driver operation
and every history of operations behaves identically on them, for every chip behaviour and every failing
transaction. -/
theorem C01_refinement (D : ByteDev C E) : FourWire.bus D.spiDevice = D.bus := by
  have hr : (FourWire.bus D.spiDevice).readFrame = D.bus.readFrame := by
    funext c b a d; exact C01_read D c b a d
  have hw : (FourWire.bus D.spiDevice).writeFrame = D.bus.writeFrame := by
    funext c b a d; exact C01_write D c b a d
  revert hr hw
  generalize FourWire.bus D.spiDevice = B1
  generalize D.bus = B2
  obtain ⟨r1, w1, l1⟩ := B1
  obtain ⟨r2, w2, l2⟩ := B2
  intro hr hw
  cases hr; cases hw; rfl

/-- A chip that is a plain register file, with a counter of transactions of which the `failAt`-th fails after `k`
bytes. -/
def regFile (failAt k : Nat) : ByteDev (Nat × (BitVec 5 → U16 → U8)) Unit where
  readByte c b a := (c.2 b a, c)
  writeByte c b a x := (c.1, fun b' a' => if b' = b ∧ a' = a then x else c.2 b' a')
  fault c := (if c.1 = failAt then some ((), k) else none, (c.1 + 1, c.2))

/-- Non-trivial instance: write two bytes across the address wrap, read three back through SPI. -/
example : (let B := FourWire.bus (regFile 9 0).spiDevice
    let r := B.writeFrame (0, fun _ a => a.setWidth 8) 0x2A 0xFFFF [0xAA, 0xBB]
    (B.readFrame r.2 0x0A 0xFFFE [0, 0, 0]).2.1) = [0xFE, 0xAA, 0xBB] := by decide +kernel

/-- Non-trivial failing instance: the write stops after 4 bytes, i.e. one data byte. -/
example : (let B := FourWire.bus (regFile 0 4).spiDevice
    let r := B.writeFrame (0, fun _ _ => 0) 1 0x10 [0xAA, 0xBB]
    (r.1, (B.readFrame r.2 1 0x10 [9, 9]).2.1)) = (.err (), [0xAA, 0]) := by decide +kernel

/-! ## C02 -/

/-- A three-wire chunk on the wire: address, control byte, data. -/
structure Piece where
  addr : Nat
  ctrl : U8
  data : List U8

/-- The three transfers of a chunk: address (big endian), control byte, data. -/
def Piece.wire (p : Piece) : List (List U8) := [be p.addr, [p.ctrl], p.data]

/-- `ps` splits `d` at `addr` as C02 demands: fours, then at most one two, then at most one one; concatenation is
the data; every chunk goes to the start address plus the bytes already sent, in block `b`. -/
structure Splits (b : BitVec 5) (addr : Nat) (d : List U8) (ps : List Piece) : Prop where
  sizes : ps.map (fun p => p.data.length) =
    List.replicate (d.length / 4) 4 ++ (if 2 ≤ d.length % 4 then [2] else []) ++
      (if d.length % 2 = 1 then [1] else [])
  covers : (ps.map Piece.data).flatten = d
  addrs : ∀ i (h : i < ps.length), ps[i].addr = addr + ((ps.take i).map (fun p => p.data.length)).sum
  block : ∀ p ∈ ps, p.ctrl.extractLsb' 3 5 = b

/-- `S` with a log of all transfers: bytes sent, and bytes received by an in-place transfer. -/
def spiLogged (S : SpiBus W E) : SpiBus (List (List U8 × List U8) × W) E where
  write s d :=
    let r := S.write s.2 d
    (r.1, (s.1 ++ [(d, [])], r.2))
  transferInPlace s d :=
    let r := S.transferInPlace s.2 d
    (r.1, r.2.1, (s.1 ++ [(d, r.2.1)], r.2.2))
  length s d := S.length s.2 d

theorem splits_cons {b : BitVec 5} {addr : Nat} {d : List U8} {m : U8} {n : Nat} (hd : d ≠ [])
    (hch : ThreeWire.chunk d.length = (m, n)) {x : U8} (hx : x.extractLsb' 3 5 = b) {ps : List Piece}
    (h : Splits b (addr + n) (d.drop n) ps) : Splits b addr d (⟨addr, x, d.take n⟩ :: ps) := by
  have hpos : 0 < d.length := List.length_pos_iff.mpr hd
  have hn : n ≤ d.length := by
    unfold ThreeWire.chunk at hch
    split at hch
    · cases hch; omega
    · split at hch <;> cases hch <;> omega
  constructor
  · have hs := h.sizes
    simp only [List.map_cons, hs, List.length_take, List.length_drop, Nat.min_eq_left hn]
    unfold ThreeWire.chunk at hch
    split at hch
    · cases hch
      rw [show d.length / 4 = (d.length - 4) / 4 + 1 by omega,
        show d.length % 4 = (d.length - 4) % 4 by omega,
        show d.length % 2 = (d.length - 4) % 2 by omega, List.replicate_succ]
      simp
    · split at hch <;> cases hch
      · rw [show d.length / 4 = 0 by omega, show (d.length - 2) / 4 = 0 by omega,
          if_neg (by omega : ¬ 2 ≤ (d.length - 2) % 4), if_pos (by omega : 2 ≤ d.length % 4),
          show d.length % 2 = (d.length - 2) % 2 by omega]
        simp
      · rw [show d.length = 1 by omega]; simp
  · simp [h.covers]
  · intro i hi
    cases i with
    | zero => simp
    | succ i =>
      have := h.addrs i (by simpa using hi)
      simp only [List.getElem_cons_succ, this, List.take_succ_cons, List.map_cons, List.length_take,
        List.sum_cons, Nat.min_eq_left hn]
      omega
  · intro p hp
    rcases List.mem_cons.mp hp with rfl | hp
    · exact hx
    · exact h.block p hp

theorem bsb_or (x m : U8) (hm : m = 1 ∨ m = 2 ∨ m = 3) :
    (x ||| m).extractLsb' 3 5 = x.extractLsb' 3 5 := by
  rcases hm with rfl | rfl | rfl <;> revert x <;> decide +kernel

theorem chunk_mode (len : Nat) : (ThreeWire.chunk len).1 = 1 ∨ (ThreeWire.chunk len).1 = 2 ∨
    (ThreeWire.chunk len).1 = 3 := by
  unfold ThreeWire.chunk
  split
  · exact .inr (.inr rfl)
  · split
    · exact .inr (.inl rfl)
    · exact .inl rfl

theorem splits_nil (b : BitVec 5) (addr : Nat) : Splits b addr [] [] := by
  constructor <;> simp

theorem chunk_le {len : Nat} (h : 0 < len) : (ThreeWire.chunk len).2 ≤ len := by
  unfold ThreeWire.chunk
  split
  · simpa
  · split
    · simpa
    · exact h

theorem splits_exists (b : BitVec 5) (x : U8) (hx : x.extractLsb' 3 5 = b) (d : List U8) (a : Nat) :
    ∃ ps, Splits b a d ps := by
  induction hn : d.length using Nat.strongRecOn generalizing d a with
  | _ n ih =>
  subst hn
  by_cases hd : d = []
  · subst hd; exact ⟨[], splits_nil _ _⟩
  have hpos : 0 < d.length := List.length_pos_iff.mpr hd
  have hcp := ThreeWire.chunk_pos d.length
  obtain ⟨ps, hps⟩ := ih (d.drop (ThreeWire.chunk d.length).2).length (by simp; omega)
    (d.drop (ThreeWire.chunk d.length).2) (a + (ThreeWire.chunk d.length).2) rfl
  exact ⟨_, splits_cons hd rfl hx hps⟩

/-- The transfers from log `log` to log `log'` are an initial part of a proper chunking of `d` at `a` in block `b`;
if the call succeeded (`r`), they are all of it and `out` is what the in-place transfers received. -/
def Chunked (b : BitVec 5) (a : Nat) (d : List U8) (log log' : List (List U8 × List U8)) (r : Res E Unit)
    (out : List U8) : Prop :=
  ∃ ps es k, Splits b a d ps ∧ log' = log ++ es ∧ es.map Prod.fst = (ps.flatMap Piece.wire).take k ∧
    (r = .ok () → (ps.flatMap Piece.wire).length ≤ k ∧ out = (es.map Prod.snd).flatten)

theorem Chunked.fail {b : BitVec 5} {a : Nat} {d : List U8} {log log' : List (List U8 × List U8)} {r : Res E Unit}
    {out : List U8} {x : U8} {m : U8} {n : Nat} (hd : d ≠ [])
    (hch : ThreeWire.chunk d.length = (m, n)) (hx : x.extractLsb' 3 5 = b) (j : Nat) (hj : j ≤ 3)
    (es : List (List U8 × List U8)) (hes : es.map Prod.fst = [be a, [x], d.take n].take j)
    (hl : log' = log ++ es) (hr : r ≠ .ok ()) : Chunked b a d log log' r out := by
  obtain ⟨ps, hps⟩ := splits_exists b x hx (d.drop n) (a + n)
  refine ⟨_, es, j, splits_cons hd hch hx hps, hl, ?_, fun h => absurd h hr⟩
  rw [hes, List.flatMap_cons, Piece.wire, List.take_append_of_le_length (by simpa using hj)]

theorem Chunked.cons {b : BitVec 5} {a : Nat} {d : List U8} {log log' : List (List U8 × List U8)} {r : Res E Unit}
    {out : List U8} {x : U8} {m : U8} {n : Nat} (hd : d ≠ [])
    (hch : ThreeWire.chunk d.length = (m, n)) (hx : x.extractLsb' 3 5 = b)
    (es : List (List U8 × List U8)) (hes : es.map Prod.fst = [be a, [x], d.take n])
    (h : Chunked b (a + n) (d.drop n) (log ++ es) log' r out) :
    Chunked b a d log log' r ((es.map Prod.snd).flatten ++ out) := by
  obtain ⟨ps, es', k, h1, h2, h3, h4⟩ := h
  refine ⟨_, es ++ es', k + 3, splits_cons hd hch hx h1, by rw [h2, List.append_assoc], ?_, ?_⟩
  · rw [List.map_append, hes, h3, List.flatMap_cons, Piece.wire]
    rfl
  · intro hr
    obtain ⟨h5, h6⟩ := h4 hr
    refine ⟨?_, by rw [h6]; simp⟩
    rw [List.flatMap_cons, Piece.wire, List.length_append]
    simp only [List.length_cons, List.length_nil]; omega

theorem spiLogged_write (S : SpiBus W E) (log : List (List U8 × List U8)) (w : W) (d : List U8) :
    (spiLogged S).write (log, w) d = ((S.write w d).1, (log ++ [(d, [])], (S.write w d).2)) := rfl

theorem spiLogged_transfer (S : SpiBus W E) (log : List (List U8 × List U8)) (w : W) (d : List U8) :
    (spiLogged S).transferInPlace (log, w) d =
      ((S.transferInPlace w d).1, (S.transferInPlace w d).2.1,
        (log ++ [(d, (S.transferInPlace w d).2.1)], (S.transferInPlace w d).2.2)) := rfl

theorem writeLoop_log (oc : Bool) (S : SpiBus W E) (x : U8) (d : List U8) (a : U16)
    (h : a.toNat + d.length ≤ 65535) (log : List (List U8 × List U8)) (w : W) :
    Chunked (x.extractLsb' 3 5) a.toNat d log (ThreeWire.writeLoop oc (spiLogged S) (log, w) x a d).2.1
      (ThreeWire.writeLoop oc (spiLogged S) (log, w) x a d).1 [] := by
  induction hn : d.length using Nat.strongRecOn generalizing x d a log w with
  | _ n ih =>
  subst hn
  by_cases hd : d = []
  · subst hd
    exact ⟨[], [], 0, splits_nil _ _, by simp [writeLoop_nil], by simp, by simp⟩
  have hpos : 0 < d.length := List.length_pos_iff.mpr hd
  have hcl := chunk_le hpos
  have hcp := ThreeWire.chunk_pos d.length
  have hcm := chunk_mode d.length
  obtain ⟨m, n, hch⟩ : ∃ m n, ThreeWire.chunk d.length = (m, n) := ⟨_, _, rfl⟩
  rw [hch] at hcl hcp hcm
  dsimp only at hcl hcp hcm
  have hadv := advance_ok oc a n (fun _ => by omega)
  have hto := add_ofNat_toNat a n (by omega)
  have hx : (x ||| m).extractLsb' 3 5 = x.extractLsb' 3 5 := bsb_or x m hcm
  have hbe : toBeBytes a = be a.toNat := toBeBytes_eq_be a
  rw [ThreeWire.writeLoop, dif_neg hd]
  simp only [hch, hadv, spiLogged_write]
  generalize S.write w (toBeBytes a) = r1
  obtain ⟨_ | _ | _ | _, w1⟩ := r1 <;> dsimp only
  rotate_left
  iterate 3 exact Chunked.fail hd hch hx 1 (by omega) [(toBeBytes a, [])] (by simp [hbe]) rfl (by simp)
  simp only [spiLogged_write]
  generalize S.write w1 [x ||| m] = r2
  obtain ⟨_ | _ | _ | _, w2⟩ := r2 <;> dsimp only
  rotate_left
  iterate 3 exact Chunked.fail hd hch hx 2 (by omega) [(toBeBytes a, []), ([x ||| m], [])] (by simp [hbe]) (by simp) (by simp)
  simp only [spiLogged_write]
  generalize S.write w2 (d.take n) = r3
  obtain ⟨_ | _ | _ | _, w3⟩ := r3 <;> dsimp only
  rotate_left
  iterate 3 exact Chunked.fail hd hch hx 3 (by omega) [(toBeBytes a, []), ([x ||| m], []), (d.take n, [])] (by simp [hbe]) (by simp) (by simp)
  have := ih (d.drop n).length (by simp; omega) (x ||| m) (d.drop n) (a + BitVec.ofNat 16 n)
      (by rw [hto]; simp; omega) (log ++ [(toBeBytes a, []), ([x ||| m], []), (d.take n, [])]) w3 rfl
  rw [hx, hto] at this
  have := Chunked.cons hd hch hx _ (by simp [hbe]) this
  simpa using this

theorem readLoop_log (oc : Bool) (S : SpiBus W E) (x : U8) (d : List U8) (a : U16)
    (h : a.toNat + d.length ≤ 65535) (log : List (List U8 × List U8)) (w : W) :
    Chunked (x.extractLsb' 3 5) a.toNat d log (ThreeWire.readLoop oc (spiLogged S) (log, w) x a d).2.2.1
      (ThreeWire.readLoop oc (spiLogged S) (log, w) x a d).1
      (ThreeWire.readLoop oc (spiLogged S) (log, w) x a d).2.1 := by
  induction hn : d.length using Nat.strongRecOn generalizing x d a log w with
  | _ n ih =>
  subst hn
  by_cases hd : d = []
  · subst hd
    exact ⟨[], [], 0, splits_nil _ _, by simp [readLoop_nil], by simp, by simp [readLoop_nil]⟩
  have hpos : 0 < d.length := List.length_pos_iff.mpr hd
  have hcl := chunk_le hpos
  have hcp := ThreeWire.chunk_pos d.length
  have hcm := chunk_mode d.length
  obtain ⟨m, n, hch⟩ : ∃ m n, ThreeWire.chunk d.length = (m, n) := ⟨_, _, rfl⟩
  rw [hch] at hcl hcp hcm
  dsimp only at hcl hcp hcm
  have hadv := advance_ok oc a n (fun _ => by omega)
  have hto := add_ofNat_toNat a n (by omega)
  have hx : (x ||| m).extractLsb' 3 5 = x.extractLsb' 3 5 := bsb_or x m hcm
  have hbe : toBeBytes a = be a.toNat := toBeBytes_eq_be a
  rw [ThreeWire.readLoop, dif_neg hd]
  simp only [hch, hadv, spiLogged_write]
  generalize S.write w (toBeBytes a) = r1
  obtain ⟨_ | _ | _ | _, w1⟩ := r1 <;> dsimp only
  rotate_left
  iterate 3 exact Chunked.fail hd hch hx 1 (by omega) [(toBeBytes a, [])] (by simp [hbe]) rfl (by simp)
  simp only [spiLogged_write]
  generalize S.write w1 [x ||| m] = r2
  obtain ⟨_ | _ | _ | _, w2⟩ := r2 <;> dsimp only
  rotate_left
  iterate 3 exact Chunked.fail hd hch hx 2 (by omega) [(toBeBytes a, []), ([x ||| m], [])] (by simp [hbe]) (by simp) (by simp)
  simp only [spiLogged_transfer]
  generalize S.transferInPlace w2 (d.take n) = r3
  obtain ⟨_ | _ | _ | _, y, w3⟩ := r3 <;> dsimp only
  rotate_left
  iterate 3 exact Chunked.fail hd hch hx 3 (by omega) [(toBeBytes a, []), ([x ||| m], []), (d.take n, y)] (by simp [hbe]) (by simp) (by simp)
  have := ih (d.drop n).length (by simp; omega) (x ||| m) (d.drop n) (a + BitVec.ofNat 16 n)
      (by rw [hto]; simp; omega) (log ++ [(toBeBytes a, []), ([x ||| m], []), (d.take n, y)]) w3 rfl
  rw [hx, hto] at this
  have := Chunked.cons hd hch hx _ (by simp [hbe]) this
  simpa using this

theorem ctrl_write3 (b : U8) : ((b <<< 3) ||| ThreeWire.WRITE_MODE_MASK).extractLsb' 3 5 = b.setWidth 5 ∧
    ((b <<< 3) ||| ThreeWire.WRITE_MODE_MASK).getLsbD 2 = false ∧
    ((b <<< 3) ||| ThreeWire.WRITE_MODE_MASK).extractLsb' 0 2 = 2 := by
  revert b; decide +kernel

/-- **C02 (write).** On any SPI bus, the transfers of a three-wire write frame are an initial part of a proper
chunking of the data (the whole chunking if the call succeeds). -/
theorem C02_write (oc : Bool) (S : SpiBus W E) (block : U8) (addr : U16) (data : List U8)
    (h : addr.toNat + data.length ≤ 65535) (log : List (List U8 × List U8)) (w : W) :
    Chunked (block.setWidth 5) addr.toNat data log
      ((ThreeWire.bus oc (spiLogged S)).writeFrame (log, w) block addr data).2.1
      ((ThreeWire.bus oc (spiLogged S)).writeFrame (log, w) block addr data).1 [] := by
  have := writeLoop_log oc S ((block <<< 3) ||| ThreeWire.WRITE_MODE_MASK) data addr h log w
  rwa [(ctrl_write3 block).1] at this

/-- **C02 (read).** The same for reads; and a successful read returns what the in-place transfers received, in
order. -/
theorem C02_read (oc : Bool) (S : SpiBus W E) (block : U8) (addr : U16) (data : List U8)
    (h : addr.toNat + data.length ≤ 65535) (log : List (List U8 × List U8)) (w : W) :
    Chunked (block.setWidth 5) addr.toNat data log
      ((ThreeWire.bus oc (spiLogged S)).readFrame (log, w) block addr data).2.2.1
      ((ThreeWire.bus oc (spiLogged S)).readFrame (log, w) block addr data).1
      ((ThreeWire.bus oc (spiLogged S)).readFrame (log, w) block addr data).2.1 := by
  have := readLoop_log oc S (block <<< 3) data addr h log w
  rwa [(ctrl_read block).1] at this

/-- An SPI bus that echoes inverted bytes and never fails. -/
def echo : SpiBus Unit Unit where
  write w _ := (.ok (), w)
  transferInPlace w d := (.ok (), d.map (~~~ ·), w)
  length := by simp

/-- Non-trivial instance: seven bytes go out as 4 + 2 + 1. -/
example : ((ThreeWire.bus true (spiLogged echo)).writeFrame ([], ()) 1 0x24 [1, 2, 3, 4, 5, 6, 7]).2.1.map Prod.fst =
    [[0, 0x24], [11], [1, 2, 3, 4], [0, 0x28], [11], [5, 6], [0, 0x2A], [11], [7]] := by decide +kernel

/-! ## C03 -/

/-- **C03 (lengths 0, 1, 2 and multiples of 4).** A three-wire read of such a length is decoded by the chip in
fixed-length mode as a read of exactly the requested bytes, and the decoder is idle again afterwards. Missing for
the full C03: all other lengths, see `C03_in_step_iff`. -/
theorem C03_read_partial (oc : Bool) (D : ByteDev C E) (c : C) (block : U8) (addr : U16) (data : List U8)
    (hl : data.length ≤ 2 ∨ 4 ∣ data.length) (ho : oc = true → addr.toNat + data.length ≤ 65535) :
    (ThreeWire.bus oc (D.spiBus E)).readFrame (.idle, c) block addr data =
      (.ok (), (D.readBytes c (block.setWidth 5) addr data.length).1,
        (.idle, (D.readBytes c (block.setWidth 5) addr data.length).2)) := by
  change ThreeWire.readLoop oc (D.spiBus E) (.idle, c) (block <<< 3) addr data = _
  obtain ⟨h1, h2, h3⟩ := ctrl_read block
  have hx : CtrlRead (block.setWidth 5) (block <<< 3) := ⟨h1, h2⟩
  by_cases h4 : 4 ∣ data.length
  · obtain ⟨k, hk⟩ := h4
    rw [D.readLoop_quads oc _ k _ hx c addr data (by omega) (fun h => by have := ho h; omega)]
    rw [List.drop_of_length_le (by omega), hk]
    simp [readLoop_nil]
  · have hl2 : data.length = 1 ∨ data.length = 2 := by
      have h0 : data.length ≠ 0 := fun h => h4 (by rw [h]; exact ⟨0, rfl⟩)
      rcases hl with h | h
      · omega
      · exact absurd h h4
    have hd : data ≠ [] := by intro h; simp [h] at hl2
    rcases hl2 with hl2 | hl2
    · rw [D.readLoop_piece oc (block.setWidth 5) _ 1 1 1 c addr data hd (by rw [hl2]; rfl) (by omega)
        (CtrlRead.or _ _ _ (by simp) hx) (by clear hx h1 h2 h3; revert block; decide +kernel) (by omega) (by omega)
        (fun h => by have := ho h; omega)]
      rw [List.drop_of_length_le (by omega), hl2]
      simp [readLoop_nil]
    · rw [D.readLoop_piece oc (block.setWidth 5) _ 2 2 2 c addr data hd (by rw [hl2]; rfl) (by omega)
        (CtrlRead.or _ _ _ (by simp) hx) (by clear hx h1 h2 h3; revert block; decide +kernel) (by omega) (by omega)
        (fun h => by have := ho h; omega)]
      rw [List.drop_of_length_le (by omega), hl2]
      simp [readLoop_nil]

/-- One or two bytes in four-byte mode leave the decoder in the data phase. -/
theorem readLoop_short4 (oc : Bool) (D : ByteDev C E) (b : BitVec 5) (c : C) (x : U8) (hx : CtrlRead b x) (a : U16)
    (d : List U8) (h : d.length = 1 ∨ d.length = 2)
    (hm : omLength ((x ||| (ThreeWire.chunk d.length).1).extractLsb' 0 2) = some 4)
    (ho : oc = true → a.toNat + d.length ≤ 65535) :
    (ThreeWire.readLoop oc (D.spiBus E) (.idle, c) x a d).2.2 =
      (.data b false (a + BitVec.ofNat 16 d.length) (some (4 - d.length)), (D.readBytes c b a d.length).2) := by
  have hd : d ≠ [] := by intro h'; simp [h'] at h
  rcases h with h | h
  · rw [h] at hm
    rw [D.readLoop_piece oc b x 1 1 4 c a d hd (by rw [h]; rfl) (by omega) (CtrlRead.or _ _ _ (by simp) hx) hm
      (by omega) (by omega) (fun h' => by have := ho h'; omega), List.drop_of_length_le (by omega), h]
    simp [readLoop_nil]
  · rw [h] at hm
    rw [D.readLoop_piece oc b x 2 2 4 c a d hd (by rw [h]; rfl) (by omega) (CtrlRead.or _ _ _ (by simp) hx) hm
      (by omega) (by omega) (fun h' => by have := ho h'; omega), List.drop_of_length_le (by omega), h]
    simp [readLoop_nil]

theorem om_or3' (x m : U8) (hm : m = 1 ∨ m = 2 ∨ m = 3) :
    omLength ((x ||| 3#8 ||| m).extractLsb' 0 2) = some 4 := by
  rcases hm with rfl | rfl | rfl <;> revert x <;> decide +kernel

/-- A decoder that still expects two data bytes swallows the address, takes the control byte for an address high
byte and the data byte for an address low byte. -/
theorem readLoop_late (oc : Bool) (D : ByteDev C E) (b : BitVec 5) (c : C) (x y : U8) (a0 a : U16)
    (ho : oc = true → a.toNat + 1 ≤ 65535) :
    (ThreeWire.readLoop oc (D.spiBus E) (.data b false a0 (some 2), c) x a [y]).2.2 =
      (.ctrl ((x ||| 1#8) ++ y), (D.readBytes c b a0 2).2) := by
  rw [ThreeWire.readLoop, dif_neg (by simp)]
  have h1 : ThreeWire.chunk [y].length = (1#8, 1) := rfl
  simp only [h1]
  have hw : (D.spiBus E).write (.data b false a0 (some 2), c) (toBeBytes a) =
      (.ok (), (.idle, (D.readBytes c b a0 2).2)) := by
    have := D.xfer_fixed b a0 c (toBeBytes a) 2 (by simp [toBeBytes]) (by omega)
    simp only [spiBus, this]
    simp [toBeBytes]
  simp only [hw, advance_ok oc a 1 ho]
  simp [spiBus, xfer, shift, readLoop_nil]

/-- **C03 is false for every other length**: whenever the length is neither 0, 1, 2 nor a multiple of 4, the chip's
decoder is not idle after the frame, for every chip, block and address. So chip and driver stay in step exactly for
these lengths. -/
theorem C03_in_step_iff (oc : Bool) (D : ByteDev C E) (c : C) (block : U8) (addr : U16) (data : List U8)
    (ho : oc = true → addr.toNat + data.length ≤ 65535) :
    ((ThreeWire.bus oc (D.spiBus E)).readFrame (.idle, c) block addr data).2.2.1 = .idle ↔
      data.length ≤ 2 ∨ 4 ∣ data.length := by
  constructor
  case mpr => intro h; rw [C03_read_partial oc D c block addr data h ho]
  intro hidle
  apply Decidable.byContradiction
  intro hl
  revert hidle
  change (ThreeWire.readLoop oc (D.spiBus E) (.idle, c) (block <<< 3) addr data).2.2.1 ≠ _
  obtain ⟨h1, h2, h3⟩ := ctrl_read block
  have hx : CtrlRead (block.setWidth 5) (block <<< 3) := ⟨h1, h2⟩
  have hadd : ∀ n, n ≤ data.length → oc = true →
      (addr + BitVec.ofNat 16 n).toNat + (data.length - n) ≤ 65535 := by
    intro n hn h
    have := ho h
    rw [add_ofNat_toNat _ _ (by omega)]; omega
  have hk : data.length = 4 * (data.length / 4) + data.length % 4 := by omega
  have hr : data.length % 4 ≠ 0 := by omega
  generalize data.length / 4 = k at hk
  rw [D.readLoop_quads oc _ k _ hx c addr data (by omega) (fun h => by have := ho h; omega)]
  dsimp only
  have hrest : (data.drop (4 * k)).length = data.length % 4 := by simp; omega
  have hadd' : ∀ n, n ≤ data.length % 4 → oc = true →
      (addr + BitVec.ofNat 16 (4 * k)).toNat + n ≤ 65535 := by
    intro n hn h
    have := hadd (4 * k) (by omega) h
    omega
  generalize (D.readBytes c (block.setWidth 5) addr (4 * k)).2 = c'
  generalize addr + BitVec.ofNat 16 (4 * k) = a' at hadd'
  generalize data.drop (4 * k) = d' at hrest
  generalize hgr : data.length % 4 = r at hrest hr hk hadd'
  have hr4 : r < 4 := by omega
  by_cases h0 : k = 0
  · -- three bytes: two in step, then one in four-byte mode
    have : r = 3 := by omega
    subst this
    rw [if_pos h0]
    have hd : d' ≠ [] := by intro h'; simp [h'] at hrest
    rw [D.readLoop_piece oc (block.setWidth 5) _ 2 2 2 c' a' d' hd (by rw [hrest]; rfl) (by omega)
        (CtrlRead.or _ _ _ (by simp) hx) (by clear hx h1 h2 h3; revert block; decide +kernel) (by omega) (by omega)
        (hadd' 2 (by omega))]
    dsimp only
    rw [if_pos rfl]
    rw [readLoop_short4 oc D (block.setWidth 5) _ _ (CtrlRead.or _ _ _ (by simp) hx) _ (d'.drop 2)
      (by simp; omega)
      (by rw [List.length_drop, hrest]; clear hx h1 h2 h3; revert block; decide +kernel)
      (fun h => by
        rw [add_ofNat_toNat _ _ (by have := hadd' 2 (by omega) h; omega)]
        have := hadd' 3 (by omega) h
        simp; omega)]
    simp
  · rw [if_neg h0]
    have hx3 : CtrlRead (block.setWidth 5) (block <<< 3 ||| 3#8) := CtrlRead.or _ _ _ (by simp) hx
    by_cases h3' : r = 3
    · subst h3'
      have hd : d' ≠ [] := by intro h'; simp [h'] at hrest
      rw [D.readLoop_piece oc (block.setWidth 5) _ 2 2 4 c' a' d' hd (by rw [hrest]; rfl) (by omega)
        (CtrlRead.or _ _ _ (by simp) hx3) (om_or3' _ _ (by simp)) (by omega) (by omega)
        (hadd' 2 (by omega))]
      dsimp only
      obtain ⟨y, hy⟩ : ∃ y, d'.drop 2 = [y] := List.length_eq_one_iff.mp (by simp; omega)
      rw [hy, if_neg (by omega)]
      rw [readLoop_late oc D _ _ _ _ _ _ (fun h => by
        rw [add_ofNat_toNat _ _ (by have := hadd' 2 (by omega) h; omega)]
        have := hadd' 3 (by omega) h
        omega)]
      simp
    · rw [readLoop_short4 oc D (block.setWidth 5) _ _ hx3 _ d' (by omega)
        (om_or3' _ _ (chunk_mode _)) (by rw [hrest]; exact hadd' r (by omega))]
      simp

/-- The damage in a history: after a three-byte read (in step or not, its data is right) the next frame does not
reach the chip: reading the version register (address 0x39 of block 0, value 4) gives 0, with no error. -/
theorem C03_refuted : ∃ c : Nat × (BitVec 5 → U16 → U8),
    (let B := ThreeWire.bus true ((regFile 0 0).spiBus Unit)
     let r := B.readFrame (.idle, c) 0 0x39 [0]
     let s := B.readFrame (.idle, c) 0 0x09 [0, 0, 0]
     let t := B.readFrame s.2.2 0 0x39 [0]
     r.1 = .ok () ∧ r.2.1 = [4] ∧ s.1 = .ok () ∧ t.1 = .ok () ∧ t.2.1 = [0]) :=
  ⟨(0, fun b a => if b = 0 ∧ a = 0x39 then 4 else 0), by decide +kernel⟩

/-- Non-trivial instance of `C03_read_partial`: eight bytes. -/
example : ((ThreeWire.bus true ((regFile 0 0).spiBus Unit)).readFrame (.idle, (0, fun _ a => a.setWidth 8)) 3 0x10
    [0, 0, 0, 0, 0, 0, 0, 0]).2.1 = [0x10, 0x11, 0x12, 0x13, 0x14, 0x15, 0x16, 0x17] := by decide +kernel

/-! ## C04 -/

theorem writeLoop_short4 (oc : Bool) (D : ByteDev C E) (b : BitVec 5) (c : C) (x : U8) (hx : CtrlRead b x) (a : U16)
    (d : List U8) (h : d.length = 1 ∨ d.length = 2)
    (hm : omLength ((x ||| (ThreeWire.chunk d.length).1).extractLsb' 0 2) = some 4)
    (ho : oc = true → a.toNat + d.length ≤ 65535) :
    ThreeWire.writeLoop oc (D.spiBus E) (.idle, c) x a d =
      (.ok (), .data b false (a + BitVec.ofNat 16 d.length) (some (4 - d.length)),
        (D.readBytes c b a d.length).2) := by
  have hd : d ≠ [] := by intro h'; simp [h'] at h
  rcases h with h | h
  · rw [h] at hm
    rw [D.writeLoop_piece oc b x 1 1 4 c a d hd (by rw [h]; rfl) (by omega) (CtrlRead.or _ _ _ (by simp) hx) hm
      (by omega) (by omega) (fun h' => by have := ho h'; omega), List.drop_of_length_le (by omega), h]
    simp [writeLoop_nil]
  · rw [h] at hm
    rw [D.writeLoop_piece oc b x 2 2 4 c a d hd (by rw [h]; rfl) (by omega) (CtrlRead.or _ _ _ (by simp) hx) hm
      (by omega) (by omega) (fun h' => by have := ho h'; omega), List.drop_of_length_le (by omega), h]
    simp [writeLoop_nil]

theorem writeLoop_late (oc : Bool) (D : ByteDev C E) (b : BitVec 5) (c : C) (x y : U8) (a0 a : U16)
    (ho : oc = true → a.toNat + 1 ≤ 65535) :
    ThreeWire.writeLoop oc (D.spiBus E) (.data b false a0 (some 2), c) x a [y] =
      (.ok (), .ctrl ((x ||| 1#8) ++ y), (D.readBytes c b a0 2).2) := by
  rw [ThreeWire.writeLoop, dif_neg (by simp)]
  have h1 : ThreeWire.chunk [y].length = (1#8, 1) := rfl
  simp only [h1]
  have hw : (D.spiBus E).write (.data b false a0 (some 2), c) (toBeBytes a) =
      (.ok (), (.idle, (D.readBytes c b a0 2).2)) := by
    have := D.xfer_fixed b a0 c (toBeBytes a) 2 (by simp [toBeBytes]) (by omega)
    simp only [spiBus, this]
    simp [toBeBytes]
  simp only [hw, advance_ok oc a 1 ho]
  simp [spiBus, xfer, shift, writeLoop_nil]

/-- **C04 is false for every frame.** Whatever is written through the three-wire bus, the chip only ever sees
*reads*: its state afterwards is the state after reading some number of bytes at the address, while the driver
reports success. (`WRITE_MODE_MASK` is bit 1, the direction bit of the control byte is bit 2.) -/
theorem C04_refuted (oc : Bool) (D : ByteDev C E) (c : C) (block : U8) (addr : U16) (data : List U8)
    (ho : oc = true → addr.toNat + data.length ≤ 65535) :
    ((ThreeWire.bus oc (D.spiBus E)).writeFrame (.idle, c) block addr data).1 = .ok () ∧
    ∃ n, n ≤ data.length + 1 ∧
      ((ThreeWire.bus oc (D.spiBus E)).writeFrame (.idle, c) block addr data).2.2 =
        (D.readBytes c (block.setWidth 5) addr n).2 := by
  change (ThreeWire.writeLoop oc (D.spiBus E) (.idle, c) _ addr data).1 = _ ∧ ∃ n, n ≤ data.length + 1 ∧
    (ThreeWire.writeLoop oc (D.spiBus E) (.idle, c) _ addr data).2.2 = _
  obtain ⟨h1, h2, h3⟩ := ctrl_write3 block
  have hx : CtrlRead (block.setWidth 5) (block <<< 3 ||| ThreeWire.WRITE_MODE_MASK) := ⟨h1, h2⟩
  have hadd : ∀ n, n ≤ data.length → oc = true →
      (addr + BitVec.ofNat 16 n).toNat + (data.length - n) ≤ 65535 := by
    intro n hn h
    have := ho h
    rw [add_ofNat_toNat _ _ (by omega)]; omega
  have hk : data.length = 4 * (data.length / 4) + data.length % 4 := by omega
  generalize data.length / 4 = k at hk
  rw [D.writeLoop_quads oc _ k _ hx c addr data (by omega) (fun h => by have := ho h; omega)]
  have hrest : (data.drop (4 * k)).length = data.length % 4 := by simp; omega
  have hadd' : ∀ n, n ≤ data.length % 4 → oc = true →
      (addr + BitVec.ofNat 16 (4 * k)).toNat + n ≤ 65535 := by
    intro n hn h
    have := hadd (4 * k) (by omega) h
    omega
  have hread : ∀ n, (D.readBytes (D.readBytes c (block.setWidth 5) addr (4 * k)).2 (block.setWidth 5)
      (addr + BitVec.ofNat 16 (4 * k)) n).2 = (D.readBytes c (block.setWidth 5) addr (4 * k + n)).2 := by
    intro n; rw [readBytes_add]
  generalize (D.readBytes c (block.setWidth 5) addr (4 * k)).2 = c' at hread
  generalize addr + BitVec.ofNat 16 (4 * k) = a' at hadd' hread
  generalize data.drop (4 * k) = d' at hrest
  generalize hgr : data.length % 4 = r at hrest hk hadd'
  have hr4 : r < 4 := by omega
  have hread0 := hread 0
  simp only [readBytes] at hread0
  match r, hr4, hrest, hadd', hk with
  | 0, _, hrest, _, hk =>
    rw [List.eq_nil_of_length_eq_zero hrest, writeLoop_nil]
    exact ⟨rfl, 4 * k, by omega, hread0⟩
  | 1, _, hrest, hadd', hk =>
    rw [writeLoop_short4 oc D (block.setWidth 5) c' _ (by
      split
      · exact hx
      · exact CtrlRead.or _ _ _ (by simp) hx) a' d'
      (by omega) (by
        rw [hrest]
        split
        · clear hx h1 h2 h3 hread hread0; revert block; decide +kernel
        · exact om_or3' _ _ (by simp [ThreeWire.chunk, ThreeWire.FIXED_DATA_LENGTH_MODE_1]))
      (by rw [hrest]; exact hadd' 1 (by omega))]
    exact ⟨rfl, 4 * k + 1, by omega, by rw [hrest]; exact hread 1⟩
  | 2, _, hrest, hadd', hk =>
    by_cases h0 : k = 0
    · have hd : d' ≠ [] := by intro h'; simp [h'] at hrest
      rw [if_pos h0, D.writeLoop_piece oc (block.setWidth 5) _ 2 2 2 c' a' d' hd (by rw [hrest]; rfl) (by omega)
        (CtrlRead.or _ _ _ (by simp) hx) (by clear hx h1 h2 h3 hread hread0; revert block; decide +kernel) (by omega) (by omega)
        (hadd' 2 (by omega)), List.drop_of_length_le (by omega), writeLoop_nil]
      exact ⟨rfl, 4 * k + 2, by omega, hread 2⟩
    · rw [if_neg h0, writeLoop_short4 oc D (block.setWidth 5) c' _ (CtrlRead.or _ _ _ (by simp) hx) a' d'
        (by omega) (om_or3' _ _ (chunk_mode _)) (by rw [hrest]; exact hadd' 2 (by omega))]
      exact ⟨rfl, 4 * k + 2, by omega, by rw [hrest]; exact hread 2⟩
  | 3, _, hrest, hadd', hk =>
    have hd : d' ≠ [] := by intro h'; simp [h'] at hrest
    obtain ⟨y, hy⟩ : ∃ y, d'.drop 2 = [y] := List.length_eq_one_iff.mp (by simp; omega)
    have ho1 : oc = true → (a' + BitVec.ofNat 16 2).toNat + 1 ≤ 65535 := fun h => by
        rw [add_ofNat_toNat _ _ (by have := hadd' 2 (by omega) h; omega)]
        have := hadd' 3 (by omega) h
        omega
    by_cases h0 : k = 0
    · rw [if_pos h0, D.writeLoop_piece oc (block.setWidth 5) _ 2 2 2 c' a' d' hd (by rw [hrest]; rfl) (by omega)
        (CtrlRead.or _ _ _ (by simp) hx) (by clear hx h1 h2 h3 hread hread0; revert block; decide +kernel) (by omega) (by omega)
        (hadd' 2 (by omega)), if_pos rfl, hy]
      rw [writeLoop_short4 oc D (block.setWidth 5) _ _ (CtrlRead.or _ _ _ (by simp) hx) _ [y]
        (by simp) (by rw [List.length_singleton]; clear hx h1 h2 h3 hread hread0; revert block; decide +kernel) ho1]
      refine ⟨rfl, 4 * k + 3, by omega, ?_⟩
      rw [← hread 3, show (3 : Nat) = 2 + 1 from rfl, readBytes_add]
      rfl
    · rw [if_neg h0, D.writeLoop_piece oc (block.setWidth 5) _ 2 2 4 c' a' d' hd (by rw [hrest]; rfl) (by omega)
        (CtrlRead.or _ _ _ (by simp) (CtrlRead.or _ _ _ (by simp) hx)) (om_or3' _ _ (by simp)) (by omega) (by omega)
        (hadd' 2 (by omega)), if_neg (by omega), hy, writeLoop_late oc D _ _ _ _ _ _ ho1]
      refine ⟨rfl, 4 * k + 4, by omega, ?_⟩
      rw [← hread 4, show (4 : Nat) = 2 + 2 from rfl, readBytes_add]

theorem regFile_readBytes (i k : Nat) (c : Nat × (BitVec 5 → U16 → U8)) (b : BitVec 5) (a : U16) (n : Nat) :
    ((regFile i k).readBytes c b a n).2 = c := by
  induction n generalizing a with
  | zero => rfl
  | succ n ih => simp only [readBytes, regFile]; exact ih _

/-- **C04, in terms of register contents**: on a chip that is a plain register file, a three-wire write changes no
register, whatever the block, address and data. -/
theorem C04_no_register_written (oc : Bool) (m : BitVec 5 → U16 → U8) (block : U8) (addr : U16) (data : List U8)
    (ho : oc = true → addr.toNat + data.length ≤ 65535) :
    ((ThreeWire.bus oc ((regFile 0 0).spiBus Unit)).writeFrame (.idle, (0, m)) block addr data).2.2.2 = m := by
  obtain ⟨-, n, -, h⟩ := C04_refuted oc (regFile 0 0) (0, m) block addr data ho
  rw [h, regFile_readBytes]

/-- **C04 (what is true).** The bytes of a write frame do go over the wire in the right chunks to the right
addresses with the right block-select bits; only direction and length bits are wrong. Missing: being decoded as a
write, which is refuted by `C04_refuted`. -/
theorem C04_bytes_sent_partial (oc : Bool) (S : SpiBus W E) (block : U8) (addr : U16) (data : List U8)
    (h : addr.toNat + data.length ≤ 65535) (log : List (List U8 × List U8)) (w : W) :
    Chunked (block.setWidth 5) addr.toNat data log
      ((ThreeWire.bus oc (spiLogged S)).writeFrame (log, w) block addr data).2.1
      ((ThreeWire.bus oc (spiLogged S)).writeFrame (log, w) block addr data).1 [] :=
  C02_write oc S block addr data h log w

/-- Concrete instance: writing 0xAA to a register through three-wire and through four-wire. -/
example : ((ThreeWire.bus true ((regFile 9 0).spiBus Unit)).writeFrame (.idle, (0, fun _ _ => 7)) 0 5 [0xAA]).2.2.2 0 5 = 7
    ∧ ((FourWire.bus (regFile 9 0).spiDevice).writeFrame (0, fun _ _ => 7) 0 5 [0xAA]).2.2 0 5 = 0xAA := by
  decide +kernel

/-! ## C05 -/

/-- **C05 (four-wire).** No frame panics, for every address and length, unless the SPI device itself does. -/
theorem C05_four_wire (S : SpiDevice W E) (hS : ∀ w os, (S.transaction w os).1 ≠ .panic) (w : W) (block : U8)
    (addr : U16) (data : List U8) :
    ((FourWire.bus S).readFrame w block addr data).1 ≠ .panic ∧
    ((FourWire.bus S).writeFrame w block addr data).1 ≠ .panic := ⟨hS _ _, hS _ _⟩

/-- **C05 (three-wire, exact).** On an SPI bus that does not fail, a three-wire frame panics exactly if the build
has overflow checks and the frame reaches the top of the address space (also if it ends exactly at 0xFFFF);
otherwise it succeeds. The first half of C05 thus fails in builds with overflow checks. -/
theorem C05_three_wire_partial (oc : Bool) (S : SpiBus W E) (hw : ∀ w d, (S.write w d).1 = .ok ())
    (ht : ∀ w d, (S.transferInPlace w d).1 = .ok ()) (w : W) (block : U8) (addr : U16) (data : List U8) :
    let p : Res E Unit := if oc = true ∧ 65536 ≤ addr.toNat + data.length then .panic else .ok ()
    ((ThreeWire.bus oc S).readFrame w block addr data).1 = p ∧
    ((ThreeWire.bus oc S).writeFrame w block addr data).1 = p := by
  have hadv : ∀ (a : U16) n, n ≠ 0 → (ThreeWire.advance oc a n = none ↔ oc = true ∧ 65536 ≤ a.toNat + n) := by
    intro a n _
    unfold ThreeWire.advance
    cases oc <;> simp
  have key : ∀ n d, d.length = n → ∀ w x (a : U16),
      (ThreeWire.readLoop oc S w x a d).1 =
        (if oc = true ∧ 65536 ≤ a.toNat + d.length then .panic else .ok ()) ∧
      (ThreeWire.writeLoop oc S w x a d).1 =
        (if oc = true ∧ 65536 ≤ a.toNat + d.length then .panic else .ok ()) := by
    intro n
    induction n using Nat.strongRecOn with
    | _ n ih =>
    intro d hn w x a
    subst hn
    by_cases hd : d = []
    · subst hd
      have := a.isLt
      rw [readLoop_nil, writeLoop_nil, if_neg (by simp; omega)]
      exact ⟨rfl, rfl⟩
    have hpos : 0 < d.length := List.length_pos_iff.mpr hd
    have hcl := chunk_le hpos
    have hcp := ThreeWire.chunk_pos d.length
    obtain ⟨m, n, hch⟩ : ∃ m n, ThreeWire.chunk d.length = (m, n) := ⟨_, _, rfl⟩
    rw [hch] at hcl hcp
    dsimp only at hcl hcp
    have hsplitW : ∀ w d, ∃ w', S.write w d = (.ok (), w') := fun w d => ⟨_, Prod.ext (hw w d) rfl⟩
    have hsplitT : ∀ w d, ∃ y w', S.transferInPlace w d = (.ok (), y, w') := fun w d => ⟨_, _, Prod.ext (ht w d) rfl⟩
    have hrec := ih (d.drop n).length (by simp; omega) (d.drop n) rfl
    have h1 := hadv a n (by omega)
    constructor
    · rw [ThreeWire.readLoop, dif_neg hd]
      obtain ⟨w1, e1⟩ := hsplitW w (toBeBytes a)
      obtain ⟨w2, e2⟩ := hsplitW w1 [x ||| m]
      obtain ⟨y, w3, e3⟩ := hsplitT w2 (d.take n)
      simp only [hch, e1, e2, e3]
      cases hA : ThreeWire.advance oc a n with
      | none =>
        have := h1.mp hA
        rw [if_pos ⟨this.1, by omega⟩]
      | some a' =>
        have hno : ¬ (oc = true ∧ 65536 ≤ a.toNat + n) := fun h => by rw [h1.mpr h] at hA; cases hA
        have ha' : a' = a + BitVec.ofNat 16 n := by
          unfold ThreeWire.advance at hA
          split at hA <;> cases hA; rfl
        subst ha'
        dsimp only
        rw [(hrec _ _ _).1]
        cases oc
        · simp
        · have : ¬ 65536 ≤ a.toNat + n := fun h => hno ⟨rfl, h⟩
          rw [add_ofNat_toNat _ _ (by omega), List.length_drop]
          rw [show a.toNat + n + (d.length - n) = a.toNat + d.length by omega]
    · rw [ThreeWire.writeLoop, dif_neg hd]
      obtain ⟨w1, e1⟩ := hsplitW w (toBeBytes a)
      obtain ⟨w2, e2⟩ := hsplitW w1 [x ||| m]
      obtain ⟨w3, e3⟩ := hsplitW w2 (d.take n)
      simp only [hch, e1, e2, e3]
      cases hA : ThreeWire.advance oc a n with
      | none =>
        have := h1.mp hA
        rw [if_pos ⟨this.1, by omega⟩]
      | some a' =>
        have hno : ¬ (oc = true ∧ 65536 ≤ a.toNat + n) := fun h => by rw [h1.mpr h] at hA; cases hA
        have ha' : a' = a + BitVec.ofNat 16 n := by
          unfold ThreeWire.advance at hA
          split at hA <;> cases hA; rfl
        subst ha'
        dsimp only
        rw [(hrec _ _ _).2]
        cases oc
        · simp
        · have : ¬ 65536 ≤ a.toNat + n := fun h => hno ⟨rfl, h⟩
          rw [add_ofNat_toNat _ _ (by omega), List.length_drop]
          rw [show a.toNat + n + (d.length - n) = a.toNat + d.length by omega]
  exact ⟨(key _ data rfl _ _ _).1, (key _ data rfl _ _ _).2⟩

/-- Concrete instances: a two-byte ring-buffer access ending at the top of the address space. -/
example : ((ThreeWire.bus true echo).writeFrame () 2 0xFFFE [1, 2]).1 = .panic ∧
    ((ThreeWire.bus false echo).writeFrame () 2 0xFFFE [1, 2]).1 = .ok () ∧
    ((ThreeWire.bus true echo).writeFrame () 2 0xFFFD [1, 2]).1 = .ok () := by decide +kernel

end W5500.Props
