import Verif.Model.Core
import Verif.Model.Wire
/-! # The chip's side of the SPI (datasheet section 2.2 – 2.4)

A chip is given byte by byte (`ByteDev`). `shift` is the SPI slave: every byte on MOSI moves the frame decoder
and produces a byte on MISO. Nothing here refers to the crate except the interfaces `SpiDevice`, `SpiBus` and
`Bus` that a slave has to be presented as. -/

namespace W5500.Spec
open W5500

/-- A chip accessed byte by byte, with arbitrary behaviour: its state `C` may contain clocks, network schedules
etc., so it can change between any two bytes. `fault` decides the fate of the next SPI transaction: `none` means it
succeeds; `some (e, k)` means that only its first `k` bytes are transferred and the host then gets error `e` (if
`k` is not smaller than the length, everything was transferred and the error is spurious). -/
structure ByteDev (C E : Type) where
  readByte : C → BitVec 5 → U16 → U8 × C
  writeByte : C → BitVec 5 → U16 → U8 → C
  fault : C → Option (E × Nat) × C

namespace ByteDev
variable {C E : Type} (D : ByteDev C E)

/-! ## Direct access: what a frame is supposed to do -/

/-- Read `n` consecutive bytes starting at `a`. -/
def readBytes : C → BitVec 5 → U16 → Nat → List U8 × C
  | c, _, _, 0 => ([], c)
  | c, b, a, n + 1 =>
    let (x, c) := D.readByte c b a
    let (xs, c) := readBytes c b (a + 1) n
    (x :: xs, c)

/-- Write consecutive bytes starting at `a`. -/
def writeBytes : C → BitVec 5 → U16 → List U8 → C
  | c, _, _, [] => c
  | c, b, a, x :: xs => writeBytes (D.writeByte c b a x) b (a + 1) xs

theorem readBytes_length (c : C) (b : BitVec 5) (a : U16) (n : Nat) :
    (D.readBytes c b a n).1.length = n := by
  induction n generalizing c a with
  | zero => rfl
  | succ n ih => simp [readBytes, ih]

/-- The chip as a register bus: a frame accesses exactly the addressed bytes of block `block mod 32`. If the
transaction fails after `k` bytes, the three header bytes count, and the rest of the data is not accessed. -/
def bus : Bus C E where
  readFrame c block addr data :=
    match D.fault c with
    | (none, c) =>
      let r := D.readBytes c (block.setWidth 5) addr data.length
      (.ok (), r.1, r.2)
    | (some (e, k), c) =>
      let n := min (k - 3) data.length
      let r := D.readBytes c (block.setWidth 5) addr n
      (.err e, r.1 ++ data.drop n, r.2)
  writeFrame c block addr data :=
    match D.fault c with
    | (none, c) => (.ok (), D.writeBytes c (block.setWidth 5) addr data)
    | (some (e, k), c) => (.err e, D.writeBytes c (block.setWidth 5) addr (data.take (k - 3)))
  read_length := by
    intro c block addr data
    split
    · simp [readBytes_length]
    · simp only [List.length_append, readBytes_length, List.length_drop]; omega

/-! ## The SPI slave -/

/-- Frame decoder state: waiting for the address high byte (`idle`), address low byte, control byte, or in the
data phase of block `b` (`w`: write access) at address `a` with `left` bytes to go (`none`: until chip select is
released). -/
inductive Phase where
  | idle
  | addrLo (hi : U8)
  | ctrl (a : U16)
  | data (b : BitVec 5) (w : Bool) (a : U16) (left : Option Nat)
deriving DecidableEq, Repr

/-- Data length by the operation mode bits OM[1:0]: 00 variable, 01 one byte, 10 two bytes, 11 four bytes. -/
def omLength (om : BitVec 2) : Option Nat :=
  if om = 0 then none else if om = 1 then some 1 else if om = 2 then some 2 else some 4

/-- Phase after a data byte. -/
def nextData (b : BitVec 5) (w : Bool) (a : U16) : Option Nat → Phase
  | none => .data b w (a + 1) none
  | some n => if n ≤ 1 then .idle else .data b w (a + 1) (some (n - 1))

/-- One byte on the wire: MOSI byte `x` in, MISO byte out. Control byte: BSB = bits 7..3, RWB = bit 2 (1 =
write), OM = bits 1..0. MISO is 0 except in the data phase of a read. -/
def shift (p : Phase) (c : C) (x : U8) : U8 × Phase × C :=
  match p with
  | .idle => (0, .addrLo x, c)
  | .addrLo hi => (0, .ctrl (hi ++ x), c)
  | .ctrl a => (0, .data (x.extractLsb' 3 5) (x.getLsbD 2) a (omLength (x.extractLsb' 0 2)), c)
  | .data b true a left => (0, nextData b true a left, D.writeByte c b a x)
  | .data b false a left =>
    let (y, c) := D.readByte c b a
    (y, nextData b false a left, c)

/-- Transfer a buffer, of which only the first `k` bytes are really transferred. Returns what is in the buffer
after an in-place transfer, and the number of bytes that can still be transferred. -/
def xfer : Nat → Phase → C → List U8 → List U8 × Nat × Phase × C
  | k, p, c, [] => ([], k, p, c)
  | 0, p, c, xs => (xs, 0, p, c)
  | k + 1, p, c, x :: xs =>
    let r := D.shift p c x
    let s := xfer k r.2.1 r.2.2 xs
    (r.1 :: s.1, s.2)

theorem xfer_length (k : Nat) (p : Phase) (c : C) (d : List U8) :
    (D.xfer k p c d).1.length = d.length := by
  induction d generalizing k p c with
  | nil => simp [xfer]
  | cons x xs ih => cases k <;> simp [xfer, ih]

/-- The operations of a transaction, one after the other. -/
def ops : Nat → Phase → C → List SpiOp → List (List U8) × C
  | _, _, c, [] => ([], c)
  | k, p, c, o :: os =>
    let r := D.xfer k p c o.data
    let s := ops r.2.1 r.2.2.1 r.2.2.2 os
    ((match o with
      | .write d => d
      | .transferInPlace _ => r.1) :: s.1, s.2)

theorem ops_lengths (k : Nat) (p : Phase) (c : C) (os : List SpiOp) :
    (D.ops k p c os).1.map List.length = os.map (fun o => o.data.length) := by
  induction os generalizing k p c with
  | nil => rfl
  | cons o os ih =>
    simp only [ops, List.map_cons, ih, List.cons.injEq, and_true]
    cases o with
    | write d => rfl
    | transferInPlace d => exact D.xfer_length k p c d

/-- The chip behind chip select: a transaction is one chip-select window, so decoding starts in `idle`. -/
def spiDevice : SpiDevice C E where
  transaction c os :=
    match D.fault c with
    | (none, c) =>
      let r := D.ops (os.map (fun o => o.data.length)).sum .idle c os
      (.ok (), r.1, r.2)
    | (some (e, k), c) =>
      let r := D.ops k .idle c os
      (.err e, r.1, r.2)
  lengths := by
    intro c os
    split <;> exact D.ops_lengths _ _ _ _

/-- The chip with chip select tied low (three-wire operation): the decoder state persists between transfers.
No transfer fails. -/
def spiBus (E' : Type) : SpiBus (Phase × C) E' where
  write s d := (.ok (), (D.xfer d.length s.1 s.2 d).2.2)
  transferInPlace s d :=
    let r := D.xfer d.length s.1 s.2 d
    (.ok (), r.1, r.2.2)
  length := fun _ d => D.xfer_length _ _ _ d

end ByteDev
end W5500.Spec
