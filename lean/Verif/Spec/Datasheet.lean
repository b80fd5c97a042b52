import Verif.Model.Registers
import Verif.Model.Net
/-! # Facts from the W5500 datasheet (v1.1.0), independent of the crate

Nothing here refers to a constant of the crate: every number is written out again. -/

namespace W5500.Spec

/-- Big-endian bytes of a 16-bit number, by arithmetic. -/
def be (n : Nat) : List U8 := [BitVec.ofNat 8 (n / 256), BitVec.ofNat 8 (n % 256)]

/-- Value of a big-endian byte pair. -/
def ofBe (hi lo : U8) : Nat := hi.toNat * 256 + lo.toNat

/-- The kinds of blocks a socket owns. -/
inductive Kind where
  | reg | tx | rx
deriving DecidableEq, Repr

/-- Block select bits (datasheet section 2.2.2 "Control Phase", BSB[4:0]) of socket `n`. -/
def bsb : Nat → Kind → Nat
  | n, .reg => n * 4 + 1
  | n, .tx => n * 4 + 2
  | n, .rx => n * 4 + 3

/-- The BSB table as printed in the datasheet: socket, kind, BSB[4:0]. -/
def bsbTable : List (Nat × Kind × BitVec 5) :=
  [(0, .reg, 0b00001#5), (0, .tx, 0b00010#5), (0, .rx, 0b00011#5),
   (1, .reg, 0b00101#5), (1, .tx, 0b00110#5), (1, .rx, 0b00111#5),
   (2, .reg, 0b01001#5), (2, .tx, 0b01010#5), (2, .rx, 0b01011#5),
   (3, .reg, 0b01101#5), (3, .tx, 0b01110#5), (3, .rx, 0b01111#5),
   (4, .reg, 0b10001#5), (4, .tx, 0b10010#5), (4, .rx, 0b10011#5),
   (5, .reg, 0b10101#5), (5, .tx, 0b10110#5), (5, .rx, 0b10111#5),
   (6, .reg, 0b11001#5), (6, .tx, 0b11010#5), (6, .rx, 0b11011#5),
   (7, .reg, 0b11101#5), (7, .tx, 0b11110#5), (7, .rx, 0b11111#5)]

/-- Sn_SR values (datasheet section 4.2, Sn_SR; the two transient TCP states LISTEN/SYNRECV etc.
included): the socket states the crate's API names. -/
def statusTable : List (U8 × socketn.Status) :=
  [(0x00, .closed), (0x13, .init), (0x14, .listen), (0x15, .synSent), (0x16, .synRecv),
   (0x17, .established), (0x18, .finWait), (0x1A, .closing), (0x1B, .timeWait),
   (0x1C, .closeWait), (0x1D, .lastAck), (0x22, .udp), (0x42, .macRaw)]

/-- PHYCFGR OPMDC[2:0] (datasheet section 4.1): operation mode by bits 5..3; `101` is "not used". -/
def opmdc : Nat → Option PhyOperationMode
  | 0 => some .halfDuplex10bt
  | 1 => some .fullDuplex10bt
  | 2 => some .halfDuplex100bt
  | 3 => some .fullDuplex100bt
  | 4 => some .halfDuplex100btAuto
  | 6 => some .powerDown
  | 7 => some .auto
  | _ => none

/-- Upper-case hexadecimal digits. -/
def hexDigits : List Char :=
  ['0', '1', '2', '3', '4', '5', '6', '7', '8', '9', 'A', 'B', 'C', 'D', 'E', 'F']

/-- Two hexadecimal digits of a byte. -/
def hexByte (x : U8) : List Char :=
  [hexDigits.getD (x.toNat / 16) '?', hexDigits.getD (x.toNat % 16) '?']

/-- Groups separated by colons. -/
def colonSep : List (List Char) → List Char
  | [] => []
  | [g] => g
  | g :: gs => g ++ ':' :: colonSep gs

end W5500.Spec
