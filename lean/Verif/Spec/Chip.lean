import Verif.Spec.Spi
import Verif.Spec.Datasheet
/-! # The W5500 (datasheet v1.1.0, chapters 2–4), as seen through its registers

A state machine with an adversarial environment: before every single SPI byte an arbitrary, scheduled list of
events happens on any of the sockets. Nothing here refers to the crate; every number is written out.

Simplifications (all stated in DESIGN.md): commands complete immediately and are accepted in every socket state (for a chip that ignores some see `Picky.dev`); the
socket status may be changed by the environment at any time in any way, and so may interrupt bits, except that in UDP and
MACRAW mode SENDOK and TIMEOUT announce a packet that left or was dropped (with any delay). No protocol timing is
assumed. -/

namespace W5500.Spec
open W5500

/-- A packet that left a UDP or MACRAW socket: destination registers (IP, port; meaningless for MACRAW) when it was
sent, data, and whether it really got out (`false`: address resolution timed out and the chip dropped it). -/
structure Packet where
  ip : List U8
  port : List U8
  data : List U8
  delivered : Bool
deriving DecidableEq, Repr

/-- One hardware socket. -/
structure Sock where
  /-- plain host registers by offset: Sn_MR 0x00, Sn_PORT 0x04, Sn_DIPR 0x0C, Sn_DPORT 0x10, Sn_RXBUF_SIZE 0x1E,
  Sn_TXBUF_SIZE 0x1F, Sn_TX_WR 0x24, Sn_RX_RD 0x28, Sn_IMR 0x2C, … -/
  mem : U16 → U8
  /-- Sn_IR -/
  ir : U8
  /-- Sn_SR -/
  sr : U8
  /-- SENDOK and TIMEOUT interrupts of packets that left (or were dropped), not raised yet -/
  owed : U8
  /-- TX memory, by offset in the socket's buffer -/
  txMem : Nat → U8
  /-- Sn_TX_RD: next byte to be transmitted -/
  txRd : U16
  /-- Sn_TX_WR at the last SEND: end of the data to be transmitted -/
  txLimit : U16
  /-- first byte not yet acknowledged by the TCP peer (equals `txRd` in the other modes) -/
  una : U16
  /-- RX memory, by offset in the socket's buffer -/
  rxMem : Nat → U8
  /-- Sn_RX_RD at the last RECV: oldest byte still queued -/
  rxRd : U16
  /-- Sn_RX_WR: where the next arriving byte goes -/
  rxWr : U16
  /-- ghost: TCP bytes transmitted so far -/
  stream : List U8
  /-- ghost: packets transmitted so far -/
  packets : List Packet
  /-- ghost: the source port register when each of these packets left -/
  sources : List (List U8)
  /-- ghost: bytes that arrived so far -/
  arrived : List U8
  /-- where the TX and RX pointers start anew after an OPEN or CONNECT command, given where they are; `none` is (0, 0)
  for OPEN, and for CONNECT that they stay -/
  bases : U16 → U16 → Option (U16 × U16) := fun _ _ => none

namespace Sock

/-- Big-endian 16-bit host register. -/
def reg16 (s : Sock) (a : U16) : U16 := s.mem a ++ s.mem (a + 1)

/-- Sn_TX_WR -/
def txWr (s : Sock) : U16 := s.reg16 0x24
/-- Sn_RX_RD as last written by the host -/
def rxRdReg (s : Sock) : U16 := s.reg16 0x28

/-- Buffer sizes in bytes (the registers are in KiB). -/
def txSize (s : Sock) : Nat := 1024 * (s.mem 0x1F).toNat
def rxSize (s : Sock) : Nat := 1024 * (s.mem 0x1E).toNat

/-- Protocol, Sn_MR[3:0]. -/
def proto (s : Sock) : Nat := (s.mem 0x00).toNat % 16

/-- Sn_TX_FSR: buffer size minus the bytes between the acknowledged point and Sn_TX_WR. -/
def fsr (s : Sock) : U16 := BitVec.ofNat 16 s.txSize - (s.txWr - s.una)

/-- Sn_RX_RSR: bytes arrived and not yet released by RECV. -/
def rsr (s : Sock) : U16 := s.rxWr - s.rxRd

/-- `n` bytes of a ring of `size` bytes starting at pointer `p`. -/
def ring (mem : Nat → U8) (size : Nat) (p : U16) (n : Nat) : List U8 :=
  (List.range n).map fun i => mem ((p.toNat + i) % size)

/-- Store bytes into a ring. -/
def ringStore (mem : Nat → U8) (size : Nat) (p : U16) : List U8 → Nat → U8
  | [] => mem
  | x :: xs => ringStore (fun j => if j = p.toNat % size then x else mem j) size (p + 1) xs

/-- Committed TX data that is not transmitted yet. -/
def pending (s : Sock) : List U8 := ring s.txMem s.txSize s.txRd (s.txLimit - s.txRd).toNat

/-- RX data that arrived and is not released yet. -/
def queue (s : Sock) : List U8 := ring s.rxMem s.rxSize s.rxRd s.rsr.toNat

/-- Bytes arrive: stored if they fit into the free part of the RX buffer, with the RECV interrupt; otherwise lost. -/
def push (s : Sock) (bs : List U8) : Sock :=
  if s.rsr.toNat + bs.length ≤ s.rxSize then
    { s with
      rxMem := ringStore s.rxMem s.rxSize s.rxWr bs
      rxWr := s.rxWr + BitVec.ofNat 16 bs.length
      ir := s.ir ||| 0x04
      arrived := s.arrived ++ bs }
  else s

/-- The sizes the chip allows for a socket buffer, in bytes (datasheet: 0, 1, 2, 4, 8, 16 KiB); 0 is left out because
such a socket cannot transfer anything. -/
def GoodSize (n : Nat) : Prop := n = 1024 ∨ n = 2048 ∨ n = 4096 ∨ n = 8192 ∨ n = 16384

/-- The buffer size registers Sn_TXBUF_SIZE, Sn_RXBUF_SIZE hold legal sizes. -/
def SizesOk (m : U16 → U8) : Prop := GoodSize (1024 * (m 0x1F).toNat) ∧ GoodSize (1024 * (m 0x1E).toNat)

end Sock

/-- A UDP datagram as it is laid out in RX memory: source IP, source port, length, payload. -/
structure Dgram where
  ip : List U8
  port : List U8
  payload : List U8
deriving DecidableEq, Repr

def Dgram.encode (d : Dgram) : List U8 := d.ip ++ d.port ++ be d.payload.length ++ d.payload

/-- Fields have their sizes, and the length fits its field. -/
def Dgram.Wf (d : Dgram) : Prop := d.ip.length = 4 ∧ d.port.length = 2 ∧ d.payload.length < 65536

instance (d : Dgram) : Decidable d.Wf := inferInstanceAs (Decidable (_ ∧ _))

/-- An ethernet frame as it is laid out in RX memory in MACRAW mode: length including the two length bytes. -/
def encodeFrame (f : List U8) : List U8 := be (f.length + 2) ++ f

/-- Events on a socket that are not caused by the host. -/
inductive Act where
  /-- TCP: the next bytes of the peer's stream arrive -/
  | arrive (bs : List U8)
  /-- UDP: a datagram arrives -/
  | datagram (d : Dgram)
  /-- MACRAW: a frame arrives -/
  | frame (f : List U8)
  /-- TCP: up to `k` committed bytes are transmitted -/
  | transmit (k : Nat)
  /-- TCP: the peer acknowledges up to `k` transmitted bytes -/
  | ack (k : Nat)
  /-- UDP, MACRAW: the committed data is sent as one packet (or dropped) -/
  | emit (delivered : Bool)
  /-- interrupt bits are raised; outside TCP, SENDOK (0x10) and TIMEOUT (0x08) only once per packet, any time after it
  left or was dropped -/
  | raise (bits : U8)
  /-- the socket status changes -/
  | status (x : U8)

namespace Sock

/-- Effect of an event. Events that do not fit the socket's protocol do not happen. -/
def act (s : Sock) : Act → Sock
  | .arrive bs => if s.proto = 1 then s.push bs else s
  | .datagram d => if s.proto = 2 ∧ d.Wf then s.push d.encode else s
  | .frame f => if s.proto = 4 ∧ f.length + 2 < 65536 then s.push (encodeFrame f) else s
  | .transmit k =>
    if s.proto = 1 then
      let n := min k (s.txLimit - s.txRd).toNat
      { s with
        stream := s.stream ++ ring s.txMem s.txSize s.txRd n
        txRd := s.txRd + BitVec.ofNat 16 n }
    else s
  | .ack k =>
    if s.proto = 1 then { s with una := s.una + BitVec.ofNat 16 (min k (s.txRd - s.una).toNat) } else s
  | .emit delivered =>
    if (s.proto = 2 ∨ s.proto = 4) ∧ s.txRd ≠ s.txLimit then
      { s with
        packets := s.packets ++
          [{ ip := [s.mem 0x0C, s.mem 0x0D, s.mem 0x0E, s.mem 0x0F], port := [s.mem 0x10, s.mem 0x11],
             data := s.pending, delivered := delivered }]
        sources := s.sources ++ [[s.mem 0x04, s.mem 0x05]]
        txRd := s.txLimit
        una := s.txLimit
        owed := s.owed ||| (if delivered then 0x10 else 0x08) }
    else s
  | .raise bits =>
    { s with
      ir := s.ir ||| (if s.proto = 1 then bits else bits &&& (s.owed ||| 0xE7))
      owed := s.owed &&& ~~~bits }
  | .status x => { s with sr := x }

/-- The buffers are emptied; the TX pointers start at `p`, the RX pointers at `q`. -/
def restart (s : Sock) (p q : U16) : Sock :=
  { s with
    mem := fun a => if a = 0x24 then p.extractLsb' 8 8 else if a = 0x25 then p.extractLsb' 0 8
      else if a = 0x28 then q.extractLsb' 8 8 else if a = 0x29 then q.extractLsb' 0 8 else s.mem a
    txRd := p, txLimit := p, una := p, rxRd := q, rxWr := q, owed := 0 }

/-- In TCP mode the pointers may get new values while connecting. -/
def connecting (s : Sock) : Sock :=
  match s.proto, s.bases s.txRd s.rxRd with
  | 1, some (p, q) => s.restart p q
  | _, _ => s

/-- Commands (Sn_CR). The pointers are initialised by OPEN and, in TCP mode, again while connecting (datasheet, Sn_TX_RD). -/
def command (s : Sock) (x : U8) : Sock :=
  if x = 0x01 then -- OPEN
    { s.restart ((s.bases s.txRd s.rxRd).getD (0, 0)).1 ((s.bases s.txRd s.rxRd).getD (0, 0)).2 with
      sr := if s.proto = 1 then 0x13 else if s.proto = 2 then 0x22 else if s.proto = 4 then 0x42 else s.sr }
  else if x = 0x02 then { s with sr := 0x14 } -- LISTEN
  else if x = 0x04 then { s.connecting with sr := 0x15 } -- CONNECT
  else if x = 0x08 then { s with sr := 0x18 } -- DISCON
  else if x = 0x10 then { s with sr := 0x00 } -- CLOSE
  else if x = 0x20 then { s with txLimit := s.txWr } -- SEND
  else if x = 0x40 then { s with rxRd := s.rxRdReg } -- RECV
  else s

/-- Reading a byte of the register block. -/
def peekReg (s : Sock) (a : U16) : U8 :=
  if a = 0x01 then 0
  else if a = 0x02 then s.ir
  else if a = 0x03 then s.sr
  else if a = 0x20 then s.fsr.extractLsb' 8 8
  else if a = 0x21 then s.fsr.extractLsb' 0 8
  else if a = 0x22 then s.txRd.extractLsb' 8 8
  else if a = 0x23 then s.txRd.extractLsb' 0 8
  else if a = 0x26 then s.rsr.extractLsb' 8 8
  else if a = 0x27 then s.rsr.extractLsb' 0 8
  else if a = 0x2A then s.rxWr.extractLsb' 8 8
  else if a = 0x2B then s.rxWr.extractLsb' 0 8
  else s.mem a

/-- Writing a byte of the register block: commands act, interrupt bits are cleared by writing 1, read-only registers
are unaffected. -/
def pokeReg (s : Sock) (a : U16) (x : U8) : Sock :=
  if a = 0x01 then s.command x
  else if a = 0x02 then { s with ir := s.ir &&& ~~~x }
  else if a = 0x03 ∨ a = 0x20 ∨ a = 0x21 ∨ a = 0x22 ∨ a = 0x23 ∨ a = 0x26 ∨ a = 0x27 ∨ a = 0x2A ∨ a = 0x2B then s
  else { s with mem := fun b => if b = a then x else s.mem b }

/-- TX and RX memory as seen by the host: the address is taken modulo the buffer size. -/
def peekTx (s : Sock) (a : U16) : U8 := s.txMem (a.toNat % s.txSize)
def pokeTx (s : Sock) (a : U16) (x : U8) : Sock :=
  { s with txMem := fun j => if j = a.toNat % s.txSize then x else s.txMem j }
def peekRx (s : Sock) (a : U16) : U8 := s.rxMem (a.toNat % s.rxSize)

/-- A socket after chip reset; the ghost history is kept. -/
def reset (s : Sock) : Sock :=
  { mem := fun a => if a = 0x1E ∨ a = 0x1F then 2 else if a = 0x2C then 0xFF else 0
    ir := 0, sr := 0, owed := 0, txMem := s.txMem, txRd := 0, txLimit := 0, una := 0, rxMem := s.rxMem, rxRd := 0, rxWr := 0
    stream := s.stream, packets := s.packets, sources := s.sources, arrived := s.arrived, bases := s.bases }

end Sock

/-- The chip. -/
structure Chip where
  /-- common register block -/
  cmem : U16 → U8
  socks : Nat → Sock
  /-- number of SPI data bytes so far; index into the schedule of events -/
  clock : Nat
  /-- number of SPI transactions so far; index into the fault plan -/
  txn : Nat

namespace Chip

/-- Replace a socket. -/
def setSock (c : Chip) (n : Nat) (s : Sock) : Chip :=
  { c with socks := fun m => if m = n then s else c.socks m }

/-- Reset values of the common registers: RTR = 0x07D0, RCR = 8, PHYCFGR = 0xB8 | link state, VERSIONR = 4, all
configuration registers used by the crate 0. -/
def commonReset (a : U16) : U8 :=
  if a = 0x19 then 0x07 else if a = 0x1A then 0xD0 else if a = 0x1B then 0x08
  else if a = 0x2E then 0xBF else if a = 0x39 then 0x04 else 0

/-- Writing a byte of the common block: MR bit 7 resets the chip; VERSIONR is read-only. -/
def pokeCommon (c : Chip) (a : U16) (x : U8) : Chip :=
  if a = 0x39 then c
  else if a = 0x00 ∧ x.getLsbD 7 then { c with cmem := commonReset, socks := fun n => (c.socks n).reset }
  else { c with cmem := fun b => if b = a then x else c.cmem b }

/-- Block select: 0 is the common block, 4n+1, 4n+2, 4n+3 are registers, TX and RX memory of socket n, the rest is
reserved. -/
def peek (c : Chip) (b : BitVec 5) (a : U16) : U8 :=
  if b = 0 then c.cmem a
  else if b.toNat % 4 = 1 then (c.socks (b.toNat / 4)).peekReg a
  else if b.toNat % 4 = 2 then (c.socks (b.toNat / 4)).peekTx a
  else if b.toNat % 4 = 3 then (c.socks (b.toNat / 4)).peekRx a
  else 0

def poke (c : Chip) (b : BitVec 5) (a : U16) (x : U8) : Chip :=
  if b = 0 then c.pokeCommon a x
  else if b.toNat % 4 = 1 then c.setSock (b.toNat / 4) ((c.socks (b.toNat / 4)).pokeReg a x)
  else if b.toNat % 4 = 2 then c.setSock (b.toNat / 4) ((c.socks (b.toNat / 4)).pokeTx a x)
  else c

/-- An event on a socket. -/
def event (c : Chip) (e : Nat × Act) : Chip := c.setSock e.1 ((c.socks e.1).act e.2)

/-- The events scheduled before the next byte. -/
def tick (sched : Nat → List (Nat × Act)) (c : Chip) : Chip :=
  { (sched c.clock).foldl event c with clock := c.clock + 1 }

/-- The chip with a schedule of events and a plan of failing transactions, as a byte-accessed device. -/
def dev {E : Type} (sched : Nat → List (Nat × Act)) (faults : Nat → Option (E × Nat)) : ByteDev Chip E where
  readByte c b a := ((c.tick sched).peek b a, c.tick sched)
  writeByte c b a x := (c.tick sched).poke b a x
  fault c := (faults c.txn, { c with txn := c.txn + 1 })

/-- The chip after power-up. -/
def powerUp : Chip where
  cmem := commonReset
  socks _ := Sock.reset
    { mem := fun _ => 0, ir := 0, sr := 0, owed := 0, txMem := fun _ => 0, txRd := 0, txLimit := 0, una := 0,
      rxMem := fun _ => 0, rxRd := 0, rxWr := 0, stream := [], packets := [], sources := [], arrived := [] }
  clock := 0
  txn := 0

end Chip
end W5500.Spec
