import Verif.Model.Socket
/-! # Ring buffer cursors — /repo/src/cursor.rs

The cursor structs borrow the bus; here the bus is part of the threaded state and a cursor method
returns the updated cursor. When a method fails the cursor is dropped by every caller (`?`). -/

namespace W5500
open socketn

/-- `Ord::min` on `u16`. -/
def minU16 (a b : U16) : U16 := if a.toNat ≤ b.toNat then a else b

/-- `RxCursor` — /repo/src/cursor.rs:5-13 (without the borrowed bus) -/
structure RxCursor where
  sock : Socket
  ptr : U16
  size : U16
deriving DecidableEq, Repr

namespace RxCursor
variable {W E : Type}

/-- `RxCursor::new` — /repo/src/cursor.rs:19-28 -/
def new (B : Bus W E) (fuel : Nat) (sock : Socket) : M W E RxCursor := do
  let size ← sock.getReceiveSize B fuel
  let ptr ← sock.getRxReadPointer B
  pure { sock := sock, ptr := ptr, size := size }

/-- `available` — /repo/src/cursor.rs:31-33 -/
def available (c : RxCursor) : U16 := c.size

/-- `skip` — /repo/src/cursor.rs:58-63. `self.size -= bounded_count` cannot underflow. -/
def skip (c : RxCursor) (count : U16) : U16 × RxCursor :=
  let boundedCount := minU16 c.available count
  (boundedCount, { c with ptr := c.ptr + boundedCount, size := c.size - boundedCount })

/-- `read` — /repo/src/cursor.rs:36-45. The buffer is the first component of the state. -/
def read (B : Bus W E) (c : RxCursor) : M (List U8 × W) E (U16 × RxCursor) := do
  let buf := (← M.get).1
  if buf.isEmpty then
    pure (0, c)
  else
    let count := minU16 c.available (BitVec.ofNat 16 buf.length)
    M.withPrefix count.toNat (B.readSlice c.sock.rxBuffer c.ptr)
    pure (c.skip count)

/-- `read_upto` — /repo/src/cursor.rs:48-55 -/
def readUpto (B : Bus W E) (c : RxCursor) (max : U16) : M (List U8 × W) E (U16 × RxCursor) := do
  let buf := (← M.get).1
  if buf.length > max.toNat then
    M.withPrefix max.toNat (c.read B)
  else
    c.read B

/-- `commit` — /repo/src/cursor.rs:67-71 -/
def commit (B : Bus W E) (c : RxCursor) : M W E Unit := do
  c.sock.setRxReadPointer B c.ptr
  c.sock.command B .receive

end RxCursor

/-- `TxCursor` — /repo/src/cursor.rs:74-82 (without the borrowed bus) -/
structure TxCursor where
  sock : Socket
  ptr : U16
  size : U16
deriving DecidableEq, Repr

namespace TxCursor
variable {W E : Type}

/-- `TxCursor::new` — /repo/src/cursor.rs:88-97 -/
def new (B : Bus W E) (sock : Socket) : M W E TxCursor := do
  let size ← sock.getTxFreeSize B
  let ptr ← sock.getTxWritePointer B
  pure { sock := sock, ptr := ptr, size := size }

/-- `available` — /repo/src/cursor.rs:100-102 -/
def available (c : TxCursor) : U16 := c.size

/-- `write` — /repo/src/cursor.rs:106-117. `self.size -= count` cannot underflow. -/
def write (B : Bus W E) (c : TxCursor) (buf : List U8) : M W E (U16 × TxCursor) :=
  if buf.isEmpty || decide (buf.length > c.available.toNat) then
    pure (0, c)
  else do
    let count := BitVec.ofNat 16 buf.length
    let data ← M.sliceTo buf count.toNat
    B.write c.sock.txBuffer c.ptr data
    pure (count, { c with ptr := c.ptr + count, size := c.size - count })

/-- `commit` — /repo/src/cursor.rs:121-125 -/
def commit (B : Bus W E) (c : TxCursor) : M W E Unit := do
  c.sock.setTxWritePointer B c.ptr
  c.sock.command B .send

end TxCursor
end W5500
