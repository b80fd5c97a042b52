import Verif.Model.Cursor
/-! # Using a ring buffer cursor, against a plain list of bytes

The cursors of /repo/src/cursor.rs are meant to be used like a file: read or skip pieces of what is there, or append
pieces to what is there, then commit. Here: the calls a program can make on a cursor, and what they are to do, in terms of
a list of bytes. -/

namespace W5500.Spec
open W5500
variable {W E : Type}

/-! ## Reading -/

/-- A call of a method of a receive cursor. -/
inductive RxOp
  | read (buf : List U8)
  | upto (buf : List U8) (max : U16)
  | skip (count : U16)
deriving DecidableEq, Repr

/-- The buffer passed. -/
def RxOp.buf : RxOp → List U8
  | .read b => b
  | .upto b _ => b
  | .skip _ => []

/-- How many bytes the call asks for. -/
def RxOp.want : RxOp → Nat
  | .read b => b.length
  | .upto b max => min b.length max.toNat
  | .skip count => count.toNat

/-- The buffer of a `read` is within what a 16-bit length can express. -/
def RxOp.Sized : RxOp → Prop
  | .read b => b.length < 65536
  | _ => True

/-- The call: the number returned, the cursor afterwards, and the buffer afterwards. -/
def RxOp.run (B : Bus W E) (c : RxCursor) : RxOp → M W E ((U16 × RxCursor) × List U8)
  | .read b => M.withLocal b (c.read B)
  | .upto b max => M.withLocal b (c.readUpto B max)
  | .skip count => pure (c.skip count, [])

/-- Calls one after the other, stopping at the first that fails: the numbers and buffers, and the cursor afterwards. -/
def RxOp.runAll (B : Bus W E) (c : RxCursor) : List RxOp → M W E (List (U16 × List U8) × RxCursor)
  | [] => pure ([], c)
  | o :: os => do
    let r ← o.run B c
    let rs ← RxOp.runAll B r.1.2 os
    pure ((r.1.1, r.2) :: rs.1, rs.2)

/-- A cursor is made and used. -/
def RxOp.session (B : Bus W E) (fuel : Nat) (s : Socket) (os : List RxOp) : M W E (List (U16 × List U8) × RxCursor) := do
  let c ← RxCursor.new B fuel s
  RxOp.runAll B c os

/-- What the call is to do if the bytes `q` are there: the number of bytes it takes, the buffer afterwards, and the bytes
left. -/
def RxOp.on (q : List U8) (o : RxOp) : (Nat × List U8) × List U8 :=
  let k := min o.want q.length
  match o with
  | .skip _ => ((k, []), q.drop k)
  | .read b => ((k, q.take k ++ b.drop k), q.drop k)
  | .upto b _ => ((k, q.take k ++ b.drop k), q.drop k)

/-- Calls one after the other. -/
def RxOp.onAll (q : List U8) : List RxOp → List (Nat × List U8) × List U8
  | [] => ([], q)
  | o :: os => ((o.on q).1 :: (RxOp.onAll (o.on q).2 os).1, (RxOp.onAll (o.on q).2 os).2)

/-! ## Writing -/

/-- Calls of `write` one after the other, stopping at the first that fails. -/
def txAll (B : Bus W E) (c : TxCursor) : List (List U8) → M W E (List U16 × TxCursor)
  | [] => pure ([], c)
  | b :: bs => do
    let r ← c.write B b
    let rs ← txAll B r.2 bs
    pure (r.1 :: rs.1, rs.2)

/-- A cursor is made and used. -/
def txSession (B : Bus W E) (s : Socket) (bs : List (List U8)) : M W E (List U16 × TxCursor) := do
  let c ← TxCursor.new B s
  txAll B c bs

/-- What a list of writes is to do if there is room for `free` bytes: each one is taken whole or not at all. The numbers
returned, and the bytes taken. -/
def txOn (free : Nat) : List (List U8) → List Nat × List U8
  | [] => ([], [])
  | b :: bs =>
    if b.length ≤ free then (b.length :: (txOn (free - b.length) bs).1, b ++ (txOn (free - b.length) bs).2)
    else (0 :: (txOn free bs).1, (txOn free bs).2)

end W5500.Spec
