import Verif.Spec.Trace
import Verif.Spec.Datasheet
/-! # Scripts of register writes -/

namespace W5500.Spec
open W5500
variable {W E : Type}

/-- Block, address and data of a write frame. -/
abbrev Wr := U8 × U16 × List U8

/-- The write frames one after the other, up to the first one that fails. -/
def writeAll (B : Bus W E) : List Wr → M W E Unit
  | [] => pure ()
  | (b, a, d) :: l => do
    B.write b a d
    writeAll B l

/-- A successful write in a log. -/
def Wr.done (x : Wr) : Ev E := .wr x.1 x.2.1 x.2.2 (.ok ())

/-- The script that opens a socket, `reg` being its register block: CLOSE to Sn_CR, all bits to Sn_IR, the local port
to Sn_PORT, the protocol to Sn_MR, the interrupt mask to Sn_IMR, OPEN to Sn_CR. -/
def openScript (reg : U8) (port : Nat) (mode mask : U8) : List Wr :=
  [(reg, 0x01, [0x10]), (reg, 0x02, [0xFF]), (reg, 0x04, be port), (reg, 0x00, [mode]), (reg, 0x2C, [mask]),
   (reg, 0x01, [0x01])]

/-- The script that closes a TCP socket and opens it again with the port it has. -/
def reopenScript (reg mask : U8) : List Wr :=
  [(reg, 0x00, [0x00]), (reg, 0x01, [0x10]), (reg, 0x01, [0x10]), (reg, 0x02, [0xFF]), (reg, 0x00, [0x01]),
   (reg, 0x2C, [mask]), (reg, 0x01, [0x01])]

/-- The script that sets the remote endpoint: Sn_DIPR, Sn_DPORT. -/
def remoteScript (reg : U8) (ip : List U8) (port : Nat) : List Wr := [(reg, 0x0C, ip), (reg, 0x10, be port)]

end W5500.Spec

namespace W5500.Spec
open W5500
variable {W E : Type}

/-- The one-byte register `a` of block `b` is read again and again, from bus state `w` to `w'`, with the values `ys`. -/
inductive Polls (B : Bus W E) (b : U8) (a : U16) : W → List U8 → W → Prop where
  | nil (w : W) : Polls B b a w [] w
  | cons {w w1 w2 : W} {y : U8} {ys : List U8} :
      B.readFrame w b a [0] = (.ok (), [y], w1) → Polls B b a w1 ys w2 → Polls B b a w (y :: ys) w2

/-- The two-byte register `a` of block `b` is read in pairs until a pair agrees on the value `v`, from `w` to `w'`; it takes
at most `rounds` pairs. -/
inductive ReadsTwice (B : Bus W E) (b : U8) (a : U16) : Nat → W → Nat → W → Prop where
  | agree {rounds : Nat} {w w1 w2 : W} {x y : U8} : B.readFrame w b a [0, 0] = (.ok (), [x, y], w1) →
      B.readFrame w1 b a [0, 0] = (.ok (), [x, y], w2) → ReadsTwice B b a (rounds + 1) w (x.toNat * 256 + y.toNat) w2
  | differ {rounds : Nat} {w w1 w2 w3 : W} {x y x' y' : U8} {v : Nat} : B.readFrame w b a [0, 0] = (.ok (), [x, y], w1) →
      B.readFrame w1 b a [0, 0] = (.ok (), [x', y'], w2) → [x, y] ≠ [x', y'] → ReadsTwice B b a rounds w2 v w3 →
      ReadsTwice B b a (rounds + 1) w v w3

/-- All transfers return (possibly with an error). -/
def Returning (B : Bus W E) : Prop :=
  (∀ w b a d, (B.readFrame w b a d).1 ≠ .fuel) ∧ (∀ w b a d, (B.writeFrame w b a d).1 ≠ .fuel)

/-- No transfer panics. -/
def Calm (B : Bus W E) : Prop :=
  (∀ w b a d, (B.readFrame w b a d).1 ≠ .panic) ∧ (∀ w b a d, (B.writeFrame w b a d).1 ≠ .panic)

/-- No transfer fails. -/
def Faultless (B : Bus W E) : Prop :=
  (∀ w b a d e, (B.readFrame w b a d).1 ≠ .err e) ∧ (∀ w b a d e, (B.writeFrame w b a d).1 ≠ .err e)

end W5500.Spec
