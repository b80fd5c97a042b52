import Verif.Spec.Block
import Verif.Spec.RawHistory
/-! # A program that answers frames

A program on a MACRAW device that waits for a frame and sends another one for it, as an ARP responder or a bridge does. -/

namespace W5500.Spec
open W5500
variable {W E : Type}

/-- One round:

    let k = loop { let k = device.read_frame(&mut buf)?; if k > 0 { break k } };
    device.write_frame(&answer(&buf[..k]))?;

`fuel` bounds the number of calls of `read_frame`, and is passed on to the calls. -/
def respond (B : Bus W E) (r : RawDevice) (answer : List U8 → List U8) (fuel : Nat) : M (List U8 × W) E Unit := do
  let k ← untilSome (r.readFrame B fuel) fuel
  let frame ← M.sliceTo (← M.get).1 k
  let _ ← M.onSnd (r.writeFrame B fuel (answer frame))

/-- `rounds` rounds, with the same buffer. -/
def responder (B : Bus W E) (r : RawDevice) (answer : List U8 → List U8) : Nat → Nat → M (List U8 × W) E Unit
  | 0, _ => pure ()
  | rounds + 1, fuel => do
    respond B r answer fuel
    responder B r answer rounds fuel

end W5500.Spec
