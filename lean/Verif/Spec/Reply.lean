import Verif.Spec.Flow
/-! # A program that looks for frames again and again and answers them -/

namespace W5500.Spec
open W5500
variable {W E : Type}

/-- One round:

    let k = device.read_frame(&mut buf)?;
    if k > 0 { device.write_frame(&answer(&buf[..k]))?; }

`fuel` is passed on to the calls. -/
def reply (B : Bus W E) (r : RawDevice) (answer : List U8 → List U8) (fuel : Nat) : M (List U8 × W) E Unit := do
  let k ← r.readFrame B fuel
  if k = 0 then pure ()
  else
    let frame ← M.sliceTo (← M.get).1 k
    let _ ← M.onSnd (r.writeFrame B fuel (answer frame))

/-- `rounds` rounds, with the same buffer. -/
def replier (B : Bus W E) (r : RawDevice) (answer : List U8 → List U8) : Nat → Nat → M (List U8 × W) E Unit
  | 0, _ => pure ()
  | rounds + 1, fuel => do
    reply B r answer fuel
    replier B r answer rounds fuel

end W5500.Spec
