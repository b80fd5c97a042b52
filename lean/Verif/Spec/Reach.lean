import Verif.Model.Core
/-! # What an operation may do to the bus, as a relation between the bus states before and after -/

namespace W5500
variable {W E : Type}

/-- From `w` to `w'` by any read frames, and write frames with `F`. -/
inductive Reach (B : Bus W E) (F : U8 → U16 → List U8 → Prop) : W → W → Prop where
  | refl (w : W) : Reach B F w w
  | read {w w' : W} (b : U8) (a : U16) (d : List U8) : Reach B F w w' → Reach B F w (B.readFrame w' b a d).2.2
  | write {w w' : W} {b : U8} {a : U16} {d : List U8} : Reach B F w w' → F b a d →
      Reach B F w (B.writeFrame w' b a d).2

/-- Nothing was written. -/
def ReadsOnly (B : Bus W E) : W → W → Prop := Reach B fun _ _ _ => False

end W5500
