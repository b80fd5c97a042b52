import Verif.Spec.Spi
/-! # A chip without chip select, as a consumer of bytes -/

namespace W5500.Spec.ByteDev
variable {C E : Type} (D : ByteDev C E)

/-- The chip takes bytes off the wire, whatever they were meant to be. -/
def feed (s : Phase × C) (bytes : List U8) : Phase × C := bytes.foldl (fun s x => (D.shift s.1 s.2 x).2) s

/-- From `c` to `c'` by reading registers only: nothing is written. -/
inductive Looks : C → C → Prop where
  | refl (c : C) : Looks c c
  | read {c c' : C} (b : BitVec 5) (a : U16) : Looks c c' → Looks c (D.readByte c' b a).2

end W5500.Spec.ByteDev
