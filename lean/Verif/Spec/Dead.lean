import Verif.Spec.Fitting
/-! # A chip that stops answering

Power is lost for good, or a wire breaks: the chip no longer takes part in the transfers. The SPI controller of the host does
not notice. What it reads is the level of the data line, the same in every byte: 0x00 if the line is pulled down, 0xFF if it is
pulled up. What it writes is lost. -/

namespace W5500.Spec
open W5500
variable {W E : Type}

/-- The chip, and the number of transactions after which it stops answering. -/
structure Fading (W : Type) where
  w : W
  left : Nat

/-- The bus to a chip that stops answering; `x` is what is read then. -/
def fading (x : U8) (B : Bus W E) : Bus (Fading W) E where
  readFrame s b a d :=
    if s.left = 0 then (.ok (), List.replicate d.length x, s)
    else
      let r := B.readFrame s.w b a d
      (r.1, r.2.1, ⟨r.2.2, s.left - 1⟩)
  writeFrame s b a d :=
    if s.left = 0 then (.ok (), s)
    else
      let r := B.writeFrame s.w b a d
      (r.1, ⟨r.2, s.left - 1⟩)
  read_length s b a d := by
    split
    · exact List.length_replicate
    · exact B.read_length ..

end W5500.Spec
