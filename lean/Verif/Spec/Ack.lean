import Verif.Spec.Trace
/-! # Acknowledging interrupts

A bit of Sn_IR (offset 0x02) is cleared by writing 1 to it. Whoever does so without having seen the bit set loses the event. -/

namespace W5500.Spec
open W5500

/-- The transfer writes Sn_IR of block `b`, be it in passing: the address counts up with every byte. -/
def HitsIr {E : Type} (b : U8) (e : Ev E) : Prop :=
  e.isWrite = true ∧ e.block = b ∧ ∃ k, k < e.data.length ∧ e.addr + BitVec.ofNat 16 k = 0x02

/-- Since the last write to Sn_IR of block `b`, Sn_IR was read successfully, with all bits of `x` set. -/
def Sighted {E : Type} (b x : U8) (evs : List (Ev E)) : Prop :=
  ∃ before y after, evs = before ++ .rd b 0x02 [y] (.ok ()) :: after ∧ x &&& ~~~y = 0 ∧ ∀ e ∈ after, ¬ HitsIr b e

/-- Every write to Sn_IR of block `b` acknowledges one interrupt, RECV (0x04), TIMEOUT (0x08) or SENDOK (0x10), and this one
has been sighted. -/
def Acknowledged {E : Type} (b : U8) (evs : List (Ev E)) : Prop :=
  ∀ before e after, evs = before ++ e :: after → HitsIr b e →
    ∃ x ∈ ([0x04, 0x08, 0x10] : List U8), e.addr = 0x02 ∧ e.data = [x] ∧ Sighted b x before

end W5500.Spec
