import Verif.Spec.Relate
/-! # Sockets that do not influence each other -/

namespace W5500.Spec
open W5500
variable {W E V : Type}

/-- A bus transfer to be made. -/
inductive Frame where
  | rd (block : U8) (addr : U16) (data : List U8)
  | wr (block : U8) (addr : U16) (data : List U8)

def Frame.block : Frame → U8
  | rd b _ _ => b
  | wr b _ _ => b

/-- Outcome (result, and the buffer of a read) and new state of the bus. -/
def Frame.run (B : Bus W E) : Frame → W → (Res E Unit × List U8) × W
  | rd b a d, w => (((B.readFrame w b a d).1, (B.readFrame w b a d).2.1), (B.readFrame w b a d).2.2)
  | wr b a d, w => (((B.writeFrame w b a d).1, []), (B.writeFrame w b a d).2)

/-- Transfers to blocks in `F` and transfers to blocks in `G` do not influence each other: in either order, both have the
same outcomes and the bus ends in the same state. -/
def Independent (B : Bus W E) (F G : U8 → Prop) : Prop :=
  ∀ f g : Frame, F f.block → G g.block → ∀ w,
    (f.run B (g.run B w).2).1 = (f.run B w).1 ∧ (g.run B (f.run B w).2).1 = (g.run B w).1 ∧
    (f.run B (g.run B w).2).2 = (g.run B (f.run B w).2).2

/-- Registers, TX memory and RX memory of socket `n`. -/
def SockBlocks (n : Nat) (b : U8) : Prop := b.toNat = 4 * n + 1 ∨ b.toNat = 4 * n + 2 ∨ b.toNat = 4 * n + 3

/-- Calls on a socket that keep it. -/
def Op.IsCall : Op W → Prop
  | udpSetPort .. | udpConnect .. | udpBind .. | udpSend .. | udpSendTo .. | udpReceive .. | tcpConnect .. | tcpSend ..
  | tcpReceive .. => True
  | _ => False

/-- `Shuffle xs ys zs`: `zs` consists of `xs` and `ys`, each in its order. -/
inductive Shuffle {α : Type} : List α → List α → List α → Prop where
  | nil : Shuffle [] [] []
  | left (x : α) {xs ys zs : List α} : Shuffle xs ys zs → Shuffle (x :: xs) ys (x :: zs)
  | right (y : α) {xs ys zs : List α} : Shuffle xs ys zs → Shuffle xs (y :: ys) (y :: zs)

/-- A bus whose transfers to the blocks of socket `n` (and, for `n = 0`, to the common block) go to a bus of its own. -/
def separate (Bs : Nat → Bus V E) : Bus (Nat → V) E where
  readFrame w b a d :=
    let r := (Bs (b.toNat / 4)).readFrame (w (b.toNat / 4)) b a d
    (r.1, r.2.1, fun m => if m = b.toNat / 4 then r.2.2 else w m)
  writeFrame w b a d :=
    let r := (Bs (b.toNat / 4)).writeFrame (w (b.toNat / 4)) b a d
    (r.1, fun m => if m = b.toNat / 4 then r.2 else w m)
  read_length := fun _ b a d => (Bs (b.toNat / 4)).read_length _ b a d

end W5500.Spec
