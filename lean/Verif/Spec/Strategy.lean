import Verif.Spec.Relate
/-! # Strategies: programs that only see the answers of the bus

A `Strategy` makes a transfer, looks at the answer, and decides how to go on. It knows nothing about the bus but the answers. -/

namespace W5500.Spec
open W5500

/-- `done x`: finished with result `x`. `read`, `write`: make that transfer and go on depending on the answer (for a read: the
outcome and the contents of the buffer afterwards). -/
inductive Strategy (E X : Type) where
  | done (x : X)
  | read (block : U8) (addr : U16) (data : List U8) (next : Res E Unit → List U8 → Strategy E X)
  | write (block : U8) (addr : U16) (data : List U8) (next : Res E Unit → Strategy E X)

variable {W E X : Type}

/-- Playing a strategy on a bus. -/
def Strategy.play (B : Bus W E) : Strategy E X → W → X × W
  | .done x, w => (x, w)
  | .read b a d k, w =>
    let r := B.readFrame w b a d
    (k r.1 r.2.1).play B r.2.2
  | .write b a d k, w =>
    let r := B.writeFrame w b a d
    (k r.1).play B r.2

/-- `F` is the same strategy on every bus. -/
def Plays (F : (W : Type) → Bus W E → W → X × W) : Prop := ∃ p : Strategy E X, ∀ W B w, F W B w = p.play B w

/-! ## Programs -/

/-- The same call, on another type of bus. `reactivate` gives the bus away and takes it back unused. -/
def Op.on (W : Type) : Op Unit → Op W
  | .udpSocket => .udpSocket
  | .tcpSocket => .tcpSocket
  | .takeSocket => .takeSocket
  | .udpSetPort i p => .udpSetPort i p
  | .udpConnect i r => .udpConnect i r
  | .udpBind i p => .udpBind i p
  | .udpSend i b => .udpSend i b
  | .udpSendTo i r b => .udpSendTo i r b
  | .udpReceive i b => .udpReceive i b
  | .udpClose i => .udpClose i
  | .tcpConnect i r => .tcpConnect i r
  | .tcpSend i b => .tcpSend i b
  | .tcpReceive i b => .tcpReceive i b
  | .tcpClose i => .tcpClose i
  | .releaseSocket i => .releaseSocket i
  | .leak i => .leak i
  | .common o => .common o
  | .reactivate _ => .reactivate id

/-- A program: calls with the number of rounds each may poll. -/
def onBusType (W : Type) (ops : List (Nat × Op Unit)) : List (Nat × Op W) := ops.map fun o => (o.1, o.2.on W)

/-- What a client has beside the bus. -/
structure Belongings (H : Type) where
  state : DeviceState H
  live : List Handle
  lost : List Nat

variable {H : Type}

def Belongings.client (b : Belongings H) (w : W) : Client W H := ⟨⟨w, b.state⟩, b.live, b.lost⟩
def Client.belongings (c : Client W H) : Belongings H := ⟨c.dev.state, c.live, c.lost⟩

end W5500.Spec
