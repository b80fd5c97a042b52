import Verif.Spec.Slow
import Verif.Spec.Trace
/-! # Failed transfers and reported bus errors, counted -/

namespace W5500.Spec
open W5500
variable {W E ε α H : Type}

/-- The error of a transfer that failed. -/
def failure : Ev E → Option E
  | .rd _ _ _ (.err e) => some e
  | .wr _ _ _ (.err e) => some e
  | _ => none

/-- The bus error in the result of a call, if it is one. -/
def bare : Res E α → Option E
  | .err e => some e
  | _ => none
def inUdp : Res (UdpSocketError E) α → Option E
  | .err (.other e) => some e
  | _ => none
def inNb : Res (NbError (UdpSocketError E)) α → Option E
  | .err (.other (.other e)) => some e
  | _ => none
def inTcp : Res (TcpSocketError E) α → Option E
  | .err (.other e) => some e
  | _ => none
def inInit : Res (InitializeError E) α → Option E
  | .err (.spiError e) => some e
  | _ => none

/-- The bus error that the caller of an operation sees, if any. -/
def Seen.bus : Seen E → Option E
  | .nothing => none
  | .socket r => bare r
  | .udpSocket r => inUdp r
  | .udp r _ => inUdp r
  | .udpSent r _ => inNb r
  | .udpReceived r _ => inNb r
  | .udpClosed r => inUdp r
  | .tcpSocket r => inTcp r
  | .tcp r => inTcp r
  | .tcpSent r => inTcp r
  | .tcpReceived r _ => inTcp r
  | .address r => bare r
  | .mac r => bare r
  | .phy r => bare r
  | .byte r => bare r
  | .time r => bare r
  | .unit r => bare r

def RawSeen.bus : RawSeen E → Option E
  | .read r _ => bare r
  | .written r => bare r
  | .unit r => bare r

/-- The errors of the transfers number `i`, …, `j - 1` that fail. -/
def failures (faults : Nat → Option (E × Nat)) (i j : Nat) : List E :=
  (List.range' i (j - i)).filterMap fun k => (faults k).map Prod.fst

/-- At most `N` transfers ever fail. -/
def AtMost (N : Nat) (faults : Nat → Option (E × Nat)) : Prop :=
  ∃ l : List Nat, l.length ≤ N ∧ ∀ k, faults k ≠ none → k ∈ l

end W5500.Spec
