import Verif.Spec.Failures
import Verif.Spec.UdpHistory
import Verif.Spec.RawHistory
/-! # UDP and MACRAW with failing transfers: which bytes may leave -/

namespace W5500.Spec
open W5500

/-- The data of all packets transmitted so far, one after the other. -/
def Sock.payloads (s : Sock) : List U8 := (s.packets.map (·.data)).flatten

/-- What the program knows of its sending calls: the buffer, and with how many bytes of it the call returned `Ok`; `none` if it did
not. -/
abbrev PktLog := List (List U8 × Option Nat)

/-- `PktHanded log bs`: `bs` is a possible account of the calls. A call that returned `Ok` contributes the bytes it says; any other
one an initial part of its buffer, which may be empty. -/
inductive PktHanded : PktLog → List U8 → Prop where
  | none : PktHanded [] []
  | ok {log : PktLog} {bs : List U8} (data : List U8) (k : Nat) :
      PktHanded log bs → PktHanded (log ++ [(data, some k)]) (bs ++ data.take k)
  | failed {log : PktLog} {bs : List U8} (data : List U8) (k : Nat) :
      PktHanded log bs → PktHanded (log ++ [(data, Option.none)]) (bs ++ data.take k)

/-- No call failed, or a call with data returned `Ok` after the last one that failed. -/
def PktLog.flushed (log : PktLog) : Bool :=
  log.foldl (fun b e => match e.2 with | some _ => b || !e.1.isEmpty | none => false) true

/-- The result of a UDP call, as logged: `Ok` means the whole buffer. -/
def udpResult {ε : Type} (data : List U8) : Res ε Unit → Option Nat
  | .ok _ => some data.length
  | _ => none

/-- The result of `write_frame`, as logged. -/
def rawResult {ε : Type} : Res ε Nat → Option Nat
  | .ok k => some k
  | _ => none

/-- A history of an open UDP socket, in which calls may end in any way: `send` and `send_to` as logged, `receive`, `set_port`, any other
traffic on the bus except writes to this socket, time. -/
inductive UdpTalk {E : Type} (sched : Nat → List (Nat × Act)) (faults : Nat → Option (E × Nat)) (n : Nat) (u0 : UdpSocket) (c : Chip) :
    PktLog → UdpSocket → Chip → Prop where
  | start : UdpTalk sched faults n u0 c [] u0 c
  | send {H : Type} {log : PktLog} {u : UdpSocket} {d : Device Chip H} (fuel : Nat) (data : List U8) :
      UdpTalk sched faults n u0 c log u d.bus →
      UdpTalk sched faults n u0 c
        (log ++ [(data, udpResult data (Device.udpSend (Chip.dev sched faults).bus fuel u data d).1)]) u
        (Device.udpSend (Chip.dev sched faults).bus fuel u data d).2.bus
  | sendTo {H : Type} {log : PktLog} {u : UdpSocket} {d : Device Chip H} (fuel : Nat) (dst : SockAddr) (data : List U8) :
      UdpTalk sched faults n u0 c log u d.bus →
      UdpTalk sched faults n u0 c
        (log ++ [(data, udpResult data (Device.udpSendTo (Chip.dev sched faults).bus fuel dst data (u, d)).1)])
        (Device.udpSendTo (Chip.dev sched faults).bus fuel dst data (u, d)).2.1
        (Device.udpSendTo (Chip.dev sched faults).bus fuel dst data (u, d)).2.2.bus
  | receive {H : Type} {log : PktLog} {u : UdpSocket} {d : Device Chip H} (fuel : Nat) (buf : List U8) :
      UdpTalk sched faults n u0 c log u d.bus →
      UdpTalk sched faults n u0 c log u (Device.udpReceive (Chip.dev sched faults).bus fuel u (buf, d)).2.2.bus
  | setPort {log : PktLog} {u : UdpSocket} {c1 : Chip} (port : U16) :
      UdpTalk sched faults n u0 c log u c1 →
      UdpTalk sched faults n u0 c log (UdpSocket.setPort (Chip.dev sched faults).bus port (u, c1)).2.1
        (UdpSocket.setPort (Chip.dev sched faults).bus port (u, c1)).2.2
  | read {log : PktLog} {u : UdpSocket} {c1 : Chip} (block : U8) (addr : U16) (data : List U8) :
      UdpTalk sched faults n u0 c log u c1 →
      UdpTalk sched faults n u0 c log u ((Chip.dev sched faults).bus.readFrame c1 block addr data).2.2
  | write {log : PktLog} {u : UdpSocket} {c1 : Chip} (block : U8) (addr : U16) (data : List U8) :
      UdpTalk sched faults n u0 c log u c1 → Foreign n block addr data →
      UdpTalk sched faults n u0 c log u ((Chip.dev sched faults).bus.writeFrame c1 block addr data).2
  | pass {log : PktLog} {u : UdpSocket} {c1 c2 : Chip} :
      UdpTalk sched faults n u0 c log u c1 → Passes c1 c2 → UdpTalk sched faults n u0 c log u c2

/-- A history of a MACRAW device, in which calls may end in any way. -/
inductive RawTalk {E : Type} (sched : Nat → List (Nat × Act)) (faults : Nat → Option (E × Nat)) (r : RawDevice) (c : Chip) :
    PktLog → Chip → Prop where
  | start : RawTalk sched faults r c [] c
  | writeFrame {log : PktLog} {c1 : Chip} (fuel : Nat) (frame : List U8) :
      RawTalk sched faults r c log c1 →
      RawTalk sched faults r c
        (log ++ [(frame, rawResult (r.writeFrame (Chip.dev sched faults).bus fuel frame c1).1)])
        (r.writeFrame (Chip.dev sched faults).bus fuel frame c1).2
  | readFrame {log : PktLog} {c1 : Chip} (fuel : Nat) (buf : List U8) :
      RawTalk sched faults r c log c1 →
      RawTalk sched faults r c log (r.readFrame (Chip.dev sched faults).bus fuel (buf, c1)).2.2
  | enable {log : PktLog} {c1 : Chip} (which : U8) : RawTalk sched faults r c log c1 →
      RawTalk sched faults r c log (r.enableInterrupts (Chip.dev sched faults).bus which c1).2
  | clear {log : PktLog} {c1 : Chip} : RawTalk sched faults r c log c1 →
      RawTalk sched faults r c log (r.clearInterrupts (Chip.dev sched faults).bus c1).2
  | disable {log : PktLog} {c1 : Chip} : RawTalk sched faults r c log c1 →
      RawTalk sched faults r c log (r.disableInterrupts (Chip.dev sched faults).bus c1).2
  | pass {log : PktLog} {c1 c2 : Chip} : RawTalk sched faults r c log c1 → Passes c1 c2 → RawTalk sched faults r c log c2

end W5500.Spec
