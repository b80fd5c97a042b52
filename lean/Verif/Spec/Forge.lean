import Verif.Spec.Client
/-! # Clients that meddle with their handles

`Spec/Client.lean` leaves out three things safe Rust allows:
* writing to the public field `index` of a socket obtained from `take_socket` (/repo/src/socket.rs:9),
* keeping handles when the device is taken apart with `Device::release` (/repo/src/device.rs:113-115; unlike `reset` it does not ask
  whether sockets are outstanding) and the bus is initialised again,
* using handles obtained from another device.

The handles a client has touched in one of these ways are *alien*; all calls remain possible on them. -/

namespace W5500.Spec
open W5500
variable {W E H : Type}

structure Meddler (W H : Type) where
  /-- The device, and the handles it handed out that were not touched. -/
  own : Client W H
  alien : List Handle

/-- One step. -/
inductive MOp (W H : Type) where
  /-- A call, or dropping, of an untouched handle, or a call without socket. -/
  | own (o : Op W)
  /-- `s.index = k` on the raw socket at position `i`. -/
  | renumber (i : Nat) (k : U8)
  /-- `Device::release`, then `UninitializedDevice::new` and one of the `initialize` functions, which leave the bus in some state `w`. -/
  | renew (w : W) (host : H)
  /-- Some handle of another device arrives. -/
  | foreign (h : Handle)
  /-- A call on an alien handle (the position in the operation is one in `alien`). -/
  | alien (o : Op W)

/-- `close` of either protocol or `release_socket`. -/
def Op.closes : Op W → Bool
  | .udpClose _ | .tcpClose _ | .releaseSocket _ => true
  | _ => false

namespace Meddler

/-- Renumbering affects the public field alone. -/
def renumbered (s : Socket) (k : U8) : Socket := { s with index := k }

def step (B : Bus W E) (fuel : Nat) (c : Meddler W H) : MOp W H → Meddler W H
  | .own o => { c with own := c.own.step B fuel o }
  | .renumber i k =>
    match c.own.live[i]? with
    | some (.raw s) =>
      { own := { c.own with live := c.own.live.eraseIdx i, lost := c.own.lost ++ [s.index.toNat] }
        alien := c.alien ++ [.raw (renumbered s k)] }
    | _ => c
  | .renew w host => { own := .initial w host, alien := c.alien ++ c.own.live }
  | .foreign h => { c with alien := c.alien ++ [h] }
  | .alien o =>
    if o.target.isSome then
      let view := Client.step B fuel { dev := c.own.dev, live := c.alien, lost := [] } o
      { own := { c.own with dev := view.dev }, alien := view.live }
    else c

def run (B : Bus W E) (fuel : Nat) (c : Meddler W H) (ops : List (MOp W H)) : Meddler W H :=
  ops.foldl (step B fuel) c

def initial (w : W) (host : H) : Meddler W H := { own := .initial w host, alien := [] }

/-- All handles of the client. -/
def handles (c : Meddler W H) : List Handle := c.own.live ++ c.alien

end Meddler

/-- The step closes an alien handle. -/
def MOp.closesAlien : MOp W H → Bool
  | .alien o => o.closes
  | _ => false

end W5500.Spec
