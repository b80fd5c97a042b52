import Verif.Spec.UdpHistory
/-! # Opening a UDP socket, once more or for the first time -/

namespace W5500.Spec
open W5500

/-- A successful `bind` or `connect` that made `u'` of `u` and brought the device from `d` to `d'`. -/
inductive UdpOpening {E H : Type} (sched : Nat → List (Nat × Act)) (faults : Nat → Option (E × Nat)) (u : UdpSocket)
    (d : Device Chip H) (u' : UdpSocket) (d' : Device Chip H) : Prop where
  | bind (port : U16) : Device.udpBind (Chip.dev sched faults).bus port (u, d) = (.ok (), (u', d')) →
      UdpOpening sched faults u d u' d'
  | connect (remote : SockAddr) : Device.udpConnect (Chip.dev sched faults).bus remote (u, d) = (.ok (), (u', d')) →
      UdpOpening sched faults u d u' d'

end W5500.Spec
