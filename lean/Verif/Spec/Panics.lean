import Verif.Spec.Client
/-! # Client programs that panic -/

namespace W5500.Spec
open W5500
variable {W E H : Type}

/-- The common call panics. -/
def CommonOp.Panics (B : Bus W E) (w : W) : CommonOp → Prop
  | .gateway => (Device.gateway B w).1 = .panic
  | .subnetMask => (Device.subnetMask B w).1 = .panic
  | .mac => (Device.mac B w).1 = .panic
  | .ip => (Device.ip B w).1 = .panic
  | .phyConfig => (Device.phyConfig B w).1 = .panic
  | .resetDevice => (resetChip B w).1 = .panic
  | .version => (W5500.version B w).1 = .panic
  | .currentRetryTimeout => (W5500.currentRetryTimeout B w).1 = .panic
  | .currentRetryCount => (W5500.currentRetryCount B w).1 = .panic
  | .setMode m => (W5500.setMode B m w).1 = .panic
  | .setRetryTimeout t => (W5500.setRetryTimeout B t w).1 = .panic
  | .setRetryCount n => (W5500.setRetryCount B n w).1 = .panic

/-- The next operation `o` of the client panics. -/
def Client.Panics (B : Bus W E) (fuel : Nat) (c : Client W H) : Op W → Prop
  | .udpSocket => (Device.udpSocket (E := E) c.dev).1 = .panic
  | .tcpSocket => (Device.tcpSocket (E := E) c.dev).1 = .panic
  | .takeSocket => (Device.takeSocket (E := E) c.dev).1 = .panic
  | .udpSetPort i p => ∃ u, c.live[i]? = some (.udp u) ∧ (Device.onSockBus (UdpSocket.setPort B p) (u, c.dev)).1 = .panic
  | .udpConnect i r => ∃ u, c.live[i]? = some (.udp u) ∧ (Device.udpConnect B r (u, c.dev)).1 = .panic
  | .udpBind i p => ∃ u, c.live[i]? = some (.udp u) ∧ (Device.udpBind B p (u, c.dev)).1 = .panic
  | .udpSend i b => ∃ u, c.live[i]? = some (.udp u) ∧ (Device.udpSend B fuel u b c.dev).1 = .panic
  | .udpSendTo i r b => ∃ u, c.live[i]? = some (.udp u) ∧ (Device.udpSendTo B fuel r b (u, c.dev)).1 = .panic
  | .udpReceive i b => ∃ u, c.live[i]? = some (.udp u) ∧ (Device.udpReceive B fuel u (b, c.dev)).1 = .panic
  | .udpClose i => ∃ u, c.live[i]? = some (.udp u) ∧ (Device.udpClose B u c.dev).1 = .panic
  | .tcpConnect i r => ∃ t, c.live[i]? = some (.tcp t) ∧ (Device.tcpConnect B fuel t r c.dev).1 = .panic
  | .tcpSend i b => ∃ t, c.live[i]? = some (.tcp t) ∧ (Device.tcpSend B fuel t b c.dev).1 = .panic
  | .tcpReceive i b => ∃ t, c.live[i]? = some (.tcp t) ∧ (Device.tcpReceive B fuel t (b, c.dev)).1 = .panic
  | .tcpClose i => ∃ t, c.live[i]? = some (.tcp t) ∧ (Device.tcpClose B t c.dev).1 = .panic
  | .releaseSocket i => ∃ s, c.live[i]? = some (.raw s) ∧ (Device.releaseSocket (E := E) s c.dev).1 = .panic
  | .leak _ => False
  | .common o => o.Panics B c.dev.bus
  | .reactivate _ => False

end W5500.Spec
