import Verif.Spec.Serve
import Verif.Spec.Pace
/-! # A server that has time for its answers -/

namespace W5500.Spec
open W5500

/-- The packets that answer the datagrams `ds`, if the calls of `receive` for them returned `got`: to where each datagram came from
goes what `answer` makes of the bytes that `receive` reported, in pieces of at most `z` bytes, none dropped. -/
def replies (z : Nat) (answer : SockAddr → List U8 → List U8) : List UdpGot → List Dgram → List Packet
  | g :: got, d :: ds => (pieces z (answer g.origin (g.buf.take g.len))).map (fun p => ⟨d.ip, d.port, p, true⟩) ++ replies z answer got ds
  | _, _ => []

/-- The time, in SPI bytes, in which a round of a server is over once a request has come: it receives it into a buffer of `b` bytes, and sends
an answer of at most `m` bytes through a TX buffer of `z` bytes, if what is committed leaves within `L` bytes. -/
def roundTime (L z b m : Nat) : Nat := b + 20 + ((m + z - 1) / z * (L + 20) + m + 9)

end W5500.Spec
