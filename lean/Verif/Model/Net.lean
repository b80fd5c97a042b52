import Verif.Model.Core
/-! # Networking data types — /repo/src/net.rs and `core::net` -/

namespace W5500

/-- `core::net::Ipv4Addr` (re-exported at /repo/src/net.rs:15): four octets. -/
structure Ipv4 where
  a : U8
  b : U8
  c : U8
  d : U8
deriving DecidableEq, Repr

namespace Ipv4
/-- `Ipv4Addr::octets`. -/
def octets (ip : Ipv4) : List U8 := [ip.a, ip.b, ip.c, ip.d]
/-- `Ipv4Addr::UNSPECIFIED`. -/
def unspecified : Ipv4 := ⟨0, 0, 0, 0⟩
end Ipv4

/-- `core::net::SocketAddrV4`. -/
structure SockAddr4 where
  ip : Ipv4
  port : U16
deriving DecidableEq, Repr

/-- `core::net::SocketAddr`. The contents of an IPv6 address are irrelevant to the crate: it only
pattern matches on `V4` (/repo/src/udp.rs:497,544, /repo/src/tcp.rs:236). -/
inductive SockAddr where
  | v4 (a : SockAddr4)
  | v6 (segments : List U16) (port : U16)
deriving DecidableEq, Repr

/-- `MacAddress` — /repo/src/net.rs:22-25. The field is `octets: [u8; 6]`. -/
structure Mac where
  o0 : U8
  o1 : U8
  o2 : U8
  o3 : U8
  o4 : U8
  o5 : U8
deriving DecidableEq, Repr

namespace Mac
/-- `MacAddress::new` — /repo/src/net.rs:41-45. -/
def new (a b c d e f : U8) : Mac := ⟨a, b, c, d, e, f⟩
/-- `MacAddress::octets` — /repo/src/net.rs:57-66 (and the public field of the same name). -/
def octets (m : Mac) : List U8 := [m.o0, m.o1, m.o2, m.o3, m.o4, m.o5]
/-- `MacAddress::UNSPECIFIED` — /repo/src/net.rs:79; also `MacAddress::default()` (derive, line 20). -/
def unspecified : Mac := new 0 0 0 0 0 0
/-- `From<[u8; 6]> for MacAddress` — /repo/src/net.rs:93-97. The argument type fixes the length to 6;
other lists have no Rust counterpart. -/
def fromArray : List U8 → Option Mac
  | [a, b, c, d, e, f] => some (new a b c d e f)
  | _ => none

/-- One upper-case hexadecimal digit, as printed by `{:X}`. -/
def hexDigit (n : Nat) : Char := if n < 10 then Char.ofNat (48 + n) else Char.ofNat (55 + n)
/-- `{:02X}` of a byte. -/
def hex2 (x : U8) : List Char := [hexDigit (x.toNat / 16), hexDigit (x.toNat % 16)]
/-- `Display for MacAddress` — /repo/src/net.rs:102-113. -/
def display (m : Mac) : List Char :=
  hex2 m.o0 ++ ':' :: (hex2 m.o1 ++ ':' :: (hex2 m.o2 ++ ':' ::
    (hex2 m.o3 ++ ':' :: (hex2 m.o4 ++ ':' :: hex2 m.o5))))
end Mac

end W5500
