import Verif.Spec.Farewell
import Verif.Spec.Poll
import Verif.Model.Device
/-! # Reading a connection to its end -/

namespace W5500.Spec
open W5500
variable {W E H : Type}

/-- A program that reads until the peer has closed the connection, `rounds` times at most:

    let mut got = Vec::new();
    loop {
        match stack.receive(&mut socket, &mut buf) {
            Ok(k) => got.extend_from_slice(&buf[..k]),
            Err(TcpSocketError::NotConnected) => break Ok(got),
            Err(e) => break Err(e),
        }
    }

`fuel` is passed on to the calls. -/
def tcpReadToEnd (B : Bus W E) (t : TcpSocket) (buf : List U8) : Nat → Nat → List U8 → M (Device W H) (TcpSocketError E) (List U8)
  | 0, _, _ => M.outOfFuel
  | rounds + 1, fuel, got => fun d =>
    match Device.tcpReceive B fuel t (buf, d) with
    | (.ok k, buf', d') => tcpReadToEnd B t buf rounds fuel (got ++ buf'.take k) d'
    | (.err .notConnected, _, d') => (.ok got, d')
    | (.err e, _, d') => (.err e, d')
    | (.panic, _, d') => (.panic, d')
    | (.fuel, _, d') => (.fuel, d')

end W5500.Spec
