import Verif.Spec.Block
import Verif.Spec.UdpHistory
/-! # Packets that come one at a time -/

namespace W5500.Spec
open W5500
variable {W E H : Type}

/-- Something is received, or the RECV interrupt is raised. -/
def Act.isNews : Act → Bool
  | .arrive _ => true
  | .datagram _ => true
  | .frame _ => true
  | .raise bits => bits.getLsbD 2
  | _ => false

/-- Those of these events which are for socket `n` and of this kind. -/
def news (n : Nat) (l : List (Nat × Act)) : List Act := (l.filter fun e => e.1 = n && e.2.isNews).map Prod.snd

/-- From time `t` on, these packets come to socket `n` at these times, at least `gap` SPI bytes apart; until `gap` bytes after the last one
nothing else comes. -/
inductive Timetable (sched : Nat → List (Nat × Act)) (n gap : Nat) : Nat → List (Nat × Act) → Prop where
  | nil (t : Nat) : Timetable sched n gap t []
  | cons {t a : Nat} {e : Act} {rest : List (Nat × Act)} : t ≤ a → (∀ k, t ≤ k → k < a → news n (sched k) = []) →
      news n (sched a) = [e] → (∀ k, a < k → k < a + gap → news n (sched k) = []) →
      Timetable sched n gap (a + gap) rest → Timetable sched n gap t ((a, e) :: rest)

/-- A program that receives `rounds` datagrams into one buffer, once its socket is bound:

    for _ in 0..rounds {
        let (k, origin) = block!(stack.receive(&mut socket, &mut buf))?;
        ...
    }

It returns what each call found and left in the buffer, and its result. `fuel` bounds the number of rounds of the loop in `block!`, and is
passed on to the calls. -/
def listen (B : Bus W E) (u : UdpSocket) : Nat → Nat → M (List U8 × Device W H) (UdpSocketError E) (List UdpGot)
  | 0, _ => pure []
  | rounds + 1, fuel => do
    let before := (← M.get).1
    let x ← nbBlock (Device.udpReceive B fuel u) fuel
    let after := (← M.get).1
    let got ← listen B u rounds fuel
    pure (⟨before, x.1, x.2, after⟩ :: got)

/-- The results `got` brought the datagrams `ds`: all of them, in order, each one once. -/
inductive UdpGot.All : List UdpGot → List Dgram → Prop where
  | nil : All [] []
  | cons {g : UdpGot} {d : Dgram} {got : List UdpGot} {ds : List Dgram} : g.Brings d → All got ds → All (g :: got) (d :: ds)

end W5500.Spec
