import Verif.Spec.Chip
/-! # Packet sockets (UDP, MACRAW) between two calls, and the packets a buffer is sent as -/

namespace W5500.Spec
open W5500

namespace Sock

/-- The destination registers: IP and port. -/
def dest (s : Sock) : List U8 × List U8 :=
  ([s.mem 0x0C, s.mem 0x0D, s.mem 0x0E, s.mem 0x0F], [s.mem 0x10, s.mem 0x11])

/-- In mode `m` (2: UDP, 4: MACRAW) with a legal TX buffer size, and nothing written or waiting to be sent. -/
structure TxIdle (m : Nat) (s : Sock) : Prop where
  mode : s.proto = m
  size : GoodSize s.txSize
  rd : s.txRd = s.txLimit
  una : s.una = s.txLimit
  wr : s.txWr = s.txLimit

end Sock

/-- `data` cut into consecutive pieces of `z` bytes, the last one shorter. -/
def pieces (z : Nat) (data : List U8) : List (List U8) :=
  if _h : data = [] ∨ z = 0 then [] else data.take z :: pieces z (data.drop z)
termination_by data.length
decreasing_by
  have : data ≠ [] := fun e => _h (.inl e)
  have := List.length_pos_iff.mpr this
  simp only [List.length_drop]
  omega

/-- The packets `ps` carry the payloads `ds`, in order, to destination `dst`. -/
def Carry (dst : List U8 × List U8) (ds : List (List U8)) (ps : List Packet) : Prop :=
  ps.map (·.data) = ds ∧ ∀ p ∈ ps, p.ip = dst.1 ∧ p.port = dst.2

/-- What datagrams look like in RX memory, one after the other. -/
def encAll (ds : List Dgram) : List U8 := (ds.map Dgram.encode).flatten

/-- The datagrams `ds` are queued, oldest first, and nothing else is. -/
def Sock.Queued (ds : List Dgram) (s : Sock) : Prop := (∀ d ∈ ds, d.Wf) ∧ s.queue = encAll ds

end W5500.Spec
