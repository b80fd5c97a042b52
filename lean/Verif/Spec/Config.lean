import Verif.Spec.TcpHistory
/-! # Configuration registers (datasheet 4.1): GAR 0x01, SUBR 0x05, SHAR 0x09, SIPR 0x0F, and histories of refreshes -/

namespace W5500.Spec
open W5500

/-- Four bytes of the common block. -/
def ipAt (c : Chip) (a : U16) : List U8 := [c.cmem a, c.cmem (a + 1), c.cmem (a + 2), c.cmem (a + 3)]
/-- Six bytes of the common block. -/
def macAt (c : Chip) (a : U16) : List U8 :=
  [c.cmem a, c.cmem (a + 1), c.cmem (a + 2), c.cmem (a + 3), c.cmem (a + 4), c.cmem (a + 5)]

/-- The chip holds these settings. -/
def Configured (c : Chip) (mac : Mac) (ip gateway subnet : Ipv4) : Prop :=
  ipAt c 0x01 = [gateway.a, gateway.b, gateway.c, gateway.d] ∧ ipAt c 0x05 = [subnet.a, subnet.b, subnet.c, subnet.d] ∧
  macAt c 0x09 = [mac.o0, mac.o1, mac.o2, mac.o3, mac.o4, mac.o5] ∧ ipAt c 0x0F = [ip.a, ip.b, ip.c, ip.d]

/-- A write frame that does not concern the settings: it goes to some other block, or to addresses of the common block
outside 0x01 … 0x12 without resetting the chip. -/
def OtherSettings (block : U8) (addr : U16) (data : List U8) : Prop :=
  (block.setWidth 5 : BitVec 5) = 0 → ∀ i (h : i < data.length),
    (addr + BitVec.ofNat 16 i = 0 → data[i].getLsbD 7 = false) ∧
    (addr + BitVec.ofNat 16 i = 0 ∨ 0x12 < (addr + BitVec.ofNat 16 i).toNat)

/-- `Refreshes sched faults s s'`: any number of calls of `Manual::refresh`, succeeding or not, with other traffic and
time in between. -/
inductive Refreshes {E : Type} (sched : Nat → List (Nat × Act)) (faults : Nat → Option (E × Nat)) (s : Manual × Chip) :
    Manual × Chip → Prop where
  | start : Refreshes sched faults s s
  | refresh {s1 s2 : Manual × Chip} (r : Res E Unit) : Refreshes sched faults s s1 →
      Manual.refresh (Chip.dev sched faults).bus s1 = (r, s2) → Refreshes sched faults s s2
  | read {m : Manual} {c : Chip} (block : U8) (addr : U16) (data : List U8) : Refreshes sched faults s (m, c) →
      Refreshes sched faults s (m, ((Chip.dev sched faults).bus.readFrame c block addr data).2.2)
  | write {m : Manual} {c : Chip} (block : U8) (addr : U16) (data : List U8) : Refreshes sched faults s (m, c) →
      OtherSettings block addr data →
      Refreshes sched faults s (m, ((Chip.dev sched faults).bus.writeFrame c block addr data).2)
  | pass {m : Manual} {c c' : Chip} : Refreshes sched faults s (m, c) → Passes c c' → Refreshes sched faults s (m, c')

/-- What a client can know about the common registers: the value last set, or nothing if setting it failed (the chip
may hold a mixture then). -/
structure Known where
  /-- RTR -/
  retryTime : Option U16
  /-- RCR -/
  retryCount : Option U8
  /-- MR -/
  mode : Option U8
  /-- GAR, SUBR, SHAR, SIPR -/
  gateway : Option Ipv4
  subnet : Option Ipv4
  mac : Option Mac
  ip : Option Ipv4

namespace Known
/-- Reset values. -/
def reset : Known := ⟨some 2000, some 8, some 0, some ⟨0, 0, 0, 0⟩, some ⟨0, 0, 0, 0⟩, some ⟨0, 0, 0, 0, 0, 0⟩, some ⟨0, 0, 0, 0⟩⟩
def nothing : Known := ⟨none, none, none, none, none, none, none⟩

/-- The chip's registers are as known. -/
structure Holds (c : Chip) (K : Known) : Prop where
  retryTime : ∀ t, K.retryTime = some t → [c.cmem 0x19, c.cmem 0x1A] = be t.toNat
  retryCount : ∀ n, K.retryCount = some n → c.cmem 0x1B = n
  mode : ∀ m, K.mode = some m → c.cmem 0x00 = m
  gateway : ∀ a, K.gateway = some a → ipAt c 0x01 = [a.a, a.b, a.c, a.d]
  subnet : ∀ a, K.subnet = some a → ipAt c 0x05 = [a.a, a.b, a.c, a.d]
  mac : ∀ a, K.mac = some a → macAt c 0x09 = [a.o0, a.o1, a.o2, a.o3, a.o4, a.o5]
  ip : ∀ a, K.ip = some a → ipAt c 0x0F = [a.a, a.b, a.c, a.d]
  version : c.cmem 0x39 = 4
end Known

/-- The value if the call was successful. -/
def ifOk {E α : Type} (r : Res E Unit) (a : α) : Option α := match r with
  | .ok () => some a
  | _ => none

/-- A write frame to another block or to other common registers. -/
def Elsewhere (block : U8) (addr : U16) (data : List U8) : Prop :=
  (block.setWidth 5 : BitVec 5) = 0 → ∀ i, i < data.length → 0x12 < (addr + BitVec.ofNat 16 i).toNat ∧
    ((addr + BitVec.ofNat 16 i).toNat < 0x19 ∨ 0x1B < (addr + BitVec.ofNat 16 i).toNat)

/-- Histories of setter calls, succeeding or failing, mixed with any reads, any other writes, and time. -/
inductive Setters {E : Type} (sched : Nat → List (Nat × Act)) (faults : Nat → Option (E × Nat)) (c0 : Chip) (K0 : Known) :
    Chip → Known → Prop where
  | start : Setters sched faults c0 K0 c0 K0
  | retryTime {c c' : Chip} {K : Known} (t : U16) (r : Res E Unit) : Setters sched faults c0 K0 c K →
      setRetryTimeout (Chip.dev sched faults).bus ⟨t⟩ c = (r, c') →
      Setters sched faults c0 K0 c' { K with retryTime := ifOk r t }
  | retryCount {c c' : Chip} {K : Known} (n : U8) (r : Res E Unit) : Setters sched faults c0 K0 c K →
      setRetryCount (Chip.dev sched faults).bus n c = (r, c') →
      Setters sched faults c0 K0 c' { K with retryCount := ifOk r n }
  | mode {c c' : Chip} {K : Known} (m : Mode) (r : Res E Unit) : Setters sched faults c0 K0 c K →
      setMode (Chip.dev sched faults).bus m c = (r, c') →
      Setters sched faults c0 K0 c' { K with mode := ifOk r m.toU8 }
  | reset {c c' : Chip} {K : Known} (r : Res E Unit) : Setters sched faults c0 K0 c K →
      resetChip (Chip.dev sched faults).bus c = (r, c') →
      Setters sched faults c0 K0 c' ((ifOk r Known.reset).getD Known.nothing)
  | read {c : Chip} {K : Known} (block : U8) (addr : U16) (data : List U8) : Setters sched faults c0 K0 c K →
      Setters sched faults c0 K0 ((Chip.dev sched faults).bus.readFrame c block addr data).2.2 K
  | write {c : Chip} {K : Known} (block : U8) (addr : U16) (data : List U8) : Setters sched faults c0 K0 c K →
      Elsewhere block addr data → Setters sched faults c0 K0 ((Chip.dev sched faults).bus.writeFrame c block addr data).2 K
  | pass {c c' : Chip} {K : Known} : Setters sched faults c0 K0 c K → Passes c c' → Setters sched faults c0 K0 c' K

end W5500.Spec
