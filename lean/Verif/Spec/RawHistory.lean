import Verif.Spec.UdpHistory
import Verif.Model.Device
/-! # Histories of a MACRAW device -/

namespace W5500.Spec
open W5500

/-- What frames look like in RX memory, one after the other. -/
def encFrames (fs : List (List U8)) : List U8 := (fs.map encodeFrame).flatten

/-- The frames `fs` are queued, oldest first, and nothing else is. -/
def Sock.Frames (fs : List (List U8)) (s : Sock) : Prop := (∀ f ∈ fs, f.length + 2 < 65536) ∧ s.queue = encFrames fs

/-- What a successful `read_frame` into a buffer `before` told its caller. -/
structure RawGot where
  before : List U8
  len : Nat
  buf : List U8

/-- `g` brought the beginning of frame `f`, as much as the buffer holds, and nothing else changed in the buffer. -/
structure RawGot.Brings (g : RawGot) (f : List U8) : Prop where
  len : g.len = min g.before.length f.length
  buf : g.buf = f.take g.len ++ g.before.drop g.len

/-- `g` brought nothing. -/
structure RawGot.Nothing (g : RawGot) : Prop where
  len : g.len = 0
  buf : g.buf = g.before

/-- The results `got` brought the frames `fs`: every frame once, in order; the other results brought nothing. -/
inductive RawGot.All : List RawGot → List (List U8) → Prop where
  | nil : All [] []
  | nothing {got : List RawGot} {fs : List (List U8)} {g : RawGot} : All got fs → g.Nothing → All (got ++ [g]) fs
  | got {got : List RawGot} {fs : List (List U8)} {g : RawGot} {f : List U8} : All got fs → g.Brings f →
      All (got ++ [g]) (fs ++ [f])

/-- A call of `write_frame`: the frame, and whether the call returned `Ok`. -/
structure RawSent where
  frame : List U8
  ok : Bool

/-- The packets `ps` are what the calls `log` transmitted: for a call that returned `Ok` one packet, which got out; for
a failed call at most one packet, of which nothing else is known. -/
inductive RawSent.All : List RawSent → List Packet → Prop where
  | nil : All [] []
  | ok {log : List RawSent} {ps : List Packet} {p : Packet} : All log ps → p.delivered = true →
      All (log ++ [⟨p.data, true⟩]) (ps ++ [p])
  | lost {log : List RawSent} {ps : List Packet} (f : List U8) : All log ps → All (log ++ [⟨f, false⟩]) ps
  | failed {log : List RawSent} {ps : List Packet} {p : Packet} : All log ps →
      All (log ++ [⟨p.data, false⟩]) (ps ++ [p])

/-- Everything handed to the chip has left, and no SENDOK is still to come for it. -/
def Quiet (n : Nat) (c : Chip) : Prop := Drained n c ∧ (c.socks n).owed.getLsbD 4 = false

/-- `RawRun sched faults r c log got c'`: from `c` the chip gets to `c'` with the calls `log` of `write_frame` and the
successful calls `got` of `read_frame` on the device `r`. Calls may fail in any way, with two exceptions:
* a failed `read_frame` leaves Sn_RX_RD alone;
* a failed `write_frame` leaves nothing waiting (data or SENDOK).

`past`: what happened so far may have happened with any other schedule and faults. -/
inductive RawRun {E : Type} : (Nat → List (Nat × Act)) → (Nat → Option (E × Nat)) → RawDevice → Chip →
    List RawSent → List RawGot → Chip → Prop where
  | start {sched : Nat → List (Nat × Act)} {faults : Nat → Option (E × Nat)} {r : RawDevice} {c : Chip} : RawRun sched faults r c [] [] c
  | readFrame {sched : Nat → List (Nat × Act)} {faults : Nat → Option (E × Nat)} {r : RawDevice} {c : Chip}
      {log : List RawSent} {got : List RawGot} {c1 c2 : Chip} (fuel : Nat) (buf buf' : List U8) (k : Nat) :
      RawRun sched faults r c log got c1 →
      r.readFrame (Chip.dev sched faults).bus fuel (buf, c1) = (.ok k, (buf', c2)) →
      RawRun sched faults r c log (got ++ [⟨buf, k, buf'⟩]) c2
  | failedRead {sched : Nat → List (Nat × Act)} {faults : Nat → Option (E × Nat)} {r : RawDevice} {c : Chip}
      {log : List RawSent} {got : List RawGot} {c1 c2 : Chip} (fuel : Nat) (buf buf' : List U8) (x : Res E Nat) :
      RawRun sched faults r c log got c1 →
      r.readFrame (Chip.dev sched faults).bus fuel (buf, c1) = (x, (buf', c2)) → (∀ k, x ≠ .ok k) →
      (c2.socks 0).rxRdReg = (c1.socks 0).rxRdReg → RawRun sched faults r c log got c2
  | writeFrame {sched : Nat → List (Nat × Act)} {faults : Nat → Option (E × Nat)} {r : RawDevice} {c : Chip}
      {log : List RawSent} {got : List RawGot} {c1 c2 : Chip} (fuel : Nat) (frame : List U8) (k : Nat) :
      RawRun sched faults r c log got c1 →
      r.writeFrame (Chip.dev sched faults).bus fuel frame c1 = (.ok k, c2) →
      RawRun sched faults r c (log ++ [⟨frame, true⟩]) got c2
  | failedWrite {sched : Nat → List (Nat × Act)} {faults : Nat → Option (E × Nat)} {r : RawDevice} {c : Chip}
      {log : List RawSent} {got : List RawGot} {c1 c2 : Chip} (fuel : Nat) (frame : List U8) (x : Res E Nat) :
      RawRun sched faults r c log got c1 →
      r.writeFrame (Chip.dev sched faults).bus fuel frame c1 = (x, c2) → (∀ k, x ≠ .ok k) → Quiet 0 c2 →
      RawRun sched faults r c (log ++ [⟨frame, false⟩]) got c2
  | enable {sched : Nat → List (Nat × Act)} {faults : Nat → Option (E × Nat)} {r : RawDevice} {c : Chip}
      {log : List RawSent} {got : List RawGot} {c1 c2 : Chip} (which : U8) (x : Res E Unit) :
      RawRun sched faults r c log got c1 →
      r.enableInterrupts (Chip.dev sched faults).bus which c1 = (x, c2) → RawRun sched faults r c log got c2
  | clear {sched : Nat → List (Nat × Act)} {faults : Nat → Option (E × Nat)} {r : RawDevice} {c : Chip}
      {log : List RawSent} {got : List RawGot} {c1 c2 : Chip} (x : Res E Unit) :
      RawRun sched faults r c log got c1 →
      r.clearInterrupts (Chip.dev sched faults).bus c1 = (x, c2) → RawRun sched faults r c log got c2
  | disable {sched : Nat → List (Nat × Act)} {faults : Nat → Option (E × Nat)} {r : RawDevice} {c : Chip}
      {log : List RawSent} {got : List RawGot} {c1 c2 : Chip} (x : Res E Unit) :
      RawRun sched faults r c log got c1 →
      r.disableInterrupts (Chip.dev sched faults).bus c1 = (x, c2) → RawRun sched faults r c log got c2
  | read {sched : Nat → List (Nat × Act)} {faults : Nat → Option (E × Nat)} {r : RawDevice} {c : Chip}
      {log : List RawSent} {got : List RawGot} {c1 : Chip} (block : U8) (addr : U16) (data : List U8) :
      RawRun sched faults r c log got c1 →
      RawRun sched faults r c log got ((Chip.dev sched faults).bus.readFrame c1 block addr data).2.2
  | write {sched : Nat → List (Nat × Act)} {faults : Nat → Option (E × Nat)} {r : RawDevice} {c : Chip}
      {log : List RawSent} {got : List RawGot} {c1 : Chip} (block : U8) (addr : U16) (data : List U8) :
      RawRun sched faults r c log got c1 → Foreign 0 block addr data →
      RawRun sched faults r c log got ((Chip.dev sched faults).bus.writeFrame c1 block addr data).2
  | pass {sched : Nat → List (Nat × Act)} {faults : Nat → Option (E × Nat)} {r : RawDevice} {c : Chip}
      {log : List RawSent} {got : List RawGot} {c1 c2 : Chip} : RawRun sched faults r c log got c1 → Passes c1 c2 →
      RawRun sched faults r c log got c2
  | past {sched sched' : Nat → List (Nat × Act)} {faults faults' : Nat → Option (E × Nat)} {r : RawDevice}
      {c c' : Chip} {log : List RawSent} {got : List RawGot} : RawRun sched' faults' r c log got c' → RawRun sched faults r c log got c'

/-- The device and the chip right after a successful `initialize_macraw`, or `RawDevice::new`, on a chip in any state. -/
inductive RawOpened {E : Type} (sched : Nat → List (Nat × Act)) (faults : Nat → Option (E × Nat)) : RawDevice → Chip → Prop where
  | new {r : RawDevice} {c0 c : Chip} : RawDevice.new (Chip.dev sched faults).bus c0 = (.ok r, c) →
      RawOpened sched faults r c
  | init {r : RawDevice} {c0 c : Chip} (mac : Mac) :
      Uninit.initializeMacraw (Chip.dev sched faults).bus mac c0 = (.ok r, c) → RawOpened sched faults r c

end W5500.Spec
