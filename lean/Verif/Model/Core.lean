/-!
# Core vocabulary of the model

Rust integers are `BitVec`s, slices are lists, and a Rust function that mutates through
`&mut` and may fail is a state transformer `M σ ε α` returning a `Res`.
-/

namespace W5500

/-- Rust `u8`. -/
abbrev U8 := BitVec 8
/-- Rust `u16`. -/
abbrev U16 := BitVec 16

/-- `u16::to_be_bytes` (core library; used e.g. in /repo/src/socket.rs:89). -/
def toBeBytes (x : U16) : List U8 := [x.extractLsb' 8 8, x.extractLsb' 0 8]

/-- `u16::from_be_bytes` (core library; used e.g. in /repo/src/socket.rs:117). -/
def fromBeBytes (hi lo : U8) : U16 := hi ++ lo

/-- Outcome of a Rust call.
* `ok a`, `err e`: the call returned `Ok a` / `Err e`;
* `panic`: it panicked (`assert!`, slice index, `unreachable!`, checked arithmetic);
* `fuel`: it is still inside one of its unbounded loops after the given number of iterations. -/
inductive Res (ε α : Type) where
  | ok (a : α)
  | err (e : ε)
  | panic
  | fuel
deriving DecidableEq, Repr

/-- A Rust function with mutable state `σ` (everything reachable through `&mut`). -/
def M (σ ε α : Type) := σ → Res ε α × σ

namespace M
variable {σ τ ε ε' α β : Type}

@[inline] protected def pure (a : α) : M σ ε α := fun s => (.ok a, s)

/-- Sequencing; `?` on a `Result` is this bind: everything but `ok` ends the function. -/
@[inline] protected def bind (m : M σ ε α) (f : α → M σ ε β) : M σ ε β := fun s =>
  match m s with
  | (.ok a, s') => f a s'
  | (.err e, s') => (.err e, s')
  | (.panic, s') => (.panic, s')
  | (.fuel, s') => (.fuel, s')

instance : Monad (M σ ε) where
  pure := M.pure
  bind := M.bind

/-- `return Err(e)`. -/
def throw (e : ε) : M σ ε α := fun s => (.err e, s)
/-- A Rust panic. -/
def panic : M σ ε α := fun s => (.panic, s)
/-- Loop fuel exhausted: the Rust loop is still running. -/
def outOfFuel : M σ ε α := fun s => (.fuel, s)
/-- Read the mutable state. -/
def get : M σ ε σ := fun s => (.ok s, s)
/-- Overwrite the mutable state. -/
def set (s : σ) : M σ ε Unit := fun _ => (.ok (), s)
/-- Update the mutable state. -/
def modify (f : σ → σ) : M σ ε Unit := fun s => (.ok (), f s)

/-- `?` with `From::from` on the error. -/
def mapErr (f : ε → ε') (m : M σ ε α) : M σ ε' α := fun s =>
  match m s with
  | (.ok a, s') => (.ok a, s')
  | (.err e, s') => (.err (f e), s')
  | (.panic, s') => (.panic, s')
  | (.fuel, s') => (.fuel, s')

/-- Run a function that only has `&mut` access to a part `τ` of the state. -/
def zoom (get : σ → τ) (put : τ → σ → σ) (m : M τ ε α) : M σ ε α := fun s =>
  let r := m (get s)
  (r.1, put r.2 s)

/-- `&mut` access to the second component (the bus) of a pair. -/
def onSnd (m : M τ ε α) : M (σ × τ) ε α := zoom Prod.snd (fun t s => (s.1, t)) m

/-- Run with a fresh local variable (`let mut x = init;`), returning its final value as well. -/
def withLocal (init : β) (m : M (β × σ) ε α) : M σ ε (α × β) := fun s =>
  match m (init, s) with
  | (.ok a, (b, s')) => (.ok (a, b), s')
  | (.err e, (_, s')) => (.err e, s')
  | (.panic, (_, s')) => (.panic, s')
  | (.fuel, (_, s')) => (.fuel, s')

/-- Pass `&mut buf[..n]` to a function: panics if `n > buf.len()`; bytes from `n` on are untouched. -/
def withPrefix (n : Nat) (m : M (List U8 × σ) ε α) : M (List U8 × σ) ε α := fun s =>
  if n ≤ s.1.length then
    let r := m (s.1.take n, s.2)
    (r.1, (r.2.1 ++ s.1.drop n, r.2.2))
  else (.panic, s)

/-- `&buf[..n]`: panics if `n > buf.len()`. -/
def sliceTo (buf : List U8) (n : Nat) : M σ ε (List U8) :=
  if n ≤ buf.length then pure (buf.take n) else panic

/-- `&buf[n..]`: panics if `n > buf.len()`. -/
def sliceFrom (buf : List U8) (n : Nat) : M σ ε (List U8) :=
  if n ≤ buf.length then pure (buf.drop n) else panic

end M

/-- An implementation of the trait `Bus` (/repo/src/bus/mod.rs:10-16): any state type `W`, any error
type `E`, any behaviour. `readFrame w block address data` returns the result, the contents of the
`&mut [u8]` afterwards, and the new bus state. `read_length` is what the Rust type `&mut [u8]`
guarantees: the slice keeps its length. -/
structure Bus (W E : Type) where
  readFrame : W → U8 → U16 → List U8 → Res E Unit × List U8 × W
  writeFrame : W → U8 → U16 → List U8 → Res E Unit × W
  read_length : ∀ w block addr data, (readFrame w block addr data).2.1.length = data.length

namespace Bus
variable {W E : Type}

/-- `bus.write_frame(block, address, &data)?` as a step of a driver function. -/
def write (B : Bus W E) (block : U8) (addr : U16) (data : List U8) : M W E Unit :=
  fun w => B.writeFrame w block addr data

/-- `let mut data = <init>; bus.read_frame(block, address, &mut data)?; data` -/
def readBuf (B : Bus W E) (block : U8) (addr : U16) (init : List U8) : M W E (List U8) := fun w =>
  match B.readFrame w block addr init with
  | (.ok _, d, w') => (.ok d, w')
  | (.err e, _, w') => (.err e, w')
  | (.panic, _, w') => (.panic, w')
  | (.fuel, _, w') => (.fuel, w')

/-- `bus.read_frame(block, address, buf)?` where `buf: &mut [u8]` is the caller's slice, part of the
mutable state: it holds what the bus stored, also if the transfer fails. -/
def readSlice (B : Bus W E) (block : U8) (addr : U16) : M (List U8 × W) E Unit := fun s =>
  B.readFrame s.2 block addr s.1

/-- Read a `[u8; 1]` initialised with 0. The other arm cannot occur (`Bus.read_length`). -/
def read1 (B : Bus W E) (block : U8) (addr : U16) : M W E U8 := do
  match ← B.readBuf block addr [0] with
  | [a] => pure a
  | _ => M.panic

/-- Read a `[u8; 2]` initialised with 0 and decode it with `u16::from_be_bytes`.
The other arm cannot occur (`Bus.read_length`). -/
def read2 (B : Bus W E) (block : U8) (addr : U16) : M W E U16 := do
  match ← B.readBuf block addr [0, 0] with
  | [a, b] => pure (fromBeBytes a b)
  | _ => M.panic

end Bus

end W5500
