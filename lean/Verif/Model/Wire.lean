import Verif.Model.Core
/-! # The two SPI bus implementations — /repo/src/bus/four_wire.rs, /repo/src/bus/three_wire.rs -/

namespace W5500

/-- One entry of `SpiDevice::transaction` (embedded-hal `Operation`), restricted to the kinds the crate
uses (/repo/src/bus/four_wire.rs:35-37,48-50). -/
inductive SpiOp where
  | write (data : List U8)
  | transferInPlace (data : List U8)
deriving DecidableEq, Repr

/-- Length of the buffer of an operation. -/
def SpiOp.data : SpiOp → List U8
  | .write d => d
  | .transferInPlace d => d

/-- embedded-hal `SpiDevice`: a transaction performs a list of operations inside one chip-select
window; it returns the result and the final contents of the operations' buffers. `lengths` says that
Rust slices keep their lengths. -/
structure SpiDevice (W E : Type) where
  transaction : W → List SpiOp → Res E Unit × List (List U8) × W
  lengths : ∀ w ops, (transaction w ops).2.1.map List.length = ops.map (fun o => o.data.length)

/-- embedded-hal `SpiBus`: raw byte transfers without chip select. -/
structure SpiBus (W E : Type) where
  write : W → List U8 → Res E Unit × W
  transferInPlace : W → List U8 → Res E Unit × List U8 × W
  length : ∀ w d, (transferInPlace w d).2.1.length = d.length

namespace FourWire
variable {W E : Type}

/-- /repo/src/bus/four_wire.rs:8 -/
def WRITE_MODE_MASK : U8 := 0b00000100

/-- `FourWire::read_frame` — /repo/src/bus/four_wire.rs:30-41. The third buffer of the transaction is
the caller's `data`; the other two are local. -/
def readFrame (S : SpiDevice W E) (w : W) (block : U8) (address : U16) (data : List U8) :
    Res E Unit × List U8 × W :=
  let addressPhase := toBeBytes address
  let controlPhase := block <<< 3
  let r := S.transaction w [.write addressPhase, .write [controlPhase], .transferInPlace data]
  (r.1, r.2.1.getLastD [], r.2.2)

/-- `FourWire::write_frame` — /repo/src/bus/four_wire.rs:43-54 -/
def writeFrame (S : SpiDevice W E) (w : W) (block : U8) (address : U16) (data : List U8) :
    Res E Unit × W :=
  let controlPhase := (block <<< 3) ||| WRITE_MODE_MASK
  let addressPhase := toBeBytes address
  let r := S.transaction w [.write addressPhase, .write [controlPhase], .write data]
  (r.1, r.2.2)

/-- `impl Bus for FourWire` — /repo/src/bus/four_wire.rs:27-55 -/
def bus (S : SpiDevice W E) : Bus W E where
  readFrame := readFrame S
  writeFrame := writeFrame S
  read_length := by
    intro w block addr data
    simp only [readFrame]
    have h := S.lengths w [.write (toBeBytes addr), .write [block <<< 3], .transferInPlace data]
    generalize S.transaction w
      [.write (toBeBytes addr), .write [block <<< 3], .transferInPlace data] = r at h
    obtain ⟨r1, l, w'⟩ := r
    match l with
    | [x, y, z] =>
      simp only [List.map_cons, List.map_nil, SpiOp.data, List.cons.injEq, and_true] at h
      exact h.2.2
    | [] => simp at h
    | [_] => simp at h
    | [_, _] => simp at h
    | _ :: _ :: _ :: _ :: _ => simp at h

end FourWire

namespace ThreeWire
variable {W E : Type}

/-- /repo/src/bus/three_wire.rs:8 (the literal is `0b00000_1_0`, i.e. 2) -/
def WRITE_MODE_MASK : U8 := 0b0000010
/-- /repo/src/bus/three_wire.rs:10 -/
def FIXED_DATA_LENGTH_MODE_1 : U8 := 0b00000001
/-- /repo/src/bus/three_wire.rs:11 -/
def FIXED_DATA_LENGTH_MODE_2 : U8 := 0b00000010
/-- /repo/src/bus/three_wire.rs:12 -/
def FIXED_DATA_LENGTH_MODE_4 : U8 := 0b00000011

/-- The `if/else if/else` at /repo/src/bus/three_wire.rs:56-65 and 86-95: the length-mode bits to be
or-ed into `control_phase` and the chunk length, given `data_phase.len()`. -/
def chunk (len : Nat) : U8 × Nat :=
  if len ≥ 4 then (FIXED_DATA_LENGTH_MODE_4, 4)
  else if len ≥ 2 then (FIXED_DATA_LENGTH_MODE_2, 2)
  else (FIXED_DATA_LENGTH_MODE_1, 1)

theorem chunk_pos (len : Nat) : 0 < (chunk len).2 := by
  unfold chunk; split <;> (try split) <;> simp

/-- `address += last_length_written` on `u16` (/repo/src/bus/three_wire.rs:74,103): `none` is the
overflow panic of builds with overflow checks. -/
def advance (oc : Bool) (address : U16) (n : Nat) : Option U16 :=
  if oc && decide (65536 ≤ address.toNat + n) then none else some (address + BitVec.ofNat 16 n)

/-- The loop of `ThreeWire::read_frame` — /repo/src/bus/three_wire.rs:55-77. Returns also the final
contents of the caller's slice: chunks already transferred, then the untouched rest. -/
def readLoop (oc : Bool) (S : SpiBus W E) (w : W) (controlPhase : U8) (address : U16)
    (dataPhase : List U8) : Res E Unit × List U8 × W :=
  if _h : dataPhase = [] then (.ok (), [], w)
  else
    let c := chunk dataPhase.length
    let controlPhase := controlPhase ||| c.1
    let n := c.2
    match S.write w (toBeBytes address) with
    | (.ok _, w) =>
      match S.write w [controlPhase] with
      | (.ok _, w) =>
        match S.transferInPlace w (dataPhase.take n) with
        | (.ok _, d, w) =>
          match advance oc address n with
          | none => (.panic, d ++ dataPhase.drop n, w)
          | some address =>
            let r := readLoop oc S w controlPhase address (dataPhase.drop n)
            (r.1, d ++ r.2.1, r.2.2)
        | (e, d, w) => (e, d ++ dataPhase.drop n, w)
      | (e, w) => (e, dataPhase, w)
    | (e, w) => (e, dataPhase, w)
termination_by dataPhase.length
decreasing_by
  have := chunk_pos dataPhase.length
  have : 0 < dataPhase.length := List.length_pos_iff.mpr _h
  simp only [List.length_drop, gt_iff_lt]
  omega

/-- `ThreeWire::read_frame` — /repo/src/bus/three_wire.rs:45-78 -/
def readFrame (oc : Bool) (S : SpiBus W E) (w : W) (block : U8) (address : U16) (data : List U8) :
    Res E Unit × List U8 × W :=
  readLoop oc S w (block <<< 3) address data

/-- The loop of `ThreeWire::write_frame` — /repo/src/bus/three_wire.rs:85-106. -/
def writeLoop (oc : Bool) (S : SpiBus W E) (w : W) (controlPhase : U8) (address : U16)
    (dataPhase : List U8) : Res E Unit × W :=
  if _h : dataPhase = [] then (.ok (), w)
  else
    let c := chunk dataPhase.length
    let controlPhase := controlPhase ||| c.1
    let n := c.2
    match S.write w (toBeBytes address) with
    | (.ok _, w) =>
      match S.write w [controlPhase] with
      | (.ok _, w) =>
        match S.write w (dataPhase.take n) with
        | (.ok _, w) =>
          match advance oc address n with
          | none => (.panic, w)
          | some address => writeLoop oc S w controlPhase address (dataPhase.drop n)
        | (e, w) => (e, w)
      | (e, w) => (e, w)
    | (e, w) => (e, w)
termination_by dataPhase.length
decreasing_by
  have := chunk_pos dataPhase.length
  have : 0 < dataPhase.length := List.length_pos_iff.mpr _h
  simp only [List.length_drop, gt_iff_lt]
  omega

/-- `ThreeWire::write_frame` — /repo/src/bus/three_wire.rs:80-107 -/
def writeFrame (oc : Bool) (S : SpiBus W E) (w : W) (block : U8) (address : U16) (data : List U8) :
    Res E Unit × W :=
  writeLoop oc S w ((block <<< 3) ||| WRITE_MODE_MASK) address data

theorem readLoop_length (oc : Bool) (S : SpiBus W E) (w : W) (c : U8) (a : U16) (d : List U8) :
    (readLoop oc S w c a d).2.1.length = d.length := by
  fun_induction readLoop oc S w c a d with
  | case1 => rfl
  | case2 _ _ _ dp _ _ _ n _ _ _ _ w1 _ _ _ _ ht =>
    have hl := S.length w1 (dp.take n)
    rw [ht] at hl
    simp only [List.length_take, List.length_append, List.length_drop] at hl ⊢
    omega
  | case3 _ _ _ dp _ _ _ n _ _ _ _ w1 _ _ _ _ ht _ _ r ih =>
    change r.2.1.length = _ at ih
    have hl := S.length w1 (dp.take n)
    rw [ht] at hl
    simp only [List.length_take, List.length_append, List.length_drop] at hl ih ⊢
    omega
  | case4 _ _ _ dp _ _ _ n _ _ _ _ w1 _ _ _ _ _ ht =>
    have hl := S.length w1 (dp.take n)
    rw [ht] at hl
    simp only [List.length_take, List.length_append, List.length_drop] at hl ⊢
    omega
  | case5 => rfl
  | case6 => rfl

/-- `impl Bus for ThreeWire` — /repo/src/bus/three_wire.rs:31-108 -/
def bus (oc : Bool) (S : SpiBus W E) : Bus W E where
  readFrame := readFrame oc S
  writeFrame := writeFrame oc S
  read_length := fun w _ addr data => readLoop_length oc S w _ addr data

end ThreeWire

end W5500
