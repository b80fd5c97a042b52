import Verif.Spec.Script
import Verif.Spec.Chip
import Verif.Model.Raw
import Verif.Proofs.ErrIn
/-! # Operations on a bus whose transfers do not fail -/

namespace W5500
open Spec socketn
variable {W E ε : Type} {B : Bus W E}

namespace ErrIn

theorem write (hB : Faultless B) (b : U8) (a : U16) (d : List U8) : ErrIn (fun _ => False) (B.write b a d) :=
  ⟨fun w e h => hB.2 w b a d e h⟩

theorem readSlice (hB : Faultless B) (b : U8) (a : U16) : ErrIn (fun _ => False) (B.readSlice b a) :=
  ⟨fun s e h => hB.1 s.2 b a s.1 e h⟩

theorem readBuf (hB : Faultless B) (b : U8) (a : U16) (i : List U8) : ErrIn (fun _ => False) (B.readBuf b a i) := by
  refine ⟨fun w e h => ?_⟩
  have := hB.1 w b a i
  unfold Bus.readBuf at h
  rcases hr : B.readFrame w b a i with ⟨_ | _ | _ | _, d, w'⟩ <;> rw [hr] at h this <;> cases h
  exact this _ rfl

theorem read1 (hB : Faultless B) (b : U8) (a : U16) : ErrIn (fun _ => False) (B.read1 b a) := by
  unfold Bus.read1
  refine .bind (readBuf hB _ _ _) fun d => ?_
  split
  · exact .pure _
  · exact .panic

theorem read2 (hB : Faultless B) (b : U8) (a : U16) : ErrIn (fun _ => False) (B.read2 b a) := by
  unfold Bus.read2
  refine .bind (readBuf hB _ _ _) fun d => ?_
  split
  · exact .pure _
  · exact .panic

end ErrIn

theorem noerr_waitSendOk (hB : Faultless B) (s : Socket) (fuel : Nat) :
    ErrIn (fun _ => False) (RawDevice.waitSendOk B s fuel) := by
  induction fuel with
  | zero => exact .outOfFuel
  | succ k ih =>
    unfold RawDevice.waitSendOk Socket.hasInterrupt
    refine .bind (.bind (.read1 hB _ _) fun _ => .pure _) fun b => ?_
    split
    · exact .pure _
    · exact ih

theorem noerr_rawWrite (hB : Faultless B) (d : RawDevice) (fuel : Nat) (frame : List U8) :
    ErrIn (fun _ => False) (d.writeFrame B fuel frame) := by
  unfold RawDevice.writeFrame TxCursor.new TxCursor.commit Socket.resetInterrupt Socket.getTxFreeSize
    Socket.getTxWritePointer Socket.setTxWritePointer Socket.command
  refine .bind (.write hB _ _ _) fun _ => .bind (.bind (.read2 hB _ _) fun _ => .bind (.read2 hB _ _) fun _ => .pure _)
    fun c => .bind ?_ fun _ => .bind (.bind (.write hB _ _ _) fun _ => .write hB _ _ _) fun _ =>
      .bind (noerr_waitSendOk hB _ _) fun _ => .pure _
  unfold TxCursor.write
  split
  · exact .pure _
  · exact .bind (.sliceTo _ _) fun _ => .bind (.write hB _ _ _) fun _ => .pure _

/-- A chip on a wire without faults. -/
theorem faultless_chip {sched : Nat → List (Nat × Act)} {faults : Nat → Option (E × Nat)} (h : ∀ i, faults i = none) :
    Faultless (Chip.dev sched faults).bus := by
  constructor
  · intro w b a d e he
    unfold ByteDev.bus Chip.dev at he
    dsimp only at he
    rw [h] at he
    cases he
  · intro w b a d e he
    unfold ByteDev.bus Chip.dev at he
    dsimp only at he
    rw [h] at he
    cases he

end W5500
