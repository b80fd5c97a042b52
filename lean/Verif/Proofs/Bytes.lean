import Verif.Model.Core
import Verif.Spec.Datasheet
/-! # Big-endian conversions -/

namespace W5500
open Spec

theorem fromBeBytes_toNat (hi lo : U8) : (fromBeBytes hi lo).toNat = hi.toNat * 256 + lo.toNat := by
  simp only [fromBeBytes, BitVec.toNat_append]
  have := lo.isLt
  rw [Nat.shiftLeft_eq, Nat.mul_comm, ← Nat.two_pow_add_eq_or_of_lt (by omega)]

theorem toBeBytes_fromBeBytes (hi lo : U8) : toBeBytes (fromBeBytes hi lo) = [hi, lo] := by
  simp only [fromBeBytes, toBeBytes, List.cons.injEq, and_true]
  constructor <;> apply BitVec.eq_of_getLsbD_eq <;> intro i h <;>
    simp only [BitVec.getLsbD_extractLsb', BitVec.getLsbD_append] <;> simp [h] <;> grind

theorem fromBeBytes_inj {a b c d : U8} (h : fromBeBytes a b = fromBeBytes c d) : a = c ∧ b = d := by
  have := congrArg toBeBytes h
  rw [toBeBytes_fromBeBytes, toBeBytes_fromBeBytes] at this
  simpa using this

theorem toBeBytes_eq_be (x : U16) : toBeBytes x = be x.toNat := by
  have hx := x.isLt
  simp only [toBeBytes, be, List.cons.injEq, and_true]
  constructor
  · apply BitVec.eq_of_toNat_eq
    simp [BitVec.extractLsb'_toNat, Nat.shiftRight_eq_div_pow]
  · apply BitVec.eq_of_toNat_eq
    simp [BitVec.extractLsb'_toNat]

theorem fromBeBytes_be (x : U16) :
    fromBeBytes (BitVec.ofNat 8 (x.toNat / 256)) (BitVec.ofNat 8 (x.toNat % 256)) = x := by
  apply BitVec.eq_of_toNat_eq
  rw [fromBeBytes_toNat]
  have := x.isLt
  simp only [BitVec.toNat_ofNat]
  omega

end W5500
