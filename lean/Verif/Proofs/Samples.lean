import Verif.Spec.Script
import Verif.Proofs.Runs
import Verif.Proofs.Bytes
/-! # What a successful `get_receive_size` has read -/

namespace W5500.Props
open W5500 W5500.Spec socketn
variable {W E : Type}

theorem receiveSize_iff {B : Bus W E} {s : Socket} {fuel : Nat} {w w' : W} {v : U16} :
    s.getReceiveSize B fuel w = (.ok v, w') ↔ ReadsTwice B s.register 0x26 fuel w v.toNat w' := by
  constructor
  · intro h
    induction fuel generalizing w with
    | zero => cases h
    | succ k ih =>
      unfold Socket.getReceiveSize at h
      simp only [M.bind_eq_ok, Bus.read2_eq_ok] at h
      obtain ⟨a, w1, ⟨x, y, h1, rfl⟩, b, w2, ⟨x', y', h2, rfl⟩, h⟩ := h
      split at h
      · rename_i he
        rw [M.pure_eq_ok] at h
        obtain ⟨rfl, rfl⟩ := h
        have := congrArg toBeBytes he
        rw [toBeBytes_fromBeBytes, toBeBytes_fromBeBytes] at this
        rw [fromBeBytes_toNat]
        exact .agree h1 (this ▸ h2)
      · rename_i he
        refine .differ h1 h2 (fun e => he ?_) (ih h)
        cases e
        rfl
  · intro h
    generalize hv : v.toNat = vn at h
    induction h with
    | @agree rounds w w1 w2 x y h1 h2 =>
      obtain rfl : v = fromBeBytes x y := BitVec.eq_of_toNat_eq (by rw [hv, fromBeBytes_toNat])
      unfold Socket.getReceiveSize
      simp only [M.bind_eq_ok, Bus.read2_eq_ok]
      refine ⟨_, w1, ⟨x, y, h1, rfl⟩, _, w2, ⟨x, y, h2, rfl⟩, ?_⟩
      rw [if_pos rfl]
      rfl
    | @differ rounds w w1 w2 w3 x y x' y' v' h1 h2 hne _ ih =>
      unfold Socket.getReceiveSize
      simp only [M.bind_eq_ok, Bus.read2_eq_ok]
      refine ⟨_, w1, ⟨x, y, h1, rfl⟩, _, w2, ⟨x', y', h2, rfl⟩, ?_⟩
      rw [if_neg fun e => hne ?_]
      · exact ih hv
      · have := congrArg toBeBytes e
        rwa [toBeBytes_fromBeBytes, toBeBytes_fromBeBytes] at this

end W5500.Props
