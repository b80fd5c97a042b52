import Verif.Spec.Chip
/-! # Ring buffers -/

namespace W5500.Spec.Sock
open W5500

theorem mod_cancel {a b c n : Nat} (hb : b < n) (hc : c < n) (h : (a + b) % n = (a + c) % n) : b = c := by
  have h1 := Nat.sub_mod_eq_zero_of_mod_eq h
  have h2 := Nat.sub_mod_eq_zero_of_mod_eq h.symm
  rw [Nat.add_sub_add_left, Nat.mod_eq_of_lt (by omega)] at h1 h2
  omega

theorem ring_length (mem : Nat → U8) (size : Nat) (p : U16) (n : Nat) : (ring mem size p n).length = n := by
  simp [ring]

theorem ring_zero (mem : Nat → U8) (size : Nat) (p : U16) : ring mem size p 0 = [] := rfl

theorem ptr_mod {size : Nat} (hd : size ∣ 65536) (p : U16) (k : Nat) :
    (p + BitVec.ofNat 16 k).toNat % size = (p.toNat + k) % size := by
  rw [BitVec.toNat_add, BitVec.toNat_ofNat, Nat.add_mod_mod]
  exact Nat.mod_mod_of_dvd _ hd

theorem ring_get (mem : Nat → U8) (size : Nat) (p : U16) (n i : Nat) (h : i < n) :
    (ring mem size p n)[i]'(by rw [ring_length]; exact h) = mem ((p.toNat + i) % size) := by
  simp [ring]

theorem ring_add {size : Nat} (hd : size ∣ 65536) (mem : Nat → U8) (p : U16) (m n : Nat) :
    ring mem size p (m + n) = ring mem size p m ++ ring mem size (p + BitVec.ofNat 16 m) n := by
  unfold ring
  rw [List.range_add, List.map_append, List.map_map]
  congr 1
  apply List.map_congr_left
  intro i _
  simp only [Function.comp]
  rw [← ptr_mod hd (p + BitVec.ofNat 16 m) i, BitVec.add_assoc, ← BitVec.ofNat_add, ptr_mod hd]

theorem ring_take (mem : Nat → U8) (size : Nat) (p : U16) (n k : Nat) (h : k ≤ n) :
    (ring mem size p n).take k = ring mem size p k := by
  unfold ring
  rw [← List.map_take, List.take_range, Nat.min_eq_left h]

theorem ring_drop {size : Nat} (hd : size ∣ 65536) (mem : Nat → U8) (p : U16) (n k : Nat) (h : k ≤ n) :
    (ring mem size p n).drop k = ring mem size (p + BitVec.ofNat 16 k) (n - k) := by
  obtain ⟨m, rfl⟩ := Nat.exists_eq_add_of_le h
  rw [ring_add hd, List.drop_append_of_le_length (by rw [ring_length]; exact Nat.le_refl _), Nat.add_sub_cancel_left]
  rw [List.drop_of_length_le (by rw [ring_length]; exact Nat.le_refl _), List.nil_append]

theorem ring_succ {size : Nat} (hd : size ∣ 65536) (mem : Nat → U8) (p : U16) (n : Nat) :
    ring mem size p (n + 1) = mem (p.toNat % size) :: ring mem size (p + 1) n := by
  rw [Nat.add_comm, ring_add hd]
  simp [ring]

/-- Two memories that agree on the cells of a ring section give the same section. -/
theorem ring_congr {mem mem' : Nat → U8} {size : Nat} {p : U16} {n : Nat}
    (h : ∀ i, i < n → mem' ((p.toNat + i) % size) = mem ((p.toNat + i) % size)) :
    ring mem' size p n = ring mem size p n := by
  unfold ring
  apply List.map_congr_left
  intro i hi
  exact h i (List.mem_range.mp hi)

/-- What `ringStore` leaves alone. -/
theorem ringStore_other {size : Nat} (hd : size ∣ 65536) (mem : Nat → U8) (p : U16) (bs : List U8) (j : Nat)
    (h : ∀ i, i < bs.length → (p.toNat + i) % size ≠ j) : ringStore mem size p bs j = mem j := by
  induction bs generalizing mem p with
  | nil => rfl
  | cons x xs ih =>
    rw [ringStore, ih]
    · rw [if_neg]
      have := h 0 (by simp)
      rw [Nat.add_zero] at this
      exact fun e => this e.symm
    · intro i hi
      have := h (i + 1) (by simpa using hi)
      rw [show (1 : U16) = BitVec.ofNat 16 1 from rfl, Nat.add_mod, ptr_mod hd, ← Nat.add_mod]
      rwa [Nat.add_assoc, Nat.add_comm 1 i]

/-- Bytes stored in a ring can be read back if there are no more of them than the ring has cells. -/
theorem ring_ringStore {size : Nat} (hd : size ∣ 65536) (mem : Nat → U8) (p : U16) (bs : List U8)
    (h : bs.length ≤ size) : ring (ringStore mem size p bs) size p bs.length = bs := by
  induction bs generalizing mem p with
  | nil => rfl
  | cons x xs ih =>
    simp only [List.length_cons] at h ⊢
    rw [ring_succ hd, ringStore, ih _ _ (by omega)]
    congr 1
    rw [ringStore_other hd]
    · rw [if_pos rfl]
    · intro i hi heq
      rw [show (1 : U16) = BitVec.ofNat 16 1 from rfl, Nat.add_mod, ptr_mod hd, ← Nat.add_mod] at heq
      have h1 : (p.toNat + 1 + i) % size = p.toNat % size := heq
      have h2 : (p.toNat + (1 + i)) % size = (p.toNat + 0) % size := by rw [← Nat.add_assoc]; exact h1
      have h3 := mod_cancel (by omega) (by omega) h2
      omega

/-- Cells of two ring sections that together fit into the ring are different. -/
theorem ring_cells_ne {size : Nat} (hd : size ∣ 65536) (p : U16) {m n i j : Nat} (h : m + n ≤ size) (hi : i < m)
    (hj : j < n) : (p.toNat + i) % size ≠ ((p + BitVec.ofNat 16 m).toNat + j) % size := by
  rw [Nat.add_mod (p + _).toNat, ptr_mod hd, ← Nat.add_mod, Nat.add_assoc]
  intro heq
  have h4 := mod_cancel (by omega) (by omega) heq
  omega

/-- Storing behind a section does not change it. -/
theorem ring_store_behind {size : Nat} (hd : size ∣ 65536) (mem : Nat → U8) (p : U16) (n : Nat) (bs : List U8)
    (h : n + bs.length ≤ size) :
    ring (ringStore mem size (p + BitVec.ofNat 16 n) bs) size p n = ring mem size p n := by
  apply ring_congr
  intro i hi
  apply ringStore_other hd
  intro j hj
  exact fun e => ring_cells_ne hd p h hi hj e.symm

/-- Appending to the section `[p, p + n)`. -/
theorem ring_append_store {size : Nat} (hd : size ∣ 65536) (mem : Nat → U8) (p : U16) (n : Nat) (bs : List U8)
    (h : n + bs.length ≤ size) :
    ring (ringStore mem size (p + BitVec.ofNat 16 n) bs) size p (n + bs.length) = ring mem size p n ++ bs := by
  rw [ring_add hd, ring_store_behind hd _ _ _ _ h, ring_ringStore hd _ _ _ (by omega)]

end W5500.Spec.Sock
