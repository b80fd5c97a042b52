import Verif.Proofs.ChipOpen
import Verif.Proofs.Script
/-! # The host registers of the chip as a register file

The registers that keep what the host writes (the common block and, per socket, the ones in `Sock.mem`) do not depend
on the environment: a frame changes them in a way that is determined by the frame alone. -/

namespace W5500.Spec
open W5500 socketn
variable {E ε α : Type} {sched : Nat → List (Nat × Act)} {faults : Nat → Option (E × Nat)}

/-- The common block and the host registers of the sockets. -/
structure RegFile where
  cmem : U16 → U8
  smem : Nat → U16 → U8

/-- The registers but for the buffer pointers, which the chip may start anew. -/
def unptr (m : U16 → U8) (b : U16) : U8 := if b = 0x24 ∨ b = 0x25 ∨ b = 0x28 ∨ b = 0x29 then 0 else m b

theorem unptr_ne {m : U16 → U8} {b : U16} (h : b ≠ 0x24 ∧ b ≠ 0x25 ∧ b ≠ 0x28 ∧ b ≠ 0x29) : unptr m b = m b := by
  unfold unptr
  rw [if_neg]
  rintro (rfl | rfl | rfl | rfl)
  · exact h.1 rfl
  · exact h.2.1 rfl
  · exact h.2.2.1 rfl
  · exact h.2.2.2 rfl

theorem unptr_same {m m' : U16 → U8} (h : Same m m') : unptr m' = unptr m := by
  funext b
  unfold unptr
  split
  · rfl
  · rename_i hb
    simp only [not_or] at hb
    exact h b hb.1 hb.2.1 hb.2.2.1 hb.2.2.2

def Chip.regs (c : Chip) : RegFile := ⟨c.cmem, fun n => unptr (c.socks n).mem⟩

namespace RegFile

/-- Socket registers after reset. -/
def resetMem (a : U16) : U8 := if a = 0x1E ∨ a = 0x1F then 2 else if a = 0x2C then 0xFF else 0

/-- After a chip reset. -/
def afterReset : RegFile := ⟨Chip.commonReset, fun _ => resetMem⟩

def sockPoke (m : U16 → U8) (a : U16) (x : U8) : U16 → U8 :=
  if plain a then unptr fun b => if b = a then x else m b else m

def poke (r : RegFile) (b : BitVec 5) (a : U16) (x : U8) : RegFile :=
  if b = 0 then
    if a = 0x39 then r
    else if a = 0x00 ∧ x.getLsbD 7 then afterReset
    else { r with cmem := fun b => if b = a then x else r.cmem b }
  else if b.toNat % 4 = 1 then
    { r with smem := fun n => if n = b.toNat / 4 then sockPoke (r.smem n) a x else r.smem n }
  else r

/-- A write frame. -/
def store (r : RegFile) (b : BitVec 5) (a : U16) : List U8 → RegFile
  | [] => r
  | x :: xs => store (r.poke b a x) b (a + 1) xs

/-- A script. -/
def run (r : RegFile) (l : List Wr) : RegFile := l.foldl (fun r x => r.store (x.1.setWidth 5) x.2.1 x.2.2) r

end RegFile

theorem sockPoke_eq (s : Sock) (a : U16) (x : U8) : unptr (s.pokeReg a x).mem = RegFile.sockPoke (unptr s.mem) a x := by
  unfold RegFile.sockPoke
  by_cases hp : plain a = true
  · rw [if_pos hp, poke_plain hp]
    funext b
    unfold unptr
    split
    · rfl
    · dsimp only
      rename_i hb
      rw [if_neg hb]
      rfl
  · rw [if_neg hp]
    by_cases h1 : a = 0x01
    · subst h1
      unfold Sock.pokeReg
      rw [if_pos rfl]
      exact unptr_same (same_command s x)
    · unfold Sock.pokeReg
      rw [if_neg h1]
      split
      · rfl
      · rename_i h2
        rw [if_pos]
        simp only [plain, Bool.not_eq_true', Bool.or_eq_false_iff, decide_eq_false_iff_not] at hp
        exact Decidable.byContradiction fun h => hp (by
          simp only [not_or] at h
          simp only [h1, h2, h, not_false_iff, and_self])

namespace Chip

theorem mem_evolves {c c' : Chip} (h : c.Evolves c') (n : Nat) : (c'.socks n).mem = (c.socks n).mem :=
  (h.socks n).induct (P := fun s => s.mem = (c.socks n).mem) (fun s a hs => by rw [Sock.act_mem]; exact hs) rfl

theorem regs_evolves {c c' : Chip} (h : c.Evolves c') : c'.regs = c.regs := by
  have h2 := mem_evolves h
  unfold regs
  simp only [h.cmem, h2]

theorem regs_poke (c : Chip) (b : BitVec 5) (a : U16) (x : U8) : (c.poke b a x).regs = c.regs.poke b a x := by
  unfold poke RegFile.poke
  by_cases h0 : b = 0
  · rw [if_pos h0, if_pos h0]
    unfold pokeCommon
    split
    · rfl
    split
    · unfold regs RegFile.afterReset
      congr 1
      funext n b
      show unptr RegFile.resetMem b = _
      unfold unptr
      split
      · rename_i hb; rcases hb with rfl | rfl | rfl | rfl <;> rfl
      · rfl
    · rfl
  · rw [if_neg h0, if_neg h0]
    split
    · unfold regs setSock
      dsimp only
      congr 1
      funext n
      split
      · rename_i h; subst h; exact sockPoke_eq _ _ _
      · rfl
    · split
      · unfold regs setSock Sock.pokeTx
        dsimp only
        congr 1
        funext n
        split
        · rename_i h; subst h; rfl
        · rfl
      · rfl

theorem regs_writeBytes (c : Chip) (b : BitVec 5) (a : U16) (data : List U8) :
    ((dev sched faults).writeBytes c b a data).regs = c.regs.store b a data := by
  induction data generalizing c a with
  | nil => rfl
  | cons x xs ih =>
    show ((dev sched faults).writeBytes ((c.tick sched).poke b a x) b (a + 1) xs).regs = _
    rw [ih, regs_poke, regs_evolves (tick_evolves sched c)]
    rfl

/-- A frame stores its data, or a prefix of it if it fails. -/
theorem regs_write {c c' : Chip} {block : U8} {a : U16} {data : List U8} {r : Res E Unit}
    (h : (dev sched faults).bus.write block a data c = (r, c')) :
    ∃ k, (r = .ok () → k = data.length) ∧ c'.regs = c.regs.store (block.setWidth 5) a (data.take k) := by
  unfold Bus.write at h
  simp only [ByteDev.bus] at h
  split at h
  · rename_i c1 hc1
    have : c1 = { c with txn := c.txn + 1 } := by simp only [dev, Prod.mk.injEq] at hc1; exact hc1.2.symm
    subst this
    obtain ⟨_, rfl⟩ := Prod.mk.inj h
    exact ⟨data.length, fun _ => rfl, by rw [regs_writeBytes, List.take_length]; rfl⟩
  · rename_i e k c1 hc1
    have : c1 = { c with txn := c.txn + 1 } := by simp only [dev, Prod.mk.injEq] at hc1; exact hc1.2.symm
    subst this
    obtain ⟨rfl, rfl⟩ := Prod.mk.inj h
    exact ⟨k - 3, nofun, by rw [regs_writeBytes]; rfl⟩

theorem regs_write_ok {c c' : Chip} {block : U8} {a : U16} {data : List U8}
    (h : (dev sched faults).bus.write block a data c = (.ok (), c')) :
    c'.regs = c.regs.store (block.setWidth 5) a data := by
  obtain ⟨k, hk, h⟩ := regs_write h
  rw [hk rfl, List.take_length] at h
  exact h

/-- A one-byte frame: time passes, then the byte is stored. -/
theorem write1_ok {c c' : Chip} {block : U8} {a : U16} {x : U8}
    (h : (dev sched faults).bus.write block a [x] c = (.ok (), c')) :
    ∃ c1, c.Evolves c1 ∧ c' = c1.poke (block.setWidth 5) a x := by
  unfold Bus.write at h
  simp only [ByteDev.bus] at h
  split at h
  · rename_i c1 hc1
    have : c1 = { c with txn := c.txn + 1 } := by simp only [dev, Prod.mk.injEq] at hc1; exact hc1.2.symm
    subst this
    obtain ⟨_, rfl⟩ := Prod.mk.inj h
    have := tick_evolves sched { c with txn := c.txn + 1 }
    exact ⟨_, ⟨this.cmem, this.socks⟩, rfl⟩
  · cases (Prod.mk.inj h).1

theorem regs_writeAll {c c' : Chip} {l : List Wr} (h : writeAll (dev sched faults).bus l c = (.ok (), c')) :
    c'.regs = c.regs.run l := by
  induction l generalizing c with
  | nil => rw [writeAll, M.pure_eq_ok] at h; rw [h.2]; rfl
  | cons x l ih =>
    obtain ⟨b, a, d⟩ := x
    rw [writeAll, M.bind_eq_ok] at h
    obtain ⟨_, c1, h1, h2⟩ := h
    rw [ih h2, regs_write_ok h1]
    rfl

theorem regs_readFrame (c : Chip) (block : U8) (a : U16) (d : List U8) :
    ((dev sched faults).bus.readFrame c block a d).2.2.regs = c.regs := regs_evolves (readFrame_evolves _ _ _ _)

theorem regs_readBuf {c c' : Chip} {block : U8} {a : U16} {d : List U8} {r : Res E (List U8)}
    (h : (dev sched faults).bus.readBuf block a d c = (r, c')) : c'.regs = c.regs := by
  have := regs_readFrame (sched := sched) (faults := faults) c block a d
  unfold Bus.readBuf at h
  generalize (dev sched faults).bus.readFrame c block a d = x at *
  obtain ⟨_ | _ | _ | _, _, _⟩ := x <;> (obtain ⟨_, rfl⟩ := Prod.mk.inj h; exact this)

/-- Reading host registers of the common block. -/
theorem readBuf_common {c c' : Chip} {a : U16} {d d' : List U8}
    (h : (dev sched faults).bus.readBuf 0 a d c = (.ok d', c')) :
    d' = (List.range d.length).map fun i => c.cmem (a + BitVec.ofNat 16 i) := by
  unfold Bus.readBuf at h
  rcases hr : (dev sched faults).bus.readFrame c 0 a d with ⟨r, d1, c1⟩
  rw [hr] at h
  cases r with
  | ok u =>
    obtain ⟨h1, h2⟩ := Prod.mk.inj h
    cases h1
    obtain ⟨h3, h4⟩ := readFrame_ok hr
    have := samples_known (P := fun x => x.cmem = c.cmem) (fun x y e hx => e.cmem.trans hx)
      (bs := (List.range d.length).map fun i => c.cmem (a + BitVec.ofNat 16 i)) (b := (0 : U8).setWidth 5) (a := a)
      (fun x hx i hi => by
        show x.cmem _ = _
        rw [List.getElem_map, List.getElem_range]; rw [hx]) rfl h3 (by simp [h4])
    rw [this, h4, List.take_of_length_le (by simp)]
  | err e => cases (Prod.mk.inj h).1
  | panic => cases (Prod.mk.inj h).1
  | fuel => cases (Prod.mk.inj h).1

end Chip
end W5500.Spec

namespace W5500.Spec
open W5500 socketn
namespace RegFile

/-- A write to the common block leaves the other registers. -/
theorem store_other (r : RegFile) (a b : U16) (data : List U8) (h0 : ∀ i, i < data.length → a + BitVec.ofNat 16 i ≠ 0)
    (hb : ∀ i, i < data.length → a + BitVec.ofNat 16 i ≠ b) :
    (r.store 0 a data).cmem b = r.cmem b ∧ (r.store 0 a data).smem = r.smem := by
  induction data generalizing r a with
  | nil => exact ⟨rfl, rfl⟩
  | cons x xs ih =>
    have e : ∀ i, a + 1 + BitVec.ofNat 16 i = a + BitVec.ofNat 16 (i + 1) := fun i => by
      rw [BitVec.ofNat_add, BitVec.add_assoc, BitVec.add_comm (BitVec.ofNat 16 i)]; rfl
    have h1 := h0 0 (by simp)
    have h2 := hb 0 (by simp)
    simp only [BitVec.add_zero] at h1 h2
    have := ih (r.poke 0 a x) (a + 1) (fun i hi => by rw [e]; exact h0 (i + 1) (by simpa using hi))
      (fun i hi => by rw [e]; exact hb (i + 1) (by simpa using hi))
    show (RegFile.store (r.poke 0 a x) 0 (a + 1) xs).cmem b = _ ∧ (RegFile.store (r.poke 0 a x) 0 (a + 1) xs).smem = _
    rw [this.1, this.2]
    unfold poke
    rw [if_pos rfl]
    split
    · exact ⟨rfl, rfl⟩
    rw [if_neg (fun h => h1 h.1)]
    exact ⟨if_neg (Ne.symm h2), rfl⟩

/-- A write to the common block stores its data. -/
theorem store_self (r : RegFile) (a : U16) (data : List U8) (hl : data.length < 65536)
    (h0 : ∀ i, i < data.length → a + BitVec.ofNat 16 i ≠ 0)
    (h39 : ∀ i, i < data.length → a + BitVec.ofNat 16 i ≠ 0x39) (i : Nat) (hi : i < data.length) :
    (r.store 0 a data).cmem (a + BitVec.ofNat 16 i) = data[i] := by
  induction data generalizing r a i with
  | nil => exact absurd hi (Nat.not_lt_zero _)
  | cons x xs ih =>
    have e : ∀ i, a + 1 + BitVec.ofNat 16 i = a + BitVec.ofNat 16 (i + 1) := fun i => by
      rw [BitVec.ofNat_add, BitVec.add_assoc, BitVec.add_comm (BitVec.ofNat 16 i)]; rfl
    simp only [List.length_cons] at hl
    show (RegFile.store (r.poke 0 a x) 0 (a + 1) xs).cmem _ = _
    cases i with
    | zero =>
      have h1 := h0 0 (by simp)
      have h2 := h39 0 (by simp)
      simp only [BitVec.add_zero] at h1 h2 ⊢
      rw [(store_other _ (a + 1) a xs (fun i hi => by rw [e]; exact h0 (i + 1) (by simpa using hi)) (fun i hi => by
        rw [e]; intro h
        have := addr_inj (a := a) (i := i + 1) (j := 0) (by omega) (by omega) (by simpa using h)
        omega)).1]
      unfold poke
      rw [if_pos rfl, if_neg h2, if_neg (fun h => h1 h.1)]
      exact if_pos rfl
    | succ i =>
      rw [← e]
      exact ih _ _ (by omega) (fun i hi => by rw [e]; exact h0 (i + 1) (by simpa using hi))
        (fun i hi => by rw [e]; exact h39 (i + 1) (by simpa using hi)) i (by simpa using hi)

/-- A write to a socket's registers. -/
def sockStore (m : U16 → U8) (a : U16) : List U8 → U16 → U8
  | [] => m
  | x :: xs => sockStore (sockPoke m a x) (a + 1) xs

theorem store_sock {n : Nat} (hn : n < 8) (r : RegFile) (a : U16) (data : List U8) :
    r.store ((sockOf n).register.setWidth 5) a data =
      { r with smem := fun m => if m = n then sockStore (r.smem m) a data else r.smem m } := by
  induction data generalizing r a with
  | nil =>
    show r = _
    have : (fun m => if m = n then r.smem m else r.smem m) = r.smem := by funext m; split <;> rfl
    unfold sockStore
    rw [this]
  | cons x xs ih =>
    show RegFile.store (r.poke _ a x) _ (a + 1) xs = _
    have h := Chip.reg_toNat n hn
    have hp : r.poke ((sockOf n).register.setWidth 5) a x =
        { r with smem := fun m => if m = n then sockPoke (r.smem m) a x else r.smem m } := by
      unfold poke
      rw [if_neg (Chip.ne_zero_of_toNat (by omega)), if_pos (by omega), show _ / 4 = n by omega]
    rw [ih, hp]
    congr 1
    funext m
    dsimp only
    split <;> rfl

/-- A write to TX or RX memory. -/
theorem store_mem (r : RegFile) {b : BitVec 5} (h0 : b.toNat % 4 = 2 ∨ b.toNat % 4 = 3) (a : U16) (data : List U8) :
    r.store b a data = r := by
  induction data generalizing a with
  | nil => rfl
  | cons x xs ih =>
    show RegFile.store (r.poke b a x) b (a + 1) xs = r
    have : r.poke b a x = r := by
      unfold poke
      rw [if_neg (Chip.ne_zero_of_toNat (by omega)), if_neg (by omega)]
    rw [this]
    exact ih _

/-- A script for one socket, given by the offsets. -/
def sockRun (m : U16 → U8) (l : List (U16 × List U8)) : U16 → U8 := l.foldl (fun m x => sockStore m x.1 x.2) m

theorem run_sock {n : Nat} (hn : n < 8) (r : RegFile) (l : List (U16 × List U8)) :
    r.run (l.map fun x => ((sockOf n).register, x.1, x.2)) =
      { r with smem := fun m => if m = n then sockRun (r.smem m) l else r.smem m } := by
  induction l generalizing r with
  | nil =>
    show r = _
    have : (fun m => if m = n then r.smem m else r.smem m) = r.smem := by funext m; split <;> rfl
    simp only [sockRun, List.foldl_nil]
    rw [this]
  | cons x l ih =>
    show RegFile.run (r.store _ x.1 x.2) _ = _
    rw [ih, store_sock hn]
    congr 1
    funext m
    dsimp only
    split <;> rfl

end RegFile
end W5500.Spec
