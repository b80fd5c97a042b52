import Verif.Proofs.Independent
/-! # The chip while nothing happens: transfers to different sockets do not influence each other -/

namespace W5500
open Spec
variable {E : Type}

/-- Writing bytes to the registers or the TX memory of a socket. -/
def Spec.Sock.pokes : Sock → BitVec 5 → U16 → List U8 → Sock
  | s, _, _, [] => s
  | s, b, a, x :: xs =>
    pokes (if b.toNat % 4 = 1 then s.pokeReg a x else if b.toNat % 4 = 2 then s.pokeTx a x else s) b (a + 1) xs

/-- Reading bytes of a socket. -/
def Spec.Sock.peeks (s : Sock) (b : BitVec 5) : U16 → Nat → List U8
  | _, 0 => []
  | a, k + 1 => (if b.toNat % 4 = 1 then s.peekReg a else if b.toNat % 4 = 2 then s.peekTx a else s.peekRx a) :: peeks s b (a + 1) k

/-- Time goes on. -/
def Spec.Chip.wait (c : Chip) (k : Nat) : Chip := { c with clock := c.clock + k }

abbrev stillDev (E : Type) : ByteDev Chip E := Chip.dev (fun _ => []) (fun _ => none)

theorem still_read {b : BitVec 5} {n : Nat} (hb : b.toNat = 4 * n + 1 ∨ b.toNat = 4 * n + 2 ∨ b.toNat = 4 * n + 3)
    (k : Nat) (c : Chip) (a : U16) :
    (stillDev E).readBytes c b a k = ((c.socks n).peeks b a k, c.wait k) := by
  induction k generalizing c a with
  | zero => rfl
  | succ k ih =>
    have h0 : b ≠ 0 := fun e => by rw [e] at hb; simp at hb
    have hd : b.toNat / 4 = n := by omega
    unfold ByteDev.readBytes
    dsimp only
    rw [ih]
    refine Prod.ext ?_ ?_
    · show Chip.peek (c.wait 1) b a :: (c.socks n).peeks b (a + 1) k = _ :: (c.socks n).peeks b (a + 1) k
      unfold Chip.peek
      rw [if_neg h0, hd]
      congr 1
      split
      · rfl
      · split
        · rfl
        · rw [if_pos (by omega)]; rfl
    · show (c.wait 1).wait k = c.wait (k + 1)
      unfold Chip.wait
      dsimp only
      rw [show c.clock + 1 + k = c.clock + (k + 1) by omega]

theorem setSock_setSock (c : Chip) (n : Nat) (s t : Sock) : (c.setSock n s).setSock n t = c.setSock n t := by
  unfold Chip.setSock
  congr 1
  funext m
  dsimp only
  split <;> rfl

theorem setSock_same (c : Chip) (n : Nat) : c.setSock n (c.socks n) = c := by
  unfold Chip.setSock
  congr 1
  funext m
  split
  · rename_i h; rw [h]
  · rfl

theorem still_write {b : BitVec 5} {n : Nat} (hb : b.toNat = 4 * n + 1 ∨ b.toNat = 4 * n + 2 ∨ b.toNat = 4 * n + 3)
    (xs : List U8) (c : Chip) (a : U16) :
    (stillDev E).writeBytes c b a xs = (c.setSock n ((c.socks n).pokes b a xs)).wait xs.length := by
  induction xs generalizing c a with
  | nil => exact (setSock_same c n).symm
  | cons x xs ih =>
    have h0 : b ≠ 0 := fun e => by rw [e] at hb; simp at hb
    have hd : b.toNat / 4 = n := by omega
    unfold ByteDev.writeBytes
    have key : (stillDev E).writeByte c b a x = (c.setSock n (if b.toNat % 4 = 1 then (c.socks n).pokeReg a x
        else if b.toNat % 4 = 2 then (c.socks n).pokeTx a x else c.socks n)).wait 1 := by
      show (c.wait 1).poke b a x = _
      unfold Chip.poke
      rw [if_neg h0, hd]
      split
      · rfl
      · split
        · rfl
        · rw [setSock_same]
    rw [key, ih]
    have e : ∀ (c : Chip) (s : Sock), ((c.setSock n s).wait 1).socks n = s := fun c s => by
      show (if n = n then s else c.socks n) = s
      rw [if_pos rfl]
    rw [e]
    show (((c.setSock n _).setSock n _).wait 1).wait xs.length = _
    rw [setSock_setSock]
    have hw : ∀ y : Chip, (y.wait 1).wait xs.length = y.wait (x :: xs).length := fun y => by
      unfold Chip.wait
      dsimp only
      rw [List.length_cons, show y.clock + 1 + xs.length = y.clock + (xs.length + 1) by omega]
    rw [hw]
    rfl

/-- One transaction more. -/
def Spec.Chip.begin (c : Chip) : Chip := { c with txn := c.txn + 1 }

theorem block5 {b : U8} {n : Nat} (hn : n < 8) (h : SockBlocks n b) :
    (b.setWidth 5).toNat = 4 * n + 1 ∨ (b.setWidth 5).toNat = 4 * n + 2 ∨ (b.setWidth 5).toNat = 4 * n + 3 := by
  unfold SockBlocks at h
  rw [BitVec.toNat_setWidth]
  omega

/-- What a transfer to a socket does while nothing else happens. -/
theorem still_run {n : Nat} (hn : n < 8) (f : Frame) (hf : SockBlocks n f.block) :
    ∃ (out : Sock → Res E Unit × List U8) (next : Sock → Sock) (k : Nat), ∀ c : Chip,
      f.run (stillDev E).bus c = (out (c.socks n), ((c.setSock n (next (c.socks n))).wait k).begin) := by
  cases f with
  | rd b a d =>
    refine ⟨fun s => (.ok (), s.peeks (b.setWidth 5) a d.length), id, d.length, fun c => ?_⟩
    have h := still_read (E := E) (block5 hn hf) d.length c.begin a
    show ((Res.ok (), ((stillDev E).readBytes c.begin (b.setWidth 5) a d.length).1),
      ((stillDev E).readBytes c.begin (b.setWidth 5) a d.length).2) = _
    simp only [Frame.block] at h
    rw [h, id, setSock_same]
    rfl
  | wr b a d =>
    refine ⟨fun s => (.ok (), []), fun s => s.pokes (b.setWidth 5) a d, d.length, fun c => ?_⟩
    have h := still_write (E := E) (block5 hn hf) d c.begin a
    show ((Res.ok (), []), (stillDev E).writeBytes c.begin (b.setWidth 5) a d) = _
    simp only [Frame.block] at h
    rw [h]
    rfl

/-- While nothing happens and no transfer fails, the sockets of the chip are independent. -/
theorem still_independent (n m : Nat) (hn : n < 8) (hm : m < 8) (hne : n ≠ m) :
    Independent (stillDev E).bus (SockBlocks n) (SockBlocks m) := by
  intro f g hf hg c
  obtain ⟨of, nf, kf, h1⟩ := still_run (E := E) hn f hf
  obtain ⟨og, ng, kg, h2⟩ := still_run (E := E) hm g hg
  rw [h1, h2, h1, h2]
  have e1 : ∀ (s : Sock) (k : Nat), (((c.setSock m s).wait k).begin).socks n = c.socks n := fun s k => if_neg hne
  have e2 : ∀ (s : Sock) (k : Nat), (((c.setSock n s).wait k).begin).socks m = c.socks m := fun s k => if_neg (Ne.symm hne)
  dsimp only
  rw [e1, e2]
  refine ⟨rfl, rfl, ?_⟩
  unfold Chip.begin Chip.wait Chip.setSock
  dsimp only
  congr 1
  · funext k
    by_cases h1 : k = n
    · by_cases h2 : k = m
      · exact absurd (h1.symm.trans h2) hne
      · rw [if_pos h1, if_neg h2, if_pos h1]
    · by_cases h2 : k = m
      · rw [if_neg h1, if_pos h2, if_pos h2]
      · rw [if_neg h1, if_neg h2, if_neg h2, if_neg h1]
  · omega

end W5500
