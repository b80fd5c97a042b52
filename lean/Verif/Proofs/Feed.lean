import Verif.Spec.Feed
import Verif.Spec.Reach
import Verif.Proofs.Spi
/-! # Three-wire frames as bytes on the wire -/

namespace W5500.Spec.ByteDev
variable {C E : Type} (D : ByteDev C E)

theorem feed_append (s : Phase × C) (l l' : List U8) : D.feed s (l ++ l') = D.feed (D.feed s l) l' := List.foldl_append

theorem xfer_feed (d : List U8) (p : Phase) (c : C) : (D.xfer d.length p c d).2.2 = D.feed (p, c) d := by
  induction d generalizing p c with
  | nil => rfl
  | cons x d ih => exact ih _ _

theorem writeLoop_step (oc : Bool) (s : Phase × C) (x : U8) (a : U16) (d : List U8) (hd : d ≠ [])
    (ho : a.toNat + (ThreeWire.chunk d.length).2 ≤ 65535) :
    ThreeWire.writeLoop oc (D.spiBus E) s x a d =
      ThreeWire.writeLoop oc (D.spiBus E)
        (D.feed s (toBeBytes a ++ [x ||| (ThreeWire.chunk d.length).1] ++ d.take (ThreeWire.chunk d.length).2))
        (x ||| (ThreeWire.chunk d.length).1) (a + BitVec.ofNat 16 (ThreeWire.chunk d.length).2) (d.drop (ThreeWire.chunk d.length).2) := by
  rw [ThreeWire.writeLoop, dif_neg hd]
  have hw : ∀ (t : Phase × C) (l : List U8), (D.spiBus E).write t l = (.ok (), D.feed t l) := fun t l =>
    Prod.ext rfl (xfer_feed D l t.1 t.2)
  simp only [hw]
  rw [advance_ok oc a _ fun _ => ho, feed_append, feed_append]

/-- A one-byte write: sent in four-byte mode. -/
theorem write1_feed (oc : Bool) (s : Phase × C) (b : U8) (a : U16) (y : U8) (ho : a.toNat + 1 ≤ 65535) :
    (ThreeWire.bus oc (D.spiBus E)).writeFrame s b a [y] = (.ok (), D.feed s (toBeBytes a ++ [b <<< 3 ||| 2 ||| 1, y])) := by
  change ThreeWire.writeLoop oc (D.spiBus E) s _ a [y] = _
  rw [writeLoop_step D oc s _ a [y] (by simp) ho]
  exact writeLoop_nil ..

/-- A four-byte write. -/
theorem write4_feed (oc : Bool) (s : Phase × C) (b : U8) (a : U16) (y z v w : U8) (ho : a.toNat + 4 ≤ 65535) :
    (ThreeWire.bus oc (D.spiBus E)).writeFrame s b a [y, z, v, w] =
      (.ok (), D.feed s (toBeBytes a ++ [b <<< 3 ||| 2 ||| 3, y, z, v, w])) := by
  change ThreeWire.writeLoop oc (D.spiBus E) s _ a [y, z, v, w] = _
  rw [writeLoop_step D oc s _ a [y, z, v, w] (by simp) ho]
  exact writeLoop_nil ..

/-- A six-byte write: four bytes, then two in four-byte mode. -/
theorem write6_feed (oc : Bool) (s : Phase × C) (b : U8) (a : U16) (y z v w x u : U8) (ho : a.toNat + 6 ≤ 65535) :
    (ThreeWire.bus oc (D.spiBus E)).writeFrame s b a [y, z, v, w, x, u] =
      (.ok (), D.feed s (toBeBytes a ++ [b <<< 3 ||| 2 ||| 3, y, z, v, w] ++ (toBeBytes (a + 4) ++ [b <<< 3 ||| 2 ||| 3 ||| 2, x, u]))) := by
  change ThreeWire.writeLoop oc (D.spiBus E) s _ a [y, z, v, w, x, u] = _
  rw [writeLoop_step D oc s _ a [y, z, v, w, x, u] (by simp) (by show a.toNat + 4 ≤ 65535; omega)]
  rw [writeLoop_step D oc _ _ _ _ (by simp [ThreeWire.chunk]) (by
    show (a + BitVec.ofNat 16 4).toNat + 2 ≤ 65535
    rw [BitVec.toNat_add, BitVec.toNat_ofNat]; omega), feed_append]
  exact writeLoop_nil ..

theorem Looks.trans {D : ByteDev C E} {c c' c'' : C} (h : D.Looks c c') (h' : D.Looks c' c'') : D.Looks c c'' := by
  induction h' with
  | refl => exact h
  | read b a _ ih => exact .read b a ih

theorem looks_readBytes (c : C) (b : BitVec 5) (a : U16) (n : Nat) : D.Looks c (D.readBytes c b a n).2 := by
  suffices h : ∀ c', D.Looks c c' → ∀ a, D.Looks c (D.readBytes c' b a n).2 from h c (.refl c) a
  induction n with
  | zero => exact fun c' h _ => h
  | succ n ih => exact fun c' h a => ih _ (.read b a h) _

/-- Whatever is sent to a chip that reads an unlimited block, it reads. -/
theorem feed_stuck (b : BitVec 5) (l : List U8) (a : U16) (c : C) :
    ∃ a', (D.feed (.data b false a none, c) l).1 = .data b false a' none ∧ D.Looks c (D.feed (.data b false a none, c) l).2 := by
  induction l generalizing a c with
  | nil => exact ⟨a, rfl, .refl c⟩
  | cons x l ih =>
    obtain ⟨a', h1, h2⟩ := ih (a + 1) (D.readByte c b a).2
    exact ⟨a', h1, .trans (.read b a (.refl c)) h2⟩

/-- Whatever is sent to a chip that writes an unlimited block, it writes. -/
theorem feed_written (b : BitVec 5) (l : List U8) (a : U16) (c : C) :
    (D.feed (.data b true a none, c) l).2 = D.writeBytes c b a l := by
  induction l generalizing a c with
  | nil => rfl
  | cons x l ih => exact ih (a + 1) (D.writeByte c b a x)

theorem writeLoop_feed (oc : Bool) (s : Phase × C) (x : U8) (a : U16) (d : List U8) :
    ∃ l, (ThreeWire.writeLoop oc (D.spiBus E) s x a d).2 = D.feed s l := by
  have hw : ∀ {t t' : Phase × C} {l : List U8} {r : Res E Unit}, (D.spiBus E).write t l = (r, t') → t' = D.feed t l := by
    intro t t' l r h
    rw [← xfer_feed]; exact (congrArg Prod.snd h).symm
  fun_induction ThreeWire.writeLoop oc (D.spiBus E) s x a d with
  | case1 => exact ⟨[], rfl⟩
  | case2 _ _ _ _ _ _ _ _ _ _ h1 _ _ h2 _ _ h3 =>
    exact ⟨_, by rw [hw h3, hw h2, hw h1, ← feed_append, ← feed_append]⟩
  | case3 _ _ _ _ _ _ _ _ _ _ h1 _ _ h2 _ _ h3 _ _ ih =>
    obtain ⟨l, ih⟩ := ih
    exact ⟨_, by rw [ih, hw h3, hw h2, hw h1, ← feed_append, ← feed_append, ← feed_append]⟩
  | case4 _ _ _ _ _ _ _ _ _ _ h1 _ _ h2 _ _ _ h3 =>
    exact ⟨_, by rw [hw h3, hw h2, hw h1, ← feed_append, ← feed_append]⟩
  | case5 _ _ _ _ _ _ _ _ _ h1 _ _ _ h2 => exact ⟨_, by rw [hw h2, hw h1, ← feed_append]⟩
  | case6 _ _ _ _ _ _ _ _ h1 => exact ⟨_, hw h1⟩

theorem readLoop_feed (oc : Bool) (s : Phase × C) (x : U8) (a : U16) (d : List U8) :
    ∃ l, (ThreeWire.readLoop oc (D.spiBus E) s x a d).2.2 = D.feed s l := by
  have hw : ∀ {t t' : Phase × C} {l : List U8} {r : Res E Unit}, (D.spiBus E).write t l = (r, t') → t' = D.feed t l := by
    intro t t' l r h
    rw [← xfer_feed]; exact (congrArg Prod.snd h).symm
  have ht : ∀ {t t' : Phase × C} {l l' : List U8} {r : Res E Unit}, (D.spiBus E).transferInPlace t l = (r, l', t') →
      t' = D.feed t l := by
    intro t t' l l' r h
    rw [← xfer_feed]; exact (congrArg (fun p => p.2.2) h).symm
  fun_induction ThreeWire.readLoop oc (D.spiBus E) s x a d with
  | case1 => exact ⟨[], rfl⟩
  | case2 _ _ _ _ _ _ _ _ _ _ h1 _ _ h2 _ _ _ h3 =>
    exact ⟨_, by rw [ht h3, hw h2, hw h1, ← feed_append, ← feed_append]⟩
  | case3 _ _ _ _ _ _ _ _ _ _ h1 _ _ h2 _ _ _ h3 _ _ _ ih =>
    obtain ⟨l, ih⟩ := ih
    exact ⟨_, ih.trans (by rw [ht h3, hw h2, hw h1, ← feed_append, ← feed_append, ← feed_append])⟩
  | case4 _ _ _ _ _ _ _ _ _ _ h1 _ _ h2 _ _ _ _ h3 =>
    exact ⟨_, by rw [ht h3, hw h2, hw h1, ← feed_append, ← feed_append]⟩
  | case5 _ _ _ _ _ _ _ _ _ h1 _ _ _ h2 => exact ⟨_, by rw [hw h2, hw h1, ← feed_append]⟩
  | case6 _ _ _ _ _ _ _ _ h1 => exact ⟨_, hw h1⟩

/-- Whatever a driver does on the three-wire bus, the chip gets bytes. -/
theorem reach_feed {oc : Bool} {F : U8 → U16 → List U8 → Prop} {s s' : Phase × C}
    (h : Reach (ThreeWire.bus oc (D.spiBus E)) F s s') : ∃ l, s' = D.feed s l := by
  induction h with
  | refl => exact ⟨[], rfl⟩
  | read b a d _ ih =>
    obtain ⟨l, rfl⟩ := ih
    obtain ⟨l', h'⟩ := readLoop_feed D (E := E) oc (D.feed s l) (b <<< 3) a d
    exact ⟨l ++ l', h'.trans (feed_append ..).symm⟩
  | @write _ b a d _ _ ih =>
    obtain ⟨l, rfl⟩ := ih
    obtain ⟨l', h'⟩ := writeLoop_feed D (E := E) oc (D.feed s l) (b <<< 3 ||| ThreeWire.WRITE_MODE_MASK) a d
    exact ⟨l ++ l', h'.trans (feed_append ..).symm⟩

end W5500.Spec.ByteDev
