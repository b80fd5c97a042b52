import Verif.Spec.Accessors
import Verif.Props.Map
import Verif.Props.UdpChip
/-! # C100: the accessors of a socket -/

namespace W5500.Props
open W5500 W5500.Spec
variable {W E : Type} {sched : Nat → List (Nat × Act)} {faults : Nat → Option (E × Nat)}

/-! ## Any bus -/

/-- C100: a setter makes one transfer: it writes its register, with the bytes of its argument. The outcome is passed on. -/
theorem C100_set (B : Bus W E) (s : Socket) (a : Setter) (w : W) : a.run B s w = B.writeFrame w s.register a.offset a.data := by
  cases a with
  | mode p => cases p <;> rfl
  | resetInterrupt i => cases i <;> rfl
  | command c => cases c <;> rfl
  | interruptMask x => rfl
  | destinationIp ip => rfl
  | _ =>
    simp only [Setter.data, ← toBeBytes_eq_be]
    rfl

theorem read1_once (B : Bus W E) (b : U8) (a : U16) (w : W) :
    B.read1 b a w = oneTransfer (B.readFrame w b a [0]).1 ((B.readFrame w b a [0]).2.1.headD 0) (B.readFrame w b a [0]).2.2 := by
  have hl := B.read_length w b a [0]
  unfold Bus.read1
  rw [M.bind_def]
  unfold Bus.readBuf
  generalize B.readFrame w b a [0] = r at *
  obtain ⟨r1, d, w'⟩ := r
  obtain ⟨x, rfl⟩ := List.length_eq_one_iff.mp hl
  cases r1 <;> rfl

theorem read2_once (B : Bus W E) (b : U8) (a : U16) (w : W) : ∃ x : U16,
    x.toNat = bigEndian (B.readFrame w b a [0, 0]).2.1 ∧
    B.read2 b a w = oneTransfer (B.readFrame w b a [0, 0]).1 x (B.readFrame w b a [0, 0]).2.2 := by
  have hl := B.read_length w b a [0, 0]
  unfold Bus.read2
  rw [M.bind_def]
  unfold Bus.readBuf
  generalize B.readFrame w b a [0, 0] = r at *
  obtain ⟨r1, d, w'⟩ := r
  obtain ⟨x, y, rfl⟩ : ∃ x y, d = [x, y] := by
    match d, hl with
    | [x, y], _ => exact ⟨x, y, rfl⟩
  refine ⟨fromBeBytes x y, ?_, ?_⟩
  · rw [fromBeBytes_toNat]
    simp [bigEndian]
  · cases r1 <;> rfl

/-- C100: a getter makes one transfer: it reads its register and returns the number in it, most significant byte first. -/
theorem C100_get (B : Bus W E) (s : Socket) (g : Getter) (w : W) :
    let r := B.readFrame w s.register g.offset (List.replicate g.width 0)
    g.run B s w = oneTransfer r.1 (bigEndian r.2.1) r.2.2 := by
  have two : ∀ (m : M W E U16) (b : U8) (a : U16), m = B.read2 b a →
      (do return (← m).toNat : M W E Nat) w = oneTransfer (B.readFrame w b a [0, 0]).1 (bigEndian (B.readFrame w b a [0, 0]).2.1)
        (B.readFrame w b a [0, 0]).2.2 := by
    rintro _ b a rfl
    obtain ⟨x, h1, h2⟩ := read2_once B b a w
    rw [M.bind_def, h2, ← h1]
    generalize (B.readFrame w b a [0, 0]).1 = r
    cases r <;> rfl
  cases g with
  | status =>
    have hl := B.read_length w s.register 0x03 [0]
    show (do return (← B.read1 s.register 0x03).toNat : M W E Nat) w = oneTransfer (B.readFrame w s.register 0x03 [0]).1 _ _
    rw [M.bind_def, read1_once]
    show _ = oneTransfer _ (bigEndian (B.readFrame w s.register 0x03 [0]).2.1) (B.readFrame w s.register 0x03 [0]).2.2
    generalize B.readFrame w s.register 0x03 [0] = r at *
    obtain ⟨r1, d, w'⟩ := r
    obtain ⟨x, rfl⟩ := List.length_eq_one_iff.mp hl
    have : bigEndian [x] = x.toNat := by simp [bigEndian]
    rw [this]
    cases r1 <;> rfl
  | txReadPointer => exact two _ _ _ rfl
  | txWritePointer => exact two _ _ _ rfl
  | rxReadPointer => exact two _ _ _ rfl
  | txFreeSize => exact two _ _ _ rfl

/-- Some of the flags of `i` is set in the byte `x`. -/
def Flagged (i : socketn.Interrupt) (x : U8) : Prop := match irBit i with
  | some k => x.getLsbD k = true
  | none => x ≠ 0

/-- C100: `has_interrupt` reads Sn_IR once, and tells whether the flag is set (for `All`: whether any flag is). -/
theorem C100_has_interrupt (B : Bus W E) (s : Socket) (i : socketn.Interrupt) (w : W) :
    let r := B.readFrame w s.register 0x02 [0]
    ∃ b : Bool, (b = true ↔ Flagged i (r.2.1.headD 0)) ∧ s.hasInterrupt B i w = oneTransfer r.1 b r.2.2 := by
  intro r
  refine ⟨decide (r.2.1.headD 0 &&& i.toU8 ≠ 0), ?_, ?_⟩
  · generalize r.2.1.headD 0 = x
    rw [decide_eq_true_eq]
    revert x
    cases i <;> (unfold Flagged irBit socketn.Interrupt.toU8; dsimp only; decide)
  · unfold Socket.hasInterrupt
    rw [M.bind_def, show B.read1 s.register socketn.INTERRUPT w = _ from read1_once B s.register 0x02 w]
    show _ = oneTransfer (B.readFrame w s.register 0x02 [0]).1 (decide ((B.readFrame w s.register 0x02 [0]).2.1.headD 0 &&& _ ≠ 0))
      (B.readFrame w s.register 0x02 [0]).2.2
    generalize B.readFrame w s.register 0x02 [0] = q
    obtain ⟨r1, d, w'⟩ := q
    cases r1 <;> rfl

/-! ## On the chip -/

/-- The registers of the socket that a setter which `Keeps` can address are plain cells. -/
theorem keeps_cell {a : Setter} (h : a.Keeps) (i : Nat) (hi : i < a.data.length) (s : Sock) (x : U8) :
    s.pokeReg (a.offset + BitVec.ofNat 16 i) x =
      { s with mem := fun b => if b = a.offset + BitVec.ofNat 16 i then x else s.mem b } := by
  have hd : ∀ v : U16, (be v.toNat).length = 2 := fun _ => rfl
  have cell : ∀ b : U16, b ≠ 0x01 → b ≠ 0x02 →
      ¬ (b = 0x03 ∨ b = 0x20 ∨ b = 0x21 ∨ b = 0x22 ∨ b = 0x23 ∨ b = 0x26 ∨ b = 0x27 ∨ b = 0x2A ∨ b = 0x2B) →
      s.pokeReg b x = { s with mem := fun c => if c = b then x else s.mem c } := by
    intro b h1 h2 h3
    unfold Sock.pokeReg
    rw [if_neg h1, if_neg h2, if_neg h3]
  have lt1 : ∀ {k : Nat}, k < 1 → k = 0 := by omega
  have lt2 : ∀ {k : Nat}, k < 2 → k = 0 ∨ k = 1 := by omega
  have lt4 : ∀ {k : Nat}, k < 4 → k = 0 ∨ k = 1 ∨ k = 2 ∨ k = 3 := by omega
  cases a with
  | resetInterrupt i => exact h.elim
  | txReadPointer i => exact h.elim
  | command c => exact h.elim
  | mode p =>
    have : i < 1 := by cases p <;> exact hi
    obtain rfl := lt1 this
    (dsimp only [Setter.offset]; exact cell _ (by decide) (by decide) (by decide))
  | interruptMask m =>
    obtain rfl := lt1 hi
    (dsimp only [Setter.offset]; exact cell _ (by decide) (by decide) (by decide))
  | destinationIp ip =>
    rcases lt4 hi with rfl | rfl | rfl | rfl <;> (dsimp only [Setter.offset]; exact cell _ (by decide) (by decide) (by decide))
  | sourcePort v => rcases lt2 hi with rfl | rfl <;> (dsimp only [Setter.offset]; exact cell _ (by decide) (by decide) (by decide))
  | destinationPort v => rcases lt2 hi with rfl | rfl <;> (dsimp only [Setter.offset]; exact cell _ (by decide) (by decide) (by decide))
  | txWritePointer v => rcases lt2 hi with rfl | rfl <;> (dsimp only [Setter.offset]; exact cell _ (by decide) (by decide) (by decide))
  | rxReadPointer v => rcases lt2 hi with rfl | rfl <;> (dsimp only [Setter.offset]; exact cell _ (by decide) (by decide) (by decide))

theorem setter_span (a : Setter) : a.offset.toNat + a.data.length < 65536 := by
  cases a with
  | mode p => cases p <;> decide
  | resetInterrupt i => cases i <;> decide
  | command c => cases c <;> decide
  | _ => exact Nat.lt_of_le_of_lt (Nat.le_refl _) (by simp [Setter.offset, Setter.data, be])

theorem stored_step (m : U16 → U8) (a : U16) (d : List U8) (i : Nat) (hi : i < d.length) (hs : a.toNat + d.length < 65536) :
    (fun b => if b = a + BitVec.ofNat 16 i then d[i] else stored m a (d.take i) b) = stored m a (d.take (i + 1)) := by
  funext b
  have ha : (a + BitVec.ofNat 16 i).toNat = a.toNat + i := by
    rw [BitVec.toNat_add, BitVec.toNat_ofNat]; omega
  have hb : b = a + BitVec.ofNat 16 i ↔ b.toNat = a.toNat + i := by
    rw [← ha]; exact ⟨fun h => by rw [h], fun h => BitVec.eq_of_toNat_eq h⟩
  unfold stored
  by_cases h : b.toNat = a.toNat + i
  · rw [if_pos (hb.mpr h), if_pos (by omega), h, Nat.add_sub_cancel_left, List.getElem?_take_of_lt (by omega), List.getElem?_eq_getElem hi]
    rfl
  · rw [if_neg (fun x => h (hb.mp x))]
    split
    · rename_i hle
      congr 1
      rw [List.getElem?_take, List.getElem?_take]
      by_cases h2 : b.toNat - a.toNat < i
      · rw [if_pos h2, if_pos (by omega)]
      · rw [if_neg h2, if_neg (by omega)]
    · rfl

/-- C100: what a call of a setter (other than the three that address no plain register) leaves behind on the chip: the
socket's registers with the bytes stored, all of them if the call succeeds, an initial part if the bus fails. All other
registers of the socket, the common registers, the socket's transmit memory are as before; the other sockets have at most seen events. -/
theorem C100_chip_set {n : Nat} (hn : n < 8) (a : Setter) (ha : a.Keeps) {c c' : Chip} {r : Res E Unit}
    (h : a.run (Chip.dev sched faults).bus (sockOf n) c = (r, c')) :
    ∃ k, (r = .ok () → k = a.data.length) ∧
      (c'.socks n).mem = stored (c.socks n).mem a.offset (a.data.take k) ∧
      (c'.socks n).txMem = (c.socks n).txMem ∧ (c'.socks n).rxRd = (c.socks n).rxRd ∧
      c'.cmem = c.cmem ∧ ∀ m, m ≠ n → (c.socks m).Evolves (c'.socks m) := by
  rw [C100_set] at h
  let I : Nat → Chip → Prop := fun k c' => (c'.socks n).mem = stored (c.socks n).mem a.offset (a.data.take k) ∧
      (c'.socks n).txMem = (c.socks n).txMem ∧ (c'.socks n).rxRd = (c.socks n).rxRd ∧
      c'.cmem = c.cmem ∧ ∀ m, m ≠ n → (c.socks m).Evolves (c'.socks m)
  have H := Chip.hoare_write (sched := sched) (faults := faults) (I := I) (sockOf n).register a.offset a.data
    (by
      intro k _ _ d d' e ⟨h1, h2, h3, h4, h5⟩
      have hm := fun P hp => (Sock.stable_mem P).evolves (e.socks n) hp
      refine ⟨(hm (· = (d.socks n).mem) rfl).trans h1, ?_, ?_, e.cmem.trans h4, fun m hm => (h5 m hm).trans (e.socks m)⟩
      · exact (e.socks n).induct (P := fun s => s.txMem = _) (fun s x hs => (Sock.act_txMem s x).trans hs) h2
      · exact (e.socks n).induct (P := fun s => s.rxRd = _) (fun s x hs => (Sock.act_rxRd s x).trans hs) h3)
    (by
      intro k hk d ⟨h1, h2, h3, h4, h5⟩
      rw [Chip.poke_reg hn, keeps_cell ha k hk]
      refine ⟨?_, ?_, ?_, h4, fun m hm => ?_⟩
      · rw [Chip.setSock_self]
        show (fun b => if b = a.offset + BitVec.ofNat 16 k then a.data[k] else (d.socks n).mem b) = _
        rw [h1]
        exact stored_step _ _ _ k hk (setter_span a)
      · rw [Chip.setSock_self]; exact h2
      · rw [Chip.setSock_self]; exact h3
      · rw [Chip.setSock_other _ _ _ _ hm]; exact h5 m hm)
  have h0 : I 0 c := ⟨by
    funext b
    unfold stored
    simp, rfl, rfl, rfl, fun m _ => .refl _⟩
  have H := H.run c h0
  rw [show (Chip.dev sched faults).bus.write (sockOf n).register a.offset a.data c = (r, c') from h] at H
  cases r with
  | ok => exact ⟨_, fun _ => rfl, H⟩
  | err e => exact let ⟨k, _, hk⟩ := H; ⟨k, nofun, hk⟩
  | panic => exact let ⟨k, _, hk⟩ := H; ⟨k, nofun, hk⟩
  | fuel => exact let ⟨k, _, hk⟩ := H; ⟨k, nofun, hk⟩

theorem read_cells {n : Nat} (hn : n < 8) (a : U16) (m : U16 → U8) (h1 : ∀ s : Sock, s.peekReg a = s.mem a)
    (h2 : ∀ s : Sock, s.peekReg (a + 1) = s.mem (a + 1)) {c c' : Chip} {v : U16} (hm : (c.socks n).mem = m)
    (h : (Chip.dev sched faults).bus.read2 (sockOf n).register a c = (.ok v, c')) : v = m a ++ m (a + 1) := by
  obtain ⟨_, s1, s2, e1, e2, _, _, e⟩ := (hs_read2 hn (Sock.stable_mem (· = m)) a).ok hm h
  rw [e, h1, h2, e1, e2]

theorem stored_word (m : U16 → U8) (a v : U16) (ha : a.toNat + 1 < 65536) :
    stored m a (be v.toNat) a ++ stored m a (be v.toNat) (a + 1) = v := by
  have h1 : (a + 1).toNat = a.toNat + 1 := by
    rw [BitVec.toNat_add]
    show (a.toNat + 1) % 65536 = _
    omega
  unfold stored
  rw [if_pos (Nat.le_refl _), if_pos (by omega), h1, Nat.sub_self, Nat.add_sub_cancel_left, ← toBeBytes_eq_be]
  exact Sock.whole v

/-- C100: the transmit write pointer and the receive read pointer: what was set is what is read, as long as nothing else
writes the socket's registers. -/
theorem C100_pointers_partial {n : Nat} (hn : n < 8) {c c1 c2 c3 : Chip} {x v : U16}
    (hm : (c2.socks n).mem = (c1.socks n).mem) :
    ((sockOf n).setTxWritePointer (Chip.dev sched faults).bus x c = (.ok (), c1) →
      (sockOf n).getTxWritePointer (Chip.dev sched faults).bus c2 = (.ok v, c3) → v = x) ∧
    ((sockOf n).setRxReadPointer (Chip.dev sched faults).bus x c = (.ok (), c1) →
      (sockOf n).getRxReadPointer (Chip.dev sched faults).bus c2 = (.ok v, c3) → v = x) := by
  constructor
  · intro h1 h2
    obtain ⟨k, hk, e, _⟩ := C100_chip_set hn (.txWritePointer x) trivial h1
    rw [hk rfl, List.take_length] at e
    rw [read_cells hn 0x24 _ (fun _ => rfl) (fun _ => rfl) (hm.trans e) h2]
    exact stored_word _ 0x24 _ (by decide)
  · intro h1 h2
    obtain ⟨k, hk, e, _⟩ := C100_chip_set hn (.rxReadPointer x) trivial h1
    rw [hk rfl, List.take_length] at e
    rw [read_cells hn 0x28 _ (fun _ => rfl) (fun _ => rfl) (hm.trans e) h2]
    exact stored_word _ 0x28 _ (by decide)

/-- C100: `has_interrupt` tells about the flags at some moment during the call. -/
theorem C100_has_interrupt_chip {n : Nat} (hn : n < 8) (i : socketn.Interrupt) {c c' : Chip} {b : Bool}
    (h : (sockOf n).hasInterrupt (Chip.dev sched faults).bus i c = (.ok b, c')) :
    ∃ s, (c.socks n).Evolves s ∧ s.Evolves (c'.socks n) ∧ (b = true ↔ Flagged i s.ir) := by
  have key : ∀ x : U8, (decide (x &&& i.toU8 ≠ 0) = true ↔ Flagged i x) := by
    intro x
    rw [decide_eq_true_eq]
    revert x
    cases i <;> (unfold Flagged irBit socketn.Interrupt.toU8; dsimp only; decide)
  unfold Socket.hasInterrupt at h
  rw [M.bind_eq_ok] at h
  obtain ⟨x, c1, h1, h2⟩ := h
  have hs : StableS (fun s => (c.socks n).Evolves s) := fun s a e => e.trans (.act s a)
  obtain ⟨_, s0, e1, e2, e3⟩ := (hs_read1 hn hs socketn.INTERRUPT).ok (.refl _) h1
  obtain ⟨rfl, rfl⟩ := M.pure_eq_ok.mp h2
  exact ⟨s0, e1, e2, by rw [e3]; exact key _⟩

/-- C100: `reset_interrupt` clears the flag it is given (`All`: every flag), and changes nothing else. -/
theorem C100_reset_interrupt_chip {n : Nat} (hn : n < 8) (i : socketn.Interrupt) {c c' : Chip}
    (h : (sockOf n).resetInterrupt (Chip.dev sched faults).bus i c = (.ok (), c')) :
    ∃ c0 ir, c.Evolves c0 ∧ c' = c0.setSock n { c0.socks n with ir := ir } ∧
      ∀ k, ir.getLsbD k = ((c0.socks n).ir.getLsbD k && match irBit i with | some j => k != j | none => false) := by
  have h' : (Chip.dev sched faults).bus.write (sockOf n).register 0x02 [i.toU8] c = (.ok (), c') := h
  obtain ⟨c0, e, rfl⟩ := Chip.write1_ok h'
  refine ⟨c0, (c0.socks n).ir &&& ~~~ i.toU8, e, Chip.poke_reg hn c0 _ _, fun k => ?_⟩
  rw [BitVec.getLsbD_and]
  by_cases hk : k < 8
  · congr 1
    revert k
    cases i <;> (unfold irBit socketn.Interrupt.toU8; dsimp only; decide)
  · rw [BitVec.getLsbD_of_ge _ k (by omega), Bool.false_and, Bool.false_and]

/-- C100: a chip with a failing bus or not: `set_tx_read_pointer` does the same whatever the pointer. -/
theorem C100_tx_read_ignored {n : Nat} (hn : n < 8) (x y : U16) (c : Chip) :
    (sockOf n).setTxReadPointer (Chip.dev sched faults).bus x c = (sockOf n).setTxReadPointer (Chip.dev sched faults).bus y c := by
  have poke : ∀ (c : Chip) (a : U16) (z : U8), a = 0x22 ∨ a = 0x23 → c.poke ((sockOf n).register.setWidth 5) a z = c := by
    intro c a z ha
    rw [Chip.poke_reg hn, show (c.socks n).pokeReg a z = c.socks n by rcases ha with rfl | rfl <;> rfl]
    unfold Chip.setSock
    congr 1
    funext m
    split
    · rename_i hm; rw [hm]
    · rfl
  have one : ∀ c x y, ((Chip.dev sched faults).writeByte c ((sockOf n).register.setWidth 5) 0x22 x) =
    (Chip.dev sched faults).writeByte c ((sockOf n).register.setWidth 5) 0x22 y := fun c x y =>
      (poke _ _ _ (.inl rfl)).trans (poke _ _ _ (.inl rfl)).symm
  have two : ∀ c x y, ((Chip.dev sched faults).writeByte c ((sockOf n).register.setWidth 5) (0x22 + 1) x) =
    (Chip.dev sched faults).writeByte c ((sockOf n).register.setWidth 5) (0x22 + 1) y := fun c x y =>
      (poke _ _ _ (.inr rfl)).trans (poke _ _ _ (.inr rfl)).symm
  have bytes : ∀ (k : Nat) (c : Chip), (Chip.dev sched faults).writeBytes c ((sockOf n).register.setWidth 5) 0x22 ((toBeBytes x).take k) =
      (Chip.dev sched faults).writeBytes c ((sockOf n).register.setWidth 5) 0x22 ((toBeBytes y).take k) := by
    intro k c
    match k with
    | 0 => rfl
    | 1 => exact one _ _ _
    | k + 2 =>
      have l : ∀ x, (toBeBytes x).take (k + 2) = toBeBytes x := fun x => List.take_of_length_le (Nat.le_add_left 2 k)
      rw [l, l]
      show (Chip.dev sched faults).writeByte ((Chip.dev sched faults).writeByte c _ 0x22 _) _ (0x22 + 1) _ = _
      rw [one c _ ((toBeBytes y)[0]!), two _ _ ((toBeBytes y)[1]!)]
      rfl
  have eq := fun x => C100_set (Chip.dev sched faults).bus (sockOf n) (.txReadPointer x) c
  show (Setter.txReadPointer x).run _ _ c = (Setter.txReadPointer y).run _ _ c
  rw [eq, eq]
  simp only [Setter.data, Setter.offset, ← toBeBytes_eq_be, ByteDev.bus]
  split
  · exact congrArg (Prod.mk _) (bytes 2 _)
  · exact congrArg (Prod.mk _) (bytes _ _)

/-! ## The transmit read pointer -/

/-- Two bytes written into the transmit read pointer of socket 0 of a chip just powered up, then read back. -/
def txReadBack (x : U16) : Res Unit U16 :=
  ((do (sockOf 0).setTxReadPointer (Chip.dev (fun _ => []) (fun _ => none)).bus x
       (sockOf 0).getTxReadPointer (Chip.dev (fun _ => []) (fun _ => none)).bus : M Chip Unit U16) Chip.powerUp).1

/-- C100 is false for the third pointer that has both a setter and a getter: 5 is written, 0 is read, and no bus fault is
involved. Sn_TX_RD cannot be written (C100_tx_read_ignored). -/
theorem C100_refuted : txReadBack 5 = .ok 0 := by decide +kernel

/-! ## Cases -/

/-- A setter and a getter, on a bus that fails the one transfer. -/
example : (Setter.run (Chip.dev (fun _ => []) (fun _ => some (7, 4))).bus (sockOf 2) (.sourcePort 0x1234) Chip.powerUp).1 = .err 7 ∧
    ((Setter.run (Chip.dev (fun _ => []) (fun _ => some (7, 4))).bus (sockOf 2) (.sourcePort 0x1234) Chip.powerUp).2.socks 2).mem 4 = 0x12 ∧
    ((Setter.run (Chip.dev (fun _ => []) (fun _ => some (7, 4))).bus (sockOf 2) (.sourcePort 0x1234) Chip.powerUp).2.socks 2).mem 5 = 0 := by
  decide +kernel

/-- A register that is written and read back, on socket 3. -/
example : ((do (sockOf 3).setRxReadPointer (Chip.dev (fun _ => []) (fun _ => none)).bus 0xABCD
               (sockOf 3).getRxReadPointer (Chip.dev (fun _ => []) (fun _ => none)).bus : M Chip Unit U16) Chip.powerUp).1 = .ok 0xABCD := by
  decide +kernel

/-- The status of a socket just powered up is "closed". -/
example : (Getter.run (Chip.dev (fun _ => []) (fun _ => (none : Option (Unit × Nat)))).bus (sockOf 1) .status Chip.powerUp).1 = .ok 0 := by
  decide +kernel

/-- A chip whose socket 0 has two flags set: one is asked for, cleared, and gone; the other stays. -/
def flagged : Chip := Chip.powerUp.setSock 0 { Chip.powerUp.socks 0 with ir := 0x14 }

example : ((do
    let a ← (sockOf 0).hasInterrupt (Chip.dev (fun _ => []) (fun _ => none)).bus .sendOk
    (sockOf 0).resetInterrupt (Chip.dev (fun _ => []) (fun _ => none)).bus .sendOk
    let b ← (sockOf 0).hasInterrupt (Chip.dev (fun _ => []) (fun _ => none)).bus .sendOk
    let c ← (sockOf 0).hasInterrupt (Chip.dev (fun _ => []) (fun _ => none)).bus .receive
    return (a, b, c) : M Chip Unit (Bool × Bool × Bool)) flagged).1 = .ok (true, false, true) := by
  decide +kernel

end W5500.Props
