import Verif.Spec.PktFailures
import Verif.Proofs.Failures
import Verif.Proofs.UdpHistory
import Verif.Proofs.RawHistory
import Verif.Proofs.AccessDev
/-! # UDP and MACRAW with failing transfers: the invariant -/

namespace W5500.Spec
open W5500 socketn Sock
variable {E ε α : Type} {sched : Nat → List (Nat × Act)} {faults : Nat → Option (E × Nat)}

namespace Sock

/-- The data of the packets that left, followed by the bytes up to `p`, is `A`; the end of the last SEND is in between. -/
structure HeldP (m : Nat) (A : List U8) (p : U16) (s : Sock) : Prop where
  mode : s.proto = m
  size : GoodSize s.txSize
  una : s.una = s.txRd
  fits : (p - s.txRd).toNat ≤ s.txSize
  between : (s.txLimit - s.txRd).toNat + (p - s.txLimit).toNat = (p - s.txRd).toNat
  out : s.payloads ++ ring s.txMem s.txSize s.txRd (p - s.txRd).toNat = A

theorem payloads_snoc (K : List Packet) (q : Packet) : ((K ++ [q]).map (·.data)).flatten = (K.map (·.data)).flatten ++ q.data := by
  simp

theorem push_payloads (s : Sock) (bs : List U8) : (s.push bs).payloads = s.payloads := by
  unfold payloads; rw [push_packets]

theorem stable_heldP {m : Nat} (hm : m = 2 ∨ m = 4) (A : List U8) (p : U16) :
    StableS (fun s => HeldP m A p s) := by
  intro s a h
  have h1 : s.proto ≠ 1 := by rw [h.mode]; omega
  have same : (s.act a).txRd = s.txRd → (s.act a).una = s.una → (s.act a).packets = s.packets → HeldP m A p (s.act a) := by
    intro e1 e2 e3
    refine ⟨by rw [act_proto]; exact h.mode, by rw [act_txSize]; exact h.size, by rw [e1, e2]; exact h.una,
      by rw [e1, act_txSize]; exact h.fits, by rw [e1, act_txLimit]; exact h.between, ?_⟩
    unfold payloads
    rw [e3, e1, act_txMem, act_txSize]
    exact h.out
  cases a with
  | arrive bs => apply same <;> simp only [act, if_neg h1]
  | datagram dg => apply same <;> simp only [act] <;> split <;> first | rfl | exact push_txRd _ _ | exact push_una _ _ | exact push_packets _ _
  | frame f => apply same <;> simp only [act] <;> split <;> first | rfl | exact push_txRd _ _ | exact push_una _ _ | exact push_packets _ _
  | transmit k => apply same <;> simp only [act, if_neg h1]
  | ack k => apply same <;> simp only [act, if_neg h1]
  | raise b => exact same rfl rfl rfl
  | status x => exact same rfl rfl rfl
  | emit b =>
    by_cases hne : s.txRd = s.txLimit
    · apply same <;> simp only [act] <;> rw [if_neg (fun h => h.2 hne)]
    have hc : (s.proto = 2 ∨ s.proto = 4) ∧ s.txRd ≠ s.txLimit := ⟨by rw [h.mode]; exact hm, hne⟩
    have hb := h.between
    have hf := h.fits
    simp only [act, if_pos hc]
    refine ⟨h.mode, h.size, rfl, ?_, ?_, ?_⟩
    · show (p - s.txLimit).toNat ≤ s.txSize
      omega
    · show (s.txLimit - s.txLimit).toNat + (p - s.txLimit).toNat = (p - s.txLimit).toNat
      rw [BitVec.sub_self]; simp
    · show ((s.packets ++ [_]).map Packet.data).flatten ++ ring s.txMem s.txSize s.txLimit (p - s.txLimit).toNat = A
      rw [payloads_snoc, ← h.out, ← hb, ring_add h.size.dvd, add_sub_ofNat, List.append_assoc]
      rfl

/-- Bytes held up to `p`. -/
def heldLen (p : U16) (s : Sock) : Nat := (p - s.txRd).toNat

theorem heldP_len {m : Nat} (hm : m = 2 ∨ m = 4) {A : List U8} {p : U16} {s : Sock} (h : HeldP m A p s) (a : Act) :
    (s.act a).heldLen p ≤ s.heldLen p := by
  have h1 : s.proto ≠ 1 := by rw [h.mode]; omega
  have same : (s.act a).txRd = s.txRd → (s.act a).heldLen p ≤ s.heldLen p := fun e => by
    unfold heldLen; rw [e]; exact Nat.le_refl _
  cases a with
  | arrive bs => apply same; simp only [act, if_neg h1]
  | datagram dg => apply same; simp only [act]; split <;> first | rfl | exact push_txRd _ _
  | frame f => apply same; simp only [act]; split <;> first | rfl | exact push_txRd _ _
  | transmit k => apply same; simp only [act, if_neg h1]
  | ack k => apply same; simp only [act, if_neg h1]
  | raise b => exact same rfl
  | status x => exact same rfl
  | emit b =>
    simp only [act]
    split
    · have hb := h.between
      show (p - s.txLimit).toNat ≤ (p - s.txRd).toNat
      omega
    · exact Nat.le_refl _

theorem heldP_len' {m : Nat} (hm : m = 2 ∨ m = 4) {A : List U8} {p : U16} {s s' : Sock} (h : HeldP m A p s) (e : s.Evolves s') :
    s'.heldLen p ≤ s.heldLen p := by
  have : StableS (fun t => HeldP m A p t ∧ t.heldLen p ≤ s.heldLen p) :=
    fun t a ⟨h1, h2⟩ => ⟨stable_heldP hm A p t a h1, Nat.le_trans (heldP_len hm h1 a) h2⟩
  exact (this.evolves e ⟨h, Nat.le_refl _⟩).2

theorem heldP_fsr {m : Nat} {A : List U8} {p : U16} {s : Sock} (h : HeldP m A p s) (hp : s.txWr = p) :
    s.fsr.toNat = s.txSize - s.heldLen p := by
  have h1 := h.fits
  have h2 := h.size.le
  unfold fsr
  rw [hp, h.una, BitVec.toNat_sub, BitVec.toNat_ofNat]
  show (2 ^ 16 - s.heldLen p + _) % _ = _
  have h3 : s.heldLen p = (p - s.txRd).toNat := rfl
  omega

theorem heldP_mem {m : Nat} {A : List U8} {p : U16} {s : Sock} {a : U16} (x : U8) (ha : a ≠ 0) (hz : a ≠ 0x1F)
    (h : HeldP m A p s) : HeldP m A p { s with mem := fun b => if b = a then x else s.mem b } := by
  have e1 : ({ s with mem := fun b => if b = a then x else s.mem b } : Sock).txSize = s.txSize := by
    show 1024 * (if (0x1F : U16) = a then x else s.mem 0x1F).toNat = _
    rw [if_neg (Ne.symm hz)]; rfl
  have e2 : ({ s with mem := fun b => if b = a then x else s.mem b } : Sock).proto = s.proto := by
    show (if (0 : U16) = a then x else s.mem 0).toNat % 16 = _
    rw [if_neg (Ne.symm ha)]; rfl
  refine ⟨e2.trans h.mode, by rw [e1]; exact h.size, h.una, by rw [e1]; exact h.fits, h.between, ?_⟩
  rw [e1]
  exact h.out

theorem heldP_ir {m : Nat} {A : List U8} {p : U16} {s : Sock} (i : U8) (h : HeldP m A p s) : HeldP m A p { s with ir := i } :=
  ⟨h.mode, h.size, h.una, h.fits, h.between, h.out⟩

theorem heldP_extend {m : Nat} {A data : List U8} {p : U16} {s : Sock} (h : HeldP m A p s)
    (hf : s.heldLen p + data.length ≤ s.txSize) (hr : ring s.txMem s.txSize p data.length = data) :
    HeldP m (A ++ data) (p + BitVec.ofNat 16 data.length) s := by
  have hb := h.between
  have hz := h.size.le
  have hu : s.heldLen p = (p - s.txRd).toNat := rfl
  have e1 : (p + BitVec.ofNat 16 data.length - s.txRd).toNat = (p - s.txRd).toNat + data.length := add_sub_toNat (by omega)
  have e2 : (p + BitVec.ofNat 16 data.length - s.txLimit).toNat = (p - s.txLimit).toNat + data.length :=
    add_sub_toNat (by omega)
  refine ⟨h.mode, h.size, h.una, by omega, by omega, ?_⟩
  rw [e1, ring_add h.size.dvd, add_sub_ofNat, ← List.append_assoc, hr, h.out]

theorem heldP_send {m : Nat} {A : List U8} {p : U16} {s : Sock} (h : HeldP m A p s) (hp : s.txWr = p) :
    HeldP m A p (s.command 0x20) ∧ (s.command 0x20).txLimit = p := by
  have e : s.command 0x20 = { s with txLimit := p } := by rw [← hp]; rfl
  rw [e]
  refine ⟨⟨h.mode, h.size, h.una, h.fits, ?_, h.out⟩, rfl⟩
  show (p - s.txRd).toNat + (p - p).toNat = _
  rw [BitVec.sub_self]
  rfl

theorem heldP_poke {m : Nat} {A : List U8} {p : U16} {s : Sock} (h : HeldP m A p s) {i k : Nat}
    (hk : s.heldLen p + k ≤ s.txSize) (hi : i < k) (x : U8) : HeldP m A p (s.pokeTx (p + BitVec.ofNat 16 i) x) := by
  refine ⟨h.mode, h.size, h.una, h.fits, h.between, ?_⟩
  rw [← h.out]
  show s.payloads ++ ring _ s.txSize s.txRd (p - s.txRd).toNat = _
  congr 1
  apply ring_congr
  intro j hj
  show (if _ then _ else _) = _
  rw [if_neg]
  have := ring_cells_ne h.size.dvd s.txRd (m := (p - s.txRd).toNat) (n := k) hk hj hi
  rw [add_sub_ofNat] at this
  rwa [ptr_mod h.size.dvd]

theorem heldP_out {m : Nat} {A : List U8} {p : U16} {s : Sock} (h : HeldP m A p s) :
    s.payloads ++ s.pending <+: A ∧ (s.txLimit = p → s.payloads ++ s.pending = A) := by
  have ho := h.out
  rw [← h.between, ring_add h.size.dvd, add_sub_ofNat, ← List.append_assoc] at ho
  refine ⟨⟨_, ho⟩, fun he => ?_⟩
  rw [← ho, he, BitVec.sub_self]
  show _ = (s.payloads ++ ring s.txMem s.txSize s.txRd (p - s.txRd).toNat) ++ []
  rw [List.append_nil]
  unfold pending
  rw [he]

/-- Nothing held. -/
theorem heldP_none {m : Nat} {s : Sock} (hm : s.proto = m) (hz : GoodSize s.txSize) (hr : s.txRd = s.txLimit) (hu : s.una = s.txLimit)
    (hw : s.txWr = s.txLimit) : HeldP m s.payloads s.txWr s := by
  refine ⟨hm, hz, by rw [hu, hr], ?_, ?_, ?_⟩
  · rw [hw, hr, BitVec.sub_self]; exact Nat.zero_le _
  · rw [hw, hr, BitVec.sub_self]; rfl
  · rw [hw, hr, BitVec.sub_self]
    show _ ++ ring _ _ _ 0 = _
    rw [ring_zero, List.append_nil]

/-- Everything up to Sn_TX_WR is `A`; with `b`, SEND was given for all of it. -/
def KeptP (m : Nat) (A : List U8) (b : Bool) (s : Sock) : Prop := HeldP m A s.txWr s ∧ (b = true → s.txLimit = s.txWr)

theorem stable_keptP {m : Nat} (hm : m = 2 ∨ m = 4) (A : List U8) (b : Bool) : StableS (KeptP m A b) := by
  rintro s a ⟨h1, h2⟩
  refine ⟨by rw [act_txWr]; exact stable_heldP hm A _ s a h1, fun hb => ?_⟩
  rw [act_txWr, act_txLimit]
  exact h2 hb

theorem keptP_mem {m : Nat} {A : List U8} {b : Bool} {s : Sock} {a : U16} (x : U8)
    (ha : a ≠ 0 ∧ a ≠ 0x1F ∧ a ≠ 0x24 ∧ a ≠ 0x25) (h : KeptP m A b s) :
    KeptP m A b { s with mem := fun b => if b = a then x else s.mem b } := by
  have e : ({ s with mem := fun b => if b = a then x else s.mem b } : Sock).txWr = s.txWr := by
    show ((if (0x24 : U16) = a then x else s.mem 0x24) ++ (if (0x24 + 1 : U16) = a then x else s.mem (0x24 + 1)) : BitVec (8 + 8)) = _
    rw [if_neg (Ne.symm ha.2.2.1), if_neg (show (0x24 + 1 : U16) ≠ a from Ne.symm ha.2.2.2)]
    rfl
  exact ⟨by rw [e]; exact heldP_mem x ha.1 ha.2.1 h.1, fun hb => by rw [e]; exact h.2 hb⟩

theorem keptP_ir {m : Nat} {A : List U8} {b : Bool} {s : Sock} (i : U8) (h : KeptP m A b s) : KeptP m A b { s with ir := i } :=
  ⟨heldP_ir i h.1, h.2⟩

theorem keptP_rxRd {m : Nat} {A : List U8} {b : Bool} {s : Sock} (i : U16) (h : KeptP m A b s) : KeptP m A b { s with rxRd := i } :=
  ⟨⟨h.1.mode, h.1.size, h.1.una, h.1.fits, h.1.between, h.1.out⟩, h.2⟩

theorem keptP_false {m : Nat} {A : List U8} {b : Bool} {s : Sock} (h : KeptP m A b s) : KeptP m A false s := ⟨h.1, nofun⟩

/-- A transfer ended in some way: some of `data` was added. -/
def Some' (m : Nat) (A data : List U8) (s : Sock) : Prop := ∃ k, KeptP m (A ++ data.take k) false s

theorem Some'.none {m : Nat} {A data : List U8} {b : Bool} {s : Sock} (h : KeptP m A b s) : Some' m A data s :=
  ⟨0, by rw [List.take_zero, List.append_nil]; exact keptP_false h⟩

end Sock

/-! ## The steps of sending -/

/-- Held up to `p` = Sn_TX_WR, with room for `k` more. -/
def RoomP (m : Nat) (A : List U8) (p : U16) (k : Nat) (s : Sock) : Prop :=
  HeldP m A p s ∧ s.txWr = p ∧ s.heldLen p + k ≤ s.txSize

theorem stable_roomP {m : Nat} (hm : m = 2 ∨ m = 4) (A : List U8) (p : U16) (k : Nat) : StableS (RoomP m A p k) := by
  rintro s a ⟨h1, h2, h3⟩
  have := heldP_len hm h1 a
  exact ⟨stable_heldP hm A p s a h1, by rw [act_txWr]; exact h2, by rw [act_txSize]; omega⟩

theorem RoomP.kept {m : Nat} {A : List U8} {p : U16} {k : Nat} {s : Sock} (h : RoomP m A p k s) : KeptP m A false s :=
  ⟨h.2.1.symm ▸ h.1, nofun⟩

/-- Reading the free size. -/
theorem hp_free {n : Nat} (hn : n < 8) {m : Nat} (hm : m = 2 ∨ m = 4) (A : List U8) :
    Hoare (At n (KeptP m A false)) ((Chip.dev sched faults).bus.read2 (sockOf n).register 0x20)
      (fun v => At n fun s => ∃ p, RoomP m A p v.toNat s) (At n (KeptP m A false)) := by
  refine (hs_read2 hn (stable_keptP hm A false) 0x20).post ?_
  rintro v c ⟨h1, s1, s2, p1, p2, e1, e2, h2⟩
  have hv : v.toNat = s1.fsr.toNat / 256 * 256 + s2.fsr.toNat % 256 := by
    rw [h2]
    exact torn _ _
  have w1 : s2.txWr = s1.txWr := (StableS.evolves (P := fun s => s.txWr = s1.txWr) (fun s a h => (act_txWr s a).trans h) e1 rfl)
  have w2 : (c.socks n).txWr = s2.txWr :=
    (StableS.evolves (P := fun s => s.txWr = s2.txWr) (fun s a h => (act_txWr s a).trans h) e2 rfl)
  have f1 := heldP_fsr p1.1 rfl
  have f2 := heldP_fsr p2.1 rfl
  have u1 := heldP_len' hm p1.1 e1
  have u2 := heldP_len' hm p2.1 e2
  rw [w1] at f2 u2
  have z1 : s2.txSize = s1.txSize := (stable_mem (fun m => 1024 * (m 0x1F).toNat = s1.txSize)).evolves e1 rfl
  have z2 : (c.socks n).txSize = s2.txSize :=
    (stable_mem (fun m => 1024 * (m 0x1F).toNat = s2.txSize)).evolves e2 rfl
  have l1 : s1.heldLen s1.txWr ≤ s1.txSize := p1.1.fits
  refine ⟨s1.txWr, ?_, w2.trans w1, by omega⟩
  have := h1.1
  rwa [w2, w1] at this

/-- The payload. -/
theorem hp_payload {n : Nat} (hn : n < 8) {m : Nat} (hm : m = 2 ∨ m = 4) (A : List U8) (p : U16) (wd : List U8) :
    Hoare (At n (RoomP m A p wd.length)) ((Chip.dev sched faults).bus.write (sockOf n).txBuffer p wd)
      (fun _ => At n fun s => RoomP m A p wd.length s ∧ ring s.txMem s.txSize p wd.length = wd) (At n (KeptP m A false)) := by
  have hst : ∀ i, StableS (fun s => RoomP m A p wd.length s ∧ ring s.txMem s.txSize p i = wd.take i) := by
    rintro i s a ⟨h1, h2⟩
    exact ⟨stable_roomP hm A p _ s a h1, by rw [act_txMem, act_txSize]; exact h2⟩
  refine (hs_writeTx (sched := sched) (faults := faults) hn
    (I := fun i s => RoomP m A p wd.length s ∧ ring s.txMem s.txSize p i = wd.take i) p wd (fun i _ _ => hst i) ?_).conseq
    (fun c h => ⟨h, rfl⟩) (fun _ c h => ?_) fun c h => ?_
  · rintro i hi s ⟨⟨h1, h2, h3⟩, h4⟩
    refine ⟨⟨heldP_poke h1 h3 hi _, h2, h3⟩, ?_⟩
    have := ring_poke (s := s) h1.size (p := p) (i := i) (x := wd[i]) (by omega)
    show ring (s.pokeTx _ _).txMem s.txSize p (i + 1) = _
    rw [this, h4, List.take_succ_eq_append_getElem hi]
  · obtain ⟨h1, h2⟩ := h
    rw [List.take_length] at h2
    exact ⟨h1, h2⟩
  · obtain ⟨i, _, h1, _⟩ := h
    exact h1.kept

/-- The pointer. -/
theorem hp_advance (hw : Whole faults) {n : Nat} (hn : n < 8) {m : Nat} (hm : m = 2 ∨ m = 4) (A : List U8) (p : U16) (wd : List U8) :
    Hoare (At n fun s => RoomP m A p wd.length s ∧ ring s.txMem s.txSize p wd.length = wd)
      ((Chip.dev sched faults).bus.write (sockOf n).register 0x24 (toBeBytes (p + BitVec.ofNat 16 wd.length)))
      (fun _ => At n (KeptP m (A ++ wd) false)) (At n fun s => KeptP m A false s ∨ KeptP m (A ++ wd) false s) := by
  have hst : ∀ (T : (U16 → U8) → Prop), StableS (fun s => HeldP m A p s ∧ T s.mem ∧ s.heldLen p + wd.length ≤ s.txSize ∧
      ring s.txMem s.txSize p wd.length = wd) := by
    rintro T s a ⟨h1, h2, h3, h4⟩
    have := heldP_len hm h1 a
    exact ⟨stable_heldP hm A p s a h1, by rw [act_mem]; exact h2, by rw [act_txSize]; omega,
      by rw [act_txMem, act_txSize]; exact h4⟩
  refine (hs_write2_whole hw hn (hst (fun m => m 0x24 ++ m (0x24 + 1) = p))
    (hst (fun m => m 0x24 = (p + BitVec.ofNat 16 wd.length).extractLsb' 8 8)) 0x24
    (p + BitVec.ofNat 16 wd.length) (Q := KeptP m (A ++ wd) false) (fun s hs => ?_) (fun s hs => ?_)).conseq
    (fun c h => ⟨h.1.1, h.1.2.1, h.1.2.2, h.2⟩) (fun _ c h => h) fun c h => ?_
  · obtain ⟨h1, h2, h3, h4⟩ := hs
    rw [pokeWr_eq s _ (.inl rfl)]
    exact ⟨heldP_mem _ (by decide) (by decide) h1, rfl, h3, h4⟩
  · obtain ⟨h1, h2, h3, h4⟩ := hs
    have e : (0x24 + 1 : U16) = 0x25 := rfl
    rw [e, pokeWr_eq s _ (.inr rfl)]
    have ht : ({ s with mem := fun b => if b = 0x25 then (p + BitVec.ofNat 16 wd.length).extractLsb' 0 8 else s.mem b } : Sock).txWr =
        p + BitVec.ofNat 16 wd.length := by
      show (s.mem 0x24 ++ (p + BitVec.ofNat 16 wd.length).extractLsb' 0 8 : BitVec (8 + 8)) = _
      rw [h2]
      exact whole _
    refine ⟨?_, nofun⟩
    rw [ht]
    exact heldP_mem _ (by decide) (by decide) (heldP_extend h1 h3 h4)
  · rcases h with ⟨h1, h2, _⟩ | h
    · exact .inl ⟨by
        have h2 : (c.socks n).txWr = p := h2
        rw [h2]; exact h1, nofun⟩
    · exact .inr h

/-- SEND. -/
theorem hp_send {n : Nat} (hn : n < 8) {m : Nat} (hm : m = 2 ∨ m = 4) (A : List U8) :
    Hoare (At n (KeptP m A false)) (Socket.command (Chip.dev sched faults).bus (sockOf n) .send)
      (fun _ => At n (KeptP m A true)) (At n (KeptP m A false)) := by
  refine (hs_write1 (Q := KeptP m A true) hn (stable_keptP hm A false) _ _ fun s h => ?_).exc
    fun c h => h.elim id fun h => keptP_false h
  obtain ⟨h1, h2⟩ := heldP_send h.1 rfl
  exact ⟨h1, fun _ => h2⟩

/-! ## UDP -/

theorem hp_flush {n : Nat} (hn : n < 8) {P : Sock → Prop} (hP : StableS P) (hir : ∀ s i, P s → P { s with ir := i })
    (u : UdpSocket) (hu : u.socket = sockOf n) (fuel : Nat) :
    Hoare (At n P) (u.flushLoop (Chip.dev sched faults).bus fuel) (fun _ => At n P) (At n P) := by
  have hi : ∀ x, Hoare (At n P) (Socket.hasInterrupt (Chip.dev sched faults).bus (sockOf n) x) (fun _ => At n P) (At n P) :=
    fun x => .bind (hs_read1' hn hP _) fun _ => .pure fun _ h => h
  have ht : Hoare (At n P) (u.tryFlushTx (Chip.dev sched faults).bus) (fun _ => At n P) (At n P) := by
    unfold UdpSocket.tryFlushTx
    rw [hu]
    refine .bind (.mapErr ((hs_read2 hn hP _).post fun _ c h => h.1)) fun v => ?_
    refine .bind (.mapErr ((hs_readMem hn hP _ (.inl rfl)).post fun _ c h => h.1)) fun w => ?_
    refine .ite (fun _ => ?_) fun _ => .throw fun _ h => h
    refine .bind (.mapErr (hi _)) fun b => .ite (fun _ => .mapErr (hs_clearIr hn hP _ hir)) fun _ => ?_
    refine .bind (.mapErr (hi _)) fun b => .ite (fun _ => ?_) fun _ => .pure fun _ h => h
    exact .bind (.mapErr (hs_clearIr hn hP _ hir)) fun _ => .throw fun _ h => h
  induction fuel with
  | zero => exact .outOfFuel fun _ h => h
  | succ k ih =>
    constructor
    intro c hc
    have h := ht.run c hc
    unfold UdpSocket.flushLoop
    generalize u.tryFlushTx (Chip.dev sched faults).bus c = r at h
    obtain ⟨r, c'⟩ := r
    cases r with
    | ok a => exact h
    | err e =>
      cases e with
      | wouldBlock => exact ih.run c' h
      | other e => exact h
    | panic => exact h
    | fuel => exact h

/-- `socket_send` of a piece. -/
theorem hp_sendPiece (hw : Whole faults) {n : Nat} (hn : n < 8) (A : List U8) (u : UdpSocket) (hu : u.socket = sockOf n) (fuel : Nat)
    (data : List U8) :
    Hoare (At n (KeptP 2 A false)) (u.socketSend (Chip.dev sched faults).bus fuel data)
      (fun k c => At n (KeptP 2 (A ++ data.take k) true) c ∧ k ≤ data.length) (At n (Some' 2 A data)) := by
  have hm : (2 : Nat) = 2 ∨ 2 = 4 := .inl rfl
  have hP := stable_keptP hm A false
  have hexc : ∀ c, At n (KeptP 2 A false) c → At n (Some' 2 A data) c := fun c h => .none h
  unfold UdpSocket.socketSend Socket.getTxFreeSize
  refine .bind (.exc (hs_checkStatus hn hP u hu) hexc) fun _ => ?_
  refine .ite (fun _ => .throw hexc) fun _ => ?_
  rw [hu]
  refine .bind (.mapErr (.exc (hp_free hn hm A) hexc)) fun v => ?_
  have hroom : ∀ c, At n (fun s => ∃ p, RoomP 2 A p v.toNat s) c → At n (Some' 2 A data) c := by
    rintro c ⟨p, h⟩
    exact .none h.kept
  refine .ite (fun _ => .throw hroom) fun _ => ?_
  dsimp only
  suffices H : ∀ wd, data.take wd.length = wd → wd.length ≤ v.toNat → Hoare (At n fun s => ∃ p, RoomP 2 A p v.toNat s) (do
      let writePointer ← M.mapErr (NbError.ofBus (E := E)) (Socket.getTxWritePointer (Chip.dev sched faults).bus (sockOf n))
      M.mapErr NbError.ofBus ((Chip.dev sched faults).bus.write (sockOf n).txBuffer writePointer wd)
      M.mapErr NbError.ofBus (Socket.setTxWritePointer (Chip.dev sched faults).bus (sockOf n)
            (writePointer + BitVec.ofNat 16 wd.length))
      u.blockSendCommand (Chip.dev sched faults).bus fuel
      pure wd.length) _ _ by
    split
    · exact H data (List.take_length) (by omega)
    · unfold M.sliceTo
      rw [if_pos (by omega)]
      exact H _ (by rw [List.length_take, Nat.min_eq_left (by omega)]) (by rw [List.length_take]; omega)
  intro wd htk hl
  have hwl : wd.length ≤ data.length := by
    have := congrArg List.length htk
    rw [List.length_take] at this
    omega
  have hst : StableS (fun s => ∃ p, RoomP 2 A p v.toNat s) := fun s a ⟨p, h⟩ => ⟨p, stable_roomP hm A p _ s a h⟩
  refine .bind (Q := fun p => At n (RoomP 2 A p wd.length))
    (.mapErr ((hs_readMem hn hst _ (.inl rfl)).conseq (fun _ h => h) ?_ hroom)) fun p => ?_
  · rintro p c ⟨⟨q, h1, h2, h3⟩, h4⟩
    have : p = q := h4.trans h2
    subst this
    exact ⟨h1, h2, by omega⟩
  refine .bind (.mapErr ((hp_payload hn hm A p wd).exc hexc)) fun _ => ?_
  have hexc2 : ∀ b c, At n (KeptP 2 (A ++ wd) b) c → At n (Some' 2 A data) c := fun b c h =>
    ⟨wd.length, by rw [htk]; exact keptP_false h⟩
  refine .bind (.mapErr ((hp_advance hw hn hm A p wd).exc fun c h => h.elim (hexc c) (hexc2 _ c))) fun _ => ?_
  unfold UdpSocket.blockSendCommand
  rw [hu]
  refine .bind (.bind (.mapErr ((hp_send hn hm (A ++ wd)).exc (hexc2 _))) fun _ =>
    .exc (hp_flush hn (stable_keptP hm (A ++ wd) true) (fun s i h => keptP_ir i h) u hu fuel) (hexc2 _)) fun _ => .pure fun c hc => ?_
  rw [htk]
  exact ⟨hc, hwl⟩

theorem hp_sendLoop (hw : Whole faults) {n : Nat} (hn : n < 8) (A : List U8) (u : UdpSocket) (hu : u.socket = sockOf n) (fuel : Nat)
    (buf : List U8) (k : Nat) : ∀ (v : U16) (t : Nat) (b : Bool), t ≤ buf.length → (t = buf.length → b = true ∨ buf = []) →
    Hoare (At n (KeptP 2 (A ++ buf.take t) b)) (u.sendAllLoop (Chip.dev sched faults).bus fuel buf k v t)
      (fun _ => At n (KeptP 2 (A ++ buf) (b || !buf.isEmpty))) (At n (Some' 2 A buf)) := by
  have hm : (2 : Nat) = 2 ∨ 2 = 4 := .inl rfl
  induction k with
  | zero => exact fun v t b _ _ => .outOfFuel fun c h => ⟨t, keptP_false h⟩
  | succ k ih =>
    intro v t b ht hb
    unfold UdpSocket.sendAllLoop
    refine .ite (fun he => .pure fun c h => ?_) fun hne => ?_
    · rw [he, List.take_length] at h
      refine ⟨h.1, fun hh => ?_⟩
      rcases hb he with rfl | rfl
      · exact h.2 rfl
      · exact h.2 (by simpa using hh)
    unfold M.sliceFrom M.sliceTo
    rw [if_pos ht]
    refine .bind (Q := fun r c => At n (KeptP 2 (A ++ buf.take t) b) c ∧ r = buf.drop t)
      (.pure fun _ h => ⟨h, rfl⟩) fun r => Hoare.fact' fun hr => ?_
    subst hr
    dsimp only
    rw [if_pos (Nat.min_le_right _ _)]
    refine .bind (Q := fun r c => At n (KeptP 2 (A ++ buf.take t) b) c ∧ r = (buf.drop t).take (min v.toNat (buf.drop t).length))
      (.pure fun _ h => ⟨h, rfl⟩) fun r => Hoare.fact' fun hr => ?_
    subst hr
    have hpart : ∀ j, A ++ buf.take t ++ ((buf.drop t).take (min v.toNat (buf.drop t).length)).take j =
        A ++ buf.take (t + min j (min v.toNat (buf.drop t).length)) := by
      intro j
      rw [List.take_take, List.append_assoc, List.take_add]
    refine .bind (.exc (.pre (hp_sendPiece hw hn (A ++ buf.take t) u hu fuel _) fun c h => keptP_false h) fun c h => ?_) fun sent => ?_
    · obtain ⟨j, h⟩ := h
      rw [hpart] at h
      exact ⟨_, h⟩
    refine Hoare.fact' fun hs => ?_
    rw [List.length_take] at hs
    have hdl : (buf.drop t).length = buf.length - t := List.length_drop
    rw [hpart, Nat.min_eq_left (by omega)]
    have hall : ∀ c, At n (KeptP 2 (A ++ buf.take (t + sent)) true) c → At n (Some' 2 A buf) c :=
      fun c h => ⟨t + sent, keptP_false h⟩
    unfold Socket.getTxFreeSize
    rw [hu]
    refine .bind (Q := fun _ => At n (KeptP 2 (A ++ buf.take (t + sent)) true))
      (.mapErr (.exc ((hs_read2 hn (stable_keptP hm _ true) _).post fun _ c h => h.1) hall)) fun v' => ?_
    refine (ih v' (t + sent) true (by omega) fun _ => .inl rfl).conseq (fun _ h => h) (fun _ c h => ?_) fun _ h => h
    exact ⟨h.1, fun _ => h.2 rfl⟩

/-- `send`. -/
theorem hp_sendAll (hw : Whole faults) {n : Nat} (hn : n < 8) (A : List U8) (u : UdpSocket) (hu : u.socket = sockOf n) (fuel : Nat)
    (buf : List U8) (b : Bool) :
    Hoare (At n (KeptP 2 A b)) (u.socketSendAll (Chip.dev sched faults).bus fuel buf)
      (fun _ => At n (KeptP 2 (A ++ buf) (b || !buf.isEmpty))) (At n (Some' 2 A buf)) := by
  have hm : (2 : Nat) = 2 ∨ 2 = 4 := .inl rfl
  have hexc : ∀ c, At n (KeptP 2 A b) c → At n (Some' 2 A buf) c := fun c h => .none h
  unfold UdpSocket.socketSendAll Socket.getTxFreeSize
  refine .bind (.exc (hs_checkStatus hn (stable_keptP hm A b) u hu) hexc) fun _ => ?_
  refine .ite (fun _ => .throw hexc) fun _ => ?_
  rw [hu]
  refine .bind (Q := fun _ => At n (KeptP 2 A b))
      (.mapErr (.exc ((hs_read2 hn (stable_keptP hm _ b) _).post fun _ c h => h.1) hexc)) fun v => ?_
  refine .ite (fun _ => .throw hexc) fun _ => ?_
  have := hp_sendLoop (sched := sched) hw hn A u hu fuel buf fuel v 0 b (Nat.zero_le _) fun h => .inr (List.length_eq_zero_iff.mp h.symm)
  rw [List.take_zero, List.append_nil] at this
  exact this

/-- `set_destination`, however it ends. -/
theorem hp_setDestination {n : Nat} (hn : n < 8) {P : Sock → Prop} (hP : StableS P)
    (hk : ∀ s a x, destOrSize a → a ≠ 0x1E → a ≠ 0x1F → P s → P (s.setMem a x)) (u0 : UdpSocket)
    (hu : u0.socket = sockOf n) (a : SockAddr4) :
    Hoare (fun s : UdpSocket × Chip => s.1 = u0 ∧ At n P s.2)
      (UdpSocket.setDestination (Chip.dev sched faults).bus a)
      (fun _ s => s.1 = { u0 with destination := some a } ∧ At n P s.2) (fun s => s.1 = u0 ∧ At n P s.2) := by
  unfold UdpSocket.setDestination
  refine .bind (Q := fun d s => d.1 = u0 ∧ s.1 = u0 ∧ At n P s.2) (.get fun s h => ⟨h.1, h⟩) fun d => ?_
  refine .fact fun hd => ?_
  rw [hd]
  dsimp only
  refine .ite (fun hdiff => ?_) fun hsame => .pure fun s h => ?_
  · rw [hu]
    refine .bind (.mapErr (.onSnd' u0 ((hs_store hn hP _ _ (by simp [Ipv4.octets]) ?_ ?_).post fun _ _ h => h.1))) fun _ => ?_
    · intro i hi
      rcases octets_index hi with rfl | rfl | rfl | rfl <;> rfl
    · intro s i x hi h
      rcases octets_index hi with rfl | rfl | rfl | rfl
      all_goals exact hk s _ x (by decide) (by decide) (by decide) h
    refine .bind (.mapErr (.onSnd' u0 ((hs_store hn hP _ _ (by simp [toBeBytes]) ?_ ?_).post fun _ _ h => h.1))) fun _ => ?_
    · intro i hi
      rcases index_two (by rfl) hi with rfl | rfl <;> rfl
    · intro s i x hi h
      rcases index_two (by rfl) hi with rfl | rfl
      all_goals exact hk s _ x (by decide) (by decide) (by decide) h
    exact .modify fun s h => ⟨by rw [h.1, hu], h.2⟩
  · have : u0.destination = some a := by
      revert hsame
      cases hdst : u0.destination with
      | none => simp
      | some x => simp
    refine ⟨?_, h.2⟩
    rw [h.1, ← this]

/-- `send_to`, however it ends. -/
theorem hp_sendTo (hw : Whole faults) {n : Nat} (hn : n < 8) (A : List U8) (u : UdpSocket) (hu : u.socket = sockOf n) (fuel : Nat)
    (a : SockAddr4) (buf : List U8) (b : Bool) :
    Hoare (fun s : UdpSocket × Chip => s.1 = u ∧ At n (KeptP 2 A b) s.2)
      (UdpSocket.socketSendTo (Chip.dev sched faults).bus fuel a buf)
      (fun _ s => s.1.socket = sockOf n ∧ At n (KeptP 2 (A ++ buf) (b || !buf.isEmpty)) s.2)
      (fun s => s.1.socket = sockOf n ∧ At n (Some' 2 A buf) s.2) := by
  unfold UdpSocket.socketSendTo
  refine .bind (.exc (.mapErr (hp_setDestination hn (stable_keptP (.inl rfl) A b) ?_ u hu a)) fun s h => ⟨by rw [h.1]; exact hu, .none h.2⟩)
    fun _ => ?_
  · intro s c x hc h1 h2 h
    refine keptP_mem x ?_ h
    unfold destOrSize at hc
    simp only [List.mem_cons, List.not_mem_nil, or_false] at hc
    rcases hc with rfl | rfl | rfl | rfl | rfl | rfl | rfl | rfl <;> first | decide | exact absurd rfl h2
  refine .bind (Q := fun d s => d.1 = { u with destination := some a } ∧ s.1 = { u with destination := some a } ∧
    At n (KeptP 2 A b) s.2) (.get fun s h => ⟨h.1, h⟩) fun d => ?_
  refine .fact fun hd => ?_
  rw [hd]
  exact (Hoare.onSnd' { u with destination := some a } (hp_sendAll hw hn A { u with destination := some a } hu fuel buf b)).conseq (fun _ h => h)
    (fun _ s h => ⟨by rw [h.1]; exact hu, h.2⟩) fun s h => ⟨by rw [h.1]; exact hu, h.2⟩

theorem movesRecv_udpReceive {W : Type} {B : Bus W E} (u : UdpSocket) (fuel : Nat) :
    MovesOn B (RecvFrames u.socket) (fun s => s.2) (u.socketReceive B fuel) := by
  have h1 := moves_checkStatus (B := B) (RecvFrames u.socket) u
  have h2 := moves_receiveSize (B := B) (RecvFrames u.socket) u.socket fuel
  unfold UdpSocket.socketReceive Socket.hasInterrupt Socket.getRxReadPointer Socket.setRxReadPointer Socket.command
    Socket.resetInterrupt
  moves
  all_goals first | exact .write (.rd _ _) | exact .write .recv | exact .write (.ir _)

theorem recv_keptP {n : Nat} (hn : n < 8) {m : Nat} (hm : m = 2 ∨ m = 4) {A : List U8} {b : Bool} {c c' : Chip}
    (h : Reach (Chip.dev sched faults).bus (RecvFrames (sockOf n)) c c') (hc : At n (KeptP m A b) c) : At n (KeptP m A b) c' := by
  refine reach_recv hn (stable_keptP hm A b) ?_ (fun s i h => keptP_ir i h) (fun s r h => keptP_rxRd r h) h hc
  rintro s a x ha h
  exact keptP_mem x (by rcases ha with rfl | rfl <;> decide) h

/-! ## Histories of UDP -/

theorem flushed_ok (log : PktLog) (data : List U8) (k : Nat) :
    PktLog.flushed (log ++ [(data, some k)]) = (PktLog.flushed log || !data.isEmpty) := by
  unfold PktLog.flushed
  rw [List.foldl_append]
  rfl

theorem flushed_failed (log : PktLog) (data : List U8) : PktLog.flushed (log ++ [(data, none)]) = false := by
  unfold PktLog.flushed
  rw [List.foldl_append]
  rfl

/-- The account after a call. -/
theorem handed_step {n : Nat} {m : Nat} {S : List U8} {log : PktLog} {c' : Chip} {data bs : List U8} {k : Option Nat}
    (hb : PktHanded log bs)
    (h : match k with
      | some k => At n (KeptP m (S ++ bs ++ data.take k) (PktLog.flushed log || !data.isEmpty)) c'
      | none => At n (Some' m (S ++ bs) data) c') :
    ∃ bs', PktHanded (log ++ [(data, k)]) bs' ∧ At n (KeptP m (S ++ bs') (PktLog.flushed (log ++ [(data, k)]))) c' := by
  cases k with
  | some k =>
    refine ⟨bs ++ data.take k, .ok data k hb, ?_⟩
    rw [flushed_ok, ← List.append_assoc]
    exact h
  | none =>
    obtain ⟨k, h⟩ := h
    refine ⟨bs ++ data.take k, .failed data k hb, ?_⟩
    rw [flushed_failed, ← List.append_assoc]
    exact h

theorem udpTalk_kept (hw : Whole faults) {n : Nat} (hn : n < 8) {u0 u : UdpSocket} {c c' : Chip} {S : List U8} {log : PktLog}
    (h : UdpTalk sched faults n u0 c log u c') (hu : u0.socket = sockOf n) (h0 : At n (KeptP 2 S true) c) :
    u.socket = sockOf n ∧ ∃ bs, PktHanded log bs ∧ At n (KeptP 2 (S ++ bs) log.flushed) c' := by
  have hm : (2 : Nat) = 2 ∨ 2 = 4 := .inl rfl
  induction h with
  | start => exact ⟨hu, [], .none, by simpa [PktLog.flushed] using h0⟩
  | @send H log u d fuel data _ ih =>
    obtain ⟨hs, bs, hb, hk⟩ := ih
    have := (hp_sendAll (sched := sched) hw hn (S ++ bs) u hs fuel data log.flushed).run d.bus hk
    refine ⟨hs, ?_⟩
    rcases hr : Device.udpSend (Chip.dev sched faults).bus fuel u data d with ⟨r, d'⟩
    unfold Device.udpSend at hr
    rw [onBus_run hr] at this
    refine handed_step hb ?_
    cases r with
    | ok x =>
      have : At n (KeptP 2 (S ++ bs ++ data) (log.flushed || !data.isEmpty)) d'.bus := this
      simpa [udpResult] using this
    | err e => exact this
    | panic => exact this
    | fuel => exact this
  | @sendTo H log u d fuel dst data _ ih =>
    obtain ⟨hs, bs, hb, hk⟩ := ih
    cases dst with
    | v6 ip port =>
      refine ⟨hs, handed_step (k := none) hb (.none (b := log.flushed) ?_)⟩
      exact hk
    | v4 a =>
      have := (hp_sendTo (sched := sched) hw hn (S ++ bs) u hs fuel a data log.flushed).run (u, d.bus) ⟨rfl, hk⟩
      rcases hr : Device.udpSendTo (Chip.dev sched faults).bus fuel (.v4 a) data (u, d) with ⟨r, u', d'⟩
      unfold Device.udpSendTo at hr
      rw [onSockBus_run hr] at this
      cases r with
      | ok x => exact ⟨this.1, handed_step hb (by simpa [udpResult] using this.2)⟩
      | err e => exact ⟨this.1, handed_step hb this.2⟩
      | panic => exact ⟨this.1, handed_step hb this.2⟩
      | fuel => exact ⟨this.1, handed_step hb this.2⟩
  | @receive H log u d fuel buf _ ih =>
    obtain ⟨hs, bs, hb, hk⟩ := ih
    refine ⟨hs, bs, hb, ?_⟩
    have hmv : MovesOn (Chip.dev sched faults).bus (RecvFrames u.socket) (fun s : List U8 × Device Chip H => s.2.bus)
        (Device.udpReceive (Chip.dev sched faults).bus fuel u) :=
      .onSockBus (.bind (movesRecv_udpReceive u fuel) fun _ => .pure _)
    have := hmv.run (buf, d)
    rw [hs] at this
    exact recv_keptP hn hm this hk
  | @setPort log u c1 port _ ih =>
    obtain ⟨hs, bs, hb, hk⟩ := ih
    have := (udp_setPort (sched := sched) (faults := faults) hn u hs port (stable_keptP hm (S ++ bs) log.flushed)
      (fun s a x ha h => keptP_mem x (by rcases ha with rfl | rfl <;> decide) h)).run (u, c1) ⟨rfl, hk⟩
    generalize UdpSocket.setPort (Chip.dev sched faults).bus port (u, c1) = r at this
    obtain ⟨_ | _ | _ | _, u', c'⟩ := r
    all_goals exact ⟨by have h : u' = _ := this.1; rw [h]; exact hs, bs, hb, this.2⟩
  | @read log u c1 block addr data _ ih =>
    obtain ⟨hs, bs, hb, hk⟩ := ih
    exact ⟨hs, bs, hb, ((stable_keptP hm _ _).at n) _ _ (Chip.readFrame_evolves _ _ _ _) hk⟩
  | @write log u c1 block addr data _ hf ih =>
    obtain ⟨hs, bs, hb, hk⟩ := ih
    exact ⟨hs, bs, hb, foreign_keep (stable_keptP hm _ _) hf _ hk⟩
  | @pass log u c1 c2 _ hp ih =>
    obtain ⟨hs, bs, hb, hk⟩ := ih
    exact ⟨hs, bs, hb, ((stable_keptP hm _ _).at n) _ _ hp.evolves hk⟩

/-! ## MACRAW -/

theorem MovesOn.bindR {W σ β : Type} {B : Bus W E} {F : U8 → U16 → List U8 → Prop} {get : σ → W} {m : M σ ε α} {f : α → M σ ε β}
    {Q : α → Prop} (h : MovesOn B F get m) (hr : Returns m Q) (hf : ∀ a, Q a → MovesOn B F get (f a)) : MovesOn B F get (m >>= f) := by
  constructor
  intro s
  have hm := h.run s
  have hq := hr.run s
  rw [M.bind_def]
  generalize m s = r at hm hq
  obtain ⟨_ | _ | _ | _, t⟩ := r
  · exact hm.trans ((hf _ (hq _ rfl)).run t)
  · exact hm
  · exact hm
  · exact hm

theorem moves_rxRead {W : Type} {B : Bus W E} {F : U8 → U16 → List U8 → Prop} (c : RxCursor) :
    MovesOn B F (fun s => s.2) (c.read B) := by
  unfold RxCursor.read
  moves

theorem movesRecv_rawRead {W : Type} {B : Bus W E} (r : RawDevice) (fuel : Nat) :
    MovesOn B (RecvFrames r.rawSocket) (fun s => s.2) (r.readFrame B fuel) := by
  have h2 := moves_receiveSize (B := B) (RecvFrames r.rawSocket) r.rawSocket fuel
  have hcommit : ∀ c : RxCursor, c.sock = r.rawSocket → MovesOn B (RecvFrames r.rawSocket) id (c.commit B) := by
    intro c hc
    unfold RxCursor.commit
    rw [hc]
    exact .bind (.write (.rd _ _)) fun _ => .write .recv
  unfold RawDevice.readFrame
  refine MovesOn.bindR (.onSnd (get := id) ?_) (.onSnd (returns_rx_new ..)) fun c hc => ?_
  · unfold RxCursor.new Socket.getRxReadPointer
    moves
  split
  · exact .pure _
  · refine MovesOn.bindR (.onSnd (get := id) (.withLocal _ (moves_rxRead c)))
      (.onSnd (.withLocal _ (returns_rx_read ..))) fun x hx => ?_
    obtain ⟨⟨n', c'⟩, fb⟩ := x
    dsimp only at hx ⊢
    split
    · exact .panic
    · split
      · refine MovesOn.bindR ?_ (returns_rx_readUpto ..) fun y hy => ?_
        · unfold RxCursor.readUpto
          refine .bind .mget fun g => ?_
          dsimp only
          split
          · exact .withPrefix (get := id) _ (moves_rxRead c')
          · exact moves_rxRead c'
        refine .bind (.onSnd (get := id) (hcommit _ ?_)) fun _ => .pure _
        split
        · exact hy.trans (hx.trans hc)
        · exact hy.trans (hx.trans hc)
      · exact .panic

theorem hp_writeFrame (hw : Whole faults) {n : Nat} (hn : n < 8) (A : List U8) (r : RawDevice) (hr : r.rawSocket = sockOf n)
    (fuel : Nat) (frame : List U8) (b : Bool) :
    Hoare (At n (KeptP 4 A b)) (r.writeFrame (Chip.dev sched faults).bus fuel frame)
      (fun k => At n (KeptP 4 (A ++ frame.take k) true)) (At n (Some' 4 A frame)) := by
  have hm : (4 : Nat) = 2 ∨ 4 = 4 := .inr rfl
  have hexc : ∀ b c, At n (KeptP 4 A b) c → At n (Some' 4 A frame) c := fun b c h => .none h
  unfold RawDevice.writeFrame Socket.resetInterrupt TxCursor.new Socket.getTxFreeSize
  rw [hr]
  refine .pre (P := At n (KeptP 4 A false)) ?_ fun c h => keptP_false h
  refine .bind (.exc (hs_clearIr hn (stable_keptP hm A false) _ fun s i h => keptP_ir i h) (hexc _)) fun _ => ?_
  have hst : ∀ k, StableS (fun s => ∃ p, RoomP 4 A p k s) := fun k s a ⟨p, h⟩ => ⟨p, stable_roomP hm A p _ s a h⟩
  have hroom : ∀ k c, At n (fun s => ∃ p, RoomP 4 A p k s) c → At n (Some' 4 A frame) c := by
    rintro k c ⟨p, h⟩
    exact .none h.kept
  refine .bind (Q := fun d c => d.sock = sockOf n ∧ At n (RoomP 4 A d.ptr d.size.toNat) c)
    (.bind (.exc (hp_free hn hm A) (hexc _)) fun v => .bind (Q := fun p => At n (RoomP 4 A p v.toNat))
      ((hs_readMem hn (hst v.toNat) _ (.inl rfl)).conseq (fun _ h => h) ?_ (hroom _)) fun p => .pure fun c h => ⟨rfl, h⟩) fun d => ?_
  · rintro p c ⟨⟨q, h1, h2, h3⟩, h4⟩
    have : p = q := h4.trans h2
    subst this
    exact ⟨h1, h2, h3⟩
  obtain ⟨sk, ptr, size⟩ := d
  refine .fact fun hd => ?_
  dsimp only at hd
  subst hd
  dsimp only
  -- the frame as far as it is written
  have tail : ∀ wd : List U8, frame.take wd.length = wd → Hoare (At n fun s => RoomP 4 A ptr wd.length s ∧ ring s.txMem s.txSize ptr wd.length = wd)
      (do
        (TxCursor.mk (sockOf n) (ptr + BitVec.ofNat 16 wd.length) (size - BitVec.ofNat 16 wd.length)).commit (Chip.dev sched faults).bus
        RawDevice.waitSendOk (Chip.dev sched faults).bus (sockOf n) fuel
        pure wd.length) (fun k => At n (KeptP 4 (A ++ frame.take k) true)) (At n (Some' 4 A frame)) := by
    intro wd hwd
    have hexc2 : ∀ b c, At n (KeptP 4 (A ++ wd) b) c → At n (Some' 4 A frame) c := fun b c h =>
      ⟨wd.length, by rw [hwd]; exact keptP_false h⟩
    refine .bind (Q := fun _ => At n (KeptP 4 (A ++ wd) true)) (.bind
      (.exc (hp_advance hw hn hm A ptr wd) fun c h => h.elim (hexc _ c) (hexc2 _ c)) fun _ => .exc (hp_send hn hm _) (hexc2 _)) fun _ => ?_
    refine .bind (.exc (hs_waitSendOk hn (stable_keptP hm _ true) fuel) (hexc2 _)) fun _ => .pure fun c h => ?_
    rw [hwd]
    exact h
  unfold TxCursor.write TxCursor.available
  by_cases hfit : (frame.isEmpty || decide (frame.length > size.toNat)) = true
  · dsimp only
    rw [if_pos hfit]
    refine .bind (Q := fun x c => x = (0, ⟨sockOf n, ptr + BitVec.ofNat 16 ([] : List U8).length, size - BitVec.ofNat 16 ([] : List U8).length⟩) ∧
      At n (fun s => RoomP 4 A ptr ([] : List U8).length s ∧ ring s.txMem s.txSize ptr ([] : List U8).length = []) c)
      (.pure fun c h => ⟨?_, ⟨h.1, h.2.1, ?_⟩, rfl⟩) fun x => .fact fun hx => ?_
    · show _ = (0, TxCursor.mk (sockOf n) (ptr + 0#16) (size - 0#16))
      rw [BitVec.add_zero, BitVec.sub_zero]
    · have : (c.socks n).heldLen ptr + size.toNat ≤ (c.socks n).txSize := h.2.2
      show (c.socks n).heldLen ptr + 0 ≤ (c.socks n).txSize
      omega
    · subst hx
      exact tail [] rfl
  · dsimp only
    rw [if_neg hfit]
    have hf : frame.length ≤ size.toNat := by
      rw [Bool.or_eq_true, not_or] at hfit
      exact Nat.le_of_not_lt fun h => hfit.2 (decide_eq_true h)
    have hlen : (BitVec.ofNat 16 frame.length).toNat = frame.length := by
      rw [BitVec.toNat_ofNat]
      have := size.isLt
      omega
    unfold M.sliceTo
    rw [hlen, if_pos (Nat.le_refl _), List.take_length]
    refine .bind (Q := fun x c => x = (BitVec.ofNat 16 frame.length, ⟨sockOf n, ptr + BitVec.ofNat 16 frame.length,
        size - BitVec.ofNat 16 frame.length⟩) ∧
      At n (fun s => RoomP 4 A ptr frame.length s ∧ ring s.txMem s.txSize ptr frame.length = frame) c)
      (.bind (Q := fun x c => x = frame ∧ At n (RoomP 4 A ptr frame.length) c) (.pure fun c h => ⟨rfl, h.1, h.2.1, ?_⟩) fun x =>
        .fact fun hx => ?_) fun x => .fact fun hx => ?_
    · have : (c.socks n).heldLen ptr + size.toNat ≤ (c.socks n).txSize := h.2.2
      omega
    · subst hx
      exact .bind (.exc (hp_payload hn hm A ptr x) (hexc _)) fun _ => .pure fun c h => ⟨rfl, h⟩
    · subst hx
      have := tail frame List.take_length
      dsimp only
      rw [hlen]
      exact this

/-! ## Histories of MACRAW -/

theorem rawTalk_kept (hw : Whole faults) {r : RawDevice} (hr : r = ⟨sockOf 0⟩) {c c' : Chip} {S : List U8} {log : PktLog}
    (h : RawTalk sched faults r c log c') (h0 : At 0 (KeptP 4 S true) c) :
    ∃ bs, PktHanded log bs ∧ At 0 (KeptP 4 (S ++ bs) log.flushed) c' := by
  have hm : (4 : Nat) = 2 ∨ 4 = 4 := .inr rfl
  have h00 : (0 : Nat) < 8 := by decide
  have hs : r.rawSocket = sockOf 0 := by rw [hr]
  have mask : ∀ A b x, Hoare (At 0 (KeptP 4 A b)) (Socket.setInterruptMask (Chip.dev sched faults).bus (sockOf 0) x)
      (fun _ => At 0 (KeptP 4 A b)) (At 0 (KeptP 4 A b)) := by
    intro A b x
    unfold Socket.setInterruptMask
    exact .exc (hs_write1 h00 (stable_keptP hm A b) _ _ fun s h => keptP_mem x (by decide) h) fun _ h => h.elim id id
  have keep : ∀ {m : M Chip E Unit} {A b}, Hoare (At 0 (KeptP 4 A b)) m (fun _ => At 0 (KeptP 4 A b)) (At 0 (KeptP 4 A b)) →
      ∀ c, At 0 (KeptP 4 A b) c → At 0 (KeptP 4 A b) (m c).2 := by
    intro m A b h c hc
    have := h.run c hc
    generalize m c = x at this
    obtain ⟨_ | _ | _ | _, c'⟩ := x <;> exact this
  induction h with
  | start => exact ⟨[], .none, by simpa [PktLog.flushed] using h0⟩
  | @writeFrame log c1 fuel frame _ ih =>
    obtain ⟨bs, hb, hk⟩ := ih
    have := (hp_writeFrame (sched := sched) hw h00 (S ++ bs) r hs fuel frame log.flushed).run c1 hk
    rcases hr : r.writeFrame (Chip.dev sched faults).bus fuel frame c1 with ⟨x, c2⟩
    rw [hr] at this
    refine handed_step hb ?_
    cases x with
    | ok k =>
      have : At 0 (KeptP 4 (S ++ bs ++ frame.take k) true) c2 := this
      exact ⟨this.1, fun _ => this.2 rfl⟩
    | err e => exact this
    | panic => exact this
    | fuel => exact this
  | @readFrame log c1 fuel buf _ ih =>
    obtain ⟨bs, hb, hk⟩ := ih
    refine ⟨bs, hb, ?_⟩
    have := (movesRecv_rawRead (B := (Chip.dev sched faults).bus) r fuel).run (buf, c1)
    rw [hs] at this
    exact recv_keptP h00 hm this hk
  | @enable log c1 which _ ih =>
    obtain ⟨bs, hb, hk⟩ := ih
    subst hr
    exact ⟨bs, hb, keep (.bind (mask _ _ which) fun _ => raw_common (stable_keptP hm _ _) 1) _ hk⟩
  | @clear log c1 _ ih =>
    obtain ⟨bs, hb, hk⟩ := ih
    subst hr
    exact ⟨bs, hb, keep (hs_clearIr h00 (stable_keptP hm _ _) _ fun s i h => keptP_ir i h) _ hk⟩
  | @disable log c1 _ ih =>
    obtain ⟨bs, hb, hk⟩ := ih
    subst hr
    exact ⟨bs, hb, keep (.bind (raw_common (stable_keptP hm _ _) 0) fun _ => mask _ _ _) _ hk⟩
  | @pass log c1 c2 _ hp ih =>
    obtain ⟨bs, hb, hk⟩ := ih
    exact ⟨bs, hb, ((stable_keptP hm _ _).at 0) _ _ hp.evolves hk⟩

end W5500.Spec
