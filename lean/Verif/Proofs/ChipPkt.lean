import Verif.Spec.Packets
import Verif.Proofs.ChipTcp
/-! # Sending packets on the chip -/

namespace W5500.Spec
open W5500 socketn
variable {E ε α : Type} {sched : Nat → List (Nat × Act)} {faults : Nat → Option (E × Nat)}

/-! ## Pieces -/

theorem pieces_nil (z : Nat) : pieces z [] = [] := by rw [pieces, dif_pos (.inl rfl)]

theorem pieces_cons {z : Nat} (hz : z ≠ 0) {data : List U8} (h : data ≠ []) :
    pieces z data = data.take z :: pieces z (data.drop z) := by
  rw [pieces, dif_neg (fun e => e.elim h hz)]

theorem pieces_flatten {z : Nat} (hz : z ≠ 0) (data : List U8) : (pieces z data).flatten = data := by
  induction hl : data.length using Nat.strongRecOn generalizing data with
  | _ k ih =>
    by_cases h : data = []
    · subst h; rw [pieces_nil]; rfl
    · have := List.length_pos_iff.mpr h
      rw [pieces_cons hz h, List.flatten_cons, ih (data.drop z).length (by simp only [List.length_drop]; omega) _ rfl,
        List.take_append_drop]

theorem pieces_one {z : Nat} {data : List U8} (h : data ≠ []) (hl : data.length ≤ z) : pieces z data = [data] := by
  have := List.length_pos_iff.mpr h
  rw [pieces_cons (by omega) h, List.take_of_length_le hl, List.drop_of_length_le hl, pieces_nil]

theorem pieces_length {z : Nat} (hz : z ≠ 0) (data : List U8) :
    (pieces z data).length = (data.length + z - 1) / z := by
  induction hl : data.length using Nat.strongRecOn generalizing data with
  | _ k ih =>
    by_cases h : data = []
    · subst h
      rw [pieces_nil, ← hl]
      simp only [List.length_nil]
      exact (Nat.div_eq_of_lt (by omega)).symm
    · have := List.length_pos_iff.mpr h
      rw [pieces_cons hz h, List.length_cons, ih (data.drop z).length (by simp only [List.length_drop]; omega) _ rfl,
        List.length_drop, hl]
      by_cases hk : k ≤ z
      · rw [show k - z + z - 1 = z - 1 by omega, Nat.div_eq_of_lt (by omega), show k + z - 1 = (k - 1) + z by omega,
          Nat.add_div_right _ (by omega), Nat.div_eq_of_lt (by omega)]
      · rw [show k + z - 1 = (k - z + z - 1) + z by omega, Nat.add_div_right _ (by omega)]

theorem Carry.nil (d : List U8 × List U8) : Carry d [] [] := ⟨rfl, nofun⟩

theorem Carry.cons {d : List U8 × List U8} {ds : List (List U8)} {ps : List Packet} (h : Carry d ds ps)
    (x : List U8) (b : Bool) : Carry d (x :: ds) (⟨d.1, d.2, x, b⟩ :: ps) := by
  refine ⟨by rw [List.map_cons, h.1], ?_⟩
  intro p hp
  rcases List.mem_cons.mp hp with rfl | hp
  · exact ⟨rfl, rfl⟩
  · exact h.2 p hp

namespace Sock

/-- Packet mode, everything up to the last SEND transmitted; packets `K` left so far. -/
structure PktBase (m : Nat) (d : List U8 × List U8) (K : List Packet) (s : Sock) : Prop where
  mode : s.proto = m
  size : GoodSize s.txSize
  dst : s.dest = d
  rd : s.txRd = s.txLimit
  una : s.una = s.txLimit
  out : s.packets = K

theorem PktBase.txBase {m : Nat} {d : List U8 × List U8} {K : List Packet} {s : Sock} (h : PktBase m d K s) :
    TxBase s := by
  refine ⟨h.size, ?_⟩
  rw [h.rd, h.una, BitVec.sub_self]
  exact Nat.zero_le _

theorem PktBase.used {m : Nat} {d : List U8 × List U8} {K : List Packet} {s : Sock} (h : PktBase m d K s) :
    s.used = 0 := by
  unfold Sock.used
  rw [h.una, BitVec.sub_self]
  rfl

theorem act_dest (s : Sock) (a : Act) : (s.act a).dest = s.dest := by unfold dest; rw [act_mem]

theorem act_idle {s : Sock} (h1 : s.proto ≠ 1) (h2 : s.txRd = s.txLimit) (a : Act) :
    (s.act a).txRd = s.txRd ∧ (s.act a).una = s.una ∧ (s.act a).packets = s.packets ∧ (s.act a).owed &&& s.owed = (s.act a).owed := by
  have hid : s.owed &&& s.owed = s.owed := BitVec.and_self
  cases a with
  | arrive bs => simp only [act, if_neg h1]; exact ⟨trivial, trivial, trivial, hid⟩
  | datagram dg =>
    simp only [act]; split
    · refine ⟨push_txRd _ _, push_una _ _, push_packets _ _, ?_⟩
      unfold push; split <;> exact hid
    · exact ⟨rfl, rfl, rfl, hid⟩
  | frame f =>
    simp only [act]; split
    · refine ⟨push_txRd _ _, push_una _ _, push_packets _ _, ?_⟩
      unfold push; split <;> exact hid
    · exact ⟨rfl, rfl, rfl, hid⟩
  | transmit k => simp only [act, if_neg h1]; exact ⟨trivial, trivial, trivial, hid⟩
  | ack k => simp only [act, if_neg h1]; exact ⟨trivial, trivial, trivial, hid⟩
  | emit b =>
    simp only [act]
    rw [if_neg (fun h => h.2 h2)]
    exact ⟨rfl, rfl, rfl, hid⟩
  | raise b =>
    refine ⟨rfl, rfl, rfl, ?_⟩
    show s.owed &&& ~~~b &&& s.owed = s.owed &&& ~~~b
    rw [BitVec.and_comm, ← BitVec.and_assoc, BitVec.and_self]
  | status x => exact ⟨rfl, rfl, rfl, hid⟩

theorem stable_pktBase {m : Nat} (hm : m ≠ 1) (d : List U8 × List U8) (K : List Packet) :
    StableS (PktBase m d K) := by
  intro s a h
  obtain ⟨h1, h2, h3, _⟩ := act_idle (by rw [h.mode]; exact hm) h.rd a
  exact ⟨by rw [act_proto]; exact h.mode, by rw [act_txSize]; exact h.size, by rw [act_dest]; exact h.dst,
    by rw [h1, act_txLimit]; exact h.rd, by rw [h2, act_txLimit]; exact h.una, by rw [h3]; exact h.out⟩

theorem frame_pktBase {m : Nat} (hm : m ≠ 1) (d : List U8 × List U8) (K : List Packet) : TxFrame (PktBase m d K) where
  stable := stable_pktBase hm d K
  base _ h := h.txBase
  pokeTx s a x h _ := ⟨h.mode, h.size, h.dst, h.rd, h.una, h.out⟩
  pokeWr s a x ha h := by
    rw [pokeWr_eq s x ha]
    rcases ha with rfl | rfl <;> exact ⟨h.mode, h.size, h.dst, h.rd, h.una, h.out⟩

/-- `data` was committed with SEND at pointer `p`: either it left as one packet, or it is waiting. -/
structure PktSent (m : Nat) (d : List U8 × List U8) (K : List Packet) (p : U16) (data : List U8) (s : Sock) : Prop where
  mode : s.proto = m
  size : GoodSize s.txSize
  dst : s.dest = d
  una : s.una = s.txRd
  lim : s.txLimit = p + BitVec.ofNat 16 data.length
  wr : s.txWr = s.txLimit
  len : 0 < data.length ∧ data.length ≤ 16384
  out : (s.txRd = s.txLimit ∧ ∃ b, s.packets = K ++ [⟨d.1, d.2, data, b⟩]) ∨
    (s.txRd = p ∧ s.packets = K ∧ s.pending = data)

theorem advanced_ne {p : U16} {k : Nat} (h : 0 < k ∧ k ≤ 16384) : p ≠ p + BitVec.ofNat 16 k := by
  intro e
  have := congrArg BitVec.toNat e
  simp only [BitVec.toNat_add, BitVec.toNat_ofNat] at this
  have := p.isLt
  omega

theorem act_pending_same {s : Sock} {a : Act} (h : (s.act a).txRd = s.txRd) : (s.act a).pending = s.pending := by
  unfold pending
  rw [act_txMem, act_txSize, act_txLimit, h]

theorem stable_pktSent {m : Nat} (hm : m = 2 ∨ m = 4) (d : List U8 × List U8) (K : List Packet) (p : U16) (data : List U8) :
    StableS (PktSent m d K p data) := by
  intro s a h
  have hm1 : s.proto ≠ 1 := by rw [h.mode]; omega
  -- what stays
  have keep : (s.act a).una = (s.act a).txRd →
      (((s.act a).txRd = (s.act a).txLimit ∧ ∃ b, (s.act a).packets = K ++ [⟨d.1, d.2, data, b⟩]) ∨
        ((s.act a).txRd = p ∧ (s.act a).packets = K ∧ (s.act a).pending = data)) → PktSent m d K p data (s.act a) :=
    fun h1 h2 => ⟨by rw [act_proto]; exact h.mode, by rw [act_txSize]; exact h.size, by rw [act_dest]; exact h.dst, h1,
      by rw [act_txLimit]; exact h.lim, by rw [act_txWr, act_txLimit]; exact h.wr, h.len, h2⟩
  rcases h.out with ⟨o1, o2⟩ | ⟨o1, o2, o3⟩
  · obtain ⟨h1, h2, h3, _⟩ := act_idle hm1 o1 a
    exact keep (by rw [h1, h2]; exact h.una) (.inl ⟨by rw [h1, act_txLimit]; exact o1, by rw [h3]; exact o2⟩)
  · have same : (s.act a).txRd = s.txRd → (s.act a).una = s.una → (s.act a).packets = s.packets →
        PktSent m d K p data (s.act a) := fun h1 h2 h3 =>
      keep (by rw [h1, h2]; exact h.una) (.inr ⟨by rw [h1]; exact o1, by rw [h3]; exact o2,
        by rw [act_pending_same h1]; exact o3⟩)
    cases a with
    | arrive bs => apply same <;> simp only [act, if_neg hm1]
    | datagram dg => apply same <;> simp only [act] <;> split <;> first | rfl | exact push_txRd _ _ | exact push_una _ _ | exact push_packets _ _
    | frame f => apply same <;> simp only [act] <;> split <;> first | rfl | exact push_txRd _ _ | exact push_una _ _ | exact push_packets _ _
    | transmit k => apply same <;> simp only [act, if_neg hm1]
    | ack k => apply same <;> simp only [act, if_neg hm1]
    | emit b =>
      have hne : s.txRd ≠ s.txLimit := by rw [o1, h.lim]; exact advanced_ne h.len
      have hc : (s.proto = 2 ∨ s.proto = 4) ∧ s.txRd ≠ s.txLimit := ⟨by rw [h.mode]; exact hm, hne⟩
      have he : s.act (.emit b) = { s with
        packets := s.packets ++
          [{ ip := [s.mem 0x0C, s.mem 0x0D, s.mem 0x0E, s.mem 0x0F], port := [s.mem 0x10, s.mem 0x11],
             data := s.pending, delivered := b }]
        sources := s.sources ++ [[s.mem 0x04, s.mem 0x05]]
        txRd := s.txLimit
        una := s.txLimit
        owed := s.owed ||| (if b then 0x10 else 0x08) } := by simp only [act, if_pos hc]
      refine keep (by rw [he]) (.inl ⟨by rw [he], b, ?_⟩)
      rw [he, ← h.dst]
      show s.packets ++ _ = _
      rw [o2, o3]
      rfl
    | raise b => exact same rfl rfl rfl
    | status x => exact same rfl rfl rfl

/-- Nothing is waiting any more exactly if Sn_TX_RD reached Sn_TX_WR. -/
theorem PktSent.done {m : Nat} {d : List U8 × List U8} {K : List Packet} {p : U16} {data : List U8} {s : Sock}
    (h : PktSent m d K p data s) (he : s.txRd = s.txLimit) : ∃ b, PktBase m d (K ++ [⟨d.1, d.2, data, b⟩]) s := by
  rcases h.out with ⟨_, b, o⟩ | ⟨o, _⟩
  · exact ⟨b, h.mode, h.size, h.dst, he, by rw [h.una]; exact he, o⟩
  · exact absurd (o.symm.trans (he.trans h.lim)) (advanced_ne h.len)

/-- SEND. -/
theorem send_pkt {m : Nat} {d : List U8 × List U8} {K : List Packet} {s : Sock} {p : U16} {data : List U8}
    (h : PktBase m d K s) (hl : data ≠ []) (hw : s.txWr = p + BitVec.ofNat 16 data.length)
    (hp : s.txLimit = p) (hf : s.used + data.length ≤ s.txSize)
    (hr : ring s.txMem s.txSize p data.length = data) : PktSent m d K p data (s.command 0x20) := by
  obtain ⟨b1, b2, b3⟩ := send_base h.txBase hw hp hf hr
  have hz := h.size.le
  have hpend : s.pending = [] := by
    unfold pending
    rw [h.rd, BitVec.sub_self]; rfl
  refine ⟨h.mode, h.size, h.dst, ?_, hw, rfl, ⟨List.length_pos_iff.mpr hl, by omega⟩, .inr ⟨?_, h.out, ?_⟩⟩
  · show s.una = s.txRd
    rw [h.una, h.rd]
  · show s.txRd = p
    rw [h.rd, hp]
  · rw [b3, hpend, List.nil_append]

/-- Register writes outside the TX registers, and commands other than OPEN and SEND. -/
theorem PktBase.ir {m : Nat} {d : List U8 × List U8} {K : List Packet} {s : Sock} (h : PktBase m d K s) (i : U8) :
    PktBase m d K { s with ir := i } := ⟨h.mode, h.size, h.dst, h.rd, h.una, h.out⟩

theorem PktSent.ir {m : Nat} {d : List U8 × List U8} {K : List Packet} {p : U16} {data : List U8} {s : Sock}
    (h : PktSent m d K p data s) (i : U8) : PktSent m d K p data { s with ir := i } :=
  ⟨h.mode, h.size, h.dst, h.una, h.lim, h.wr, h.len, h.out⟩

theorem RxReady.ir {A : List U8} {s : Sock} (h : RxReady A s) (i : U8) : RxReady A { s with ir := i } :=
  ⟨⟨h.core.size, h.core.fits, h.core.arrived⟩, h.reg⟩

theorem RxReady.send {A : List U8} {s : Sock} (h : RxReady A s) : RxReady A (s.command 0x20) :=
  ⟨⟨h.core.size, h.core.fits, h.core.arrived⟩, h.reg⟩

/-- What is known when a transmission of `ds` ended in any way: a prefix of the packets has left. -/
def Ended (m : Nat) (d : List U8 × List U8) (K : List Packet) (ds : List (List U8)) (A : List U8) (s : Sock) : Prop :=
  ∃ ds' ps, ds' <+: ds ∧ Carry d ds' ps ∧ s.packets = K ++ ps ∧
    (s.txRd = s.txWr → PktBase m d (K ++ ps) s ∧ s.txWr = s.txLimit ∧ RxReady A s)

theorem Ended.base {m : Nat} {d : List U8 × List U8} {K : List Packet} {ds : List (List U8)} {A : List U8} {s : Sock}
    (h : PktBase m d K s) (hr : RxReady A s) : Ended m d K ds A s :=
  ⟨[], [], List.nil_prefix, .nil d, by rw [List.append_nil]; exact h.out,
    fun e => ⟨by rw [List.append_nil]; exact h, e.symm.trans h.rd, hr⟩⟩

theorem Ended.sent {m : Nat} {d : List U8 × List U8} {K : List Packet} {p : U16} {data : List U8}
    {ds : List (List U8)} {A : List U8} {s : Sock} (h : PktSent m d K p data s) (hr : RxReady A s) :
    Ended m d K (data :: ds) A s := by
  by_cases he : s.txRd = s.txLimit
  · obtain ⟨b, hb⟩ := h.done he
    exact ⟨[data], [⟨d.1, d.2, data, b⟩], ⟨ds, rfl⟩, (Carry.nil d).cons _ _, hb.out, fun _ => ⟨hb, h.wr, hr⟩⟩
  · rcases h.out with ⟨o, _⟩ | ⟨_, o, _⟩
    · exact absurd o he
    · exact ⟨[], [], List.nil_prefix, .nil d, by rw [List.append_nil]; exact o,
        fun e => absurd (e.trans h.wr) he⟩

end Sock
end W5500.Spec
