import Verif.Proofs.ChipTcp
/-! # Opening sockets on the chip -/

namespace W5500.Spec
open W5500 socketn Sock
variable {E ε α : Type} {sched : Nat → List (Nat × Act)} {faults : Nat → Option (E × Nat)}

/-- Registers that just keep what the host writes. -/
def plain (a : U16) : Bool :=
  !(a = 0x01 || a = 0x02 || a = 0x03 || a = 0x20 || a = 0x21 || a = 0x22 || a = 0x23 || a = 0x26 || a = 0x27 ||
    a = 0x2A || a = 0x2B)

/-- The effect of writing such a register. -/
def Sock.setMem (s : Sock) (a : U16) (x : U8) : Sock := { s with mem := fun b => if b = a then x else s.mem b }

theorem poke_plain {a : U16} (h : plain a = true) (s : Sock) (x : U8) : s.pokeReg a x = s.setMem a x := by
  simp only [plain, Bool.not_eq_true', Bool.or_eq_false_iff, decide_eq_false_iff_not] at h
  obtain ⟨⟨⟨⟨⟨⟨⟨⟨⟨⟨h1, h2⟩, h3⟩, h4⟩, h5⟩, h6⟩, h7⟩, h8⟩, h9⟩, h10⟩, h11⟩ := h
  unfold Sock.pokeReg
  rw [if_neg h1, if_neg h2, if_neg]
  · rfl
  · rintro (h | h | h | h | h | h | h | h | h) <;> contradiction

/-- The bytes `d` are stored at `a`, `a + 1`, …. -/
def Stored (m : U16 → U8) (a : U16) (d : List U8) : Prop := ∀ j (h : j < d.length), m (a + BitVec.ofNat 16 j) = d[j]

theorem addr_inj {a : U16} {i j : Nat} (hi : i < 65536) (hj : j < 65536)
    (h : a + BitVec.ofNat 16 i = a + BitVec.ofNat 16 j) : i = j := by
  have := congrArg BitVec.toNat h
  simp only [BitVec.toNat_add, BitVec.toNat_ofNat] at this
  omega

/-- Writing plain registers keeps a predicate that does not depend on them, and stores the data. -/
theorem hs_store {n : Nat} (hn : n < 8) {P : Sock → Prop} (hP : StableS P) (a : U16) (data : List U8)
    (hl : data.length < 65536) (hpl : ∀ i, i < data.length → plain (a + BitVec.ofNat 16 i) = true)
    (hkeep : ∀ s i x, i < data.length → P s → P (s.setMem (a + BitVec.ofNat 16 i) x)) :
    Hoare (At n P) ((Chip.dev sched faults).bus.write (sockOf n).register a data)
      (fun _ => At n fun s => P s ∧ Stored s.mem a data) (At n P) := by
  have := hs_write (sched := sched) (faults := faults) hn
    (I := fun i s => P s ∧ ∀ j (h : j < data.length), j < i → s.mem (a + BitVec.ofNat 16 j) = data[j]) a data
    (fun i _ _ => hP.and (stable_mem fun m => ∀ j (h : j < data.length), j < i → m (a + BitVec.ofNat 16 j) = data[j]))
    (by
      rintro i hi s ⟨h1, h2⟩
      rw [poke_plain (hpl i hi)]
      refine ⟨hkeep s i _ hi h1, fun j hj hji => ?_⟩
      show (if _ then _ else _) = _
      by_cases hij : j = i
      · subst hij
        rw [if_pos rfl]
      · rw [if_neg (fun e => hij (addr_inj (by omega) (by omega) e))]
        exact h2 j hj (by omega))
  refine this.conseq (fun c h => ⟨h, fun j _ h => absurd h (Nat.not_lt_zero _)⟩)
    (fun _ c h => ⟨h.1, fun j hj => h.2 j hj hj⟩) (fun c ⟨i, _, h⟩ => h.1)

/-- Register contents at offset `o`, read as in the datasheet. -/
def Mem16 (m : U16 → U8) (a : U16) (v : U16) : Prop := (m a ++ m (a + 1) : BitVec (8 + 8)) = v

theorem stored_be {m : U16 → U8} {a v : U16} (h : Stored m a (toBeBytes v)) : Mem16 m a v := by
  have h0 := h 0 (by simp [toBeBytes])
  have h1 := h 1 (by simp [toBeBytes])
  simp only [toBeBytes, List.getElem_cons_zero, List.getElem_cons_succ, BitVec.add_zero] at h0 h1
  unfold Mem16
  rw [h0, show a + 1 = a + BitVec.ofNat 16 1 from rfl, h1]
  exact whole v

theorem connecting_cases (s : Sock) : s.connecting = s ∨ s.proto = 1 ∧ ∃ p q, s.connecting = s.restart p q := by
  unfold Sock.connecting
  split
  · rename_i p q h1 h2; exact .inr ⟨h1, p, q, rfl⟩
  · exact .inl rfl

/-- A predicate on the host registers, kept by a command that does not start the pointers anew. -/
theorem hs_commandMem {n : Nat} (hn : n < 8) (T : (U16 → U8) → Prop) (c : Command) (hc : c ≠ .open) (hc' : c ≠ .connect) :
    Hoare (At n fun s => T s.mem) (Socket.command (Chip.dev sched faults).bus (sockOf n) c)
      (fun _ => At n fun s => T s.mem) (At n fun s => T s.mem) := by
  refine (hs_write1 (Q := fun s => T s.mem) hn (stable_mem T) _ _ (fun s h => ?_)).exc (fun _ h => h.elim id id)
  cases c <;> first | exact absurd rfl hc | exact absurd rfl hc' | exact h

/-- Interrupt flags do not matter to the host registers. -/
theorem hs_clearMem {n : Nat} (hn : n < 8) (T : (U16 → U8) → Prop) (x : U8) :
    Hoare (At n fun s => T s.mem) ((Chip.dev sched faults).bus.write (sockOf n).register INTERRUPT [x])
      (fun _ => At n fun s => T s.mem) (At n fun s => T s.mem) :=
  hs_clearIr hn (stable_mem T) x (fun _ _ h => h)

/-- Storing plain registers under a predicate on the host registers. -/
theorem hs_storeMem {n : Nat} (hn : n < 8) (T : (U16 → U8) → Prop) (a : U16) (data : List U8)
    (hl : data.length < 65536) (hpl : ∀ i, i < data.length → plain (a + BitVec.ofNat 16 i) = true)
    (hkeep : ∀ m i x, i < data.length → T m → T (fun b => if b = a + BitVec.ofNat 16 i then x else m b)) :
    Hoare (At n fun s => T s.mem) ((Chip.dev sched faults).bus.write (sockOf n).register a data)
      (fun _ => At n fun s => T s.mem ∧ Stored s.mem a data) (At n fun s => T s.mem) :=
  hs_store hn (stable_mem T) a data hl hpl (fun s i x hi h => hkeep s.mem i x hi h)

theorem index_two {data : List U8} (h2 : data.length = 2) {i : Nat} (hi : i < data.length) : i = 0 ∨ i = 1 := by omega
theorem index_one {data : List U8} (h1 : data.length = 1) {i : Nat} (hi : i < data.length) : i = 0 := by omega

/-! ## TCP -/

/-- A TCP socket on which nothing was sent since OPEN: everything transmitted before is `S`. -/
def Fresh (S A : List U8) (s : Sock) : Prop := TcpIdle S A s ∧ s.used = 0

theorem stable_fresh (S A : List U8) : StableS (Fresh S A) := fun s a h =>
  ⟨stable_tcpIdle S A s a h.1, Nat.le_zero.mp (h.2 ▸ (act_txBase h.1.tx.base a).2)⟩

theorem Fresh.stream {S A : List U8} {s : Sock} (h : Fresh S A s) : s.stream = S ∧ s.pending = [] := by
  have hp : s.pending = [] := by
    unfold pending
    have := h.1.tx.base.used_eq
    rw [h.2] at this
    rw [show (s.txLimit - s.txRd).toNat = 0 by omega]
    rfl
  have := h.1.tx.out
  rw [hp, List.append_nil] at this
  exact ⟨this, hp⟩

theorem U16.halves (p : U16) : (p.extractLsb' 8 8 ++ p.extractLsb' 0 8 : BitVec (8 + 8)) = p := whole p

/-- Pointers that start anew in TCP mode. -/
theorem restart_fresh {s : Sock} (hz : SizesOk s.mem) (hp : s.proto = 1) (p q : U16) (x : U8) :
    Fresh s.stream s.arrived { s.restart p q with sr := x } := by
  have hsz : ({ s.restart p q with sr := x } : Sock).txSize = s.txSize := rfl
  have hrz : ({ s.restart p q with sr := x } : Sock).rxSize = s.rxSize := rfl
  have hpend : ({ s.restart p q with sr := x } : Sock).pending = [] := by
    unfold pending
    show ring _ _ _ (p - p).toNat = []
    rw [BitVec.sub_self]; rfl
  have hq : ({ s.restart p q with sr := x } : Sock).queue = [] := by
    unfold queue
    show ring _ _ _ (q - q).toNat = []
    rw [BitVec.sub_self]; rfl
  refine ⟨⟨⟨?_, ⟨?_, ?_⟩, ?_⟩, ⟨⟨?_, ?_, ?_⟩, ?_⟩, ?_⟩, ?_⟩
  · exact hp
  · rw [hsz]; exact hz.1
  · show (p - p).toNat + (p - p).toNat ≤ _
    rw [BitVec.sub_self]; simp
  · rw [hpend, List.append_nil]; rfl
  · rw [hrz]; exact hz.2
  · show (q - q).toNat ≤ _
    rw [BitVec.sub_self]; simp
  · rw [hq, List.append_nil]; rfl
  · exact U16.halves q
  · exact U16.halves p
  · show (p - p).toNat = 0
    rw [BitVec.sub_self]; rfl

/-- OPEN in TCP mode. -/
theorem open_fresh {s : Sock} (hz : SizesOk s.mem) (hp : s.proto = 1) : ∃ S A, Fresh S A (s.command 0x01) :=
  ⟨_, _, restart_fresh hz hp _ _ _⟩

/-- What the plain registers outside `0x1E`, `0x1F` do not influence. -/
theorem sizes_keep {m : U16 → U8} (h : SizesOk m) (a : U16) (x : U8) (ha : a ≠ 0x1E) (hb : a ≠ 0x1F) :
    SizesOk (fun b => if b = a then x else m b) := by
  unfold SizesOk
  dsimp only
  rw [if_neg (Ne.symm ha), if_neg (Ne.symm hb)]
  exact h

/-- Equal but for the pointers. -/
def Same (m m' : U16 → U8) : Prop := ∀ b, b ≠ 0x24 → b ≠ 0x25 → b ≠ 0x28 → b ≠ 0x29 → m' b = m b

theorem Mem16.same {m m' : U16 → U8} {a v : U16} (h : Mem16 m a v) (e : Same m m')
    (ha : (a ≠ 0x24 ∧ a ≠ 0x25 ∧ a ≠ 0x28 ∧ a ≠ 0x29) ∧ a + 1 ≠ 0x24 ∧ a + 1 ≠ 0x25 ∧ a + 1 ≠ 0x28 ∧ a + 1 ≠ 0x29) :
    Mem16 m' a v := by
  unfold Mem16 at *
  rw [e _ ha.1.1 ha.1.2.1 ha.1.2.2.1 ha.1.2.2.2, e _ ha.2.1 ha.2.2.1 ha.2.2.2.1 ha.2.2.2.2]; exact h

theorem same_restart (s : Sock) (p q : U16) : Same s.mem (s.restart p q).mem := fun b h1 h2 h3 h4 => by
  show (if b = 0x24 then _ else if b = 0x25 then _ else if b = 0x28 then _ else if b = 0x29 then _ else s.mem b) = _
  rw [if_neg h1, if_neg h2, if_neg h3, if_neg h4]

theorem Same.rfl {m : U16 → U8} : Same m m := fun _ _ _ _ _ => Eq.refl _

/-- A command leaves the registers but the pointers. -/
theorem same_command (s : Sock) (x : U8) : Same s.mem (s.command x).mem := by
  have h : Same s.mem s.connecting.mem := by
    rcases connecting_cases s with e | ⟨_, p, q, e⟩ <;> rw [e]
    · exact .rfl
    · exact same_restart s p q
  unfold Sock.command
  repeat' split
  all_goals first | exact h | exact same_restart s _ _ | exact .rfl

/-- The part of `open`/`reopen` from the mode register on: sizes known, ends in a fresh TCP socket. -/
theorem tcp_openTail {n : Nat} (hn : n < 8) (T : (U16 → U8) → Prop) (hT : ∀ m x, T m → T (fun b => if b = 0 then x else m b))
    (hT' : ∀ m x, T m → T (fun b => if b = 0x2C then x else m b))
    (hT'' : ∀ m m', T m → Same m m' → T m') (x : U8) :
    Hoare (At n fun s => SizesOk s.mem ∧ T s.mem) (do
        Socket.setMode (Chip.dev sched faults).bus (sockOf n) .tcp
        Socket.setInterruptMask (Chip.dev sched faults).bus (sockOf n) x
        Socket.command (Chip.dev sched faults).bus (sockOf n) .open)
      (fun _ => At n fun s => (∃ S A, Fresh S A s) ∧ T s.mem) (fun _ => True) := by
  refine .bind (.exc (hs_storeMem hn (fun m => SizesOk m ∧ T m) _ _ (by simp) ?_ ?_) fun _ _ => trivial) fun _ => ?_
  · intro i hi
    obtain rfl := index_one (by rfl) hi
    rfl
  · intro m i x hi h
    obtain rfl := index_one (by rfl) hi
    exact ⟨sizes_keep h.1 _ _ (by decide) (by decide), hT m x h.2⟩
  refine .bind (.exc (.pre (hs_storeMem hn (fun m => (SizesOk m ∧ T m) ∧ m 0 = 1) _ _ (by simp) ?_ ?_) fun c h => ?_)
    fun _ _ => trivial) fun _ => ?_
  · intro i hi
    obtain rfl := index_one (by rfl) hi
    rfl
  · intro m i x hi h
    obtain rfl := index_one (by rfl) hi
    refine ⟨⟨sizes_keep h.1.1 _ _ (by decide) (by decide), hT' m x h.1.2⟩, ?_⟩
    exact h.2
  · exact ⟨h.1, h.2 0 (by simp)⟩
  have hst : StableS (fun s => ((SizesOk s.mem ∧ T s.mem) ∧ s.mem 0 = 1)) :=
    stable_mem (fun m => (SizesOk m ∧ T m) ∧ m 0 = 1)
  refine .exc (.pre (hs_write1 hn hst _ _ (fun s h => ⟨open_fresh h.1.1 ?_, hT'' _ _ h.1.2 (same_restart s _ _)⟩)) fun c h => h.1)
    fun _ _ => trivial
  show (s.mem 0).toNat % 16 = 1
  rw [h.2]; rfl

/-- `TcpSocket::reopen` -/
theorem tcp_reopen {n : Nat} (hn : n < 8) (T : (U16 → U8) → Prop) (hT : ∀ m x, T m → T (fun b => if b = 0 then x else m b))
    (hT' : ∀ m x, T m → T (fun b => if b = 0x2C then x else m b))
    (hT'' : ∀ m m', T m → Same m m' → T m') :
    Hoare (At n fun s => SizesOk s.mem ∧ T s.mem)
      (TcpSocket.reopen (Chip.dev sched faults).bus ⟨sockOf n⟩)
      (fun _ => At n fun s => (∃ S A, Fresh S A s) ∧ T s.mem) (fun _ => True) := by
  unfold TcpSocket.reopen
  refine .mapErr ?_
  refine .bind (.exc (hs_commandMem hn (fun m => SizesOk m ∧ T m) _ (by decide) (by decide)) fun _ _ => trivial) fun _ => ?_
  refine .bind (.exc (hs_clearMem hn (fun m => SizesOk m ∧ T m) _) fun _ _ => trivial) fun _ => ?_
  exact tcp_openTail hn T hT hT' hT'' _

/-- `TcpSocket::open` -/
theorem tcp_open {n : Nat} (hn : n < 8) (port : U16) :
    Hoare (At n fun s => SizesOk s.mem)
      (TcpSocket.open (Chip.dev sched faults).bus ⟨sockOf n⟩ port)
      (fun _ => At n fun s => (∃ S A, Fresh S A s) ∧ Mem16 s.mem 0x04 port) (fun _ => True) := by
  unfold TcpSocket.open
  refine .mapErr ?_
  refine .bind (.exc (hs_commandMem hn SizesOk _ (by decide) (by decide)) fun _ _ => trivial) fun _ => ?_
  refine .bind (.exc (hs_clearMem hn SizesOk _) fun _ _ => trivial) fun _ => ?_
  refine .bind (.exc (hs_storeMem hn SizesOk _ _ (by simp [toBeBytes]) ?_ ?_) fun _ _ => trivial) fun _ => ?_
  · intro i hi
    rcases index_two (by rfl) hi with rfl | rfl <;> rfl
  · intro m i x hi h
    rcases index_two (by rfl) hi with rfl | rfl
    all_goals exact sizes_keep h _ _ (by decide) (by decide)
  refine .pre (tcp_openTail hn (fun m => Mem16 m 0x04 port) ?_ ?_ ?_ _) (fun c h => ⟨h.1, stored_be h.2⟩)
  · intro m x h; exact h
  · intro m x h; exact h
  · exact fun m m' h e => h.same e (by decide)

/-- `TcpSocket::socket_close` -/
theorem tcp_close {n : Nat} (hn : n < 8) (T : (U16 → U8) → Prop) (hT : ∀ m x, T m → T (fun b => if b = 0 then x else m b)) :
    Hoare (At n fun s => T s.mem) (TcpSocket.socketClose (Chip.dev sched faults).bus ⟨sockOf n⟩)
      (fun _ => At n fun s => T s.mem) (fun _ => True) := by
  unfold TcpSocket.socketClose
  refine .mapErr (.bind (.exc (hs_storeMem hn T _ _ (by simp) ?_ ?_) fun _ _ => trivial) fun _ => ?_)
  · intro i hi
    obtain rfl := index_one (by rfl) hi
    rfl
  · intro m i x hi h
    obtain rfl := index_one (by rfl) hi
    exact hT m x h
  · exact .exc (.pre (hs_commandMem hn T _ (by decide) (by decide)) fun c h => h.1) fun _ _ => trivial

/-- The destination and source port registers. -/
structure Endpoint (port : U16) (remote : SockAddr4) (m : U16 → U8) : Prop where
  src : Mem16 m 0x04 port
  ip : Stored m 0x0C remote.ip.octets
  dst : Mem16 m 0x10 remote.port

theorem octets_index {ip : Ipv4} {i : Nat} (h : i < ip.octets.length) : i = 0 ∨ i = 1 ∨ i = 2 ∨ i = 3 := by
  simp [Ipv4.octets] at h; omega

theorem Endpoint.same {port : U16} {remote : SockAddr4} {m m' : U16 → U8} (h : Endpoint port remote m) (e : Same m m') :
    Endpoint port remote m' := by
  obtain ⟨h1, h2, h3⟩ := h
  refine ⟨h1.same e (by decide), fun i hi => ?_, h3.same e (by decide)⟩
  rcases octets_index hi with rfl | rfl | rfl | rfl
  all_goals exact (e _ (by decide) (by decide) (by decide) (by decide)).trans (h2 _ hi)

theorem Fresh.sizes {S A : List U8} {s : Sock} (h : Fresh S A s) : SizesOk s.mem :=
  ⟨h.1.tx.base.size, h.1.rx.core.size⟩

/-- A fresh socket stays fresh when a register that has nothing to do with the buffers is written. -/
theorem Fresh.setMem {S A : List U8} {s : Sock} (h : Fresh S A s) (a : U16) (x : U8)
    (ha : a ∉ ([0x00, 0x1E, 0x1F, 0x24, 0x25, 0x28, 0x29] : List U16)) : Fresh S A (s.setMem a x) := by
  simp only [List.mem_cons, List.not_mem_nil, or_false, not_or] at ha
  obtain ⟨h0, h1, h2, h3, h4, h5, h6⟩ := ha
  have hm : ∀ b : U16, b ≠ a → (s.setMem a x).mem b = s.mem b := fun b hb => if_neg hb
  have e1 : (s.setMem a x).proto = s.proto := by unfold proto; rw [hm _ (Ne.symm h0)]
  have e2 : (s.setMem a x).txSize = s.txSize := by unfold txSize; rw [hm _ (Ne.symm h2)]
  have e3 : (s.setMem a x).rxSize = s.rxSize := by unfold rxSize; rw [hm _ (Ne.symm h1)]
  have e4 : (s.setMem a x).txWr = s.txWr := by
    unfold txWr reg16
    rw [hm _ (Ne.symm h3), hm (0x24 + 1) (Ne.symm h4)]
  have e5 : (s.setMem a x).rxRdReg = s.rxRdReg := by
    unfold rxRdReg reg16
    rw [hm _ (Ne.symm h5), hm (0x28 + 1) (Ne.symm h6)]
  obtain ⟨⟨⟨t1, ⟨t2, t3⟩, t4⟩, ⟨⟨r1, r2, r3⟩, r4⟩, i⟩, u⟩ := h
  refine ⟨⟨⟨e1.trans t1, ⟨e2 ▸ t2, e2 ▸ t3⟩, ?_⟩, ⟨⟨e3 ▸ r1, e3 ▸ r2, ?_⟩, e5.trans r4⟩, e4.trans i⟩, u⟩
  · rw [← t4]
    unfold pending
    rw [e2]
    rfl
  · show s.arrived = _
    rw [r3]
    unfold queue
    rw [e3]
    rfl

/-- `TcpClientStack::connect`: a successful call leaves a TCP socket in working order, with the requested endpoint
programmed. -/
theorem tcp_connect {n : Nat} (hn : n < 8) (fuel : Nat) (port : U16) (remote : SockAddr4) :
    Hoare (At n fun s => SizesOk s.mem)
      (do TcpSocket.open (Chip.dev sched faults).bus ⟨sockOf n⟩ port
          TcpSocket.socketConnect (Chip.dev sched faults).bus fuel ⟨sockOf n⟩ remote)
      (fun _ => At n fun s => (∃ S A, Fresh S A s) ∧ Endpoint port remote s.mem) (fun _ => True) := by
  refine .bind (tcp_open hn port) fun _ => ?_
  have hfr : ∀ T : (U16 → U8) → Prop, StableS (fun s => (∃ S A, Fresh S A s) ∧ T s.mem) := by
    rintro T s a ⟨⟨S, A, h⟩, h'⟩
    exact ⟨⟨S, A, stable_fresh S A s a h⟩, by rw [act_mem]; exact h'⟩
  -- the destination registers and CONNECT, from a fresh socket
  have tail : Hoare (At n fun s => (∃ S A, Fresh S A s) ∧ Mem16 s.mem 0x04 port) (do
      M.mapErr TcpSocketError.other (Socket.setDestinationIp (Chip.dev sched faults).bus (sockOf n) remote.ip)
      M.mapErr TcpSocketError.other (Socket.setDestinationPort (Chip.dev sched faults).bus (sockOf n) remote.port)
      M.mapErr TcpSocketError.other (Socket.command (Chip.dev sched faults).bus (sockOf n) Command.connect)
      TcpSocket.connectLoop (Chip.dev sched faults).bus ⟨sockOf n⟩ fuel)
      (fun _ => At n fun s => (∃ S A, Fresh S A s) ∧ Endpoint port remote s.mem) (fun _ => True) := by
    refine .bind (.exc (.mapErr (hs_store hn (hfr fun m => Mem16 m 0x04 port) _ _ (by simp [Ipv4.octets]) ?_ ?_))
      fun _ _ => trivial) fun _ => ?_
    · intro i hi
      rcases octets_index hi with rfl | rfl | rfl | rfl <;> rfl
    · rintro s i x hi ⟨⟨S, A, h⟩, h'⟩
      refine ⟨⟨S, A, h.setMem _ _ ?_⟩, ?_⟩
      · rcases octets_index hi with rfl | rfl | rfl | rfl <;> decide
      · rcases octets_index hi with rfl | rfl | rfl | rfl <;> exact h'
    refine .bind (.exc (.mapErr (.pre (hs_store hn (hfr fun m => Mem16 m 0x04 port ∧ Stored m 0x0C remote.ip.octets) _ _
      (by simp [toBeBytes]) ?_ ?_) fun c h => ⟨h.1.1, h.1.2, h.2⟩)) fun _ _ => trivial) fun _ => ?_
    · intro i hi
      rcases index_two (by rfl) hi with rfl | rfl <;> rfl
    · rintro s i x hi ⟨⟨S, A, h⟩, h1, h2⟩
      refine ⟨⟨S, A, h.setMem _ _ ?_⟩, ?_, ?_⟩
      · rcases index_two (by rfl) hi with rfl | rfl <;> decide
      · rcases index_two (by rfl) hi with rfl | rfl <;> exact h1
      · intro j hj
        rcases index_two (by rfl) hi with rfl | rfl
        all_goals
          rcases octets_index hj with rfl | rfl | rfl | rfl
          all_goals exact h2 _ hj
    refine .bind (Q := fun _ => At n fun s => (∃ S A, Fresh S A s) ∧ Endpoint port remote s.mem) ?_ fun _ => ?_
    · refine .exc (.mapErr (.pre (hs_write1 hn (hfr (Endpoint port remote)) _ _ ?_) ?_)) fun _ _ => trivial
      · rintro s ⟨⟨S, A, h⟩, h'⟩
        rcases connecting_cases s with e | ⟨hp, p, q, e⟩
        · obtain ⟨⟨⟨t1, t2, t4⟩, ⟨r1, r4⟩, i⟩, u⟩ := h
          show (∃ S A, Fresh S A { s.connecting with sr := 0x15 }) ∧ Endpoint port remote s.connecting.mem
          rw [e]
          exact ⟨⟨S, A, ⟨⟨t1, ⟨t2.size, t2.fits⟩, t4⟩, ⟨⟨r1.size, r1.fits, r1.arrived⟩, r4⟩, i⟩, u⟩, h'⟩
        · show (∃ S A, Fresh S A { s.connecting with sr := 0x15 }) ∧ Endpoint port remote s.connecting.mem
          rw [e]
          exact ⟨⟨_, _, restart_fresh h.sizes hp p q _⟩, h'.same (same_restart s p q)⟩
      · rintro c ⟨⟨h1, h2, h3⟩, h4⟩
        exact ⟨h1, ⟨h2, h3, stored_be h4⟩⟩
    · induction fuel with
      | zero => exact .outOfFuel fun _ _ => trivial
      | succ k ih =>
        unfold TcpSocket.connectLoop
        refine .bind (.exc (.mapErr (hs_read1' hn (hfr (Endpoint port remote)) _)) fun _ _ => trivial) fun x => ?_
        have hkeep : ∀ (m : U16 → U8) (a : U16) (y : U8), a = 0 ∨ a = 0x2C → Endpoint port remote m →
            Endpoint port remote (fun b => if b = a then y else m b) := by
          rintro m a y ha ⟨h1, h2, h3⟩
          refine ⟨?_, ?_, ?_⟩
          · rcases ha with rfl | rfl <;> exact h1
          · intro j hj
            rcases ha with rfl | rfl
            all_goals
              rcases octets_index hj with rfl | rfl | rfl | rfl
              all_goals exact h2 _ hj
          · rcases ha with rfl | rfl <;> exact h3
        split
        · exact .pure fun _ h => h
        · refine .bind (.pre (tcp_close hn (fun m => SizesOk m ∧ Endpoint port remote m) ?_) ?_) fun _ =>
            tcp_reopen hn (Endpoint port remote) ?_ ?_ ?_
          · rintro m x ⟨h1, h2⟩
            exact ⟨sizes_keep h1 _ _ (by decide) (by decide), hkeep m 0 x (.inl rfl) h2⟩
          · rintro c ⟨⟨S, A, h⟩, h'⟩
            exact ⟨h.sizes, h'⟩
          · exact fun m x h => hkeep m 0 x (.inl rfl) h
          · exact fun m x h => hkeep m 0x2C x (.inr rfl) h
          · exact fun m m' h e => h.same e
        · exact ih
  unfold TcpSocket.socketConnect
  refine .bind (.exc (.mapErr (hs_read1' hn (hfr fun m => Mem16 m 0x04 port) _)) fun _ _ => trivial) fun x => ?_
  split <;> dsimp only
  · exact tail
  iterate 3
    · refine .bind (Q := fun _ _ => False) (.throw fun _ _ => trivial) fun _ => ⟨fun _ h => h.elim⟩
  · refine .bind (.pre (tcp_close hn (fun m => SizesOk m ∧ Mem16 m 0x04 port) ?_) ?_) fun _ =>
      .bind (tcp_reopen hn (fun m => Mem16 m 0x04 port) ?_ ?_ ?_) fun _ => tail
    · rintro m x ⟨h1, h2⟩
      exact ⟨sizes_keep h1 _ _ (by decide) (by decide), h2⟩
    · rintro c ⟨⟨S, A, h⟩, h'⟩
      exact ⟨h.sizes, h'⟩
    · exact fun m x h => h
    · exact fun m x h => h
    · exact fun m m' h e => h.same e (by decide)

end W5500.Spec
