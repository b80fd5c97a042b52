import Verif.Proofs.Fitting
import Verif.Proofs.ChipMoves
/-! # A chip that ignores commands in the wrong state -/

namespace W5500.Spec
open W5500 socketn
variable {E : Type} {sched : Nat → List (Nat × Act)} {faults : Nat → Option (E × Nat)} {n : Nat} {p : U8}

/-- What the chip of `Picky.dev` knows agrees with what someone who watches the bus knows. -/
def Agrees (n : Nat) (st : Stage) (s : Picky) : Prop :=
  (s.told = none ∨ match st with
    | .unknown => True
    | .seen x => s.told = some x
    | .closed => s.told = some 0
    | .ready _ => s.told = some 0
    | .opened m => (m = 1 → s.told = some 0x13) ∧ (m = 2 → s.told = some 0x22)) ∧
  ∀ m, st = .ready m → (s.chip.socks n).mem 0 = m

theorem agrees_unknown (s : Picky) : Agrees n .unknown s := ⟨.inr trivial, fun _ h => nomatch h⟩

/-- What matters. -/
def Picky.key (n : Nat) (s : Picky) : Option U8 × Bool × U8 := (s.told, s.blame, (s.chip.socks n).mem 0)

theorem agrees_key {st : Stage} {s s' : Picky} (h : s'.key n = s.key n) (ha : Agrees n st s) : Agrees n st s' := by
  obtain ⟨h1, h2, h3⟩ : s'.told = s.told ∧ s'.blame = s.blame ∧ (s'.chip.socks n).mem 0 = (s.chip.socks n).mem 0 := by
    simpa [Picky.key] using h
  unfold Agrees
  rw [h1, h3]
  exact ha

theorem tick_mode (c : Chip) : ((c.tick sched).socks n).mem 0 = (c.socks n).mem 0 :=
  ((Chip.tick_evolves sched c).socks n).induct (P := fun s => s.mem 0 = (c.socks n).mem 0) (fun s e h => by rw [Sock.act_mem]; exact h) rfl

theorem regBlock : ∀ n, n < 8 → (sockOf n).register.setWidth 5 = BitVec.ofNat 5 (4 * n + 1) := by decide
theorem txBlock : ∀ n, n < 8 → (sockOf n).txBuffer.setWidth 5 ≠ BitVec.ofNat 5 (4 * n + 1) := by decide

/-- Reading bytes other than the status. -/
theorem picky_reads (b : BitVec 5) : ∀ (k : Nat) (a : U16) (s : Picky),
    (b = BitVec.ofNat 5 (4 * n + 1) → ∀ j, j < k → a + BitVec.ofNat 16 j ≠ 0x03) →
    ((Picky.dev n sched faults).readBytes s b a k).2.key n = s.key n
  | 0, _, _, _ => rfl
  | k + 1, a, s, h => by
    refine (picky_reads b k (a + 1) _ fun hb j hj => ?_).trans ?_
    · have := h hb (j + 1) (by omega)
      rwa [show BitVec.ofNat 16 (j + 1) = 1 + BitVec.ofNat 16 j by rw [Nat.add_comm]; exact BitVec.ofNat_add 1 j, ← BitVec.add_assoc] at this
    · have h0 : ¬ (b = BitVec.ofNat 5 (4 * n + 1) ∧ a = 0x03) := fun ⟨h1, h2⟩ => h h1 0 (by omega) (by simpa using h2)
      show ((if _ then _ else s.told), s.blame, _) = (s.told, s.blame, _)
      rw [if_neg h0, tick_mode]

/-- Reading any bytes. -/
theorem picky_reads_blame (b : BitVec 5) : ∀ (k : Nat) (a : U16) (s : Picky),
    ((Picky.dev n sched faults).readBytes s b a k).2.blame = s.blame ∧
    (((Picky.dev n sched faults).readBytes s b a k).2.chip.socks n).mem 0 = (s.chip.socks n).mem 0
  | 0, _, _ => ⟨rfl, rfl⟩
  | k + 1, a, s => by
    obtain ⟨h1, h2⟩ := picky_reads_blame b k (a + 1) ((Picky.dev n sched faults).readByte s b a).2
    exact ⟨h1, h2.trans (tick_mode _)⟩

/-- Writing other bytes than Sn_MR and Sn_CR of socket `n`. -/
theorem picky_write (hn : n < 8) {b : BitVec 5} {a : U16} (x : U8) (s : Picky)
    (h : b = (sockOf n).register.setWidth 5 ∧ a ≠ 0 ∧ a ≠ 1 ∨ b = (sockOf n).txBuffer.setWidth 5) :
    ((Picky.dev n sched faults).writeByte s b a x).key n = s.key n := by
  have h0 : ¬ (b = BitVec.ofNat 5 (4 * n + 1) ∧ a = 0x01) := by
    rintro ⟨h1, h2⟩
    rcases h with h | h
    · exact h.2.2 h2
    · exact txBlock n hn (h.symm.trans h1)
  show Picky.key n (if _ then _ else _) = _
  rw [if_neg h0]
  show (s.told, s.blame, _) = (s.told, s.blame, _)
  rw [← tick_mode (sched := sched) (n := n) s.chip]
  rcases h with ⟨rfl, h1, h2⟩ | rfl
  · rw [Chip.poke_reg hn, Chip.setSock_self]
    unfold Sock.pokeReg
    rw [if_neg h2]
    repeat' split
    · rfl
    · rfl
    · show (_, _, if (0 : U16) = a then x else _) = _
      rw [if_neg (Ne.symm h1)]
  · rw [Chip.poke_tx hn, Chip.setSock_self]
    rfl

theorem picky_writes (hn : n < 8) {b : BitVec 5} : ∀ (l : List U8) (a : U16) (s : Picky),
    (b = (sockOf n).register.setWidth 5 ∧ (∀ j, j < l.length → a + BitVec.ofNat 16 j ≠ 0 ∧ a + BitVec.ofNat 16 j ≠ 1) ∨
      b = (sockOf n).txBuffer.setWidth 5) →
    ((Picky.dev n sched faults).writeBytes s b a l).key n = s.key n
  | [], _, _, _ => rfl
  | x :: l, a, s, h => by
    have h' := h
    refine (picky_writes hn l (a + 1) _ ?_).trans (picky_write hn x s ?_)
    · rcases h with ⟨h1, h2⟩ | h
      refine .inl ⟨h1, fun j hj => ?_⟩
      rotate_left
      exact .inr h
      have := h2 (j + 1) (by simpa using hj)
      rwa [show BitVec.ofNat 16 (j + 1) = 1 + BitVec.ofNat 16 j by rw [Nat.add_comm]; exact BitVec.ofNat_add 1 j, ← BitVec.add_assoc] at this
    · exact h'.imp (fun ⟨h1, h2⟩ => ⟨h1, by simpa using h2 0 (by simp)⟩) id

/-- Writing Sn_MR. -/
theorem picky_mode (hn : n < 8) (m : U8) (s : Picky) :
    let s' := (Picky.dev n sched faults).writeByte s ((sockOf n).register.setWidth 5) 0x00 m
    s'.told = s.told ∧ s'.blame = s.blame ∧ (s'.chip.socks n).mem 0 = m := by
  have h0 : ¬ ((sockOf n).register.setWidth 5 = BitVec.ofNat 5 (4 * n + 1) ∧ (0x00 : U16) = 0x01) := fun h => absurd h.2 (by decide)
  have hs : (Picky.dev n sched faults).writeByte s ((sockOf n).register.setWidth 5) 0x00 m =
      { s with chip := (s.chip.tick sched).poke ((sockOf n).register.setWidth 5) 0x00 m } := if_neg h0
  dsimp only
  rw [hs]
  refine ⟨rfl, rfl, ?_⟩
  rw [Chip.poke_reg hn, Chip.setSock_self]
  rfl

/-- A command that may be given. -/
theorem picky_command (hn : n < 8) (hp : p = 1 ∨ p = 2) {st : Stage} {s : Picky} {x : U8} (ha : Agrees n st s) (hb : s.blame = false)
    (hx : Allowed p st x) :
    let s' := (Picky.dev n sched faults).writeByte s ((sockOf n).register.setWidth 5) 0x01 x
    s'.blame = false ∧ Agrees n (st.next (sockOf n).register (.wr (sockOf n).register 0x01 [x] (.ok ()) : Ev E)) s' := by
  intro s'
  let c := s.chip.tick sched
  have hs' : s' = if takes (c.socks n).sr x then
      { s with chip := c.poke ((sockOf n).register.setWidth 5) 0x01 x, told := some ((c.poke ((sockOf n).register.setWidth 5) 0x01 x).socks n).sr }
      else { chip := c, told := none, blame := s.blame || decide (s.told = some (c.socks n).sr) } :=
    if_pos ⟨regBlock n hn, rfl⟩
  rw [hs']
  clear hs' s'
  split
  · rename_i ht
    refine ⟨hb, ?_⟩
    rw [Chip.poke_reg hn, Chip.setSock_self]
    show Agrees n _ { s with chip := _, told := some ((c.socks n).command x).sr }
    rcases hx with rfl | ⟨rfl, rfl⟩ | ⟨rfl, _, h⟩ | ⟨h, rfl⟩
    · rw [next_close]
      exact ⟨.inr rfl, fun _ h => nomatch h⟩
    · rw [next_open]
      refine ⟨.inr ?_, fun _ h => nomatch h⟩
      have hm : (c.socks n).mem 0 = p := (tick_mode _).trans (ha.2 p rfl)
      constructor
      · rintro rfl
        have : (c.socks n).proto = 1 := by unfold Sock.proto; rw [hm]; rfl
        show some (if (c.socks n).proto = 1 then (0x13 : U8) else _) = _
        rw [if_pos this]
      · rintro rfl
        have : (c.socks n).proto = 2 := by unfold Sock.proto; rw [hm]; rfl
        show some (if (c.socks n).proto = 1 then (0x13 : U8) else if (c.socks n).proto = 2 then 0x22 else _) = _
        rw [if_neg (by omega), if_pos this]
    · rcases h with rfl | rfl
      all_goals
        rw [next_other (by decide) (by decide)]
        exact agrees_unknown _
    · rcases h with rfl | rfl
      all_goals
        rw [next_other (by decide) (by decide)]
        exact agrees_unknown _
  · rename_i ht
    have hne : s.told ≠ some (c.socks n).sr := by
      intro he
      have h1 := ha.1
      rw [he] at h1
      rcases hx with rfl | ⟨rfl, rfl⟩ | ⟨rfl, _, h⟩ | ⟨h, rfl⟩
      · exact ht rfl
      · rcases h1 with h1 | h1
        · cases h1
        · rw [Option.some.inj h1] at ht
          exact ht rfl
      · rcases h1 with h1 | h1
        · cases h1
        · rcases h with rfl | rfl
          · rw [Option.some.inj h1] at ht
            exact ht rfl
          · rw [Option.some.inj (h1.1 rfl)] at ht
            exact ht rfl
      · rcases h1 with h1 | h1
        · cases h1
        · rw [Option.some.inj h1] at ht
          rcases hp with rfl | rfl <;> rcases h with rfl | rfl <;> exact ht rfl
    refine ⟨?_, .inl rfl, ?_⟩
    · show (s.blame || decide _) = false
      rw [hb, decide_eq_false hne]
      rfl
    · intro m hm
      rcases hx with rfl | ⟨rfl, rfl⟩ | ⟨rfl, _, h⟩ | ⟨h, rfl⟩
      · rw [next_close] at hm; cases hm
      · rw [next_open] at hm; cases hm
      · rw [next_other (by decide) (by decide)] at hm; cases hm
      · rcases h with rfl | rfl
        all_goals rw [next_other (by decide) (by decide)] at hm; cases hm

theorem untouched_out {b : U8} {a : U16} {e : Ev E} (h : Touches b a e = false) (hb : e.block.setWidth 5 = b.setWidth 5) (k : Nat)
    (hk : k < e.data.length) : e.addr + BitVec.ofNat 16 k ≠ a := by
  unfold Touches at h
  rw [decide_eq_true hb, Bool.true_and] at h
  simpa using List.any_eq_false.mp h k (List.mem_range.mpr hk)

/-- As far as the commands were fitting, nothing is to blame, and the two agree. -/
def Alike (n : Nat) (p : U8) (base : List (Ev E)) (t : TW Picky E) : Prop :=
  ∃ evs, t.log = base ++ evs ∧
    (Fitting (sockOf n).register p evs → t.w.blame = false ∧ Agrees n (stage (sockOf n).register evs) t.w)

theorem alike_step {base : List (Ev E)} {t t' : TW Picky E} (h : Alike n p base t) (e : Ev E) (hl : t'.log = t.log ++ [e])
    (hs : ∀ st, t.w.blame = false → Agrees n st t.w →
      (e.isWrite = true → Touches (sockOf n).register 0x01 e = true → ∃ x, e.addr = 0x01 ∧ e.data = [x] ∧ Allowed p st x) →
      t'.w.blame = false ∧ Agrees n (st.next (sockOf n).register e) t'.w) : Alike n p base t' := by
  obtain ⟨evs, h1, h2⟩ := h
  refine ⟨evs ++ [e], by rw [hl, h1, List.append_assoc], fun hf => ?_⟩
  obtain ⟨h3, h4⟩ := h2 (fitting_init hf)
  rw [stage_snoc]
  exact hs _ h3 h4 fun hw ht => hf evs e [] rfl hw ht

theorem picky_readFrame (hn : n < 8) {base : List (Ev E)} (t : TW Picky E) (b : U8) (a : U16) (d : List U8) (h : Alike n p base t) :
    Alike n p base ((traced (Picky.dev n sched faults).bus).readFrame t b a d).2.2 := by
  refine alike_step h (.rd b a ((Picky.dev n sched faults).bus.readFrame t.w b a d).2.1
    ((Picky.dev n sched faults).bus.readFrame t.w b a d).1) rfl fun st hb ha _ => ?_
  have hlen := (Picky.dev n sched faults).bus.read_length t.w b a d
  generalize hr : (Picky.dev n sched faults).bus.readFrame t.w b a d = r at hlen
  have hw : ((traced (Picky.dev n sched faults).bus).readFrame t b a d).2.2.w = r.2.2 := by rw [← hr]; rfl
  rw [hw]
  let s1 : Picky := { t.w with chip := { t.w.chip with txn := t.w.chip.txn + 1 } }
  have hk1 : s1.key n = t.w.key n := rfl
  have hbl : r.2.2.blame = false := by
    rw [← hr]
    unfold ByteDev.bus
    dsimp only
    split
    · rename_i heq
      cases (Prod.mk.inj heq).2
      exact ((picky_reads_blame _ _ _ _).1).trans hb
    · rename_i heq
      cases (Prod.mk.inj heq).2
      exact ((picky_reads_blame _ _ _ _).1).trans hb
  refine ⟨hbl, ?_⟩
  by_cases ht : Touches (sockOf n).register 0x03 (.rd b a r.2.1 r.1) = true
  · have hnext : st.next (sockOf n).register (.rd b a r.2.1 r.1) = match r.2.1, r.1 with
        | [x], .ok _ => .seen x
        | _, _ => .unknown := if_pos ht
    rw [hnext]
    rcases hf : faults t.w.chip.txn with _ | ⟨e, k⟩
    · have hr2 : r = (.ok (), ((Picky.dev n sched faults).readBytes s1 (b.setWidth 5) a d.length).1,
          ((Picky.dev n sched faults).readBytes s1 (b.setWidth 5) a d.length).2) := by
        rw [← hr]
        unfold ByteDev.bus
        dsimp only
        rw [show (Picky.dev n sched faults).fault t.w = (none, s1) from Prod.ext hf rfl]
      subst hr2
      match d, hlen with
      | [], _ => exact agrees_unknown _
      | [y], _ =>
        have hb5 : b.setWidth 5 = BitVec.ofNat 5 (4 * n + 1) ∧ a = 0x03 := by
          unfold Touches at ht
          rw [Bool.and_eq_true] at ht
          refine ⟨(of_decide_eq_true ht.1).trans (regBlock n hn), ?_⟩
          simpa [Ev.data, Ev.addr, ByteDev.readBytes] using ht.2
        have hx : ((Picky.dev n sched faults).readByte s1 (b.setWidth 5) a).2.told =
            some ((Picky.dev n sched faults).readByte s1 (b.setWidth 5) a).1 := by
          show (if _ then some ((s1.chip.tick sched).socks n).sr else _) = some ((s1.chip.tick sched).peek _ a)
          rw [if_pos hb5, hb5.2, hb5.1, ← regBlock n hn, Chip.peek_reg hn]
          rfl
        exact ⟨.inr hx, fun _ h => nomatch h⟩
      | _ :: _ :: _, _ => exact agrees_unknown _
    · have hr2 : r.1 = .err e := by
        rw [← hr]
        unfold ByteDev.bus
        dsimp only
        rw [show (Picky.dev n sched faults).fault t.w = (some (e, k), s1) from Prod.ext hf rfl]
      rw [hr2]
      split
      · rename_i h; cases h
      · exact agrees_unknown _
  · have ht : Touches (sockOf n).register 0x03 (.rd b a r.2.1 r.1) = false := by simpa using ht
    rw [next_mild (show Mild _ (.rd b a r.2.1 r.1) from ht)]
    refine agrees_key ?_ ha
    have hno : b.setWidth 5 = BitVec.ofNat 5 (4 * n + 1) → ∀ j, j < d.length → a + BitVec.ofNat 16 j ≠ 0x03 := fun hb' j hj =>
      untouched_out ht (hb'.trans (regBlock n hn).symm) j (by rw [← hlen] at hj; exact hj)
    rw [← hr]
    unfold ByteDev.bus
    dsimp only
    split
    · rename_i heq
      cases (Prod.mk.inj heq).2
      exact picky_reads _ _ _ _ hno
    · rename_i heq
      cases (Prod.mk.inj heq).2
      exact picky_reads _ _ _ _ fun hb' j hj => hno hb' j (by omega)

/-- The registers that the calls write, apart from Sn_MR and Sn_CR. -/
theorem sockRegs_cases {a : U16} {k : Nat} (h : (a, k) ∈ sockRegs) :
    a = 0x00 ∧ k = 1 ∨ a = 0x01 ∧ k = 1 ∨ ∀ j, j < k → a + BitVec.ofNat 16 j ≠ 0 ∧ a + BitVec.ofNat 16 j ≠ 1 := by
  have key : ∀ x ∈ sockRegs, x.1 = 0x00 ∧ x.2 = 1 ∨ x.1 = 0x01 ∧ x.2 = 1 ∨
      ∀ j, j < x.2 → x.1 + BitVec.ofNat 16 j ≠ 0 ∧ x.1 + BitVec.ofNat 16 j ≠ 1 := by decide
  exact key _ h

theorem picky_writeFrame (hn : n < 8) (hp : p = 1 ∨ p = 2) {base : List (Ev E)} (t : TW Picky E) (b : U8) (a : U16) (d : List U8)
    (hF : SockFrames (sockOf n) sockRegs b a d) (h : Alike n p base t) :
    Alike n p base ((traced (Picky.dev n sched faults).bus).writeFrame t b a d).2 := by
  refine alike_step h (.wr b a d ((Picky.dev n sched faults).bus.writeFrame t.w b a d).1) rfl fun st hb ha hal => ?_
  generalize hr : (Picky.dev n sched faults).bus.writeFrame t.w b a d = r at hal
  have hw : ((traced (Picky.dev n sched faults).bus).writeFrame t b a d).2.w = r.2 := by rw [← hr]; rfl
  rw [hw]
  let s1 : Picky := { t.w with chip := { t.w.chip with txn := t.w.chip.txn + 1 } }
  have ha1 : Agrees n st s1 := ha
  have hb1 : s1.blame = false := hb
  -- what is written
  obtain ⟨l, hl, hrl⟩ : ∃ l, (l = d ∧ r.1 = .ok () ∨ (∃ e k, l = d.take (k - 3) ∧ r.1 = .err e)) ∧
      r.2 = (Picky.dev n sched faults).writeBytes s1 (b.setWidth 5) a l := by
    rcases hf : faults t.w.chip.txn with _ | ⟨e, k⟩
    · refine ⟨d, .inl ⟨rfl, ?_⟩, ?_⟩
      all_goals
        rw [← hr]
        unfold ByteDev.bus
        dsimp only
        rw [show (Picky.dev n sched faults).fault t.w = (none, s1) from Prod.ext hf rfl]
    · refine ⟨d.take (k - 3), .inr ⟨e, k, rfl, ?_⟩, ?_⟩
      all_goals
        rw [← hr]
        unfold ByteDev.bus
        dsimp only
        rw [show (Picky.dev n sched faults).fault t.w = (some (e, k), s1) from Prod.ext hf rfl]
  rw [hrl]
  have hll : l.length ≤ d.length := by
    rcases hl with ⟨rfl, _⟩ | ⟨e, k, rfl, _⟩
    · exact Nat.le_refl _
    · rw [List.length_take]; omega
  have quiet : Mild (sockOf n).register (.wr b a d r.1) →
      ((Picky.dev n sched faults).writeBytes s1 (b.setWidth 5) a l).key n = s1.key n →
      ((Picky.dev n sched faults).writeBytes s1 (b.setWidth 5) a l).blame = false ∧
      Agrees n (st.next (sockOf n).register (.wr b a d r.1)) ((Picky.dev n sched faults).writeBytes s1 (b.setWidth 5) a l) := by
    intro hm hk
    rw [next_mild hm]
    exact ⟨(congrArg (fun x => x.2.1) hk).trans hb1, agrees_key hk ha1⟩
  rcases hF with rfl | ⟨rfl, hreg⟩
  · exact quiet (mild_tx _ _ _) (picky_writes hn _ _ _ (.inr rfl))
  · rcases sockRegs_cases hreg with ⟨rfl, h1⟩ | ⟨rfl, h1⟩ | h1
    · -- the mode
      obtain ⟨m, rfl⟩ := List.length_eq_one_iff.mp h1
      have hm := picky_mode (sched := sched) (faults := faults) hn m s1
      rcases hl with ⟨rfl, hr1⟩ | ⟨e, k, rfl, hr1⟩
      · rw [hr1]
        refine ⟨hm.2.1.trans hb1, ?_⟩
        by_cases hst : st = .closed
        · subst hst
          rw [next_mode]
          refine ⟨ha1.1.imp (fun h => hm.1.trans h) fun h => hm.1.trans h, fun m' h' => ?_⟩
          cases h'
          exact hm.2.2
        · rw [next_anyMode _ hst]
          exact agrees_unknown _
      · rw [hr1, next_failed _ (.inl rfl)]
        refine ⟨?_, agrees_unknown _⟩
        rcases k - 3 with _ | j
        · exact hb1
        · rw [List.take_of_length_le (by simp)]
          exact hm.2.1.trans hb1
    · obtain ⟨x, rfl⟩ := List.length_eq_one_iff.mp h1
      obtain ⟨y, _, hy, hal⟩ := hal rfl (by simp [Touches, Ev.block, Ev.data, Ev.addr])
      cases List.cons.inj hy |>.1
      have hc := picky_command (sched := sched) (faults := faults) hn hp ha1 hb1 hal
      rcases hl with ⟨rfl, hr1⟩ | ⟨e, k, rfl, hr1⟩
      · rw [hr1]
        exact hc
      · rw [hr1, next_failed _ (.inr rfl)]
        refine ⟨?_, agrees_unknown _⟩
        rcases k - 3 with _ | j
        · exact hb1
        · rw [List.take_of_length_le (by simp)]
          exact hc.1
    · exact quiet (mild_wr _ _ _ h1) (picky_writes hn _ _ _ (.inl ⟨rfl, fun j hj => h1 j (by omega)⟩))

/-- Fitting commands are ignored only if the status changed since. -/
theorem reach_alike (hn : n < 8) (hp : p = 1 ∨ p = 2) {t t' : TW Picky E}
    (h : Reach (traced (Picky.dev n sched faults).bus) (SockFrames (sockOf n) sockRegs) t t') (hb : t.w.blame = false)
    (hf : ∃ evs, t'.log = t.log ++ evs ∧ Fitting (sockOf n).register p evs) : t'.w.blame = false := by
  have := h.induct (I := Alike n p t.log) (fun w b a d hi => picky_readFrame hn w b a d hi)
    (fun w b a d hF hi => picky_writeFrame hn hp w b a d hF hi) ⟨[], (List.append_nil _).symm, fun _ => ⟨hb, agrees_unknown _⟩⟩
  obtain ⟨evs, h1, h2⟩ := this
  obtain ⟨evs', h3, h4⟩ := hf
  cases List.append_cancel_left (h1.symm.trans h3)
  exact (h2 h4).1

end W5500.Spec
