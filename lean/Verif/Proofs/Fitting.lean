import Verif.Spec.Fitting
import Verif.Proofs.Ack
/-! # Commands and the states in which a socket takes them -/

namespace W5500
open Spec socketn
variable {W σ τ E ε ε' α β S H : Type}

section
variable {B : Bus W E} {base : List (Ev E)} {b p : U8}

/-- The transfer does not change what is known. -/
def Mild (b : U8) (e : Ev E) : Prop :=
  match e with
  | .rd .. => Touches b 0x03 e = false
  | .wr b' .. => b'.setWidth 5 ≠ (0 : BitVec 5) ∧ Touches b 0x00 e = false ∧ Touches b 0x01 e = false

theorem next_mild {st : Stage} {e : Ev E} (h : Mild b e) : st.next b e = st := by
  cases e with
  | rd b' a d r =>
    show (if Touches b 0x03 (.rd b' a d r) then _ else _) = _
    rw [show Touches b 0x03 (.rd b' a d r) = false from h]
    rfl
  | wr b' a d r =>
    obtain ⟨h1, h2, h3⟩ := h
    show (if _ then _ else if Touches b 0x00 (.wr b' a d r) || Touches b 0x01 (.wr b' a d r) then _ else _) = _
    rw [if_neg h1, h2, h3]
    rfl

theorem stage_snoc (l : List (Ev E)) (e : Ev E) : stage b (l ++ [e]) = (stage b l).next b e := by
  unfold stage
  rw [List.foldl_append]
  rfl

/-- One more transfer: if it gives a command, it may be given. -/
theorem fitting_snoc {l : List (Ev E)} (h : Fitting b p l) (e : Ev E) (he : e.isWrite = true → Touches b 0x01 e = true →
    ∃ x, e.addr = 0x01 ∧ e.data = [x] ∧ Allowed p (stage b l) x) : Fitting b p (l ++ [e]) := by
  intro before e₀ after hl h₀
  rcases List.eq_nil_or_concat after with rfl | ⟨after', e', rfl⟩
  · obtain ⟨rfl, h2⟩ := List.append_inj' hl rfl
    cases h2
    exact he h₀
  · rw [List.concat_eq_append, ← List.cons_append, ← List.append_assoc] at hl
    obtain ⟨h1, _⟩ := List.append_inj' hl rfl
    exact h _ _ _ h1 h₀

theorem fitting_init {l : List (Ev E)} {e : Ev E} (h : Fitting b p (l ++ [e])) : Fitting b p l := by
  intro before e₀ after hl
  exact h before e₀ (after ++ [e]) (by rw [hl]; simp)

theorem fitting_nil : Fitting (E := E) b p [] := fun before e after h => by simp at h

theorem mild_snoc {l : List (Ev E)} (h : Fitting b p l) {e : Ev E} (he : Mild b e) : Fitting b p (l ++ [e]) := by
  refine fitting_snoc h e fun h1 h2 => ?_
  cases e with
  | rd => cases h1
  | wr b' a d r => rw [he.2.2] at h2; cases h2

/-- Orderly so far, and `st` is known. -/
def Stands (b p : U8) (st : Stage) (l : List (Ev E)) : Prop := Fitting b p l ∧ stage b l = st

/-- A property that mild transfers keep. -/
def Keep (b p : U8) (P : List (Ev E) → Prop) : Prop := (∀ l e, Mild b e → P l → P (l ++ [e])) ∧ ∀ l, P l → Fitting b p l

theorem keep_fit : Keep (E := E) b p (Fitting b p) := ⟨fun _ _ he h => mild_snoc h he, fun _ h => h⟩
theorem keep_at (st : Stage) : Keep (E := E) b p (Stands b p st) :=
  ⟨fun l e he h => ⟨mild_snoc h.1 he, by rw [stage_snoc, next_mild he]; exact h.2⟩, fun _ h => h.1⟩

variable {P : List (Ev E) → Prop}

namespace Fit

theorem write (hP : Keep b p P) {b' : U8} {a : U16} {d : List U8} (h : ∀ r, Mild (E := E) b (.wr b' a d r)) :
    Logs base P ((traced B).write b' a d) (fun _ => P) (Fitting b p) := by
  constructor
  intro s evs hs hp
  refine ⟨evs ++ [.wr b' a d (B.writeFrame s.w b' a d).1], ?_, ?_⟩
  · show s.log ++ [_] = _
    rw [show s.log = base ++ evs from hs, List.append_assoc]
  · have := hP.1 _ _ (h (B.writeFrame s.w b' a d).1) hp
    split
    · exact this
    all_goals exact hP.2 _ this

theorem readSlice (hP : Keep b p P) {b' : U8} {a : U16} (h : ∀ d r, Mild (E := E) b (.rd b' a d r)) :
    Logs base P ((traced B).readSlice b' a) (fun _ => P) (Fitting b p) := by
  constructor
  rintro ⟨buf, s⟩ evs hs hp
  refine ⟨evs ++ [.rd b' a (B.readFrame s.w b' a buf).2.1 (B.readFrame s.w b' a buf).1], ?_, ?_⟩
  · show s.log ++ [_] = _
    rw [show s.log = base ++ evs from hs, List.append_assoc]
  · have := hP.1 _ _ (h (B.readFrame s.w b' a buf).2.1 (B.readFrame s.w b' a buf).1) hp
    split
    · exact this
    all_goals exact hP.2 _ this

theorem readBuf (hP : Keep b p P) {b' : U8} {a : U16} {i : List U8} (h : ∀ d r, d.length = i.length → Mild (E := E) b (.rd b' a d r)) :
    Logs base P ((traced B).readBuf b' a i) (fun _ => P) (Fitting b p) := by
  constructor
  intro s evs hs hp
  have hn := hP.1 _ _ (h (B.readFrame s.w b' a i).2.1 (B.readFrame s.w b' a i).1 (B.read_length ..)) hp
  refine ⟨evs ++ [.rd b' a (B.readFrame s.w b' a i).2.1 (B.readFrame s.w b' a i).1], ?_, ?_⟩
  · unfold Bus.readBuf
    split <;> rename_i heq <;> simp only [traced, Prod.mk.injEq] at heq <;> obtain ⟨h1, h2, rfl⟩ := heq
    all_goals
      show s.log ++ [_] = _
      rw [show s.log = base ++ evs from hs, List.append_assoc]
  · split
    · exact hn
    all_goals exact hP.2 _ hn

theorem read1 (hP : Keep b p P) {b' : U8} {a : U16} (h : ∀ x r, Mild (E := E) b (.rd b' a [x] r)) :
    Logs base P ((traced B).read1 b' a) (fun _ => P) (Fitting b p) := by
  unfold Bus.read1
  refine .bind (readBuf hP fun d r hd => ?_) fun l => ?_
  · match d, hd with
    | [x], _ => exact h x r
  · split
    · exact .pure fun _ h => h
    · exact .panic hP.2

theorem read2 (hP : Keep b p P) {b' : U8} {a : U16} (h : ∀ x y r, Mild (E := E) b (.rd b' a [x, y] r)) :
    Logs base P ((traced B).read2 b' a) (fun _ => P) (Fitting b p) := by
  unfold Bus.read2
  refine .bind (readBuf hP fun d r hd => ?_) fun l => ?_
  · match d, hd with
    | [x, y], _ => exact h x y r
  · split
    · exact .pure fun _ h => h
    · exact .panic hP.2

/-- Looking at the status. -/
theorem status (s : Socket) (hP : Keep s.register p P) : Logs base P (s.getStatus (traced B))
    (fun y => Stands s.register p (.seen y)) (Fitting s.register p) := by
  unfold Socket.getStatus Bus.read1
  refine .bind (Q := fun d l => Fitting s.register p l ∧ ∀ x, d = [x] → stage s.register l = .seen x) ?_ fun d => ?_
  · constructor
    intro t evs hs hp
    let f := B.readFrame t.w s.register 0x03 [0]
    have hF : Fitting s.register p (evs ++ [.rd s.register 0x03 f.2.1 f.1]) :=
      fitting_snoc (hP.2 _ hp) _ fun h => nomatch h
    refine ⟨evs ++ [.rd s.register 0x03 f.2.1 f.1], ?_, ?_⟩
    · unfold Bus.readBuf
      split <;> rename_i heq <;> simp only [traced, Prod.mk.injEq] at heq <;> obtain ⟨h1, h2, rfl⟩ := heq
      all_goals
        show t.log ++ [_] = _
        rw [show t.log = base ++ evs from hs, List.append_assoc]
        rfl
    · unfold Bus.readBuf
      generalize hr : (traced B).readFrame t s.register STATUS [0] = r
      have h1 : r.1 = f.1 := hr ▸ rfl
      have h2 : r.2.1 = f.2.1 := hr ▸ rfl
      rw [← h1, ← h2] at hF ⊢
      rcases r with ⟨_ | _ | _ | _, d, w⟩
      · refine ⟨hF, fun x hx => ?_⟩
        cases hx
        rw [stage_snoc]
        simp [Stage.next, Touches, Ev.block, Ev.data, Ev.addr]
      all_goals exact hF
  · split
    · exact .pure fun l h => ⟨h.1, h.2 _ rfl⟩
    · exact .panic fun _ h => h.1

theorem wrote (s : Socket) (st : Stage) (a : U16) (x : U8) (h : a = 0x01 → Allowed p st x) (ha : a = 0x00 ∨ a = 0x01) :
    Logs base (Stands s.register p st) ((traced B).write s.register a [x])
      (fun _ => Stands s.register p (st.next s.register (.wr s.register a [x] (.ok ()) : Ev E))) (Fitting s.register p) := by
  constructor
  intro t evs hs hp
  let f := B.writeFrame t.w s.register a [x]
  have hF : Fitting s.register p (evs ++ [.wr s.register a [x] f.1]) := by
    refine fitting_snoc hp.1 _ fun _ h2 => ?_
    have h1 : a = 0x01 := by
      rcases ha with rfl | rfl
      · simp [Touches, Ev.block, Ev.data, Ev.addr] at h2
      · rfl
    exact ⟨x, h1, rfl, hp.2 ▸ h h1⟩
  refine ⟨evs ++ [.wr s.register a [x] f.1], ?_, ?_⟩
  · show t.log ++ [_] = _
    rw [show t.log = base ++ evs from hs, List.append_assoc]
  · rw [show ((traced B).write s.register a [x] t).1 = f.1 from rfl]
    generalize f.1 = r at hF
    cases r
    · exact ⟨hF, by rw [stage_snoc, hp.2]⟩
    all_goals exact hF

end Fit

/-! ## The socket -/

section
variable {i : U8}

theorem reg_ne : ∀ i : U8, (Socket.new i).register.setWidth 5 ≠ (0 : BitVec 5) := by decide +kernel
theorem tx_ne : ∀ i : U8, (Socket.new i).txBuffer.setWidth 5 ≠ (0 : BitVec 5) := by decide +kernel
theorem tx_reg : ∀ i : U8, (Socket.new i).txBuffer.setWidth 5 ≠ (Socket.new i).register.setWidth 5 := by decide +kernel
theorem rx_reg : ∀ i : U8, (Socket.new i).rxBuffer.setWidth 5 ≠ (Socket.new i).register.setWidth 5 := by decide +kernel

theorem untouched_block {a : U16} {e : Ev E} (h : e.block.setWidth 5 ≠ b.setWidth 5) : Touches b a e = false := by
  unfold Touches
  rw [decide_eq_false h]
  rfl

theorem untouched_reg {a : U16} {e : Ev E} (h : ∀ k, k < e.data.length → e.addr + BitVec.ofNat 16 k ≠ a) : Touches b a e = false := by
  unfold Touches
  rw [Bool.and_eq_false_iff]
  refine .inr (List.any_eq_false.mpr fun k hk => ?_)
  simpa using h k (List.mem_range.mp hk)

theorem mild_tx (a : U16) (d : List U8) (r : Res E Unit) : Mild (Socket.new i).register (.wr (Socket.new i).txBuffer a d r) :=
  ⟨tx_ne i, untouched_block (tx_reg i), untouched_block (tx_reg i)⟩
theorem mild_rx (a : U16) (d : List U8) (r : Res E Unit) : Mild (Socket.new i).register (.rd (Socket.new i).rxBuffer a d r) :=
  untouched_block (rx_reg i)

/-- Register frames elsewhere. -/
theorem mild_rd (a : U16) (d : List U8) (r : Res E Unit) (h : ∀ k, k < d.length → a + BitVec.ofNat 16 k ≠ 0x03) :
    Mild (Socket.new i).register (.rd (Socket.new i).register a d r) := untouched_reg h
theorem mild_wr (a : U16) (d : List U8) (r : Res E Unit)
    (h : ∀ k, k < d.length → a + BitVec.ofNat 16 k ≠ 0x00 ∧ a + BitVec.ofNat 16 k ≠ 0x01) :
    Mild (Socket.new i).register (.wr (Socket.new i).register a d r) :=
  ⟨reg_ne i, untouched_reg fun k hk => (h k hk).1, untouched_reg fun k hk => (h k hk).2⟩

theorem all1 {q : Nat → Prop} (h : q 0) (x : U8) : ∀ k, k < [x].length → q k := by
  intro k hk
  have : k = 0 := by simpa using hk
  exact this ▸ h
theorem all2 {q : Nat → Prop} (h : q 0) (h' : q 1) (x y : U8) : ∀ k, k < [x, y].length → q k := by
  intro k hk
  have : k = 0 ∨ k = 1 := by simp at hk; omega
  rcases this with rfl | rfl <;> assumption
theorem all4 {q : Nat → Prop} (h : q 0) (h1 : q 1) (h2 : q 2) (h3 : q 3) (x y z w : U8) : ∀ k, k < [x, y, z, w].length → q k := by
  intro k hk
  have : k = 0 ∨ k = 1 ∨ k = 2 ∨ k = 3 := by simp at hk; omega
  rcases this with rfl | rfl | rfl | rfl <;> assumption

theorem next_close (st : Stage) : st.next (Socket.new i).register (.wr (Socket.new i).register 0x01 [0x10] (.ok ()) : Ev E) = .closed := by
  have h : (i * 4 + 1).setWidth 5 ≠ (0 : BitVec 5) := reg_ne i
  simp [Stage.next, Touches, Ev.block, Ev.data, Ev.addr, Socket.new]
  exact h

theorem next_mode (m : U8) : Stage.closed.next (Socket.new i).register (.wr (Socket.new i).register 0x00 [m] (.ok ()) : Ev E) = .ready m := by
  have h : (i * 4 + 1).setWidth 5 ≠ (0 : BitVec 5) := reg_ne i
  simp [Stage.next, Touches, Ev.block, Ev.data, Ev.addr, Socket.new]
  exact h

theorem next_open (m : U8) : (Stage.ready m).next (Socket.new i).register (.wr (Socket.new i).register 0x01 [0x01] (.ok ()) : Ev E) = .opened m := by
  have h : (i * 4 + 1).setWidth 5 ≠ (0 : BitVec 5) := reg_ne i
  simp [Stage.next, Touches, Ev.block, Ev.data, Ev.addr, Socket.new]
  exact h

theorem next_other {x : U8} (hx : x ≠ 0x10) (hx' : x ≠ 0x01) (st : Stage) :
    st.next (Socket.new i).register (.wr (Socket.new i).register 0x01 [x] (.ok ()) : Ev E) = .unknown := by
  have h1 : ¬ x = 16#8 := hx
  have h2 : ¬ x = 1#8 := hx'
  cases st <;> simp [Stage.next, Touches, Ev.block, Ev.data, Ev.addr, Socket.new, h1, h2]

theorem next_anyMode (st : Stage) (h : st ≠ .closed) (m : U8) :
    st.next (Socket.new i).register (.wr (Socket.new i).register 0x00 [m] (.ok ()) : Ev E) = .unknown := by
  cases st
  case closed => exact absurd rfl h
  all_goals simp [Stage.next, Touches, Ev.block, Ev.data, Ev.addr, Socket.new]

theorem next_failed (st : Stage) {a : U16} (ha : a = 0x00 ∨ a = 0x01) (x : U8) (l : List U8) (e : E) :
    st.next (Socket.new i).register (.wr (Socket.new i).register a (x :: l) (.err e) : Ev E) = .unknown := by
  rcases ha with rfl | rfl
  all_goals simp [Stage.next, Touches, Ev.block, Ev.data, Ev.addr, Socket.new, List.range_succ_eq_map]

variable {P : List (Ev E) → Prop}

namespace Fit

theorem setTxWritePointer (hP : Keep (Socket.new i).register p P) (q : U16) :
    Logs base P ((Socket.new i).setTxWritePointer (traced B) q) (fun _ => P) (Fitting (Socket.new i).register p) :=
  write hP fun _ => mild_wr _ _ _ (all2 (by decide) (by decide) _ _)
theorem setRxReadPointer (hP : Keep (Socket.new i).register p P) (q : U16) :
    Logs base P ((Socket.new i).setRxReadPointer (traced B) q) (fun _ => P) (Fitting (Socket.new i).register p) :=
  write hP fun _ => mild_wr _ _ _ (all2 (by decide) (by decide) _ _)
theorem setSourcePort (hP : Keep (Socket.new i).register p P) (q : U16) :
    Logs base P ((Socket.new i).setSourcePort (traced B) q) (fun _ => P) (Fitting (Socket.new i).register p) :=
  write hP fun _ => mild_wr _ _ _ (all2 (by decide) (by decide) _ _)
theorem setDestinationPort (hP : Keep (Socket.new i).register p P) (q : U16) :
    Logs base P ((Socket.new i).setDestinationPort (traced B) q) (fun _ => P) (Fitting (Socket.new i).register p) :=
  write hP fun _ => mild_wr _ _ _ (all2 (by decide) (by decide) _ _)
theorem setDestinationIp (hP : Keep (Socket.new i).register p P) (q : Ipv4) :
    Logs base P ((Socket.new i).setDestinationIp (traced B) q) (fun _ => P) (Fitting (Socket.new i).register p) :=
  write hP fun _ => mild_wr _ _ _ (all4 (by decide) (by decide) (by decide) (by decide) _ _ _ _)
theorem setInterruptMask (hP : Keep (Socket.new i).register p P) (x : U8) :
    Logs base P ((Socket.new i).setInterruptMask (traced B) x) (fun _ => P) (Fitting (Socket.new i).register p) :=
  write hP fun _ => mild_wr _ _ _ (all1 (by decide) _)
theorem resetInterrupt (hP : Keep (Socket.new i).register p P) (x : Interrupt) :
    Logs base P ((Socket.new i).resetInterrupt (traced B) x) (fun _ => P) (Fitting (Socket.new i).register p) :=
  write hP fun _ => mild_wr _ _ _ (all1 (by decide) _)
theorem tx (hP : Keep (Socket.new i).register p P) (a : U16) (d : List U8) :
    Logs base P ((traced B).write (Socket.new i).txBuffer a d) (fun _ => P) (Fitting (Socket.new i).register p) :=
  write hP fun _ => mild_tx _ _ _
theorem rx (hP : Keep (Socket.new i).register p P) (a : U16) :
    Logs base P ((traced B).readSlice (Socket.new i).rxBuffer a) (fun _ => P) (Fitting (Socket.new i).register p) :=
  readSlice hP fun _ _ => mild_rx _ _ _
theorem hasInterrupt (hP : Keep (Socket.new i).register p P) (x : Interrupt) :
    Logs base P ((Socket.new i).hasInterrupt (traced B) x) (fun _ => P) (Fitting (Socket.new i).register p) :=
  .bind (read1 hP fun _ _ => mild_rd _ _ _ (all1 (by decide) _)) fun _ => .pure fun _ h => h
theorem reg2 (hP : Keep (Socket.new i).register p P) (a : U16) (h : a ≠ 3) (h' : a ≠ 2) :
    Logs base P ((traced B).read2 (Socket.new i).register a) (fun _ => P) (Fitting (Socket.new i).register p) :=
  read2 hP fun _ _ _ => mild_rd _ _ _ (all2 (by simpa using h) (by
    intro h2
    apply h'
    have : a + 1#16 = 2#16 + 1#16 := h2
    exact (BitVec.add_left_inj 1#16).mp this) _ _)
theorem receiveSize (hP : Keep (Socket.new i).register p P) :
    ∀ n, Logs base P ((Socket.new i).getReceiveSize (traced B) n) (fun _ => P) (Fitting (Socket.new i).register p)
  | 0 => .outOfFuel hP.2
  | n + 1 => .bind (reg2 hP _ (by decide) (by decide)) fun _ => .bind (reg2 hP _ (by decide) (by decide)) fun _ =>
      .ite (fun _ => .pure fun _ h => h) fun _ => receiveSize hP n
theorem waitSendOk (hP : Keep (Socket.new i).register p P) :
    ∀ n, Logs base P (RawDevice.waitSendOk (traced B) (Socket.new i) n) (fun _ => P) (Fitting (Socket.new i).register p)
  | 0 => .outOfFuel hP.2
  | n + 1 => by
    unfold RawDevice.waitSendOk
    refine .bind (hasInterrupt hP _) fun y => ?_
    split
    · exact .pure fun _ h => h
    · exact waitSendOk hP n

/-- Closing needs no knowledge. -/
theorem close (hP : Keep (Socket.new i).register p P) : Logs base P ((Socket.new i).command (traced B) .close)
    (fun _ => Stands (Socket.new i).register p .closed) (Fitting (Socket.new i).register p) := by
  constructor
  intro t evs hs hp
  obtain ⟨evs', h1, h2⟩ := (wrote (B := B) (base := base) (p := p) (Socket.new i) (stage (Socket.new i).register evs) 0x01 0x10
    (fun _ => .inl rfl) (.inr rfl)).run t evs hs ⟨hP.2 _ hp, rfl⟩
  rw [next_close] at h2
  exact ⟨evs', h1, h2⟩

theorem setMode (m : Protocol) : Logs base (Stands (Socket.new i).register p .closed) ((Socket.new i).setMode (traced B) m)
    (fun _ => Stands (Socket.new i).register p (.ready m.toU8)) (Fitting (Socket.new i).register p) :=
  (wrote (Socket.new i) .closed 0x00 m.toU8 (fun h => absurd h (by decide)) (.inl rfl)).post fun _ _ h => by
    rw [next_mode] at h
    exact h

/-- Changing the mode without having closed the socket. -/
theorem anyMode (hP : Keep (Socket.new i).register p P) (m : Protocol) : Logs base P ((Socket.new i).setMode (traced B) m)
    (fun _ => Fitting (Socket.new i).register p) (Fitting (Socket.new i).register p) := by
  constructor
  intro t evs hs hp
  obtain ⟨evs', h1, h2⟩ := (wrote (B := B) (base := base) (p := p) (Socket.new i) (stage (Socket.new i).register evs) 0x00 m.toU8
    (fun h => absurd h (by decide)) (.inl rfl)).run t evs hs ⟨hP.2 _ hp, rfl⟩
  refine ⟨evs', h1, ?_⟩
  rw [show ((Socket.new i).setMode (traced B) m t).1 = ((traced B).write (Socket.new i).register 0x00 [m.toU8] t).1 from rfl]
  generalize ((traced B).write (Socket.new i).register 0x00 [m.toU8] t).1 = r at h2
  cases r
  · exact h2.1
  all_goals exact h2

/-- Opening a closed socket with its mode. -/
theorem «open» : Logs base (Stands (Socket.new i).register p (.ready p)) ((Socket.new i).command (traced B) .open)
    (fun _ => Stands (Socket.new i).register p (.opened p)) (Fitting (Socket.new i).register p) :=
  (wrote (Socket.new i) (.ready p) 0x01 0x01 (fun _ => .inr (.inl ⟨rfl, rfl⟩)) (.inr rfl)).post fun _ _ h => by
    rw [next_open] at h
    exact h

/-- The other commands. -/
theorem give {st : Stage} (c : Command) (h : Allowed p st c.toU8) : Logs base (Stands (Socket.new i).register p st)
    ((Socket.new i).command (traced B) c) (fun _ => Fitting (Socket.new i).register p) (Fitting (Socket.new i).register p) :=
  (wrote (Socket.new i) st 0x01 c.toU8 (fun _ => h) (.inr rfl)).post fun _ _ h => h.1

end Fit

/-! ## TCP -/

theorem tcpOpen_fits (q : U16) (hP : Keep (Socket.new i).register 1 P) : Logs base P (TcpSocket.open (traced B) ⟨.new i⟩ q)
    (fun _ => Stands (Socket.new i).register 1 (.opened 1)) (Fitting (Socket.new i).register 1) := by
  unfold TcpSocket.open
  refine .mapErr (.bind (Fit.close hP) fun _ => .bind (Fit.resetInterrupt (keep_at _) _) fun _ => .bind (Fit.setSourcePort (keep_at _) _) fun _ => ?_)
  exact .bind (Fit.setMode _) fun _ => .bind (Fit.setInterruptMask (keep_at _) _) fun _ => Fit.open

theorem tcpReopen_fits (hP : Keep (Socket.new i).register 1 P) : Logs base P (TcpSocket.reopen (traced B) ⟨.new i⟩)
    (fun _ => Stands (Socket.new i).register 1 (.opened 1)) (Fitting (Socket.new i).register 1) := by
  unfold TcpSocket.reopen
  refine .mapErr (.bind (Fit.close hP) fun _ => .bind (Fit.resetInterrupt (keep_at _) _) fun _ => ?_)
  exact .bind (Fit.setMode _) fun _ => .bind (Fit.setInterruptMask (keep_at _) _) fun _ => Fit.open

theorem tcpClose_fits (hP : Keep (Socket.new i).register 1 P) : Logs base P (TcpSocket.socketClose (traced B) ⟨.new i⟩)
    (fun _ => Fitting (Socket.new i).register 1) (Fitting (Socket.new i).register 1) := by
  unfold TcpSocket.socketClose
  exact .mapErr (.bind (Fit.anyMode hP _) fun _ => (Fit.close keep_fit).post fun _ _ h => h.1)

theorem connectLoop_fits : ∀ n, Logs base (Fitting (Socket.new i).register 1) (TcpSocket.connectLoop (traced B) ⟨.new i⟩ n)
    (fun _ => Fitting (Socket.new i).register 1) (Fitting (Socket.new i).register 1)
  | 0 => .outOfFuel fun _ h => h
  | n + 1 => by
    unfold TcpSocket.connectLoop
    refine .bind (.mapErr (Fit.status _ keep_fit)) fun y => ?_
    split
    · exact .pure fun _ h => h.1
    · exact .bind (tcpClose_fits (keep_at _)) fun _ => (tcpReopen_fits keep_fit).post fun _ _ h => h.1
    · exact (connectLoop_fits n).pre fun _ h => h.1

theorem seen_init {y : U8} (h : Status.tryFrom y = some .init) : y = 0x13 := by
  revert h; revert y; decide +kernel

theorem tcpConnect_fits (fuel : Nat) (r : SockAddr4) (hP : Keep (Socket.new i).register 1 P) :
    Logs base P (TcpSocket.socketConnect (traced B) fuel ⟨.new i⟩ r) (fun _ => Fitting (Socket.new i).register 1)
      (Fitting (Socket.new i).register 1) := by
  have rest : ∀ st, st = .seen 0x13 ∨ st = .opened 1 → Logs base (Stands (Socket.new i).register 1 st) (do
      M.mapErr TcpSocketError.other ((Socket.new i).setDestinationIp (traced B) r.ip)
      M.mapErr TcpSocketError.other ((Socket.new i).setDestinationPort (traced B) r.port)
      M.mapErr TcpSocketError.other ((Socket.new i).command (traced B) .connect)
      TcpSocket.connectLoop (traced B) ⟨.new i⟩ fuel) (fun _ => Fitting (Socket.new i).register 1) (Fitting (Socket.new i).register 1) := by
    intro st hst
    refine .bind (.mapErr (Fit.setDestinationIp (keep_at _) _)) fun _ => .bind (.mapErr (Fit.setDestinationPort (keep_at _) _)) fun _ => ?_
    exact .bind (.mapErr (Fit.give .connect (.inr (.inr (.inl ⟨rfl, rfl, hst⟩))))) fun _ => connectLoop_fits _
  unfold TcpSocket.socketConnect
  refine .bind (.mapErr (Fit.status _ hP)) fun y => ?_
  dsimp only
  split
  · rename_i hy
    cases seen_init hy
    exact rest _ (.inl rfl)
  all_goals
    first
    | exact .throw fun _ h => h.1
    | exact .bind (tcpClose_fits (keep_at _)) fun _ => .bind (tcpReopen_fits keep_fit) fun _ => rest _ (.inr rfl)

theorem seen_established {y : U8} (h : ¬ (!decide (y = Status.established.toU8)) = true) : y = 0x17 := by
  revert h; revert y; decide +kernel

theorem tcpSend_fits (fuel : Nat) (data : List U8) :
    Logs base (Fitting (Socket.new i).register 1) (TcpSocket.socketSend (traced B) fuel ⟨.new i⟩ data)
      (fun _ => Fitting (Socket.new i).register 1) (Fitting (Socket.new i).register 1) := by
  unfold TcpSocket.socketSend TcpSocket.socketIsConnected
  refine .bind (Q := fun y l => ∃ x, y = decide (x = Status.established.toU8) ∧ Stands (Socket.new i).register 1 (.seen x) l)
    (.bind (.mapErr (Fit.status _ keep_fit)) fun x => .pure fun _ h => ⟨x, rfl, h⟩) fun y => .ite
    (fun _ => .throw fun _ ⟨_, _, h⟩ => h.1) fun hy => ?_
  refine Logs.pre (P := Stands (Socket.new i).register 1 (.seen 0x17)) ?_ fun l ⟨x, h1, h2⟩ => by
    subst h1
    exact seen_established hy ▸ h2
  have c := keep_at (E := E) (b := (Socket.new i).register) (p := 1) (.seen 0x17)
  refine .bind (.mapErr (Fit.reg2 c _ (by decide) (by decide))) fun free => ?_
  dsimp only
  split
  all_goals
    first
    | refine .bind (.sliceTo _ _ fun _ h => h.1) fun d => ?_
    | refine .bind (Q := fun _ => Stands (Socket.new i).register 1 (.seen 0x17)) (.pure fun _ h => h) fun d => ?_
    refine .bind (.mapErr (Fit.reg2 c _ (by decide) (by decide))) fun q => ?_
    refine .bind (.mapErr (Fit.tx c _ _)) fun _ => .bind (.mapErr (Fit.setTxWritePointer c _)) fun _ => ?_
    refine .bind (.mapErr (Fit.give .send (.inr (.inr (.inr ⟨.inl rfl, rfl⟩))))) fun _ => ?_
    exact .bind (.mapErr (Fit.waitSendOk keep_fit _)) fun _ => .bind (.mapErr (Fit.resetInterrupt keep_fit _)) fun _ => .pure fun _ h => h

theorem tcpReceive_fits (fuel : Nat) :
    Logs base (Fitting (Socket.new i).register 1) (TcpSocket.socketReceive (traced B) fuel ⟨.new i⟩)
      (fun _ => Fitting (Socket.new i).register 1) (Fitting (Socket.new i).register 1) := by
  unfold TcpSocket.socketReceive TcpSocket.socketIsConnected
  refine .bind (Q := fun y l => ∃ x, y = decide (x = Status.established.toU8) ∧ Stands (Socket.new i).register 1 (.seen x) l)
    (.onSnd (.bind (.mapErr (Fit.status _ keep_fit)) fun x => .pure fun _ h => ⟨x, rfl, h⟩)) fun y => .ite
    (fun _ => .throw fun _ ⟨_, _, h⟩ => h.1) fun hy => ?_
  refine Logs.pre (P := Stands (Socket.new i).register 1 (.seen 0x17)) ?_ fun l ⟨x, h1, h2⟩ => by
    subst h1
    exact seen_established hy ▸ h2
  have c := keep_at (E := E) (b := (Socket.new i).register) (p := 1) (.seen 0x17)
  refine .bind (.onSnd (.mapErr (Fit.hasInterrupt c _))) fun y => .ite (fun _ => .pure fun _ h => h.1) fun _ => ?_
  refine .bind (.onSnd (.mapErr (Fit.receiveSize c _))) fun size => ?_
  refine .bind (Q := fun _ => Stands (Socket.new i).register 1 (.seen 0x17)) .get fun _ => ?_
  refine .bind (.onSnd (.mapErr (Fit.reg2 c _ (by decide) (by decide)))) fun q => ?_
  refine .bind (.withPrefix _ (.mapErr (Fit.rx c _)) fun _ h => h.1) fun _ => ?_
  refine .bind (.onSnd (.mapErr (Fit.setRxReadPointer c _))) fun _ => ?_
  refine .bind (.onSnd (.mapErr (Fit.give .receive (.inr (.inr (.inr ⟨.inr rfl, rfl⟩)))))) fun _ => ?_
  exact .bind (.onSnd (.mapErr (Fit.resetInterrupt keep_fit _))) fun _ => .pure fun _ h => h

/-! ## UDP -/

theorem udpOpen_fits {u : UdpSocket} (hu : u.socket = .new i) (hP : Keep (Socket.new i).register 2 P) : Logs base P (u.open (traced B))
    (fun _ => Stands (Socket.new i).register 2 (.opened 2)) (Fitting (Socket.new i).register 2) := by
  obtain ⟨_, dest, port⟩ := u
  cases hu
  refine .bind (Fit.close hP) fun _ => .bind (Fit.resetInterrupt (keep_at _) _) fun _ => .bind (Fit.setSourcePort (keep_at _) _) fun _ => ?_
  exact .bind (Fit.setMode _) fun _ => .bind (Fit.setInterruptMask (keep_at _) _) fun _ => Fit.open

theorem udpClose_fits {u : UdpSocket} (hu : u.socket = .new i) (hP : Keep (Socket.new i).register 2 P) :
    Logs base P (u.socketClose (traced B)) (fun _ => Fitting (Socket.new i).register 2) (Fitting (Socket.new i).register 2) := by
  obtain ⟨_, dest, port⟩ := u
  cases hu
  exact .mapErr (.bind (Fit.anyMode hP _) fun _ => (Fit.close keep_fit).post fun _ _ h => h.1)

theorem seen_udp {y : U8} (h : Status.tryFrom y = some .udp) : y = 0x22 := by
  revert h; revert y; decide +kernel

theorem checkStatus_fits {u : UdpSocket} (hu : u.socket = .new i) (hP : Keep (Socket.new i).register 2 P) :
    Logs base P (u.checkStatus (traced B)) (fun _ => Stands (Socket.new i).register 2 (.seen 0x22)) (Fitting (Socket.new i).register 2) := by
  obtain ⟨_, dest, port⟩ := u
  cases hu
  unfold UdpSocket.checkStatus
  refine .bind (.mapErr (Fit.status _ hP)) fun st => ?_
  split
  · rename_i h
    cases seen_udp h
    exact .pure fun _ h => h
  all_goals exact .throw fun _ h => h.1

theorem tryFlushTx_fits {u : UdpSocket} (hu : u.socket = .new i) : Logs base (Fitting (Socket.new i).register 2) (u.tryFlushTx (traced B))
    (fun _ => Fitting (Socket.new i).register 2) (Fitting (Socket.new i).register 2) := by
  obtain ⟨_, dest, port⟩ := u
  cases hu
  have c := keep_fit (E := E) (b := (Socket.new i).register) (p := 2)
  unfold UdpSocket.tryFlushTx
  refine .bind (.mapErr (Fit.reg2 c _ (by decide) (by decide))) fun _ => .bind (.mapErr (Fit.reg2 c _ (by decide) (by decide))) fun _ => ?_
  refine .ite (fun _ => ?_) fun _ => .throw fun _ h => h
  refine .bind (.mapErr (Fit.hasInterrupt c _)) fun y => .ite (fun _ => .mapErr (Fit.resetInterrupt c _)) fun _ => ?_
  refine .bind (.mapErr (Fit.hasInterrupt c _)) fun y => .ite (fun _ => ?_) fun _ => .pure fun _ h => h
  exact .bind (.mapErr (Fit.resetInterrupt c _)) fun _ => .throw fun _ h => h

theorem flushLoop_fits {u : UdpSocket} (hu : u.socket = .new i) : ∀ n, Logs base (Fitting (Socket.new i).register 2) (u.flushLoop (traced B) n)
    (fun _ => Fitting (Socket.new i).register 2) (Fitting (Socket.new i).register 2)
  | 0 => .outOfFuel fun _ h => h
  | n + 1 => by
    constructor
    intro s evs hs hp
    obtain ⟨evs', h1, h2⟩ := (tryFlushTx_fits (B := B) (base := base) hu).run s evs hs hp
    unfold UdpSocket.flushLoop
    rcases hr : u.tryFlushTx (traced B) s with ⟨_ | (_ | _) | _ | _, t⟩
    all_goals rw [hr] at h1 h2
    case err.wouldBlock => exact (flushLoop_fits hu n).run t evs' h1 h2
    all_goals exact ⟨evs', h1, h2⟩

theorem udpSend_fits {u : UdpSocket} (hu : u.socket = .new i) (fuel : Nat) (data : List U8) :
    Logs base (Fitting (Socket.new i).register 2) (u.socketSend (traced B) fuel data) (fun _ => Fitting (Socket.new i).register 2)
      (Fitting (Socket.new i).register 2) := by
  have hc := checkStatus_fits (B := B) (base := base) hu keep_fit
  have hf := flushLoop_fits (B := B) (base := base) hu fuel
  obtain ⟨_, dest, port⟩ := u
  cases hu
  have c := keep_at (E := E) (b := (Socket.new i).register) (p := 2) (.seen 0x22)
  unfold UdpSocket.socketSend UdpSocket.blockSendCommand
  refine .bind hc fun _ => .ite (fun _ => .throw fun _ h => h.1) fun _ => ?_
  refine .bind (.mapErr (Fit.reg2 c _ (by decide) (by decide))) fun free => .ite (fun _ => .throw fun _ h => h.1) fun _ => ?_
  dsimp only
  split
  all_goals
    first
    | refine .bind (.sliceTo _ _ fun _ h => h.1) fun d => ?_
    | refine .bind (Q := fun _ => Stands (Socket.new i).register 2 (.seen 0x22)) (.pure fun _ h => h) fun d => ?_
    refine .bind (.mapErr (Fit.reg2 c _ (by decide) (by decide))) fun q => ?_
    refine .bind (.mapErr (Fit.tx c _ _)) fun _ => .bind (.mapErr (Fit.setTxWritePointer c _)) fun _ => ?_
    exact .bind (.bind (.mapErr (Fit.give .send (.inr (.inr (.inr ⟨.inl rfl, rfl⟩))))) fun _ => hf) fun _ => .pure fun _ h => h

theorem sendAllLoop_fits {u : UdpSocket} (hu : u.socket = .new i) (fuel : Nat) (data : List U8) : ∀ n free sent,
    Logs base (Fitting (Socket.new i).register 2) (u.sendAllLoop (traced B) fuel data n free sent)
      (fun _ => Fitting (Socket.new i).register 2) (Fitting (Socket.new i).register 2)
  | 0, _, _ => .outOfFuel fun _ h => h
  | n + 1, free, sent => by
    unfold UdpSocket.sendAllLoop
    refine .ite (fun _ => .pure fun _ h => h) fun _ => ?_
    refine .bind (.sliceFrom _ _ fun _ h => h) fun _ => .bind (.sliceTo _ _ fun _ h => h) fun _ => ?_
    refine .bind (udpSend_fits hu _ _) fun _ => .bind (.mapErr ?_) fun _ => sendAllLoop_fits hu fuel data n _ _
    rw [hu]
    exact Fit.reg2 keep_fit _ (by decide) (by decide)

theorem sendAll_fits {u : UdpSocket} (hu : u.socket = .new i) (fuel : Nat) (data : List U8) :
    Logs base (Fitting (Socket.new i).register 2) (u.socketSendAll (traced B) fuel data) (fun _ => Fitting (Socket.new i).register 2)
      (Fitting (Socket.new i).register 2) := by
  unfold UdpSocket.socketSendAll
  refine .bind (checkStatus_fits hu keep_fit) fun _ => .ite (fun _ => .throw fun _ h => h.1) fun _ => ?_
  refine .bind (Q := fun _ => Fitting (Socket.new i).register 2) (.mapErr ?_) fun free =>
    .ite (fun _ => .throw fun _ h => h) fun _ => sendAllLoop_fits hu _ _ _ _ _
  rw [hu]
  exact (Fit.reg2 (keep_at _) _ (by decide) (by decide)).post fun _ _ h => h.1

theorem udpReceive_fits {u : UdpSocket} (hu : u.socket = .new i) (fuel : Nat) :
    Logs base (Fitting (Socket.new i).register 2) (u.socketReceive (traced B) fuel) (fun _ => Fitting (Socket.new i).register 2)
      (Fitting (Socket.new i).register 2) := by
  have hc := checkStatus_fits (B := B) (base := base) hu keep_fit
  obtain ⟨_, dest, port⟩ := u
  cases hu
  have c := keep_at (E := E) (b := (Socket.new i).register) (p := 2) (.seen 0x22)
  unfold UdpSocket.socketReceive
  refine .bind (.onSnd hc) fun _ => ?_
  refine .bind (.onSnd (.mapErr (Fit.hasInterrupt c _))) fun y => .ite (fun _ => .throw fun _ h => h.1) fun _ => ?_
  refine .bind (.onSnd (.mapErr (Fit.receiveSize c _))) fun size => .ite (fun _ => .throw fun _ h => h.1) fun _ => ?_
  refine .bind (Q := fun _ => Stands (Socket.new i).register 2 (.seen 0x22)) .get fun _ => .ite (fun _ => .throw fun _ h => h.1) fun _ => ?_
  refine .bind (.onSnd (.mapErr (Fit.reg2 c _ (by decide) (by decide)))) fun q => ?_
  refine .bind (.onSnd (.mapErr (Fit.readBuf c fun _ _ _ => mild_rx _ _ _))) fun hd => ?_
  split
  · exact .panic fun _ h => h.1
  refine .bind (.withPrefix _ (.mapErr (Fit.rx c _)) fun _ h => h.1) fun _ => ?_
  refine .bind (.onSnd (.mapErr (Fit.setRxReadPointer c _))) fun _ => ?_
  refine .bind (.onSnd (.mapErr (Fit.give .receive (.inr (.inr (.inr ⟨.inr rfl, rfl⟩)))))) fun _ => ?_
  exact .bind (.onSnd (.mapErr (Fit.resetInterrupt keep_fit _))) fun _ => .pure fun _ h => h

/-- `Logs`, for programs that work on a socket object with hardware socket `i` and keep it. -/
structure LogsU (i : U8) (base : List (Ev E)) (P : List (Ev E) → Prop) (m : M (UdpSocket × TW W E) ε α) (Q : α → List (Ev E) → Prop)
    (R : List (Ev E) → Prop) : Prop where
  run : ∀ s evs, s.1.socket = .new i → s.2.log = base ++ evs → P evs → (m s).2.1.socket = .new i ∧
    ∃ evs', (m s).2.2.log = base ++ evs' ∧ (match (m s).1 with | .ok a => Q a evs' | _ => R evs')

namespace LogsU
variable {R : List (Ev E) → Prop} {Q : α → List (Ev E) → Prop}

theorem bind {m : M (UdpSocket × TW W E) ε α} {f : α → M (UdpSocket × TW W E) ε β} {Q' : β → List (Ev E) → Prop}
    (hm : LogsU i base P m Q R) (hf : ∀ a, LogsU i base (Q a) (f a) Q' R) : LogsU i base P (m >>= f) Q' R := by
  constructor
  intro s evs hu hs hp
  obtain ⟨h0, e1, h1, h2⟩ := hm.run s evs hu hs hp
  rw [M.bind_def]
  rcases hr : m s with ⟨a | _ | _ | _, s'⟩
  all_goals rw [hr] at h0 h1 h2
  · exact (hf a).run s' e1 h0 h1 h2
  all_goals exact ⟨h0, e1, h1, h2⟩

theorem get {f : UdpSocket × TW W E → M (UdpSocket × TW W E) ε β} {Q' : β → List (Ev E) → Prop}
    (hf : ∀ s, s.1.socket = .new i → LogsU i base P (f s) Q' R) : LogsU i base P (M.get >>= f) Q' R :=
  ⟨fun s evs hu hs hp => (hf s hu).run s evs hu hs hp⟩

theorem mapErr {f : ε' → ε} {m : M (UdpSocket × TW W E) ε' α} (h : LogsU i base P m Q R) : LogsU i base P (M.mapErr f m) Q R := by
  constructor
  intro s evs hu hs hp
  obtain ⟨h0, e1, h1, h2⟩ := h.run s evs hu hs hp
  unfold M.mapErr
  rcases hr : m s with ⟨a | _ | _ | _, s'⟩
  all_goals rw [hr] at h0 h1 h2; exact ⟨h0, e1, h1, h2⟩

theorem onSnd {m : M (TW W E) ε α} (h : Logs base P m Q R) : LogsU i base P (M.onSnd m) Q R :=
  ⟨fun s evs hu hs hp => ⟨hu, h.run s.2 evs hs hp⟩⟩

theorem pure {a : α} (h : ∀ l, P l → Q a l) : LogsU i base P (Pure.pure a : M (UdpSocket × TW W E) ε α) Q R :=
  ⟨fun _ evs hu hs hp => ⟨hu, evs, hs, h _ hp⟩⟩

theorem modify {f : UdpSocket → UdpSocket} (h : ∀ u, (f u).socket = u.socket) :
    LogsU i base P (M.modify (fun s => (f s.1, s.2)) : M (UdpSocket × TW W E) ε Unit) (fun _ => P) R :=
  ⟨fun s evs hu hs hp => ⟨(h s.1).trans hu, evs, hs, hp⟩⟩

theorem start {m : M (UdpSocket × TW W E) ε α} (h : ∀ base, LogsU i base (Fitting (Socket.new i).register p) m
    (fun _ => Fitting (Socket.new i).register p) (Fitting (Socket.new i).register p)) (u : UdpSocket) (hu : u.socket = .new i) (w : TW W E) :
    ∃ evs, (m (u, w)).2.2.log = w.log ++ evs ∧ Fitting (Socket.new i).register p evs := by
  obtain ⟨_, evs, h1, h2⟩ := (h w.log).run (u, w) [] hu (List.append_nil _).symm fitting_nil
  refine ⟨evs, h1, ?_⟩
  generalize (m (u, w)).1 = x at h2
  cases x <;> exact h2

end LogsU

theorem setDestination_fits (r : SockAddr4) (hP : Keep (Socket.new i).register 2 P) :
    LogsU i base P (UdpSocket.setDestination (traced B) r) (fun _ => P) (Fitting (Socket.new i).register 2) := by
  refine .get fun s hs => ?_
  have key : ∀ x : Bool, LogsU i base P (if x = true then (do
        M.mapErr UdpSocketError.other (M.onSnd (s.1.socket.setDestinationIp (traced B) r.ip))
        M.mapErr UdpSocketError.other (M.onSnd (s.1.socket.setDestinationPort (traced B) r.port))
        M.modify (fun s => ({ s.1 with destination := some r }, s.2)) : M (UdpSocket × TW W E) (UdpSocketError E) Unit)
      else pure ()) (fun _ => P) (Fitting (Socket.new i).register 2) := by
    intro x; cases x
    · exact .pure fun _ h => h
    · rw [hs]
      refine .bind (.mapErr (.onSnd (Fit.setDestinationIp hP _))) fun _ => .bind (.mapErr (.onSnd (Fit.setDestinationPort hP _))) fun _ => ?_
      exact .modify (f := fun u => { u with destination := some r }) fun _ => rfl
  exact key _

theorem sendTo_fits (r : SockAddr4) (fuel : Nat) (data : List U8) : LogsU i base (Fitting (Socket.new i).register 2)
    (UdpSocket.socketSendTo (traced B) fuel r data) (fun _ => Fitting (Socket.new i).register 2) (Fitting (Socket.new i).register 2) :=
  .bind (.mapErr (setDestination_fits r keep_fit)) fun _ => .get fun _ hs => .onSnd (sendAll_fits hs fuel data)

theorem udpConnect_fits (r : SockAddr4) : LogsU i base (Fitting (Socket.new i).register 2)
    (do
      let self := (← M.get).1
      M.mapErr .other (M.onSnd (self.open (traced B)))
      UdpSocket.setDestination (traced B) r : M (UdpSocket × TW W E) (UdpSocketError E) Unit)
    (fun _ => Fitting (Socket.new i).register 2) (Fitting (Socket.new i).register 2) :=
  .get fun _ hs => .bind (Q := fun _ => Fitting (Socket.new i).register 2)
    (.mapErr (.onSnd ((udpOpen_fits hs keep_fit).post fun _ _ h => h.1))) fun _ => setDestination_fits r keep_fit

theorem udpBind_fits (q : U16) : LogsU i base (Fitting (Socket.new i).register 2)
    (do
      UdpSocket.setPort (traced B) q
      let self := (← M.get).1
      M.mapErr .other (M.onSnd (self.open (traced B))) : M (UdpSocket × TW W E) (UdpSocketError E) Unit)
    (fun _ => Fitting (Socket.new i).register 2) (Fitting (Socket.new i).register 2) := by
  refine .bind (Q := fun _ => Fitting (Socket.new i).register 2) ?_ fun _ => .get fun _ hs =>
    .mapErr (.onSnd ((udpOpen_fits hs keep_fit).post fun _ _ h => h.1))
  refine .bind (.modify (f := fun u => { u with port := q }) fun _ => rfl) fun _ => .get fun s hs => .mapErr (.onSnd ?_)
  rw [hs]
  exact Fit.setSourcePort keep_fit _

/-- From the start of the call. -/
theorem Logs.fits [HasLog σ E] {m : M σ ε α} {i : U8} {p : U8} (h : ∀ base, Logs base (Fitting (Socket.new i).register p) m
    (fun _ => Fitting (Socket.new i).register p) (Fitting (Socket.new i).register p)) (s : σ) :
    ∃ evs, HasLog.log (m s).2 = HasLog.log s ++ evs ∧ Fitting (Socket.new i).register p evs := by
  obtain ⟨evs, h1, h2⟩ := (h (HasLog.log s)).run s [] (List.append_nil _).symm fitting_nil
  refine ⟨evs, h1, ?_⟩
  generalize (m s).1 = x at h2
  cases x <;> exact h2

end
end
end W5500
