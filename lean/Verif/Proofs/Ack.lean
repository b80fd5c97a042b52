import Verif.Spec.Ack
import Verif.Proofs.Trace
import Verif.Proofs.Bytes
import Verif.Proofs.Client
/-! # Properties of the traffic so far, compositionally -/

namespace W5500
open Spec socketn
variable {W σ τ E ε ε' α β S H : Type}

/-- If the traffic since `base` satisfies `P` before `m`, it satisfies `Q a` afterwards if `m` returned `Ok a`, and `R` otherwise. -/
structure Logs [HasLog σ E] (base : List (Ev E)) (P : List (Ev E) → Prop) (m : M σ ε α) (Q : α → List (Ev E) → Prop)
    (R : List (Ev E) → Prop) : Prop where
  run : ∀ s evs, HasLog.log s = base ++ evs → P evs → ∃ evs', HasLog.log (m s).2 = base ++ evs' ∧
    (match (m s).1 with | .ok a => Q a evs' | _ => R evs')

namespace Logs
variable [HasLog σ E] {base : List (Ev E)} {P P' R R' : List (Ev E) → Prop} {Q Q' : α → List (Ev E) → Prop}

theorem conseq {m : M σ ε α} (h : Logs base P m Q R) (hp : ∀ l, P' l → P l) (hq : ∀ a l, Q a l → Q' a l) (hr : ∀ l, R l → R' l) :
    Logs base P' m Q' R' := by
  constructor
  intro s evs hs hp'
  obtain ⟨evs', h1, h2⟩ := h.run s evs hs (hp _ hp')
  refine ⟨evs', h1, ?_⟩
  generalize (m s).1 = r at h2
  cases r
  · exact hq _ _ h2
  all_goals exact hr _ h2

theorem pre {m : M σ ε α} (h : Logs base P m Q R) (hp : ∀ l, P' l → P l) : Logs base P' m Q R := h.conseq hp (fun _ _ h => h) fun _ h => h

theorem post {m : M σ ε α} (h : Logs base P m Q R) (hq : ∀ a l, Q a l → Q' a l) : Logs base P m Q' R := h.conseq (fun _ h => h) hq fun _ h => h

theorem pure {a : α} (h : ∀ l, P l → Q a l) : Logs base P (Pure.pure a : M σ ε α) Q R := ⟨fun _ evs hs hp => ⟨evs, hs, h _ hp⟩⟩
theorem throw {e : ε} (h : ∀ l, P l → R l) : Logs base P (M.throw e : M σ ε α) Q R := ⟨fun _ evs hs hp => ⟨evs, hs, h _ hp⟩⟩
theorem panic (h : ∀ l, P l → R l) : Logs base P (M.panic : M σ ε α) Q R := ⟨fun _ evs hs hp => ⟨evs, hs, h _ hp⟩⟩
theorem outOfFuel (h : ∀ l, P l → R l) : Logs base P (M.outOfFuel : M σ ε α) Q R := ⟨fun _ evs hs hp => ⟨evs, hs, h _ hp⟩⟩
theorem get : Logs base P (M.get : M σ ε σ) (fun _ => P) R := ⟨fun _ evs hs hp => ⟨evs, hs, hp⟩⟩

theorem sliceTo (b : List U8) (n : Nat) (h : ∀ l, P l → R l) : Logs base P (M.sliceTo b n : M σ ε _) (fun _ => P) R := by
  unfold M.sliceTo
  split
  · exact .pure fun _ h => h
  · exact .panic h

theorem sliceFrom (b : List U8) (n : Nat) (h : ∀ l, P l → R l) : Logs base P (M.sliceFrom b n : M σ ε _) (fun _ => P) R := by
  unfold M.sliceFrom
  split
  · exact .pure fun _ h => h
  · exact .panic h

theorem bind {m : M σ ε α} {f : α → M σ ε β} {Q' : β → List (Ev E) → Prop} (hm : Logs base P m Q R)
    (hf : ∀ a, Logs base (Q a) (f a) Q' R) : Logs base P (m >>= f) Q' R := by
  constructor
  intro s evs hs hp
  obtain ⟨e1, h1, h2⟩ := hm.run s evs hs hp
  rw [M.bind_def]
  rcases hr : m s with ⟨a | _ | _ | _, s'⟩
  all_goals rw [hr] at h1 h2
  · exact (hf a).run s' e1 h1 h2
  all_goals exact ⟨e1, h1, h2⟩

theorem mapErr {f : ε' → ε} {m : M σ ε' α} (h : Logs base P m Q R) : Logs base P (M.mapErr f m) Q R := by
  constructor
  intro s evs hs hp
  obtain ⟨e1, h1, h2⟩ := h.run s evs hs hp
  unfold M.mapErr
  rcases hr : m s with ⟨a | _ | _ | _, s'⟩
  all_goals rw [hr] at h1 h2; exact ⟨e1, h1, h2⟩

theorem zoom [HasLog τ E] {get : τ → σ} {put : σ → τ → τ} {m : M σ ε α}
    (hg : ∀ s, HasLog.log (get s) = HasLog.log s) (hp : ∀ t s, HasLog.log (put t s) = HasLog.log t)
    (h : Logs base P m Q R) : Logs base P (M.zoom get put m) Q R := by
  constructor
  intro s evs hs hP
  obtain ⟨e1, h1, h2⟩ := h.run (get s) evs ((hg s).trans hs) hP
  exact ⟨e1, by simp only [M.zoom, hp, h1], h2⟩

theorem onSnd {m : M σ ε α} (h : Logs base P m Q R) : Logs base P (M.onSnd m : M (S × σ) ε α) Q R :=
  .zoom (fun _ => rfl) (fun _ _ => rfl) h
theorem onBus {m : M σ ε α} (h : Logs base P m Q R) : Logs base P (Device.onBus m : M (Device σ H) ε α) Q R :=
  .zoom (fun _ => rfl) (fun _ _ => rfl) h
theorem onSockBus {m : M (S × σ) ε α} (h : Logs base P m Q R) : Logs base P (Device.onSockBus m : M (S × Device σ H) ε α) Q R :=
  .zoom (fun _ => rfl) (fun _ _ => rfl) h

theorem withPrefix {m : M (List U8 × σ) ε α} (n : Nat) (h : Logs base P m Q R) (hr : ∀ l, P l → R l) :
    Logs base P (M.withPrefix n m) Q R := by
  constructor
  intro s evs hs hp
  unfold M.withPrefix
  split
  · exact h.run (s.1.take n, s.2) evs hs hp
  · exact ⟨evs, hs, hr _ hp⟩

theorem modifyFst (f : S → σ → S) : Logs base P (M.modify (fun s => (f s.1 s.2, s.2)) : M (S × σ) ε Unit) (fun _ => P) R :=
  ⟨fun _ evs hs hp => ⟨evs, hs, hp⟩⟩

theorem ite {c : Prop} [Decidable c] {m m' : M σ ε α} (h : c → Logs base P m Q R) (h' : ¬ c → Logs base P m' Q R) :
    Logs base P (if c then m else m') Q R := by
  split
  · exact h ‹_›
  · exact h' ‹_›

end Logs

/-! ## Acknowledgements -/

section
variable {B : Bus W E} {base : List (Ev E)}

/-- Everything acknowledged so far was sighted. -/
abbrev Ak (b : U8) : List (Ev E) → Prop := Acknowledged b
/-- And `x` is sighted. -/
def Fr (b x : U8) (l : List (Ev E)) : Prop := Acknowledged b l ∧ Sighted b x l

theorem ack_snoc {b : U8} {l : List (Ev E)} (h : Acknowledged b l) (e : Ev E)
    (he : ¬ HitsIr b e) : Acknowledged b (l ++ [e]) := by
  intro before e₀ after hl h₀
  rcases List.eq_nil_or_concat after with rfl | ⟨after', e', rfl⟩
  · obtain ⟨_, h2⟩ := List.append_inj' hl rfl
    cases h2
    exact absurd h₀ he
  · rw [List.concat_eq_append, ← List.cons_append, ← List.append_assoc] at hl
    obtain ⟨h1, _⟩ := List.append_inj' hl rfl
    exact h _ _ _ h1 h₀

theorem sighted_snoc {b x : U8} {l : List (Ev E)} (h : Sighted b x l) (e : Ev E)
    (he : ¬ HitsIr b e) : Sighted b x (l ++ [e]) := by
  obtain ⟨before, y, after, rfl, h1, h2⟩ := h
  refine ⟨before, y, after ++ [e], by simp, h1, fun e' he' => ?_⟩
  rcases List.mem_append.mp he' with h | h
  · exact h2 _ h
  · cases List.mem_singleton.mp h
    exact he

/-- A property of the traffic that only writes to Sn_IR can end. -/
def Calm (b : U8) (P : List (Ev E) → Prop) : Prop :=
  ∀ l e, ¬ HitsIr b e → P l → P (l ++ [e])

theorem calm_ak (b : U8) : Calm (E := E) b (Ak b) := fun _ e he h => ack_snoc h e he
theorem calm_fr (b x : U8) : Calm (E := E) b (Fr b x) := fun _ e he h => ⟨ack_snoc h.1 e he, sighted_snoc h.2 e he⟩

variable {b : U8} {P : List (Ev E) → Prop}

theorem Logs.write (hP : Calm b P) {b' : U8} {a : U16} {d : List U8} (h : b' = b → ∀ k, k < d.length → a + BitVec.ofNat 16 k ≠ 0x02) :
    Logs base P ((traced B).write b' a d) (fun _ => P) P := by
  constructor
  intro s evs hs hp
  refine ⟨evs ++ [.wr b' a d (B.writeFrame s.w b' a d).1], ?_, ?_⟩
  · show s.log ++ [_] = _
    rw [show s.log = base ++ evs from hs, List.append_assoc]
  · have := hP _ (.wr b' a d (B.writeFrame s.w b' a d).1) (fun h' => let ⟨_, h1, k, h2, h3⟩ := h'; h h1 k h2 h3) hp
    split <;> exact this

theorem Logs.readBuf (hP : Calm b P) {b' : U8} {a : U16} {i : List U8} : Logs base P ((traced B).readBuf b' a i) (fun _ => P) P := by
  constructor
  intro s evs hs hp
  refine ⟨evs ++ [.rd b' a (B.readFrame s.w b' a i).2.1 (B.readFrame s.w b' a i).1], ?_, ?_⟩
  · unfold Bus.readBuf
    split <;> rename_i heq <;> simp only [traced, Prod.mk.injEq] at heq <;> obtain ⟨h1, h2, rfl⟩ := heq
    all_goals
      show s.log ++ [_] = _
      rw [show s.log = base ++ evs from hs, List.append_assoc]
  · have := hP _ (.rd b' a (B.readFrame s.w b' a i).2.1 (B.readFrame s.w b' a i).1) (fun h' => nomatch h'.1) hp
    split <;> exact this

theorem Logs.readSlice (hP : Calm b P) {b' : U8} {a : U16} : Logs base P ((traced B).readSlice b' a) (fun _ => P) P := by
  constructor
  rintro ⟨buf, s⟩ evs hs hp
  refine ⟨evs ++ [.rd b' a (B.readFrame s.w b' a buf).2.1 (B.readFrame s.w b' a buf).1], ?_, ?_⟩
  · show s.log ++ [_] = _
    rw [show s.log = base ++ evs from hs, List.append_assoc]
  · have := hP _ (.rd b' a (B.readFrame s.w b' a buf).2.1 (B.readFrame s.w b' a buf).1) (fun h' => nomatch h'.1) hp
    split <;> exact this

theorem Logs.read1 (hP : Calm b P) {b' : U8} {a : U16} : Logs base P ((traced B).read1 b' a) (fun _ => P) P := by
  unfold Bus.read1
  refine .bind (.readBuf hP) fun l => ?_
  split
  · exact .pure fun _ h => h
  · exact .panic fun _ h => h

theorem Logs.read2 (hP : Calm b P) {b' : U8} {a : U16} : Logs base P ((traced B).read2 b' a) (fun _ => P) P := by
  unfold Bus.read2
  refine .bind (.readBuf hP) fun l => ?_
  split
  · exact .pure fun _ h => h
  · exact .panic fun _ h => h

/-- What was read is in the log. -/
theorem Logs.readBuf_seen (hP : Calm b P) {b' : U8} {a : U16} {i : List U8} : Logs base P ((traced B).readBuf b' a i)
    (fun d l => P l ∧ ∃ l', l = l' ++ [.rd b' a d (.ok ())]) P := by
  constructor
  intro s evs hs hp
  have hn := hP _ (.rd b' a (B.readFrame s.w b' a i).2.1 (B.readFrame s.w b' a i).1) (fun h' => nomatch h'.1) hp
  refine ⟨evs ++ [.rd b' a (B.readFrame s.w b' a i).2.1 (B.readFrame s.w b' a i).1], ?_, ?_⟩
  · unfold Bus.readBuf
    split <;> rename_i heq <;> simp only [traced, Prod.mk.injEq] at heq <;> obtain ⟨h1, h2, rfl⟩ := heq
    all_goals
      show s.log ++ [_] = _
      rw [show s.log = base ++ evs from hs, List.append_assoc]
  · unfold Bus.readBuf
    generalize hr : (traced B).readFrame s b' a i = r
    have h1 : r.1 = (B.readFrame s.w b' a i).1 := hr ▸ rfl
    have h2 : r.2.1 = (B.readFrame s.w b' a i).2.1 := hr ▸ rfl
    rw [← h1, ← h2] at hn ⊢
    rcases r with ⟨_ | _ | _ | _, d, w⟩
    · exact ⟨hn, evs, rfl⟩
    all_goals exact hn

/-- Looking at Sn_IR. -/
theorem Logs.see (s : Socket) (i : Interrupt) (hi : ∀ x : U8, decide (x &&& i.toU8 ≠ 0) = true → i.toU8 &&& ~~~x = 0) :
    Logs base (Ak s.register) (s.hasInterrupt (traced B) i) (fun y l => if y then Fr s.register i.toU8 l else Ak s.register l)
      (Ak s.register) := by
  unfold Socket.hasInterrupt Bus.read1
  refine .bind (Q := fun x l => Ak s.register l ∧ ∃ l', l = l' ++ [.rd s.register 0x02 [x] (.ok ())]) ?_ fun x => .pure fun l h => ?_
  · refine .bind (.readBuf_seen (calm_ak _)) fun d => ?_
    split
    · exact .pure fun _ h => h
    · exact .panic fun _ h => h.1
  · split
    · rename_i hx
      obtain ⟨h1, l', rfl⟩ := h
      exact ⟨h1, l', x, [], rfl, hi x hx, nofun⟩
    · exact h.1

/-- Acknowledging what was seen. -/
theorem Logs.ack (s : Socket) (i : Interrupt) (hi : i.toU8 ∈ ([0x04, 0x08, 0x10] : List U8)) :
    Logs base (Fr s.register i.toU8) (s.resetInterrupt (traced B) i) (fun _ => Ak s.register) (Ak s.register) := by
  constructor
  intro t evs hs hp
  have hl : t.log = base ++ evs := hs
  have key : ∀ r : Res E Unit, Acknowledged s.register (evs ++ [.wr s.register 0x02 [i.toU8] r]) := by
    intro r before e after he h₀
    rcases List.eq_nil_or_concat after with rfl | ⟨after', e', rfl⟩
    · obtain ⟨rfl, h2⟩ := List.append_inj' he rfl
      cases h2
      exact ⟨_, hi, rfl, rfl, hp.2⟩
    · rw [List.concat_eq_append, ← List.cons_append, ← List.append_assoc] at he
      obtain ⟨h1, _⟩ := List.append_inj' he rfl
      exact hp.1 _ _ _ h1 h₀
  refine ⟨evs ++ [.wr s.register 0x02 [i.toU8] (B.writeFrame t.w s.register 0x02 [i.toU8]).1], ?_, ?_⟩
  · show t.log ++ [_] = _
    rw [hl, List.append_assoc]
    rfl
  · have := key (B.writeFrame t.w s.register 0x02 [i.toU8]).1
    split <;> exact this

/-! ## The operations -/

/-- The single interrupts. -/
def One (i : Interrupt) : Prop := i.toU8 ∈ ([0x04, 0x08, 0x10] : List U8)

theorem one_sees {i : Interrupt} (h : One i) (x : U8) (hx : decide (x &&& i.toU8 ≠ 0) = true) : i.toU8 &&& ~~~x = 0 := by
  have key : ∀ y x : U8, y ∈ ([0x04, 0x08, 0x10] : List U8) → decide (x &&& y ≠ 0) = true → y &&& ~~~x = 0 := by
    intro y x hy hx
    simp only [List.mem_cons, List.not_mem_nil, or_false] at hy
    rcases hy with rfl | rfl | rfl
    all_goals revert x; decide +kernel
  exact key _ _ h hx

theorem one_receive : One .receive := by unfold One; decide
theorem one_timeout : One .timeout := by unfold One; decide
theorem one_sendOk : One .sendOk := by unfold One; decide

theorem short1 {a : U16} (h : a ≠ 2) (x : U8) : ∀ k, k < [x].length → a + BitVec.ofNat 16 k ≠ 0x02 := by
  intro k hk
  have : k = 0 := by simpa using hk
  subst this
  simpa using h

theorem short2 {a : U16} (h : a ≠ 2) (h' : a ≠ 1) (x y : U8) : ∀ k, k < [x, y].length → a + BitVec.ofNat 16 k ≠ 0x02 := by
  intro k hk
  have : k = 0 ∨ k = 1 := by simp at hk; omega
  rcases this with rfl | rfl
  · simpa using h
  · intro h2
    apply h'
    have : a + 1#16 = 1#16 + 1#16 := h2
    exact (BitVec.add_left_inj 1#16).mp this

theorem Logs.command (hP : Calm b P) (s : Socket) (c : Command) : Logs base P (s.command (traced B) c) (fun _ => P) P :=
  .write hP fun _ => short1 (by decide) _
theorem Logs.setTxWritePointer (hP : Calm b P) (s : Socket) (p : U16) : Logs base P (s.setTxWritePointer (traced B) p) (fun _ => P) P :=
  .write hP fun _ => short2 (by decide) (by decide) _ _
theorem Logs.setRxReadPointer (hP : Calm b P) (s : Socket) (p : U16) : Logs base P (s.setRxReadPointer (traced B) p) (fun _ => P) P :=
  .write hP fun _ => short2 (by decide) (by decide) _ _
theorem Logs.setDestinationPort (hP : Calm b P) (s : Socket) (p : U16) : Logs base P (s.setDestinationPort (traced B) p) (fun _ => P) P :=
  .write hP fun _ => short2 (by decide) (by decide) _ _
theorem Logs.setDestinationIp (hP : Calm b P) (s : Socket) (p : Ipv4) : Logs base P (s.setDestinationIp (traced B) p) (fun _ => P) P :=
  .write hP fun _ k hk => by
    have : k = 0 ∨ k = 1 ∨ k = 2 ∨ k = 3 := by simp [Ipv4.octets] at hk; omega
    rcases this with rfl | rfl | rfl | rfl <;> decide
theorem Logs.getReceiveSize (hP : Calm b P) (s : Socket) : ∀ n, Logs base P (s.getReceiveSize (traced B) n) (fun _ => P) P
  | 0 => .outOfFuel fun _ h => h
  | n + 1 => .bind (.read2 hP) fun _ => .bind (.read2 hP) fun _ => .ite (fun _ => .pure fun _ h => h) fun _ => getReceiveSize hP s n

theorem Logs.see1 {s : Socket} {i : Interrupt} (hi : One i) :
    Logs base (Ak s.register) (s.hasInterrupt (traced B) i) (fun y l => if y then Fr s.register i.toU8 l else Ak s.register l)
      (Ak s.register) := .see s i (one_sees hi)

theorem fr_ak {x : U8} (l : List (Ev E)) (h : Fr b x l) : Ak b l := h.1

theorem Logs.weak {m : M σ ε α} [HasLog σ E] {x : U8} {Q : α → List (Ev E) → Prop} (h : Logs base (Fr b x) m Q (Fr b x)) :
    Logs base (Fr b x) m Q (Ak b) := h.conseq (fun _ h => h) (fun _ _ h => h) fr_ak

theorem Logs.waitSendOk (s : Socket) : ∀ n, Logs base (Ak s.register) (RawDevice.waitSendOk (traced B) s n)
    (fun _ => Fr s.register Interrupt.sendOk.toU8) (Ak s.register)
  | 0 => .outOfFuel fun _ h => h
  | n + 1 => by
    unfold RawDevice.waitSendOk
    refine .bind (.see1 one_sendOk) fun y => ?_
    split
    · exact .pure fun _ h => h
    · exact waitSendOk s n

/-! ### TCP -/

theorem tcpSend_acks (i : U8) (fuel : Nat) (data : List U8) :
    Logs base (Ak (Socket.new i).register) (TcpSocket.socketSend (traced B) fuel ⟨.new i⟩ data) (fun _ => Ak (Socket.new i).register)
      (Ak (Socket.new i).register) := by
  have c := calm_ak (E := E) (Socket.new i).register
  unfold TcpSocket.socketSend TcpSocket.socketIsConnected
  refine .bind (Q := fun _ => Ak _) (.bind (.mapErr (.read1 c)) fun _ => .pure fun _ h => h) fun y => .ite (fun _ => .throw fun _ h => h) fun _ => ?_
  refine .bind (.mapErr (.read2 c)) fun free => ?_
  dsimp only
  split
  all_goals
    first
    | refine .bind (.sliceTo _ _ fun _ h => h) fun d => ?_
    | refine .bind (Q := fun _ => Ak _) (.pure fun _ h => h) fun d => ?_
    refine .bind (.mapErr (.read2 c)) fun p => ?_
    refine .bind (.mapErr (.write c fun h => absurd h (by simp [Socket.new]))) fun _ => ?_
    refine .bind (.mapErr (.setTxWritePointer c _ _)) fun _ => ?_
    refine .bind (.mapErr (.command c _ _)) fun _ => ?_
    refine .bind (.mapErr (.waitSendOk _ _)) fun _ => ?_
    exact .bind (.mapErr (.ack _ _ one_sendOk)) fun _ => .pure fun _ h => h

theorem tcpReceive_acks (i : U8) (fuel : Nat) :
    Logs base (Ak (Socket.new i).register) (TcpSocket.socketReceive (traced B) fuel ⟨.new i⟩) (fun _ => Ak (Socket.new i).register)
      (Ak (Socket.new i).register) := by
  have c := calm_ak (E := E) (Socket.new i).register
  have f := calm_fr (E := E) (Socket.new i).register Interrupt.receive.toU8
  unfold TcpSocket.socketReceive TcpSocket.socketIsConnected
  refine .bind (Q := fun _ => Ak _) (.onSnd (.bind (.mapErr (.read1 c)) fun _ => .pure fun _ h => h)) fun y => .ite (fun _ => .throw fun _ h => h) fun _ => ?_
  refine .bind (.onSnd (.mapErr (.see1 one_receive))) fun y => ?_
  cases y
  · exact .pure fun _ h => h
  refine .bind (Q := fun _ => Fr _ _) (.weak (.onSnd (.mapErr (.getReceiveSize f _ _)))) fun size => ?_
  refine .bind (Q := fun _ => Fr _ _) .get fun _ => ?_
  refine .bind (Q := fun _ => Fr _ _) (.weak (.onSnd (.mapErr (.read2 f)))) fun p => ?_
  refine .bind (Q := fun _ => Fr _ _) (.weak (.withPrefix _ (.mapErr (.readSlice f)) fun _ h => h)) fun _ => ?_
  refine .bind (Q := fun _ => Fr _ _) (.weak (.onSnd (.mapErr (.setRxReadPointer f _ _)))) fun _ => ?_
  refine .bind (Q := fun _ => Fr _ _) (.weak (.onSnd (.mapErr (.command f _ _)))) fun _ => ?_
  exact .bind (.onSnd (.mapErr (.ack _ _ one_receive))) fun _ => .pure fun _ h => h

/-! ### UDP -/

variable {u : UdpSocket}

theorem checkStatus_logs (hP : Calm b P) : Logs base P (u.checkStatus (traced B)) (fun _ => P) P := by
  unfold UdpSocket.checkStatus
  refine .bind (.mapErr (.read1 hP)) fun st => ?_
  split
  · exact .pure fun _ h => h
  all_goals exact .throw fun _ h => h

theorem tryFlushTx_acks : Logs base (Ak u.socket.register) (u.tryFlushTx (traced B)) (fun _ => Ak u.socket.register)
    (Ak u.socket.register) := by
  have c := calm_ak (E := E) u.socket.register
  unfold UdpSocket.tryFlushTx
  refine .bind (.mapErr (.read2 c)) fun _ => .bind (.mapErr (.read2 c)) fun _ => ?_
  refine .ite (fun _ => ?_) fun _ => .throw fun _ h => h
  refine .bind (.mapErr (.see1 one_sendOk)) fun y => ?_
  cases y
  · refine .bind (.mapErr (.see1 one_timeout)) fun y => ?_
    cases y
    · exact .pure fun _ h => h
    · exact .bind (.mapErr (.ack _ _ one_timeout)) fun _ => .throw fun _ h => h
  · exact .mapErr (.ack _ _ one_sendOk)

theorem flushLoop_acks : ∀ n, Logs base (Ak u.socket.register) (u.flushLoop (traced B) n) (fun _ => Ak u.socket.register)
    (Ak u.socket.register)
  | 0 => .outOfFuel fun _ h => h
  | n + 1 => by
    constructor
    intro s evs hs hp
    obtain ⟨evs', h1, h2⟩ := (tryFlushTx_acks (B := B) (base := base) (u := u)).run s evs hs hp
    unfold UdpSocket.flushLoop
    rcases hr : u.tryFlushTx (traced B) s with ⟨_ | (_ | _) | _ | _, t⟩
    all_goals rw [hr] at h1 h2
    case err.wouldBlock => exact (flushLoop_acks n).run t evs' h1 h2
    all_goals exact ⟨evs', h1, h2⟩

theorem socketSend_acks {i : U8} (hu : u.socket = .new i) (fuel : Nat) (data : List U8) :
    Logs base (Ak u.socket.register) (u.socketSend (traced B) fuel data) (fun _ => Ak u.socket.register) (Ak u.socket.register) := by
  have c := calm_ak (E := E) u.socket.register
  unfold UdpSocket.socketSend UdpSocket.blockSendCommand
  refine .bind (checkStatus_logs c) fun _ => .ite (fun _ => .throw fun _ h => h) fun _ => ?_
  refine .bind (.mapErr (.read2 c)) fun free => .ite (fun _ => .throw fun _ h => h) fun _ => ?_
  dsimp only
  split
  all_goals
    first
    | refine .bind (.sliceTo _ _ fun _ h => h) fun d => ?_
    | refine .bind (Q := fun _ => Ak _) (.pure fun _ h => h) fun d => ?_
    refine .bind (.mapErr (.read2 c)) fun p => ?_
    refine .bind (.mapErr (.write c fun h => absurd h (by rw [hu]; simp [Socket.new]))) fun _ => ?_
    refine .bind (.mapErr (.setTxWritePointer c _ _)) fun _ => ?_
    exact .bind (.bind (.mapErr (.command c _ _)) fun _ => flushLoop_acks _) fun _ => .pure fun _ h => h

theorem sendAllLoop_acks {i : U8} (hu : u.socket = .new i) (fuel : Nat) (data : List U8) : ∀ n free sent,
    Logs base (Ak u.socket.register) (u.sendAllLoop (traced B) fuel data n free sent) (fun _ => Ak u.socket.register) (Ak u.socket.register)
  | 0, _, _ => .outOfFuel fun _ h => h
  | n + 1, free, sent => by
    have c := calm_ak (E := E) u.socket.register
    unfold UdpSocket.sendAllLoop
    refine .ite (fun _ => .pure fun _ h => h) fun _ => ?_
    refine .bind (.sliceFrom _ _ fun _ h => h) fun _ => .bind (.sliceTo _ _ fun _ h => h) fun _ => ?_
    exact .bind (socketSend_acks hu _ _) fun _ => .bind (.mapErr (.read2 c)) fun _ => sendAllLoop_acks hu fuel data n _ _

theorem sendAll_acks {i : U8} (hu : u.socket = .new i) (fuel : Nat) (data : List U8) :
    Logs base (Ak u.socket.register) (u.socketSendAll (traced B) fuel data) (fun _ => Ak u.socket.register) (Ak u.socket.register) := by
  have c := calm_ak (E := E) u.socket.register
  unfold UdpSocket.socketSendAll
  refine .bind (checkStatus_logs c) fun _ => .ite (fun _ => .throw fun _ h => h) fun _ => ?_
  exact .bind (.mapErr (.read2 c)) fun free => .ite (fun _ => .throw fun _ h => h) fun _ => sendAllLoop_acks hu _ _ _ _ _

theorem setDestination_logs (hP : Calm b P) (r : SockAddr4) : Logs base P (UdpSocket.setDestination (traced B) r) (fun _ => P) P := by
  refine .bind .get fun s => ?_
  have key : ∀ x : Bool, Logs base P (if x = true then (do
        M.mapErr UdpSocketError.other (M.onSnd (s.1.socket.setDestinationIp (traced B) r.ip))
        M.mapErr UdpSocketError.other (M.onSnd (s.1.socket.setDestinationPort (traced B) r.port))
        M.modify (fun s => ({ s.1 with destination := some r }, s.2)) : M (UdpSocket × TW W E) (UdpSocketError E) Unit)
      else pure ()) (fun _ => P) P := by
    intro x; cases x
    · exact .pure fun _ h => h
    · refine .bind (.mapErr (.onSnd (.setDestinationIp hP _ _))) fun _ => .bind (.mapErr (.onSnd (.setDestinationPort hP _ _))) fun _ => ?_
      exact ⟨fun _ evs hs hp => ⟨evs, hs, hp⟩⟩
  exact key _

theorem sendTo_acks {i : U8} (r : SockAddr4) (fuel : Nat) (data : List U8) (s : UdpSocket × TW W E) (hu : s.1.socket = .new i) :
    ∃ evs, (UdpSocket.socketSendTo (traced B) fuel r data s).2.2.log = s.2.log ++ evs ∧ Acknowledged (Socket.new i).register evs := by
  have c := calm_ak (E := E) (Socket.new i).register
  obtain ⟨e1, h1, h2⟩ := (setDestination_logs (B := B) (base := s.2.log) c r).mapErr (f := NbError.other).run s [] (List.append_nil _).symm
    fun before e after h => by simp at h
  have hk : (M.mapErr NbError.other (UdpSocket.setDestination (traced B) r) s).2.1.socket = .new i :=
    ((keeps_setDestination r).mapErr _ s).trans hu
  unfold UdpSocket.socketSendTo
  rw [M.bind_def]
  rcases hr : M.mapErr NbError.other (UdpSocket.setDestination (traced B) r) s with ⟨_ | _ | _ | _, t⟩
  all_goals rw [hr] at h1 h2 hk
  · obtain ⟨e2, h3, h4⟩ := (sendAll_acks (B := B) (base := s.2.log) (u := t.1) hk fuel data).run t.2 e1 h1 (by rw [hk]; exact h2)
    refine ⟨e2, h3, ?_⟩
    rw [hk] at h4
    generalize (t.1.socketSendAll (traced B) fuel data t.2).1 = x at h4
    cases x <;> exact h4
  all_goals exact ⟨e1, h1, h2⟩

theorem udpReceive_acks {i : U8} (_hu : u.socket = .new i) (fuel : Nat) :
    Logs base (Ak u.socket.register) (u.socketReceive (traced B) fuel) (fun _ => Ak u.socket.register) (Ak u.socket.register) := by
  have c := calm_ak (E := E) u.socket.register
  have f := calm_fr (E := E) u.socket.register Interrupt.receive.toU8
  unfold UdpSocket.socketReceive
  refine .bind (Q := fun _ => Ak _) (.onSnd (checkStatus_logs c)) fun _ => ?_
  refine .bind (.onSnd (.mapErr (.see1 one_receive))) fun y => ?_
  cases y
  · exact .throw fun _ h => h
  refine .bind (Q := fun _ => Fr _ _) (.weak (.onSnd (.mapErr (.getReceiveSize f _ _)))) fun size => ?_
  refine .ite (fun _ => .throw fr_ak) fun _ => ?_
  refine .bind (Q := fun _ => Fr _ _) .get fun _ => ?_
  refine .ite (fun _ => .throw fr_ak) fun _ => ?_
  refine .bind (Q := fun _ => Fr _ _) (.weak (.onSnd (.mapErr (.read2 f)))) fun p => ?_
  refine .bind (Q := fun _ => Fr _ _) (.weak (.onSnd (.mapErr (.readBuf f)))) fun hd => ?_
  split
  · exact .panic fr_ak
  refine .bind (Q := fun _ => Fr _ _) (.weak (.withPrefix _ (.mapErr (.readSlice f)) fun _ h => h)) fun _ => ?_
  refine .bind (Q := fun _ => Fr _ _) (.weak (.onSnd (.mapErr (.setRxReadPointer f _ _)))) fun _ => ?_
  refine .bind (Q := fun _ => Fr _ _) (.weak (.onSnd (.mapErr (.command f _ _)))) fun _ => ?_
  exact .bind (.onSnd (.mapErr (.ack _ _ one_receive))) fun _ => .pure fun _ h => h

/-- From the start of the call. -/
theorem Logs.acked [HasLog σ E] {m : M σ ε α} (h : ∀ base, Logs base (Ak b) m (fun _ => Ak b) (Ak b)) (s : σ) :
    ∃ evs, HasLog.log (m s).2 = HasLog.log s ++ evs ∧ Acknowledged b evs := by
  obtain ⟨evs, h1, h2⟩ := (h (HasLog.log s)).run s [] (List.append_nil _).symm fun before e after h => by simp at h
  refine ⟨evs, h1, ?_⟩
  generalize (m s).1 = x at h2
  cases x <;> exact h2

end
end W5500
