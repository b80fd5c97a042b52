import Verif.Proofs.ChipRaw
import Verif.Proofs.TcpHistory
import Verif.Proofs.UdpHistory
/-! # The invariant of a MACRAW device over histories -/

namespace W5500.Spec
open W5500 Sock
variable {E : Type} {sched : Nat → List (Nat × Act)} {faults : Nat → Option (E × Nat)}

theorem _root_.W5500.Hoare.triv {σ ε α : Type} {m : M σ ε α} : Hoare (fun _ => True) m (fun _ _ => True) (fun _ => True) := by
  refine ⟨fun s _ => ?_⟩
  generalize m s = r
  obtain ⟨_ | _ | _ | _, _⟩ := r <;> trivial

theorem _root_.W5500.Hoare.any {σ ε α : Type} {P : σ → Prop} {m : M σ ε α} (h : Hoare P m (fun _ => P) P) {s s' : σ} {x : Res ε α}
    (hm : m s = (x, s')) (hs : P s) : P s' := by
  have := h.run s hs
  rw [hm] at this
  cases x <;> exact this

/-- A foreign write as a statement about socket `n`. -/
theorem hs_foreign {n : Nat} {P : Sock → Prop} (hP : StableS P) (block : U8) (addr : U16) (data : List U8)
    (h : Foreign n block addr data) :
    Hoare (At n P) ((Chip.dev sched faults).bus.write block addr data) (fun _ => At n P) (At n P) :=
  (Chip.hoare_write (I := fun _ => At n P) block addr data (fun _ _ _ => hP.at n) (fun i hi c hc => by
      show P _
      rw [foreign_poke h i hi c]
      exact hc)).exc fun _ h => h.elim fun _ h => h.2

theorem hs_clearBuffers {P : Sock → Prop} (hP : StableS P) (is : List U8) (h : ∀ i ∈ is, 0 < i.toNat ∧ i.toNat < 8) :
    Hoare (At 0 P) (RawDevice.clearBuffers (Chip.dev sched faults).bus is) (fun _ => At 0 P) (At 0 P) := by
  induction is with
  | nil => exact .pure fun _ h => h
  | cons i is ih =>
    have hi := h i (List.mem_cons_self ..)
    have hf : ∀ a d, Foreign 0 (Socket.new i).register a d := by
      intro a d
      have key : ((Socket.new i).register.setWidth 5 : BitVec 5) ≠ 0 ∧
          ((Socket.new i).register.setWidth 5 : BitVec 5).toNat / 4 ≠ 0 := by
        clear h
        revert i
        decide +kernel
      unfold Foreign
      rw [if_neg key.1]
      exact .inl key.2
    unfold RawDevice.clearBuffers
    exact .bind (hs_foreign hP _ _ _ (hf _ _)) fun _ => .bind (hs_foreign hP _ _ _ (hf _ _)) fun _ =>
      ih fun j hj => h j (List.mem_cons_of_mem _ hj)

/-- `RawDevice::new` brings socket 0 into working order, whatever state the chip was in. -/
theorem raw_new :
    Hoare (fun _ => True) (RawDevice.new (Chip.dev sched faults).bus)
      (fun r c => r = ⟨sockOf 0⟩ ∧ At 0 (fun s => ∃ K A, RawIdle K A 16384 [] s) c) (fun _ => True) := by
  have h0 : (0 : Nat) < 8 := by decide
  unfold RawDevice.new
  refine .mapErr ?_
  refine .bind (Q := fun _ => At 0 fun s => s.mem 0x1F = 16)
    (.exc (.conseq (hs_storeMem h0 (fun _ => True) _ [16] (by simp) ?_ ?_) (fun _ _ => trivial)
      (fun _ c h => h.2 0 (by simp)) fun _ h => h) fun _ _ => trivial) fun _ => ?_
  · intro i hi
    obtain rfl := index_one (by rfl) hi
    rfl
  · intros; trivial
  refine .bind (Q := fun _ => At 0 fun s => s.mem 0x1F = 16 ∧ s.mem 0x1E = 16)
    (.exc (.post (hs_storeMem h0 (fun m => m 0x1F = 16) _ [16] (by simp) ?_ ?_)
      (fun _ c h => ⟨h.1, h.2 0 (by simp)⟩)) fun _ _ => trivial) fun _ => ?_
  · intro i hi
    obtain rfl := index_one (by rfl) hi
    rfl
  · intro m i x hi h
    obtain rfl := index_one (by rfl) hi
    exact h
  have hst : StableS (fun s => s.mem 0x1F = 16 ∧ s.mem 0x1E = 16) := stable_mem (fun m => m 0x1F = 16 ∧ m 0x1E = 16)
  refine .bind (.exc (hs_clearBuffers hst _ (by decide)) fun _ _ => trivial) fun _ => ?_
  refine .bind (Q := fun _ => At 0 fun s => (s.mem 0x1F = 16 ∧ s.mem 0x1E = 16) ∧ s.mem 0 = 0x84)
    (.exc (.post (hs_storeMem h0 (fun m => m 0x1F = 16 ∧ m 0x1E = 16) _ [0x84] (by simp) ?_ ?_)
      (fun _ c h => ⟨h.1, h.2 0 (by simp)⟩)) fun _ _ => trivial) fun _ => ?_
  · intro i hi
    obtain rfl := index_one (by rfl) hi
    rfl
  · intro m i x hi h
    obtain rfl := index_one (by rfl) hi
    exact h
  have hst' : StableS (fun s => (s.mem 0x1F = 16 ∧ s.mem 0x1E = 16) ∧ s.mem 0 = 0x84) :=
    stable_mem (fun m => (m 0x1F = 16 ∧ m 0x1E = 16) ∧ m 0 = 0x84)
  refine .bind (Q := fun _ => At 0 fun s => ∃ K A, RawIdle K A 16384 [] s)
    (.exc (hs_write1 h0 hst' _ _ fun s h => ?_) fun _ _ => trivial) fun _ => .pure fun c h => ⟨rfl, h⟩
  obtain ⟨⟨h1, h2⟩, h3⟩ := h
  have hp : s.proto = 4 := by
    show (s.mem 0).toNat % 16 = 4
    rw [h3]; rfl
  have hz : s.txSize = 16384 := by
    show 1024 * (s.mem 0x1F).toNat = 16384
    rw [h1]; rfl
  have hok : SizesOk s.mem := by
    unfold SizesOk
    rw [h1, h2]
    exact ⟨by unfold GoodSize; decide, by unfold GoodSize; decide⟩
  have := open_rawIdle hok hp
  rw [hz] at this
  exact ⟨_, _, this⟩

theorem rawOpened {r : RawDevice} {c : Chip} (h : RawOpened sched faults r c) :
    r = ⟨sockOf 0⟩ ∧ ∃ K A, RawIdle K A 16384 [] (c.socks 0) := by
  have H : ∀ mac, Hoare (fun _ => True) (Uninit.initializeMacraw (Chip.dev sched faults).bus mac)
      (fun r c => r = ⟨sockOf 0⟩ ∧ At 0 (fun s => ∃ K A, RawIdle K A 16384 [] s) c) (fun _ => True) := by
    intro mac
    unfold Uninit.initializeMacraw
    exact .bind (Q := fun _ _ => True) (.mapErr .triv) fun _ => .bind (Q := fun _ _ => True) (.mapErr .triv) fun _ => raw_new
  cases h with
  | new h => exact raw_new.ok trivial h
  | init mac h => exact (H mac).ok trivial h

/-- `enable_interrupts`, `clear_interrupts` and `disable_interrupts` leave frames alone. -/
theorem raw_mask {K : List Packet} {A : List U8} {z : Nat} {fs : List (List U8)} (x : U8) :
    Hoare (At 0 (RawIdle K A z fs)) (Socket.setInterruptMask (Chip.dev sched faults).bus (sockOf 0) x)
      (fun _ => At 0 (RawIdle K A z fs)) (At 0 (RawIdle K A z fs)) := by
  unfold Socket.setInterruptMask
  exact .exc (hs_write1 (by decide) (stable_rawIdle K A z fs) _ _ fun s h => h.setMem x) fun _ h => h.elim id id

theorem raw_common {P : Sock → Prop} (hP : StableS P) (x : U8) :
    Hoare (At 0 P) ((Chip.dev sched faults).bus.write COMMON common.SOCKET_INTERRUPT_MASK [x])
      (fun _ => At 0 P) (At 0 P) := by
  refine hs_foreign hP _ _ _ ?_
  unfold Foreign
  rw [if_pos (by decide)]
  intro i hi h
  obtain rfl := index_one (by rfl) hi
  exact absurd h (by decide)

theorem raw_enable {r : RawDevice} (hr : r = ⟨sockOf 0⟩) {K : List Packet} {A : List U8} {z : Nat} {fs : List (List U8)} (x : U8) :
    Hoare (At 0 (RawIdle K A z fs)) (r.enableInterrupts (Chip.dev sched faults).bus x)
      (fun _ => At 0 (RawIdle K A z fs)) (At 0 (RawIdle K A z fs)) := by
  subst hr
  exact .bind (raw_mask x) fun _ => raw_common (stable_rawIdle K A z fs) 1

theorem raw_disable {r : RawDevice} (hr : r = ⟨sockOf 0⟩) {K : List Packet} {A : List U8} {z : Nat} {fs : List (List U8)} :
    Hoare (At 0 (RawIdle K A z fs)) (r.disableInterrupts (Chip.dev sched faults).bus)
      (fun _ => At 0 (RawIdle K A z fs)) (At 0 (RawIdle K A z fs)) := by
  subst hr
  exact .bind (raw_common (stable_rawIdle K A z fs) 0) fun _ => raw_mask _

theorem raw_clear {r : RawDevice} (hr : r = ⟨sockOf 0⟩) {K : List Packet} {A : List U8} {z : Nat} {fs : List (List U8)} :
    Hoare (At 0 (RawIdle K A z fs)) (r.clearInterrupts (Chip.dev sched faults).bus)
      (fun _ => At 0 (RawIdle K A z fs)) (At 0 (RawIdle K A z fs)) := by
  subst hr
  exact hs_clearIr (by decide) (stable_rawIdle K A z fs) _ fun s i h => h.ir i

/-- The invariant of `RawRun`. -/
structure RawInv (K : List Packet) (A : List U8) (z : Nat) (log : List RawSent) (got : List RawGot) (c : Chip) : Prop where
  idle : ∃ ps fs, RawSent.All log ps ∧ (RawGot.All got fs ∧ ∀ f ∈ fs, f.length + 2 < 65536) ∧
    RawIdle (K ++ ps) (A ++ encFrames fs) z [] (c.socks 0)

theorem RawInv.step {K : List Packet} {A : List U8} {z : Nat} {log : List RawSent} {got : List RawGot} {c c' : Chip}
    (h : RawInv K A z log got c)
    (hs : ∀ K' A', RawIdle K' A' z [] (c.socks 0) → RawIdle K' A' z [] (c'.socks 0)) : RawInv K A z log got c' := by
  obtain ⟨ps, fs, h1, h2, h3⟩ := h
  exact ⟨ps, fs, h1, h2, hs _ _ h3⟩

theorem rawRun_inv {r : RawDevice} (hr : r = ⟨sockOf 0⟩) {K : List Packet} {A : List U8} {z : Nat} {c0 c : Chip}
    {log : List RawSent} {got : List RawGot} (h0 : RawInv K A z [] [] c0) (h : RawRun sched faults r c0 log got c) :
    RawInv K A z log got c := by
  have hs : r.rawSocket = sockOf 0 := by rw [hr]
  induction h with
  | start => exact h0
  | @readFrame sched faults r c0 log got c1 c2 fuel buf buf' k _ hm ih =>
    replace ih := ih hr h0 hs
    obtain ⟨ps, fs, h1, h2, h3⟩ := ih
    have := (raw_readFrame (sched := sched) (faults := faults) (by decide) r hs (K ++ ps) (A ++ encFrames fs) z []
      (c1.socks 0).rxRdReg fuel buf).run (buf, c1) ⟨rfl, h3, rfl⟩
    rw [hm] at this
    rcases this with ⟨_, hn, hi⟩ | ⟨f, rest, more, he, hf, hb, hi⟩
    · exact ⟨ps, fs, h1, ⟨.nothing h2.1 hn, h2.2⟩, hi⟩
    · refine ⟨ps, fs ++ [f], h1, ⟨.got h2.1 hb, fun x hx => ?_⟩, ?_⟩
      · rcases List.mem_append.mp hx with hx | hx
        · exact h2.2 x hx
        · rw [List.mem_singleton.mp hx]; exact hf
      have := RawIdle.fewer (fs := []) (more := rest) hi
      rw [encFrames_append, encFrames_cons, show encFrames [] = [] from rfl, List.append_nil, ← List.append_assoc]
      exact this
  | @failedRead sched faults r c0 log got c1 c2 fuel buf buf' x _ hm hx hrd ih =>
    replace ih := ih hr h0 hs
    obtain ⟨ps, fs, h1, h2, h3⟩ := ih
    have := (raw_readFrame (sched := sched) (faults := faults) (by decide) r hs (K ++ ps) (A ++ encFrames fs) z []
      (c1.socks 0).rxRdReg fuel buf).run (buf, c1) ⟨rfl, h3, rfl⟩
    rw [hm] at this
    cases x with
    | ok k => exact absurd rfl (hx k)
    | err e => exact ⟨ps, fs, h1, h2, this hrd⟩
    | panic => exact ⟨ps, fs, h1, h2, this hrd⟩
    | fuel => exact ⟨ps, fs, h1, h2, this hrd⟩
  | @writeFrame sched faults r c0 log got c1 c2 fuel frame k _ hm ih =>
    replace ih := ih hr h0 hs
    obtain ⟨ps, fs, h1, h2, h3⟩ := ih
    have := (raw_writeFrame (sched := sched) (faults := faults) (by decide) r hs (K ++ ps) (A ++ encFrames fs) z []
      fuel frame).run c1 h3
    rw [hm] at this
    obtain ⟨_, ip, port, hi⟩ := this
    refine ⟨ps ++ [⟨ip, port, frame, true⟩], fs, .ok (p := ⟨ip, port, frame, true⟩) h1 rfl, h2, ?_⟩
    rw [← List.append_assoc]
    exact hi
  | @failedWrite sched faults r c0 log got c1 c2 fuel frame x _ hm hx hq ih =>
    replace ih := ih hr h0 hs
    obtain ⟨ps, fs, h1, h2, h3⟩ := ih
    have := (raw_writeFrame (sched := sched) (faults := faults) (by decide) r hs (K ++ ps) (A ++ encFrames fs) z []
      fuel frame).run c1 h3
    rw [hm] at this
    have he : RawEnded (K ++ ps) frame (A ++ encFrames fs) z [] (c2.socks 0) := by
      cases x with
      | ok k => exact absurd rfl (hx k)
      | err e => exact this
      | panic => exact this
      | fuel => exact this
    obtain ⟨qs, hqs, _, hi⟩ := he
    have hi := hi hq.1 hq.2
    rw [List.append_assoc] at hi
    refine ⟨ps ++ qs, fs, ?_, h2, hi⟩
    rcases hqs with rfl | ⟨_, ip, port, b, rfl⟩
    · rw [List.append_nil]
      exact .lost _ h1
    · exact .failed (p := ⟨ip, port, frame, b⟩) h1
  | enable which x _ hm ih =>
    replace ih := ih hr h0 hs
    exact ih.step fun _ _ => (raw_enable hr which).any hm
  | clear x _ hm ih =>
    replace ih := ih hr h0 hs
    exact ih.step fun _ _ => (raw_clear hr).any hm
  | disable x _ hm ih =>
    replace ih := ih hr h0 hs
    exact ih.step fun _ _ => (raw_disable hr).any hm
  | read block addr data _ ih =>
    replace ih := ih hr h0 hs
    exact ih.step fun _ _ h => (stable_rawIdle _ _ _ _).evolves ((Chip.readFrame_evolves _ _ _ _).socks 0) h
  | write block addr data _ hf ih =>
    replace ih := ih hr h0 hs
    exact ih.step fun _ _ h => foreign_keep (stable_rawIdle _ _ _ _) hf _ h
  | pass _ hp ih =>
    replace ih := ih hr h0 hs
    exact ih.step fun _ _ h => (stable_rawIdle _ _ _ _).evolves (hp.evolves.socks 0) h
  | past _ ih => exact ih hr h0 hs

end W5500.Spec
