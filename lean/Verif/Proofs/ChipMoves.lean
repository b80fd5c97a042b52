import Verif.Proofs.Moves
import Verif.Proofs.TcpHistory
/-! # What the operations on one socket leave alone on the chip -/

namespace W5500.Spec
open W5500 socketn Sock
variable {E : Type} {sched : Nat → List (Nat × Act)} {faults : Nat → Option (E × Nat)}

/-- Write frames of one socket are foreign to another one. -/
theorem foreign_sock {n m : Nat} (hm : m < 8) (hne : m ≠ n) {L : List (U16 × Nat)} {b : U8} {a : U16} {d : List U8}
    (h : SockFrames (sockOf m) L b a d) : Foreign n b a d := by
  unfold Foreign
  rcases h with rfl | ⟨rfl, _⟩
  · have := Chip.tx_toNat m hm
    rw [if_neg (Chip.ne_zero_of_toNat (by omega))]
    omega
  · have := Chip.reg_toNat m hm
    rw [if_neg (Chip.ne_zero_of_toNat (by omega))]
    omega

theorem stable_from (s0 : Sock) : StableS (fun s => s0.Evolves s) := fun s a h => h.trans (.act s a)

/-- The other sockets: only events of the environment. -/
theorem reach_other {n m : Nat} (hm : m < 8) (hne : m ≠ n) {L : List (U16 × Nat)} {c c' : Chip}
    (h : Reach (Chip.dev sched faults).bus (SockFrames (sockOf m) L) c c') : (c.socks n).Evolves (c'.socks n) :=
  h.induct (I := At n fun s => (c.socks n).Evolves s)
    (fun w b a d hi => ((stable_from _).at n) _ _ (Chip.readFrame_evolves w b a d) hi)
    (fun w _ _ _ hf hi => foreign_keep (stable_from _) (foreign_sock hm hne hf) w hi) (.refl _)

/-- Writes to a socket do not touch the common block. -/
theorem write_cmem {m : Nat} (hm : m < 8) {L : List (U16 × Nat)} {b : U8} {a : U16} {d : List U8} (f : U16 → U8)
    (h : SockFrames (sockOf m) L b a d) (c : Chip) (hc : c.cmem = f) :
    ((Chip.dev sched faults).bus.writeFrame c b a d).2.cmem = f := by
  have hst : Chip.Stable (fun c => c.cmem = f) := fun c c' e h => e.cmem.trans h
  have := (Chip.hoare_write (sched := sched) (faults := faults) (I := fun _ c => c.cmem = f) b a d
    (fun _ _ _ => hst) (fun i hi c hc => by
      show (Chip.poke _ _ _ _).cmem = f
      rcases h with rfl | ⟨rfl, _⟩
      · rw [Chip.poke_tx hm]; exact hc
      · rw [Chip.poke_reg hm]; exact hc)).run c hc
  unfold Bus.write at this
  generalize (Chip.dev sched faults).bus.writeFrame c b a d = r at this
  obtain ⟨_ | _ | _ | _, c'⟩ := r
  · exact this
  all_goals exact this.elim fun _ h => h.2

/-- The common block does not change. -/
theorem reach_cmem {m : Nat} (hm : m < 8) {L : List (U16 × Nat)} {c c' : Chip}
    (h : Reach (Chip.dev sched faults).bus (SockFrames (sockOf m) L) c c') : c'.cmem = c.cmem :=
  h.induct (I := fun x => x.cmem = c.cmem)
    (fun w b a d hi => ((Chip.readFrame_evolves w b a d).cmem).trans hi)
    (fun w _ _ _ hf hi => write_cmem hm _ hf w hi) rfl

/-- The registers of the socket that none of the frames writes: those at `G`. -/
theorem reach_regs {n : Nat} (hn : n < 8) {L : List (U16 × Nat)} (G : U16 → Prop)
    (hG : ∀ x ∈ L, ∀ i, i < x.2 → G (x.1 + BitVec.ofNat 16 i) → False)
    (hp : ¬ G 0x24 ∧ ¬ G 0x25 ∧ ¬ G 0x28 ∧ ¬ G 0x29) {c c' : Chip}
    (h : Reach (Chip.dev sched faults).bus (SockFrames (sockOf n) L) c c') :
    ∀ a, G a → (c'.socks n).mem a = (c.socks n).mem a := by
  let I : Sock → Prop := fun s => ∀ a, G a → s.mem a = (c.socks n).mem a
  have hI : StableS I := fun s e h => by
    intro a ha
    rw [act_mem]
    exact h a ha
  refine h.induct (I := At n I) (fun w b a d hi => (hI.at n) _ _ (Chip.readFrame_evolves w b a d) hi) ?_ (fun _ _ => rfl)
  intro w b a d hf hw
  have := (Chip.hoare_write (sched := sched) (faults := faults) (I := fun _ => At n I) b a d
    (fun _ _ _ => hI.at n) (fun i hi c hc => by
      rcases hf with rfl | ⟨rfl, hL⟩
      · rw [Chip.poke_tx hn]
        show I _
        rw [Chip.setSock_self]
        exact hc
      · rw [Chip.poke_reg hn]
        show I _
        rw [Chip.setSock_self]
        intro x hx
        have hne : x ≠ a + BitVec.ofNat 16 i := fun e => hG _ hL i hi (e ▸ hx)
        have h1 : x ≠ 0x24 := fun e => hp.1 (e ▸ hx)
        have h2 : x ≠ 0x25 := fun e => hp.2.1 (e ▸ hx)
        have h3 : x ≠ 0x28 := fun e => hp.2.2.1 (e ▸ hx)
        have h4 : x ≠ 0x29 := fun e => hp.2.2.2 (e ▸ hx)
        unfold Sock.pokeReg
        split
        · exact (same_command (c.socks n) _ x h1 h2 h3 h4).trans (hc x hx)
        · split
          · exact hc x hx
          · split
            · exact hc x hx
            · show (if _ then _ else _) = _
              rw [if_neg hne]
              exact hc x hx)).run w hw
  unfold Bus.write at this
  generalize (Chip.dev sched faults).bus.writeFrame w b a d = r at this
  obtain ⟨_ | _ | _ | _, c'⟩ := r
  · exact this
  all_goals exact this.elim fun _ h => h.2

/-- Invariants of sending. -/
theorem reach_send {n : Nat} (hn : n < 8) {P : Sock → Prop} (hP : StableS P)
    (htx : ∀ s a x, P s → P (s.pokeTx a x)) (hwr : ∀ s a x, a = 0x24 ∨ a = 0x25 → P s → P (s.pokeReg a x))
    (hir : ∀ s i, P s → P { s with ir := i }) (hsend : ∀ s, P s → P (s.command 0x20)) {c c' : Chip}
    (h : Reach (Chip.dev sched faults).bus (SendFrames (sockOf n)) c c') (hc : P (c.socks n)) : P (c'.socks n) := by
  refine h.induct (I := At n P) (fun w b a d hi => (hP.at n) _ _ (Chip.readFrame_evolves w b a d) hi) ?_ hc
  intro w b a d hf hw
  have := (Chip.hoare_write (sched := sched) (faults := faults) (I := fun _ => At n P) b a d
    (fun _ _ _ => hP.at n) (fun i hi c hc => by
      cases hf with
      | tx a d =>
        rw [Chip.poke_tx hn]
        show P _
        rw [Chip.setSock_self]
        exact htx _ _ _ hc
      | wr x y =>
        rw [Chip.poke_reg hn]
        show P _
        rw [Chip.setSock_self]
        rcases index_two (by rfl) hi with rfl | rfl
        · exact hwr _ _ _ (.inl rfl) hc
        · exact hwr _ _ _ (.inr rfl) hc
      | ir x =>
        rw [Chip.poke_reg hn]
        show P _
        rw [Chip.setSock_self]
        obtain rfl := index_one (by rfl) hi
        exact hir _ _ hc
      | send =>
        rw [Chip.poke_reg hn]
        show P _
        rw [Chip.setSock_self]
        obtain rfl := index_one (by rfl) hi
        exact hsend _ hc)).run w hw
  unfold Bus.write at this
  generalize (Chip.dev sched faults).bus.writeFrame w b a d = r at this
  obtain ⟨_ | _ | _ | _, c'⟩ := r
  · exact this
  all_goals exact this.elim fun _ h => h.2

/-- Destination and buffer sizes. -/
def destOrSize (a : U16) : Prop := a ∈ ([0x0C, 0x0D, 0x0E, 0x0F, 0x10, 0x11, 0x1E, 0x1F] : List U16)

instance : DecidablePred destOrSize := fun a => inferInstanceAs (Decidable (a ∈ _))

/-- UDP operations other than `connect` and `send_to` keep the destination registers and the sizes. -/
theorem reach_dest {n : Nat} (hn : n < 8) {c c' : Chip}
    (h : Reach (Chip.dev sched faults).bus (SockFrames (sockOf n) udpRegs) c c') :
    ∀ a, destOrSize a → (c'.socks n).mem a = (c.socks n).mem a :=
  reach_regs hn destOrSize (by decide) (by decide) h

/-- No operation changes the sizes. -/
theorem reach_sizes {n : Nat} (hn : n < 8) {c c' : Chip}
    (h : Reach (Chip.dev sched faults).bus (SockFrames (sockOf n) sockRegs) c c') :
    (c'.socks n).mem 0x1E = (c.socks n).mem 0x1E ∧ (c'.socks n).mem 0x1F = (c.socks n).mem 0x1F := by
  have := reach_regs hn (fun a => a = 0x1E ∨ a = 0x1F) (by decide) (by decide) h
  exact ⟨this _ (.inl rfl), this _ (.inr rfl)⟩

end W5500.Spec
