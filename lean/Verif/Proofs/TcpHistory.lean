import Verif.Spec.TcpHistory
import Verif.Proofs.ChipOpen
import Verif.Proofs.ErrIn
/-! # The invariant of a TCP connection over histories -/

namespace W5500.Spec
open W5500 Sock
variable {E : Type} {sched : Nat → List (Nat × Act)} {faults : Nat → Option (E × Nat)}

theorem Passes.evolves {c c' : Chip} (h : Passes c c') : c.Evolves c' := ⟨h.1, h.2⟩

theorem Passes.of_evolves {c c' : Chip} (h : c.Evolves c') : Passes c c' := ⟨h.cmem, h.socks⟩

/-- Foreign writes do not concern the socket. -/
theorem foreign_poke {n : Nat} {block : U8} {addr : U16} {data : List U8} (h : Foreign n block addr data)
    (i : Nat) (hi : i < data.length) (c : Chip) :
    (c.poke (block.setWidth 5) (addr + BitVec.ofNat 16 i) data[i]).socks n = c.socks n := by
  unfold Foreign at h
  unfold Chip.poke
  split at h
  · rename_i hb
    rw [if_pos hb]
    unfold Chip.pokeCommon
    split
    · rfl
    · split
      · rename_i hr
        rw [h i hi hr.1] at hr
        exact absurd hr.2 (by decide)
      · rfl
  · rename_i hb
    rw [if_neg hb]
    split
    · exact Chip.setSock_other _ _ _ _ (by omega)
    · split
      · exact Chip.setSock_other _ _ _ _ (by omega)
      · rfl

theorem foreign_keep {n : Nat} {P : Sock → Prop} (hP : StableS P) {block : U8} {addr : U16} {data : List U8}
    (h : Foreign n block addr data) (c : Chip) (hc : At n P c) :
    At n P ((Chip.dev sched faults).bus.writeFrame c block addr data).2 := by
  have := (Chip.hoare_write (sched := sched) (faults := faults) (I := fun _ => At n P) block addr data
    (fun _ _ _ => hP.at n) (fun i hi c hc => by
      show P _
      rw [foreign_poke h i hi c]
      exact hc)).run c hc
  unfold Bus.write at this
  generalize (Chip.dev sched faults).bus.writeFrame c block addr data = r at this
  obtain ⟨_ | _ | _ | _, c'⟩ := r
  · exact this
  all_goals exact this.elim fun _ h => h.2

/-- The invariant of histories. -/
theorem tcpRun_idle {n : Nat} (hn : n < 8) {c c' : Chip} {S A acc del : List U8}
    (h : TcpRun sched faults n c acc del c') (h0 : At n (TcpIdle S A) c) :
    At n (TcpIdle (S ++ acc) (A ++ del)) c' := by
  induction h with
  | start => simpa using h0
  | @send sched faults n c H acc del d d' fuel data k _ hs ih =>
    replace ih := ih hn h0
    have h1 : TcpSocket.socketSend (Chip.dev sched faults).bus fuel ⟨sockOf n⟩ data d.bus = (.ok k, d'.bus) := by
      unfold Device.tcpSend Device.onBus M.zoom at hs
      simp only [Prod.mk.injEq] at hs
      rw [← hs.2]
      exact Prod.ext hs.1 rfl
    have := (tcp_send hn (S ++ acc) (A ++ del) _ _ _ fuel data).ok ⟨ih, Nat.le_refl _, rfl, rfl⟩ h1
    rw [List.append_assoc] at this
    exact this.1
  | @receive sched faults n c H acc del d d' fuel buf buf' k _ hs ih =>
    replace ih := ih hn h0
    have h1 : TcpSocket.socketReceive (Chip.dev sched faults).bus fuel ⟨sockOf n⟩ (buf, d.bus) =
        (.ok k, (buf', d'.bus)) := by
      unfold Device.tcpReceive Device.onSockBus M.zoom at hs
      simp only [Prod.mk.injEq] at hs
      rw [← hs.2.1, ← hs.2.2]
      exact Prod.ext hs.1 rfl
    obtain ⟨bs, h2, h3, h4, h5, _⟩ := (tcp_receive hn (S ++ acc) (A ++ del) 0 False _ fuel buf).ok
      (s := (buf, d.bus)) ⟨rfl, ih, Nat.zero_le _, nofun, rfl⟩ h1
    have h4 : buf' = _ := h4
    rw [List.append_assoc] at h5
    rw [h4, ← h2, List.take_left]
    exact h5
  | @failedSend sched faults n c H acc del d d' fuel data r _ hs hr hw ih =>
    replace ih := ih hn h0
    have h1 : TcpSocket.socketSend (Chip.dev sched faults).bus fuel ⟨sockOf n⟩ data d.bus = (r, d'.bus) := by
      unfold Device.tcpSend Device.onBus M.zoom at hs
      simp only [Prod.mk.injEq] at hs
      rw [← hs.2]
      exact Prod.ext hs.1 rfl
    have := (tcp_send (sched := sched) (faults := faults) hn (S ++ acc) (A ++ del) _ _ _ fuel data).run d.bus
      ⟨ih, Nat.le_refl _, rfl, rfl⟩
    rw [h1] at this
    cases r with
    | ok k => exact absurd rfl (hr k)
    | err e => exact this hw
    | panic => exact this hw
    | fuel => exact this hw
  | @failedReceive sched faults n c H acc del d d' fuel buf buf' r _ hs hr hw ih =>
    replace ih := ih hn h0
    have h1 : TcpSocket.socketReceive (Chip.dev sched faults).bus fuel ⟨sockOf n⟩ (buf, d.bus) =
        (r, (buf', d'.bus)) := by
      unfold Device.tcpReceive Device.onSockBus M.zoom at hs
      simp only [Prod.mk.injEq] at hs
      rw [← hs.2.1, ← hs.2.2]
      exact Prod.ext hs.1 rfl
    have := (tcp_receive (sched := sched) (faults := faults) hn (S ++ acc) (A ++ del) 0 False _ fuel buf).run
      (buf, d.bus) ⟨rfl, ih, Nat.zero_le _, nofun, rfl⟩
    rw [h1] at this
    cases r with
    | ok k => exact absurd rfl (hr k)
    | err e => exact this hw
    | panic => exact this hw
    | fuel => exact this hw
  | @read sched faults n c acc del c1 block addr data _ ih =>
    replace ih := ih hn h0
    exact ((stable_tcpIdle _ _).at n) _ _ (Chip.readFrame_evolves _ _ _ _) ih
  | @write sched faults n c acc del c1 block addr data _ hf ih =>
    replace ih := ih hn h0
    exact foreign_keep (stable_tcpIdle _ _) hf _ ih
  | @pass sched faults n c acc del c1 c2 _ hp ih =>
    replace ih := ih hn h0
    exact ((stable_tcpIdle _ _).at n) _ _ hp.evolves ih
  | past _ ih => exact ih hn h0

/-- A successful `connect` establishes the invariant. -/
theorem tcpConnect_idle {H : Type} {n : Nat} (hn : n < 8) {fuel : Nat} {remote : SockAddr} {d d' : Device Chip H}
    (hz : SizesOk (d.bus.socks n).mem)
    (h : Device.tcpConnect (Chip.dev sched faults).bus fuel ⟨sockOf n⟩ remote d = (.ok (), d')) :
    ∃ r4, remote = .v4 r4 ∧ At n (fun s => (∃ S A, Fresh S A s) ∧ Endpoint (49849 + BitVec.ofNat 16 n) r4 s.mem) d'.bus := by
  unfold Device.tcpConnect at h
  split at h
  · exact nomatch h
  · rename_i r4
    refine ⟨r4, rfl, ?_⟩
    unfold Device.onBus M.zoom at h
    simp only [Prod.mk.injEq] at h
    have hp : (49849 + BitVec.setWidth 16 (sockOf n).index : U16) = 49849 + BitVec.ofNat 16 n := by
      congr 1
      apply BitVec.eq_of_toNat_eq
      show (BitVec.setWidth 16 (BitVec.ofNat 8 n)).toNat = _
      simp only [BitVec.toNat_setWidth, BitVec.toNat_ofNat]
      omega
    have := (tcp_connect (sched := sched) (faults := faults) hn fuel (49849 + BitVec.setWidth 16 (sockOf n).index) r4).ok
      (s := d.bus) (s' := d'.bus) (a := ()) hz (Prod.ext h.1 (by rw [← h.2]))
    rw [hp] at this
    exact this

end W5500.Spec
