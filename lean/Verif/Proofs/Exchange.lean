import Verif.Spec.Exchange
import Verif.Proofs.Block
import Verif.Proofs.Irq
import Verif.Proofs.Sendok
import Verif.Proofs.SuccessOpen
/-! # Sending does not clear what has arrived -/

namespace W5500.Spec
open W5500 socketn Sock
variable {E H : Type} {sched : Nat → List (Nat × Act)} {faults : Nat → Option (E × Nat)}

/-- What time and the bytes written keep is kept, if transfers do not fail. -/
theorem reach_ticks (hf : ∀ i, faults i = none) {I : Chip → Prop} (hT : Chip.Ticks sched I) {F : U8 → U16 → List U8 → Prop}
    (hF : ∀ b a d, F b a d → ∀ i (hi : i < d.length) c, I c → I (c.poke (b.setWidth 5) (a + BitVec.ofNat 16 i) d[i]))
    {c c' : Chip} (h : Reach (Chip.dev sched faults).bus F c c') (hc : I c) : I c' := by
  refine h.induct (fun w b a d hi => hT.readsOnly (faults := faults) (.read b a d (.refl w)) hi) (fun w b a d hfr hw => ?_) hc
  have h1 := (healthy_chip (sched := sched) hf).write w b a d
  exact (hT.write (faults := faults) b a d (hF b a d hfr)).ok (s := w) (a := ()) hw (Prod.ext h1 rfl)

/-- `s'` has the same RX side as `s`, and the same is announced. -/
structure SameRx (s s' : Sock) : Prop where
  proto : s'.proto = s.proto
  rsr : s'.rsr = s.rsr
  size : s'.rxSize = s.rxSize
  announced : s.Announced ↔ s'.Announced

theorem SameRx.waits {m : Nat} {s s' : Sock} (e : SameRx s s') (h : Waits m s) : Waits m s' :=
  ⟨e.proto.trans h.udp, ⟨by rw [e.size]; exact h.fits.size, by rw [e.rsr, e.size]; exact h.fits.fits⟩, by
    rw [e.rsr, e.size]
    exact h.room.imp_left fun h => ⟨e.announced.mp h.1, by rw [e.rsr]; exact h.2⟩⟩

theorem SameRx.ripe {s s' : Sock} (e : SameRx s s') (h : Ripe s) : Ripe s' :=
  ⟨e.announced.mp h.1, by rw [e.rsr]; exact h.2⟩

theorem sendFrames_sameRx {n : Nat} (hn : n < 8) {b : U8} {a : U16} {d : List U8} (h : SendFrames (sockOf n) b a d) (i : Nat)
    (hi : i < d.length) (c : Chip) : SameRx (c.socks n) ((c.poke (b.setWidth 5) (a + BitVec.ofNat 16 i) d[i]).socks n) := by
  cases h with
  | tx a d => exact Chip.poke_tx' (P := SameRx (c.socks n)) hn ⟨rfl, rfl, rfl, .rfl⟩
  | wr x y =>
    refine Chip.poke_reg' (P := SameRx (c.socks n)) hn ?_
    rcases index_two (by rfl) hi with rfl | rfl <;> exact ⟨rfl, rfl, rfl, .rfl⟩
  | ir x hx =>
    refine Chip.poke_reg' (P := SameRx (c.socks n)) hn ?_
    obtain rfl := index_one (by rfl) hi
    refine ⟨rfl, rfl, rfl, ?_⟩
    show (c.socks n).ir.getLsbD 2 = true ↔ ((c.socks n).ir &&& ~~~x).getLsbD 2 = true
    rw [BitVec.getLsbD_and, BitVec.getLsbD_not, hx]
    simp
  | send =>
    refine Chip.poke_reg' (P := SameRx (c.socks n)) hn ?_
    obtain rfl := index_one (by rfl) hi
    exact ⟨rfl, rfl, rfl, .rfl⟩

/-- After sending, what has arrived is still announced. -/
theorem send_waits {n : Nat} (hn : n < 8) (hf : ∀ i, faults i = none) {m k : Nat} {dg : Dgram} (hw : dg.Wf)
    (hm : dg.encode.length ≤ m) (ha : (n, .datagram dg) ∈ sched k) {c c' : Chip}
    (h : Reach (Chip.dev sched faults).bus (SendFrames (sockOf n)) c c')
    (hc : Waits m (c.socks n) ∧ (k < c.clock → Ripe (c.socks n))) : Waits m (c'.socks n) ∧ (k < c'.clock → Ripe (c'.socks n)) := by
  refine reach_ticks hf (waits_ticks hw hm ha) (fun b a d hfr i hi c hc => ?_) h hc
  have e := sendFrames_sameRx hn hfr i hi c
  exact ⟨e.waits hc.1, fun hk => e.ripe (hc.2 (by rwa [Chip.poke_clock] at hk))⟩

/-- Opening a socket leaves nothing that waits unannounced. -/
theorem noticed_open {n : Nat} (hn : n < 8) (hf : ∀ i, faults i = none) (u : UdpSocket) (hu : u.socket = sockOf n) :
    Hoare (fun _ => True) (u.open (Chip.dev sched faults).bus) (fun _ => At n Noticed) (fun _ => True) := by
  unfold UdpSocket.open Socket.command Socket.resetInterrupt Socket.setSourcePort Socket.setMode Socket.setInterruptMask
  rw [hu]
  have w : ∀ (b : U8) (a : U16) (d : List U8),
      Hoare (fun _ => True) ((Chip.dev sched faults).bus.write b a d) (fun _ _ => True) (fun _ => True) :=
    fun b a d => ⟨fun s _ => by
      generalize (Chip.dev sched faults).bus.write b a d s = r
      obtain ⟨_ | _ | _ | _, _⟩ := r <;> trivial⟩
  refine .bind (w _ _ _) fun _ => .bind (w _ _ _) fun _ => .bind (w _ _ _) fun _ => .bind (w _ _ _) fun _ => .bind (w _ _ _) fun _ => ?_
  have hT : Stays sched n (fun _ => True) := fun _ _ _ _ _ => trivial
  refine ((hT.write1 hn hf (Q := Noticed) _ _ fun s _ => ?_).exc fun _ h => h.elim).pre fun _ _ => trivial
  rw [noticed_iff]
  intro h
  exact absurd (BitVec.sub_self _) h

/-- ... and `connect` does not either. -/
theorem noticed_connect {n : Nat} (hn : n < 8) (hf : ∀ i, faults i = none) (u : UdpSocket) (hu : u.socket = sockOf n) (a : SockAddr4) :
    Hoare (fun s : UdpSocket × Chip => s.1 = u)
      (do
        let self := (← M.get).1
        M.mapErr UdpSocketError.other (M.onSnd (self.open (Chip.dev sched faults).bus))
        UdpSocket.setDestination (Chip.dev sched faults).bus a)
      (fun _ s => At n Noticed s.2) (fun _ => True) := by
  refine .bind (Q := fun (d s : UdpSocket × Chip) => d.1 = u ∧ s.1 = u) (.get fun s h => ⟨h, h⟩) fun d => .fact fun hd => ?_
  rw [hd]
  refine .bind (Q := fun _ s => s.1 = u ∧ At n Noticed s.2)
    ((Hoare.mapErr (.onSnd' u (noticed_open hn hf u hu))).conseq (fun _ h => ⟨h, trivial⟩) (fun _ _ h => h) fun _ _ => trivial) fun _ => ?_
  have hS : Stays sched n Noticed := stable_noticed.stays
  have w : ∀ (a : U16) (d : List U8), (∀ i (hi : i < d.length) s, Noticed s → Noticed (s.pokeReg (a + BitVec.ofNat 16 i) d[i])) →
      Hoare (At n Noticed) ((Chip.dev sched faults).bus.write (sockOf n).register a d) (fun _ => At n Noticed) (fun _ => True) :=
    fun a d h => (hS.writeReg hn a d h).exc fun _ _ => trivial
  unfold UdpSocket.setDestination Socket.setDestinationIp Socket.setDestinationPort
  refine .bind (Q := fun (d s : UdpSocket × Chip) => d.1 = u ∧ s.1 = u ∧ At n Noticed s.2) (.get fun s h => ⟨h.1, h⟩) fun d => .fact fun hd => ?_
  rw [hd]
  dsimp only
  rw [hu]
  refine .ite (fun _ => ?_) fun _ => .pure fun _ h => h.2
  refine .bind (Q := fun _ s => s.1 = u ∧ At n Noticed s.2)
    ((Hoare.mapErr (.onSnd' u (w _ _ fun i hi s h => ?_))).conseq (fun _ h => h) (fun _ _ h => h) fun _ _ => trivial) fun _ =>
    .bind (Q := fun _ s => s.1 = u ∧ At n Noticed s.2)
    ((Hoare.mapErr (.onSnd' u (w _ _ fun i hi s h => ?_))).conseq (fun _ h => h) (fun _ _ h => h) fun _ _ => trivial) fun _ =>
    .modify fun s h => h.2
  · have : i < 4 := hi
    match i, this with
    | 0, _ => exact h
    | 1, _ => exact h
    | 2, _ => exact h
    | 3, _ => exact h
  · have : i < 2 := hi
    match i, this with
    | 0, _ => exact h
    | 1, _ => exact h

/-- More fuel does not change the outcome of waiting. -/
theorem le_nbBlock {σ ε α : Type} {call call' : M σ (NbError ε) α} (h : Le call call') {k l : Nat} (hk : k ≤ l) :
    Le (nbBlock call k) (nbBlock call' l) := by
  induction k generalizing l with
  | zero => exact .outOfFuel _
  | succ k ih =>
    obtain ⟨l, rfl⟩ : ∃ j, l = j + 1 := ⟨l - 1, by omega⟩
    constructor
    intro s hs
    unfold nbBlock at hs ⊢
    have h1 := h.run s
    rcases hr : call s with ⟨_ | (_ | _) | _ | _, t⟩ <;> rw [hr] at hs h1
    · rw [h1 nofun]
    · rw [h1 nofun]
    · rw [h1 nofun]
      exact (ih (by omega)).run t hs
    · rw [h1 nofun]
    · exact absurd rfl hs

/-- A round that returned `Ok` with some fuel succeeds. -/
theorem ask_succeeds {W : Type} {B : Bus W E} {u : UdpSocket} {question : List U8} {fuel : Nat} {s s' : List U8 × Device W H}
    {x : Nat × SockAddr} (h : ask B u question fuel s = (.ok x, s')) : Succeeds (ask B u question) s x s' := by
  refine ⟨nofun, fuel, fun f hf => ?_⟩
  have : Le (ask B u question fuel : M (List U8 × Device W H) _ _) (ask B u question f) :=
    .bind (.onSnd (le_nbBlock (le_udpSend u question hf) hf)) fun _ => le_nbBlock (le_udpReceive u hf) hf
  rw [this.run s (by rw [h]; nofun), h]

end W5500.Spec
