import Verif.Spec.Wary
import Verif.Proofs.Rough
/-! # A failed `send_to` that is made again

The proofs are about an object that has forgotten the address it remembers, unless it is the address in question: for this one the destination registers
may hold anything, and a `send_to` makes the same transfers. -/

namespace W5500.Spec
open W5500 socketn Sock Props
variable {E H : Type} {sched : Nat → List (Nat × Act)} {faults : Nat → Option (E × Nat)}

/-- The object without the address it remembers, unless that is `p`. -/
def ghost : Option SockAddr4 → UdpSocket → UdpSocket
  | none, u => u
  | some a, u => if u.destination = some a then u else { u with destination := none }

theorem ghost_socket (p : Option SockAddr4) (u : UdpSocket) : (ghost p u).socket = u.socket := by
  unfold ghost
  split
  · rfl
  · split <;> rfl

theorem ghost_receive {W : Type} (B : Bus W E) (fuel : Nat) (p : Option SockAddr4) (u : UdpSocket) :
    (Device.udpReceive B fuel (ghost p u) : M (List U8 × Device W H) _ _) = Device.udpReceive B fuel u := by
  unfold ghost
  split
  · rfl
  · split <;> rfl

/-- The same transfers, the same result. -/
theorem ghost_sendTo {W : Type} (B : Bus W E) (fuel : Nat) {p : Option SockAddr4} {dst : SockAddr4} {u : UdpSocket} (hp : Safe p u dst) (data : List U8)
    (d : Device W H) {r : Res (NbError (UdpSocketError E)) Unit} {u' : UdpSocket} {d' : Device W H}
    (h : Device.udpSendTo B fuel (.v4 dst) data (u, d) = (r, (u', d'))) :
    ∃ v, Device.udpSendTo B fuel (.v4 dst) data (ghost p u, d) = (r, (v, d')) ∧ (v = u' ∨ (u' = u ∧ v = ghost p u ∧ r ≠ .ok ())) := by
  rcases p with _ | a
  · exact ⟨u', h, .inl rfl⟩
  unfold ghost
  dsimp only
  split
  · exact ⟨u', h, .inl rfl⟩
  · rename_i hna
    have hne : u.destination ≠ some dst := by
      rcases hp with hp | hp | hp
      · cases hp
      · cases hp; exact hna
      · exact hp
    have h1 := setDestination_eq B dst u d.bus
    have h2 := setDestination_eq B dst { u with destination := none } d.bus
    have e : destScript { u with destination := none } dst = destScript u dst := by
      unfold destScript
      rw [if_neg hne, if_neg nofun]
    rw [e] at h2
    unfold Device.udpSendTo Device.onSockBus M.zoom UdpSocket.socketSendTo at h ⊢
    dsimp only at h h1 h2 ⊢
    generalize M.mapErr UdpSocketError.other (writeAll B (destScript u dst)) d.bus = q at h1 h2
    obtain ⟨_ | e | _ | _, w⟩ := q
    · rw [M.bind_ok (M.mapErr_ok h1)] at h
      rw [M.bind_ok (M.mapErr_ok h2)]
      exact ⟨u', h, .inl rfl⟩
    · rw [M.bind_err (M.mapErr_err h1)] at h
      rw [M.bind_err (M.mapErr_err h2)]
      cases h
      exact ⟨_, rfl, .inr ⟨rfl, rfl, nofun⟩⟩
    · rw [M.bind_panic (s' := (u, w)) (by rw [M.mapErr_def, h1]; rfl)] at h
      rw [M.bind_panic (s' := ({ u with destination := none }, w)) (by rw [M.mapErr_def, h2]; rfl)]
      cases h
      exact ⟨_, rfl, .inr ⟨rfl, rfl, nofun⟩⟩
    · rw [M.bind_fuel (s' := (u, w)) (by rw [M.mapErr_def, h1]; rfl)] at h
      rw [M.bind_fuel (s' := ({ u with destination := none }, w)) (by rw [M.mapErr_def, h2]; rfl)]
      cases h
      exact ⟨_, rfl, .inr ⟨rfl, rfl, nofun⟩⟩

/-! ## One history after the other -/

theorem udpSent_append {z : Nat} {log log' : List UdpSent} {ps ps' : List Packet} (h : UdpSent.All z log ps) (h' : UdpSent.All z log' ps') :
    UdpSent.All z (log ++ log') (ps ++ ps') := by
  induction h' with
  | nil => simpa using h
  | snoc _ hb ih => rw [← List.append_assoc, ← List.append_assoc]; exact .snoc ih hb

theorem among_append {got got' : List UdpGot} {ds ds' : List Dgram} (h : UdpGot.Among got ds) (h' : UdpGot.Among got' ds') :
    UdpGot.Among (got ++ got') (ds ++ ds') := by
  induction h' with
  | nil => simpa using h
  | lost d _ ih => rw [← List.append_assoc]; exact .lost d ih
  | got _ hb ih => rw [← List.append_assoc, ← List.append_assoc]; exact .got ih hb

theorem udpInv_append {n : Nat} (hn : n < 8) {z : Nat} {K : List Packet} {A : List U8} {log log' : List UdpSent} {got got' : List UdpGot}
    {u u' : UdpSocket} {c c' : Chip} (h : UdpInv n z K A log got u c) (h' : UdpRun sched faults n u c log' got' u' c') :
    UdpInv n z K A (log ++ log') (got ++ got') u' c' := by
  obtain ⟨h1, h2, sent, ds, h3, h4, h5⟩ := h
  obtain ⟨g1, g2, sent', ds', g3, g4, g5⟩ := udpRun_inv (K := K ++ sent) (A := A ++ encAll ds) (z := z) hn ⟨h1, h2, [], [], .nil, ⟨.nil, nofun⟩, by
    rw [List.append_nil, show encAll [] = [] from rfl, List.append_nil]; exact h5⟩ h'
  rw [List.append_assoc, List.append_assoc, ← encAll_append] at g5
  exact ⟨g1, g2, sent ++ sent', ds ++ ds', udpSent_append h3 g3, ⟨among_append h4.1 g4.1, fun d hd => (List.mem_append.mp hd).elim (h4.2 d) (g4.2 d)⟩, g5⟩

/-- The object does not matter but for the socket and the address. -/
theorem UdpInv.object' {n z : Nat} {K : List Packet} {A : List U8} {log : List UdpSent} {got : List UdpGot} {u v : UdpSocket} {c : Chip}
    (h : UdpInv n z K A log got u c) (hs : v.socket = sockOf n) (hc : Coherent n v c) : UdpInv n z K A log got v c := ⟨hs, hc, h.idle⟩

/-! ## An early failure -/

theorem count_setDestination (u : UdpSocket) (a : SockAddr4) (k : Nat) :
    Hoare (fun s : UdpSocket × Chip => s.1 = u ∧ k ≤ s.2.txn) (UdpSocket.setDestination (Chip.dev sched faults).bus a)
      (fun _ s => k + (if u.destination = some a then 0 else 2) ≤ s.2.txn) (fun _ => True) := by
  unfold UdpSocket.setDestination Socket.setDestinationIp Socket.setDestinationPort
  refine .bind (Q := fun d s => d.1 = u ∧ s.1 = u ∧ k ≤ s.2.txn) (.get fun s h => ⟨h.1, h⟩) fun d => ?_
  refine .fact fun hd => ?_
  rw [hd]
  dsimp only
  have C : ∀ (k : Nat) (b : U8) (x : U16) (l : List U8), Hoare (fun s : UdpSocket × Chip => k ≤ s.2.txn)
      (M.mapErr UdpSocketError.other (M.onSnd ((Chip.dev sched faults).bus.write b x l))) (fun _ s => k + 1 ≤ s.2.txn) (fun _ => True) := fun k b x l =>
    (Hoare.mapErr (.onSnd fun _ => (count_write b x l).conseq (R' := fun _ => True) (fun _ h => h) (fun _ _ h => h) fun _ _ => trivial))
  refine .ite (fun hdiff => ?_) fun hsame => .pure fun s h => ?_
  · refine .pre (P := fun s : UdpSocket × Chip => k ≤ s.2.txn) ?_ fun s h => h.2
    rw [if_neg (fun e => by rw [e] at hdiff; simp at hdiff)]
    refine .bind (C k _ _ _) fun _ => .bind (C (k + 1) _ _ _) fun _ => .modify fun s h => h
  · have := h.2
    rw [if_pos]
    · exact this
    · cases hu : u.destination with
      | none => rw [hu] at hsame; exact absurd rfl hsame
      | some x => rw [hu] at hsame; simpa using hsame

theorem early_sendTo {n : Nat} (hn : n < 8) {P : Sock → Prop} (hP : StableS P) (hp : ∀ s p x, P s → P (s.pokeTx p x))
    (hk : ∀ s a x, destOrSize a → a ≠ 0x1E → a ≠ 0x1F → P s → P (s.setMem a x)) (u : UdpSocket) (hu : u.socket = sockOf n) (fuel : Nat)
    (a : SockAddr4) (data : List U8) (k : Nat) :
    Hoare (fun s : UdpSocket × Chip => (s.1 = u ∧ At n P s.2 ∧ Coherent n u s.2) ∧ s.1 = u ∧ k ≤ s.2.txn)
      (UdpSocket.socketSendTo (Chip.dev sched faults).bus fuel a data) (fun _ _ => True)
      (fun s => (s.1 = u ∧ At n P s.2 ∧ u.destination ≠ some a) ∨
        (s.1 = { u with destination := some a } ∧ At n P s.2 ∧ (s.2.socks n).dest = wire a) ∨
        k + (if u.destination = some a then 7 else 9) ≤ s.2.txn) := by
  unfold UdpSocket.socketSendTo
  refine .bind (.exc (.mapErr ((udp_setDestination hn hP hk u hu a).and (count_setDestination u a k))) fun s h => .inl h.1) fun _ => ?_
  refine .bind (Q := fun (d s : UdpSocket × Chip) => d.1 = { u with destination := some a } ∧ s.1 = { u with destination := some a } ∧
    Sofar n (fun s => P s ∧ s.dest = wire a) (k + (if u.destination = some a then 0 else 2)) s.2)
    (.get fun s h => ⟨h.1.1, h.1.1, (⟨⟨h.1.2.1, h.1.2.2⟩, h.2⟩ : Sofar n (fun s => P s ∧ s.dest = wire a) _ s.2)⟩) fun d => ?_
  refine .fact fun hd => ?_
  rw [hd]
  have h := early_udpSend (sched := sched) (faults := faults) (k := k + (if u.destination = some a then 0 else 2)) hn
    (P := fun s => P s ∧ s.dest = wire a) (fun s x h => ⟨hP s x h.1, (act_dest s x).trans h.2⟩) (fun s p x h => ⟨hp s p x h.1, h.2⟩)
    { u with destination := some a } hu fuel data
  refine (Hoare.onSnd' { u with destination := some a } h).conseq (fun s h => h) (fun _ _ _ => trivial) fun s h => ?_
  rcases h with ⟨h1, h2 | h2⟩
  · exact .inr (.inl ⟨h1, h2.1, h2.2⟩)
  · refine .inr (.inr ?_)
    split at h2 <;> rename_i hc
    · rw [if_pos hc]; omega
    · rw [if_neg hc]; omega

/-! ## The invariant -/

theorem UdpIdle.pokeTx {K : List Packet} {A : List U8} {z : Nat} {qs : List Dgram} (s : Sock) (p : U16) (x : U8) (h : UdpIdle K A z qs s) :
    UdpIdle K A z qs (s.pokeTx p x) :=
  ⟨⟨⟨h.idle.base.mode, h.idle.base.size, h.idle.base.dst, h.idle.base.rd, h.idle.base.una, h.idle.base.out⟩, h.idle.wr, ⟨⟨h.idle.rx.core.size,
    h.idle.rx.core.fits, h.idle.rx.core.arrived⟩, h.idle.rx.reg⟩⟩, h.size, h.queue⟩

theorem ghost_dest {p : Option SockAddr4} {dst : SockAddr4} {u : UdpSocket} (hp : Safe p u dst) :
    (ghost p u).destination = some dst ↔ u.destination = some dst := by
  unfold ghost
  split
  · exact Iff.rfl
  · split
    · exact Iff.rfl
    · rename_i h
      refine ⟨nofun, fun e => ?_⟩
      rcases hp with hp | hp | hp
      · cases hp
      · cases hp; exact absurd e h
      · exact absurd e hp

theorem ghost_coherent {n : Nat} {dst : SockAddr4} {u : UdpSocket} {c : Chip} (h : u.destination = some dst → (c.socks n).dest = wire dst) :
    Coherent n (ghost (some dst) u) c := by
  unfold ghost
  dsimp only
  split
  · rename_i e
    intro a ha
    rw [e] at ha
    cases ha
    exact h e
  · exact nofun

/-- The sends that returned `Ok`. -/
abbrev oks (sent : List (SockAddr4 × List U8)) : List UdpSent := sent.map fun x => ⟨x.1, x.2, true⟩

theorem udpWary_inv {n : Nat} (hn : n < 8) {z : Nat} {K : List Packet} {A : List U8} {u0 u : UdpSocket} {c0 c : Chip} {p : Option SockAddr4}
    {sent : List (SockAddr4 × List U8)} {got : List UdpGot} (h0 : UdpInv n z K A [] [] u0 c0)
    (h : UdpWary sched faults n u0 c0 p sent got u c) : UdpInv n z K A (oks sent) got (ghost p u) c := by
  induction h with
  | start => exact h0
  | send fuel data dst _ hm hd ih =>
    have := udpInv_append hn ih (.send fuel data dst .start hm hd)
    simpa [oks, ghost] using this
  | sendTo fuel dst data _ hp hm ih =>
    obtain ⟨v, h1, rfl | ⟨_, _, h2⟩⟩ := ghost_sendTo _ fuel hp data _ hm
    · have := udpInv_append hn ih (.sendTo fuel dst data .start h1)
      simpa [oks, ghost] using this
    · exact absurd rfl h2
  | receive fuel buf buf' k o _ hm ih =>
    have := udpInv_append hn ih (.receive fuel buf buf' k o .start (by rw [ghost_receive]; exact hm))
    simpa using this
  | @failedSend H sent got u d d' fuel data r _ hm hr he ih =>
    obtain ⟨hsk, hc, ps, ds, g1, g2, hi⟩ := ih
    have hsk : u.socket = sockOf n := hsk
    have key := (early_udpSend (sched := sched) (faults := faults) (n := n) (k := d.bus.txn)
      (P := fun s => UdpIdle (K ++ ps) (A ++ encAll ds) z [] s ∧ s.dest = (d.bus.socks n).dest) hn
      (fun s a h => ⟨stable_udpIdle _ _ _ _ s a h.1, (act_dest s a).trans h.2⟩) (fun s p x h => ⟨h.1.pokeTx s p x, h.2⟩) u hsk fuel data).run d.bus
      ⟨⟨hi, rfl⟩, Nat.le_refl _⟩
    have hm' := hm
    unfold Device.udpSend at hm'
    rw [onBus_run hm'] at key
    have h1 : UdpIdle (K ++ ps) (A ++ encAll ds) z [] (d'.bus.socks n) ∧ (d'.bus.socks n).dest = (d.bus.socks n).dest := by
      rcases r with k | e | _ | _
      · exact absurd rfl hr
      all_goals exact key.resolve_right (by omega)
    exact ⟨hsk, fun a ha => h1.2.trans (hc a ha), ps, ds, g1, g2, h1.1⟩
  | @failedSendTo H p sent got u u' d d' fuel dst data r _ hp hm hr he ih =>
    obtain ⟨hsk, hc, ps, ds, g1, g2, hi⟩ := ih
    obtain ⟨v, h1, h2⟩ := ghost_sendTo _ fuel hp data _ hm
    have key := (early_sendTo (sched := sched) (faults := faults) hn (stable_udpIdle (K ++ ps) (A ++ encAll ds) z []) UdpIdle.pokeTx
      (fun s b x hb h1 h2 h => h.setMem b x (dest_indifferent hb h1 h2)) (ghost p u) hsk fuel dst data d.bus.txn).run (ghost p u, d.bus)
      ⟨⟨rfl, hi, hc⟩, rfl, Nat.le_refl _⟩
    unfold Device.udpSendTo at h1
    rw [onSockBus_run h1] at key
    have late : ¬ d.bus.txn + (if (ghost p u).destination = some dst then 7 else 9) ≤ d'.bus.txn := by
      simp only [ghost_dest hp]
      split at he <;> rename_i hc
      · rw [if_pos hc]; omega
      · rw [if_neg hc]; omega
    have k1 : (v = ghost p u ∧ UdpIdle (K ++ ps) (A ++ encAll ds) z [] (d'.bus.socks n) ∧ (ghost p u).destination ≠ some dst) ∨
        (v = { ghost p u with destination := some dst } ∧ UdpIdle (K ++ ps) (A ++ encAll ds) z [] (d'.bus.socks n) ∧ (d'.bus.socks n).dest = wire dst) := by
      rcases r with k | e | _ | _
      · exact absurd rfl hr
      all_goals exact key.elim .inl fun h => h.elim .inr fun h => absurd h late
    have hidle : UdpIdle (K ++ ps) (A ++ encAll ds) z [] (d'.bus.socks n) := k1.elim (·.2.1) (·.2.1)
    have hvs : v.socket = sockOf n := by
      rcases k1 with ⟨e, _⟩ | ⟨e, _⟩ <;> rw [e] <;> exact hsk
    refine ⟨?_, ghost_coherent fun e => ?_, ps, ds, g1, g2, hidle⟩
    · rw [ghost_socket]
      rcases h2 with rfl | ⟨rfl, _⟩
      · exact hvs
      · rw [ghost_socket] at hsk; exact hsk
    · rcases k1 with ⟨k1, _, k2⟩ | ⟨_, _, k2⟩
      · rcases h2 with rfl | ⟨rfl, _⟩
        · rw [k1] at e; exact absurd e k2
        · exact absurd ((ghost_dest hp).mpr e) k2
      · exact k2
  | failedReceive fuel buf buf' r _ hm hr he ih =>
    have := udpInv_append hn ih (.failedReceive fuel buf buf' r .start (by rw [ghost_receive]; exact hm) hr (early_udpReceive_reg fuel buf buf' r hm hr he))
    simpa using this
  | other _ h2 ih =>
    have := udpInv_append hn ih h2
    simpa [ghost] using this
  | pass _ hp ih =>
    have := udpInv_append hn ih (.pass (sched := sched) (faults := faults) .start hp)
    simpa using this

end W5500.Spec
