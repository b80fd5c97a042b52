import Verif.Proofs.ChipUdpRx
/-! # Invariants of UDP histories -/

namespace W5500

theorem MovesOn.hoare {W E ε α : Type} {B : Bus W E} {F : U8 → U16 → List U8 → Prop} {m : M W ε α} {I : W → Prop}
    (h : MovesOn B F id m) (hI : ∀ w w', Reach B F w w' → I w → I w') : Hoare I m (fun _ => I) I := by
  constructor
  intro s hs
  have := hI _ _ (h.run s) hs
  generalize m s = r at this
  obtain ⟨_ | _ | _ | _, t⟩ := r <;> exact this

end W5500

namespace W5500.Spec
open W5500 socketn Sock
variable {E ε α : Type} {sched : Nat → List (Nat × Act)} {faults : Nat → Option (E × Nat)}

theorem dest_congr {s s' : Sock} (h : ∀ a, destOrSize a → s'.mem a = s.mem a) : s'.dest = s.dest := by
  unfold dest
  rw [h 0x0C (by decide), h 0x0D (by decide), h 0x0E (by decide), h 0x0F (by decide), h 0x10 (by decide),
    h 0x11 (by decide)]

theorem reach_coherent {n : Nat} (hn : n < 8) {u : UdpSocket} {c c' : Chip}
    (h : Reach (Chip.dev sched faults).bus (SockFrames (sockOf n) udpRegs) c c') (hc : Coherent n u c) :
    Coherent n u c' := fun a ha => (dest_congr (reach_dest hn h)).trans (hc a ha)

/-- The body of `connect`. -/
theorem udp_connect {n : Nat} (hn : n < 8) {P P' R : Sock → Prop} (u : UdpSocket) (hu : u.socket = sockOf n)
    (hopen : Hoare (At n P) (u.open (Chip.dev sched faults).bus) (fun _ => At n P') (At n R)) (hP' : StableS P')
    (hk : ∀ s a x, destOrSize a → a ≠ 0x1E → a ≠ 0x1F → P' s → P' (s.setMem a x)) (hR : ∀ s, P' s → R s) (a : SockAddr4) :
    Hoare (fun s : UdpSocket × Chip => s.1 = u ∧ At n P s.2 ∧ Coherent n u s.2)
      (do
        let self := (← M.get).1
        M.mapErr UdpSocketError.other (M.onSnd (self.open (Chip.dev sched faults).bus))
        UdpSocket.setDestination (Chip.dev sched faults).bus a)
      (fun _ s => s.1 = { u with destination := some a } ∧ At n P' s.2 ∧ (s.2.socks n).dest = wire a)
      (fun s => s.1 = u ∧ At n R s.2 ∧ (u.destination = some a → Coherent n u s.2)) := by
  refine .bind (Q := fun d s => d.1 = u ∧ s.1 = u ∧ At n P s.2 ∧ Coherent n u s.2) (.get fun s h => ⟨h.1, h⟩) fun d => ?_
  refine .fact fun hd => ?_
  rw [hd]
  have hcoh : Hoare (Coherent n u) (u.open (Chip.dev sched faults).bus) (fun _ => Coherent n u) (Coherent n u) :=
    (moves_udpOpen u).hoare fun c c' h => reach_coherent hn (by rw [← hu]; exact h)
  refine .bind (.exc (.mapErr (.onSnd' u (hopen.and hcoh))) fun s h => ⟨h.1, h.2.1, fun _ => h.2.2⟩) fun _ => ?_
  exact (udp_setDestination hn hP' hk u hu a).exc fun s h => ⟨h.1, hR _ h.2.1, fun e => absurd e h.2.2⟩

/-- `set_port`. -/
theorem udp_setPort {n : Nat} (hn : n < 8) {P : Sock → Prop} (u : UdpSocket) (hu : u.socket = sockOf n) (port : U16)
    (hP : StableS P) (hk : ∀ s a x, a = 0x04 ∨ a = 0x05 → P s → P (s.setMem a x)) :
    Hoare (fun s : UdpSocket × Chip => s.1 = u ∧ At n P s.2) (UdpSocket.setPort (Chip.dev sched faults).bus port)
      (fun _ s => s.1 = { u with port := port } ∧ At n P s.2)
      (fun s => s.1 = { u with port := port } ∧ At n P s.2) := by
  unfold UdpSocket.setPort
  refine .bind (.modify (Q := fun _ s => s.1 = { u with port := port } ∧ At n P s.2) fun s h => ⟨by rw [h.1], h.2⟩) fun _ => ?_
  refine .bind (Q := fun d s => d.1 = { u with port := port } ∧ s.1 = { u with port := port } ∧ At n P s.2)
    (.get fun s h => ⟨h.1, h⟩) fun d => ?_
  refine .fact fun hd => ?_
  rw [hd]
  dsimp only
  suffices H : Hoare (At n P) (u.socket.setSourcePort (Chip.dev sched faults).bus port)
      (fun _ => At n fun s => P s ∧ Stored s.mem 0x04 (toBeBytes port)) (At n P) from
    .post (.mapErr (.onSnd' { u with port := port } H)) fun _ s h => ⟨h.1, h.2.1⟩
  unfold Socket.setSourcePort
  rw [hu]
  refine hs_store hn hP _ _ (by simp [toBeBytes]) ?_ ?_
  · intro i hi
    rcases index_two (by rfl) hi with rfl | rfl <;> rfl
  · intro s i x hi h
    rcases index_two (by rfl) hi with rfl | rfl
    · exact hk s _ x (.inl rfl) h
    · exact hk s _ x (.inr rfl) h

/-- The body of `bind`. -/
theorem udp_bind {n : Nat} (hn : n < 8) {P P' R : Sock → Prop} (u : UdpSocket) (hu : u.socket = sockOf n) (port : U16)
    (hP : StableS P) (hk : ∀ s a x, a = 0x04 ∨ a = 0x05 → P s → P (s.setMem a x)) (hR : ∀ s, P s → R s)
    (hopen : Hoare (At n P) (UdpSocket.open (Chip.dev sched faults).bus { u with port := port }) (fun _ => At n P') (At n R)) :
    Hoare (fun s : UdpSocket × Chip => s.1 = u ∧ At n P s.2)
      (do
        UdpSocket.setPort (Chip.dev sched faults).bus port
        let self := (← M.get).1
        M.mapErr UdpSocketError.other (M.onSnd (self.open (Chip.dev sched faults).bus)))
      (fun _ s => s.1 = { u with port := port } ∧ At n P' s.2)
      (fun s => s.1 = { u with port := port } ∧ At n R s.2) := by
  refine .bind (.exc (udp_setPort hn u hu port hP hk) fun s h => ⟨h.1, hR _ h.2⟩) fun _ => ?_
  refine .bind (Q := fun d s => d.1 = { u with port := port } ∧ s.1 = { u with port := port } ∧ At n P s.2)
    (.get fun s h => ⟨h.1, h⟩) fun d => ?_
  refine .fact fun hd => ?_
  rw [hd]
  exact .mapErr (.onSnd' _ hopen)

/-- The body of `send_to`. -/
theorem udp_sendTo {n : Nat} (hn : n < 8) {P P' R : Sock → Prop} (u : UdpSocket) (hu : u.socket = sockOf n)
    (fuel : Nat) (data : List U8) (a : SockAddr4) (hP : StableS P)
    (hk : ∀ s a x, destOrSize a → a ≠ 0x1E → a ≠ 0x1F → P s → P (s.setMem a x)) (hR : ∀ s, P s → R s)
    (hsend : Hoare (At n fun s => P s ∧ s.dest = wire a)
      (UdpSocket.socketSendAll (Chip.dev sched faults).bus fuel { u with destination := some a } data)
      (fun _ => At n P') (At n R)) :
    Hoare (fun s : UdpSocket × Chip => s.1 = u ∧ At n P s.2 ∧ Coherent n u s.2)
      (UdpSocket.socketSendTo (Chip.dev sched faults).bus fuel a data)
      (fun _ s => s.1 = { u with destination := some a } ∧ At n P' s.2 ∧ (s.2.socks n).dest = wire a)
      (fun s => At n R s.2 ∧ ((s.1 = u ∧ At n P s.2 ∧ u.destination ≠ some a) ∨
        (s.1 = { u with destination := some a } ∧ (s.2.socks n).dest = wire a))) := by
  unfold UdpSocket.socketSendTo
  refine .bind (.exc (.mapErr (udp_setDestination hn hP hk u hu a)) fun s h => ⟨hR _ h.2.1, .inl h⟩) fun _ => ?_
  refine .bind (Q := fun d s => d.1 = { u with destination := some a } ∧ s.1 = { u with destination := some a } ∧
    (At n P s.2 ∧ (s.2.socks n).dest = wire a)) (.get fun s h => ⟨h.1, h.1, h.2.1, h.2.2⟩) fun d => ?_
  refine .fact fun hd => ?_
  rw [hd]
  have hcoh : Hoare (fun c => (c.socks n).dest = wire a)
      (UdpSocket.socketSendAll (Chip.dev sched faults).bus fuel { u with destination := some a } data)
      (fun _ c => (c.socks n).dest = wire a) (fun c => (c.socks n).dest = wire a) :=
    (moves_udpSendAll _ fuel data).hoare fun c c' h e =>
      (dest_congr (reach_dest hn (by rw [← hu]; exact h))).trans e
  refine .exc (.pre (.onSnd' { u with destination := some a } (hsend.and hcoh)) fun s h => ⟨h.1, h.2, h.2.2⟩)
    fun s h => ⟨h.2.1, .inr ⟨h.1, h.2.2⟩⟩

/-! ## The object and the destination registers -/

theorem onSockBus_run {S H ε α : Type} {m : M (S × Chip) ε α} {s s' : S} {d d' : Device Chip H} {r : Res ε α}
    (h : Device.onSockBus m (s, d) = (r, (s', d'))) : m (s, d.bus) = (r, (s', d'.bus)) := by
  unfold Device.onSockBus M.zoom at h
  simp only [Prod.mk.injEq] at h
  rw [← h.2.1, ← h.2.2]
  exact Prod.ext h.1 rfl

theorem onBus_run {H ε α : Type} {m : M Chip ε α} {d d' : Device Chip H} {r : Res ε α}
    (h : Device.onBus m d = (r, d')) : m d.bus = (r, d'.bus) := by
  unfold Device.onBus M.zoom at h
  simp only [Prod.mk.injEq] at h
  rw [← h.2]
  exact Prod.ext h.1 rfl

theorem sizes_setMem {s : Sock} (a : U16) (x : U8) (h1 : a ≠ 0x1E) (h2 : a ≠ 0x1F) (h : SizesOk s.mem) :
    SizesOk (s.setMem a x).mem := sizes_keep h a x h1 h2

theorem reach_sizesOk {n : Nat} (hn : n < 8) {c c' : Chip}
    (h : Reach (Chip.dev sched faults).bus (SockFrames (sockOf n) sockRegs) c c') (hc : SizesOk (c.socks n).mem) :
    SizesOk (c'.socks n).mem := by
  obtain ⟨h1, h2⟩ := reach_sizes hn h
  unfold SizesOk
  rw [h1, h2]
  exact hc

theorem open_keepsSizes {n : Nat} (hn : n < 8) (u : UdpSocket) (hu : u.socket = sockOf n) :
    Hoare (At n fun s => SizesOk s.mem) (u.open (Chip.dev sched faults).bus) (fun _ => At n fun s => SizesOk s.mem)
      (At n fun s => SizesOk s.mem) :=
  ((moves_udpOpen u).wider _ udpRegs_sub).hoare fun c c' h => reach_sizesOk hn (by rw [← hu]; exact h)

theorem send_keepsSizes {n : Nat} (hn : n < 8) (u : UdpSocket) (hu : u.socket = sockOf n) (fuel : Nat) (data : List U8)
    {P : Sock → Prop} (hP : ∀ s, P s → SizesOk s.mem) :
    Hoare (At n P) (u.socketSendAll (Chip.dev sched faults).bus fuel data)
      (fun _ => At n fun s => SizesOk s.mem) (At n fun s => SizesOk s.mem) :=
  (((moves_udpSendAll u fuel data).wider _ udpRegs_sub).hoare (I := At n fun s => SizesOk s.mem)
    fun c c' h => reach_sizesOk hn (by rw [← hu]; exact h)).pre fun c h => hP _ h

/-- What every history keeps. -/
structure UdpObject (n : Nat) (u : UdpSocket) (c : Chip) : Prop where
  sock : u.socket = sockOf n
  sizes : SizesOk (c.socks n).mem
  coherent : Coherent n u c

theorem UdpObject.evolves {n : Nat} {u : UdpSocket} {c c' : Chip} (h : UdpObject n u c) (e : c.Evolves c') :
    UdpObject n u c' := by
  have hm : ∀ T : (U16 → U8) → Prop, T (c.socks n).mem → T (c'.socks n).mem := fun T ht =>
    (stable_mem T).evolves (e.socks n) ht
  refine ⟨h.sock, hm _ h.sizes, fun a ha => ?_⟩
  have := hm (fun m => m = (c.socks n).mem) rfl
  unfold dest
  rw [this]
  exact h.coherent a ha

theorem UdpObject.reach {n : Nat} (hn : n < 8) {u : UdpSocket} {c c' : Chip} (h : UdpObject n u c)
    (hr : Reach (Chip.dev sched faults).bus (SockFrames u.socket udpRegs) c c') : UdpObject n u c' := by
  rw [h.sock] at hr
  exact ⟨h.sock, reach_sizesOk hn (hr.mono (SockFrames.mono udpRegs_sub)) h.sizes, reach_coherent hn hr h.coherent⟩

theorem UdpObject.connect {H : Type} {n : Nat} (hn : n < 8) {u u' : UdpSocket} {d d' : Device Chip H} {remote : SockAddr}
    {r : Res (UdpSocketError E) Unit} (h : UdpObject n u d.bus)
    (hr : Device.udpConnect (Chip.dev sched faults).bus remote (u, d) = (r, (u', d')))
    (hs : Settled n remote u' d.bus d'.bus) : UdpObject n u' d'.bus := by
  unfold Device.udpConnect at hr
  split at hr
  · cases hr; exact h
  rename_i a
  have := (udp_connect (sched := sched) (faults := faults) hn u h.sock (open_keepsSizes hn u h.sock)
    (stable_mem SizesOk) (fun s b x _ h1 h2 h => sizes_setMem b x h1 h2 h) (fun _ h => h) a).run (u, d.bus)
    ⟨rfl, h.sizes, h.coherent⟩
  rw [onSockBus_run hr] at this
  have fail : (u' = u ∧ At n (fun s => SizesOk s.mem) d'.bus ∧ (u.destination = some a → Coherent n u d'.bus)) →
      UdpObject n u' d'.bus := by
    rintro ⟨rfl, h2, h3⟩
    refine ⟨h.sock, h2, ?_⟩
    rcases hs a rfl with hd | hd
    · exact h3 hd
    · exact fun x hx => hd.trans (h.coherent x hx)
  cases r with
  | ok _ =>
    obtain ⟨rfl, h2, h3⟩ := this
    exact ⟨h.sock, h2, fun x hx => by cases hx; exact h3⟩
  | err e => exact fail this
  | panic => exact fail this
  | fuel => exact fail this

theorem UdpObject.bind {H : Type} {n : Nat} (hn : n < 8) {u u' : UdpSocket} {d d' : Device Chip H} {port : U16}
    {r : Res (UdpSocketError E) Unit} (h : UdpObject n u d.bus)
    (hr : Device.udpBind (Chip.dev sched faults).bus port (u, d) = (r, (u', d'))) : UdpObject n u' d'.bus := by
  have hreach := moves_udpBind (B := (Chip.dev sched faults).bus) port u d
  rw [hr] at hreach
  have h' := h.reach hn hreach
  have := (udp_bind (sched := sched) (faults := faults) hn u h.sock port (stable_mem SizesOk)
    (fun s b x hb h => sizes_setMem b x (by rcases hb with rfl | rfl <;> decide) (by rcases hb with rfl | rfl <;> decide) h)
    (fun _ h => h) (open_keepsSizes hn { u with port := port } h.sock)).run (u, d.bus) ⟨rfl, h.sizes⟩
  rw [onSockBus_run hr] at this
  have : u' = { u with port := port } := by
    cases r with
    | ok _ => exact this.1
    | err e => exact this.1
    | panic => exact this.1
    | fuel => exact this.1
  subst this
  exact ⟨h.sock, h'.sizes, h'.coherent⟩

theorem UdpObject.setPort {H : Type} {n : Nat} (hn : n < 8) {u u' : UdpSocket} {d d' : Device Chip H} {port : U16}
    {r : Res (UdpSocketError E) Unit} (h : UdpObject n u d.bus)
    (hr : Device.onSockBus (UdpSocket.setPort (Chip.dev sched faults).bus port) (u, d) = (r, (u', d'))) :
    UdpObject n u' d'.bus := by
  have hreach := ((moves_setPort (B := (Chip.dev sched faults).bus) port).run u d.bus).1
  rw [onSockBus_run hr] at hreach
  have h' := h.reach hn hreach
  have := (udp_setPort (sched := sched) (faults := faults) hn u h.sock port (stable_mem SizesOk)
    (fun s b x hb h => sizes_setMem b x (by rcases hb with rfl | rfl <;> decide) (by rcases hb with rfl | rfl <;> decide) h)).run
    (u, d.bus) ⟨rfl, h.sizes⟩
  rw [onSockBus_run hr] at this
  have : u' = { u with port := port } := by
    cases r with
    | ok _ => exact this.1
    | err e => exact this.1
    | panic => exact this.1
    | fuel => exact this.1
  subst this
  exact ⟨h.sock, h'.sizes, h'.coherent⟩

theorem UdpObject.sendTo {H : Type} {n : Nat} (hn : n < 8) {u u' : UdpSocket} {d d' : Device Chip H} {remote : SockAddr}
    {fuel : Nat} {data : List U8} {r : Res (NbError (UdpSocketError E)) Unit} (h : UdpObject n u d.bus)
    (hr : Device.udpSendTo (Chip.dev sched faults).bus fuel remote data (u, d) = (r, (u', d')))
    (hs : Settled n remote u' d.bus d'.bus) : UdpObject n u' d'.bus := by
  unfold Device.udpSendTo at hr
  split at hr
  · cases hr; exact h
  rename_i a
  have := (udp_sendTo (sched := sched) (faults := faults) hn u h.sock fuel data a (stable_mem SizesOk)
    (fun s b x _ h1 h2 h => sizes_setMem b x h1 h2 h) (fun _ h => h)
    (send_keepsSizes hn { u with destination := some a } h.sock fuel data fun s h => h.1)).run (u, d.bus)
    ⟨rfl, h.sizes, h.coherent⟩
  rw [onSockBus_run hr] at this
  have fail : (At n (fun s => SizesOk s.mem) d'.bus ∧ ((u' = u ∧ At n (fun s => SizesOk s.mem) d'.bus ∧ u.destination ≠ some a) ∨
        (u' = { u with destination := some a } ∧ (d'.bus.socks n).dest = wire a))) → UdpObject n u' d'.bus := by
    rintro ⟨h1, ⟨rfl, _, h3⟩ | ⟨rfl, h3⟩⟩
    · refine ⟨h.sock, h1, ?_⟩
      rcases hs a rfl with hd | hd
      · exact absurd hd h3
      · exact fun x hx => hd.trans (h.coherent x hx)
    · exact ⟨h.sock, h1, fun x hx => by cases hx; exact h3⟩
  cases r with
  | ok _ =>
    obtain ⟨rfl, h2, h3⟩ := this
    exact ⟨h.sock, h2, fun x hx => by cases hx; exact h3⟩
  | err e => exact fail this
  | panic => exact fail this
  | fuel => exact fail this

theorem UdpObject.foreign {n : Nat} {u : UdpSocket} {c : Chip} (h : UdpObject n u c) {block : U8} {addr : U16}
    {data : List U8} (hf : Foreign n block addr data) :
    UdpObject n u ((Chip.dev sched faults).bus.writeFrame c block addr data).2 := by
  have := foreign_keep (sched := sched) (faults := faults) (stable_mem fun m => m = (c.socks n).mem) hf c rfl
  have hm : (((Chip.dev sched faults).bus.writeFrame c block addr data).2.socks n).mem = (c.socks n).mem := this
  refine ⟨h.sock, by rw [hm]; exact h.sizes, fun a ha => ?_⟩
  unfold dest
  rw [hm]
  exact h.coherent a ha

theorem udpCalls_object {n : Nat} (hn : n < 8) {u : UdpSocket} {c : Chip} (h : UdpCalls sched faults n u c) :
    UdpObject n u c := by
  induction h with
  | new c hz => exact ⟨rfl, hz, nofun⟩
  | connect remote r _ hr hs ih => exact ih.connect hn hr hs
  | setPort port r _ hr ih => exact ih.setPort hn hr
  | bind port r _ hr ih => exact ih.bind hn hr
  | @send _ u d d' fuel data r _ hr ih =>
    have := (moves_deviceUdpSend (B := (Chip.dev sched faults).bus) fuel u data).run d
    rw [hr] at this
    exact ih.reach hn this
  | sendTo fuel remote data r _ hr hs ih => exact ih.sendTo hn hr hs
  | @receive _ u d d' fuel buf buf' r _ hr ih =>
    have := (moves_deviceUdpReceive (B := (Chip.dev sched faults).bus) fuel u).run (buf, d)
    rw [hr] at this
    exact ih.reach hn this
  | read block addr data _ ih => exact ih.evolves (Chip.readFrame_evolves _ _ _ _)
  | write block addr data _ hf ih => exact ih.foreign hf
  | pass _ hp ih => exact ih.evolves hp.evolves

/-! ## Sockets in working order -/

/-- Sending leaves received datagrams alone. -/
theorem send_queue {n : Nat} (hn : n < 8) (u : UdpSocket) (hu : u.socket = sockOf n) (A : List U8) (qs : List Dgram)
    (z fuel : Nat) (data : List U8) :
    Hoare (At n fun s => s.proto = 2 ∧ RxReady A s ∧ QueuedMore qs s ∧ s.txSize = z)
      (u.socketSendAll (Chip.dev sched faults).bus fuel data)
      (fun _ => At n fun s => s.proto = 2 ∧ RxReady A s ∧ QueuedMore qs s ∧ s.txSize = z)
      (At n fun s => s.proto = 2 ∧ RxReady A s ∧ QueuedMore qs s ∧ s.txSize = z) := by
  refine (moves_sendAll u fuel data).hoare fun c c' h hc => ?_
  rw [hu] at h
  refine reach_send hn (P := fun s => s.proto = 2 ∧ RxReady A s ∧ QueuedMore qs s ∧ s.txSize = z) ?_ ?_ ?_ ?_ ?_ h hc
  · rintro s a ⟨h1, h2, h3, h4⟩
    exact ⟨(act_proto s a).trans h1, stable_rxReady A s a h2, act_queuedMore h1 h2.core.rxFits h3 a,
      (act_txSize s a).trans h4⟩
  · rintro s a x ⟨h1, ⟨⟨c1, c2, c3⟩, c4⟩, ⟨t, h3⟩, h4⟩
    exact ⟨h1, ⟨⟨c1, c2, c3⟩, c4⟩, ⟨t, h3⟩, h4⟩
  · rintro s a x ha ⟨h1, ⟨⟨c1, c2, c3⟩, c4⟩, ⟨t, h3⟩, h4⟩
    rcases ha with rfl | rfl
    · exact ⟨h1, ⟨⟨c1, c2, c3⟩, c4⟩, ⟨t, h3⟩, h4⟩
    · exact ⟨h1, ⟨⟨c1, c2, c3⟩, c4⟩, ⟨t, h3⟩, h4⟩
  · rintro s i ⟨h1, ⟨⟨c1, c2, c3⟩, c4⟩, ⟨t, h3⟩, h4⟩
    exact ⟨h1, ⟨⟨c1, c2, c3⟩, c4⟩, ⟨t, h3⟩, h4⟩
  · rintro s ⟨h1, ⟨⟨c1, c2, c3⟩, c4⟩, ⟨t, h3⟩, h4⟩
    exact ⟨h1, ⟨⟨c1, c2, c3⟩, c4⟩, ⟨t, h3⟩, h4⟩

/-- What a send that may have failed leaves behind, once the chip has transmitted what it was given. -/
def SentSome (z : Nat) (w : List U8 × List U8) (data : List U8) (K : List Packet) (A : List U8) (qs : List Dgram)
    (s : Sock) : Prop :=
  s.txRd = s.txWr → ∃ ds ps, ds <+: pieces z data ∧ Carry w ds ps ∧ UdpIdle (K ++ ps) A z qs s

theorem SentSome.none {z : Nat} {w : List U8 × List U8} {data : List U8} {K : List Packet} {A : List U8} {qs : List Dgram}
    {s : Sock} (h : UdpIdle K A z qs s) : SentSome z w data K A qs s :=
  fun _ => ⟨[], [], List.nil_prefix, .nil _, by rw [List.append_nil]; exact h⟩

theorem udp_sendIdle {n : Nat} (hn : n < 8) (u : UdpSocket) (hu : u.socket = sockOf n) (w : List U8 × List U8)
    (K : List Packet) (A : List U8) (z : Nat) (qs : List Dgram) (fuel : Nat) (data : List U8) :
    Hoare (At n fun s => UdpIdle K A z qs s ∧ s.dest = w) (u.socketSendAll (Chip.dev sched faults).bus fuel data)
      (fun _ => At n fun s => ∃ ps, Carry w (pieces z data) ps ∧ UdpIdle (K ++ ps) A z qs s)
      (At n (SentSome z w data K A qs)) := by
  refine .conseq ((udp_sendAll hn w K A z u hu fuel data).and (send_queue hn u hu A qs z fuel data)) ?_ ?_ ?_
  · rintro c ⟨h1, rfl⟩
    exact ⟨⟨h1.idle, h1.size⟩, h1.idle.base.mode, h1.idle.rx, h1.queue, h1.size⟩
  · rintro _ c ⟨⟨ps, h1, h2, h3⟩, h4⟩
    exact ⟨ps, h1, .of h2 h3 h4.2.2.1⟩
  · rintro c ⟨⟨ds, ps, h1, h2, h3, h4⟩, h5⟩ hd
    obtain ⟨a1, a2, a3⟩ := h4 hd
    exact ⟨ds, ps, h1, h2, .of ⟨a1, a2, a3⟩ h5.2.2.2 h5.2.2.1⟩

/-- Without a destination nothing is sent. -/
theorem udp_sendNowhere {n : Nat} (hn : n < 8) (u : UdpSocket) (hu : u.socket = sockOf n) (hd : u.destination = none)
    {P : Sock → Prop} (hP : StableS P) (fuel : Nat) (data : List U8) :
    Hoare (At n P) (u.socketSendAll (Chip.dev sched faults).bus fuel data) (fun _ => At n P) (At n P) := by
  unfold UdpSocket.socketSendAll
  refine .bind (hs_checkStatus hn hP u hu) fun _ => ?_
  rw [hd]
  exact .throw fun _ h => h

theorem dest_indifferent {a : U16} (h : destOrSize a) (h1 : a ≠ 0x1E) (h2 : a ≠ 0x1F) : indifferent a := by
  unfold destOrSize at h
  simp only [List.mem_cons, List.not_mem_nil, or_false] at h
  rcases h with rfl | rfl | rfl | rfl | rfl | rfl | rfl | rfl
  all_goals first | decide | exact absurd rfl h1 | exact absurd rfl h2

/-- The invariant of `UdpRun`. -/
structure UdpInv (n z : Nat) (K : List Packet) (A : List U8) (log : List UdpSent) (got : List UdpGot) (u : UdpSocket)
    (c : Chip) : Prop where
  sock : u.socket = sockOf n
  coherent : Coherent n u c
  idle : ∃ sent ds, UdpSent.All z log sent ∧ (UdpGot.Among got ds ∧ ∀ d ∈ ds, d.Wf) ∧
    UdpIdle (K ++ sent) (A ++ encAll ds) z [] (c.socks n)

theorem UdpInv.object {n z : Nat} {K : List Packet} {A : List U8} {log : List UdpSent} {got : List UdpGot} {u : UdpSocket}
    {c : Chip} (h : UdpInv n z K A log got u c) : UdpObject n u c := by
  obtain ⟨h1, h2, _, _, _, _, h3⟩ := h
  exact ⟨h1, h3.sizes, h2⟩

theorem among_lost {got : List UdpGot} {ds : List Dgram} (h : UdpGot.Among got ds) (lost : List Dgram) :
    UdpGot.Among got (ds ++ lost) := by
  induction lost generalizing ds with
  | nil => rw [List.append_nil]; exact h
  | cons d ls ih => rw [List.append_cons]; exact ih (.lost d h)

/-- The remaining part of the invariant after losing datagrams. -/
theorem lost_idle {z : Nat} {K : List Packet} {A : List U8} {got : List UdpGot} {ds : List Dgram} {s : Sock}
    (hg : UdpGot.Among got ds ∧ ∀ d ∈ ds, d.Wf) (h : IdleLost K (A ++ encAll ds) z s) :
    ∃ ds, (UdpGot.Among got ds ∧ ∀ d ∈ ds, d.Wf) ∧ UdpIdle K (A ++ encAll ds) z [] s := by
  obtain ⟨l, w, h⟩ := h
  refine ⟨ds ++ l, ⟨among_lost hg.1 l, fun d hd => (List.mem_append.mp hd).elim (hg.2 d) (w d)⟩, ?_⟩
  rw [encAll_append, ← List.append_assoc]
  exact h

theorem udpRun_inv {n : Nat} (hn : n < 8) {z : Nat} {K : List Packet} {A : List U8} {u0 u : UdpSocket} {c0 c : Chip} {log : List UdpSent}
    {got : List UdpGot} (h0 : UdpInv n z K A [] [] u0 c0) (h : UdpRun sched faults n u0 c0 log got u c) :
    UdpInv n z K A log got u c := by
  induction h with
  | start => exact h0
  | @send sched faults n u0 c0 H log got u d d' fuel data dst _ hr hd ih =>
    replace ih := ih hn h0
    obtain ⟨hs, hc, sent, ds, hall, hg, hi⟩ := ih
    have hmv := (moves_deviceUdpSend (B := (Chip.dev sched faults).bus) fuel u data).run d
    rw [hr, hs] at hmv
    have := (udp_sendIdle (sched := sched) (faults := faults) hn u hs (wire dst) (K ++ sent) (A ++ encAll ds) z [] fuel data).run d.bus
      ⟨hi, hc dst hd⟩
    rw [onBus_run hr] at this
    obtain ⟨ps, h1, h2⟩ := this
    refine ⟨hs, reach_coherent hn hmv hc, sent ++ ps, ds, .snoc hall ⟨_, List.prefix_refl _, fun _ => rfl, h1⟩, hg, ?_⟩
    rw [← List.append_assoc]
    exact h2
  | @failedSend sched faults n u0 c0 H log got u d d' fuel data dst r _ hr hd hne hdr ih =>
    replace ih := ih hn h0
    obtain ⟨hs, hc, sent, ds, hall, hg, hi⟩ := ih
    have hmv := (moves_deviceUdpSend (B := (Chip.dev sched faults).bus) fuel u data).run d
    rw [hr, hs] at hmv
    have := (udp_sendIdle (sched := sched) (faults := faults) hn u hs (wire dst) (K ++ sent) (A ++ encAll ds) z [] fuel data).run d.bus
      ⟨hi, hc dst hd⟩
    rw [onBus_run hr] at this
    have hS : SentSome z (wire dst) data (K ++ sent) (A ++ encAll ds) [] (d'.bus.socks n) := by
      cases r with
      | ok x => exact absurd rfl hne
      | err e => exact this
      | panic => exact this
      | fuel => exact this
    obtain ⟨es, ps, h1, h2, h3⟩ := hS hdr
    refine ⟨hs, reach_coherent hn hmv hc, sent ++ ps, ds, .snoc hall ⟨es, h1, nofun, h2⟩, hg, ?_⟩
    rw [← List.append_assoc]
    exact h3
  | @sendNowhere sched faults n u0 c0 H log got u d d' fuel data r _ hr hd ih =>
    replace ih := ih hn h0
    obtain ⟨hs, hc, sent, ds, hall, hg, hi⟩ := ih
    have := (udp_sendNowhere (sched := sched) (faults := faults) hn u hs hd
      (stable_udpIdle (K ++ sent) (A ++ encAll ds) z []) fuel data).run d.bus hi
    rw [onBus_run hr] at this
    refine ⟨hs, fun a ha => (nomatch hd.symm.trans ha), sent, ds, hall, hg, ?_⟩
    cases r <;> exact this
  | @sendTo sched faults n u0 c0 H log got u u' d d' fuel dst data _ hr ih =>
    replace ih := ih hn h0
    obtain ⟨hs, hc, sent, ds, hall, hg, hi⟩ := ih
    have := (udp_sendTo (sched := sched) (faults := faults) hn u hs fuel data dst (stable_udpIdle (K ++ sent) (A ++ encAll ds) z [])
      (fun s b x hb h1 h2 h => h.setMem b x (dest_indifferent hb h1 h2)) (fun s h => SentSome.none h)
      (udp_sendIdle hn { u with destination := some dst } hs (wire dst) (K ++ sent) (A ++ encAll ds) z [] fuel data)).run (u, d.bus)
      ⟨rfl, hi, hc⟩
    unfold Device.udpSendTo at hr
    rw [onSockBus_run hr] at this
    obtain ⟨rfl, ⟨ps, h1, h2⟩, h3⟩ := this
    refine ⟨hs, fun a ha => by cases ha; exact h3, sent ++ ps, ds,
      .snoc hall ⟨_, List.prefix_refl _, fun _ => rfl, h1⟩, hg, ?_⟩
    rw [← List.append_assoc]
    exact h2
  | @failedSendTo sched faults n u0 c0 H log got u u' d d' fuel dst data r _ hr hne hdr hst ih =>
    replace ih := ih hn h0
    have hobj := ih.object.sendTo hn hr hst
    obtain ⟨hs, hc, sent, ds, hall, hg, hi⟩ := ih
    have := (udp_sendTo (sched := sched) (faults := faults) hn u hs fuel data dst (stable_udpIdle (K ++ sent) (A ++ encAll ds) z [])
      (fun s b x hb h1 h2 h => h.setMem b x (dest_indifferent hb h1 h2)) (fun s h => SentSome.none h)
      (udp_sendIdle hn { u with destination := some dst } hs (wire dst) (K ++ sent) (A ++ encAll ds) z [] fuel data)).run (u, d.bus)
      ⟨rfl, hi, hc⟩
    unfold Device.udpSendTo at hr
    rw [onSockBus_run hr] at this
    have hS : SentSome z (wire dst) data (K ++ sent) (A ++ encAll ds) [] (d'.bus.socks n) := by
      cases r with
      | ok x => exact absurd rfl hne
      | err e => exact this.1
      | panic => exact this.1
      | fuel => exact this.1
    obtain ⟨es, ps, h1, h2, h3⟩ := hS hdr
    refine ⟨hobj.sock, hobj.coherent, sent ++ ps, ds, .snoc hall ⟨es, h1, nofun, h2⟩, hg, ?_⟩
    rw [← List.append_assoc]
    exact h3
  | @receive sched faults n u0 c0 H log got u d d' fuel buf buf' k origin _ hr ih =>
    replace ih := ih hn h0
    have hmv := (moves_deviceUdpReceive (B := (Chip.dev sched faults).bus) fuel u).run (buf, d)
    rw [hr] at hmv
    have hobj := ih.object.reach hn hmv
    obtain ⟨hs, hc, sent, ds, hall, hg, hi⟩ := ih
    have := (udp_receiveFrom (sched := sched) (faults := faults) hn u hs (K ++ sent) (A ++ encAll ds) z []
      (d.bus.socks n).rxRdReg fuel buf).run (buf, d.bus) ⟨rfl, hi, rfl⟩
    unfold Device.udpReceive at hr
    rw [onSockBus_run hr] at this
    obtain ⟨hdr, d1, rest, more, h1, h2, h3, h4⟩ := this
    have hw : ∀ x ∈ d1 :: rest, x.Wf := h2.wf
    refine ⟨hobj.sock, hobj.coherent, sent, ds ++ d1 :: rest, hall, ⟨?_, ?_⟩, ?_⟩
    · rw [List.append_cons ds]
      exact among_lost (.got (g := ⟨buf, k, origin, buf'⟩) hg.1 ⟨⟨hdr.origin, h3, h2.origin⟩, h2.payload, h2.fits, h2.keeps⟩) rest
    · exact fun x hx => (List.mem_append.mp hx).elim (hg.2 x) (hw x)
    · rw [encAll_append, ← List.append_assoc]
      exact h4
  | @failedReceive sched faults n u0 c0 H log got u d d' fuel buf buf' r _ hr hne hrd ih =>
    replace ih := ih hn h0
    have hmv := (moves_deviceUdpReceive (B := (Chip.dev sched faults).bus) fuel u).run (buf, d)
    rw [hr] at hmv
    have hobj := ih.object.reach hn hmv
    obtain ⟨hs, hc, sent, ds, hall, hg, hi⟩ := ih
    have := (udp_receiveFrom (sched := sched) (faults := faults) hn u hs (K ++ sent) (A ++ encAll ds) z []
      (d.bus.socks n).rxRdReg fuel buf).run (buf, d.bus) ⟨rfl, hi, rfl⟩
    unfold Device.udpReceive at hr
    rw [onSockBus_run hr] at this
    refine ⟨hobj.sock, hobj.coherent, sent, ds, hall, hg, ?_⟩
    cases r with
    | ok x => exact absurd rfl (hne x)
    | err e => exact this hrd
    | panic => exact this hrd
    | fuel => exact this hrd
  | @connect sched faults n u0 c0 H log got u u' d d' remote r _ hr hst ih =>
    replace ih := ih hn h0
    have hobj := ih.object.connect hn hr hst
    obtain ⟨hs, hc, sent, ds, hall, hg, hi⟩ := ih
    unfold Device.udpConnect at hr
    split at hr
    · cases hr; exact ⟨hs, hc, sent, ds, hall, hg, hi⟩
    rename_i a
    have := (udp_connect (sched := sched) (faults := faults) hn u hs (udp_openAgain hn u hs (K ++ sent) (A ++ encAll ds) z)
      (stable_idleLost _ _ z) (fun s b x hb h1 h2 h => h.setMem b x (dest_indifferent hb h1 h2))
      (fun _ h => h) a).run (u, d.bus) ⟨rfl, .none hi, hc⟩
    rw [onSockBus_run hr] at this
    have : IdleLost (K ++ sent) (A ++ encAll ds) z (d'.bus.socks n) := by
      cases r with
      | ok x => exact this.2.1
      | err e => exact this.2.1
      | panic => exact this.2.1
      | fuel => exact this.2.1
    obtain ⟨ds', hg', h⟩ := lost_idle hg this
    exact ⟨hobj.sock, hobj.coherent, sent, ds', hall, hg', h⟩
  | @bind sched faults n u0 c0 H log got u u' d d' port r _ hr ih =>
    replace ih := ih hn h0
    have hobj := ih.object.bind hn hr
    obtain ⟨hs, hc, sent, ds, hall, hg, hi⟩ := ih
    unfold Device.udpBind at hr
    have := (udp_bind (sched := sched) (faults := faults) hn u hs port (stable_idleLost (K ++ sent) (A ++ encAll ds) z)
      (fun s b x hb h => h.setMem b x (by rcases hb with rfl | rfl <;> decide)) (fun _ h => h)
      (udp_openAgain hn { u with port := port } hs (K ++ sent) (A ++ encAll ds) z)).run (u, d.bus) ⟨rfl, .none hi⟩
    rw [onSockBus_run hr] at this
    have : IdleLost (K ++ sent) (A ++ encAll ds) z (d'.bus.socks n) := by
      cases r with
      | ok x => exact this.2
      | err e => exact this.2
      | panic => exact this.2
      | fuel => exact this.2
    obtain ⟨ds', hg', h⟩ := lost_idle hg this
    exact ⟨hobj.sock, hobj.coherent, sent, ds', hall, hg', h⟩
  | @setPort sched faults n u0 c0 H log got u u' d d' port r _ hr ih =>
    replace ih := ih hn h0
    have hobj := ih.object.setPort hn hr
    obtain ⟨hs, hc, sent, ds, hall, hg, hi⟩ := ih
    have := (udp_setPort (sched := sched) (faults := faults) hn u hs port (stable_udpIdle (K ++ sent) (A ++ encAll ds) z [])
      (fun s b x hb h => h.setMem b x (by rcases hb with rfl | rfl <;> decide))).run (u, d.bus) ⟨rfl, hi⟩
    rw [onSockBus_run hr] at this
    refine ⟨hobj.sock, hobj.coherent, sent, ds, hall, hg, ?_⟩
    cases r with
    | ok x => exact this.2
    | err e => exact this.2
    | panic => exact this.2
    | fuel => exact this.2
  | @read sched faults n u0 c0 log got u c block addr data _ ih =>
    replace ih := ih hn h0
    obtain ⟨hs, hc, sent, ds, hall, hg, hi⟩ := ih
    have ho := (UdpInv.object ⟨hs, hc, sent, ds, hall, hg, hi⟩).evolves
      (Chip.readFrame_evolves (sched := sched) (faults := faults) _ block addr data)
    exact ⟨hs, ho.coherent, sent, ds, hall, hg,
      (stable_udpIdle _ _ z []).evolves ((Chip.readFrame_evolves _ block addr data).socks _) hi⟩
  | @write sched faults n u0 c0 log got u c block addr data _ hf ih =>
    replace ih := ih hn h0
    obtain ⟨hs, hc, sent, ds, hall, hg, hi⟩ := ih
    have ho := (UdpInv.object ⟨hs, hc, sent, ds, hall, hg, hi⟩).foreign (sched := sched) (faults := faults) hf
    exact ⟨hs, ho.coherent, sent, ds, hall, hg, foreign_keep (stable_udpIdle _ _ z []) hf _ hi⟩
  | pass _ hp ih =>
    replace ih := ih hn h0
    obtain ⟨hs, hc, sent, ds, hall, hg, hi⟩ := ih
    have ho := (UdpInv.object ⟨hs, hc, sent, ds, hall, hg, hi⟩).evolves hp.evolves
    exact ⟨hs, ho.coherent, sent, ds, hall, hg, (stable_udpIdle _ _ z []).evolves (hp.evolves.socks _) hi⟩
  | past _ ih => exact ih hn h0

/-! ## Getting there -/

theorem stable_sizes (z : Nat) : StableS (fun s => SizesOk s.mem ∧ s.txSize = z) :=
  (stable_mem SizesOk).and (stable_txSize z)

theorem UdpIdle.packets {K : List Packet} {A : List U8} {z : Nat} {qs : List Dgram} {s : Sock} (h : UdpIdle K A z qs s) :
    UdpIdle (s.packets ++ []) (A ++ encAll []) z qs s := by
  rw [List.append_nil, show encAll [] = [] from rfl, List.append_nil]
  obtain ⟨⟨⟨b1, b2, b3, b4, b5, b6⟩, w, r⟩, h2, h3⟩ := h
  exact ⟨⟨⟨b1, b2, b3, b4, b5, rfl⟩, w, r⟩, h2, h3⟩

/-- After a successful `bind`. -/
theorem bind_inv {H : Type} {n : Nat} (hn : n < 8) {u u' : UdpSocket} {d d' : Device Chip H} {port : U16}
    (h : UdpObject n u d.bus) (hr : Device.udpBind (Chip.dev sched faults).bus port (u, d) = (.ok (), (u', d'))) :
    ∃ A, UdpInv n (d'.bus.socks n).txSize (d'.bus.socks n).packets A [] [] u' d'.bus := by
  have hobj := h.bind hn hr
  have := (udp_bind (sched := sched) (faults := faults) hn u h.sock port (stable_sizes (d.bus.socks n).txSize)
    (fun s b x hb h => ⟨sizes_setMem b x (by rcases hb with rfl | rfl <;> decide)
      (by rcases hb with rfl | rfl <;> decide) h.1, by rcases hb with rfl | rfl <;> exact h.2⟩)
    (R := fun _ => True) (fun _ _ => trivial) (udp_open hn { u with port := port } h.sock _)).run (u, d.bus)
    ⟨rfl, h.sizes, rfl⟩
  unfold Device.udpBind at hr
  rw [onSockBus_run hr] at this
  obtain ⟨_, K, A, hi⟩ := this
  exact ⟨A, hobj.sock, hobj.coherent, [], [], .nil, ⟨.nil, nofun⟩, hi.size ▸ hi.packets⟩

/-- After a successful `connect`. -/
theorem connect_inv {H : Type} {n : Nat} (hn : n < 8) {u u' : UdpSocket} {d d' : Device Chip H} {remote : SockAddr}
    (h : UdpObject n u d.bus) (hr : Device.udpConnect (Chip.dev sched faults).bus remote (u, d) = (.ok (), (u', d'))) :
    ∃ A, UdpInv n (d'.bus.socks n).txSize (d'.bus.socks n).packets A [] [] u' d'.bus := by
  unfold Device.udpConnect at hr
  split at hr
  · cases hr
  rename_i a
  have := (udp_connect (sched := sched) (faults := faults) hn u h.sock (udp_open hn u h.sock (d.bus.socks n).txSize)
    (fun s a ⟨K, A, h⟩ => ⟨K, A, stable_udpIdle K A (d.bus.socks n).txSize [] s a h⟩)
    (fun s b x hb h1 h2 ⟨K, A, h⟩ => ⟨K, A, h.setMem b x (dest_indifferent hb h1 h2)⟩)
    (R := fun _ => True) (fun _ _ => trivial) a).run (u, d.bus) ⟨rfl, ⟨h.sizes, rfl⟩, h.coherent⟩
  rw [onSockBus_run hr] at this
  obtain ⟨rfl, ⟨K, A, hi⟩, h3⟩ := this
  exact ⟨A, h.sock, fun x hx => by cases hx; exact h3, [], [], .nil, ⟨.nil, nofun⟩, hi.size ▸ hi.packets⟩

theorem opened_inv {n : Nat} (hn : n < 8) {u : UdpSocket} {c : Chip} (h : UdpOpened sched faults n u c) :
    ∃ A, UdpInv n (c.socks n).txSize (c.socks n).packets A [] [] u c := by
  cases h with
  | bind port h hr => exact bind_inv hn (udpCalls_object hn h) hr
  | connect remote h hr => exact connect_inv hn (udpCalls_object hn h) hr
  | anew remote hs hz hc hr => exact connect_inv hn ⟨hs, hz, hc⟩ hr

end W5500.Spec
