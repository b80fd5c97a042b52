import Verif.Proofs.SuccessRun
import Verif.Model.Device
/-! # Connecting, MACRAW, and operations that succeed whenever no transfer fails -/

namespace W5500
open Spec socketn
variable {σ τ S W E H ε ε' α β : Type} {B : Bus W E}

/-- Always `Ok`. -/
structure Sure (m : M σ ε α) : Prop where
  run : ∀ s, ∃ a s', m s = (.ok a, s')

namespace Sure

theorem pure (a : α) : Sure (Pure.pure a : M σ ε α) := ⟨fun s => ⟨a, s, rfl⟩⟩
theorem get : Sure (M.get : M σ ε σ) := ⟨fun s => ⟨s, s, rfl⟩⟩
theorem modify (f : σ → σ) : Sure (M.modify f : M σ ε Unit) := ⟨fun s => ⟨(), f s, rfl⟩⟩

theorem bind {m : M σ ε α} {f : α → M σ ε β} (h : Sure m) (hf : ∀ a, Sure (f a)) : Sure (m >>= f) := by
  constructor
  intro s
  obtain ⟨a, s', h1⟩ := h.run s
  obtain ⟨b, s'', h2⟩ := (hf a).run s'
  exact ⟨b, s'', (M.bind_ok h1).trans h2⟩

theorem mapErr {f : ε' → ε} {m : M σ ε' α} (h : Sure m) : Sure (M.mapErr f m) := by
  constructor
  intro s
  obtain ⟨a, s', h1⟩ := h.run s
  exact ⟨a, s', M.mapErr_ok h1⟩

theorem zoom {get : σ → τ} {put : τ → σ → σ} {m : M τ ε α} (h : Sure m) : Sure (M.zoom get put m) := by
  constructor
  intro s
  obtain ⟨a, s', h1⟩ := h.run (get s)
  exact ⟨a, put s' s, by unfold M.zoom; rw [h1]⟩

theorem onSnd {m : M σ ε α} (h : Sure m) : Sure (M.onSnd m : M (S × σ) ε α) := zoom h
theorem onBus {m : M W ε α} (h : Sure m) : Sure (Device.onBus m : M (Device W H) ε α) := zoom h
theorem onSockBus {m : M (S × W) ε α} (h : Sure m) : Sure (Device.onSockBus m : M (S × Device W H) ε α) := zoom h

theorem ite {c : Prop} [Decidable c] {m m' : M σ ε α} (h : c → Sure m) (h' : ¬ c → Sure m') :
    Sure (if c then m else m') := by
  split
  · exact h ‹_›
  · exact h' ‹_›

theorem withLocal {m : M (S × σ) ε α} (b : S) (h : Sure m) : Sure (M.withLocal b m) := by
  constructor
  intro s
  obtain ⟨a, s', h1⟩ := h.run (b, s)
  refine ⟨(a, s'.1), s'.2, ?_⟩
  unfold M.withLocal
  rw [h1]

theorem write (hB : Healthy B) (b : U8) (a : U16) (d : List U8) : Sure (B.write b a d) := by
  constructor
  intro w
  exact ⟨(), _, Prod.ext (hB.write w b a d) rfl⟩

theorem readBuf (hB : Healthy B) (b : U8) (a : U16) (i : List U8) (w : W) :
    ∃ d w', B.readBuf b a i w = (.ok d, w') ∧ d.length = i.length := by
  have h1 := hB.read w b a i
  have h2 := B.read_length w b a i
  unfold Bus.readBuf
  rcases hr : B.readFrame w b a i with ⟨r, d, w'⟩
  rw [hr] at h1 h2
  dsimp only at h1 h2
  subst h1
  exact ⟨d, w', rfl, h2⟩

/-- Reading a fixed number of bytes. -/
theorem readArr (hB : Healthy B) (b : U8) (a : U16) (i : List U8) (f : List U8 → M W E α)
    (hf : ∀ d, d.length = i.length → Sure (f d)) : Sure (B.readBuf b a i >>= f) := by
  constructor
  intro w
  obtain ⟨d, w', h1, h2⟩ := readBuf hB b a i w
  obtain ⟨x, w'', h3⟩ := (hf d h2).run w'
  exact ⟨x, w'', (M.bind_ok h1).trans h3⟩

theorem read1 (hB : Healthy B) (b : U8) (a : U16) : Sure (B.read1 b a) :=
  readArr hB b a [0] _ fun d h => by
    match d, h with
    | [x], _ => exact .pure _

end Sure

macro "sure" : tactic => `(tactic| repeat' (with_reducible first
  | assumption
  | exact Sure.pure _
  | exact Sure.get
  | exact Sure.modify _
  | (apply Sure.write; assumption)
  | (apply Sure.read1; assumption)
  | apply Sure.bind
  | apply Sure.mapErr
  | apply Sure.onSnd
  | apply Sure.onBus
  | apply Sure.onSockBus
  | apply Sure.withLocal
  | apply Sure.ite
  | intro _
  | split))

theorem sure_readIp (hB : Healthy B) (a : U16) : Sure (readIp B a) :=
  Sure.readArr hB _ a [0, 0, 0, 0] _ fun d h => by
    match d, h with
    | [_, _, _, _], _ => exact .pure _

theorem sure_mac (hB : Healthy B) : Sure (Device.mac B) :=
  Sure.readArr hB _ _ [0, 0, 0, 0, 0, 0] _ fun d h => by
    match d, h with
    | [_, _, _, _, _, _], _ => exact .pure _

theorem sure_retryTimeout (hB : Healthy B) : Sure (currentRetryTimeout B) :=
  Sure.readArr hB _ _ [0, 0] _ fun d h => by
    match d, h with
    | [_, _], _ => exact .pure _

theorem sure_udpOpen (hB : Healthy B) (u : UdpSocket) : Sure (u.open B) :=
  .bind (.write hB _ _ _) fun _ => .bind (.write hB _ _ _) fun _ => .bind (.write hB _ _ _) fun _ =>
    .bind (.write hB _ _ _) fun _ => .bind (.write hB _ _ _) fun _ => .write hB _ _ _

theorem sure_setDestination (hB : Healthy B) (a : SockAddr4) : Sure (UdpSocket.setDestination B a) := by
  unfold UdpSocket.setDestination
  exact .bind .get fun _ => .ite (fun _ => .bind (.mapErr (.onSnd (.write hB _ _ _))) fun _ =>
    .bind (.mapErr (.onSnd (.write hB _ _ _))) fun _ => .modify _) fun _ => .pure _

theorem sure_setPort (hB : Healthy B) (p : U16) : Sure (UdpSocket.setPort B p) :=
  .bind (.modify _) fun _ => .bind .get fun _ => .mapErr (.onSnd (.write hB _ _ _))

theorem sure_release (s : Socket) (h : s.index.toNat < 8) : Sure (Device.releaseSocket s : M (Device W H) ε Unit) := by
  constructor
  intro d
  unfold Device.releaseSocket DeviceState.releaseSocket
  rw [if_pos h]
  exact ⟨_, _, rfl⟩

theorem sure_writeSettings (hB : Healthy B) (c : HostConfig) : Sure (writeSettings B c) := by
  unfold writeSettings
  sure

theorem sure_manualRefresh (hB : Healthy B) : Sure (Manual.refresh B) := by
  have h := sure_writeSettings hB
  unfold Manual.refresh
  refine .bind .get fun s => ?_
  dsimp only
  refine .ite (fun _ => .bind (.zoom (h _)) fun _ => .modify _) fun _ => .pure _

theorem sure_rawNew (hB : Healthy B) : Sure (RawDevice.new B) := by
  have h : ∀ l, Sure (RawDevice.clearBuffers B l) := by
    intro l
    induction l with
    | nil => exact .pure _
    | cons i l ih => exact .bind (.write hB _ _ _) fun _ => .bind (.write hB _ _ _) fun _ => ih
  have h := h [1, 2, 3, 4, 5, 6, 7]
  unfold RawDevice.new Socket.command
  sure

/-- When `initialize` and its relatives succeed. -/
theorem init_ok [Host H] (hB : Healthy B) (hH : Sure (Host.refresh (H := H) B)) (av : Bool) (host : H) (mode : Mode) (w : W)
    (hv : av = true → ∀ x w', B.readFrame w 0 0x39 [0] = (.ok (), [x], w') → x = 4) :
    ∃ st w', Uninit.initializeWithHost av B host mode w = (.ok st, w') := by
  have rest : ∀ w, ∃ st w', (do
      M.mapErr InitializeError.spiError (resetChip B)
      M.mapErr .spiError (setMode B mode)
      let (_, host) ← M.mapErr .spiError (M.withLocal host (Host.refresh B))
      pure (DeviceState.new host) : M W (InitializeError E) (DeviceState H)) w = (.ok st, w') := by
    refine Sure.run ?_
    unfold resetChip setMode
    refine .bind (.mapErr (.write hB _ _ _)) fun _ => .bind (.mapErr (.write hB _ _ _)) fun _ =>
      .bind (.mapErr (.withLocal _ hH)) fun x => ?_
    exact .pure _
  cases av with
  | false => exact rest w
  | true =>
    obtain ⟨v, w', h⟩ := (Sure.read1 hB COMMON common.VERSION).run w
    have hv : v = 4 := hv rfl v w' (Bus.read1_eq_ok.mp h)
    obtain ⟨st, w'', h3⟩ := rest w'
    refine ⟨st, w'', ?_⟩
    unfold Uninit.initializeWithHost Uninit.assertChipVersion
    refine (M.bind_ok (a := ()) (s' := w') ?_).trans h3
    refine (M.bind_ok (M.mapErr_ok h)).trans ?_
    rw [hv]
    rfl

/-- A chip on a wire without faults. -/
theorem healthy_chip {sched : Nat → List (Nat × Act)} {faults : Nat → Option (E × Nat)} (h : ∀ i, faults i = none) :
    Healthy (Chip.dev sched faults).bus := by
  constructor
  · intro w b a d
    unfold ByteDev.bus Chip.dev
    dsimp only
    rw [h]
  · intro w b a d
    unfold ByteDev.bus Chip.dev
    dsimp only
    rw [h]

macro "noerr" : tactic => `(tactic| repeat' (with_reducible first
  | assumption
  | exact ErrIn.pure _
  | exact ErrIn.get
  | exact ErrIn.panic
  | exact ErrIn.modify _
  | (apply ErrIn.write; assumption)
  | (apply ErrIn.read1; assumption)
  | (apply ErrIn.read2; assumption)
  | (apply ErrIn.readBuf; assumption)
  | (apply ErrIn.readSlice; assumption)
  | apply ErrIn.bind
  | apply ErrIn.mapErr'
  | apply ErrIn.onSnd
  | apply ErrIn.withPrefix
  | apply ErrIn.ite
  | intro _
  | split))

theorem noerr_receiveSize (hB : Faultless B) (s : Socket) (fuel : Nat) : ErrIn (fun _ => False) (s.getReceiveSize B fuel) := by
  induction fuel with
  | zero => exact .outOfFuel
  | succ k ih =>
    unfold Socket.getReceiveSize
    noerr

theorem noerr_rawRead (hB : Faultless B) (d : RawDevice) (fuel : Nat) (buf : List U8) (w : W) (e : E) :
    (d.readFrame B fuel (buf, w)).1 ≠ .err e := by
  rw [readFrame_split]
  have h := noerr_receiveSize hB d.rawSocket fuel
  refine fun he => ErrIn.run (p := fun _ => False) ?_ _ e he
  refine .bind (.onSnd ?_) fun x => ?_
  · unfold rawHead Socket.getRxReadPointer
    noerr
  · cases x with
    | none => exact .pure _
    | some x =>
      unfold rawTail Socket.setRxReadPointer Socket.command
      noerr

theorem noerr_connectLoop (hB : Faultless B) (t : TcpSocket) (fuel : Nat) : ErrIn (fun _ => False) (t.connectLoop B fuel) := by
  induction fuel with
  | zero => exact .outOfFuel
  | succ k ih =>
    unfold TcpSocket.connectLoop
    unfold TcpSocket.socketClose TcpSocket.reopen Socket.getStatus Socket.command Socket.resetInterrupt Socket.setMode Socket.setInterruptMask
    noerr

end W5500

namespace W5500.Spec
open W5500 socketn Sock
variable {E : Type} {sched : Nat → List (Nat × Act)} {faults : Nat → Option (E × Nat)}

/-- Writing one register byte of socket `n`. -/
theorem Stays.write1 {n : Nat} (hn : n < 8) {P Q : Sock → Prop} (h : Stays sched n P) (hf : ∀ i, faults i = none) (a : U16)
    (x : U8) (hk : ∀ s, P s → Q (s.pokeReg a x)) :
    Hoare (At n P) ((Chip.dev sched faults).bus.write (sockOf n).register a [x]) (fun _ => At n Q) (fun _ => False) := by
  constructor
  intro c hc
  unfold Bus.write
  have e : (Chip.dev sched faults).bus.writeFrame c (sockOf n).register a [x] =
      (.ok (), Chip.poke (Chip.tick sched { c with txn := c.txn + 1 }) ((sockOf n).register.setWidth 5) a x) := by
    unfold ByteDev.bus Chip.dev
    dsimp only
    rw [hf]
    rfl
  rw [e]
  have hr := Chip.reg_toNat n hn
  have ht : At n P (Chip.tick sched { c with txn := c.txn + 1 }) := h.ticks.tick _ hc
  show At n Q (Chip.poke _ _ a x)
  unfold Chip.poke
  rw [if_neg (Chip.ne_zero_of_toNat (by omega)), if_pos (by omega), show _ / 4 = n by omega]
  show Q _
  rw [Chip.setSock_self]
  exact hk _ ht

/-- Preparing a socket for TCP. -/
theorem tcp_prepared {n : Nat} (hn : n < 8) (hf : ∀ i, faults i = none) (hs : StatusIn sched n TcpState) (port : U16)
    {R : TcpSocketError E → Chip → Prop} :
    HoareE (fun _ => True) (TcpSocket.open (Chip.dev sched faults).bus ⟨sockOf n⟩ port) (fun _ => At n fun s => TcpState s.sr) R := by
  have hB := faultless_chip (sched := sched) hf
  have hT : Stays sched n (fun s => TcpState s.sr) := stays_sr hs
  have hT1 : Stays sched n (fun s => TcpState s.sr ∧ s.proto = 1) := fun k a ha s h =>
    ⟨hT k a ha s h.1, (act_proto s a).trans h.2⟩
  unfold TcpSocket.open Socket.command Socket.resetInterrupt Socket.setSourcePort Socket.setMode Socket.setInterruptMask
  refine .sure (T := fun _ => True) ?_ (by noerr)
  have w : ∀ {P Q : Sock → Prop}, Stays sched n P → ∀ (a : U16) (x : U8), (∀ s, P s → Q (s.pokeReg a x)) →
      Hoare (At n P) ((Chip.dev sched faults).bus.write (sockOf n).register a [x]) (fun _ => At n Q) (fun _ => True) :=
    fun h a x hk => (h.write1 hn hf a x hk).exc fun _ h => h.elim
  refine .bind (.pre (w (P := fun _ => True) (Q := fun s => TcpState s.sr) (fun _ _ _ _ _ => trivial) _ _ fun s _ => .inl rfl)
    fun _ _ => trivial) fun _ => ?_
  refine .bind (w (Q := fun s => TcpState s.sr) hT _ _ fun s h => h) fun _ => ?_
  refine .bind (.exc (hT.writeReg hn _ _ fun i hi s h => ?_) fun _ _ => trivial) fun _ => ?_
  · rw [pokeReg_sr s fun e => ?_]
    · exact h
    · have : i < 2 := hi
      exfalso
      revert e
      match i, this with
      | 0, _ => decide
      | 1, _ => decide
  refine .bind (w (Q := fun s => TcpState s.sr ∧ s.proto = 1) hT _ _ fun s h => ⟨?_, rfl⟩) fun _ => ?_
  · exact h
  refine .bind (w (Q := fun s => TcpState s.sr ∧ s.proto = 1) hT1 _ _ fun s h => ⟨?_, ?_⟩) fun _ => ?_
  · exact h.1
  · exact h.2
  · refine w hT1 _ _ fun s h => ?_
    have : (s.pokeReg COMMAND Command.open.toU8).sr = 0x13 := by
      show (if s.proto = 1 then (0x13 : U8) else _) = _
      rw [if_pos h.2]
    rw [this]
    exact .inr (.inl rfl)

theorem connect_sure {n : Nat} (hn : n < 8) (hf : ∀ i, faults i = none) (hs : StatusIn sched n TcpState) (port : U16)
    (remote : SockAddr4) (fuel : Nat) :
    HoareE (fun _ => True) (do
      TcpSocket.open (Chip.dev sched faults).bus ⟨sockOf n⟩ port
      TcpSocket.socketConnect (Chip.dev sched faults).bus fuel ⟨sockOf n⟩ remote) (fun _ _ => True) (fun _ _ => False) := by
  have hB := faultless_chip (sched := sched) hf
  refine .bind (tcp_prepared hn hf hs port) fun _ => ?_
  unfold TcpSocket.socketConnect Socket.getStatus
  refine .bind (.sure ((stays_sr hs).status hn) (.read1 hB _ _)) fun x =>
    .pre (P := fun _ => TcpState x ∧ True) (.fact fun hx => ?_) fun c h => ⟨h.2 ▸ h.1, trivial⟩
  have hloop := noerr_connectLoop hB ⟨sockOf n⟩ fuel
  refine .ofErr (T := fun _ => True) (p := fun _ => False) .triv ?_ fun _ _ h => h
  unfold TcpSocket.socketClose TcpSocket.reopen Socket.setDestinationIp Socket.setDestinationPort Socket.command
    Socket.resetInterrupt Socket.setMode Socket.setInterruptMask
  have hst : ∃ st, Status.tryFrom x = some st ∧ st ≠ .macRaw ∧ st ≠ .udp := by
    rcases hx with rfl | rfl | rfl | rfl | rfl | rfl | rfl | rfl | rfl | rfl | rfl
    all_goals exact ⟨_, rfl, nofun, nofun⟩
  obtain ⟨st, h1, h2, h3⟩ := hst
  rw [h1]
  cases st
  all_goals first | exact absurd rfl h2 | exact absurd rfl h3 | (dsimp only; noerr)

/-- MACRAW: never exactly one byte. -/
theorem rawRead_nopanic {n : Nat} (hn : n < 8) (K : List Packet) (A : List U8) (z : Nat) (fuel : Nat) (c c' : Chip)
    (h : At n (RawIdle K A z []) c) :
    (sockOf n).getReceiveSize (Chip.dev sched faults).bus fuel c ≠ (.ok 1, c') := by
  intro hc
  obtain ⟨_, s0, h0, _, h1⟩ := (hs_receiveSize (sched := sched) (faults := faults) hn (stable_rawIdle K A z [])
    (fun s h => h.busy.core.rxFits) fuel).ok h hc
  obtain ⟨more, hq⟩ := h0.busy.queue
  have h2 := queue_length s0
  rw [← h1, hq.2, List.nil_append] at h2
  cases more with
  | nil => exact absurd h2 (by decide)
  | cons f fs =>
    rw [encFrames_cons, List.length_append, encodeFrame_length] at h2
    have : (1 : U16).toNat = 1 := rfl
    omega

end W5500.Spec
