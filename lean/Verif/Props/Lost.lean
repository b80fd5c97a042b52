import Verif.Spec.Lost
import Verif.Props.Lifecycle
import Verif.Props.Udp
import Verif.Props.Tcp
import Verif.Props.Raw
import Verif.Props.UdpChip
import Verif.Proofs.Success
/-! # A chip that lost its state: C104 -/

namespace W5500.Props
open W5500 W5500.Spec
variable {W E H : Type} {sched : Nat → List (Nat × Act)} {faults : Nat → Option (E × Nat)}

/-- A closed socket with the given history. -/
def Gone (S : List U8) (P : List Packet) (A : List U8) (s : Sock) : Prop := s.sr = 0 ∧ Silent S P A s

theorem gone_stays {n : Nat} (hq : StatusIn sched n (· = 0)) (S : List U8) (P : List Packet) (A : List U8) :
    Stays sched n (Gone S P A) := by
  intro k a ha s h
  refine ⟨?_, stable_silent S P A s a h.2⟩
  by_cases hx : ∃ x, a = .status x
  · obtain ⟨x, rfl⟩ := hx
    exact hq k x ha
  · rw [act_sr fun x e => hx ⟨x, e⟩]
    exact h.1

/-- The status is read as 0, or the read fails. -/
theorem gone_status {n : Nat} (hn : n < 8) {P : Sock → Prop} (hP : Stays sched n P) (h0 : ∀ s, P s → s.sr = 0) {c : Chip}
    (hc : At n P c) :
    (∃ c', (Chip.dev sched faults).bus.readFrame c (sockOf n).register 0x03 [0] = (.ok (), [0], c') ∧ At n P c') ∨
    ∃ e d c', (Chip.dev sched faults).bus.readFrame c (sockOf n).register 0x03 [0] = (.err e, d, c') ∧ At n P c' ∧
      ∃ i, faults i ≠ none := by
  have h1 := hP.ticks.readFrame (faults := faults) c (sockOf n).register 0x03 [0] hc
  have h2 := (hP.status (faults := faults) hn).run c hc
  rcases readFrame1_cases (Chip.dev sched faults).bus c (sockOf n).register 0x03 with ⟨x, c', h⟩ | ⟨e, d, c', h⟩ | ⟨d, c', h⟩ | ⟨d, c', h⟩
  · rw [h] at h1
    rw [read1_ok h] at h2
    left
    refine ⟨c', ?_, h1⟩
    rw [h, h2.2, h0 _ h2.1]
  · rw [h] at h1
    right
    refine ⟨e, d, c', h, h1, Classical.byContradiction fun hf => ?_⟩
    have : ∀ i, faults i = none := fun i => Classical.byContradiction fun h => hf ⟨i, h⟩
    have := (faultless_chip (sched := sched) this).1 c (sockOf n).register 0x03 [0]
    rw [h] at this
    exact this _ rfl
  · exact absurd (congrArg Prod.fst h) ((calm_bus (Chip.dev sched faults)).1 _ _ _ _)
  · exfalso
    simp only [ByteDev.bus] at h
    split at h <;> simp at h

theorem connected_err {B : Bus W E} {t : TcpSocket} {w w' : W} {e : E} {dd : List U8}
    (h : B.readFrame w t.socket.register 0x03 [0] = (.err e, dd, w')) : t.socketIsConnected B w = (.err (.other e), w') := by
  unfold TcpSocket.socketIsConnected
  exact M.bind_err (M.mapErr_err (read1_err h))

theorem checkStatus_err {B : Bus W E} {u : UdpSocket} {w w' : W} {e : E} {dd : List U8}
    (h : B.readFrame w u.socket.register 0x03 [0] = (.err e, dd, w')) :
    u.checkStatus B w = (.err (.other (.other e)), w') := by
  unfold UdpSocket.checkStatus
  exact M.bind_err (M.mapErr_err (read1_err h))

/-- The answer and the state after a call that begins with a status read which fails, or shows a closed socket. -/
theorem use_tcpSend_err {B : Bus W E} {fuel : Nat} {t : TcpSocket} {data : List U8} {d : Device W H} {w' : W} {e : E}
    {dd : List U8} (h : B.readFrame d.bus t.socket.register 0x03 [0] = (.err e, dd, w')) :
    Device.tcpSend B fuel t data d = (.err (.other e), { d with bus := w' }) := by
  unfold Device.tcpSend Device.onBus M.zoom TcpSocket.socketSend
  rw [M.bind_err (connected_err h)]

theorem use_tcpReceive_err {B : Bus W E} {fuel : Nat} {t : TcpSocket} {buf : List U8} {d : Device W H} {w' : W} {e : E}
    {dd : List U8} (h : B.readFrame d.bus t.socket.register 0x03 [0] = (.err e, dd, w')) :
    Device.tcpReceive B fuel t (buf, d) = (.err (.other e), (buf, { d with bus := w' })) := by
  unfold Device.tcpReceive Device.onSockBus M.zoom TcpSocket.socketReceive
  dsimp only
  rw [M.bind_err (show M.onSnd (t.socketIsConnected B) (buf, d.bus) = _ by rw [M.onSnd_apply, connected_err h])]

theorem use_udpSend_err {B : Bus W E} {fuel : Nat} {u : UdpSocket} {data : List U8} {d : Device W H} {w' : W} {e : E}
    {dd : List U8} (h : B.readFrame d.bus u.socket.register 0x03 [0] = (.err e, dd, w')) :
    Device.udpSend B fuel u data d = (.err (.other (.other e)), { d with bus := w' }) := by
  apply udpSend_run
  unfold UdpSocket.socketSendAll
  rw [M.bind_err (checkStatus_err h)]

theorem use_udpReceive {B : Bus W E} {fuel : Nat} {u : UdpSocket} {buf : List U8} {d : Device W H} {w' : W}
    {x : NbError (UdpSocketError E)} (h : u.checkStatus B d.bus = (.err x, w')) :
    Device.udpReceive B fuel u (buf, d) = (.err x, (buf, { d with bus := w' })) := by
  unfold Device.udpReceive Device.onSockBus M.zoom UdpSocket.socketReceive
  dsimp only
  rw [M.bind_err (M.bind_err (show M.onSnd (u.checkStatus B) (buf, d.bus) = _ by rw [M.onSnd_apply, h]))]

theorem gone_write {n : Nat} (hn : n < 8) (hq : StatusIn sched n (· = 0)) {S : List U8} {P : List Packet} {A : List U8} (a : U16)
    (d : List U8) (h : ∀ i, i < d.length → a + BitVec.ofNat 16 i ≠ 0x00 ∧ a + BitVec.ofNat 16 i ≠ 0x01 ∧ a + BitVec.ofNat 16 i ≠ 0x02) :
    Hoare (At n (Gone S P A)) ((Chip.dev sched faults).bus.write (sockOf n).register a d) (fun _ => At n (Gone S P A))
      (At n (Gone S P A)) := by
  refine (gone_stays hq S P A).writeReg hn a d fun i hi s hs => ?_
  obtain ⟨h0, h1, h2⟩ := h i hi
  unfold Sock.pokeReg
  rw [if_neg h1, if_neg h2]
  split
  · exact hs
  · refine ⟨hs.1, ?_, hs.2.2, hs.2.3, hs.2.4⟩
    show (if (0x00 : U16) = _ then _ else _) = _
    rw [if_neg (Ne.symm h0)]
    exact hs.2.1

theorem gone_dest {n : Nat} (hn : n < 8) (hq : StatusIn sched n (· = 0)) {S : List U8} {P : List Packet} {A : List U8}
    (u : UdpSocket) (hu : u.socket = sockOf n) (remote : SockAddr4) :
    Hoare (At n (Gone S P A)) (writeAll (Chip.dev sched faults).bus (destScript u remote)) (fun _ => At n (Gone S P A))
      (At n (Gone S P A)) := by
  unfold destScript
  split
  · exact .pure fun _ h => h
  · rw [hu]
    refine .bind (gone_write hn hq _ _ ?_) fun _ => .bind (gone_write hn hq _ _ ?_) fun _ => .pure fun _ h => h
    · show ∀ i, i < 4 → _
      decide
    · show ∀ i, i < 2 → _
      decide

theorem noerr_writeAll {B : Bus W E} (hB : Faultless B) (l : List Wr) : ErrIn (fun _ => False) (writeAll B l) := by
  induction l with
  | nil => exact .pure _
  | cons x l ih => exact .bind (.write hB _ _ _) fun _ => ih

theorem writeAll_ends (l : List Wr) (c : Chip) :
    (writeAll (Chip.dev sched faults).bus l c).1 = .ok () ∨ ∃ e, (writeAll (Chip.dev sched faults).bus l c).1 = .err e := by
  induction l generalizing c with
  | nil => exact .inl rfl
  | cons x l ih =>
    unfold writeAll
    rw [M.bind_def]
    have h : ((Chip.dev sched faults).bus.write x.1 x.2.1 x.2.2 c).1 = .ok () ∨
        ∃ e, ((Chip.dev sched faults).bus.write x.1 x.2.1 x.2.2 c).1 = .err e := by
      unfold Bus.write
      simp only [ByteDev.bus]
      split
      · exact .inl rfl
      · exact .inr ⟨_, rfl⟩
    generalize (Chip.dev sched faults).bus.write x.1 x.2.1 x.2.2 c = r at h
    obtain ⟨_ | e | _ | _, c'⟩ := r
    · exact ih c'
    · exact .inr ⟨e, rfl⟩
    · rcases h with h | ⟨e, h⟩ <;> cases h
    · rcases h with h | ⟨e, h⟩ <;> cases h

theorem use_udpSendTo_err {B : Bus W E} {fuel : Nat} {u : UdpSocket} {remote : SockAddr4} {data : List U8} {d : Device W H} {w' : W}
    {e : E} (h : writeAll B (destScript u remote) d.bus = (.err e, w')) :
    Device.udpSendTo B fuel (.v4 remote) data (u, d) = (.err (.other (.other e)), (u, { d with bus := w' })) := by
  unfold Device.udpSendTo Device.onSockBus M.zoom UdpSocket.socketSendTo
  dsimp only
  have hs : UdpSocket.setDestination B remote (u, d.bus) = (.err (.other e), (u, w')) := by
    rw [setDestination_eq]
    dsimp only
    rw [show M.mapErr UdpSocketError.other (writeAll B (destScript u remote)) d.bus = _ from M.mapErr_err h]
    rfl
  rw [M.bind_err (M.mapErr_err hs)]

/-- One call. -/
theorem use_gone {n : Nat} (hn : n < 8) (hq : StatusIn sched n (· = 0)) {S : List U8} {P : List Packet} {A : List U8} (fuel : Nat)
    (u : Use) (d : Device Chip H) (hd : At n (Gone S P A) d.bus) :
    ((u.run (Chip.dev sched faults).bus fuel n d).1 = .notOpen ∨
      ∃ e, (u.run (Chip.dev sched faults).bus fuel n d).1 = .bus e ∧ ∃ i, faults i ≠ none) ∧
    At n (Gone S P A) (u.run (Chip.dev sched faults).bus fuel n d).2.bus ∧
    (u.run (Chip.dev sched faults).bus fuel n d).2.state = d.state := by
  have hst := fun (c : Chip) (hc : At n (Gone S P A) c) => gone_status (faults := faults) hn (gone_stays hq S P A) (fun _ h => h.1) hc
  have send : ∀ (dest : Option SockAddr4) (port : U16) (data : List U8) (d : Device Chip H), At n (Gone S P A) d.bus →
      ∃ r w, Device.udpSend (Chip.dev sched faults).bus fuel ⟨sockOf n, dest, port⟩ data d = (r, { d with bus := w }) ∧
        (Answer.udp r = .notOpen ∨ ∃ e, Answer.udp r = .bus e ∧ ∃ i, faults i ≠ none) ∧ At n (Gone S P A) w := by
    intro dest port data d hd
    rcases hst _ hd with ⟨c', h1, h2⟩ | ⟨e, dd, c', h1, h2, h3⟩
    · exact ⟨_, c', C35_status_partial _ fuel ⟨sockOf n, dest, port⟩ data d 0 c' h1 (by decide), .inl rfl, h2⟩
    · exact ⟨_, c', use_udpSend_err (u := ⟨sockOf n, dest, port⟩) h1, .inr ⟨e, rfl, h3⟩, h2⟩
  cases u with
  | tcpSend data =>
    dsimp only [Use.run]
    rcases hst _ hd with ⟨c', h1, h2⟩ | ⟨e, dd, c', h1, h2, h3⟩
    · rw [(C44_send _ fuel ⟨sockOf n⟩ data d).2 0 c' h1 (by decide)]
      exact ⟨.inl rfl, h2, rfl⟩
    · rw [use_tcpSend_err (t := ⟨sockOf n⟩) h1]
      exact ⟨.inr ⟨e, rfl, h3⟩, h2, rfl⟩
  | tcpReceive buf =>
    dsimp only [Use.run]
    rcases hst _ hd with ⟨c', h1, h2⟩ | ⟨e, dd, c', h1, h2, h3⟩
    · rw [(C44_receive _ fuel ⟨sockOf n⟩ buf d).2 0 c' h1 (by decide)]
      exact ⟨.inl rfl, h2, rfl⟩
    · rw [use_tcpReceive_err (t := ⟨sockOf n⟩) h1]
      exact ⟨.inr ⟨e, rfl, h3⟩, h2, rfl⟩
  | udpSend dest port data =>
    dsimp only [Use.run]
    obtain ⟨r, w, h1, h2, h3⟩ := send dest port data d hd
    rw [h1]
    exact ⟨h2, h3, rfl⟩
  | udpSendTo dest port remote data =>
    dsimp only [Use.run]
    have hw := (gone_dest (faults := faults) hn hq ⟨sockOf n, dest, port⟩ rfl remote).run d.bus hd
    have he := noerr_writeAll (B := (Chip.dev sched faults).bus) (l := destScript ⟨sockOf n, dest, port⟩ remote)
    rcases writeAll_ends (sched := sched) (faults := faults) (destScript ⟨sockOf n, dest, port⟩ remote) d.bus with h | ⟨e, h⟩
    · have h1 := C35_send_to _ fuel ⟨sockOf n, dest, port⟩ remote data d _ (Prod.ext h rfl)
      rw [show writeAll (Chip.dev sched faults).bus (destScript ⟨sockOf n, dest, port⟩ remote) d.bus = (.ok (), _) from Prod.ext h rfl] at hw
      obtain ⟨r, w, h2, h3, h4⟩ := send (some remote) port data
        { d with bus := (writeAll (Chip.dev sched faults).bus (destScript ⟨sockOf n, dest, port⟩ remote) d.bus).2 } hw
      rw [h1]
      dsimp only
      rw [h2]
      exact ⟨h3, h4, rfl⟩
    · have h1 := use_udpSendTo_err (fuel := fuel) (u := ⟨sockOf n, dest, port⟩) (data := data) (d := d) (Prod.ext h rfl)
      rw [show writeAll (Chip.dev sched faults).bus (destScript ⟨sockOf n, dest, port⟩ remote) d.bus = (.err e, _) from Prod.ext h rfl] at hw
      rw [h1]
      refine ⟨.inr ⟨e, rfl, Classical.byContradiction fun hf => ?_⟩, hw, rfl⟩
      have : ∀ i, faults i = none := fun i => Classical.byContradiction fun h => hf ⟨i, h⟩
      exact (he (faultless_chip this)).run _ _ h
  | udpReceive dest port buf =>
    dsimp only [Use.run]
    rcases hst _ hd with ⟨c', h1, h2⟩ | ⟨e, dd, c', h1, h2, h3⟩
    · rw [use_udpReceive (u := ⟨sockOf n, dest, port⟩) (checkStatus_other h1 (by decide))]
      exact ⟨.inl rfl, h2, rfl⟩
    · rw [use_udpReceive (u := ⟨sockOf n, dest, port⟩) (checkStatus_err h1)]
      exact ⟨.inr ⟨e, rfl, h3⟩, h2, rfl⟩

/-- C104, the part that holds. On a socket that the chip has lost (it is closed and has no protocol), TCP and UDP calls tell the
program: every call of any list of sends and receives ends with "not open", or with a bus error if transfers fail. Nothing
is transmitted or received meanwhile, and the socket stays closed. Missing: MACRAW devices, see `C104_refuted_read` and
`C104_refuted_write`, and destinations of UDP sockets that are opened again, see `C104_refuted_destination`. -/
theorem C104_partial {n : Nat} (hn : n < 8) (hq : StatusIn sched n (· = 0)) (fuel : Nat) (us : List Use) (d : Device Chip H)
    (hs : (d.bus.socks n).sr = 0) (hm : (d.bus.socks n).mem 0x00 = 0) :
    let r := uses (Chip.dev sched faults).bus fuel n us d
    (∀ a ∈ r.1, a = .notOpen ∨ ∃ e, a = .bus e) ∧ ((∀ i, faults i = none) → ∀ a ∈ r.1, a = .notOpen) ∧ r.1.length = us.length ∧
    (r.2.bus.socks n).sr = 0 ∧ (r.2.bus.socks n).stream = (d.bus.socks n).stream ∧
    (r.2.bus.socks n).packets = (d.bus.socks n).packets ∧ (r.2.bus.socks n).arrived = (d.bus.socks n).arrived ∧
    r.2.state = d.state := by
  have key : ∀ (S : List U8) (P : List Packet) (A : List U8) (us : List Use) (d : Device Chip H), At n (Gone S P A) d.bus →
      let r := uses (Chip.dev sched faults).bus fuel n us d
      (∀ a ∈ r.1, a = .notOpen ∨ ∃ e, a = .bus e ∧ ∃ i, faults i ≠ none) ∧ r.1.length = us.length ∧ At n (Gone S P A) r.2.bus ∧
      r.2.state = d.state := by
    intro S P A us
    induction us with
    | nil => exact fun d hd => ⟨fun _ h => (nomatch h), rfl, hd, rfl⟩
    | cons u us ih =>
      intro d hd
      obtain ⟨h1, h2, h3⟩ := use_gone (faults := faults) hn hq fuel u d hd
      obtain ⟨h4, h5, h6, h7⟩ := ih _ h2
      refine ⟨fun a ha => ?_, congrArg (· + 1) h5, h6, h7.trans h3⟩
      rcases List.mem_cons.mp ha with rfl | ha
      · exact h1
      · exact h4 a ha
  obtain ⟨h1, h2, h3, h4⟩ := key _ _ _ us d ⟨hs, hm, rfl, rfl, rfl⟩
  refine ⟨fun a ha => (h1 a ha).imp_right fun ⟨e, h, _⟩ => ⟨e, h⟩, fun hf a ha => ?_, h2, h3.1, h3.2.2, h3.2.3, h3.2.4, h4⟩
  rcases h1 a ha with h | ⟨_, _, i, hi⟩
  · exact h
  · exact absurd (hf i) hi

/-! ## MACRAW -/

/-- A socket without protocol, with nothing received and nothing to announce. -/
structure Dead (S : List U8) (P : List Packet) (A : List U8) (s : Sock) : Prop where
  silent : Silent S P A s
  owed : s.owed = 0
  empty : s.rxWr = s.rxRd

theorem stable_dead (S : List U8) (P : List Packet) (A : List U8) : StableS (Dead S P A) := by
  intro s a h
  refine ⟨stable_silent S P A s a h.1, ?_, ?_⟩
  · cases a with
    | raise b => show s.owed &&& _ = 0; rw [h.2]; exact BitVec.zero_and
    | status b => exact h.2
    | _ => simpa [Sock.act, h.1.proto] using h.2
  · cases a with
    | raise b => exact h.3
    | status b => exact h.3
    | _ => simpa [Sock.act, h.1.proto] using h.3

/-- In addition SENDOK is not set. -/
def DeadQuiet (S : List U8) (P : List Packet) (A : List U8) (s : Sock) : Prop := Dead S P A s ∧ s.ir.getLsbD 4 = false

theorem stable_deadQuiet (S : List U8) (P : List Packet) (A : List U8) : StableS (DeadQuiet S P A) := by
  intro s a h
  refine ⟨stable_dead S P A s a h.1, ?_⟩
  cases a with
  | raise b =>
    show (s.ir ||| _).getLsbD 4 = false
    rw [if_neg (by rw [h.1.1.proto]; decide), h.1.2, BitVec.getLsbD_or, h.2, BitVec.getLsbD_and]
    simp
  | status b => exact h.2
  | _ => simpa [Sock.act, h.1.1.proto] using h.2

theorem dead_poke {S : List U8} {P : List Packet} {A : List U8} {s : Sock} (h : DeadQuiet S P A s) {a : U16} (x : U8)
    (ha : a = 0x24 ∨ a = 0x25) : DeadQuiet S P A (s.pokeReg a x) := by
  rcases ha with rfl | rfl <;> exact ⟨⟨⟨h.1.1.1, h.1.1.2, h.1.1.3, h.1.1.4⟩, h.1.2, h.1.3⟩, h.2⟩

theorem bit4_zero : ∀ x : U8, x.getLsbD 4 = false → x &&& socketn.Interrupt.sendOk.toU8 = 0 := by decide +kernel

/-- `write_frame` does not return `Ok`, and the socket stays dead. -/
theorem dead_write {S : List U8} {P : List Packet} {A : List U8} (fuel : Nat) (frame : List U8) :
    Hoare (At 0 (Dead S P A)) (RawDevice.writeFrame (Chip.dev sched faults).bus fuel ⟨sockOf 0⟩ frame) (fun _ _ => False)
      (At 0 (Dead S P A)) := by
  have hn : 0 < 8 := by decide
  have hq := stable_deadQuiet S P A
  have weak : ∀ c, At 0 (DeadQuiet S P A) c → At 0 (Dead S P A) c := fun _ h => h.1
  have wait : ∀ fuel, Hoare (At 0 (DeadQuiet S P A)) (RawDevice.waitSendOk (Chip.dev sched faults).bus (sockOf 0) fuel)
      (fun _ _ => False) (At 0 (Dead S P A)) := by
    intro fuel
    induction fuel with
    | zero => exact .outOfFuel weak
    | succ k ih =>
      unfold RawDevice.waitSendOk Socket.hasInterrupt
      refine .bind (Q := fun b c => b = false ∧ At 0 (DeadQuiet S P A) c) (.bind (.exc (hs_read1 hn hq _) weak) fun x => .pure ?_)
        fun b => ?_
      · rintro c ⟨h1, s0, h2, _, rfl⟩
        refine ⟨?_, h1⟩
        exact decide_eq_false fun hne => hne (bit4_zero s0.ir h2.2)
      · constructor
        rintro c ⟨rfl, hc⟩
        exact ih.run c hc
  unfold RawDevice.writeFrame
  refine .bind (Q := fun _ => At 0 (DeadQuiet S P A)) ?_ fun _ => ?_
  · refine .exc (hs_write1 hn (stable_dead S P A) _ _ fun s h => ⟨⟨⟨h.1.1, h.1.2, h.1.3, h.1.4⟩, h.2, h.3⟩, ?_⟩) ?_
    · show (s.ir &&& ~~~(0x10 : U8)).getLsbD 4 = false
      rw [BitVec.getLsbD_and]
      simp
    · rintro c (h | h)
      · exact h
      · exact weak c h
  refine .bind (Q := fun cur c => cur.sock = sockOf 0 ∧ At 0 (DeadQuiet S P A) c) ?_ fun cur => ?_
  · unfold TxCursor.new
    exact .bind (.exc (.post (hs_read2 hn hq _) fun _ _ h => h.1) weak) fun _ =>
      .bind (.exc (.post (hs_read2 hn hq _) fun _ _ h => h.1) weak) fun _ => .pure fun _ h => ⟨rfl, h⟩
  refine .bind (Q := fun r c => r.2.sock = sockOf 0 ∧ At 0 (DeadQuiet S P A) c) ?_ fun r => ?_
  · constructor
    rintro c ⟨h1, h2⟩
    refine Hoare.run (P := At 0 (DeadQuiet S P A)) ?_ c h2
    unfold TxCursor.write
    rw [h1]
    refine .ite (fun _ => .pure fun _ h => ⟨h1, h⟩) fun _ => ?_
    refine .bind (Q := fun _ => At 0 (DeadQuiet S P A)) ?_ fun dd => .bind (Q := fun _ => At 0 (DeadQuiet S P A)) ?_ fun _ => .pure fun _ h => ⟨rfl, h⟩
    · constructor
      intro c hc
      unfold M.sliceTo
      split
      · exact hc
      · exact weak c hc
    · exact .exc (hs_writeTx (I := fun _ => DeadQuiet S P A) hn _ _ (fun _ _ _ => hq)
        fun i hi s h => ⟨⟨⟨h.1.1.1, h.1.1.2, h.1.1.3, h.1.1.4⟩, h.1.2, h.1.3⟩, h.2⟩) fun c ⟨_, _, h⟩ => weak c h
  obtain ⟨count, cur⟩ := r
  constructor
  rintro c ⟨h1, h2⟩
  replace h1 : cur.sock = sockOf 0 := h1
  refine Hoare.run (P := At 0 (DeadQuiet S P A)) ?_ c h2
  refine .bind (Q := fun _ => At 0 (DeadQuiet S P A)) ?_ fun _ => .bind (wait fuel) fun _ => ⟨fun _ h => h.elim⟩
  unfold TxCursor.commit
  rw [h1]
  refine .bind (.exc (hs_write2 (P1 := DeadQuiet S P A) (Q := DeadQuiet S P A) hn hq hq _ _ (fun s h => dead_poke h _ (.inl rfl))
    fun s h => dead_poke h _ (.inr rfl)) ?_) fun _ => .exc (hs_write1 (Q := DeadQuiet S P A) hn hq _ _ fun s h => ?_) ?_
  · rintro c (h | h | h) <;> exact weak c h
  · exact ⟨⟨⟨h.1.1.1, h.1.1.2, h.1.1.3, h.1.1.4⟩, h.1.2, h.1.3⟩, h.2⟩
  · rintro c (h | h) <;> exact weak c h

theorem read2_fine (hf : ∀ i, faults i = none) (b : U8) (a : U16) (c : Chip) :
    ∃ v c', (Chip.dev sched faults).bus.read2 b a c = (.ok v, c') := by
  have h : (Chip.dev sched faults).bus.readFrame c b a [0, 0] =
      (.ok (), ((Chip.dev sched faults).readBytes { c with txn := c.txn + 1 } (b.setWidth 5) a 2).1,
        ((Chip.dev sched faults).readBytes { c with txn := c.txn + 1 } (b.setWidth 5) a 2).2) := by
    simp [ByteDev.bus, Chip.dev, hf]
  exact ⟨_, _, read2_ok h⟩

theorem dead_size {S : List U8} {P : List Packet} {A : List U8} (fuel : Nat) (hf : ∀ i, faults i = none) {c : Chip}
    (hc : At 0 (Dead S P A) c) :
    ∃ c', Socket.getReceiveSize (Chip.dev sched faults).bus (sockOf 0) (fuel + 1) c = (.ok 0, c') ∧ At 0 (Dead S P A) c' := by
  have hn : 0 < 8 := by decide
  have hB := faultless_chip (sched := sched) hf
  have one : ∀ c, At 0 (Dead S P A) c → ∃ c', (Chip.dev sched faults).bus.read2 (sockOf 0).register 0x26 c = (.ok 0, c') ∧
      At 0 (Dead S P A) c' := by
    intro c hc
    have h1 := (hs_read2 (sched := sched) (faults := faults) hn (stable_dead S P A) 0x26).run c hc
    obtain ⟨v, c', h⟩ := read2_fine hf (sched := sched) (sockOf 0).register 0x26 c
    rw [h] at h1 ⊢
    obtain ⟨h2, s1, s2, p1, p2, _, _, rfl⟩ := h1
    refine ⟨c', ?_, h2⟩
    have r1 : s1.rsr = 0 := by unfold Sock.rsr; rw [p1.3]; exact BitVec.sub_self _
    have r2 : s2.rsr = 0 := by unfold Sock.rsr; rw [p2.3]; exact BitVec.sub_self _
    have : (s1.peekReg 0x26 ++ s2.peekReg (0x26 + 1) : U16) = 0 := by
      show (s1.rsr.extractLsb' 8 8 ++ s2.rsr.extractLsb' 0 8 : BitVec (8 + 8)) = _
      rw [r1, r2]
      rfl
    rw [this]
  obtain ⟨c1, h1, h2⟩ := one c hc
  obtain ⟨c2, h3, h4⟩ := one c1 h2
  refine ⟨c2, ?_, h4⟩
  unfold Socket.getReceiveSize
  exact (M.bind_ok h1).trans ((M.bind_ok h3).trans rfl)

/-- C104 is false of a MACRAW device: after the chip lost its state, `read_frame` keeps returning `Ok(0)`, "nothing received",
with no transfer failing, and the socket remains in this condition: so it is for all later calls as well. -/
theorem C104_refuted_read (fuel : Nat) (hf : ∀ i, faults i = none) (buf : List U8) (c : Chip)
    (hm : (c.socks 0).mem 0x00 = 0) (ho : (c.socks 0).owed = 0) (he : (c.socks 0).rxWr = (c.socks 0).rxRd) :
    ∃ c', RawDevice.readFrame (Chip.dev sched faults).bus (fuel + 1) ⟨Socket.new 0⟩ (buf, c) = (.ok 0, (buf, c')) ∧
      (c'.socks 0).mem 0x00 = 0 ∧ (c'.socks 0).owed = 0 ∧ (c'.socks 0).rxWr = (c'.socks 0).rxRd ∧
      (c'.socks 0).arrived = (c.socks 0).arrived := by
  obtain ⟨c1, h1, h2⟩ := dead_size (sched := sched) fuel hf (c := c) ⟨⟨hm, rfl, rfl, rfl⟩, ho, he⟩
  have h3 := (hs_read2 (sched := sched) (faults := faults) (n := 0) (by decide) (stable_dead _ _ _) 0x28).run c1 h2
  obtain ⟨v, c2, h⟩ := read2_fine hf (sched := sched) (sockOf 0).register 0x28 c1
  rw [h] at h3
  refine ⟨c2, ?_, h3.1.1.1, h3.1.2, h3.1.3, h3.1.1.4⟩
  have hc : RxCursor.new (Chip.dev sched faults).bus (fuel + 1) (sockOf 0) c = (.ok ⟨sockOf 0, v, 0⟩, c2) := by
    unfold RxCursor.new
    exact (M.bind_ok h1).trans ((M.bind_ok (show Socket.getRxReadPointer _ _ c1 = _ from h)).trans rfl)
  unfold RawDevice.readFrame
  have hc' : M.onSnd (RxCursor.new (Chip.dev sched faults).bus (fuel + 1) (sockOf 0)) (buf, c) =
      (.ok ⟨sockOf 0, v, 0⟩, (buf, c2)) := by rw [M.onSnd_apply, hc]
  exact (M.bind_ok hc').trans rfl

/-- C104 is false of a MACRAW device: after the chip lost its state, `write_frame` never returns `Ok`, whatever happens on the
chip; if no transfer fails it does not return at all. Nothing is transmitted, and later calls fare no better. -/
theorem C104_refuted_write (fuel : Nat) (frame : List U8) (c : Chip)
    (hm : (c.socks 0).mem 0x00 = 0) (ho : (c.socks 0).owed = 0) (he : (c.socks 0).rxWr = (c.socks 0).rxRd) :
    let r := RawDevice.writeFrame (Chip.dev sched faults).bus fuel ⟨Socket.new 0⟩ frame c
    (∀ k, r.1 ≠ .ok k) ∧ ((∀ i, faults i = none) → r.1 = .fuel) ∧
    (r.2.socks 0).mem 0x00 = 0 ∧ (r.2.socks 0).owed = 0 ∧ (r.2.socks 0).rxWr = (r.2.socks 0).rxRd ∧
    (r.2.socks 0).packets = (c.socks 0).packets := by
  have h := (dead_write (sched := sched) (faults := faults) fuel frame).run c ⟨⟨hm, rfl, rfl, rfl⟩, ho, he⟩
  have h2 := (np_rawWrite (calm_bus (Chip.dev sched faults)) ⟨sockOf 0⟩ fuel frame).run c
  have h3 := fun hf => (noerr_rawWrite (faultless_chip (sched := sched) (faults := faults) hf) ⟨sockOf 0⟩ fuel frame).run c
  dsimp only
  generalize RawDevice.writeFrame (Chip.dev sched faults).bus fuel ⟨sockOf 0⟩ frame c = r at h h2 h3
  obtain ⟨k | e | _ | _, c'⟩ := r
  · exact h.elim
  · exact ⟨nofun, fun hf => (h3 hf e rfl).elim, h.1.1, h.2, h.3, h.1.3⟩
  · exact absurd rfl h2
  · exact ⟨nofun, fun _ => rfl, h.1.1, h.2, h.3, h.1.3⟩

/-- C104 is false of UDP destinations: a UDP socket object that is connected again after the chip lost its state, to the address
it was connected to before, does not write the address, since it believes that the chip has it. `connect` returns `Ok`, and
datagrams go to 0.0.0.0, port 0; see the run below. -/
theorem C104_refuted_destination {n : Nat} (hn : n < 8) (remote : SockAddr4) (u u' : UdpSocket)
    (hu : u.socket = Socket.new (BitVec.ofNat 8 n)) (hd : u.destination = some remote) (c : Chip) (st : DeviceState H) (d' : Device Chip H)
    (h : Device.udpConnect (Chip.dev sched faults).bus (.v4 remote) (u, ⟨c.powerCycle, st⟩) = (.ok (), (u', d'))) :
    [(d'.bus.socks n).mem 0x0C, (d'.bus.socks n).mem 0x0D, (d'.bus.socks n).mem 0x0E, (d'.bus.socks n).mem 0x0F] = [0, 0, 0, 0] ∧
    [(d'.bus.socks n).mem 0x10, (d'.bus.socks n).mem 0x11] = [0, 0] ∧ u'.destination = some remote ∧
    (d'.bus.socks n).mem 0x00 = 0x02 := by
  obtain ⟨_, h1, _, _, h2, h3⟩ := C31_connect_partial hn remote u u' hu _ d' h
  have h2 := h2 hd
  refine ⟨?_, ?_, by rw [h3], h1⟩
  · rw [h2 0x0C (by decide) (by decide), h2 0x0D (by decide) (by decide), h2 0x0E (by decide) (by decide), h2 0x0F (by decide) (by decide)]
    rfl
  · rw [h2 0x10 (by decide) (by decide), h2 0x11 (by decide) (by decide)]
    rfl

/-! ## Concrete runs -/

/-- The device and a connected UDP socket, the chip having lost its state. -/
def lostUdp : UdpSocket × Device Chip Unit :=
  let r := udpConnected noFaults
  (r.1, { r.2 with bus := r.2.bus.powerCycle })

/-- `C104_partial` applies to a chip that lost its state in any condition; here with a schedule in which the network goes on
trying to do things. -/
example (c : Chip) (st : DeviceState Unit) (us : List Use) :
    ∀ a ∈ (uses (Chip.dev emitSched noFaults).bus 9 0 us ⟨c.powerCycle, st⟩).1, a = .notOpen :=
  (C104_partial (n := 0) (by decide) (fun k x h => by simp [emitSched] at h) 9 us ⟨c.powerCycle, st⟩ rfl rfl).2.1 fun _ => rfl

/-- Before, the same calls worked: a datagram is sent. -/
example : (Device.udpSend (Chip.dev emitSched noFaults).bus 9 (udpConnected noFaults).1 [5] (udpConnected noFaults).2).1 = .ok () ∧
    (Device.udpSend (Chip.dev emitSched noFaults).bus 9 lostUdp.1 [5] lostUdp.2).1 = .err (.other .socketNotOpen) := by
  decide +kernel

/-- The program then connects again, and sends: `Ok`, and the datagram goes to 0.0.0.0. The same with `bind` and `send_to`. -/
example :
    let B := (Chip.dev emitSched noFaults).bus
    let r1 := Device.udpConnect B (.v4 addrA) lostUdp
    let r2 := Device.udpSend B 9 r1.2.1 [5] r1.2.2
    let q1 := Device.udpBind B 5000 lostUdp
    let q2 := Device.udpSendTo B 9 (.v4 addrA) [5] q1.2
    lostUdp.1.destination = some addrA ∧ r1.1 = .ok () ∧ r2.1 = .ok () ∧
      (r2.2.bus.socks 0).packets = [⟨[0, 0, 0, 0], [0, 0], [5], true⟩] ∧ q1.1 = .ok () ∧ q2.1 = .ok () ∧
      (q2.2.2.bus.socks 0).packets = [⟨[0, 0, 0, 0], [0, 0], [5], true⟩] := by
  decide +kernel

/-- A MACRAW device: frames are read and written; after the chip lost its state nothing is read any more, and writing hangs. -/
example : (rawDemo.writeFrame (Chip.dev frameSched noFaults).bus 9 [7, 8] (rawChip noFaults)).1 = .ok 2 ∧
    (rawRead noFaults [0, 0, 0, 0] (rawChip noFaults)).1 = .ok 4 ∧
    (rawRead noFaults [0, 0, 0, 0] (rawChip noFaults).powerCycle).1 = .ok 0 := by
  decide +kernel
example (fuel : Nat) (c : Chip) (frame : List U8) :
    (rawDemo.writeFrame (Chip.dev frameSched noFaults).bus fuel frame c.powerCycle).1 = .fuel :=
  (C104_refuted_write fuel frame c.powerCycle rfl rfl rfl).2.1 fun _ => rfl
example (fuel : Nat) (c : Chip) : ∃ c', rawDemo.readFrame (Chip.dev frameSched noFaults).bus (fuel + 1) ([1, 2], c.powerCycle) =
    (.ok 0, ([1, 2], c')) :=
  let ⟨c', h, _⟩ := C104_refuted_read (sched := frameSched) (faults := noFaults) fuel (fun _ => rfl) [1, 2] c.powerCycle rfl rfl rfl
  ⟨c', h⟩

end W5500.Props
