import Verif.Proofs.TcpHistory
import Verif.Proofs.Runs
import Verif.Proofs.Bytes
/-! # TCP data transfer: C44 – C48, C53, C54 -/

namespace W5500.Props
open W5500 W5500.Spec
variable {W E H : Type}

/-! ## C44 TCP send/receive need an established connection

`0x03` is Sn_SR and `0x17` is SOCK_ESTABLISHED (datasheet 4.2). The final bus state is the state after that one read
frame, so nothing was written. -/

theorem connected_bind {α : Type} (B : Bus W E) (t : TcpSocket) (f : Bool → M W (TcpSocketError E) α) {w w' : W}
    {x : U8} (h : B.readFrame w t.socket.register 0x03 [0] = (.ok (), [x], w')) :
    (t.socketIsConnected B >>= f) w = f (decide (x = 0x17)) w' := by
  have : t.socketIsConnected B w = (.ok (decide (x = 0x17)), w') := by
    exact (M.bind_ok (M.mapErr_ok (read1_ok h))).trans rfl
  exact M.bind_ok this

/-- The rest of `socket_send` never reports NotConnected. -/
theorem send_rest (B : Bus W E) (fuel : Nat) (t : TcpSocket) (data : List U8) {w w' : W}
    (h : B.readFrame w t.socket.register 0x03 [0] = (.ok (), [0x17], w')) :
    (TcpSocket.socketSend B fuel t data w).1 ≠ .err .notConnected := by
  unfold TcpSocket.socketSend
  rw [connected_bind B t _ h]
  intro hc
  refine (ErrIn.run (p := fun e => e ≠ TcpSocketError.notConnected) ?_ _ _ hc) rfl
  errin

/-- C44, send. -/
theorem C44_send (B : Bus W E) (fuel : Nat) (t : TcpSocket) (data : List U8) (d : Device W H) :
    ((Device.tcpSend B fuel t data d).1 = .err .notConnected ↔
      ∃ x w', B.readFrame d.bus t.socket.register 0x03 [0] = (.ok (), [x], w') ∧ x ≠ 0x17) ∧
    (∀ x w', B.readFrame d.bus t.socket.register 0x03 [0] = (.ok (), [x], w') → x ≠ 0x17 →
      Device.tcpSend B fuel t data d = (.err .notConnected, { d with bus := w' })) := by
  have key : ∀ x w', B.readFrame d.bus t.socket.register 0x03 [0] = (.ok (), [x], w') → x ≠ 0x17 →
      TcpSocket.socketSend B fuel t data d.bus = (.err .notConnected, w') := by
    intro x w' h hx
    unfold TcpSocket.socketSend
    rw [connected_bind B t _ h, decide_eq_false hx]
    rfl
  have run : ∀ r w', TcpSocket.socketSend B fuel t data d.bus = (r, w') →
      Device.tcpSend B fuel t data d = (r, { d with bus := w' }) := by
    intro r w' h
    unfold Device.tcpSend Device.onBus M.zoom
    rw [h]
  refine ⟨⟨fun hc => ?_, fun ⟨x, w', h, hx⟩ => by rw [run _ _ (key x w' h hx)]⟩,
    fun x w' h hx => run _ _ (key x w' h hx)⟩
  have hc : (TcpSocket.socketSend B fuel t data d.bus).1 = .err .notConnected := hc
  rcases readFrame1_cases B d.bus t.socket.register 0x03 with ⟨x, w', h⟩ | ⟨e, dd, w', h⟩ | ⟨dd, w', h⟩ | ⟨dd, w', h⟩
  · refine ⟨x, w', h, ?_⟩
    rintro rfl
    exact send_rest B fuel t data h hc
  all_goals
    exfalso
    unfold TcpSocket.socketSend TcpSocket.socketIsConnected Socket.getStatus at hc
    rw [bind_assoc, M.bind_def, M.mapErr_def] at hc
  · rw [show B.read1 t.socket.register socketn.STATUS d.bus = _ from read1_err h] at hc
    simp at hc
  · rw [show B.read1 t.socket.register socketn.STATUS d.bus = _ from read1_panic h] at hc
    simp at hc
  · rw [show B.read1 t.socket.register socketn.STATUS d.bus = _ from read1_fuel h] at hc
    simp at hc

theorem connected_bind' {α : Type} (B : Bus W E) (t : TcpSocket) (f : Bool → M (List U8 × W) (TcpSocketError E) α)
    {b : List U8} {w w' : W} {x : U8} (h : B.readFrame w t.socket.register 0x03 [0] = (.ok (), [x], w')) :
    (M.onSnd (t.socketIsConnected B) >>= f) (b, w) = f (decide (x = 0x17)) (b, w') := by
  have : t.socketIsConnected B w = (.ok (decide (x = 0x17)), w') := by
    exact (M.bind_ok (M.mapErr_ok (read1_ok h))).trans rfl
  refine M.bind_ok ?_
  rw [M.onSnd_apply, this]

/-- The rest of `socket_receive` never reports NotConnected. -/
theorem receive_rest (B : Bus W E) (fuel : Nat) (t : TcpSocket) (b : List U8) {w w' : W}
    (h : B.readFrame w t.socket.register 0x03 [0] = (.ok (), [0x17], w')) :
    (TcpSocket.socketReceive B fuel t (b, w)).1 ≠ .err .notConnected := by
  unfold TcpSocket.socketReceive
  rw [connected_bind' B t _ h]
  intro hc
  refine (ErrIn.run (p := fun e => e ≠ TcpSocketError.notConnected) ?_ _ _ hc) rfl
  errin

/-- C44, receive; the caller's buffer is unchanged as well. -/
theorem C44_receive (B : Bus W E) (fuel : Nat) (t : TcpSocket) (buf : List U8) (d : Device W H) :
    ((Device.tcpReceive B fuel t (buf, d)).1 = .err .notConnected ↔
      ∃ x w', B.readFrame d.bus t.socket.register 0x03 [0] = (.ok (), [x], w') ∧ x ≠ 0x17) ∧
    (∀ x w', B.readFrame d.bus t.socket.register 0x03 [0] = (.ok (), [x], w') → x ≠ 0x17 →
      Device.tcpReceive B fuel t (buf, d) = (.err .notConnected, (buf, { d with bus := w' }))) := by
  have key : ∀ x w', B.readFrame d.bus t.socket.register 0x03 [0] = (.ok (), [x], w') → x ≠ 0x17 →
      TcpSocket.socketReceive B fuel t (buf, d.bus) = (.err .notConnected, (buf, w')) := by
    intro x w' h hx
    unfold TcpSocket.socketReceive
    rw [connected_bind' B t _ h, decide_eq_false hx]
    rfl
  have run : ∀ r w', TcpSocket.socketReceive B fuel t (buf, d.bus) = (r, (buf, w')) →
      Device.tcpReceive B fuel t (buf, d) = (r, (buf, { d with bus := w' })) := by
    intro r w' h
    unfold Device.tcpReceive Device.onSockBus M.zoom
    dsimp only
    rw [h]
  refine ⟨⟨fun hc => ?_, fun ⟨x, w', h, hx⟩ => by rw [run _ _ (key x w' h hx)]⟩,
    fun x w' h hx => run _ _ (key x w' h hx)⟩
  have hc : (TcpSocket.socketReceive B fuel t (buf, d.bus)).1 = .err .notConnected := hc
  rcases readFrame1_cases B d.bus t.socket.register 0x03 with ⟨x, w', h⟩ | ⟨e, dd, w', h⟩ | ⟨dd, w', h⟩ | ⟨dd, w', h⟩
  · refine ⟨x, w', h, ?_⟩
    rintro rfl
    exact receive_rest B fuel t buf h hc
  all_goals
    exfalso
    unfold TcpSocket.socketReceive TcpSocket.socketIsConnected Socket.getStatus at hc
    rw [M.bind_def, M.onSnd_apply, M.bind_def, M.mapErr_def] at hc
    dsimp only at hc
  · rw [show B.read1 t.socket.register socketn.STATUS d.bus = _ from read1_err h] at hc
    simp at hc
  · rw [show B.read1 t.socket.register socketn.STATUS d.bus = _ from read1_panic h] at hc
    simp at hc
  · rw [show B.read1 t.socket.register socketn.STATUS d.bus = _ from read1_fuel h] at hc
    simp at hc

/-- C44, as seen by generic code, which knows only the kind of an error: PipeClosed comes from `send` and `receive` exactly if
the connection is not established, and from no other call. -/
theorem C44_kind (B : Bus W E) (fuel : Nat) (t : TcpSocket) (buf : List U8) (remote : SockAddr) (d : Device W H) :
    ((∃ e, (Device.tcpSend B fuel t buf d).1 = .err e ∧ e.kind = .pipeClosed) ↔
      ∃ x w', B.readFrame d.bus t.socket.register 0x03 [0] = (.ok (), [x], w') ∧ x ≠ 0x17) ∧
    ((∃ e, (Device.tcpReceive B fuel t (buf, d)).1 = .err e ∧ e.kind = .pipeClosed) ↔
      ∃ x w', B.readFrame d.bus t.socket.register 0x03 [0] = (.ok (), [x], w') ∧ x ≠ 0x17) ∧
    (∀ e, (Device.tcpSocket d : Res (TcpSocketError E) TcpSocket × _).1 = .err e → e.kind ≠ .pipeClosed) ∧
    (∀ e, (Device.tcpConnect B fuel t remote d).1 = .err e → e.kind ≠ .pipeClosed) ∧
    ∀ e, (Device.tcpClose B t d).1 = .err e → e.kind ≠ .pipeClosed := by
  have hk : ∀ (r : Res (TcpSocketError E) Nat), (∃ e, r = .err e ∧ e.kind = .pipeClosed) ↔ r = .err .notConnected := by
    intro r
    refine ⟨fun ⟨e, h, h'⟩ => ?_, fun h => ⟨_, h, rfl⟩⟩
    subst h
    cases e <;> first | rfl | cases h'
  refine ⟨(hk _).trans (C44_send B fuel t buf d).1, (hk _).trans (C44_receive B fuel t buf d).1, ?_, ?_, ?_⟩
  · refine fun e h => ErrIn.run (p := fun e => e.kind ≠ .pipeClosed) ?_ d e h
    unfold Device.tcpSocket
    refine .bind ⟨fun _ _ h => nomatch h⟩ fun o => ?_
    split
    · exact .pure _
    · exact .throw nofun
  · refine fun e h => ErrIn.run (p := fun e => e.kind ≠ .pipeClosed) ?_ d e h
    have hl : ∀ n, ErrIn (fun e => e.kind ≠ .pipeClosed) (t.connectLoop B n) := by
      intro n
      induction n with
      | zero => exact .outOfFuel
      | succ n ih =>
        unfold TcpSocket.connectLoop TcpSocket.socketClose TcpSocket.reopen
        errin
        all_goals first | exact .mapErr _ nofun | exact ih
    unfold Device.tcpConnect
    split
    · exact .throw nofun
    · refine .zoom ?_
      unfold TcpSocket.open TcpSocket.socketConnect TcpSocket.socketClose TcpSocket.reopen
      errin
      all_goals first | exact .mapErr _ nofun | exact .throw nofun | exact hl _
  · refine fun e h => ErrIn.run (p := fun e => e.kind ≠ .pipeClosed) ?_ d e h
    refine .bind (.zoom (.mapErr _ nofun)) fun _ => ⟨fun s e h => ?_⟩
    unfold Device.releaseSocket at h
    split at h <;> cases h

/-! ### A chip for examples -/

/-- No transaction fails. -/
def noFaults : Nat → Option (Unit × Nat) := fun _ => none
/-- Transaction `i` fails before its first byte. -/
def faultAt (i : Nat) : Nat → Option (Unit × Nat) := fun k => if k = i then some ((), 0) else none

/-- The connection is established once `connect` polls for it; from then on SENDOK is raised all the time. Three bytes
arrive a bit later. -/
def demoSched (k : Nat) : List (Nat × Act) :=
  if k < 16 then [] else [(0, .status 0x17), (0, .raise 0x10)] ++ if k = 18 then [(0, .arrive [1, 2, 3])] else []

/-- A chip after power-up, and the handle of its socket 0. -/
def demoDevice : Device Chip Unit := ⟨Chip.powerUp, DeviceState.new ()⟩
def demoSocket : TcpSocket := ⟨Socket.new (BitVec.ofNat 8 0)⟩
def demoRemote : SockAddr := .v4 ⟨⟨10, 0, 0, 1⟩, 80⟩

/-- The device after a successful `connect`. -/
def demoConnected : Device Chip Unit :=
  (Device.tcpConnect (Chip.dev demoSched noFaults).bus 100 demoSocket demoRemote demoDevice).2

/-- C44 is not vacuous: on the fresh chip the status is 0, so `send` and `receive` are refused; after `connect`, `send`
is not. -/
example :
    (Device.tcpSend (Chip.dev demoSched noFaults).bus 9 demoSocket [1] demoDevice).1 = .err .notConnected ∧
    (Device.tcpReceive (Chip.dev demoSched noFaults).bus 9 demoSocket ([0], demoDevice)).1 = .err .notConnected ∧
    (Device.tcpSend (Chip.dev demoSched noFaults).bus 9 demoSocket [1] demoConnected).1 = .ok 1 := by
  decide +kernel

/-! ## C45 TCP send is a faithful byte stream

`stream` is the ghost sequence of all bytes the chip transmitted on the socket, `pending` the committed bytes not yet
transmitted. The history (`Spec/TcpHistory.lean`) contains any number of sends and receives on the connection, calls
that failed without touching the pointer register, any other traffic on the bus, any behaviour of the peer. -/

variable {sched : Nat → List (Nat × Act)} {faults : Nat → Option (E × Nat)}
  {sched0 : Nat → List (Nat × Act)} {faults0 : Nat → Option (E × Nat)}

/-- C45: from a successful `connect` on, transmitted plus pending bytes are exactly the accepted ones. -/
theorem C45 (n : Nat) (hn : n < 8) (fuel : Nat) (remote : SockAddr) (d d' : Device Chip H)
    (hz : Sock.SizesOk (d.bus.socks n).mem)
    (hconn : Device.tcpConnect (Chip.dev sched faults).bus fuel ⟨Socket.new (BitVec.ofNat 8 n)⟩ remote d = (.ok (), d'))
    (acc del : List U8) (c : Chip) (hrun : TcpRun sched faults n d'.bus acc del c) :
    (c.socks n).stream ++ (c.socks n).pending = (d'.bus.socks n).stream ++ acc := by
  obtain ⟨_, _, ⟨S, A, hf⟩, _⟩ := tcpConnect_idle hn hz hconn
  have h1 := (tcpRun_idle hn hrun hf.1).tx.out
  rw [h1, hf.stream.1]

/-- C45, number of accepted bytes: on any bus, a successful `send` returns the minimum of the buffer length and the
free size the chip reported right after the status. -/
theorem C45_count (B : Bus W E) (fuel : Nat) (t : TcpSocket) (data : List U8) (w w' : W) (k : Nat)
    (h : TcpSocket.socketSend B fuel t data w = (.ok k, w')) :
    ∃ w1 w2 hi lo, B.readFrame w t.socket.register 0x03 [0] = (.ok (), [0x17], w1) ∧
      B.readFrame w1 t.socket.register 0x20 [0, 0] = (.ok (), [hi, lo], w2) ∧
      k = min data.length (hi.toNat * 256 + lo.toNat) := by
  unfold TcpSocket.socketSend TcpSocket.socketIsConnected Socket.getStatus Socket.getTxFreeSize at h
  simp only [M.bind_eq_ok, M.mapErr_eq_ok, M.pure_eq_ok, Bus.read1_eq_ok] at h
  obtain ⟨b, w1, ⟨x, _, hx, rfl, rfl⟩, h⟩ := h
  split at h
  · exact nomatch h
  rename_i hb
  have hb : x = 0x17 := Decidable.byContradiction fun hne => hb (by rw [decide_eq_false (show ¬ x = socketn.Status.established.toU8 from hne)]; rfl)
  subst hb
  simp only [M.bind_eq_ok, M.mapErr_eq_ok, Bus.read2_eq_ok] at h
  obtain ⟨v, w2, ⟨hi, lo, h2, rfl⟩, h⟩ := h
  refine ⟨_, w2, hi, lo, hx, h2, ?_⟩
  rw [← fromBeBytes_toNat]
  split at h
  · simp only [M.bind_eq_ok, M.pure_eq_ok] at h
    obtain ⟨_, _, ⟨rfl, rfl⟩, _, _, _, _, _, _, _, _, _, _, _, _, _, _, _, _, _, _, rfl, _⟩ := h
    omega
  · simp only [M.bind_eq_ok, M.pure_eq_ok, M.sliceTo_eq_ok] at h
    obtain ⟨_, _, ⟨_, rfl, rfl⟩, _, _, _, _, _, _, _, _, _, _, _, _, _, _, _, _, _, _, rfl, _⟩ := h
    rw [List.length_take]
    omega

theorem run_eq {α β : Type} {r : α × β} {a : α} (h : r.1 = a) : r = (a, r.2) := by
  cases r; cases h; rfl

theorem run_eq' {α β γ : Type} {r : α × β × γ} {a : α} {b : β} (h : r.1 = a) (h' : r.2.1 = b) :
    r = (a, (b, r.2.2)) := by
  obtain ⟨_, _, _⟩ := r; cases h; cases h'; rfl

/-- The history theorem is not vacuous: a connection on which three bytes were accepted, and two delivered. -/
example : ∃ c, TcpRun demoSched noFaults 0 demoConnected.bus [7, 8, 9] [1, 2] c := by
  have h1 := TcpRun.send (faults := noFaults) (d := demoConnected) (n := 0) 9 [7, 8, 9] 3 .start
    (run_eq (show (Device.tcpSend (Chip.dev demoSched noFaults).bus 9 demoSocket [7, 8, 9] demoConnected).1 = .ok 3 by
      decide +kernel))
  have h2 := TcpRun.receive 9 [0, 0] [1, 2] 2 h1
    (run_eq' (show (Device.tcpReceive (Chip.dev demoSched noFaults).bus 9 demoSocket ([0, 0], _)).1 = .ok 2 by
      decide +kernel) (by decide +kernel))
  exact ⟨_, h2⟩

/-! ## C46 TCP receive is a faithful byte stream

`arrived` is the ghost sequence of bytes that arrived on the socket, `queue` the ones not yet released by the host. -/

/-- C46: what was delivered since `connect`, followed by what is still queued, is what was queued after `connect`
followed by what arrived since. -/
theorem C46 (n : Nat) (hn : n < 8) (fuel : Nat) (remote : SockAddr) (d d' : Device Chip H)
    (hz : Sock.SizesOk (d.bus.socks n).mem)
    (hconn : Device.tcpConnect (Chip.dev sched faults).bus fuel ⟨Socket.new (BitVec.ofNat 8 n)⟩ remote d = (.ok (), d'))
    (acc del : List U8) (c : Chip) (hrun : TcpRun sched faults n d'.bus acc del c) :
    ∃ before, (d'.bus.socks n).arrived = before ++ (d'.bus.socks n).queue ∧
      (c.socks n).arrived = before ++ del ++ (c.socks n).queue := by
  obtain ⟨_, _, ⟨S, A, hf⟩, _⟩ := tcpConnect_idle hn hz hconn
  exact ⟨A, hf.1.rx.core.arrived, (tcpRun_idle hn hrun hf.1).rx.core.arrived⟩

/-- C46, the caller's buffer, on any bus: it keeps its length, and bytes beyond the returned count are unchanged. -/
theorem C46_buffer (B : Bus W E) (fuel : Nat) (t : TcpSocket) (buf buf' : List U8) (d d' : Device W H) (k : Nat)
    (hr : Device.tcpReceive B fuel t (buf, d) = (.ok k, (buf', d'))) :
    k ≤ buf.length ∧ buf'.length = buf.length ∧ buf'.drop k = buf.drop k := by
  have h : TcpSocket.socketReceive B fuel t (buf, d.bus) = (.ok k, (buf', d'.bus)) := by
    unfold Device.tcpReceive Device.onSockBus M.zoom at hr
    simp only [Prod.mk.injEq] at hr
    rw [← hr.2.1, ← hr.2.2]
    exact Prod.ext hr.1 rfl
  clear hr
  unfold TcpSocket.socketReceive at h
  simp only [M.bind_eq_ok, M.onSnd_eq_ok] at h
  obtain ⟨b, ⟨b1, w1⟩, ⟨_, rfl⟩, h⟩ := h
  split at h
  · exact nomatch h
  simp only [M.bind_eq_ok, M.onSnd_eq_ok] at h
  obtain ⟨b, ⟨b2, w2⟩, ⟨_, rfl⟩, h⟩ := h
  split at h
  · rw [M.pure_eq_ok] at h
    obtain ⟨rfl, h⟩ := h
    simp only [Prod.mk.injEq] at h
    obtain ⟨rfl, _⟩ := h
    simp
  simp only [M.bind_eq_ok, M.onSnd_eq_ok, M.get_eq_ok, M.withPrefix_eq_ok, M.mapErr_eq_ok, M.pure_eq_ok] at h
  obtain ⟨rs, ⟨b3, w3⟩, ⟨_, rfl⟩, _, _, ⟨rfl, rfl⟩, p, ⟨b4, w4⟩, ⟨_, rfl⟩, _, ⟨b5, w5⟩, ⟨hk, b, hr, rfl⟩, _, ⟨b6, w6⟩,
    ⟨_, rfl⟩, _, ⟨b7, w7⟩, ⟨_, rfl⟩, _, ⟨b8, w8⟩, ⟨_, rfl⟩, rfl, h⟩ := h
  have hl := Bus.readSlice_length hr
  simp only [Prod.mk.injEq] at h
  dsimp only at hk hl ⊢
  obtain ⟨rfl, _⟩ := h
  rw [List.length_take] at hl
  have hb : b.length = min rs.toNat buf.length := by split at hl <;> omega
  refine ⟨hk, by simp only [List.length_append, List.length_drop]; split <;> omega, ?_⟩
  rw [List.drop_left']
  split <;> omega

/-! ## C47 TCP receive delivers queued data -/

/-- C47, partial: holds if the RECV interrupt (bit 2 of Sn_IR) is pending. Missing: the driver clears the interrupt
after reading only a part, so queued bytes may have no pending interrupt; see `C47_refuted`. -/
theorem C47_partial (n : Nat) (hn : n < 8) (fuel fuel' : Nat) (remote : SockAddr) (d d1 d2 d3 : Device Chip H)
    (hz : Sock.SizesOk (d.bus.socks n).mem)
    (hconn : Device.tcpConnect (Chip.dev sched0 faults0).bus fuel ⟨Socket.new (BitVec.ofNat 8 n)⟩ remote d = (.ok (), d1))
    (acc del : List U8) (hrun : TcpRun sched faults n d1.bus acc del d2.bus)
    (hpend : (d2.bus.socks n).ir &&& 4 ≠ 0)
    (buf buf' : List U8) (k : Nat)
    (h : Device.tcpReceive (Chip.dev sched faults).bus fuel' ⟨Socket.new (BitVec.ofNat 8 n)⟩ (buf, d2) =
      (.ok k, (buf', d3))) :
    min buf.length (d2.bus.socks n).queue.length ≤ k ∧ buf'.take k <+: (d3.bus.socks n).arrived.drop
      ((d2.bus.socks n).arrived.length - (d2.bus.socks n).queue.length) := by
  obtain ⟨_, _, ⟨S, A, hf⟩, _⟩ := tcpConnect_idle hn hz hconn
  have h0 := tcpRun_idle hn hrun hf.1
  have h : TcpSocket.socketReceive (Chip.dev sched faults).bus fuel' ⟨sockOf n⟩ (buf, d2.bus) = (.ok k, (buf', d3.bus)) := by
    unfold Device.tcpReceive Device.onSockBus M.zoom at h
    simp only [Prod.mk.injEq] at h
    rw [← h.2.1, ← h.2.2]
    exact Prod.ext h.1 rfl
  obtain ⟨bs, h2, h3, h4, h5, h6⟩ := (tcp_receive hn (S ++ acc) (A ++ del) _ True _ fuel' buf).ok
    (s := (buf, d2.bus)) ⟨rfl, h0, Nat.le_refl _, fun _ => hpend, rfl⟩ h
  have h4 : buf' = _ := h4
  rw [Sock.queue_length]
  refine ⟨h6 trivial, ?_⟩
  have e1 := h0.rx.core.arrived
  have e2 := h5.rx.core.arrived
  rw [h4, ← h2, List.take_left, e2, e1, List.length_append, Sock.queue_length, Nat.add_sub_cancel, List.append_assoc,
    List.drop_left]
  exact List.prefix_append _ _

/-- On any bus: with the interrupt clear, `receive` returns 0 without asking for the received size. -/
theorem C47_ignored (B : Bus W E) (fuel : Nat) (t : TcpSocket) (buf : List U8) (d : Device W H) (w1 w2 : W) (x : U8)
    (h1 : B.readFrame d.bus t.socket.register 0x03 [0] = (.ok (), [0x17], w1))
    (h2 : B.readFrame w1 t.socket.register 0x02 [0] = (.ok (), [x], w2)) (hx : x &&& 4 = 0) :
    Device.tcpReceive B fuel t (buf, d) = (.ok 0, (buf, { d with bus := w2 })) := by
  have : TcpSocket.socketReceive B fuel t (buf, d.bus) = (.ok 0, (buf, w2)) := by
    unfold TcpSocket.socketReceive
    rw [connected_bind' B t _ h1]
    have h3 : (M.mapErr TcpSocketError.other (Socket.hasInterrupt B t.socket .receive)) w1 = (.ok false, w2) := by
      refine M.mapErr_ok ((M.bind_ok (read1_ok h2)).trans ?_)
      rw [show decide (x &&& socketn.Interrupt.receive.toU8 ≠ 0) = false from by
        rw [decide_eq_false]; simpa [socketn.Interrupt.toU8] using hx]
      rfl
    refine (M.bind_ok (s' := (buf, w2)) (a := false) ?_).trans rfl
    rw [M.onSnd_apply, h3]
  unfold Device.tcpReceive Device.onSockBus M.zoom
  dsimp only
  rw [this]

/-- C47 is false: three bytes arrive, the first `receive` takes two of them; the second returns 0 although the third is
still queued and the connection is established. -/
theorem C47_refuted :
    let B := (Chip.dev demoSched noFaults).bus
    let r1 := Device.tcpReceive B 9 demoSocket ([0, 0], demoConnected)
    let r2 := Device.tcpReceive B 9 demoSocket ([0, 0], r1.2.2)
    r1.1 = .ok 2 ∧ (r1.2.2.bus.socks 0).queue = [3] ∧ r2.1 = .ok 0 ∧ (r2.2.2.bus.socks 0).queue = [3] ∧
      (r1.2.2.bus.socks 0).sr = 0x17 ∧ (r2.2.2.bus.socks 0).sr = 0x17 := by
  decide +kernel

/-! ## C48 TCP data sent before the peer closed is readable -/

/-- C48 is false for every queue content: on a chip to which nothing happens and with no bus failure, `receive` in any
status but ESTABLISHED (in particular 0x1C, CLOSE_WAIT) is refused. -/
theorem C48_refuted (n : Nat) (hn : n < 8) (fuel : Nat) (buf : List U8) (d : Device Chip H)
    (hs : (d.bus.socks n).sr ≠ 0x17) :
    ∃ d', Device.tcpReceive (Chip.dev (E := E) (fun _ => []) (fun _ => none)).bus fuel ⟨Socket.new (BitVec.ofNat 8 n)⟩
      (buf, d) = (.err .notConnected, (buf, d')) ∧ (d'.bus.socks n).queue = (d.bus.socks n).queue := by
  refine ⟨{ d with bus := { d.bus with clock := d.bus.clock + 1, txn := d.bus.txn + 1 } },
    (C44_receive _ fuel _ buf d).2 (d.bus.socks n).sr _ ?_ hs, rfl⟩
  have : Chip.peek { d.bus with clock := d.bus.clock + 1, txn := d.bus.txn + 1 } ((sockOf n).register.setWidth 5) 0x03 =
      (d.bus.socks n).sr := by
    rw [Chip.peek_reg hn]; rfl
  rw [← this]
  rfl

/-- The concrete case: connected, three bytes arrive while something is being sent, then the peer closes. -/
example :
    let sched := fun k => demoSched k ++ if 20 ≤ k then [(0, .status 0x1C)] else []
    let B := (Chip.dev sched noFaults).bus
    let r := Device.tcpSend B 9 demoSocket [7] demoConnected
    let r' := Device.tcpReceive B 9 demoSocket ([0, 0, 0], r.2)
    r.1 = .ok 1 ∧ r'.1 = .err .notConnected ∧ (r.2.bus.socks 0).queue = [1, 2, 3] ∧
      (r'.2.2.bus.socks 0).queue = [1, 2, 3] := by
  decide +kernel

/-! ## C53 A failed TCP send has not queued the data -/

theorem TcpRun.trans {n : Nat} {c c1 c2 : Chip} {acc del acc' del' : List U8} (h : TcpRun sched faults n c acc del c1)
    (h' : TcpRun sched faults n c1 acc' del' c2) : TcpRun sched faults n c (acc ++ acc') (del ++ del') c2 := by
  induction h' with
  | start => simpa using h
  | send fuel data k _ hs ih => rw [← List.append_assoc]; exact .send fuel data k (ih h) hs
  | receive fuel buf buf' k _ hs ih => rw [← List.append_assoc]; exact .receive fuel buf buf' k (ih h) hs
  | failedSend fuel data r _ hs hr hw ih => exact .failedSend fuel data r (ih h) hs hr hw
  | failedReceive fuel buf buf' r _ hs hr hw ih => exact .failedReceive fuel buf buf' r (ih h) hs hr hw
  | read block addr data _ ih => exact .read block addr data (ih h)
  | write block addr data _ hf ih => exact .write block addr data (ih h) hf
  | pass _ hp ih => exact .pass (ih h) hp
  | past _ ih => exact .past (ih (.past h))

/-- C53, partial: holds for a failure that leaves the TX write pointer register as it was. Missing: failures between
writing the pointer and the end of the call; see `C53_refuted`. -/
theorem C53_partial (n : Nat) (hn : n < 8) (fuel fuel' : Nat) (remote : SockAddr) (d d1 d2 d3 : Device Chip H)
    (hz : Sock.SizesOk (d.bus.socks n).mem)
    (hconn : Device.tcpConnect (Chip.dev sched faults).bus fuel ⟨Socket.new (BitVec.ofNat 8 n)⟩ remote d = (.ok (), d1))
    (acc del : List U8) (hrun : TcpRun sched faults n d1.bus acc del d2.bus) (data : List U8) (e : TcpSocketError E)
    (hsend : Device.tcpSend (Chip.dev sched faults).bus fuel' ⟨Socket.new (BitVec.ofNat 8 n)⟩ data d2 = (.err e, d3))
    (hptr : (d3.bus.socks n).txWr = (d2.bus.socks n).txWr)
    (acc' del' : List U8) (c : Chip) (hrun' : TcpRun sched faults n d3.bus acc' del' c) :
    (c.socks n).stream ++ (c.socks n).pending = (d1.bus.socks n).stream ++ (acc ++ acc') :=
  C45 n hn fuel remote d d1 hz hconn _ _ c
    (TcpRun.trans (.failedSend fuel' data _ hrun hsend nofun hptr) hrun')

/-- C53 is false: transaction 17, the first one after the pointer was written (the SEND command itself), fails; the
caller retries, and the data is transmitted twice. The same for a failing poll of the interrupt register (18) and a
failing clear of it (19). -/
theorem C53_refuted : ∀ i ∈ [17, 18, 19],
    let B := (Chip.dev demoSched (faultAt i)).bus
    let r1 := Device.tcpSend B 9 demoSocket [7, 8, 9] demoConnected
    let r2 := Device.tcpSend B 9 demoSocket [7, 8, 9] r1.2
    r1.1 = .err (.other ()) ∧ r2.1 = .ok 3 ∧
      (r2.2.bus.socks 0).stream ++ (r2.2.bus.socks 0).pending = [7, 8, 9, 7, 8, 9] := by
  decide +kernel

/-- Failures of earlier transactions meet the hypotheses of `C53_partial`. -/
example : ∀ i ∈ [12, 13, 14, 15, 16],
    let r1 := Device.tcpSend (Chip.dev demoSched (faultAt i)).bus 9 demoSocket [7, 8, 9] demoConnected
    r1.1 = .err (.other ()) ∧ (r1.2.bus.socks 0).txWr = (demoConnected.bus.socks 0).txWr := by
  decide +kernel

/-! ## C54 A failed receive does not corrupt later receives -/

/-- C54, partial: holds for a failure that leaves the RX read pointer register as it was. Missing: failures between
writing the pointer and the end of the call; see `C54_refuted`. -/
theorem C54_partial (n : Nat) (hn : n < 8) (fuel fuel' : Nat) (remote : SockAddr) (d d1 d2 d3 : Device Chip H)
    (hz : Sock.SizesOk (d.bus.socks n).mem)
    (hconn : Device.tcpConnect (Chip.dev sched faults).bus fuel ⟨Socket.new (BitVec.ofNat 8 n)⟩ remote d = (.ok (), d1))
    (acc del : List U8) (hrun : TcpRun sched faults n d1.bus acc del d2.bus) (buf buf' : List U8) (e : TcpSocketError E)
    (hrecv : Device.tcpReceive (Chip.dev sched faults).bus fuel' ⟨Socket.new (BitVec.ofNat 8 n)⟩ (buf, d2) =
      (.err e, (buf', d3)))
    (hptr : (d3.bus.socks n).rxRdReg = (d2.bus.socks n).rxRdReg)
    (acc' del' : List U8) (c : Chip) (hrun' : TcpRun sched faults n d3.bus acc' del' c) :
    ∃ before, (d1.bus.socks n).arrived = before ++ (d1.bus.socks n).queue ∧
      (c.socks n).arrived = before ++ (del ++ del') ++ (c.socks n).queue :=
  C46 n hn fuel remote d d1 hz hconn _ _ c
    (TcpRun.trans (.failedReceive fuel' buf buf' _ hrun hrecv nofun hptr) hrun')

/-- C54 is false: if the RECV command fails (transaction 19), the next receive delivers a byte that never arrived; if
the clearing of the interrupt fails (transaction 20), the next receive skips two bytes. -/
theorem C54_refuted :
    (let B := (Chip.dev demoSched (faultAt 19)).bus
     let r1 := Device.tcpReceive B 9 demoSocket ([9, 9], demoConnected)
     let r2 := Device.tcpReceive B 9 demoSocket ([9, 9], r1.2.2)
     r1.1 = .err (.other ()) ∧ r2.1 = .ok 2 ∧ r2.2.1 = [3, 0] ∧ (r2.2.2.bus.socks 0).arrived = [1, 2, 3]) ∧
    (let B := (Chip.dev demoSched (faultAt 20)).bus
     let r1 := Device.tcpReceive B 9 demoSocket ([9, 9], demoConnected)
     let r2 := Device.tcpReceive B 9 demoSocket ([9, 9], r1.2.2)
     r1.1 = .err (.other ()) ∧ r2.1 = .ok 1 ∧ r2.2.1 = [3, 9] ∧ (r2.2.2.bus.socks 0).arrived = [1, 2, 3]) := by
  decide +kernel

/-- Failures of earlier transactions meet the hypotheses of `C54_partial`. -/
example : ∀ i ∈ [12, 13, 14, 15, 16, 17, 18],
    let r1 := Device.tcpReceive (Chip.dev demoSched (faultAt i)).bus 9 demoSocket ([9, 9], demoConnected)
    r1.1 = .err (.other ()) ∧ (r1.2.2.bus.socks 0).rxRdReg = (demoConnected.bus.socks 0).rxRdReg := by
  decide +kernel

end W5500.Props
