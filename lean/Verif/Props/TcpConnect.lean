import Verif.Proofs.Loops
import Verif.Props.Tcp
/-! # TCP connect and the waiting loops: C49 – C52 -/

namespace W5500.Props
open W5500 W5500.Spec
variable {W E H : Type}

theorem sock_reg {n : Nat} (hn : n < 8) : (Socket.new (BitVec.ofNat 8 n)).register = BitVec.ofNat 8 (4 * n + 1) := by
  have : ∀ n < 8, (Socket.new (BitVec.ofNat 8 n)).register = BitVec.ofNat 8 (4 * n + 1) := by decide +kernel
  exact this n hn

theorem sock_port {n : Nat} (hn : n < 8) :
    (49849 + BitVec.setWidth 16 (Socket.new (BitVec.ofNat 8 n)).index : U16).toNat = 49849 + n := by
  show (49849 + BitVec.setWidth 16 (BitVec.ofNat 8 n) : U16).toNat = _
  rw [BitVec.toNat_add, BitVec.toNat_setWidth, BitVec.toNat_ofNat, show BitVec.toNat (49849 : U16) = 49849 from rfl]
  omega

/-! ## C52 TCP connect programs the requested endpoint before connecting -/

/-- Status values of a TCP socket that is not freshly opened: CLOSED, LISTEN, SYNSENT, SYNRECV, ESTABLISHED, FIN_WAIT,
CLOSING, TIME_WAIT, CLOSE_WAIT, LAST_ACK. -/
def otherTcp : List U8 := [0x00, 0x14, 0x15, 0x16, 0x17, 0x18, 0x1A, 0x1B, 0x1C, 0x1D]

/-- No CONNECT command on register block `reg`. -/
def NoConnect (reg : U8) (l : List (Ev E)) : Prop := ∀ r, Ev.wr reg 0x01 [0x04] r ∉ l

/-- What may precede a CONNECT command. -/
def ConnectReady (reg : U8) (n : Nat) (ip : List U8) (port : Nat) (pre : List (Ev E)) : Prop :=
  ∃ mask x mid, pre = (openScript reg (49849 + n) 0x01 mask).map Wr.done ++ [.rd reg 0x03 [x] (.ok ())] ++ mid ++
      (remoteScript reg ip port).map Wr.done ∧
    (x = 0x13 ∧ mid = [] ∨ x ∈ otherTcp ∧ mid = (reopenScript reg mask).map Wr.done)

theorem noConnect_script {reg : U8} {l l1 l2 : List Wr} {x : Wr} {r : Res E Unit} (h : ∀ y ∈ l, y ≠ (reg, 0x01, [0x04]))
    (hl : l = l1 ++ x :: l2) : NoConnect reg (l1.map Wr.done ++ [Ev.wr x.1 x.2.1 x.2.2 r] : List (Ev E)) := by
  intro r' hm
  subst hl
  rcases List.mem_append.mp hm with hm | hm
  · obtain ⟨y, hy, he⟩ := List.mem_map.mp hm
    obtain ⟨b, a, d⟩ := y
    simp only [Wr.done, Ev.wr.injEq] at he
    exact h (b, a, d) (by simp [hy]) (by rw [he.1, he.2.1, he.2.2.1])
  · obtain ⟨b, a, d⟩ := x
    simp only [List.mem_singleton, Ev.wr.injEq] at hm
    exact h (b, a, d) (by simp) (by rw [← hm.1, ← hm.2.1, ← hm.2.2.1])

theorem noConnect_done {reg : U8} {l : List Wr} (h : ∀ y ∈ l, y ≠ (reg, 0x01, [0x04])) :
    NoConnect reg (l.map Wr.done : List (Ev E)) := by
  intro r hm
  obtain ⟨⟨b, a, d⟩, hy, he⟩ := List.mem_map.mp hm
  simp only [Wr.done, Ev.wr.injEq] at he
  exact h (b, a, d) hy (by rw [he.1, he.2.1, he.2.2.1])

theorem NoConnect.append {reg : U8} {l l' : List (Ev E)} (h : NoConnect reg l) (h' : NoConnect reg l') :
    NoConnect reg (l ++ l') := fun r hm => (List.mem_append.mp hm).elim (h r) (h' r)

theorem noConnect_rd (reg b : U8) (a : U16) (d : List U8) (r : Res E Unit) : NoConnect reg [Ev.rd b a d r] := by
  intro r' hm; simp at hm

theorem open_noConnect (reg : U8) (p : Nat) (m : U8) : ∀ y ∈ openScript reg p 0x01 m, y ≠ (reg, 0x01, [0x04]) := by
  simp [openScript]
theorem reopen_noConnect (reg m : U8) : ∀ y ∈ reopenScript reg m, y ≠ (reg, 0x01, [0x04]) := by
  simp [reopenScript]
theorem remote_noConnect (reg : U8) (ip : List U8) (p : Nat) :
    ∀ y ∈ remoteScript reg ip p, y ≠ (reg, 0x01, [0x04]) := by
  simp [remoteScript]

theorem hl_script {B : Bus W E} {reg : U8} {L : List (Ev E)} (hL : NoConnect reg L) {l : List Wr}
    (h : ∀ y ∈ l, y ≠ (reg, 0x01, [0x04])) :
    Hoare (fun t => t.log = L) (writeAll (traced B) l) (fun _ t => t.log = L ++ l.map Wr.done)
      (fun t => NoConnect reg t.log) :=
  hl_writeAll l fun l1 x l2 r hl _ => by
    rw [List.append_assoc]
    exact hL.append (noConnect_script h hl)

theorem hl_connectPrefix (B : Bus W E) (s : TcpSocket) (remote : SockAddr4) (L : List (Ev E))
    (hL : NoConnect s.socket.register L) :
    Hoare (fun t => t.log = L) (connectPrefix (traced B) s remote)
      (fun _ t => ∃ pre, NoConnect s.socket.register pre ∧
        (∃ x mid, pre = L ++ [.rd s.socket.register 0x03 [x] (.ok ())] ++ mid ++
          (remoteScript s.socket.register remote.ip.octets remote.port.toNat).map Wr.done ∧
          (x = 0x13 ∧ mid = [] ∨ x ∈ otherTcp ∧ mid = (reopenScript s.socket.register 0).map Wr.done)) ∧
        ∃ r, t.log = pre ++ [.wr s.socket.register 0x01 [0x04] r])
      (fun t => NoConnect s.socket.register t.log ∨ ∃ pre, NoConnect s.socket.register pre ∧
        (∃ x mid, pre = L ++ [.rd s.socket.register 0x03 [x] (.ok ())] ++ mid ++
          (remoteScript s.socket.register remote.ip.octets remote.port.toNat).map Wr.done ∧
          (x = 0x13 ∧ mid = [] ∨ x ∈ otherTcp ∧ mid = (reopenScript s.socket.register 0).map Wr.done)) ∧
        ∃ r, t.log = pre ++ [.wr s.socket.register 0x01 [0x04] r]) := by
  unfold connectPrefix
  refine .bind ((hl_read1 (R := NoConnect s.socket.register) _ _ fun d r _ => hL.append (noConnect_rd _ _ _ _ _)).exc
    fun _ => .inl).mapErr fun x => ?_
  have hL1 : NoConnect s.socket.register (L ++ [.rd s.socket.register socketn.STATUS [x] (.ok ())]) :=
    hL.append (noConnect_rd _ _ _ _ _)
  refine .bind (Q := fun _ t => ∃ mid, t.log = L ++ [.rd s.socket.register socketn.STATUS [x] (.ok ())] ++ mid ∧
    NoConnect s.socket.register t.log ∧
    (x = 0x13 ∧ mid = [] ∨ x ∈ otherTcp ∧ mid = (reopenScript s.socket.register 0).map Wr.done)) ?_ fun _ => ?_
  · have hreopen : x ∈ otherTcp → Hoare (fun t => t.log = L ++ [.rd s.socket.register socketn.STATUS [x] (.ok ())])
        (M.mapErr TcpSocketError.other (writeAll (traced B) (reopenScript s.socket.register 0)))
        (fun _ t => ∃ mid, t.log = L ++ [.rd s.socket.register socketn.STATUS [x] (.ok ())] ++ mid ∧
          NoConnect s.socket.register t.log ∧
          (x = 0x13 ∧ mid = [] ∨ x ∈ otherTcp ∧ mid = (reopenScript s.socket.register 0).map Wr.done))
        (fun t => NoConnect s.socket.register t.log ∨ ∃ pre, NoConnect s.socket.register pre ∧
        (∃ x mid, pre = L ++ [.rd s.socket.register 0x03 [x] (.ok ())] ++ mid ++
          (remoteScript s.socket.register remote.ip.octets remote.port.toNat).map Wr.done ∧
          (x = 0x13 ∧ mid = [] ∨ x ∈ otherTcp ∧ mid = (reopenScript s.socket.register 0).map Wr.done)) ∧
        ∃ r, t.log = pre ++ [.wr s.socket.register 0x01 [0x04] r]) := fun hx =>
      ((hl_script hL1 (reopen_noConnect _ _)).mapErr).conseq (fun _ h => h)
        (fun _ t h => ⟨_, h, by rw [h]; exact hL1.append (noConnect_done (reopen_noConnect _ _)), .inr ⟨hx, rfl⟩⟩)
        fun _ => .inl
    by_cases h1 : x = 0x13
    · rw [h1]
      exact .pure fun t ht => ⟨[], by rw [ht]; simp, by rw [ht, ← h1]; exact hL1, .inl ⟨rfl, rfl⟩⟩
    by_cases h2 : x ∈ otherTcp
    · have h3 : ∃ o, socketn.Status.tryFrom x = some o ∧ o ≠ .init ∧ o ≠ .macRaw ∧ o ≠ .udp := by
        clear hL1 hreopen h1
        revert x
        decide +kernel
      obtain ⟨o, h3, h4, h5, h6⟩ := h3
      rw [h3]
      cases o <;> first | exact absurd rfl h4 | exact absurd rfl h5 | exact absurd rfl h6 | exact hreopen h2
    · have h3 : socketn.Status.tryFrom x = none ∨ socketn.Status.tryFrom x = some .macRaw ∨
          socketn.Status.tryFrom x = some .udp := by
        clear hL1 hreopen
        revert x
        decide +kernel
      rcases h3 with h3 | h3 | h3 <;> rw [h3] <;> exact .throw fun t ht => .inl (by rw [ht]; exact hL1)
  · refine .of_state fun t0 ⟨mid, e1, h2, h3⟩ => ?_
    refine .bind (Q := fun _ t => t.log = t0.log ++
      (remoteScript s.socket.register remote.ip.octets remote.port.toNat).map Wr.done) ?_ fun _ => ?_
    · exact (hl_script h2 (remote_noConnect _ _ _)).mapErr.conseq (fun _ h => by rw [h]) (fun _ _ h => h) fun _ => .inl
    · have h4 : NoConnect s.socket.register (t0.log ++
        (remoteScript s.socket.register remote.ip.octets remote.port.toNat).map Wr.done) :=
        h2.append (noConnect_done (remote_noConnect _ _ _))
      refine (Hoare.mapErr (hl_write (R := fun l => ∃ r, l = (t0.log ++
        (remoteScript s.socket.register remote.ip.octets remote.port.toNat).map Wr.done) ++
        [.wr s.socket.register 0x01 [0x04] r]) _ _ _ fun r _ => ⟨r, rfl⟩)).conseq (fun _ h => h)
        (fun _ t h => ⟨_, h4, ⟨x, mid, by rw [e1]; rfl, h3⟩, _, h⟩)
        (fun t h => .inr ⟨_, h4, ⟨x, mid, by rw [e1]; rfl, h3⟩, h⟩)

theorem emits_writeAll {B : Bus W E} {Λ : Lang E} (l : List Wr) (h : ∀ x ∈ l, ∀ r, Λ.mem [.wr x.1 x.2.1 x.2.2 r]) :
    Emits Λ (writeAll (traced B) l) := by
  induction l with
  | nil => exact .pure _
  | cons x l ih =>
    exact .bind (.write (h x (by simp))) fun _ => ih fun y hy => h y (by simp [hy])

theorem emits_connectLoop (B : Bus W E) (s : TcpSocket) (fuel : Nat) :
    Emits (Lang.all fun e => ∀ r, e ≠ .wr s.socket.register 0x01 [0x04] r) (s.connectLoop (traced B) fuel) := by
  induction fuel with
  | zero => exact .outOfFuel
  | succ fuel ih =>
    have h : Emits (Lang.all fun e : Ev E => ∀ r, e ≠ .wr s.socket.register 0x01 [0x04] r)
        (do s.socketClose (traced B); s.reopen (traced B)) := by
      rw [tcp_reopen_script]
      refine .mapErr _ (emits_writeAll _ fun x hx r e he r' => ?_)
      rw [List.mem_singleton.mp he]
      intro h
      simp only [Ev.wr.injEq] at h
      exact reopen_noConnect _ _ x hx (by obtain ⟨b, a, d⟩ := x; simp only at h; rw [h.1, h.2.1, h.2.2.1])
    unfold TcpSocket.connectLoop
    refine .bind (.mapErr _ (.read1 fun d r _ e he r' => by rw [List.mem_singleton.mp he]; nofun)) fun st => ?_
    split
    · exact .pure _
    · exact h
    · exact ih

/-- C52: in the traffic of `connect`, whatever the bus does and however the call ends, every CONNECT command (0x04 to
Sn_CR) comes directly after: the opening script with local port 49849 + n in TCP mode, a status that is INIT (0x13) or
another TCP state (then the socket was closed and reopened in TCP mode), and the writing of the requested remote
address and port; and all of these succeeded. -/
theorem C52 (B : Bus W E) (n : Nat) (hn : n < 8) (fuel : Nat) (remote : SockAddr4) (d : Device (TW W E) H)
    (hlog : d.bus.log = []) (pre post : List (Ev E)) (r : Res E Unit)
    (h : (Device.tcpConnect (traced B) fuel ⟨Socket.new (BitVec.ofNat 8 n)⟩ (.v4 remote) d).2.bus.log =
      pre ++ .wr (BitVec.ofNat 8 (4 * n + 1)) 0x01 [0x04] r :: post) :
    ConnectReady (BitVec.ofNat 8 (4 * n + 1)) n [remote.ip.a, remote.ip.b, remote.ip.c, remote.ip.d] remote.port.toNat pre := by
  show ConnectReady (BitVec.ofNat 8 (4 * n + 1)) n remote.ip.octets remote.port.toNat pre
  have key : Hoare (fun t : TW W E => t.log = [])
      (do TcpSocket.open (traced B) ⟨Socket.new (BitVec.ofNat 8 n)⟩
            (49849 + BitVec.setWidth 16 (Socket.new (BitVec.ofNat 8 n)).index)
          TcpSocket.socketConnect (traced B) fuel ⟨Socket.new (BitVec.ofNat 8 n)⟩ remote)
      (fun _ t => NoConnect (BitVec.ofNat 8 (4 * n + 1)) t.log ∨ ∃ p r q, t.log =
        p ++ .wr (BitVec.ofNat 8 (4 * n + 1)) 0x01 [0x04] r :: q ∧ NoConnect (BitVec.ofNat 8 (4 * n + 1)) p ∧
        NoConnect (BitVec.ofNat 8 (4 * n + 1)) q ∧
        ConnectReady (BitVec.ofNat 8 (4 * n + 1)) n remote.ip.octets remote.port.toNat p)
      (fun t => NoConnect (BitVec.ofNat 8 (4 * n + 1)) t.log ∨ ∃ p r q, t.log =
        p ++ .wr (BitVec.ofNat 8 (4 * n + 1)) 0x01 [0x04] r :: q ∧ NoConnect (BitVec.ofNat 8 (4 * n + 1)) p ∧
        NoConnect (BitVec.ofNat 8 (4 * n + 1)) q ∧
        ConnectReady (BitVec.ofNat 8 (4 * n + 1)) n remote.ip.octets remote.port.toNat p) := by
    rw [socketConnect_eq, tcp_open_script, sock_port hn]
    have hr := sock_reg hn
    rw [← hr]
    generalize hreg : (Socket.new (BitVec.ofNat 8 n)).register = reg
    have n0 : NoConnect reg ([] : List (Ev E)) := fun r h => nomatch h
    refine .bind ((hl_script n0 (open_noConnect reg (49849 + n) 0)).mapErr.exc fun _ => .inl) fun _ => ?_
    refine .bind ((hl_connectPrefix B ⟨Socket.new (BitVec.ofNat 8 n)⟩ remote _
      (by dsimp only; rw [hreg]; exact n0.append (noConnect_done (open_noConnect reg (49849 + n) 0)))).exc ?_) fun _ => ?_
    · dsimp only
      rw [hreg]
      rintro t (h | ⟨pre, h1, ⟨x, mid, h2, h3⟩, r, h4⟩)
      · exact .inl h
      · exact .inr ⟨pre, r, [], h4, h1, n0, 0, x, mid, h2, h3⟩
    · dsimp only
      rw [hreg]
      refine .of_state fun t0 ⟨pre, h1, ⟨x, mid, h2, h3⟩, r, h4⟩ => ?_
      have := hl_emits (L := t0.log) (emits_connectLoop B ⟨Socket.new (BitVec.ofNat 8 n)⟩ fuel)
      refine this.conseq (fun _ h => by rw [h]) ?_ ?_
      · rintro _ t ⟨evs, e1, e2⟩
        refine .inr ⟨pre, r, evs, by rw [e1, h4]; simp, h1, ?_, 0, x, mid, h2, h3⟩
        intro r' hm
        have := e2 _ hm r'
        dsimp only at this
        rw [hreg] at this
        exact this rfl
      · rintro t ⟨evs, e1, e2⟩
        refine .inr ⟨pre, r, evs, by rw [e1, h4]; simp, h1, ?_, 0, x, mid, h2, h3⟩
        intro r' hm
        have := e2 _ hm r'
        dsimp only at this
        rw [hreg] at this
        exact this rfl
  have hrun' := key.both hlog
  rcases hrun' with hn | ⟨p, r', q, e, hp, hq, hready⟩
  · have h : (_ : List (Ev E)) = _ := h
    exact absurd (show _ ∈ _ from h.symm ▸ List.mem_append_right pre (List.mem_cons_self ..)) (hn r)
  · have e := h.symm.trans e
    rcases List.append_eq_append_iff.mp e with ⟨c, h1, h2⟩ | ⟨c, h1, h2⟩
    · match c with
      | [] => rw [List.append_nil] at h1; rw [← h1]; exact hready
      | y :: c =>
        exfalso
        simp only [List.cons_append, List.cons.injEq] at h2
        exact hp r (by rw [h1, h2.1]; simp)
    · match c with
      | [] => rw [List.append_nil] at h1; rw [h1]; exact hready
      | y :: c =>
        exfalso
        simp only [List.cons_append, List.cons.injEq] at h2
        exact hq r (by rw [h2.2]; simp)

/-- C52 is not vacuous: on the chip of `Props/Tcp.lean` (recorded) there is exactly one CONNECT command, and it has the
claimed predecessors. -/
example :
    (Device.tcpConnect (traced (Chip.dev demoSched noFaults).bus) 9 demoSocket demoRemote
      ⟨⟨Chip.powerUp, []⟩, DeviceState.new ()⟩).2.bus.log =
    ((openScript 1 49849 0x01 0).map Wr.done ++ [Ev.rd 1 0x03 [0x13] (.ok ())] ++
      (remoteScript 1 [10, 0, 0, 1] 80).map Wr.done) ++
    Ev.wr 1 0x01 [0x04] (.ok ()) :: [Ev.rd 1 0x03 [0x15] (.ok ()), Ev.rd 1 0x03 [0x17] (.ok ())] := by
  decide +kernel

/-- The second sentence of C52: if the status after opening is of no TCP state, `connect` is refused and nothing is
written. -/
theorem C52_refused (B : Bus W E) (s : TcpSocket) (fuel : Nat) (remote : SockAddr4) (w w1 : W) (x : U8)
    (h : B.readFrame w s.socket.register 0x03 [0] = (.ok (), [x], w1)) (hx : x ≠ 0x13) (hx' : x ∉ otherTcp) :
    TcpSocket.socketConnect B fuel s remote w = (.err .unsupportedMode, w1) := by
  unfold TcpSocket.socketConnect
  refine (M.bind_ok (M.mapErr_ok (read1_ok h))).trans ?_
  have h3 : socketn.Status.tryFrom x = none ∨ socketn.Status.tryFrom x = some .macRaw ∨
      socketn.Status.tryFrom x = some .udp := by
    clear h
    revert x
    decide +kernel
  rcases h3 with h3 | h3 | h3 <;> rw [h3] <;> rfl

/-- Its hypotheses are met by every status of a UDP socket, a raw socket, and reserved values. -/
example : (0x22 : U8) ∉ otherTcp ∧ (0x42 : U8) ∉ otherTcp ∧ (0x55 : U8) ∉ otherTcp := by decide

/-! ## C49 TCP connect success means connected -/

theorem connectLoop_ok (B : Bus W E) (s : TcpSocket) (fuel : Nat) {w w' : W}
    (h : s.connectLoop B fuel w = (.ok (), w')) :
    ∃ ys y w2 w3, Polls B s.socket.register 0x03 w ys w2 ∧
      B.readFrame w2 s.socket.register 0x03 [0] = (.ok (), [y], w3) ∧ (∀ y ∈ ys, y ≠ 0x17 ∧ y ≠ 0x00) ∧
      (y = 0x17 ∧ w' = w3 ∨ y = 0x00 ∧ writeAll B (reopenScript s.socket.register 0) w3 = (.ok (), w')) := by
  induction fuel generalizing w with
  | zero => exact nomatch h
  | succ fuel ih =>
    rcases readFrame1_cases B w s.socket.register 0x03 with ⟨y, w1, h1⟩ | ⟨e, d, w1, h1⟩ | ⟨d, w1, h1⟩ | ⟨d, w1, h1⟩
    · rw [connectLoop_step s _ h1] at h
      split at h
      · rename_i hy
        obtain ⟨_, rfl⟩ := Prod.mk.inj h
        exact ⟨[], y, w, w1, .nil _, h1, by simp, .inl ⟨hy, rfl⟩⟩
      split at h
      · rename_i hy
        rw [M.mapErr_eq_ok] at h
        exact ⟨[], y, w, w1, .nil _, h1, by simp, .inr ⟨hy, h⟩⟩
      · rename_i n1 n2
        obtain ⟨ys, y', w2, w3, hp, hr, hy, hc⟩ := ih h
        refine ⟨y :: ys, y', w2, w3, .cons h1 hp, hr, ?_, hc⟩
        intro z hz
        rcases List.mem_cons.mp hz with rfl | hz
        · exact ⟨n1, n2⟩
        · exact hy z hz
    · rw [show s.connectLoop B (fuel + 1) w = _ from M.bind_err (M.mapErr_err (read1_err h1))] at h
      exact nomatch h
    · rw [show s.connectLoop B (fuel + 1) w = (.panic, w1) from M.bind_panic (by
          rw [M.mapErr_def, show s.socket.getStatus B w = _ from read1_panic h1])] at h
      exact nomatch h
    · rw [show s.connectLoop B (fuel + 1) w = (.fuel, w1) from M.bind_fuel (by
          rw [M.mapErr_def, show s.socket.getStatus B w = _ from read1_fuel h1])] at h
      exact nomatch h

/-- C49, partial: if `connect` succeeds then the last status it read is ESTABLISHED (0x17) and nothing happened on the
bus afterwards, or it is CLOSED (0x00) and it then reopened the socket. Missing: in the second case the claim is false,
see `C49_refuted`; it holds if the status never becomes CLOSED while `connect` waits. -/
theorem C49_partial (B : Bus W E) (s : TcpSocket) (fuel : Nat) (remote : SockAddr) (d d' : Device W H)
    (h : Device.tcpConnect B fuel s remote d = (.ok (), d')) :
    ∃ w1 ys y w2 w3, Polls B s.socket.register 0x03 w1 ys w2 ∧
      B.readFrame w2 s.socket.register 0x03 [0] = (.ok (), [y], w3) ∧
      (y = 0x17 ∧ d'.bus = w3 ∨
        y = 0x00 ∧ writeAll B (reopenScript s.socket.register 0) w3 = (.ok (), d'.bus)) := by
  unfold Device.tcpConnect at h
  split at h
  · exact nomatch h
  · rename_i remote
    have h : (do s.open B (49849 + s.socket.index.setWidth 16); s.socketConnect B fuel remote) d.bus =
        (.ok (), d'.bus) := by
      unfold Device.onBus M.zoom at h
      simp only [Prod.mk.injEq] at h
      rw [← h.2]
      exact Prod.ext h.1 rfl
    rw [socketConnect_eq] at h
    simp only [M.bind_eq_ok] at h
    obtain ⟨_, _, _, _, w1, _, h⟩ := h
    obtain ⟨ys, y, w2, w3, h1, h2, _, h3⟩ := connectLoop_ok B s fuel h
    exact ⟨w1, ys, y, w2, w3, h1, h2, h3⟩

/-- The peer refuses the connection: the chip closes the socket. -/
def refuseSched (k : Nat) : List (Nat × Act) := if k = 16 then [(0, .status 0x00)] else []

/-- C49 is false: the peer refuses, the chip never reports ESTABLISHED, and `connect` returns Ok. -/
theorem C49_refuted :
    let r := Device.tcpConnect (traced (Chip.dev refuseSched noFaults).bus) 9 demoSocket demoRemote
      ⟨⟨Chip.powerUp, []⟩, DeviceState.new ()⟩
    r.1 = .ok () ∧ (∀ x, Ev.rd 1 0x03 [x] (.ok ()) ∈ r.2.bus.log → x ≠ 0x17) ∧
      (r.2.bus.w.socks 0).sr = 0x13 := by
  decide +kernel

/-! ## C50 TCP connect terminates -/

/-- C50, partial: on a bus all of whose transfers return, `connect` still waits after `fuel` rounds only if the status
was read `fuel` times in a row, to the very end, and was never ESTABLISHED nor CLOSED. So it returns as soon as one of
these two is reported. Missing: other states in which the attempt is over, see `C50_refuted`. -/
theorem C50_partial (B : Bus W E) (hB : Returning B) (s : TcpSocket) (fuel : Nat) (remote : SockAddr) (d : Device W H)
    (h : (Device.tcpConnect B fuel s remote d).1 = .fuel) :
    ∃ w1 ys, Polls B s.socket.register 0x03 w1 ys (Device.tcpConnect B fuel s remote d).2.bus ∧ ys.length = fuel ∧
      ∀ y ∈ ys, y ≠ 0x17 ∧ y ≠ 0x00 := by
  unfold Device.tcpConnect at h ⊢
  split at h
  · exact nomatch h
  · rename_i remote
    have h : ((do s.open B (49849 + s.socket.index.setWidth 16); s.socketConnect B fuel remote) d.bus).1 = .fuel := h
    show ∃ w1 ys, Polls B _ _ w1 ys
      (((do s.open B (49849 + s.socket.index.setWidth 16); s.socketConnect B fuel remote) d.bus).2) ∧ _
    rw [socketConnect_eq] at h ⊢
    rcases bind_eq_fuel h with h1 | ⟨_, w1, _, h, e⟩
    · rw [tcp_open_script] at h1
      exact absurd h1 ((NoFuel.mapErr _ (.writeAll hB _)).run _)
    rw [e]
    rcases bind_eq_fuel h with h1 | ⟨_, w1, _, h, e⟩
    · exact absurd h1 ((connectPrefix_noFuel hB _ _).run _)
    rw [e]
    obtain ⟨ys, h1, h2⟩ := (connectLoop_fuel hB s fuel).mp h
    exact ⟨w1, ys, h1, h2⟩

theorem returning_bus {C : Type} (D : ByteDev C E) : Returning D.bus := by
  constructor
  · intro w b a d
    unfold ByteDev.bus
    dsimp only
    split <;> nofun
  · intro w b a d
    unfold ByteDev.bus
    dsimp only
    split <;> nofun

/-- After the CONNECT command the status is `x` for ever. -/
def stuckSched (x : U8) (k : Nat) : List (Nat × Act) := if k < 15 then [] else [(0, .status x)]

theorem polls_forever {B : Bus W E} {b : U8} {a : U16} {P : W → Prop} {q : U8 → Prop}
    (h : ∀ w, P w → ∃ y w', B.readFrame w b a [0] = (.ok (), [y], w') ∧ q y ∧ P w') (n : Nat) (w : W) (hw : P w) :
    ∃ ys w', Polls B b a w ys w' ∧ ys.length = n ∧ ∀ y ∈ ys, q y := by
  induction n generalizing w with
  | zero => exact ⟨[], w, .nil _, rfl, by simp⟩
  | succ n ih =>
    obtain ⟨y, w1, h1, hy, h2⟩ := h w hw
    obtain ⟨ys, w2, h3, h4, h5⟩ := ih w1 h2
    refine ⟨y :: ys, w2, .cons h1 h3, by simp [h4], ?_⟩
    intro z hz
    rcases List.mem_cons.mp hz with rfl | hz
    · exact hy
    · exact h5 z hz

/-- C50 is false: if the status becomes anything but ESTABLISHED or CLOSED, for instance CLOSE_WAIT (0x1C: connected,
and the peer closed at once), and stays there, `connect` never returns. -/
theorem C50_refuted (x : U8) (hx : x ≠ 0x17) (hx' : x ≠ 0x00) (fuel : Nat) :
    (Device.tcpConnect (Chip.dev (stuckSched x) noFaults).bus fuel demoSocket demoRemote demoDevice).1 = .fuel := by
  show ((do demoSocket.open (Chip.dev (stuckSched x) noFaults).bus (49849 + demoSocket.socket.index.setWidth 16)
            demoSocket.socketConnect (Chip.dev (stuckSched x) noFaults).bus fuel ⟨⟨10, 0, 0, 1⟩, 80⟩)
    demoDevice.bus).1 = .fuel
  have key : ∀ x : U8, let r := (do
        demoSocket.open (Chip.dev (stuckSched x) noFaults).bus (49849 + demoSocket.socket.index.setWidth 16)
        connectPrefix (Chip.dev (stuckSched x) noFaults).bus demoSocket ⟨⟨10, 0, 0, 1⟩, 80⟩) demoDevice.bus
      r.1 = .ok () ∧ 15 ≤ r.2.clock := by decide +kernel
  have := key x
  rw [socketConnect_eq, ← bind_assoc]
  refine (congrArg Prod.fst (M.bind_ok (run_eq this.1))).trans ?_
  have hstep : ∀ c : Chip, 15 ≤ c.clock → ∃ y w', (Chip.dev (stuckSched x) noFaults).bus.readFrame c 1 0x03 [0] =
      (.ok (), [y], w') ∧ (y ≠ 0x17 ∧ y ≠ 0x00) ∧ 15 ≤ w'.clock := by
    intro c hc
    refine ⟨x, Chip.tick (stuckSched x) { c with txn := c.txn + 1 }, ?_, ⟨hx, hx'⟩, Nat.le_succ_of_le hc⟩
    have : Chip.peek (Chip.tick (stuckSched x) { c with txn := c.txn + 1 }) ((sockOf 0).register.setWidth 5) 0x03 = x := by
      rw [Chip.peek_reg (by decide)]
      unfold Chip.tick stuckSched
      dsimp only
      rw [if_neg (by omega)]
      rfl
    exact (congrArg (fun y => ((Res.ok () : Res Unit Unit), [y], _)) this :)
  obtain ⟨ys, w', h1, rfl, h3⟩ := polls_forever hstep fuel _ this.2
  exact (congrArg Prod.fst (connectLoop_polls demoSocket 0 h1 h3)).trans rfl

/-! ## C51 TCP send terminates -/

/-- C51, partial: on a bus all of whose transfers return, `send` still waits after `fuel` rounds only if the interrupt
register was read `fuel` times in a row, to the very end, without the SENDOK bit (0x10). So it returns as soon as
SENDOK is reported. Missing: the chip gave up (TIMEOUT), see `C51_refuted`. -/
theorem C51_partial (B : Bus W E) (hB : Returning B) (s : TcpSocket) (fuel : Nat) (data : List U8) (d : Device W H)
    (h : (Device.tcpSend B fuel s data d).1 = .fuel) :
    ∃ w1 ys, Polls B s.socket.register 0x02 w1 ys (Device.tcpSend B fuel s data d).2.bus ∧ ys.length = fuel ∧
      ∀ y ∈ ys, y &&& 0x10 = 0 := by
  have h : (s.socketSend B fuel data d.bus).1 = .fuel := h
  show ∃ w1 ys, Polls B _ _ w1 ys (s.socketSend B fuel data d.bus).2 ∧ _
  rw [socketSend_eq] at h ⊢
  rcases bind_eq_fuel h with h1 | ⟨k, w1, _, h, e⟩
  · exact absurd h1 ((sendPrefix_noFuel hB _ _).run _)
  rw [e]
  clear e
  by_cases h1 : (RawDevice.waitSendOk B s.socket fuel w1).1 = .fuel
  · have h2 : M.mapErr TcpSocketError.other (RawDevice.waitSendOk B s.socket fuel) w1 =
        (.fuel, (RawDevice.waitSendOk B s.socket fuel w1).2) := by
      rw [M.mapErr_def, run_eq h1]
    rw [M.bind_fuel h2]
    obtain ⟨ys, h3, h4⟩ := (waitSendOk_fuel hB s.socket fuel).mp h1
    exact ⟨w1, ys, h3, h4⟩
  · exfalso
    rcases bind_eq_fuel h with h2 | ⟨_, w2, _, h, e⟩
    · rw [M.mapErr_def] at h2
      generalize RawDevice.waitSendOk B s.socket fuel w1 = r at *
      obtain ⟨_ | _ | _ | _, t⟩ := r <;> first | exact h1 rfl | exact nomatch h2
    · refine NoFuel.run (.bind (.mapErr _ (.write hB _ _ _)) fun _ => .pure _) _ h

/-- The connection is established; while the caller sends, retransmission times out: the chip raises TIMEOUT and closes
the socket. -/
def timeoutSched (k : Nat) : List (Nat × Act) :=
  if k < 15 then [] else if k < 20 then [(0, .status 0x17)] else [(0, .status 0x00), (0, .raise 0x08)]

/-- Connected on that chip. -/
def timeoutDevice : Device Chip Unit :=
  (Device.tcpConnect (Chip.dev timeoutSched noFaults).bus 100 demoSocket demoRemote demoDevice).2

/-- C51 is false: the chip has given up, with TIMEOUT pending and the socket closed, and `send` waits for ever. -/
theorem C51_refuted (fuel : Nat) :
    (Device.tcpSend (Chip.dev timeoutSched noFaults).bus fuel demoSocket [1, 2, 3] timeoutDevice).1 = .fuel := by
  show (demoSocket.socketSend (Chip.dev timeoutSched noFaults).bus fuel [1, 2, 3] timeoutDevice.bus).1 = .fuel
  rw [socketSend_eq]
  have key : let r := sendPrefix (Chip.dev timeoutSched noFaults).bus demoSocket [1, 2, 3] timeoutDevice.bus
      r.1 = .ok 3 ∧ 20 ≤ r.2.clock ∧ (r.2.socks 0).ir &&& 0x10 = 0 ∧ (r.2.socks 0).proto = 1 := by decide +kernel
  refine (congrArg Prod.fst (M.bind_ok (run_eq key.1))).trans ?_
  have hstep : ∀ c : Chip, 20 ≤ c.clock ∧ (c.socks 0).ir &&& 0x10 = 0 ∧ (c.socks 0).proto = 1 →
      ∃ y w', (Chip.dev timeoutSched noFaults).bus.readFrame c 1 0x02 [0] = (.ok (), [y], w') ∧ y &&& 0x10 = 0 ∧
        20 ≤ w'.clock ∧ (w'.socks 0).ir &&& 0x10 = 0 ∧ (w'.socks 0).proto = 1 := by
    intro c hc
    have h2 : (Chip.tick timeoutSched { c with txn := c.txn + 1 }).socks 0 =
        { c.socks 0 with
          sr := 0x00
          ir := (c.socks 0).ir ||| (if (c.socks 0).proto = 1 then 0x08 else 0x08 &&& ((c.socks 0).owed ||| 0xE7))
          owed := (c.socks 0).owed &&& ~~~0x08 } := by
      unfold Chip.tick timeoutSched
      dsimp only
      rw [if_neg (by omega), if_neg (by omega)]
      rfl
    rw [if_pos hc.2.2] at h2
    have h4 : ((c.socks 0).ir ||| 0x08) &&& 0x10 = 0 := by
      have := hc.2.1
      generalize (c.socks 0).ir = x at this
      revert x
      decide +kernel
    refine ⟨(c.socks 0).ir ||| 0x08, Chip.tick timeoutSched { c with txn := c.txn + 1 }, ?_, h4, ?_, ?_⟩
    · have : Chip.peek (Chip.tick timeoutSched { c with txn := c.txn + 1 }) ((sockOf 0).register.setWidth 5) 0x02 =
          (c.socks 0).ir ||| 0x08 := by
        rw [Chip.peek_reg (by decide), h2]
        rfl
      exact (congrArg (fun y => ((Res.ok () : Res Unit Unit), [y], _)) this :)
    · exact Nat.le_succ_of_le hc.1
    · rw [h2]; exact ⟨h4, hc.2.2⟩
  obtain ⟨ys, w', h1, rfl, h3⟩ := polls_forever hstep fuel _ key.2
  have h4 : RawDevice.waitSendOk _ demoSocket.socket ys.length _ = (.fuel, w') := waitSendOk_polls demoSocket.socket 0 h1 h3
  refine congrArg Prod.fst (M.bind_fuel (s' := w') ?_)
  rw [M.mapErr_def, h4]

/-- In the state `send` waits in, TIMEOUT is pending and the socket is closed. -/
example :
    let r := Device.tcpSend (Chip.dev timeoutSched noFaults).bus 50 demoSocket [1, 2, 3] timeoutDevice
    r.1 = .fuel ∧ (r.2.bus.socks 0).ir = 0x08 ∧ (r.2.bus.socks 0).sr = 0x00 := by
  decide +kernel

end W5500.Props
