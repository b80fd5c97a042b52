import Verif.Spec.Dead
import Verif.Proofs.PickyCalls
import Verif.Props.Lost
import Verif.Props.Reset
import Verif.Props.UdpOpen
import Verif.Proofs.RawSplit
import Verif.Proofs.AccessDev
/-! # A chip that stops answering: C108 -/

namespace W5500.Props
open W5500 W5500.Spec
variable {W E H : Type} {B : Bus W E} {x : U8}

/-! ## Transfers -/

theorem mute_read {s : Fading W} (h : s.left = 0) (b : U8) (a : U16) (d : List U8) :
    (fading x B).readFrame s b a d = (.ok (), List.replicate d.length x, s) := if_pos h
theorem mute_write {s : Fading W} (h : s.left = 0) (b : U8) (a : U16) (d : List U8) : (fading x B).write b a d s = (.ok (), s) := by
  show (if s.left = 0 then _ else _) = _
  rw [if_pos h]
theorem mute_read1 {s : Fading W} (h : s.left = 0) (b : U8) (a : U16) : (fading x B).read1 b a s = (.ok x, s) :=
  read1_ok (mute_read h b a [0])
theorem mute_read2 {s : Fading W} (h : s.left = 0) (b : U8) (a : U16) : (fading x B).read2 b a s = (.ok (fromBeBytes x x), s) := by
  unfold Bus.read2 Bus.readBuf
  simp only [bind, M.bind, mute_read h]
  rfl

theorem mute_hasInterrupt {s : Fading W} (h : s.left = 0) (sk : Socket) (c : socketn.Interrupt) :
    sk.hasInterrupt (fading x B) c s = (.ok (decide (x &&& c.toU8 ≠ 0)), s) := (M.bind_ok (mute_read1 h _ _)).trans rfl
theorem mute_waitSendOk {s : Fading W} (h : s.left = 0) (sk : Socket) (fuel : Nat) :
    RawDevice.waitSendOk (fading 0xFF B) sk (fuel + 1) s = (.ok (), s) := (M.bind_ok (mute_hasInterrupt h _ _)).trans rfl
theorem mute_receiveSize {s : Fading W} (h : s.left = 0) (sk : Socket) (fuel : Nat) :
    sk.getReceiveSize (fading x B) (fuel + 1) s = (.ok (fromBeBytes x x), s) := by
  refine (M.bind_ok (mute_read2 h _ _)).trans ((M.bind_ok (mute_read2 h _ _)).trans ?_)
  rw [if_pos rfl]
  rfl
theorem mute_prefix {s : Fading W} (h : s.left = 0) (b : U8) (a : U16) {k : Nat} {buf : List U8} (hk : k ≤ buf.length)
    {F : Type} (f : E → F) :
    M.withPrefix k (M.mapErr f ((fading x B).readSlice b a)) (buf, s) = (.ok (), (List.replicate k x ++ buf.drop k, s)) := by
  unfold M.withPrefix
  rw [if_pos hk]
  have : (fading x B).readSlice b a (buf.take k, s) = (.ok (), (List.replicate k x, s)) := by
    unfold Bus.readSlice
    dsimp only
    rw [mute_read h, List.length_take, Nat.min_eq_left hk]
  dsimp only
  rw [M.mapErr_ok this]
theorem mapErr_same {ε α : Type} (m : M W ε α) : M.mapErr id m = m := by
  funext w
  rw [M.mapErr_def]
  rcases m w with ⟨_ | _ | _ | _, _⟩ <;> rfl
theorem mute_writes {s : Fading W} (h : s.left = 0) (l : List U8) : RawDevice.clearBuffers (fading x B) l s = (.ok (), s) := by
  induction l with
  | nil => rfl
  | cons i l ih => exact (M.bind_ok (mute_write h _ _ _)).trans ((M.bind_ok (mute_write h _ _ _)).trans ih)

theorem mute_writeAll {s : Fading W} (h : s.left = 0) (l : List Wr) : writeAll (fading x B) l s = (.ok (), s) := by
  induction l with
  | nil => rfl
  | cons w l ih => exact (M.bind_ok (mute_write h _ _ _)).trans ih

/-- Once gone, always gone. -/
theorem mute_reach {F : U8 → U16 → List U8 → Prop} {s s' : Fading W} (h : Reach (fading x B) F s s') (h0 : s.left = 0) : s' = s := by
  refine h.induct (I := fun t => t = s) (fun t b a d ht => ?_) (fun t b a d _ ht => ?_) rfl
  · subst ht
    rw [mute_read h0]
  · subst ht
    exact congrArg Prod.snd (mute_write (B := B) (x := x) h0 b a d)

theorem mute_open {s : Fading W} (h : s.left = 0) (t : TcpSocket) (p : U16) : t.open (fading x B) p s = (.ok (), s) := by
  refine M.mapErr_ok ?_
  refine (M.bind_ok (mute_write h _ _ _)).trans ?_
  refine (M.bind_ok (mute_write h _ _ _)).trans ?_
  refine (M.bind_ok (mute_write h _ _ _)).trans ?_
  refine (M.bind_ok (mute_write h _ _ _)).trans ?_
  exact (M.bind_ok (mute_write h _ _ _)).trans (mute_write h _ _ _)

theorem mute_reopen {s : Fading W} (h : s.left = 0) (t : TcpSocket) : t.reopen (fading x B) s = (.ok (), s) := by
  refine M.mapErr_ok ?_
  refine (M.bind_ok (mute_write h _ _ _)).trans ?_
  refine (M.bind_ok (mute_write h _ _ _)).trans ?_
  refine (M.bind_ok (mute_write h _ _ _)).trans ?_
  exact (M.bind_ok (mute_write h _ _ _)).trans (mute_write h _ _ _)

theorem mute_close {s : Fading W} (h : s.left = 0) (t : TcpSocket) : t.socketClose (fading x B) s = (.ok (), s) := by
  refine M.mapErr_ok ?_
  exact (M.bind_ok (mute_write h _ _ _)).trans (mute_write h _ _ _)

/-! ## Calls -/

theorem unknown_status : ∀ x, x ∉ statusTable.map (·.1) → socketn.Status.tryFrom x = none := by decide +kernel

/-- What UDP calls report for a status `x` other than UDP. -/
def statusError (x : U8) : UdpSocketError E := if x ∈ statusTable.map (·.1) then .socketNotOpen else .unrecognisedStatus

/-- C108, the part that holds. Let the chip stop answering at any moment of any calls on any sockets, `d` being the device after
them, and let `x` be what is read from then on. If `x` is no status of an open socket, every later `send`, `send_to` and `receive`
fails and tells so, without waiting; the initialisations that look at the version fail if `x` is not that version, and
TCP `connect` fails if `x` is no status at all. Missing: the call during which the chip stops, TCP `connect` if 0x00 is read,
UDP `connect` and `bind`, and MACRAW; see
the theorems `C108_refuted_…`. -/
theorem C108_partial (hx : x ≠ 0x17) (hx' : x ≠ 0x22) (fuel : Nat) (calls : List (Nat × SockCall)) (d₀ : Device (Fading W) H) :
    let F := fading x B
    let d := callsAfter F fuel d₀ calls
    d.bus.left = 0 →
    (∀ fuel t data, Device.tcpSend F fuel t data d = (.err .notConnected, d)) ∧
    (∀ fuel t buf, Device.tcpReceive F fuel t (buf, d) = (.err .notConnected, (buf, d))) ∧
    (∀ fuel u data, Device.udpSend F fuel u data d = (.err (.other (statusError x)), d)) ∧
    (∀ fuel u remote data, (Device.udpSendTo F fuel (.v4 remote) data (u, d)).1 = .err (.other (statusError x)) ∧
      (Device.udpSendTo F fuel (.v4 remote) data (u, d)).2.2 = d) ∧
    (∀ fuel u buf, Device.udpReceive F fuel u (buf, d) = (.err (.other (statusError x)), (buf, d))) ∧
    (x ∉ statusTable.map (·.1) → ∀ fuel t remote, Device.tcpConnect F fuel t (.v4 remote) d = (.err .unsupportedMode, d)) ∧
    (x ≠ 0x04 → ∀ mac ip gateway subnet mode,
      Uninit.initialize true F mac mode d.bus = (.err .chipNotConnected, d.bus) ∧
      Uninit.initializeManual true F mac ip mode d.bus = (.err .chipNotConnected, d.bus) ∧
      Uninit.initializeAdvanced true F mac ip gateway subnet mode d.bus = (.err .chipNotConnected, d.bus)) := by
  intro F d hd
  have hst : ∀ s : Socket, F.readFrame d.bus s.register 0x03 [0] = (.ok (), [x], d.bus) := fun s => mute_read hd _ _ _
  have hsend : ∀ fuel u data, Device.udpSend F fuel u data d = (.err (.other (statusError x)), d) :=
    fun fuel u data => C35_status_partial F fuel u data d x d.bus (hst _) hx'
  refine ⟨fun fuel t data => (C44_send F fuel t data d).2 x d.bus (hst _) hx, fun fuel t buf =>
    (C44_receive F fuel t buf d).2 x d.bus (hst _) hx, hsend, fun fuel u remote data => ?_, fun fuel u buf =>
    use_udpReceive (checkStatus_other (hst _) hx'), fun hn fuel t remote => ?_, fun hv => ?_⟩
  · have hw : writeAll F (destScript u remote) d.bus = (.ok (), d.bus) := by
      generalize destScript u remote = l
      induction l with
      | nil => rfl
      | cons y l ih => exact (M.bind_ok (mute_write hd _ _ _)).trans ih
    rw [C35_send_to F fuel u remote data d d.bus hw]
    have := hsend fuel { u with destination := some remote } data
    exact ⟨congrArg Prod.fst this, congrArg Prod.snd this⟩
  · have hc := unknown_status x hn
    have h1 : t.socketConnect F fuel remote d.bus = (.err .unsupportedMode, d.bus) := by
      refine (M.bind_ok (M.mapErr_ok (mute_read1 hd _ _))).trans ?_
      rw [hc]
      rfl
    unfold Device.tcpConnect Device.onBus M.zoom
    dsimp only
    rw [M.bind_ok (mute_open hd t _), h1]
  · have h1 : ∀ {H : Type} [Host H] (host : H) (mode : Mode),
        Uninit.initializeWithHost true F host mode d.bus = (.err .chipNotConnected, d.bus) := by
      intro H _ host mode
      have : Uninit.assertChipVersion F 0x4 d.bus = (.err .chipNotConnected, d.bus) := by
        refine (M.bind_ok (M.mapErr_ok (mute_read1 hd _ _))).trans ?_
        rw [if_pos hv]
        rfl
      exact M.bind_err this
    exact fun mac ip gateway subnet mode => ⟨h1 _ _, h1 _ _, h1 _ _⟩

/-! ## What is not noticed -/

/-- C108 is false of TCP `connect`: if 0x00 is read, it takes the socket for one whose connection attempt failed, opens it again
and returns `Ok`. -/
theorem C108_refuted_connect (fuel : Nat) (t : TcpSocket) (remote : SockAddr4) (d : Device (Fading W) H) (hd : d.bus.left = 0) :
    Device.tcpConnect (fading 0x00 B) (fuel + 1) t (.v4 remote) d = (.ok (), d) := by
  have h1 : t.socketConnect (fading 0x00 B) (fuel + 1) remote d.bus = (.ok (), d.bus) := by
    unfold TcpSocket.socketConnect
    refine (M.bind_ok (M.mapErr_ok (mute_read1 hd _ _))).trans ?_
    refine (M.bind_ok (mute_close hd t)).trans ?_
    refine (M.bind_ok (mute_reopen hd t)).trans ?_
    refine (M.bind_ok (M.mapErr_ok (mute_write hd _ _ _))).trans ?_
    refine (M.bind_ok (M.mapErr_ok (mute_write hd _ _ _))).trans ?_
    refine (M.bind_ok (M.mapErr_ok (mute_write hd _ _ _))).trans ?_
    refine (M.bind_ok (M.mapErr_ok (mute_read1 hd _ _))).trans ?_
    exact (M.bind_ok (mute_close hd t)).trans (mute_reopen hd t)
  unfold Device.tcpConnect Device.onBus M.zoom
  dsimp only
  rw [M.bind_ok (mute_open hd t _), h1]

/-- The first transfer reads the status; it is the last one that reaches the chip. -/
theorem fading_status {s : Fading W} {w' : W} {sk : Socket} {v : U8} (h1 : s.left = 1)
    (h : B.readFrame s.w sk.register 0x03 [0] = (.ok (), [v], w')) :
    (fading x B).readFrame s sk.register 0x03 [0] = (.ok (), [v], ⟨w', 0⟩) := by
  show (if s.left = 0 then _ else _) = _
  rw [if_neg (by omega), h, h1]

/-- C108 is false of TCP `send`: the chip stops answering right after the status was read, and 0xFF is read then. `send` returns
`Ok` for all of the data, though none of it reached the chip. -/
theorem C108_refuted_send (fuel : Nat) (t : TcpSocket) (data : List U8) (d : Device (Fading W) H) (w' : W) (h1 : d.bus.left = 1)
    (h : B.readFrame d.bus.w t.socket.register 0x03 [0] = (.ok (), [0x17], w')) (hl : data.length < 65535) :
    Device.tcpSend (fading 0xFF B) (fuel + 1) t data d = (.ok data.length, { d with bus := ⟨w', 0⟩ }) := by
  have hs : t.socketSend (fading 0xFF B) (fuel + 1) data d.bus = (.ok data.length, ⟨w', 0⟩) := by
    have h0 : (⟨w', 0⟩ : Fading W).left = 0 := rfl
    unfold TcpSocket.socketSend
    rw [connected_bind (fading 0xFF B) t _ (fading_status h1 h)]
    refine (M.bind_ok (M.mapErr_ok (mute_read2 h0 _ _))).trans ?_
    rw [if_pos (show data.length < (fromBeBytes 0xFF 0xFF).toNat from hl)]
    refine (M.bind_ok rfl).trans ?_
    refine (M.bind_ok (M.mapErr_ok (mute_read2 h0 _ _))).trans ?_
    refine (M.bind_ok (M.mapErr_ok (mute_write h0 _ _ _))).trans ?_
    refine (M.bind_ok (M.mapErr_ok (mute_write h0 _ _ _))).trans ?_
    refine (M.bind_ok (M.mapErr_ok (mute_write h0 _ _ _))).trans ?_
    refine (M.bind_ok (M.mapErr_ok (mute_waitSendOk h0 _ _))).trans ?_
    exact (M.bind_ok (M.mapErr_ok (mute_write h0 _ _ _))).trans rfl
  unfold Device.tcpSend Device.onBus M.zoom
  rw [hs]

/-- If 0x00 is read, `send` never returns. -/
theorem C108_refuted_hang (fuel : Nat) (t : TcpSocket) (data : List U8) (d : Device (Fading W) H) (w' : W) (h1 : d.bus.left = 1)
    (h : B.readFrame d.bus.w t.socket.register 0x03 [0] = (.ok (), [0x17], w')) :
    (Device.tcpSend (fading 0x00 B) fuel t data d).1 = .fuel := by
  have hw : ∀ n, RawDevice.waitSendOk (fading 0x00 B) t.socket n ⟨w', 0⟩ = (.fuel, ⟨w', 0⟩) := by
    intro n
    induction n with
    | zero => rfl
    | succ n ih => exact (M.bind_ok (mute_hasInterrupt rfl _ _)).trans ih
  have hs : t.socketSend (fading 0x00 B) fuel data d.bus = (.fuel, ⟨w', 0⟩) := by
    have h0 : (⟨w', 0⟩ : Fading W).left = 0 := rfl
    unfold TcpSocket.socketSend
    rw [connected_bind (fading 0x00 B) t _ (fading_status h1 h)]
    refine (M.bind_ok (M.mapErr_ok (mute_read2 h0 _ _))).trans ?_
    rw [if_neg (show ¬ data.length < (fromBeBytes 0 0).toNat from Nat.not_lt_zero _)]
    refine (M.bind_ok rfl).trans ?_
    refine (M.bind_ok (M.mapErr_ok (mute_read2 h0 _ _))).trans ?_
    refine (M.bind_ok (M.mapErr_ok (mute_write h0 _ _ _))).trans ?_
    refine (M.bind_ok (M.mapErr_ok (mute_write h0 _ _ _))).trans ?_
    refine (M.bind_ok (M.mapErr_ok (mute_write h0 _ _ _))).trans ?_
    rw [M.bind_def, show M.mapErr TcpSocketError.other (RawDevice.waitSendOk (fading 0x00 B) t.socket fuel) ⟨w', 0⟩ = (.fuel, ⟨w', 0⟩) by
      unfold M.mapErr; rw [hw]]
  unfold Device.tcpSend Device.onBus M.zoom
  rw [hs]

/-- Nor does `connect` return if 0xFF is read and the chip stopped answering after it had told that the socket is open. -/
theorem C108_refuted_wait (fuel : Nat) (t : TcpSocket) (remote : SockAddr4) (s : Fading W) (w' : W) (h1 : s.left = 1)
    (h : B.readFrame s.w t.socket.register 0x03 [0] = (.ok (), [0x13], w')) :
    t.socketConnect (fading 0xFF B) fuel remote s = (.fuel, ⟨w', 0⟩) := by
  have h0 : (⟨w', 0⟩ : Fading W).left = 0 := rfl
  have hw : ∀ n, t.connectLoop (fading 0xFF B) n ⟨w', 0⟩ = (.fuel, ⟨w', 0⟩) := by
    intro n
    induction n with
    | zero => rfl
    | succ n ih => exact (M.bind_ok (M.mapErr_ok (mute_read1 h0 _ _))).trans ih
  have hst : t.socket.getStatus (fading 0xFF B) s = (.ok 0x13, ⟨w', 0⟩) := read1_ok (fading_status h1 h)
  unfold TcpSocket.socketConnect
  refine (M.bind_ok (M.mapErr_ok hst)).trans ?_
  refine (M.bind_ok (M.mapErr_ok (mute_write h0 _ _ _))).trans ?_
  refine (M.bind_ok (M.mapErr_ok (mute_write h0 _ _ _))).trans ?_
  exact (M.bind_ok (M.mapErr_ok (mute_write h0 _ _ _))).trans (hw fuel)

/-- C108 is false of TCP `receive`: with 0xFF it fills the buffer with bytes that nobody sent. -/
theorem C108_refuted_receive (fuel : Nat) (t : TcpSocket) (buf : List U8) (d : Device (Fading W) H) (w' : W) (h1 : d.bus.left = 1)
    (h : B.readFrame d.bus.w t.socket.register 0x03 [0] = (.ok (), [0x17], w')) (hl : buf.length ≤ 65535) :
    Device.tcpReceive (fading 0xFF B) (fuel + 1) t (buf, d) =
      (.ok buf.length, (List.replicate buf.length 0xFF, { d with bus := ⟨w', 0⟩ })) := by
  have h0 : (⟨w', 0⟩ : Fading W).left = 0 := rfl
  have snd : ∀ {α ε : Type} {m : M (Fading W) ε α} {r : Res ε α} {s' : Fading W} (b : List U8), m ⟨w', 0⟩ = (r, s') →
      M.onSnd m (b, ⟨w', 0⟩) = (r, (b, s')) := fun b h => by rw [M.onSnd_apply, h]
  have hs : t.socketReceive (fading 0xFF B) (fuel + 1) (buf, d.bus) = (.ok buf.length, (List.replicate buf.length 0xFF, ⟨w', 0⟩)) := by
    unfold TcpSocket.socketReceive
    rw [connected_bind' (fading 0xFF B) t _ (fading_status h1 h)]
    refine (M.bind_ok (snd _ (M.mapErr_ok (mute_hasInterrupt h0 _ _)))).trans ?_
    refine (M.bind_ok (snd _ (M.mapErr_ok (mute_receiveSize h0 _ _)))).trans ?_
    refine (M.bind_ok rfl).trans ?_
    have hlen : (if (fromBeBytes 0xFF 0xFF : U16).toNat > buf.length then buf.length else (fromBeBytes 0xFF 0xFF : U16).toNat) =
        buf.length := by
      have : (fromBeBytes 0xFF 0xFF : U16).toNat = 65535 := by decide
      rw [this]
      split <;> omega
    dsimp only
    rw [hlen]
    refine (M.bind_ok (snd _ (M.mapErr_ok (mute_read2 h0 _ _)))).trans ?_
    have hp := mute_prefix (x := 0xFF) (B := B) h0 t.socket.rxBuffer (fromBeBytes 0xFF 0xFF) (Nat.le_refl buf.length) (TcpSocketError.other)
    rw [List.drop_length, List.append_nil] at hp
    refine (M.bind_ok hp).trans ?_
    refine (M.bind_ok (snd _ (M.mapErr_ok (mute_write h0 _ _ _)))).trans ?_
    refine (M.bind_ok (snd _ (M.mapErr_ok (mute_write h0 _ _ _)))).trans ?_
    exact (M.bind_ok (snd _ (M.mapErr_ok (mute_write h0 _ _ _)))).trans rfl
  unfold Device.tcpReceive Device.onSockBus M.zoom
  dsimp only
  rw [hs]

/-- UDP `connect` and `bind` read nothing. -/
theorem C108_refuted_udp (u : UdpSocket) (remote : SockAddr4) (port : U16) (d : Device (Fading W) H) (hd : d.bus.left = 0) :
    Device.udpConnect (fading x B) (.v4 remote) (u, d) = (.ok (), ({ u with destination := some remote }, d)) ∧
    Device.udpBind (fading x B) port (u, d) = (.ok (), ({ u with port := port }, d)) := by
  constructor
  · rw [C31_connect_script]
    dsimp only
    rw [M.mapErr_ok (mute_writeAll hd _)]
    rfl
  · rw [C31_bind_script]
    dsimp only
    rw [M.mapErr_ok (mute_writeAll hd _)]

/-- Nor is the version looked at before MACRAW is set up, nor the status by `read_frame` and `write_frame`. With 0xFF all of them
return `Ok`. -/
theorem C108_refuted_raw (fuel : Nat) (mac : Mac) (r : RawDevice) (frame : List U8) (s : Fading W) (hd : s.left = 0)
    (hl : 0 < frame.length) (hl' : frame.length ≤ 65533) :
    Uninit.initializeMacraw (fading x B) mac s = (.ok ⟨.new 0⟩, s) ∧
    r.writeFrame (fading 0xFF B) (fuel + 1) frame s = (.ok frame.length, s) ∧
    r.readFrame (fading 0xFF B) (fuel + 1) (frame, s) = (.ok frame.length, (List.replicate frame.length 0xFF, s)) := by
  refine ⟨?_, ?_, ?_⟩
  · refine (M.bind_ok (M.mapErr_ok (mute_write hd _ _ _))).trans ((M.bind_ok (M.mapErr_ok (mute_write hd _ _ _))).trans (M.mapErr_ok ?_))
    refine (M.bind_ok (mute_write hd _ _ _)).trans ((M.bind_ok (mute_write hd _ _ _)).trans ((M.bind_ok (mute_writes hd _)).trans ?_))
    exact (M.bind_ok (mute_write hd _ _ _)).trans ((M.bind_ok (mute_write hd _ _ _)).trans rfl)
  · rw [writeFrame_eq]
    refine (M.bind_ok (mute_write hd _ _ _)).trans ((M.bind_ok (mute_read2 hd _ _)).trans ?_)
    have hr : rawSeq (fading 0xFF B) r.rawSocket frame (fromBeBytes 0xFF 0xFF) s = (.ok (BitVec.ofNat 16 frame.length), s) := by
      refine (M.bind_ok (mute_read2 hd _ _)).trans ?_
      have hc : ¬ (frame.isEmpty || decide (frame.length > (fromBeBytes 0xFF 0xFF : U16).toNat)) = true := by
        have : (fromBeBytes 0xFF 0xFF : U16).toNat = 65535 := by decide
        rw [this]
        cases frame with
        | nil => simp at hl
        | cons a l =>
          have : ¬ (a :: l).length > 65535 := by omega
          rw [decide_eq_false this]
          simp
      rw [if_neg hc]
      exact (M.bind_ok (mute_write hd _ _ _)).trans ((M.bind_ok (mute_write hd _ _ _)).trans ((M.bind_ok (mute_write hd _ _ _)).trans rfl))
    refine (M.bind_ok hr).trans ((M.bind_ok (mute_waitSendOk hd _ _)).trans ?_)
    show (Res.ok (BitVec.ofNat 16 frame.length).toNat, s) = _
    rw [BitVec.toNat_ofNat, Nat.mod_eq_of_lt (by omega)]
  · have hh : rawHead (fading 0xFF B) (fuel + 1) r.rawSocket s = (.ok (some (0xFFFF, 65533, 65533)), s) := by
      refine (M.bind_ok (mute_receiveSize hd _ _)).trans ((M.bind_ok (mute_read2 hd _ _)).trans ?_)
      rw [if_neg (by decide)]
      refine (M.bind_ok (a := [0xFF, 0xFF]) (s' := s) ?_).trans rfl
      unfold Bus.readBuf
      rw [mute_read hd]
      rfl
    rw [readFrame_split]
    refine (M.bind_ok (by rw [M.onSnd_apply, hh])).trans ?_
    have hp := mute_prefix (x := 0xFF) (B := B) hd r.rawSocket.rxBuffer (0xFFFF + 2) (Nat.le_refl frame.length) id
    rw [List.drop_length, List.append_nil, mapErr_same] at hp
    show rawTail _ _ _ _ _ _ _ = _
    unfold rawTail
    rw [show min frame.length 65533 = frame.length by omega, if_neg (by omega), show min 65533 frame.length = frame.length by omega]
    refine (M.bind_ok hp).trans ?_
    refine (M.bind_ok (by rw [M.onSnd_apply, show r.rawSocket.setRxReadPointer (fading 0xFF B) _ s = (.ok (), s) from mute_write hd _ _ _])).trans ?_
    exact (M.bind_ok (by rw [M.onSnd_apply, show r.rawSocket.command (fading 0xFF B) .receive s = (.ok (), s) from mute_write hd _ _ _])).trans rfl

/-! ## Examples -/

/-- `C108_partial` applies: the chip stops answering within a `send` that would have succeeded; the calls after it fail. -/
def fadingDevice (proto status : U8) (left : Nat) : Device (Fading Chip) Unit :=
  ⟨⟨(liveDevice proto status).bus, left⟩, (liveDevice proto status).state⟩

example : (callsAfter (fading 0xFF (Chip.dev emitSched noFaults).bus) 9 (fadingDevice 1 0x17 5) [(0, .tcpSend [5])]).bus.left = 0 ∧
    (Device.tcpSend (fading 0xFF (Chip.dev emitSched noFaults).bus) 9 demoSocket [5] (fadingDevice 1 0x17 5)).1 = .ok 1 ∧
    (Device.tcpSend (fading 0xFF (Chip.dev emitSched noFaults).bus) 9 demoSocket [5]
      (callsAfter (fading 0xFF (Chip.dev emitSched noFaults).bus) 9 (fadingDevice 1 0x17 5) [(0, .tcpSend [5])])).1 =
      .err .notConnected := by decide +kernel

/-- The hypotheses of `C108_refuted_send`, `C108_refuted_hang` and `C108_refuted_receive`, and what these calls do otherwise. -/
example : ((Chip.dev emitSched noFaults).bus.readFrame (fadingDevice 1 0x17 1).bus.w demoSocket.socket.register 0x03 [0]).1 = .ok () ∧
    ((Chip.dev emitSched noFaults).bus.readFrame (fadingDevice 1 0x17 1).bus.w demoSocket.socket.register 0x03 [0]).2.1 = [0x17] ∧
    (fadingDevice 1 0x17 1).bus.left = 1 ∧
    (Device.tcpReceive (fading 0xFF (Chip.dev emitSched noFaults).bus) 9 demoSocket ([0, 0, 0, 0], fadingDevice 1 0x17 99)).1 = .ok 3 ∧
    (Device.tcpReceive (fading 0xFF (Chip.dev emitSched noFaults).bus) 9 demoSocket ([0, 0, 0, 0], fadingDevice 1 0x17 1)).1 = .ok 4 ∧
    (Device.tcpSend (fading 0x00 (Chip.dev emitSched noFaults).bus) 9 demoSocket [5] (fadingDevice 1 0x17 1)).1 = .fuel ∧
    (demoSocket.socketConnect (fading 0xFF (Chip.dev emitSched noFaults).bus) 9 ⟨⟨10, 0, 0, 1⟩, 80⟩ (fadingDevice 1 0x13 1).bus).1 = .fuel := by
  decide +kernel

end W5500.Props
