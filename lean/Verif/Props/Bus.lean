import Verif.Proofs.History
import Verif.Proofs.FailStop
import Verif.Props.Alloc
/-! # Bus traffic of all operations: C19, C20, C21, C60

`traced B` is an arbitrary bus `B` with a log of its transfers (`Spec/Trace.lean`). -/

namespace W5500.Props
open W5500 W5500.Spec
variable {W E H : Type}

/-! ## C19 First bus error stops the operation and is reported

`FailStop conv m`: from any state, the transfers made by `m` all succeed and `m` does not return a bus error; or
exactly the last transfer failed and `m` returns precisely that error, wrapped by `conv`. -/

/-- C19 for the UDP API. -/
theorem C19_udp (B : Bus W E) (fuel : Nat) (u : UdpSocket) :
    FailStop UdpSocketError.other (Device.udpSocket : M (Device (TW W E) H) (UdpSocketError E) _) ∧
    (∀ r, FailStop UdpSocketError.other
      (Device.udpConnect (traced B) r : M (UdpSocket × Device (TW W E) H) _ _)) ∧
    (∀ p, FailStop UdpSocketError.other
      (Device.udpBind (traced B) p : M (UdpSocket × Device (TW W E) H) _ _)) ∧
    (∀ p, FailStop UdpSocketError.other (UdpSocket.setPort (traced B) p)) ∧
    (∀ b, FailStop NbError.ofBus (Device.udpSend (traced B) fuel u b : M (Device (TW W E) H) _ _)) ∧
    (∀ r b, FailStop NbError.ofBus
      (Device.udpSendTo (traced B) fuel r b : M (UdpSocket × Device (TW W E) H) _ _)) ∧
    FailStop NbError.ofBus
      (Device.udpReceive (traced B) fuel u : M (List U8 × Device (TW W E) H) _ _) ∧
    FailStop UdpSocketError.other (Device.udpClose (traced B) u : M (Device (TW W E) H) _ _) :=
  ⟨fs_udpSocket, fs_udpConnect, fs_udpBind, fs_setPort, fs_udpSend fuel, fs_udpSendTo fuel,
    fs_udpReceive fuel, fs_udpClose⟩

/-- C19 for the TCP API. -/
theorem C19_tcp (B : Bus W E) (fuel : Nat) (t : TcpSocket) :
    FailStop TcpSocketError.other (Device.tcpSocket : M (Device (TW W E) H) (TcpSocketError E) _) ∧
    (∀ r, FailStop TcpSocketError.other
      (Device.tcpConnect (traced B) fuel t r : M (Device (TW W E) H) _ _)) ∧
    (∀ d, FailStop TcpSocketError.other
      (Device.tcpSend (traced B) fuel t d : M (Device (TW W E) H) _ _)) ∧
    FailStop TcpSocketError.other
      (Device.tcpReceive (traced B) fuel t : M (List U8 × Device (TW W E) H) _ _) ∧
    FailStop TcpSocketError.other (Device.tcpClose (traced B) t : M (Device (TW W E) H) _ _) :=
  ⟨fs_tcpSocket, fs_tcpConnect fuel, fs_tcpSend fuel, fs_tcpReceive fuel, fs_tcpClose⟩

/-- C19 for MACRAW devices. -/
theorem C19_raw (B : Bus W E) (fuel : Nat) (d : RawDevice) :
    FailStop id (d.readFrame (traced B) fuel) ∧
    (∀ f, FailStop id (d.writeFrame (traced B) fuel f)) ∧
    (∀ m, FailStop id (d.enableInterrupts (traced B) m)) ∧
    FailStop id (d.clearInterrupts (traced B)) ∧
    FailStop id (d.disableInterrupts (traced B)) :=
  ⟨fs_raw_readFrame fuel d, fs_raw_writeFrame fuel d, fs_raw_enable d, fs_raw_clear d, fs_raw_disable d⟩

/-- C19 for device calls without socket. -/
theorem C19_device (B : Bus W E) :
    FailStop ResetError.other (Device.reset (traced B) : M (Device (TW W E) H) _ _) ∧
    FailStop id (resetChip (traced B)) ∧
    (∀ m, FailStop id (setMode (traced B) m)) ∧
    FailStop id (version (traced B)) ∧
    (∀ t, FailStop id (setRetryTimeout (traced B) t)) ∧
    FailStop id (currentRetryTimeout (traced B)) ∧
    (∀ n, FailStop id (setRetryCount (traced B) n)) ∧
    FailStop id (currentRetryCount (traced B)) ∧
    FailStop id (Device.gateway (traced B)) ∧
    FailStop id (Device.subnetMask (traced B)) ∧
    FailStop id (Device.ip (traced B)) ∧
    FailStop id (Device.mac (traced B)) ∧
    FailStop id (Device.phyConfig (traced B)) :=
  ⟨fs_devReset, fs_resetChip, fs_setModeDev, fs_version, fs_setRetryTimeout, fs_currentRetryTimeout,
    fs_setRetryCount, fs_currentRetryCount, fs_readIp _, fs_readIp _, fs_readIp _, fs_mac, fs_phyConfig⟩

/-- C19 for initialisation and host refresh. -/
theorem C19_init (B : Bus W E) (av : Bool) :
    (∀ mac mode, FailStop InitializeError.spiError (Uninit.initialize av (traced B) mac mode)) ∧
    (∀ mac ip mode, FailStop InitializeError.spiError
      (Uninit.initializeManual av (traced B) mac ip mode)) ∧
    (∀ mac ip gw sn mode, FailStop InitializeError.spiError
      (Uninit.initializeAdvanced av (traced B) mac ip gw sn mode)) ∧
    (∀ mac, FailStop InitializeError.spiError (Uninit.initializeMacraw (traced B) mac)) ∧
    FailStop id (Manual.refresh (traced B)) := by
  have hd : FailStop id (Host.refresh (H := Dhcp) (traced B)) := FailStop.pure _
  have hm : FailStop id (Host.refresh (H := Manual) (traced B)) := fs_refresh_manual
  refine ⟨fun _ _ => fs_initializeWithHost hd _ _ _, fun mac ip mode => ?_,
    fun _ _ _ _ _ => fs_initializeWithHost hm _ _ _, fs_initializeMacraw, fs_refresh_manual⟩
  exact fs_initializeWithHost hm _ _ _

/-- A bus whose third and later transfers fail; its state counts transfers. Reads return `0x22`. -/
def failsAfter (k : Nat) : Bus Nat Unit where
  readFrame w _ _ d := (if w < k then .ok () else .err (), d.map fun _ => 0x22, w + 1)
  writeFrame w _ _ _ := (if w < k then .ok () else .err (), w + 1)
  read_length w b a d := by simp

/-- C19 on a bus that fails at the third transfer: three transfers are made and that error is returned. -/
example :
    let r := Device.udpBind (traced (failsAfter 2)) 80
      (UdpSocket.new (Socket.new 3), { bus := ⟨0, []⟩, state := DeviceState.new () })
    r.1 = .err (.other ()) ∧ r.2.2.bus.log.map Ev.res = [.ok (), .ok (), .err ()] := by decide +kernel

/-! ## C20 Sockets are isolated on the bus -/

/-- C20: in any history, an operation on a live socket only uses the register, TX and RX blocks of that socket;
in particular it touches neither the common registers nor a block of any other live socket. The history may
contain any reactivations; the operation may be stopped at any point (`fuel`). -/
theorem C20_isolated (B : Bus W E) (fuel : Nat) (w : TW W E) (host : H) (ops : List (Op (TW W E)))
    (o : Op (TW W E)) (i : Nat) (h : Handle) :
    let c := Client.run (traced B) fuel (Client.initial w host) ops
    o.target = some i → c.live[i]? = some h →
    ∃ evs, (c.step (traced B) fuel o).dev.bus.log = c.dev.bus.log ++ evs ∧
      ∀ e ∈ evs,
        e.block.toNat ∈ [4 * h.index + 1, 4 * h.index + 2, 4 * h.index + 3] ∧
        e.block ≠ 0 ∧
        ∀ (j : Nat) (h' : Handle), j ≠ i → c.live[j]? = some h' →
          e.block.toNat ∉ [4 * h'.index + 1, 4 * h'.index + 2, 4 * h'.index + 3] := by
  intro c ho hg
  have hi : AllocInv c := (allocInv_initial w host).run fuel ops
  have hs := hi.isSocket (List.mem_of_getElem? hg)
  have hP : ∀ e : Ev E, sockAccess h.index e → sockAccess h.index e := fun _ => id
  obtain ⟨evs, hl, hm⟩ := step_emits (allows_all hP) (allowsSend_all (B := B) hP) c fuel o i ho h hg hs
  refine ⟨evs, hl, fun e he => ?_⟩
  have ha := hm e he
  have hb : e.block.toNat ∈ [4 * h.index + 1, 4 * h.index + 2, 4 * h.index + 3] := by
    cases e with
    | rd b a d r => rcases ha with ⟨h1, -⟩ | h1 <;> simp [Ev.block, h1]
    | wr b a d r => rcases ha with ⟨h1, -⟩ | h1 <;> simp [Ev.block, h1]
  have hb' : e.block.toNat = 4 * h.index + 1 ∨ e.block.toNat = 4 * h.index + 2 ∨
      e.block.toNat = 4 * h.index + 3 := by simpa using hb
  refine ⟨hb, fun h0 => ?_, fun j h' hj hg' hmem => ?_⟩
  · rw [h0] at hb'; simp at hb'
  · have hmem' : e.block.toNat = 4 * h'.index + 1 ∨ e.block.toNat = 4 * h'.index + 2 ∨
        e.block.toNat = 4 * h'.index + 3 := by simpa using hmem
    have heq : h'.index = h.index := by omega
    have hnd := (List.nodup_append.mp hi.nodup).1
    have e1 : (c.live.map Handle.index)[j]? = some h.index := by simp [hg', heq]
    have e2 : (c.live.map Handle.index)[i]? = some h.index := by simp [hg]
    have hlt : j < (c.live.map Handle.index).length := (List.getElem?_eq_some_iff.mp e1).1
    exact hj ((List.getElem?_inj hlt hnd).mp (e1.trans e2.symm))

/-- C20: operations on no socket use only common registers; allocation uses the bus not at all. -/
theorem C20_common_only (B : Bus W E) (fuel : Nat) (c : Client (TW W E) H) (o : Op (TW W E))
    (ho : o.target = none) (hr : ∀ g, o ≠ .reactivate g) :
    ∃ evs, (c.step (traced B) fuel o).dev.bus.log = c.dev.bus.log ++ evs ∧
      (∀ e ∈ evs, e.block = 0) ∧ ((∀ k, o ≠ .common k) → evs = []) := by
  obtain ⟨evs, hl, hm⟩ := step_emits_common (B := B)
    (allowsCommon_all (P := fun e : Ev E => e.block.toNat = 0) (fun e he => by
      cases e with
      | rd b a d r => exact he.1
      | wr b a d r => exact he.1)) c fuel o ho hr
  refine ⟨evs, hl, fun e he => BitVec.eq_of_toNat_eq (hm e he), fun hk => ?_⟩
  -- allocation: the language containing only the empty trace
  have hnil : (c.step (traced B) fuel o).dev.bus.log = c.dev.bus.log := by
    cases o with
    | udpSocket =>
      obtain ⟨evs', h', hm'⟩ := (emits_udpSocket (L := Lang.all fun _ : Ev E => False)).run c.dev
      have : evs' = [] := List.eq_nil_iff_forall_not_mem.mpr hm'
      subst this
      simp only [List.append_nil] at h'
      simp only [Client.step, Client.alloc]; split <;> exact h'
    | tcpSocket =>
      obtain ⟨evs', h', hm'⟩ := (emits_tcpSocket (L := Lang.all fun _ : Ev E => False)).run c.dev
      have : evs' = [] := List.eq_nil_iff_forall_not_mem.mpr hm'
      subst this
      simp only [List.append_nil] at h'
      simp only [Client.step, Client.alloc]; split <;> exact h'
    | takeSocket =>
      simp only [Client.step, Device.takeSocket]
      rcases c.dev.state.socket with ⟨_ | _, _⟩ <;> rfl
    | common k => exact absurd rfl (hk k)
    | reactivate g => exact absurd rfl (hr g)
    | _ => cases ho
  rw [hnil] at hl
  have := congrArg List.length hl
  rw [List.length_append] at this
  exact List.eq_nil_of_length_eq_zero (by omega)

/-- Two live sockets and an operation with traffic: `bind` on socket 0 makes seven transfers on block 1. -/
example :
    let c := Client.run (traced (failsAfter 100)) 5 (Client.initial ⟨0, []⟩ ()) [.udpSocket, .tcpSocket]
    c.live.map Handle.index = [0, 1] ∧
    (c.step (traced (failsAfter 100)) 5 (.udpBind 0 80)).dev.bus.log.map (fun e => e.block.toNat) =
      [1, 1, 1, 1, 1, 1, 1] := by decide +kernel

/-! ## C21 Only legitimate register accesses -/

/-- An access the datasheet's register map allows: see `Spec/Access.lean`. -/
def legitimate (e : Ev E) : Prop := commonAccess e ∨ ∃ n, n < 8 ∧ sockAccess n e

/-- C21: in every history, every transfer is a legitimate access. -/
theorem C21_history (B : Bus W E) (fuel : Nat) (w : W) (host : H) (ops : List (Op (TW W E)))
    (hr : ∀ g, Op.reactivate g ∈ ops → g = id) :
    ∀ e ∈ (Client.run (traced B) fuel (Client.initial ⟨w, []⟩ host) ops).dev.bus.log, legitimate e := by
  obtain ⟨evs, hl, hm⟩ := run_emits (B := B) (L := Lang.all legitimate)
    (fun n hn => allows_all fun e he => .inr ⟨n, hn, he⟩)
    (fun n hn => allowsSend_all fun e he => .inr ⟨n, hn, he⟩)
    (allowsCommon_all fun e he => .inl he) fuel ops hr (Client.initial ⟨w, []⟩ host) (allocInv_initial _ _)
  rw [hl]
  exact hm

/-- C21: the same for initialisation, host refresh, reset and MACRAW operations. -/
theorem C21_init_raw (B : Bus W E) (av : Bool) (fuel : Nat) (d : RawDevice)
    (hd : d.rawSocket = Socket.new 0) :
    (∀ mac mode, Emits (Lang.all legitimate) (Uninit.initialize av (traced B) mac mode)) ∧
    (∀ mac ip mode, Emits (Lang.all legitimate) (Uninit.initializeManual av (traced B) mac ip mode)) ∧
    (∀ mac ip gw sn mode, Emits (Lang.all legitimate)
      (Uninit.initializeAdvanced av (traced B) mac ip gw sn mode)) ∧
    (∀ mac, Emits (Lang.all legitimate) (Uninit.initializeMacraw (traced B) mac)) ∧
    Emits (Lang.all legitimate) (Manual.refresh (traced B)) ∧
    Emits (Lang.all legitimate) (Device.reset (traced B) : M (Device (TW W E) H) _ _) ∧
    Emits (Lang.all legitimate) (d.readFrame (traced B) fuel) ∧
    (∀ f, Emits (Lang.all legitimate) (d.writeFrame (traced B) fuel f)) ∧
    (∀ m, Emits (Lang.all legitimate) (d.enableInterrupts (traced B) m)) ∧
    Emits (Lang.all legitimate) (d.clearInterrupts (traced B)) ∧
    Emits (Lang.all legitimate) (d.disableInterrupts (traced B)) := by
  have hC : AllowsCommon (E := E) (Lang.all legitimate) := allowsCommon_all fun e he => .inl he
  have hS : ∀ n, n < 8 → Allows (E := E) (Lang.all legitimate) n :=
    fun n hn => allows_all fun e he => .inr ⟨n, hn, he⟩
  have hs : IsSocket d.rawSocket 0 := ⟨by decide, hd⟩
  have h0 := hS 0 (by decide)
  have hm : Emits (Lang.all legitimate) (Host.refresh (H := Manual) (traced B)) := emits_refresh_manual hC
  have hdh : Emits (Lang.all legitimate) (Host.refresh (H := Dhcp) (traced B)) := emits_refresh_dhcp
  exact ⟨fun _ _ => emits_initializeWithHost hC hdh _ _ _, fun _ _ _ => emits_initializeWithHost hC hm _ _ _,
    fun _ _ _ _ _ => emits_initializeWithHost hC hm _ _ _, emits_initializeMacraw hC hS, hm, emits_devReset hC,
    emits_raw_readFrame h0 hs fuel,
    fun f => emits_raw_writeFrame h0 hs fuel f fun fsz =>
      emits_rawSeq_all (fun e he => .inr ⟨0, by decide, he⟩) hs f fsz,
    emits_raw_enable hC h0 hs, emits_raw_clear h0 hs, emits_raw_disable hC h0 hs⟩

/-- C21 spelled out: a legitimate write never goes to an RX memory block or to one of the read-only socket
registers Sn_SR, Sn_TX_FSR, Sn_TX_RD, Sn_RX_RSR, Sn_RX_WR; a legitimate read never goes to TX memory. -/
theorem C21_meaning (e : Ev E) (h : legitimate e) :
    (e.isWrite = true → e.block.toNat % 4 ≠ 3 ∧
      (e.block.toNat % 4 = 1 → e.addr ∉ [(0x03 : U16), 0x20, 0x22, 0x26, 0x2A])) ∧
    (e.isWrite = false → e.block.toNat % 4 ≠ 2) := by
  have key : ∀ a : U16, ∀ k, (a, k) ∈ sockWritable → a ∉ [(0x03 : U16), 0x20, 0x22, 0x26, 0x2A] := by
    intro a k hk
    simp only [sockWritable, List.mem_cons, Prod.mk.injEq, List.not_mem_nil, or_false] at hk
    rcases hk with h | h | h | h | h | h | h | h | h | h | h <;> (rw [h.1]; decide)
  rcases h with h | ⟨n, hn, h⟩
  · cases e with
    | rd b a d r => exact ⟨by simp [Ev.isWrite], fun _ => by simp [Ev.block, h.1]⟩
    | wr b a d r =>
      refine ⟨fun _ => ⟨by simp [Ev.block, h.1], fun h1 => ?_⟩, by simp [Ev.isWrite]⟩
      simp only [Ev.block, h.1] at h1; omega
  · cases e with
    | rd b a d r =>
      refine ⟨by simp [Ev.isWrite], fun _ => ?_⟩
      rcases h with ⟨h, -⟩ | h <;> simp only [Ev.block, h] <;> omega
    | wr b a d r =>
      refine ⟨fun _ => ?_, by simp [Ev.isWrite]⟩
      rcases h with ⟨h, h2⟩ | h <;> simp only [Ev.block, h]
      · exact ⟨by omega, fun _ => key _ _ h2.1⟩
      · exact ⟨by omega, fun h1 => by omega⟩

/-- A history with traffic. -/
example :
    (Client.run (traced (failsAfter 100)) 5 (Client.initial ⟨0, []⟩ ())
      [.udpSocket, .udpBind 0 80, .common .version]).dev.bus.log.length = 8 := by decide +kernel

/-! ## C71 The repertoire of commands -/

theorem legitimate_repertoire (e : Ev E) (h : legitimate e) : repertoire e := by
  cases e with
  | rd b a d r => trivial
  | wr b a d r =>
    rcases h with ⟨h, _, hv⟩ | ⟨n, hn, ⟨h, _, hv⟩ | h⟩
    · exact ⟨fun h1 => by omega, fun _ => hv⟩
    · refine ⟨fun _ => ?_, fun h0 => by subst h0; simp at h⟩
      rw [show b.toNat / 4 = n by omega]
      exact hv
    · exact ⟨fun h1 => by omega, fun h0 => by subst h0; simp at h⟩

/-- C71: in every history, whatever happens on the bus, the mode, command and buffer size registers of sockets and the mode and
interrupt mask register of the chip are only ever given the values listed in `sockValue` and `commonValue`. -/
theorem C71_history (B : Bus W E) (fuel : Nat) (w : W) (host : H) (ops : List (Op (TW W E)))
    (hr : ∀ g, Op.reactivate g ∈ ops → g = id) :
    ∀ e ∈ (Client.run (traced B) fuel (Client.initial ⟨w, []⟩ host) ops).dev.bus.log, repertoire e :=
  fun e he => legitimate_repertoire e (C21_history B fuel w host ops hr e he)

/-- C71: the same for initialisation, reset and MACRAW operations. -/
theorem C71_init_raw (B : Bus W E) (av : Bool) (fuel : Nat) (d : RawDevice)
    (hd : d.rawSocket = Socket.new 0) :
    (∀ mac mode, Emits (Lang.all repertoire) (Uninit.initialize av (traced B) mac mode)) ∧
    (∀ mac ip mode, Emits (Lang.all repertoire) (Uninit.initializeManual av (traced B) mac ip mode)) ∧
    (∀ mac ip gw sn mode, Emits (Lang.all repertoire)
      (Uninit.initializeAdvanced av (traced B) mac ip gw sn mode)) ∧
    (∀ mac, Emits (Lang.all repertoire) (Uninit.initializeMacraw (traced B) mac)) ∧
    Emits (Lang.all repertoire) (Manual.refresh (traced B)) ∧
    Emits (Lang.all repertoire) (Device.reset (traced B) : M (Device (TW W E) H) _ _) ∧
    Emits (Lang.all repertoire) (d.readFrame (traced B) fuel) ∧
    (∀ f, Emits (Lang.all repertoire) (d.writeFrame (traced B) fuel f)) ∧
    (∀ m, Emits (Lang.all repertoire) (d.enableInterrupts (traced B) m)) ∧
    Emits (Lang.all repertoire) (d.clearInterrupts (traced B)) ∧
    Emits (Lang.all repertoire) (d.disableInterrupts (traced B)) := by
  have mono : ∀ {σ ε α : Type} [HasLog σ E] {m : M σ ε α}, Emits (Lang.all legitimate) m → Emits (Lang.all repertoire) m := by
    intro σ ε α _ m h
    constructor; intro s
    obtain ⟨evs, h1, h2⟩ := h.run s
    exact ⟨evs, h1, fun e he => legitimate_repertoire e (h2 e he)⟩
  obtain ⟨h1, h2, h3, h4, h0, h5, h6, h7, h8, h9, h10⟩ := C21_init_raw (H := H) B av fuel d hd
  exact ⟨fun _ _ => mono (h1 _ _), fun _ _ _ => mono (h2 _ _ _), fun _ _ _ _ _ => mono (h3 _ _ _ _ _), fun _ => mono (h4 _),
    mono h0, mono h5, mono h6, fun _ => mono (h7 _), fun _ => mono (h8 _), mono h9, mono h10⟩

/-- C71 spelled out: the driver never listens (0x02), never disconnects (0x08), and no other command code occurs. -/
theorem C71_commands (e : Ev E) (h : repertoire e) (b : U8) (d : List U8) (r : Res E Unit) (hb : b.toNat % 4 = 1)
    (he : e = .wr b 0x01 d r) : d ≠ [0x02] ∧ d ≠ [0x08] ∧ d ∈ [[0x01], [0x04], [0x10], [0x20], [0x40]] := by
  subst he
  have hd := (h.1 hb).2.1 rfl
  refine ⟨?_, ?_, hd⟩ <;> rintro rfl <;> exact absurd hd (by decide)

/-- A history with commands: two of them here, CLOSE and OPEN, and the mode UDP. -/
example :
    ((Client.run (traced (failsAfter 100)) 5 (Client.initial ⟨0, []⟩ ())
      [.udpSocket, .udpBind 0 80]).dev.bus.log.filter fun e => e.addr ∈ [(0x00 : U16), 0x01]) =
      [.wr 1 0x01 [0x10] (.ok ()), .wr 1 0x00 [0x02] (.ok ()), .wr 1 0x01 [0x01] (.ok ())] := by decide +kernel

/-! ## C60 Transmit ordering -/

/-- Every SEND command in the traffic of `m` on socket `n` directly follows the preparation of a payload
satisfying `P` (see `Spec.Prepared`). -/
def SendsOrdered {σ ε α : Type} [HasLog σ E] (n : Nat) (P : List U8 → Prop) (m : M σ ε α) : Prop :=
  ∀ s, ∃ evs, HasLog.log (m s).2 = HasLog.log s ++ evs ∧ SendOrdered n P evs

/-- C60 for UDP `send`: payloads are contiguous pieces of the caller's buffer. -/
theorem C60_udp_send (B : Bus W E) (fuel n : Nat) (u : UdpSocket) (hs : IsSocket u.socket n) (b : List U8) :
    SendsOrdered n (· <:+: b) (Device.udpSend (traced B) fuel u b : M (Device (TW W E) H) _ _) :=
  (emits_udpSend (allows_ordered n _) hs fuel b fun _ hd => emits_sendSeq_ordered hs hd).run

/-- C60 for UDP `send_to`. -/
theorem C60_udp_send_to (B : Bus W E) (fuel n : Nat) (r : SockAddr) (b : List U8)
    (s : UdpSocket × Device (TW W E) H) (hs : IsSocket s.1.socket n) :
    ∃ evs, HasLog.log (Device.udpSendTo (traced B) fuel r b s).2 = HasLog.log s ++ evs ∧
      SendOrdered n (· <:+: b) evs :=
  ((emitsU_udpSendTo (allows_ordered n _) fuel r b fun _ hs _ hd => emits_sendSeq_ordered hs hd).run s hs).1

/-- C60 for TCP `send`: the payload is a prefix of the caller's buffer. -/
theorem C60_tcp_send (B : Bus W E) (fuel n : Nat) (t : TcpSocket) (hs : IsSocket t.socket n) (b : List U8) :
    SendsOrdered n (· <+: b) (Device.tcpSend (traced B) fuel t b : M (Device (TW W E) H) _ _) :=
  (emits_tcpSend (allows_ordered n _) hs fuel b fun _ hd => emits_sendSeq_ordered hs hd).run

/-- C60 for MACRAW `write_frame`: the payload is the whole frame, or empty (frame rejected, see C58). -/
theorem C60_raw_write_frame (B : Bus W E) (fuel : Nat) (d : RawDevice) (hd : d.rawSocket = Socket.new 0)
    (f : List U8) :
    SendsOrdered 0 (fun p => p = f ∨ p = []) (d.writeFrame (traced B) fuel f) :=
  (emits_raw_writeFrame (allows_ordered 0 _) ⟨by decide, hd⟩ fuel f fun fsz =>
    emits_rawSeq_ordered ⟨by decide, hd⟩ f fsz).run

/-- C60: all other operations never issue SEND. (`P` is arbitrary, in particular `fun _ => False`.) -/
theorem C60_no_other_send (B : Bus W E) (fuel n : Nat) (u : UdpSocket) (hu : IsSocket u.socket n)
    (t : TcpSocket) (ht : IsSocket t.socket n) (P : List U8 → Prop) :
    SendsOrdered n P (Device.udpReceive (traced B) fuel u : M (List U8 × Device (TW W E) H) _ _) ∧
    SendsOrdered n P (Device.udpClose (traced B) u : M (Device (TW W E) H) _ _) ∧
    (∀ r, SendsOrdered n P (Device.tcpConnect (traced B) fuel t r : M (Device (TW W E) H) _ _)) ∧
    SendsOrdered n P (Device.tcpReceive (traced B) fuel t : M (List U8 × Device (TW W E) H) _ _) ∧
    SendsOrdered n P (Device.tcpClose (traced B) t : M (Device (TW W E) H) _ _) ∧
    (∀ (p : U16) (s : UdpSocket × Device (TW W E) H), IsSocket s.1.socket n →
      ∃ evs, HasLog.log (Device.udpBind (traced B) p s).2 = HasLog.log s ++ evs ∧ SendOrdered n P evs) ∧
    (∀ (r : SockAddr) (s : UdpSocket × Device (TW W E) H), IsSocket s.1.socket n →
      ∃ evs, HasLog.log (Device.udpConnect (traced B) r s).2 = HasLog.log s ++ evs ∧ SendOrdered n P evs) :=
  ⟨(emits_udpReceive (allows_ordered n P) hu fuel).run, (emits_udpClose (allows_ordered n P) hu).run,
    fun r => (emits_tcpConnect (allows_ordered n P) ht fuel r).run,
    (emits_tcpReceive (allows_ordered n P) ht fuel).run, (emits_tcpClose (allows_ordered n P) ht).run,
    fun p s hs => ((emitsU_udpBind (allows_ordered n P) p).run s hs).1,
    fun r s hs => ((emitsU_udpConnect (allows_ordered n P) r).run s hs).1⟩

/-- A UDP send that does issue SEND: on a bus that always reads `0x22` (UDP state, free size 0x2222, pointers
equal) the two bytes go to TX memory at 0x2222 and the pointer becomes 0x2224. -/
example :
    let u : UdpSocket := { UdpSocket.new (Socket.new 1) with destination := some ⟨⟨1, 2, 3, 4⟩, 80⟩ }
    let r := Device.udpSend (traced (failsAfter 100)) 5 u [7, 8]
      { bus := ⟨0, []⟩, state := DeviceState.new () }
    r.1 = .ok () ∧
    (Ev.wr 6 0x2222 [7, 8] (.ok ()) ∈ r.2.bus.log) ∧ (Ev.wr 5 0x24 [0x22, 0x24] (.ok ()) ∈ r.2.bus.log) ∧
    (Ev.wr 5 0x01 [0x20] (.ok ()) ∈ r.2.bus.log) := by decide +kernel

end W5500.Props
