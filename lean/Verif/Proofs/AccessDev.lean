import Verif.Proofs.FailStop
/-! # Legitimate accesses of MACRAW, device and initialisation functions -/

namespace W5500
open Spec
variable {W σ E ε α β S H : Type} {B : Bus W E}

section rx
variable {L : Lang E} {n : Nat}

theorem returns_rx_new (fuel : Nat) (s : Socket) (B : Bus W E) :
    Returns (RxCursor.new B fuel s) (fun c => c.sock = s) := by
  unfold RxCursor.new
  exact .bind fun _ => .bind fun _ => .pure rfl
theorem returns_rx_read (c : RxCursor) (B : Bus W E) :
    Returns (c.read B) (fun r => r.2.sock = c.sock) := by
  unfold RxCursor.read
  refine .bind fun s => ?_
  dsimp only
  split
  · exact .pure rfl
  · exact .bind fun _ => .pure rfl
theorem returns_rx_readUpto (c : RxCursor) (m : U16) (B : Bus W E) :
    Returns (c.readUpto B m) (fun r => r.2.sock = c.sock) := by
  unfold RxCursor.readUpto
  refine .bind fun s => ?_
  dsimp only
  split
  · exact .withPrefix _ (returns_rx_read c B)
  · exact returns_rx_read c B
theorem returns_tx_new (s : Socket) (B : Bus W E) :
    Returns (TxCursor.new B s) (fun c => c.sock = s) := by
  unfold TxCursor.new
  exact .bind fun _ => .bind fun _ => .pure rfl
theorem returns_tx_write (c : TxCursor) (b : List U8) (B : Bus W E) :
    Returns (c.write B b) (fun r => r.2.sock = c.sock) := by
  unfold TxCursor.write
  split
  · exact .pure rfl
  · exact .bind fun _ => .bind fun _ => .pure rfl

/-- The transmission steps of `write_frame` (cursor.rs:88-125), after reading the free size. -/
def rawSeq (B : Bus W E) (s : Socket) (f : List U8) (fsz : U16) : M W E U16 := do
  let p ← s.getTxWritePointer B
  if f.isEmpty || decide (f.length > fsz.toNat) then
    s.setTxWritePointer B p
    s.command B .send
    pure 0
  else
    B.write s.txBuffer p f
    s.setTxWritePointer B (p + BitVec.ofNat 16 f.length)
    s.command B .send
    pure (BitVec.ofNat 16 f.length)

theorem tx_write_reject (B : Bus W E) (c : TxCursor) (f : List U8)
    (h : (f.isEmpty || decide (f.length > c.size.toNat)) = true) : c.write B f = pure (0, c) :=
  if_pos h

theorem tx_write_accept (B : Bus W E) (c : TxCursor) (f : List U8)
    (h : ¬ (f.isEmpty || decide (f.length > c.size.toNat)) = true) :
    c.write B f = (do
      B.write c.sock.txBuffer c.ptr f
      pure (BitVec.ofNat 16 f.length,
        { c with ptr := c.ptr + BitVec.ofNat 16 f.length, size := c.size - BitVec.ofNat 16 f.length })) := by
  refine (if_neg h).trans ?_
  have hl : f.length ≤ c.size.toNat := by simp at h; omega
  have : (BitVec.ofNat 16 f.length).toNat = f.length := by
    rw [BitVec.toNat_ofNat, Nat.mod_eq_of_lt]; omega
  simp only [M.sliceTo, this, Nat.le_refl, if_true, List.take_length, pure_bind]

theorem writeFrame_eq (B : Bus W E) (fuel : Nat) (d : RawDevice) (f : List U8) :
    d.writeFrame B fuel f = (do
      d.rawSocket.resetInterrupt B .sendOk
      let fsz ← d.rawSocket.getTxFreeSize B
      let count ← rawSeq B d.rawSocket f fsz
      RawDevice.waitSendOk B d.rawSocket fuel
      pure count.toNat) := by
  unfold RawDevice.writeFrame TxCursor.new TxCursor.commit rawSeq
  simp only [bind_assoc, pure_bind]
  refine bind_congr fun _ => bind_congr fun fsz => bind_congr fun p => ?_
  by_cases h : (f.isEmpty || decide (f.length > fsz.toNat)) = true
  · rw [tx_write_reject _ _ _ h, if_pos h]; simp
  · rw [tx_write_accept _ _ _ h, if_neg h]; simp

variable (hL : Allows L n)
include hL

theorem emits_rx_new {s : Socket} (hs : IsSocket s n) (fuel : Nat) :
    Emits L (RxCursor.new (traced B) fuel s) := by
  unfold RxCursor.new; emits
theorem emits_rx_read {c : RxCursor} (hs : IsSocket c.sock n) : Emits L (c.read (traced B)) := by
  unfold RxCursor.read; emits
theorem emits_rx_readUpto {c : RxCursor} (hs : IsSocket c.sock n) (m : U16) :
    Emits L (c.readUpto (traced B) m) := by
  have := emits_rx_read (B := B) hL hs
  unfold RxCursor.readUpto; emits
theorem emits_rx_commit {c : RxCursor} (hs : IsSocket c.sock n) : Emits L (c.commit (traced B)) := by
  unfold RxCursor.commit; emits
theorem emits_tx_new {s : Socket} (hs : IsSocket s n) : Emits L (TxCursor.new (traced B) s) := by
  unfold TxCursor.new; emits
theorem emits_tx_write {c : TxCursor} (hs : IsSocket c.sock n) (b : List U8) :
    Emits L (c.write (traced B) b) := by
  unfold TxCursor.write; emits
theorem emits_raw_readFrame {d : RawDevice} (hs : IsSocket d.rawSocket n) (fuel : Nat) :
    Emits L (d.readFrame (traced B) fuel) := by
  unfold RawDevice.readFrame
  refine .bindR (.onSnd (emits_rx_new hL hs fuel)) (.onSnd (returns_rx_new ..)) fun c hc => ?_
  have hc' : IsSocket c.sock n := hc ▸ hs
  split
  · exact .pure _
  · refine .bindR (.onSnd (.withLocal _ (emits_rx_read hL hc')))
      (.onSnd (.withLocal _ (returns_rx_read ..))) fun r hr => ?_
    have hr' : IsSocket r.1.2.sock n := hr ▸ hc'
    obtain ⟨⟨n', c'⟩, fb⟩ := r
    dsimp only at hr' ⊢
    split
    · exact .panic
    · split
      · refine .bindR (emits_rx_readUpto hL hr' _) (returns_rx_readUpto ..) fun r hr => ?_
        have hr'' : IsSocket r.2.sock n := hr ▸ hr'
        refine .bind (.onSnd (emits_rx_commit hL ?_)) fun _ => .pure _
        split
        · exact hr''
        · exact hr''
      · exact .panic
theorem emits_raw_writeFrame {d : RawDevice} (hs : IsSocket d.rawSocket n) (fuel : Nat) (f : List U8)
    (hT : ∀ fsz, Emits L (rawSeq (traced B) d.rawSocket f fsz)) :
    Emits L (d.writeFrame (traced B) fuel f) := by
  rw [writeFrame_eq]
  refine .bind (emits_resetInterrupt hL hs _) fun _ => .bind (emits_getTxFreeSize hL hs) fun fsz => ?_
  exact .bind (hT fsz) fun _ => .bind (emits_waitSendOk hL hs _) fun _ => .pure _
theorem emits_raw_clear {d : RawDevice} (hs : IsSocket d.rawSocket n) :
    Emits L (d.clearInterrupts (traced B)) := emits_resetInterrupt hL hs _
end rx

section common
variable {L : Lang E}

/-- `L` allows all legitimate accesses to common registers. -/
def AllowsCommon (L : Lang E) : Prop := ∀ e, commonAccess e → L.mem [e]

variable (hC : AllowsCommon L)
include hC

theorem AllowsCommon.wr {a : U16} {d : List U8} (h : (a, d.length) ∈ commonWritable)
    (hv : commonValue a d := by exact ⟨fun h => absurd h (by decide), fun h => absurd h (by decide)⟩) :
    Emits L ((traced B).write COMMON a d) :=
  Emits.write fun _ => hC _ ⟨rfl, h, hv⟩

theorem AllowsCommon.rdBuf {a : U16} {i : List U8} (h : (a, i.length) ∈ commonReadable) :
    Emits L ((traced B).readBuf COMMON a i) :=
  Emits.readBuf fun d _ hd => hC _ ⟨rfl, by rw [hd]; exact h⟩

theorem AllowsCommon.rd1 {a : U16} (h : (a, 1) ∈ commonReadable) :
    Emits L ((traced B).read1 COMMON a) :=
  Emits.read1 fun d _ hd => hC _ ⟨rfl, by rw [hd]; exact h⟩

theorem emits_raw_enable {n : Nat} (hL : Allows L n) {d : RawDevice} (hs : IsSocket d.rawSocket n)
    (m : U8) : Emits L (d.enableInterrupts (traced B) m) := by
  have := hC.wr (B := B) (by decide : (common.SOCKET_INTERRUPT_MASK, [1#8].length) ∈ commonWritable)
    ⟨fun h => absurd h (by decide), fun _ => .inr rfl⟩
  unfold RawDevice.enableInterrupts
  exact .bind (emits_setInterruptMask hL hs _) fun _ => this
theorem emits_raw_disable {n : Nat} (hL : Allows L n) {d : RawDevice} (hs : IsSocket d.rawSocket n) :
    Emits L (d.disableInterrupts (traced B)) := by
  have := hC.wr (B := B) (by decide : (common.SOCKET_INTERRUPT_MASK, [0#8].length) ∈ commonWritable)
    ⟨fun h => absurd h (by decide), fun _ => .inl rfl⟩
  unfold RawDevice.disableInterrupts
  exact .bind this fun _ => emits_setInterruptMask hL hs _

theorem emits_resetChip : Emits L (resetChip (traced B)) :=
  hC.wr (by decide) ⟨fun _ => ⟨_, rfl, .inl rfl⟩, fun h => absurd h (by decide)⟩
theorem emits_setModeDev (m : Mode) : Emits L (setMode (traced B) m) :=
  hC.wr (by show (common.MODE, 1) ∈ commonWritable; decide)
    ⟨fun _ => ⟨_, rfl, .inr (by obtain ⟨a, b, c, d⟩ := m; cases a <;> cases b <;> cases c <;> cases d <;> decide)⟩,
      fun h => absurd h (by decide)⟩
theorem emits_version : Emits L (version (traced B)) := hC.rd1 (by decide)
theorem emits_setRetryTimeout (t : RetryTime) : Emits L (setRetryTimeout (traced B) t) :=
  hC.wr (by show (common.RETRY_TIME, 2) ∈ commonWritable; decide)
theorem emits_currentRetryTimeout : Emits L (currentRetryTimeout (traced B)) := by
  have := hC.rdBuf (B := B) (by decide : (common.RETRY_TIME, [(0 : U8), 0].length) ∈ commonReadable)
  unfold currentRetryTimeout; emits
theorem emits_setRetryCount (n : U8) : Emits L (setRetryCount (traced B) n) :=
  hC.wr (by show (common.RETRY_COUNT, 1) ∈ commonWritable; decide)
theorem emits_currentRetryCount : Emits L (currentRetryCount (traced B)) := hC.rd1 (by decide)
theorem emits_readIp {a : U16} (h : (a, 4) ∈ commonReadable) : Emits L (readIp (traced B) a) := by
  have := hC.rdBuf (B := B) (i := [0, 0, 0, 0]) h
  unfold readIp; emits
theorem emits_gateway : Emits L (Device.gateway (traced B)) := emits_readIp hC (by decide)
theorem emits_subnetMask : Emits L (Device.subnetMask (traced B)) := emits_readIp hC (by decide)
theorem emits_ip : Emits L (Device.ip (traced B)) := emits_readIp hC (by decide)
theorem emits_mac : Emits L (Device.mac (traced B)) := by
  have := hC.rdBuf (B := B) (by decide : (common.MAC, [(0 : U8), 0, 0, 0, 0, 0].length) ∈ commonReadable)
  unfold Device.mac; emits
theorem emits_phyConfig : Emits L (Device.phyConfig (traced B)) := by
  have := hC.rd1 (B := B) (by decide : (common.PHY_CONFIG, 1) ∈ commonReadable)
  unfold Device.phyConfig; emits
theorem emits_devReset : Emits L (Device.reset (traced B) : M (Device (TW W E) H) _ _) := by
  have := emits_resetChip (B := B) hC
  unfold Device.reset; emits

theorem emits_writeSettings (c : HostConfig) : Emits L (writeSettings (traced B) c) := by
  have h1 := hC.wr (B := B) (d := c.gateway.octets)
    (by show (common.GATEWAY, 4) ∈ commonWritable; decide)
  have h2 := hC.wr (B := B) (d := c.subnet.octets)
    (by show (common.SUBNET_MASK, 4) ∈ commonWritable; decide)
  have h3 := hC.wr (B := B) (d := c.mac.octets)
    (by show (common.MAC, 6) ∈ commonWritable; decide)
  have h4 := hC.wr (B := B) (d := c.ip.octets)
    (by show (common.IP, 4) ∈ commonWritable; decide)
  unfold writeSettings; emits
theorem emits_refresh_manual : Emits L (Manual.refresh (traced B)) := by
  have := emits_writeSettings (B := B) hC
  unfold Manual.refresh
  refine .bind .get fun s => ?_
  dsimp only
  split
  · refine .bind (.zoom (fun _ => rfl) (fun _ _ => rfl) (this _)) fun _ => ?_
    exact .noop (fun _ => rfl)
  · exact .pure _
omit hC in
theorem emits_refresh_dhcp : Emits L (Dhcp.refresh (traced B)) := .pure _
theorem emits_assertChipVersion (v : U8) : Emits L (Uninit.assertChipVersion (traced B) v) := by
  have := emits_version (B := B) hC
  unfold Uninit.assertChipVersion; emits
theorem emits_initializeWithHost [Host H] (hr : Emits L (Host.refresh (H := H) (traced B)))
    (av : Bool) (h : H) (m : Mode) : Emits L (Uninit.initializeWithHost av (traced B) h m) := by
  have h1 := emits_assertChipVersion (B := B) hC 4
  have h2 := emits_resetChip (B := B) hC
  have h3 := emits_setModeDev (B := B) hC m
  unfold Uninit.initializeWithHost; emits

omit hC in
theorem emits_clearBuffers (hS : ∀ n, n < 8 → Allows L n) (l : List U8) (hl : ∀ i ∈ l, i.toNat < 8) :
    Emits L (RawDevice.clearBuffers (traced B) l) := by
  induction l with
  | nil => exact .pure _
  | cons i is ih =>
    have hi := hl i (by simp)
    have hs : IsSocket (Socket.new i) i.toNat := ⟨hi, by simp⟩
    have h1 := (hS _ hi).wr (B := B) hs (d := [0]) (by decide : (socketn.TXBUF_SIZE, 1) ∈ sockWritable) (by decide)
      ⟨fun h => absurd h (by decide), fun h => absurd h (by decide), fun _ => by decide⟩
    have h2 := (hS _ hi).wr (B := B) hs (d := [0]) (by decide : (socketn.RXBUF_SIZE, 1) ∈ sockWritable) (by decide)
      ⟨fun h => absurd h (by decide), fun h => absurd h (by decide), fun _ => by decide⟩
    have h3 := ih (fun j hj => hl j (by simp [hj]))
    unfold RawDevice.clearBuffers
    exact .bind h1 fun _ => .bind h2 fun _ => h3
omit hC in
theorem emits_raw_new (hS : ∀ n, n < 8 → Allows L n) : Emits L (RawDevice.new (traced B)) := by
  have hs : IsSocket (Socket.new 0) 0 := ⟨by decide, rfl⟩
  have hL := hS 0 (by decide)
  have h1 := hL.wr (B := B) hs (d := [16]) (by decide : (socketn.TXBUF_SIZE, 1) ∈ sockWritable) (by decide)
      ⟨fun h => absurd h (by decide), fun h => absurd h (by decide), fun _ => by decide⟩
  have h2 := hL.wr (B := B) hs (d := [16]) (by decide : (socketn.RXBUF_SIZE, 1) ∈ sockWritable) (by decide)
      ⟨fun h => absurd h (by decide), fun h => absurd h (by decide), fun _ => by decide⟩
  have h3 := emits_clearBuffers (B := B) hS [1, 2, 3, 4, 5, 6, 7] (by decide)
  have h4 := hL.wr (B := B) hs (d := [(1 <<< 7) ||| socketn.Protocol.macRaw.toU8]) (by decide : (socketn.MODE, 1) ∈ sockWritable)
    (.inl (by decide)) ⟨fun _ => .inr ⟨rfl, by decide⟩, fun h => absurd h (by decide), fun h => absurd h (by decide)⟩
  have h5 := emits_command (B := B) hL hs .open (by decide)
  unfold RawDevice.new
  exact .mapErr _ (.bind h1 fun _ => .bind h2 fun _ => .bind h3 fun _ => .bind h4 fun _ =>
    .bind h5 fun _ => .pure _)
theorem emits_initializeMacraw (hS : ∀ n, n < 8 → Allows L n) (m : Mac) :
    Emits L (Uninit.initializeMacraw (traced B) m) := by
  have h1 := emits_raw_new (B := B) hS
  have h2 := hC.wr (B := B) (d := [0x80]) (by decide : (common.MODE, 1) ∈ commonWritable)
    ⟨fun _ => ⟨_, rfl, .inl rfl⟩, fun h => absurd h (by decide)⟩
  have h3 := hC.wr (B := B) (d := m.octets) (by show (common.MAC, 6) ∈ commonWritable; decide)
  unfold Uninit.initializeMacraw
  exact .bind (.mapErr _ h2) fun _ => .bind (.mapErr _ h3) fun _ => h1

end common
end W5500
