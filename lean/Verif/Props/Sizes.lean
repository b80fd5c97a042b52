import Verif.Props.Tcp
/-! # Size registers: C22, C23

`0x26` is Sn_RX_RSR and `0x20` is Sn_TX_FSR (datasheet 4.2). Both are 16-bit counters the chip changes while the host
reads them byte by byte. -/

namespace W5500.Props
open W5500 W5500.Spec
variable {W E H : Type} {sched : Nat → List (Nat × Act)} {faults : Nat → Option (E × Nat)}

/-- The 16-bit value assembled from the high byte of one value and the low byte of another. -/
def mixed (v w : U16) : U16 := (v.extractLsb' 8 8 : U8) ++ (w.extractLsb' 0 8 : U8)

theorem mixed_toNat (v w : U16) : (mixed v w).toNat = v.toNat / 256 * 256 + w.toNat % 256 := Sock.torn v w

/-! ## C22 Received size is a stable sample -/

/-- C22, any bus: the result was read twice in a row, and these two reads are the last transfers of the call. -/
theorem C22_stable (B : Bus W E) (s : Socket) (fuel : Nat) {w w' : W} {v : U16}
    (h : Socket.getReceiveSize B s fuel w = (.ok v, w')) :
    ∃ w1 w2 hi lo, B.readFrame w1 s.register 0x26 [0, 0] = (.ok (), [hi, lo], w2) ∧
      B.readFrame w2 s.register 0x26 [0, 0] = (.ok (), [hi, lo], w') ∧ v = hi ++ lo := by
  induction fuel generalizing w with
  | zero => cases h
  | succ k ih =>
    unfold Socket.getReceiveSize at h
    rw [M.bind_eq_ok] at h
    obtain ⟨v1, w1, h1, h⟩ := h
    rw [M.bind_eq_ok] at h
    obtain ⟨v2, w2, h2, h⟩ := h
    split at h
    · rename_i heq
      subst heq
      obtain ⟨rfl, rfl⟩ := M.pure_eq_ok.mp h
      obtain ⟨hi, lo, f1, rfl⟩ := Bus.read2_eq_ok.mp h1
      obtain ⟨hi', lo', f2, e⟩ := Bus.read2_eq_ok.mp h2
      obtain ⟨rfl, rfl⟩ := fromBeBytes_inj e
      exact ⟨w, w1, hi, lo, f1, f2, rfl⟩
    · exact ih h

/-- C22, counters: if a counter only grows, a pair of equal byte-by-byte samples is a value it had during the sampling,
namely when the second byte was read, and it does not exceed the current value. -/
theorem C22_samples (cnt : Nat → U16) (hmono : ∀ i j, i ≤ j → (cnt i).toNat ≤ (cnt j).toNat)
    {t1 t2 t3 t4 : Nat} (h12 : t1 ≤ t2) (h23 : t2 ≤ t3) (h34 : t3 ≤ t4)
    (h : mixed (cnt t1) (cnt t2) = mixed (cnt t3) (cnt t4)) :
    mixed (cnt t1) (cnt t2) = cnt t2 ∧ (mixed (cnt t1) (cnt t2)).toNat ≤ (cnt t4).toNat := by
  have := two_samples (hmono _ _ h12) (hmono _ _ h23) h
  have e : mixed (cnt t1) (cnt t2) = cnt t2 := this
  exact ⟨e, by rw [e]; exact hmono _ _ (Nat.le_trans h23 h34)⟩

/-- C22, chip: under any schedule of events and any faults, the result is a value Sn_RX_RSR had during the call, and it
does not exceed the current one. The hypothesis says that the socket has a legal buffer size and not more bytes queued
than fit. -/
theorem C22 (n : Nat) (hn : n < 8) (fuel : Nat) {c c' : Chip} {v : U16}
    (hz : Sock.GoodSize (c.socks n).rxSize) (hf : (c.socks n).rsr.toNat ≤ (c.socks n).rxSize)
    (h : Socket.getReceiveSize (Chip.dev sched faults).bus (Socket.new (BitVec.ofNat 8 n)) fuel c = (.ok v, c')) :
    (∃ s, (c.socks n).Evolves s ∧ s.Evolves (c'.socks n) ∧ v = s.rsr) ∧
      v.toNat ≤ (c'.socks n).rsr.toNat := by
  have hP : StableS (fun s => Sock.RxFits s ∧ (c.socks n).Evolves s) :=
    Sock.stable_rxFits.and (fun s a e => e.trans (.act s a))
  obtain ⟨h1, s, h2, h3, h4⟩ := (hs_receiveSize (sched := sched) (faults := faults) hn hP (fun s h => h.1) fuel).ok
    (s := c) ⟨⟨hz, hf⟩, .refl _⟩ h
  exact ⟨⟨s, h2.2, h3, h4⟩, by rw [h4]; exact Sock.rsr_mono' h2.1 h3⟩

/-! A single sample can be a value the counter never had: 0x00FF, then 0x0100. -/
example : mixed 0x00FF 0x0100 = 0 := by decide

/-- C22 is not vacuous: three bytes arrive on the connected socket. -/
example : (Socket.getReceiveSize (Chip.dev demoSched noFaults).bus (Socket.new 0) 9 demoConnected.bus).1 = .ok 3 ∧
    Sock.GoodSize (demoConnected.bus.socks 0).rxSize ∧
    (demoConnected.bus.socks 0).rsr.toNat ≤ (demoConnected.bus.socks 0).rxSize := by
  refine ⟨by decide +kernel, .inr (.inl ?_), ?_⟩ <;> decide +kernel

/-- Bytes keep arriving between the two bytes of a sample. -/
example :
    let sched : Nat → List (Nat × Act) := fun t =>
      if t = 1 then [(0, .arrive (List.replicate 255 1))] else if t = 2 then [(0, .arrive [1])] else []
    let c : Chip := demoConnected.bus
    (Socket.getReceiveSize (Chip.dev sched noFaults).bus (Socket.new 0) 9
      { c with clock := 1, socks := fun n => { c.socks n with rxWr := 0, rxRd := 0 } }).1 = .ok 256 := by
  decide +kernel

/-! ## C23 Free-size sample never overestimates -/

/-- C23, counters: one byte-by-byte sample of a counter that only grows never exceeds its value at the end. -/
theorem C23_samples (cnt : Nat → U16) (hmono : ∀ i j, i ≤ j → (cnt i).toNat ≤ (cnt j).toNat) {t1 t2 : Nat}
    (h : t1 ≤ t2) : (mixed (cnt t1) (cnt t2)).toNat ≤ (cnt t2).toNat := by
  have := hmono _ _ h
  rw [mixed_toNat]
  omega

/-- C23, chip: under any schedule of events and any faults the sampled free size is at most the real one at the end of
the read. The hypotheses say that the socket has a legal buffer size, that what is in the buffer fits, and that nothing
is written behind the last SEND (the situation in which the driver reads the register). -/
theorem C23 (n : Nat) (hn : n < 8) {c c' : Chip} {v : U16} (hz : Sock.GoodSize (c.socks n).txSize)
    (hf : ((c.socks n).txRd - (c.socks n).una).toNat + ((c.socks n).txLimit - (c.socks n).txRd).toNat ≤
      (c.socks n).txSize)
    (hi : (c.socks n).txWr = (c.socks n).txLimit)
    (h : Socket.getTxFreeSize (Chip.dev sched faults).bus (Socket.new (BitVec.ofNat 8 n)) c = (.ok v, c')) :
    v.toNat ≤ (c'.socks n).fsr.toNat ∧ (c'.socks n).fsr.toNat ≤ (c'.socks n).txSize := by
  have hP : StableS (fun s => Sock.TxBase s ∧ s.txWr = s.txLimit) :=
    Sock.stable_txBase.and (fun s a h => by rw [Sock.act_txWr, Sock.act_txLimit]; exact h)
  obtain ⟨⟨h1, h2⟩, h3, _⟩ := (hs_readFree (sched := sched) (faults := faults) hn hP (fun s h => h)).ok
    (s := c) ⟨⟨hz, hf⟩, hi⟩ h
  rw [Sock.fsr_eq h1 h2]
  omega

/-- C23 is not vacuous: `send` of three bytes leaves them in the buffer, and an acknowledgement comes between the two
bytes of the sample. -/
example :
    let sched : Nat → List (Nat × Act) := fun t => if t = 1 then [(0, .transmit 9), (0, .ack 9)] else []
    let d : Device Chip Unit :=
      (Device.tcpSend (Chip.dev (fun _ => []) noFaults).bus 9 demoSocket [1, 2, 3]
        { demoConnected with bus := { demoConnected.bus with
            socks := fun n => { demoConnected.bus.socks n with ir := 0x10 } } }).2
    let r := Socket.getTxFreeSize (Chip.dev sched noFaults).bus (Socket.new 0) { d.bus with clock := 0 }
    (d.bus.socks 0).fsr = 2045 ∧ r.1 = .ok 0x0700 ∧ (r.2.socks 0).fsr = 0x0800 := by
  decide +kernel

end W5500.Props
