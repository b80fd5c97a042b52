import Verif.Props.Init
/-! # Registers: C30, C59 -/

namespace W5500.Props
open W5500 W5500.Spec
variable {W E H : Type} {sched : Nat → List (Nat × Act)} {faults : Nat → Option (E × Nat)}

/-! ## C30 Register getters return what was set -/

/-- A chip that differs in some cells only. -/
theorem holds_mono {c c' : Chip} {K K' : Known} (h : K.Holds c)
    (P : U16 → Prop) (hP : ∀ a, ¬ P a → c'.cmem a = c.cmem a) (h39 : ¬ P 0x39)
    (h1 : ∀ t, K'.retryTime = some t → (K.retryTime = some t ∧ ¬ P 0x19 ∧ ¬ P 0x1A) ∨
      [c'.cmem 0x19, c'.cmem 0x1A] = be t.toNat)
    (h2 : ∀ n, K'.retryCount = some n → (K.retryCount = some n ∧ ¬ P 0x1B) ∨ c'.cmem 0x1B = n)
    (h3 : ∀ m, K'.mode = some m → (K.mode = some m ∧ ¬ P 0x00) ∨ c'.cmem 0x00 = m)
    (h4 : K'.gateway = K.gateway) (h5 : K'.subnet = K.subnet) (h6 : K'.mac = K.mac) (h7 : K'.ip = K.ip)
    (h8 : ∀ a : U16, 0 < a.toNat → a.toNat ≤ 0x12 → ¬ P a) : K'.Holds c' := by
  have hs : SameCells c c' := fun a ha hb => hP a (h8 a ha hb)
  refine ⟨fun t ht => ?_, fun n hn => ?_, fun m hm => ?_, fun a ha => ?_, fun a ha => ?_, fun a ha => ?_, fun a ha => ?_, ?_⟩
  · rcases h1 t ht with ⟨h, p, q⟩ | h'
    · rw [hP _ p, hP _ q]; exact Known.Holds.retryTime ‹_› t h
    · exact h'
  · rcases h2 n hn with ⟨h', p⟩ | h'
    · rw [hP _ p]; exact h.retryCount n h'
    · exact h'
  · rcases h3 m hm with ⟨h', p⟩ | h'
    · rw [hP _ p]; exact h.mode m h'
    · exact h'
  · rw [hs.ipAt _ (by decide) (by decide)]; exact h.gateway a (h4 ▸ ha)
  · rw [hs.ipAt _ (by decide) (by decide)]; exact h.subnet a (h5 ▸ ha)
  · rw [hs.macAt]; exact h.mac a (h6 ▸ ha)
  · rw [hs.ipAt _ (by decide) (by decide)]; exact h.ip a (h7 ▸ ha)
  · rw [hP _ h39]; exact h.version

theorem holds_reset {c : Chip} (h : c.cmem = Chip.commonReset) : Known.reset.Holds c := by
  constructor
  · intro t ht; cases ht; rw [h]; rfl
  · intro t ht; cases ht; rw [h]; rfl
  · intro t ht; cases ht; rw [h]; rfl
  · intro t ht; cases ht; unfold ipAt; rw [h]; rfl
  · intro t ht; cases ht; unfold ipAt; rw [h]; rfl
  · intro t ht; cases ht; unfold macAt; rw [h]; rfl
  · intro t ht; cases ht; unfold ipAt; rw [h]; rfl
  · rw [h]; rfl

theorem ifOk_eq {E α : Type} {r : Res E Unit} {a b : α} (h : ifOk r a = some b) : r = .ok () ∧ a = b := by
  unfold ifOk at h
  split at h
  · exact ⟨rfl, Option.some.inj h⟩
  · cases h

/-- Writing the mode register without reset bit, or a part of such a frame. -/
theorem write_mode {c c' : Chip} {x : U8} {r : Res E Unit} (hx : x.getLsbD 7 = false)
    (h : (Chip.dev sched faults).bus.write 0 0x00 [x] c = (r, c')) :
    (∀ a, ¬ a = 0x00 → c'.cmem a = c.cmem a) ∧ (r = .ok () → c'.cmem 0x00 = x) := by
  obtain ⟨k, hk, e⟩ := Chip.regs_write h
  have hp : c.regs.poke 0 0x00 x = { c.regs with cmem := fun b => if b = 0x00 then x else c.cmem b } := by
    unfold RegFile.poke
    rw [if_pos rfl, if_neg (by decide), if_neg (fun h => by rw [hx] at h; cases h.2)]
    rfl
  cases k with
  | zero => exact ⟨fun a _ => congrFun (congrArg RegFile.cmem e) a, fun h => by cases hk h⟩
  | succ k =>
    have e : c'.regs = c.regs.poke 0 0x00 x := by
      rw [show [x].take (k + 1) = [x] by simp] at e
      exact e
    rw [hp] at e
    exact ⟨fun a ha => (congrFun (congrArg RegFile.cmem e) a).trans (if_neg ha),
      fun _ => congrFun (congrArg RegFile.cmem e) 0x00⟩

/-- A write that misses a register, or hits the read-only VERSIONR. -/
theorem store_elsewhere (r : RegFile) {b : BitVec 5} {a : U16} {data : List U8} (x : U16)
    (h : b = 0 → ∀ i, i < data.length → a + BitVec.ofNat 16 i ≠ 0 ∧ (a + BitVec.ofNat 16 i ≠ x ∨ x = 0x39)) :
    (r.store b a data).cmem x = r.cmem x := by
  induction data generalizing r a with
  | nil => rfl
  | cons y ys ih =>
    have e : ∀ i, a + 1 + BitVec.ofNat 16 i = a + BitVec.ofNat 16 (i + 1) := fun i => by
      rw [BitVec.ofNat_add, BitVec.add_assoc, BitVec.add_comm (BitVec.ofNat 16 i)]; rfl
    show (RegFile.store (r.poke b a y) b (a + 1) ys).cmem x = _
    rw [ih _ fun hb i hi => by rw [e]; exact h hb (i + 1) (by simpa using hi)]
    unfold RegFile.poke
    split
    · rename_i hb
      have h0 := h hb 0 (by simp)
      simp only [BitVec.add_zero] at h0
      split
      · rfl
      rename_i h39
      rw [if_neg fun h => h0.1 h.1]
      refine if_neg fun hx => ?_
      rcases h0.2 with h | h
      · exact h hx.symm
      · exact h39 (hx.symm.trans h)
    · split <;> rfl

theorem holds_setters {c0 c : Chip} {K0 K : Known} (h0 : K0.Holds c0) (h : Setters sched faults c0 K0 c K) : K.Holds c := by
  induction h with
  | start => exact h0
  | retryTime t r _ hw ih =>
    refine holds_mono ih (fun a => a = 0x19 ∨ a = 0x1A) (fun a ha => ?_) (by decide) (fun t' ht => .inr ?_)
      (fun n hn => .inl ⟨hn, by decide⟩) (fun m hm => .inl ⟨hm, by decide⟩) rfl rfl rfl rfl (fun a h1 h2 => ?_)
    · refine Chip.write_cell (l := 2) rfl hw (by decide) fun i hi e => ha ?_
      obtain rfl | rfl : i = 0 ∨ i = 1 := by omega
      · exact .inl e.symm
      · exact .inr e.symm
    · obtain ⟨rfl, rfl⟩ := ifOk_eq ht
      rw [← toBeBytes_eq_be]
      have h1 := Chip.write_cell_ok (l := 2) hw rfl (by decide) (by decide) (by decide) 0 Nat.zero_lt_two
      have h2 := Chip.write_cell_ok (l := 2) hw rfl (by decide) (by decide) (by decide) 1 Nat.one_lt_two
      have h1 : _ = BitVec.extractLsb' 8 8 t := h1
      have h2 : _ = BitVec.extractLsb' 0 8 t := h2
      exact (congrArg (fun x => [x, _]) h1).trans (congrArg (fun x => [_, x]) h2)
    · rintro (rfl | rfl) <;> exact absurd h2 (by decide)
  | retryCount n r _ hw ih =>
    refine holds_mono ih (fun a => a = 0x1B) (fun a ha => ?_) (by decide) (fun t ht => .inl ⟨ht, by decide⟩)
      (fun n' hn => .inr ?_) (fun m hm => .inl ⟨hm, by decide⟩) rfl rfl rfl rfl (fun a h1 h2 => ?_)
    · refine Chip.write_cell (l := 1) rfl hw (by decide) fun i hi e => ha ?_
      obtain rfl : i = 0 := by omega
      exact e.symm
    · obtain ⟨rfl, rfl⟩ := ifOk_eq hn
      exact Chip.write_cell_ok (l := 1) hw rfl (by decide) (by decide) (by decide) 0 (by simp)
    · rintro rfl; exact absurd h2 (by decide)
  | mode m r _ hw ih =>
    have hm := write_mode (mode_no_reset m) hw
    refine holds_mono ih (fun a => a = 0x00) hm.1 (by decide) (fun t ht => .inl ⟨ht, by decide⟩)
      (fun n hn => .inl ⟨hn, by decide⟩) (fun m' hm' => .inr ?_) rfl rfl rfl rfl (fun a h1 h2 => ?_)
    · obtain ⟨rfl, rfl⟩ := ifOk_eq hm'
      exact hm.2 rfl
    · rintro rfl; exact absurd h1 (by decide)
  | reset r _ hw ih =>
    rename_i c c' K _
    obtain ⟨k, hk, e⟩ := Chip.regs_write hw
    have hc : c'.cmem = c.cmem ∨ c'.cmem = Chip.commonReset := by
      cases k with
      | zero => exact .inl (congrArg RegFile.cmem e)
      | succ k => rw [show [(0x80 : U8)].take (k + 1) = [0x80] by simp] at e; exact .inr (congrArg RegFile.cmem e)
    have h39 : c'.cmem 0x39 = 4 := by
      rcases hc with hc | hc
      · rw [hc]; exact ih.version
      · rw [hc]; rfl
    cases r with
    | ok u =>
      rw [hk rfl] at e
      exact holds_reset (congrArg RegFile.cmem e)
    | err _ => exact ⟨nofun, nofun, nofun, nofun, nofun, nofun, nofun, h39⟩
    | panic => exact ⟨nofun, nofun, nofun, nofun, nofun, nofun, nofun, h39⟩
    | fuel => exact ⟨nofun, nofun, nofun, nofun, nofun, nofun, nofun, h39⟩
  | read block addr data _ ih =>
    rename_i c K _
    have e := Chip.regs_readFrame (sched := sched) (faults := faults) c block addr data
    exact holds_mono ih (fun a => False) (fun a _ => congrFun (congrArg RegFile.cmem e) a) (by simp)
      (fun t ht => .inl ⟨ht, by simp⟩) (fun n hn => .inl ⟨hn, by simp⟩) (fun m hm => .inl ⟨hm, by simp⟩) rfl rfl rfl rfl
      (by simp)
  | write block addr data _ ho ih =>
    rename_i c K _
    obtain ⟨k, _, e⟩ := Chip.regs_write (sched := sched) (faults := faults) (c := c) (block := block) (a := addr)
      (data := data) (r := ((Chip.dev sched faults).bus.writeFrame c block addr data).1)
      (c' := ((Chip.dev sched faults).bus.writeFrame c block addr data).2) rfl
    refine holds_mono ih (fun a => 0x39 ≠ a ∧ 0x12 < a.toNat ∧ (a.toNat < 0x19 ∨ 0x1B < a.toNat)) (fun a ha => ?_) (by decide)
      (fun t ht => .inl ⟨ht, by decide, by decide⟩) (fun n hn => .inl ⟨hn, by decide⟩) (fun m hm => .inl ⟨hm, by decide⟩) rfl rfl
      rfl rfl (fun a h1 h2 h3 => by omega)
    refine (congrFun (congrArg RegFile.cmem e) a).trans ?_
    refine store_elsewhere c.regs a fun hb i hi => ?_
    have := ho hb i (by rw [List.length_take] at hi; omega)
    refine ⟨fun e => ?_, Decidable.or_iff_not_imp_right.mpr fun h39 e => ha ⟨fun h => h39 h.symm, e ▸ this⟩⟩
    rw [e] at this
    exact absurd this.1 (by decide)
  | pass _ hp ih =>
    exact holds_mono ih (fun a => False) (fun a _ => by rw [hp.evolves.cmem]) (by simp)
      (fun t ht => .inl ⟨ht, by simp⟩) (fun n hn => .inl ⟨hn, by simp⟩) (fun m hm => .inl ⟨hm, by simp⟩) rfl rfl rfl rfl
      (by simp)

theorem readIp_ok {c c' : Chip} {a : U16} {x : Ipv4} (h : readIp (Chip.dev sched faults).bus a c = (.ok x, c')) :
    ipAt c a = [x.a, x.b, x.c, x.d] := by
  unfold readIp at h
  rw [M.bind_eq_ok] at h
  obtain ⟨d, c1, h1, h2⟩ := h
  have hd := Chip.readBuf_common h1
  rw [show ([0, 0, 0, 0] : List U8).length = 4 from rfl, ← ipAt_eq] at hd
  subst hd
  obtain ⟨h2, _⟩ := Prod.mk.inj h2
  cases h2
  rfl

theorem read1_common {c c' : Chip} {a : U16} {x : U8} (h : (Chip.dev sched faults).bus.read1 0 a c = (.ok x, c')) :
    c.cmem a = x := by
  unfold Bus.read1 at h
  rw [M.bind_eq_ok] at h
  obtain ⟨d, c1, h1, h2⟩ := h
  have hd := Chip.readBuf_common h1
  have hd : d = [c.cmem a] := by rw [hd]; simp [List.range, List.range.loop]
  subst hd
  obtain ⟨h2, _⟩ := Prod.mk.inj h2
  cases h2
  rfl

/-- C30: after any history of calls of the setters (and of other traffic) from a chip that holds `K0`, the getters
return the value last set successfully; a setter only affects its own value, and a failed one leaves all the others.
The version is 4 throughout. -/
theorem C30 {c0 c : Chip} {K0 K : Known} (h0 : K0.Holds c0) (h : Setters sched faults c0 K0 c K) :
    (∀ t c' v, K.retryTime = some v → currentRetryTimeout (Chip.dev sched faults).bus c = (.ok t, c') → t.toU16 = v) ∧
    (∀ n c' v, K.retryCount = some v → currentRetryCount (Chip.dev sched faults).bus c = (.ok n, c') → n = v) ∧
    (∀ a c' v, K.gateway = some v → Device.gateway (Chip.dev sched faults).bus c = (.ok a, c') → a = v) ∧
    (∀ a c' v, K.subnet = some v → Device.subnetMask (Chip.dev sched faults).bus c = (.ok a, c') → a = v) ∧
    (∀ a c' v, K.mac = some v → Device.mac (Chip.dev sched faults).bus c = (.ok a, c') → a = v) ∧
    (∀ a c' v, K.ip = some v → Device.ip (Chip.dev sched faults).bus c = (.ok a, c') → a = v) ∧
    (∀ x c', version (Chip.dev sched faults).bus c = (.ok x, c') → x = 4) ∧
    (∀ v, K.mode = some v → c.cmem 0x00 = v) := by
  have hK := holds_setters h0 h
  have hip : ∀ {x y : Ipv4}, [x.a, x.b, x.c, x.d] = [y.a, y.b, y.c, y.d] → x = y := by
    rintro ⟨_, _, _, _⟩ ⟨_, _, _, _⟩ e
    simp only [List.cons.injEq] at e
    obtain ⟨rfl, rfl, rfl, rfl, _⟩ := e
    rfl
  refine ⟨fun t c' v hv hr => ?_, fun n c' v hv hr => ?_, fun a c' v hv hr => ?_, fun a c' v hv hr => ?_,
    fun a c' v hv hr => ?_, fun a c' v hv hr => ?_, fun x c' hr => ?_, hK.mode⟩
  · unfold currentRetryTimeout at hr
    rw [M.bind_eq_ok] at hr
    obtain ⟨d, c1, h1, h2⟩ := hr
    have hd := Chip.readBuf_common h1
    have hd : d = [c.cmem 0x19, c.cmem 0x1A] := by rw [hd]; simp [List.range, List.range.loop, common.RETRY_TIME]
    rw [hK.retryTime v hv] at hd
    subst hd
    obtain ⟨h2, _⟩ := Prod.mk.inj h2
    cases h2
    exact fromBeBytes_be v
  · rw [← read1_common hr]; exact hK.retryCount v hv
  · exact hip ((readIp_ok hr).symm.trans (hK.gateway v hv))
  · exact hip ((readIp_ok hr).symm.trans (hK.subnet v hv))
  · unfold Device.mac at hr
    rw [M.bind_eq_ok] at hr
    obtain ⟨d, c1, h1, h2⟩ := hr
    have hd := Chip.readBuf_common h1
    rw [show ([0, 0, 0, 0, 0, 0] : List U8).length = 6 from rfl, ← macAt_eq, show common.MAC = 0x09 from rfl,
      hK.mac v hv] at hd
    subst hd
    obtain ⟨h2, _⟩ := Prod.mk.inj h2
    cases h2
    rfl
  · exact hip ((readIp_ok hr).symm.trans (hK.ip v hv))
  · rw [← read1_common hr]; exact hK.version

/-- C09 (device): what `phy_config` returns is the PHY register of the chip, PHYCFGR at 0x2E: link, speed and duplex are its bits 0, 1
and 2, and the operation mode its bits 5..3. -/
theorem C09_device {c c' : Chip} {p : PhyConfig} (h : Device.phyConfig (Chip.dev sched faults).bus c = (.ok p, c')) :
    (p.linkUp = true ↔ (c.cmem 0x2E).toNat % 2 = 1) ∧
    (p.speed = .mbps100 ↔ (c.cmem 0x2E).toNat / 2 % 2 = 1) ∧
    (p.duplex = .fullDuplex ↔ (c.cmem 0x2E).toNat / 4 % 2 = 1) ∧
    ((c.cmem 0x2E).toNat / 8 % 8 ≠ 5 →
      ∃ m, p.operationMode = some m ∧ opmdc ((c.cmem 0x2E).toNat / 8 % 8) = some m) := by
  unfold Device.phyConfig at h
  rw [M.bind_eq_ok] at h
  obtain ⟨b, c1, h1, h2⟩ := h
  obtain ⟨h2, _⟩ := Prod.mk.inj h2
  cases h2
  rw [show c.cmem 0x2E = b from read1_common h1]
  exact ⟨(C09_phy_flags b).1, (C09_phy_flags b).2.1, (C09_phy_flags b).2.2, C09_operation_mode_partial b⟩

/-- What is known after `initialize_advanced`: C30 applies to a device from there on. -/
theorem C30_initialized (assert : Bool) (mac : Mac) (ip gateway subnet : Ipv4) (mode : Mode) (c c' : Chip)
    (st : DeviceState Manual)
    (h : Uninit.initializeAdvanced assert (Chip.dev sched faults).bus mac ip gateway subnet mode c = (.ok st, c')) :
    (⟨some 2000, some 8, some mode.toU8, some gateway, some subnet, some mac, some ip⟩ : Known).Holds c' := by
  obtain ⟨⟨g1, g2, g3, g4⟩, _⟩ := C25 _ _ _ _ _ _ _ _ _ h
  obtain ⟨c1, host', ⟨h1, _⟩, h2, rfl⟩ := initializeWithHost_ok h
  have hc : c1.cmem = (resetAndMode mode).cmem := congrArg RegFile.cmem h1
  have hcell : ∀ b : U16, b = 0 ∨ 0x12 < b.toNat → c'.cmem b = (resetAndMode mode).cmem b := fun b hb => by
    rw [← hc]
    exact (hoare_refresh_other (sched := sched) (faults := faults) (c1.cmem b) b hb).ok
      (s := (Manual.new mac ip gateway subnet, c1)) rfl h2
  constructor
  · intro t ht; cases ht; rw [hcell _ (by decide), hcell _ (by decide)]; rfl
  · intro t ht; cases ht; rw [hcell _ (by decide)]; rfl
  · intro t ht; cases ht; rw [hcell _ (by decide)]; rfl
  · intro t ht; cases ht; exact g1
  · intro t ht; cases ht; exact g2
  · intro t ht; cases ht; exact g3
  · intro t ht; cases ht; exact g4
  · rw [hcell _ (by decide)]; rfl

/-- `C09_device` is not vacuous: link up, 100 Mbit/s, full duplex, everything allowed. -/
example : ((Device.phyConfig (Chip.dev demoSched noFaults).bus Chip.powerUp).1 : Res Unit PhyConfig) = .ok ⟨0xBF⟩ := by decide +kernel

/-- A history: retry time 400 ms set, a broken retry count, and the getters afterwards. -/
example : ∃ c, Setters demoSched brokenWrite Chip.powerUp Known.reset c
    { Known.reset with retryTime := some 4000, retryCount := none } ∧
    (currentRetryTimeout (Chip.dev demoSched brokenWrite).bus c).1 = .ok ⟨4000⟩ := by
  refine ⟨_, .retryCount 3 (.err ()) (.retryTime 4000 (.ok ()) .start (run_eq (by decide +kernel)))
    (run_eq (by decide +kernel)), ?_⟩
  decide +kernel

/-! ## C59 MACRAW interrupt control -/

/-- C59, on any bus: the only traffic is Sn_IMR (0x2C) or Sn_IR (0x02) of socket 0 (block 1) and SIMR (0x18). -/
theorem C59_script (B : Bus W E) (m : U8) :
    RawDevice.enableInterrupts B ⟨Socket.new 0⟩ m = writeAll B [(1, 0x2C, [m]), (0, 0x18, [1])] ∧
    RawDevice.disableInterrupts B ⟨Socket.new 0⟩ = writeAll B [(0, 0x18, [0]), (1, 0x2C, [0xFF])] ∧
    RawDevice.clearInterrupts B ⟨Socket.new 0⟩ = writeAll B [(1, 0x02, [0xFF])] := by
  simp only [writeAll, bind_unit]
  exact ⟨rfl, rfl, rfl⟩

/-- Everything except socket 0's interrupt mask and the global mask is as before. -/
def MasksOnly (c c' : Chip) : Prop :=
  (∀ a, a ≠ 0x18 → c'.cmem a = c.cmem a) ∧ (∀ a, a ≠ 0x2C → (c'.socks 0).mem a = (c.socks 0).mem a) ∧
  ∀ n, n ≠ 0 → (c'.socks n).mem = (c.socks n).mem

/-- C59, on the chip. -/
theorem C59 (m : U8) (c c' : Chip) :
    (RawDevice.enableInterrupts (Chip.dev sched faults).bus ⟨Socket.new 0⟩ m c = (.ok (), c') →
      (c'.socks 0).mem 0x2C = m ∧ c'.cmem 0x18 = 1 ∧ MasksOnly c c') ∧
    (RawDevice.disableInterrupts (Chip.dev sched faults).bus ⟨Socket.new 0⟩ c = (.ok (), c') →
      c'.cmem 0x18 = 0 ∧ MasksOnly c c') ∧
    (RawDevice.clearInterrupts (Chip.dev sched faults).bus ⟨Socket.new 0⟩ c = (.ok (), c') →
      (c'.socks 0).ir = 0 ∧ c'.cmem = c.cmem ∧ ∀ n, (c'.socks n).mem = (c.socks n).mem) := by
  obtain ⟨e1, e2, e3⟩ := C59_script (Chip.dev sched faults).bus m
  rw [e1, e2, e3]
  have two : ∀ b1 b2 (a1 a2 : U16) (x1 x2 : U8) (c c' : Chip),
      writeAll (Chip.dev sched faults).bus [(b1, a1, [x1]), (b2, a2, [x2])] c = (.ok (), c') → ∃ c1 c2, c.Evolves c1 ∧
        (c1.poke (b1.setWidth 5) a1 x1).Evolves c2 ∧ c' = c2.poke (b2.setWidth 5) a2 x2 := by
    intro b1 b2 a1 a2 x1 x2 c c' h
    rw [writeAll, M.bind_eq_ok] at h
    obtain ⟨_, cm, h1, h2⟩ := h
    rw [writeAll_one] at h2
    obtain ⟨c1, e1, rfl⟩ := Chip.write1_ok h1
    obtain ⟨c2, e2, rfl⟩ := Chip.write1_ok h2
    exact ⟨c1, c2, e1, e2, rfl⟩
  refine ⟨fun h => ?_, fun h => ?_, fun h => ?_⟩
  · obtain ⟨c1, c2, e1, e2, rfl⟩ := two _ _ _ _ _ _ _ _ h
    have m1 := Chip.mem_evolves e1
    have m2 := Chip.mem_evolves e2
    have k1 := e1.cmem
    have k2 := e2.cmem
    refine ⟨congrFun (m2 0) 0x2C, rfl, fun a ha => ?_, fun a ha => ?_, fun n hn => ?_⟩
    · show (if a = 0x18 then _ else c2.cmem a) = _
      rw [if_neg ha, k2]
      exact congrFun k1 a
    · refine (congrFun (m2 0) a).trans ?_
      show (if a = 0x2C then _ else (c1.socks 0).mem a) = _
      rw [if_neg ha, m1]
    · refine (m2 n).trans ?_
      show (if n = 0 then _ else c1.socks n).mem = _
      rw [if_neg hn, m1]
  · obtain ⟨c1, c2, e1, e2, rfl⟩ := two _ _ _ _ _ _ _ _ h
    have m1 := Chip.mem_evolves e1
    have m2 := Chip.mem_evolves e2
    have k1 := e1.cmem
    have k2 := e2.cmem
    refine ⟨(congrFun k2 0x18).trans rfl, fun a ha => ?_, fun a ha => ?_, fun n hn => ?_⟩
    · refine (congrFun k2 a).trans ?_
      show (if a = 0x18 then _ else c1.cmem a) = _
      rw [if_neg ha]
      exact congrFun k1 a
    · show (if a = 0x2C then _ else (c2.socks 0).mem a) = _
      rw [if_neg ha, m2]
      exact congrFun (m1 0) a
    · show (if n = 0 then _ else c2.socks n).mem = _
      rw [if_neg hn, m2]
      exact m1 n
  · rw [writeAll_one] at h
    obtain ⟨c1, e1, rfl⟩ := Chip.write1_ok h
    refine ⟨?_, e1.cmem, fun n => ?_⟩
    · show (c1.socks 0).ir &&& ~~~0xFF = 0
      simp
    · by_cases hn : n = 0
      · subst hn; exact Chip.mem_evolves e1 0
      · show (if n = 0 then _ else c1.socks n).mem = _
        rw [if_neg hn]
        exact Chip.mem_evolves e1 n

/-- They also succeed. -/
example : (RawDevice.enableInterrupts (Chip.dev demoSched noFaults).bus ⟨Socket.new 0⟩ 0x14 Chip.powerUp).1 = .ok () := by
  decide +kernel

end W5500.Props
