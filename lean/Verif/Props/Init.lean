import Verif.Proofs.Init
import Verif.Props.Tcp
import Verif.Props.Codecs
/-! # Initialisation: C24 – C29 -/

namespace W5500.Props
open W5500 W5500.Spec
variable {W E H : Type}

/-! ## C24 Nothing is written to an unexpected chip -/

/-- An initialisation that starts with the version check: the only transfer of a refused call is the read of VERSIONR
(0x39 in the common block). -/
def VersionChecked {α : Type} (B : Bus W E) (m : M W (InitializeError E) α) : Prop := ∀ w,
  (∀ x w1, B.readFrame w 0 0x39 [0] = (.ok (), [x], w1) → x ≠ 4 → m w = (.err .chipNotConnected, w1)) ∧
  (∀ e d w1, B.readFrame w 0 0x39 [0] = (.err e, d, w1) → m w = (.err (.spiError e), w1)) ∧
  (∀ a w', m w = (.ok a, w') → ∃ w1, B.readFrame w 0 0x39 [0] = (.ok (), [4], w1)) ∧
  (∀ w', m w = (.err .chipNotConnected, w') → ∃ x, B.readFrame w 0 0x39 [0] = (.ok (), [x], w') ∧ x ≠ 4)

theorem versionChecked {α : Type} (B : Bus W E) (rest : M W (InitializeError E) α)
    (hrest : ErrIn (fun e => e ≠ InitializeError.chipNotConnected) rest) :
    VersionChecked B (do Uninit.assertChipVersion B 0x4; rest) := by
  intro w
  have h4 : ∀ w1, B.readFrame w 0 0x39 [0] = (.ok (), [4], w1) → (do Uninit.assertChipVersion B 0x4; rest) w = rest w1 := by
    intro w1 h
    refine M.bind_ok (a := ()) ((M.bind_ok (M.mapErr_ok (read1_ok h))).trans rfl)
  have hne : ∀ x w1, B.readFrame w 0 0x39 [0] = (.ok (), [x], w1) → x ≠ 4 →
      (do Uninit.assertChipVersion B 0x4; rest) w = (.err .chipNotConnected, w1) := by
    intro x w1 h hx
    refine M.bind_err ((M.bind_ok (M.mapErr_ok (read1_ok h))).trans ?_)
    rw [if_pos hx]; rfl
  have herr : ∀ e d w1, B.readFrame w 0 0x39 [0] = (.err e, d, w1) →
      (do Uninit.assertChipVersion B 0x4; rest) w = (.err (.spiError e), w1) := by
    intro e d w1 h
    exact M.bind_err (M.bind_err (M.mapErr_err (read1_err h)))
  have hpanic : ∀ d w1, B.readFrame w 0 0x39 [0] = (.panic, d, w1) →
      (do Uninit.assertChipVersion B 0x4; rest) w = (.panic, w1) := by
    intro d w1 h
    refine M.bind_panic (M.bind_panic ?_)
    rw [M.mapErr_def, show version B w = _ from read1_panic h]
  have hfuel : ∀ d w1, B.readFrame w 0 0x39 [0] = (.fuel, d, w1) →
      (do Uninit.assertChipVersion B 0x4; rest) w = (.fuel, w1) := by
    intro d w1 h
    refine M.bind_fuel (M.bind_fuel ?_)
    rw [M.mapErr_def, show version B w = _ from read1_fuel h]
  refine ⟨hne, herr, fun a w' h => ?_, fun w' h => ?_⟩
  all_goals
    rcases readFrame1_cases B w 0 0x39 with ⟨x, w1, h1⟩ | ⟨e, d, w1, h1⟩ | ⟨d, w1, h1⟩ | ⟨d, w1, h1⟩
  · by_cases hx : x = 4
    · exact ⟨w1, hx ▸ h1⟩
    · rw [hne x w1 h1 hx] at h; cases h
  · rw [herr e d w1 h1] at h; cases h
  · rw [hpanic d w1 h1] at h; cases h
  · rw [hfuel d w1 h1] at h; cases h
  · by_cases hx : x = 4
    · subst hx
      rw [h4 w1 h1] at h
      exact absurd rfl (hrest.run _ _ (congrArg Prod.fst h))
    · rw [hne x w1 h1 hx] at h
      obtain ⟨_, rfl⟩ := Prod.mk.inj h
      exact ⟨x, h1, hx⟩
  · rw [herr e d w1 h1] at h; cases h
  · rw [hpanic d w1 h1] at h; cases h
  · rw [hfuel d w1 h1] at h; cases h

theorem initializeWithHost_checked [Host H] (B : Bus W E) (host : H) (mode : Mode) :
    VersionChecked B (Uninit.initializeWithHost true B host mode) := by
  refine versionChecked B _ ?_
  errin

/-- C24, for the three initialisations with the version assertion (which is on unless the crate is built with the
feature `no-chip-version-assertion`). -/
theorem C24 (B : Bus W E) (mac : Mac) (ip gateway subnet : Ipv4) (mode : Mode) :
    VersionChecked B (Uninit.initialize true B mac mode) ∧
    VersionChecked B (Uninit.initializeManual true B mac ip mode) ∧
    VersionChecked B (Uninit.initializeAdvanced true B mac ip gateway subnet mode) :=
  ⟨initializeWithHost_checked _ _ _, initializeWithHost_checked _ _ _, initializeWithHost_checked _ _ _⟩

/-- C24 is not vacuous: the power-up chip passes the check, and a chip with another version register does not. -/
example :
    (Uninit.initialize true (Chip.dev demoSched noFaults).bus ⟨1, 2, 3, 4, 5, 6⟩ Mode.default Chip.powerUp).1 =
      .ok (DeviceState.new ⟨⟩) ∧
    (Uninit.initialize true (Chip.dev demoSched noFaults).bus ⟨1, 2, 3, 4, 5, 6⟩ Mode.default
      { Chip.powerUp with cmem := fun _ => 3 }).1 = .err .chipNotConnected := by
  decide +kernel

/-! ## C25 Manual initialisation programs the requested configuration -/

variable {sched : Nat → List (Nat × Act)} {faults : Nat → Option (E × Nat)}

/-- Mode bytes do not reset the chip. -/
theorem mode_no_reset (m : Mode) : m.toU8.getLsbD 7 = false := by
  rw [C06_mode_bits]; rfl

/-- The common block after reset and setting the mode. -/
def resetAndMode (mode : Mode) : RegFile :=
  { cmem := fun a => if a = 0x00 then mode.toU8 else Chip.commonReset a, smem := fun _ => RegFile.resetMem }

theorem initializeWithHost_ok [Host H] {assert : Bool} {host : H} {mode : Mode} {c c' : Chip} {st : DeviceState H}
    (h : Uninit.initializeWithHost assert (Chip.dev sched faults).bus host mode c = (.ok st, c')) :
    ∃ c1 host', (c1.regs = resetAndMode mode ∧ ∀ n, (c1.socks n).mem = RegFile.resetMem) ∧
      Host.refresh (Chip.dev sched faults).bus (host, c1) = (.ok (), (host', c')) ∧ st = DeviceState.new host' := by
  have key : ∀ c0, (do
      M.mapErr InitializeError.spiError (resetChip (Chip.dev sched faults).bus)
      M.mapErr .spiError (setMode (Chip.dev sched faults).bus mode)
      let (_, host) ← M.mapErr .spiError (M.withLocal host (Host.refresh (Chip.dev sched faults).bus))
      pure (DeviceState.new host)) c0 = (.ok st, c') → ∃ c1 host', (c1.regs = resetAndMode mode ∧ ∀ n, (c1.socks n).mem = RegFile.resetMem) ∧
      Host.refresh (Chip.dev sched faults).bus (host, c1) = (.ok (), (host', c')) ∧ st = DeviceState.new host' := by
    intro c0 h
    simp only [M.bind_eq_ok, M.mapErr_eq_ok, M.pure_eq_ok] at h
    obtain ⟨_, c1, h1, _, c2, h2, ⟨u, host'⟩, c3, h3, rfl, rfl⟩ := h
    refine ⟨c2, host', ?_, ?_, rfl⟩
    · refine ⟨?_, fun n => ?_⟩
      rotate_left
      · obtain ⟨a1, _, rfl⟩ := Chip.write1_ok (show (Chip.dev sched faults).bus.write 0 0 [0x80] c0 = _ from h1)
        obtain ⟨a2, e2, rfl⟩ := Chip.write1_ok (show (Chip.dev sched faults).bus.write 0 0 [mode.toU8] _ = _ from h2)
        have : ((a2.poke 0 0 mode.toU8).socks n) = a2.socks n := by
          unfold Chip.poke Chip.pokeCommon
          rw [if_pos rfl, if_neg (by decide), if_neg (fun h => by rw [mode_no_reset] at h; cases h.2)]
        exact (congrArg Sock.mem this).trans (Chip.mem_evolves e2 n)
      rw [Chip.regs_write_ok h2, Chip.regs_write_ok h1]
      have := mode_no_reset mode
      generalize mode.toU8 = x at this
      show RegFile.poke _ 0 0 mode.toU8 = _
      unfold RegFile.poke
      rw [if_pos rfl, if_neg (by decide), if_neg (fun h => by rw [mode_no_reset] at h; cases h.2)]
      rfl
    · unfold M.withLocal at h3
      rcases hr : Host.refresh (Chip.dev sched faults).bus (host, c2) with ⟨_ | _ | _ | _, b, c4⟩ <;> rw [hr] at h3
      · simp only [Prod.mk.injEq, Res.ok.injEq] at h3
        obtain ⟨⟨_, rfl⟩, rfl⟩ := h3
        rfl
      all_goals cases h3
  unfold Uninit.initializeWithHost at h
  dsimp only at h
  split at h
  · rw [M.bind_eq_ok] at h
    obtain ⟨_, c0, _, h⟩ := h
    exact key c0 h
  · exact key c h

theorem manualOk_new {mac : Mac} {ip gateway subnet : Ipv4} {c : Chip}
    (h : Configured c ⟨0, 0, 0, 0, 0, 0⟩ ⟨0, 0, 0, 0⟩ ⟨0, 0, 0, 0⟩ ⟨0, 0, 0, 0⟩) :
    ManualOk (Manual.new mac ip gateway subnet) c := by
  obtain ⟨h1, h2, h3, h4⟩ := h
  refine ⟨⟨fun e => ?_, fun e => ?_, fun e => ?_, fun e => ?_⟩, nofun⟩
  · rw [← e]; exact h1
  · rw [← e]; exact h2
  · rw [← e]; exact h3
  · rw [← e]; exact h4

theorem ManualOk.configured {m : Manual} {c : Chip} (h : ManualOk m c) (hs : m.isSetup = true) :
    Configured c m.settings.mac m.settings.ip m.settings.gateway m.settings.subnet := by
  have e := h.setup hs
  have := h.coherent
  exact ⟨this.gateway (by rw [e]), this.subnet (by rw [e]), this.mac (by rw [e]), this.ip (by rw [e])⟩

/-- C25: from any chip state, with any schedule of events and any failing transactions before: if
`initialize_advanced` succeeds, the chip holds the settings and the mode byte, and no socket is allocated. -/
theorem C25 (assert : Bool) (mac : Mac) (ip gateway subnet : Ipv4) (mode : Mode) (c c' : Chip) (st : DeviceState Manual)
    (h : Uninit.initializeAdvanced assert (Chip.dev sched faults).bus mac ip gateway subnet mode c = (.ok st, c')) :
    Configured c' mac ip gateway subnet ∧ (∀ i, (c'.cmem 0x00).getLsbD i = modeBit mode i) ∧ st.sockets = 0xFF := by
  obtain ⟨c1, host', ⟨h1, _⟩, h2, rfl⟩ := initializeWithHost_ok h
  have hc : c1.cmem = (resetAndMode mode).cmem := congrArg RegFile.cmem h1
  have hok : ManualOk (Manual.new mac ip gateway subnet) c1 :=
    manualOk_new (by unfold Configured ipAt macAt; rw [hc]; exact ⟨rfl, rfl, rfl, rfl⟩)
  have := (hoare_refresh (sched := sched) (faults := faults) ⟨mac, ip, gateway, subnet⟩).ok
    (s := (Manual.new mac ip gateway subnet, c1)) ⟨hok, rfl⟩ h2
  obtain ⟨⟨h3, h4⟩, h5⟩ := this
  have h6 := ManualOk.configured h3 h5
  rw [h4] at h6
  refine ⟨h6, ?_, rfl⟩
  have : c'.cmem 0x00 = c1.cmem 0x00 := by
    have h0 := (hoare_refresh_other (sched := sched) (faults := faults) (c1.cmem 0x00) 0x00 (.inl rfl)).ok
      (s := (Manual.new mac ip gateway subnet, c1)) rfl h2
    exact h0
  intro i
  rw [this, hc, ← C06_mode_bits]
  rfl

/-- The hypothesis of C25 is met: from a chip with leftovers in its registers, all-zero gateway. -/
example :
    let r := Uninit.initializeAdvanced true (Chip.dev demoSched noFaults).bus ⟨1, 2, 3, 4, 5, 6⟩ ⟨10, 0, 0, 9⟩ ⟨0, 0, 0, 0⟩
      ⟨255, 0, 0, 0⟩ Mode.default { Chip.powerUp with cmem := fun a => if a = 0x39 then 4 else 0x55 }
    r.1 = .ok ⟨⟨true, ⟨⟨1, 2, 3, 4, 5, 6⟩, ⟨10, 0, 0, 9⟩, ⟨0, 0, 0, 0⟩, ⟨255, 0, 0, 0⟩⟩,
      ⟨⟨1, 2, 3, 4, 5, 6⟩, ⟨10, 0, 0, 9⟩, ⟨0, 0, 0, 0⟩, ⟨255, 0, 0, 0⟩⟩⟩, 0xFF⟩ ∧
    ipAt r.2 0x01 = [0, 0, 0, 0] ∧ ipAt r.2 0x0F = [10, 0, 0, 9] := by
  decide +kernel

/-! ## C26 `initialize_manual` derives gateway and subnet -/

/-- C26, for every bus, and in terms of registers. -/
theorem C26 (assert : Bool) (B : Bus W E) (mac : Mac) (a b c d : U8) (mode : Mode) :
    Uninit.initializeManual assert B mac ⟨a, b, c, d⟩ mode =
      Uninit.initializeAdvanced assert B mac ⟨a, b, c, d⟩ ⟨a, b, c, 1⟩ ⟨255, 255, 255, 0⟩ mode := rfl

theorem C26_registers (assert : Bool) (mac : Mac) (a b c d : U8) (mode : Mode) (x x' : Chip) (st : DeviceState Manual)
    (h : Uninit.initializeManual assert (Chip.dev sched faults).bus mac ⟨a, b, c, d⟩ mode x = (.ok st, x')) :
    ipAt x' 0x01 = [a, b, c, 1] ∧ ipAt x' 0x05 = [255, 255, 255, 0] ∧ ipAt x' 0x0F = [a, b, c, d] := by
  obtain ⟨⟨h1, h2, _, h3⟩, _⟩ := C25 assert mac ⟨a, b, c, d⟩ ⟨a, b, c, 1⟩ ⟨255, 255, 255, 0⟩ mode x x' st h
  exact ⟨h1, h2, h3⟩

/-- It also succeeds. -/
example : (Uninit.initializeManual true (Chip.dev demoSched noFaults).bus ⟨1, 2, 3, 4, 5, 6⟩ ⟨10, 0, 0, 9⟩ Mode.default
    Chip.powerUp).1 = .ok ⟨⟨true, ⟨⟨1, 2, 3, 4, 5, 6⟩, ⟨10, 0, 0, 9⟩, ⟨10, 0, 0, 1⟩, ⟨255, 255, 255, 0⟩⟩,
      ⟨⟨1, 2, 3, 4, 5, 6⟩, ⟨10, 0, 0, 9⟩, ⟨10, 0, 0, 1⟩, ⟨255, 255, 255, 0⟩⟩⟩, 0xFF⟩ := by
  decide +kernel

/-! ## C27 `initialize` programs the given MAC address: it does not -/

/-- Full statement (false, see `C27_refuted`): after a successful `initialize(mac, mode)`, SHAR holds `mac`. What holds:
SHAR holds zeros, so this is the case exactly for the all-zero address; the mode is programmed. -/
theorem C27_partial (assert : Bool) (mac : Mac) (mode : Mode) (c c' : Chip) (st : DeviceState Dhcp)
    (h : Uninit.initialize assert (Chip.dev sched faults).bus mac mode c = (.ok st, c')) :
    macAt c' 0x09 = [0, 0, 0, 0, 0, 0] ∧ (macAt c' 0x09 = [mac.o0, mac.o1, mac.o2, mac.o3, mac.o4, mac.o5] ↔ mac = ⟨0, 0, 0, 0, 0, 0⟩) ∧
      ∀ i, (c'.cmem 0x00).getLsbD i = modeBit mode i := by
  obtain ⟨c1, host', ⟨h1, _⟩, h2, rfl⟩ := initializeWithHost_ok h
  obtain ⟨_, h2⟩ := Prod.mk.inj (h2 : (Res.ok (), (Dhcp.new mac, c1)) = _)
  obtain ⟨_, rfl⟩ := Prod.mk.inj h2
  have hc : c1.cmem = (resetAndMode mode).cmem := congrArg RegFile.cmem h1
  have hm : macAt c1 0x09 = [0, 0, 0, 0, 0, 0] := by unfold macAt; rw [hc]; rfl
  refine ⟨hm, ?_, fun i => ?_⟩
  · rw [hm]
    obtain ⟨o0, o1, o2, o3, o4, o5⟩ := mac
    simp only [List.cons.injEq, Mac.mk.injEq, and_true]
    exact ⟨fun h => ⟨h.1.symm, h.2.1.symm, h.2.2.1.symm, h.2.2.2.1.symm, h.2.2.2.2.1.symm, h.2.2.2.2.2.symm⟩,
      fun h => ⟨h.1.symm, h.2.1.symm, h.2.2.1.symm, h.2.2.2.1.symm, h.2.2.2.2.1.symm, h.2.2.2.2.2.symm⟩⟩
  · rw [hc, ← C06_mode_bits]; rfl

theorem C27_refuted : ¬ ∀ (mac : Mac) (mode : Mode) (c c' : Chip) (st : DeviceState Dhcp),
    Uninit.initialize true (Chip.dev demoSched noFaults).bus mac mode c = (.ok st, c') →
      macAt c' 0x09 = [mac.o0, mac.o1, mac.o2, mac.o3, mac.o4, mac.o5] := by
  intro h
  have := h ⟨1, 2, 3, 4, 5, 6⟩ Mode.default Chip.powerUp _ (DeviceState.new ⟨⟩) (run_eq (by decide +kernel))
  revert this
  decide +kernel

/-! ## C28 Host settings writing is resumable and idempotent -/

/-- A successful or unsuccessful refresh, other traffic and time keep the invariant. -/
theorem refreshes_ok {s s' : Manual × Chip} {S : HostConfig} (h : Refreshes sched faults s s')
    (h0 : ManualOk s.1 s.2 ∧ s.1.settings = S) : ManualOk s'.1 s'.2 ∧ s'.1.settings = S := by
  induction h with
  | start => exact h0
  | refresh r _ hr ih =>
    have := Hoare.both ((hoare_refresh (sched := sched) (faults := faults) S).post fun _ _ h => h.1) ih
    rw [hr] at this
    exact this
  | read block addr data _ ih => exact ⟨ih.1.of_cells (cells_read _ _ _), ih.2⟩
  | write block addr data _ ho ih => exact ⟨ih.1.of_cells (cells_write ho), ih.2⟩
  | pass _ hp ih => exact ⟨ih.1.of_cells (cells_evolves hp.evolves), ih.2⟩

/-- A host that is set up causes no traffic, on any bus. -/
theorem refresh_idle (B : Bus W E) (m : Manual) (h : m.isSetup = true) (w : W) :
    Manual.refresh B (m, w) = (.ok (), (m, w)) := by
  obtain ⟨_, _, _⟩ := m
  cases h
  rfl

theorem refreshes_setup {s s' : Manual × Chip} (h : Refreshes sched faults s s') (h0 : s.1.isSetup = true) : s'.1 = s.1 := by
  induction h with
  | start => rfl
  | refresh r _ hr ih =>
    rw [refresh_idle _ _ (by rw [ih]; exact h0)] at hr
    rw [← (Prod.mk.inj hr).2]
    exact ih
  | read _ _ _ _ ih => exact ih
  | write _ _ _ _ _ ih => exact ih
  | pass _ _ ih => exact ih

/-- C28: start with a new `Manual` on a chip whose settings registers are zero (as after a reset); let `refresh` be
called any number of times with any failures, mixed with any other traffic. Once a `refresh` succeeds, the chip holds
all four settings and keeps them over any further refreshes and other traffic, and no `refresh` causes traffic again. -/
theorem C28 (mac : Mac) (ip gateway subnet : Ipv4) (c0 c c' : Chip) (m m' : Manual)
    (h0 : Configured c0 ⟨0, 0, 0, 0, 0, 0⟩ ⟨0, 0, 0, 0⟩ ⟨0, 0, 0, 0⟩ ⟨0, 0, 0, 0⟩)
    (h : Refreshes sched faults (Manual.new mac ip gateway subnet, c0) (m, c))
    (hr : Manual.refresh (Chip.dev sched faults).bus (m, c) = (.ok (), (m', c'))) :
    ∀ m'' c'', Refreshes sched faults (m', c') (m'', c'') →
      Configured c'' mac ip gateway subnet ∧
      ∀ (W E : Type) (B : Bus W E) (w : W), Manual.refresh B (m'', w) = (.ok (), (m'', w)) := by
  intro m'' c'' h2
  have h1 := refreshes_ok h ⟨manualOk_new h0, rfl⟩
  have h3 := (hoare_refresh (sched := sched) (faults := faults) _).ok (s := (m, c)) h1 hr
  have h4 : m'' = m' := refreshes_setup h2 h3.2
  have h5 := refreshes_ok h2 h3.1
  subst h4
  have h6 := ManualOk.configured h5.1 h3.2
  rw [h5.2] at h6
  exact ⟨h6, fun W E B w => refresh_idle B _ h3.2 w⟩

/-- The second write of the first attempt breaks off after one byte of the subnet; the next attempt completes. -/
def brokenWrite : Nat → Option (Unit × Nat) := fun t => if t = 1 then some ((), 4) else none

/-- After the first attempt. -/
def brokenState : Manual × Chip := (Manual.refresh (Chip.dev demoSched brokenWrite).bus
  (Manual.new ⟨1, 2, 3, 4, 5, 6⟩ ⟨10, 0, 0, 9⟩ ⟨10, 0, 0, 1⟩ ⟨255, 255, 0, 0⟩, Chip.powerUp)).2

/-- The hypotheses of C28 are met by a history with a failed refresh. -/
example : Refreshes demoSched brokenWrite
    (Manual.new ⟨1, 2, 3, 4, 5, 6⟩ ⟨10, 0, 0, 9⟩ ⟨10, 0, 0, 1⟩ ⟨255, 255, 0, 0⟩, Chip.powerUp) brokenState ∧
    brokenState.1.isSetup = false ∧ ipAt brokenState.2 0x01 = [10, 0, 0, 1] ∧
    ipAt brokenState.2 0x05 = [255, 0, 0, 0] ∧ ipAt brokenState.2 0x0F = [0, 0, 0, 0] ∧
    (Manual.refresh (Chip.dev demoSched brokenWrite).bus brokenState).1 = .ok () := by
  refine ⟨.refresh _ .start rfl, ?_⟩
  decide +kernel

/-! ## C29 MACRAW initialisation -/

/-- Buffer sizes of 0 for a socket, by register block. -/
def noBuffers (reg : U8) : List Wr := [(reg, 0x1F, [0]), (reg, 0x1E, [0])]

/-- Reset; MAC address; 16 KiB for socket 0; nothing for the sockets 1 … 7 (register blocks 4n + 1); MACRAW mode with
MAC filter (bit 7); OPEN. -/
def macrawScript (mac : List U8) : List Wr :=
  [(0, 0x00, [0x80]), (0, 0x09, mac), (1, 0x1F, [16]), (1, 0x1E, [16])] ++ noBuffers 5 ++ noBuffers 9 ++ noBuffers 13 ++
  noBuffers 17 ++ noBuffers 21 ++ noBuffers 25 ++ noBuffers 29 ++ [(1, 0x00, [0x84]), (1, 0x01, [0x01])]

/-- C29, on any bus: `initialize_macraw` performs exactly these writes in this order (up to the first error). -/
theorem C29_script (B : Bus W E) (mac : Mac) :
    Uninit.initializeMacraw B mac = (do
      M.mapErr .spiError (writeAll B (macrawScript [mac.o0, mac.o1, mac.o2, mac.o3, mac.o4, mac.o5]))
      pure ⟨Socket.new 0⟩) := by
  unfold Uninit.initializeMacraw macrawScript noBuffers RawDevice.new
  simp only [RawDevice.clearBuffers, List.cons_append, List.nil_append, writeAll, M.mapErr_bind, M.mapErr_pure, bind_assoc,
    pure_bind]
  rfl

/-- A socket that has just been opened has no data. -/
theorem open_empty (s : Sock) : (s.command 0x01).queue = [] ∧ (s.command 0x01).pending = [] := by
  have h1 : (s.command 0x01).rsr = 0 := by
    show (_ - _ : U16) = 0
    exact BitVec.sub_self _
  have h2 : (s.command 0x01).txLimit - (s.command 0x01).txRd = 0 := BitVec.sub_self _
  unfold Sock.queue Sock.pending
  rw [h1, h2]
  exact ⟨rfl, rfl⟩

/-- C29, on the chip: whatever state it was in, after a successful `initialize_macraw` it has been reset, has the MAC
address, all memory is socket 0's, and that socket is in MACRAW state (0x42) with MAC filtering and empty buffers. -/
theorem C29 (mac : Mac) (c c' : Chip) (d : RawDevice)
    (h : Uninit.initializeMacraw (Chip.dev sched faults).bus mac c = (.ok d, c')) :
    macAt c' 0x09 = [mac.o0, mac.o1, mac.o2, mac.o3, mac.o4, mac.o5] ∧ (∀ a : U16, a.toNat < 0x09 ∨ 0x0E < a.toNat → c'.cmem a = Chip.commonReset a) ∧
    (c'.socks 0).rxSize = 16384 ∧ (c'.socks 0).txSize = 16384 ∧ (c'.socks 0).mem 0x00 = 0x84 ∧
    (c'.socks 0).sr = 0x42 ∧ (c'.socks 0).queue = [] ∧ (c'.socks 0).pending = [] ∧
    (∀ n, 1 ≤ n → n < 8 → (c'.socks n).rxSize = 0 ∧ (c'.socks n).txSize = 0 ∧ (c'.socks n).mem 0x00 = 0) ∧
    d.rawSocket.index = 0 := by
  rw [C29_script] at h
  simp only [M.bind_eq_ok, M.mapErr_eq_ok, M.pure_eq_ok] at h
  obtain ⟨_, _, h, rfl, e⟩ := h
  rw [e] at h
  have hr := Chip.regs_writeAll h
  have hcm : c'.cmem = (c.regs.run (macrawScript [mac.o0, mac.o1, mac.o2, mac.o3, mac.o4, mac.o5])).cmem := congrArg RegFile.cmem hr
  have hsm : ∀ n a, a ≠ 0x24 ∧ a ≠ 0x25 ∧ a ≠ 0x28 ∧ a ≠ 0x29 →
      (c'.socks n).mem a = (c.regs.run (macrawScript [mac.o0, mac.o1, mac.o2, mac.o3, mac.o4, mac.o5])).smem n a := fun n a ha =>
    (unptr_ne ha).symm.trans (congrFun (congrFun (congrArg RegFile.smem hr) n) a)
  have hcm : c'.cmem = (RegFile.afterReset.store 0 0x09 [mac.o0, mac.o1, mac.o2, mac.o3, mac.o4, mac.o5]).cmem := hcm
  have hsplit : macrawScript [mac.o0, mac.o1, mac.o2, mac.o3, mac.o4, mac.o5] = (macrawScript [mac.o0, mac.o1, mac.o2, mac.o3, mac.o4, mac.o5]).take 19 ++ [(1, 0x01, [0x01])] := rfl
  rw [hsplit, writeAll_append, M.bind_eq_ok, ] at h
  obtain ⟨_, c1, h1, h2⟩ := h
  rw [writeAll_one] at h2
  have hp : (c1.socks 0).mem 0x00 = 0x84 :=
    congrFun (congrFun (congrArg RegFile.smem (Chip.regs_writeAll h1)) 0) 0x00
  obtain ⟨c2, e1, e2⟩ := Chip.write1_ok h2
  have hs : c'.socks 0 = (c2.socks 0).command 0x01 := by rw [e2]; rfl
  have hp2 : (c2.socks 0).proto = 4 := by
    unfold Sock.proto
    rw [show (c2.socks 0).mem 0 = (c1.socks 0).mem 0 from
      congrFun (congrFun (congrArg RegFile.smem (Chip.regs_evolves e1)) 0) 0, hp]
    rfl
  refine ⟨?_, ?_, ?_, ?_, ?_, ?_, ?_, ?_, ?_, rfl⟩
  · unfold macAt; rw [hcm]; rfl
  · intro a ha
    rw [hcm]
    refine (RegFile.store_other RegFile.afterReset 0x09 a [mac.o0, mac.o1, mac.o2, mac.o3, mac.o4, mac.o5]
      (show ∀ i, i < 6 → (0x09 : U16) + BitVec.ofNat 16 i ≠ 0 by decide) ?_).1
    · intro i hi e
      have hi : i < 6 := hi
      have := congrArg BitVec.toNat e
      rw [BitVec.toNat_add, BitVec.toNat_ofNat, show BitVec.toNat (0x09 : U16) = 9 from rfl] at this
      omega
  · unfold Sock.rxSize; rw [hsm _ _ (by decide)]; rfl
  · unfold Sock.txSize; rw [hsm _ _ (by decide)]; rfl
  · rw [hsm _ _ (by decide)]; rfl
  · rw [hs]
    unfold Sock.command
    rw [if_pos rfl]
    show (if (c2.socks 0).proto = 1 then _ else _) = _
    rw [hp2]; rfl
  · rw [hs]; exact (open_empty _).1
  · rw [hs]; exact (open_empty _).2
  · intro n h1 h8
    unfold Sock.rxSize Sock.txSize
    rw [hsm _ _ (by decide), hsm _ _ (by decide), hsm _ _ (by decide)]
    obtain rfl | rfl | rfl | rfl | rfl | rfl | rfl : n = 1 ∨ n = 2 ∨ n = 3 ∨ n = 4 ∨ n = 5 ∨ n = 6 ∨ n = 7 := by omega
    all_goals exact ⟨rfl, rfl, rfl⟩

/-- It also succeeds. -/
example : (Uninit.initializeMacraw (Chip.dev demoSched noFaults).bus ⟨1, 2, 3, 4, 5, 6⟩ Chip.powerUp).1 =
    .ok ⟨Socket.new 0⟩ := by
  decide +kernel

end W5500.Props
