import Verif.Proofs.Tally
import Verif.Props.Slow
/-! # C133 The bus errors a program sees are the transfers that failed -/

namespace W5500.Props
open W5500 W5500.Spec
variable {W E H : Type}

/-- C133, any bus: the bus errors in the results of a program's calls are the errors of the transfers that failed: all of them, in
order, each once. -/
theorem C133 (B : Bus W E) (c : Client (TW W E) H) (ops : List (Nat × Op Unit)) :
    ∃ evs, (c.after (traced B) (onBusType _ ops)).dev.bus.log = c.dev.bus.log ++ evs ∧
      (c.outputs (traced B) (onBusType _ ops)).filterMap Seen.bus = evs.filterMap failure := by
  obtain ⟨evs, h1, h2⟩ := program_tally (B := B) c ops
  exact ⟨evs, h1, h2.symm⟩

theorem boot_tally {B : Bus W E} {init : M (TW W E) (InitializeError E) (DeviceState H)} (hi : FailStop InitializeError.spiError init)
    (ops : List (Nat × Op Unit)) (w : TW W E) :
    ∃ evs, (bootProgram (traced B) init ops w).2.log = w.log ++ evs ∧
      evs.filterMap failure = (inInit (bootProgram (traced B) init ops w).1.1).toList ++
        (bootProgram (traced B) init ops w).1.2.filterMap Seen.bus := by
  obtain ⟨e1, h1, h2⟩ := FailStop.init hi w
  unfold bootProgram
  generalize init w = r at h1 h2
  obtain ⟨st | e | _ | _, w'⟩ := r
  · obtain ⟨e2, h3, h4⟩ := program_tally (B := B) (⟨⟨w', st⟩, [], []⟩ : Client (TW W E) H) ops
    refine ⟨e1 ++ e2, ?_, ?_⟩
    · rw [← List.append_assoc, ← show w'.log = w.log ++ e1 from h1]
      exact h3
    · rw [List.filterMap_append, h2, h4]
  all_goals exact ⟨e1, h1, h2.trans (List.append_nil _).symm⟩

theorem raw_tally {B : Bus W E} (mac : Mac) (os : List (Nat × RawCall)) (w : TW W E) :
    ∃ evs, (rawProgram (traced B) mac os w).2.log = w.log ++ evs ∧
      evs.filterMap failure = (inInit (rawProgram (traced B) mac os w).1.1).toList ++
        (rawProgram (traced B) mac os w).1.2.filterMap RawSeen.bus := by
  obtain ⟨e1, h1, h2⟩ := FailStop.init (fs_initializeMacraw (B := B) mac) w
  unfold rawProgram
  generalize Uninit.initializeMacraw (traced B) mac w = r at h1 h2
  obtain ⟨d | e | _ | _, w'⟩ := r
  · obtain ⟨e2, h3, h4⟩ := rawCalls_tally (B := B) d os w'
    refine ⟨e1 ++ e2, ?_, ?_⟩
    · rw [← List.append_assoc, ← show w'.log = w.log ++ e1 from h1]
      exact h3
    · rw [List.filterMap_append, h2, h4]
  all_goals exact ⟨e1, h1, h2.trans (List.append_nil _).symm⟩

/-- C133, programs that begin with an initialisation, which may be the call that fails. -/
theorem C133_boot (B : Bus W E) (av : Bool) (mac : Mac) (ip gateway subnet : Ipv4) (mode : Mode) (ops : List (Nat × Op Unit))
    (w : TW W E) :
    (let r := bootProgram (traced B) (Uninit.initializeAdvanced av (traced B) mac ip gateway subnet mode) ops w
     ∃ evs, r.2.log = w.log ++ evs ∧ (inInit r.1.1).toList ++ r.1.2.filterMap Seen.bus = evs.filterMap failure) ∧
    (let r := bootProgram (traced B) (Uninit.initialize av (traced B) mac mode) ops w
     ∃ evs, r.2.log = w.log ++ evs ∧ (inInit r.1.1).toList ++ r.1.2.filterMap Seen.bus = evs.filterMap failure) := by
  obtain ⟨e1, h1, h2⟩ := boot_tally (B := B) ((C19_init B av).2.2.1 mac ip gateway subnet mode) ops w
  obtain ⟨e2, h3, h4⟩ := boot_tally (B := B) ((C19_init B av).1 mac mode) ops w
  exact ⟨⟨e1, h1, h2.symm⟩, e2, h3, h4.symm⟩

/-- C133, MACRAW programs. -/
theorem C133_macraw (B : Bus W E) (mac : Mac) (os : List (Nat × RawCall)) (w : TW W E) :
    let r := rawProgram (traced B) mac os w
    ∃ evs, r.2.log = w.log ++ evs ∧ (inInit r.1.1).toList ++ r.1.2.filterMap RawSeen.bus = evs.filterMap failure := by
  obtain ⟨evs, h1, h2⟩ := raw_tally (B := B) mac os w
  exact ⟨evs, h1, h2.symm⟩

/-! ## On the chip -/

/-- C133 on the chip, on which the transfers that fail are given by their numbers. -/
theorem C133_chip (p : Plan E) (c : Client Chip H) (ops : List (Nat × Op Unit)) :
    (c.outputs p.bus (onBusType _ ops)).filterMap Seen.bus =
      failures p.faults c.dev.bus.txn (c.after p.bus (onBusType _ ops)).dev.bus.txn :=
  chip_tally (play_program (E := E) c.belongings ops) (f := fun x => x.1.filterMap Seen.bus)
    (fun w p => program_tally (B := p.bus) (c.belongings.client w) ops) p c.dev.bus

theorem C133_chip_macraw (p : Plan E) (mac : Mac) (os : List (Nat × RawCall)) (c : Chip) :
    let r := rawProgram p.bus mac os c
    (inInit r.1.1).toList ++ r.1.2.filterMap RawSeen.bus = failures p.faults c.txn r.2.txn :=
  chip_tally (play_rawProgram (E := E) mac os) (f := fun x => (inInit x.1).toList ++ x.2.filterMap RawSeen.bus)
    (fun w p => raw_tally (B := p.bus) mac os w) p c

theorem filterMap_all {α β : Type} {f : α → Option β} {l : List α} (h : ∀ x ∈ l, f x ≠ none) : (l.filterMap f).length = l.length := by
  induction l with
  | nil => rfl
  | cons x l ih =>
    rw [List.filterMap_cons]
    have h1 := h x List.mem_cons_self
    have h2 := ih fun y hy => h y (List.mem_cons_of_mem _ hy)
    rcases e : f x with _ | y
    · exact absurd e h1
    · exact congrArg (· + 1) h2

theorem outputs_length {B : Bus W E} (c : Client W H) (ops : List (Nat × Op W)) : (c.outputs B ops).length = ops.length := by
  induction ops generalizing c with
  | nil => rfl
  | cons o ops ih => exact congrArg (· + 1) (ih _)

/-- C133, trying again: if at most `N` transfers ever fail, then of any `N + 1` calls in a row — the same one tried again and again,
say — one does not return a bus error. -/
theorem C133_again {N : Nat} {p : Plan E} (h : AtMost N p.faults) (c : Client Chip H) (ops : List (Nat × Op Unit)) (hl : N < ops.length) :
    ∃ o ∈ c.outputs p.bus (onBusType _ ops), o.bus = none := by
  by_cases h1 : ∃ o ∈ c.outputs p.bus (onBusType _ ops), o.bus = none
  · exact h1
  · have h2 := filterMap_all (f := Seen.bus) (l := c.outputs p.bus (onBusType _ ops)) fun x hx e => h1 ⟨x, hx, e⟩
    have h3 := failures_length h c.dev.bus.txn (c.after p.bus (onBusType _ ops)).dev.bus.txn
    rw [← C133_chip, h2, outputs_length] at h3
    rw [onBusType, List.length_map] at h3
    omega

theorem rawCalls_length {W : Type} (B : Bus W E) (d : RawDevice) (os : List (Nat × RawCall)) (w : W) : (rawCalls B d os w).1.length = os.length := by
  induction os generalizing w with
  | nil => rfl
  | cons o os ih => exact congrArg (· + 1) (ih _)

/-- C133, trying again, for raw frames. -/
theorem C133_again_macraw {N : Nat} {p : Plan E} (h : AtMost N p.faults) (d : RawDevice) (c : Chip) (os : List (Nat × RawCall)) (hl : N < os.length) :
    ∃ o ∈ (rawCalls p.bus d os c).1, o.bus = none := by
  by_cases h1 : ∃ o ∈ (rawCalls p.bus d os c).1, o.bus = none
  · exact h1
  · have h2 := filterMap_all (f := RawSeen.bus) (l := (rawCalls p.bus d os c).1) fun x hx e => h1 ⟨x, hx, e⟩
    have h3 := failures_length h c.txn (rawCalls p.bus d os c).2.txn
    rw [← chip_tally (play_rawCalls (E := E) d os) (f := List.filterMap RawSeen.bus) (fun w p => rawCalls_tally (B := p.bus) d os w) p c, h2,
      rawCalls_length] at h3
    omega

/-! ## A case -/

/-- The second and the fourth transfer fail. -/
def twoFaults : Plan Nat := ⟨fun _ => [], fun i => if i = 1 then some (7, 2) else if i = 3 then some (8, 4) else none⟩

def sixCalls : List (Nat × Op Unit) :=
  [(9, .common .version), (9, .udpSocket), (9, .common .ip), (9, .common .version), (9, .common (.setRetryCount 3)), (9, .common .version)]

/-- Two of the calls return errors, those of the two transfers. -/
example : ((Client.initial Chip.powerUp ()).outputs twoFaults.bus (onBusType _ sixCalls)).map Seen.bus = [none, none, some 7, none, some 8, none] ∧
    failures twoFaults.faults 0 5 = [7, 8] ∧ ((Client.initial Chip.powerUp ()).after twoFaults.bus (onBusType _ sixCalls)).dev.bus.txn = 5 := by
  decide +kernel

example : AtMost 2 twoFaults.faults ∧ 2 < sixCalls.length := by
  refine ⟨⟨[1, 3], by decide, fun k hk => ?_⟩, by decide⟩
  by_cases h1 : k = 1
  · subst h1; decide
  · by_cases h3 : k = 3
    · subst h3; decide
    · exact absurd (show (if k = 1 then some (7, 2) else if k = 3 then some (8, 4) else none) = (none : Option (Nat × Nat)) by
        rw [if_neg h1, if_neg h3]) hk

/-- Raw frames: the initialisation fails. -/
example : inInit (rawProgram twoFaults.bus ⟨1, 2, 3, 4, 5, 6⟩ [(9, .clear)] Chip.powerUp).1.1 = some 7 := by decide +kernel

/-- Four calls on the device: two of them return errors. -/
example : ((rawCalls twoFaults.bus ⟨Socket.new 0⟩ [(9, .clear), (9, .clear), (9, .disable), (9, .clear)] Chip.powerUp).1.map RawSeen.bus) =
    [none, some 7, some 8, none] := by decide +kernel

end W5500.Props
