import Verif.Spec.Tally
import Verif.Proofs.FailStop
import Verif.Proofs.Until
import Verif.Proofs.Reset
import Verif.Proofs.StrategyClient
/-! # Failed transfers and reported bus errors, counted -/

namespace W5500.Spec
open W5500
variable {W E ε α β H σ : Type} {B : Bus W E}

theorem failure_ok {evs : List (Ev E)} (h : ∀ e ∈ evs, e.res = .ok ()) : evs.filterMap failure = [] := by
  refine List.filterMap_eq_nil_iff.mpr fun e he => ?_
  have := h e he
  rcases e with ⟨_, _, _, r⟩ | ⟨_, _, _, r⟩ <;> (have : r = .ok () := this; subst this; rfl)

/-- A call shows the bus error `x`. -/
theorem StopsAt.tally {conv : E → ε} {f : Res ε α → Option E} (hf : ∀ e, f (.err (conv e)) = some e)
    (hn : ∀ r, (∀ e, r ≠ .err (conv e)) → f r = none) 
    {evs : List (Ev E)} {r : Res ε α} (h : StopsAt conv evs r) : evs.filterMap failure = (f r).toList := by
  rcases h with ⟨h1, h2⟩ | ⟨pre, last, rfl, h1, h2⟩
  · rw [failure_ok h1, hn r h2]; rfl
  · rw [List.filterMap_append, failure_ok h1, List.nil_append]
    have key : ∀ x : Res E Unit, (match x with
        | .ok _ => False
        | .err x => r = .err (conv x)
        | .panic => r = .panic
        | .fuel => r = .fuel) → ((match x with | .err e => some e | _ => none) : Option E).toList = (f r).toList := by
      rintro (_ | x | _ | _) h
      · exact h.elim
      · subst h; rw [hf]
      · subst h; rw [hn _ fun _ h => by cases h]
      · subst h; rw [hn _ fun _ h => by cases h]
    rcases last with ⟨_, _, _, x⟩ | ⟨_, _, _, x⟩ <;>
    · have := key x h2
      rw [← this]
      rcases x with _ | _ | _ | _ <;> rfl

/-- `m` reports every transfer that fails, and `f` finds it in the result. -/
def Tallies [HasLog σ E] (f : Res ε α → Option E) (m : M σ ε α) : Prop :=
  ∀ s, ∃ evs, HasLog.log (m s).2 = HasLog.log s ++ evs ∧ evs.filterMap failure = (f (m s).1).toList

theorem FailStop.bare [HasLog σ E] {m : M σ E α} (h : FailStop id m) : Tallies bare m := fun s => by
  obtain ⟨evs, h1, h2⟩ := h.run s
  refine ⟨evs, h1, StopsAt.tally (f := Spec.bare) (fun _ => rfl) ?_ h2⟩
  rintro (_ | e | _ | _) h
  · rfl
  · exact absurd rfl (h e)
  · rfl
  · rfl

theorem FailStop.udp [HasLog σ E] {m : M σ (UdpSocketError E) α} (h : FailStop .other m) : Tallies inUdp m := fun s => by
  obtain ⟨evs, h1, h2⟩ := h.run s
  refine ⟨evs, h1, StopsAt.tally (f := inUdp) (fun _ => rfl) ?_ h2⟩
  rintro (_ | e | _ | _) h
  · rfl
  · cases e <;> first | rfl | exact absurd rfl (h _)
  · rfl
  · rfl

theorem FailStop.nb [HasLog σ E] {m : M σ (NbError (UdpSocketError E)) α} (h : FailStop NbError.ofBus m) : Tallies inNb m := fun s => by
  obtain ⟨evs, h1, h2⟩ := h.run s
  refine ⟨evs, h1, StopsAt.tally (f := inNb) (fun _ => rfl) ?_ h2⟩
  rintro (_ | e | _ | _) h
  · rfl
  · rcases e with e | _
    · cases e <;> first | rfl | exact absurd rfl (h _)
    · rfl
  · rfl
  · rfl

theorem FailStop.tcp [HasLog σ E] {m : M σ (TcpSocketError E) α} (h : FailStop .other m) : Tallies inTcp m := fun s => by
  obtain ⟨evs, h1, h2⟩ := h.run s
  refine ⟨evs, h1, StopsAt.tally (f := inTcp) (fun _ => rfl) ?_ h2⟩
  rintro (_ | e | _ | _) h
  · rfl
  · cases e <;> first | rfl | exact absurd rfl (h _)
  · rfl
  · rfl

theorem FailStop.init [HasLog σ E] {m : M σ (InitializeError E) α} (h : FailStop .spiError m) : Tallies inInit m := fun s => by
  obtain ⟨evs, h1, h2⟩ := h.run s
  refine ⟨evs, h1, StopsAt.tally (f := inInit) (fun _ => rfl) ?_ h2⟩
  rintro (_ | e | _ | _) h
  · rfl
  · cases e <;> first | rfl | exact absurd rfl (h _)
  · rfl
  · rfl

/-- One call of a client. -/
theorem step_tally (fuel : Nat) (c : Client (TW W E) H) (o : Op Unit) :
    ∃ evs, (c.step (traced B) fuel (o.on _)).dev.bus.log = c.dev.bus.log ++ evs ∧
      evs.filterMap failure = ((c.seen (traced B) fuel (o.on _)).bus).toList := by
  have none : ∃ evs : List (Ev E), c.dev.bus.log = c.dev.bus.log ++ evs ∧ evs.filterMap failure = (Option.none : Option E).toList :=
    ⟨[], (List.append_nil _).symm, rfl⟩
  have onUdp : ∀ (i : Nat) {ε α : Type} {m : M (UdpSocket × Device (TW W E) H) ε α} {f : Res ε α → UdpSocket → Seen E}
      {g : Res ε α → Option E}, (∀ r u, (f r u).bus = g r) → Tallies g m →
      ∃ evs, (c.onUdp i m).dev.bus.log = c.dev.bus.log ++ evs ∧ evs.filterMap failure = ((c.seenUdp i m f).bus).toList := by
    intro i ε α m f g hg h
    unfold Client.onUdp Client.seenUdp
    rcases c.live[i]? with _ | u | t | s
    · exact none
    · obtain ⟨evs, h1, h2⟩ := h (u, c.dev)
      exact ⟨evs, h1, by rw [h2, ← hg]⟩
    · exact none
    · exact none
  cases o with
  | udpSocket =>
    obtain ⟨evs, h1, h2⟩ := (FailStop.udp (fs_udpSocket (W := W) (E := E) (H := H))) c.dev
    refine ⟨evs, ?_, h2⟩
    rw [← show HasLog.log c.dev = c.dev.bus.log from rfl, ← h1]
    show (c.alloc .udp (Device.udpSocket (E := E) c.dev)).dev.bus.log = _
    unfold Client.alloc
    split <;> rfl
  | tcpSocket =>
    obtain ⟨evs, h1, h2⟩ := (FailStop.tcp (fs_tcpSocket (W := W) (E := E) (H := H))) c.dev
    refine ⟨evs, ?_, h2⟩
    rw [← show HasLog.log c.dev = c.dev.bus.log from rfl, ← h1]
    show (c.alloc .tcp (Device.tcpSocket (E := E) c.dev)).dev.bus.log = _
    unfold Client.alloc
    split <;> rfl
  | takeSocket =>
    refine ⟨[], ?_, rfl⟩
    simp only [Client.step, Op.on, Device.takeSocket, List.append_nil]
    rcases c.dev.state.socket with ⟨_ | _, _⟩ <;> rfl
  | udpSetPort i p => exact onUdp i (fun _ _ => rfl) (FailStop.udp (.onSockBus (fs_setPort p)))
  | udpConnect i r => exact onUdp i (fun _ _ => rfl) (FailStop.udp (fs_udpConnect r))
  | udpBind i p => exact onUdp i (fun _ _ => rfl) (FailStop.udp (fs_udpBind p))
  | udpSend i b =>
    unfold Client.seen Client.step Op.on
    dsimp only
    rcases c.live[i]? with _ | u | t | s
    · exact none
    · exact (FailStop.nb (fs_udpSend fuel b)) c.dev
    · exact none
    · exact none
  | udpSendTo i r b => exact onUdp i (fun _ _ => rfl) (FailStop.nb (fs_udpSendTo fuel r b))
  | udpReceive i b =>
    unfold Client.seen Client.step Op.on
    dsimp only
    rcases c.live[i]? with _ | u | t | s
    · exact none
    · exact (FailStop.nb (fs_udpReceive fuel)) (b, c.dev)
    · exact none
    · exact none
  | udpClose i =>
    unfold Client.seen Client.step Op.on
    dsimp only
    rcases c.live[i]? with _ | u | t | s
    · exact none
    · exact (FailStop.udp fs_udpClose) c.dev
    · exact none
    · exact none
  | tcpConnect i r =>
    unfold Client.seen Client.step Op.on
    dsimp only
    rcases c.live[i]? with _ | u | t | s
    · exact none
    · exact none
    · exact (FailStop.tcp (fs_tcpConnect fuel r)) c.dev
    · exact none
  | tcpSend i b =>
    unfold Client.seen Client.step Op.on
    dsimp only
    rcases c.live[i]? with _ | u | t | s
    · exact none
    · exact none
    · exact (FailStop.tcp (fs_tcpSend fuel b)) c.dev
    · exact none
  | tcpReceive i b =>
    unfold Client.seen Client.step Op.on
    dsimp only
    rcases c.live[i]? with _ | u | t | s
    · exact none
    · exact none
    · exact (FailStop.tcp (fs_tcpReceive fuel)) (b, c.dev)
    · exact none
  | tcpClose i =>
    unfold Client.seen Client.step Op.on
    dsimp only
    rcases c.live[i]? with _ | u | t | s
    · exact none
    · exact none
    · exact (FailStop.tcp fs_tcpClose) c.dev
    · exact none
  | releaseSocket i =>
    unfold Client.seen Client.step Op.on
    dsimp only
    rcases c.live[i]? with _ | u | t | s
    · exact none
    · exact none
    · exact none
    · exact (FailStop.bare (.releaseSocket s)) c.dev
  | leak i =>
    unfold Client.seen Client.step Op.on
    dsimp only
    rcases c.live[i]? with _ | x
    · exact none
    · exact none
  | common o =>
    cases o with
    | gateway => exact (FailStop.bare (fs_readIp _)) c.dev.bus
    | subnetMask => exact (FailStop.bare (fs_readIp _)) c.dev.bus
    | mac => exact (FailStop.bare fs_mac) c.dev.bus
    | ip => exact (FailStop.bare (fs_readIp _)) c.dev.bus
    | phyConfig => exact (FailStop.bare fs_phyConfig) c.dev.bus
    | resetDevice => exact (FailStop.bare fs_resetChip) c.dev.bus
    | version => exact (FailStop.bare fs_version) c.dev.bus
    | currentRetryTimeout => exact (FailStop.bare fs_currentRetryTimeout) c.dev.bus
    | currentRetryCount => exact (FailStop.bare fs_currentRetryCount) c.dev.bus
    | setMode m => exact (FailStop.bare (fs_setModeDev m)) c.dev.bus
    | setRetryTimeout t => exact (FailStop.bare (fs_setRetryTimeout t)) c.dev.bus
    | setRetryCount n => exact (FailStop.bare (fs_setRetryCount n)) c.dev.bus
  | reactivate g => exact none

theorem program_tally (c : Client (TW W E) H) (ops : List (Nat × Op Unit)) :
    ∃ evs, (c.after (traced B) (onBusType _ ops)).dev.bus.log = c.dev.bus.log ++ evs ∧
      evs.filterMap failure = (c.outputs (traced B) (onBusType _ ops)).filterMap Seen.bus := by
  induction ops generalizing c with
  | nil => exact ⟨[], (List.append_nil _).symm, rfl⟩
  | cons o ops ih =>
    obtain ⟨e1, h1, h2⟩ := step_tally (B := B) o.1 c o.2
    obtain ⟨e2, h3, h4⟩ := ih (c.step (traced B) o.1 (o.2.on _))
    refine ⟨e1 ++ e2, ?_, ?_⟩
    · rw [← List.append_assoc, ← h1]
      exact h3
    · rw [List.filterMap_append, h2, h4]
      show _ = List.filterMap Seen.bus (c.seen (traced B) o.1 (o.2.on _) :: _)
      rw [List.filterMap_cons]
      rcases (c.seen (traced B) o.1 (o.2.on _)).bus <;> rfl

theorem rawCall_tally (fuel : Nat) (d : RawDevice) (o : RawCall) (w : TW W E) :
    ∃ evs, (o.run (traced B) fuel d w).2.log = w.log ++ evs ∧ evs.filterMap failure = (o.run (traced B) fuel d w).1.bus.toList := by
  cases o with
  | read b => exact (FailStop.bare (fs_raw_readFrame fuel d)) (b, w)
  | write f => exact (FailStop.bare (fs_raw_writeFrame fuel d f)) w
  | enable x => exact (FailStop.bare (fs_raw_enable d x)) w
  | clear => exact (FailStop.bare (fs_raw_clear d)) w
  | disable => exact (FailStop.bare (fs_raw_disable d)) w

theorem rawCalls_tally (d : RawDevice) (os : List (Nat × RawCall)) (w : TW W E) :
    ∃ evs, (rawCalls (traced B) d os w).2.log = w.log ++ evs ∧
      evs.filterMap failure = (rawCalls (traced B) d os w).1.filterMap RawSeen.bus := by
  induction os generalizing w with
  | nil => exact ⟨[], (List.append_nil _).symm, rfl⟩
  | cons o os ih =>
    obtain ⟨e1, h1, h2⟩ := rawCall_tally (B := B) o.1 d o.2 w
    obtain ⟨e2, h3, h4⟩ := ih (o.2.run (traced B) o.1 d w).2
    refine ⟨e1 ++ e2, ?_, ?_⟩
    · rw [← List.append_assoc, ← h1]
      exact h3
    · rw [List.filterMap_append, h2, h4]
      show _ = List.filterMap RawSeen.bus ((o.2.run (traced B) o.1 d w).1 :: _)
      rw [List.filterMap_cons]
      rcases (o.2.run (traced B) o.1 d w).1.bus <;> rfl

/-! ## On the chip -/

theorem failures_empty {faults : Nat → Option (E × Nat)} (i : Nat) : failures faults i i = [] := by
  unfold failures
  rw [Nat.sub_self]
  rfl

theorem failures_cons {faults : Nat → Option (E × Nat)} {i j : Nat} (h : i < j) :
    failures faults i j = ((faults i).map Prod.fst).toList ++ failures faults (i + 1) j := by
  unfold failures
  rw [show j - i = (j - (i + 1)) + 1 by omega, List.range'_succ, List.filterMap_cons]
  rcases faults i with _ | ⟨e, k⟩ <;> rfl

theorem play_tally {X : Type} (p : Plan E) (g : Strategy E X) (w : TW Chip E) :
    w.w.txn ≤ (g.play (traced p.bus) w).2.w.txn ∧
    ∃ evs, (g.play (traced p.bus) w).2.log = w.log ++ evs ∧
      evs.filterMap failure = failures p.faults w.w.txn (g.play (traced p.bus) w).2.w.txn := by
  induction g generalizing w with
  | done x => exact ⟨Nat.le_refl _, [], (List.append_nil _).symm, (failures_empty _).symm⟩
  | read b a d k ih =>
    have h1 : (p.bus.readFrame w.w b a d).2.2.txn = w.w.txn + 1 := Chip.readFrame_txn w.w b a d
    obtain ⟨h2, evs, h3, h4⟩ := ih (p.bus.readFrame w.w b a d).1 (p.bus.readFrame w.w b a d).2.1
      ⟨(p.bus.readFrame w.w b a d).2.2, w.log ++ [.rd b a (p.bus.readFrame w.w b a d).2.1 (p.bus.readFrame w.w b a d).1]⟩
    dsimp only at h2 h3 h4
    rw [h1] at h2 h4
    refine ⟨Nat.le_of_succ_le h2, _ :: evs, by rw [Strategy.play]; exact h3.trans (List.append_assoc _ _ _), ?_⟩
    refine Eq.trans ?_ (failures_cons (Nat.lt_of_succ_le h2)).symm
    rw [List.filterMap_cons]
    have e : (p.bus.readFrame w.w b a d).1 = match p.faults w.w.txn with | none => .ok () | some (e, _) => .err e := by
      simp only [Plan.bus, ByteDev.bus, Chip.dev]
      rcases p.faults w.w.txn with _ | ⟨e, k⟩ <;> rfl
    have e' : failure (.rd b a (p.bus.readFrame w.w b a d).2.1 (p.bus.readFrame w.w b a d).1) = (p.faults w.w.txn).map Prod.fst := by
      rw [e]
      rcases p.faults w.w.txn with _ | ⟨e, k⟩ <;> rfl
    rw [e', h4]
    rcases p.faults w.w.txn with _ | ⟨e, k⟩ <;> rfl
  | write b a d k ih =>
    have h1 : (p.bus.writeFrame w.w b a d).2.txn = w.w.txn + 1 := Chip.writeFrame_txn w.w b a d
    obtain ⟨h2, evs, h3, h4⟩ := ih (p.bus.writeFrame w.w b a d).1
      ⟨(p.bus.writeFrame w.w b a d).2, w.log ++ [.wr b a d (p.bus.writeFrame w.w b a d).1]⟩
    dsimp only at h2 h3 h4
    rw [h1] at h2 h4
    refine ⟨Nat.le_of_succ_le h2, _ :: evs, by rw [Strategy.play]; exact h3.trans (List.append_assoc _ _ _), ?_⟩
    refine Eq.trans ?_ (failures_cons (Nat.lt_of_succ_le h2)).symm
    rw [List.filterMap_cons]
    have e : (p.bus.writeFrame w.w b a d).1 = match p.faults w.w.txn with | none => .ok () | some (e, _) => .err e := by
      simp only [Plan.bus, ByteDev.bus, Chip.dev]
      rcases p.faults w.w.txn with _ | ⟨e, k⟩ <;> rfl
    have e' : failure (.wr b a d (p.bus.writeFrame w.w b a d).1) = (p.faults w.w.txn).map Prod.fst := by
      rw [e]
      rcases p.faults w.w.txn with _ | ⟨e, k⟩ <;> rfl
    rw [e', h4]
    rcases p.faults w.w.txn with _ | ⟨e, k⟩ <;> rfl

/-- Observing does not change anything. -/
theorem play_traced {X : Type} (g : Strategy E X) (w : TW W E) :
    (g.play (traced B) w).1 = (g.play B w.w).1 ∧ (g.play (traced B) w).2.w = (g.play B w.w).2 := by
  induction g generalizing w with
  | done x => exact ⟨rfl, rfl⟩
  | read b a d k ih => exact ih _ _ _
  | write b a d k ih => exact ih _ _

/-- What is tallied on observed buses is tallied on the chip. -/
theorem chip_tally {X : Type} {F : (W : Type) → Bus W E → W → X × W} (hF : Plays F) {f : X → List E}
    (hf : ∀ (w : TW Chip E) (p : Plan E), ∃ evs, (F _ (traced p.bus) w).2.log = w.log ++ evs ∧ evs.filterMap failure = f (F _ (traced p.bus) w).1)
    (p : Plan E) (c : Chip) : f (F _ p.bus c).1 = failures p.faults c.txn (F _ p.bus c).2.txn := by
  obtain ⟨g, hg⟩ := hF
  obtain ⟨evs, h1, h2⟩ := hf ⟨c, []⟩ p
  rw [hg] at h1 h2
  obtain ⟨_, evs', h3, h4⟩ := play_tally p g ⟨c, []⟩
  obtain ⟨h5, h6⟩ := play_traced (B := p.bus) g ⟨c, []⟩
  have : evs = evs' := List.append_cancel_left (h1.symm.trans h3)
  subst this
  rw [h5] at h2
  rw [h6] at h4
  rw [hg, ← h2, h4]

theorem nodup_length {l m : List Nat} (h : l.Nodup) (hs : ∀ x ∈ l, x ∈ m) : l.length ≤ m.length := by
  induction l generalizing m with
  | nil => exact Nat.zero_le _
  | cons a l ih =>
    obtain ⟨h1, h2⟩ := List.nodup_cons.mp h
    have ha := hs a List.mem_cons_self
    have := ih (m := m.erase a) h2 fun x hx =>
      (List.mem_erase_of_ne fun e : x = a => h1 (e ▸ hx)).mpr (hs x (List.mem_cons_of_mem _ hx))
    have hp := List.length_pos_of_mem ha
    rw [List.length_erase_of_mem ha] at this
    rw [List.length_cons]
    omega

theorem failures_length {faults : Nat → Option (E × Nat)} {N : Nat} (h : AtMost N faults) (i j : Nat) : (failures faults i j).length ≤ N := by
  obtain ⟨l, h1, h2⟩ := h
  refine Nat.le_trans ?_ h1
  have key : (failures faults i j).length = ((List.range' i (j - i)).filter fun k => (faults k).isSome).length := by
    unfold failures
    generalize List.range' i (j - i) = r
    induction r with
    | nil => rfl
    | cons k r ih =>
      rw [List.filterMap_cons, List.filter_cons]
      rcases faults k with _ | ⟨e, m⟩
      · exact ih
      · exact congrArg (· + 1) ih
  rw [key]
  refine nodup_length ?_ ?_
  · exact (List.nodup_range').filter _
  · intro k hk
    refine h2 k fun e => ?_
    have := (List.mem_filter.mp hk).2
    rw [e] at this
    cases this

end W5500.Spec
