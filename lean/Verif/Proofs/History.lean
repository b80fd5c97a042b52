import Verif.Proofs.Client
import Verif.Proofs.AccessDev
import Verif.Proofs.Ordered
/-! # Bus traffic of client histories -/

namespace W5500
open Spec
variable {W E H : Type} {B : Bus W E}

/-- `L` allows transmissions on socket `n`. -/
def AllowsSend (B : Bus W E) (L : Lang E) (n : Nat) : Prop :=
  ∀ s, IsSocket s n → ∀ d, Emits L (sendSeq (traced B) s d)

theorem allows_all {P : Ev E → Prop} {n : Nat} (h : ∀ e, sockAccess n e → P e) :
    Allows (Lang.all P) n := by
  intro e he _ x hx
  simp only [List.mem_singleton] at hx
  subst hx; exact h _ he

theorem allowsCommon_all {P : Ev E → Prop} (h : ∀ e, commonAccess e → P e) :
    AllowsCommon (Lang.all P) := by
  intro e he x hx
  simp only [List.mem_singleton] at hx
  subst hx; exact h _ he

/-- A language of single transfers that allows every legitimate access, SEND included. -/
theorem emits_command_all {P : Ev E → Prop} {n : Nat} (h : ∀ e, sockAccess n e → P e) {s : Socket}
    (hs : IsSocket s n) (c : socketn.Command) (hc : c = .send) : Emits (Lang.all P) (s.command (traced B) c) := by
  subst hc
  refine Emits.write fun r x hx => ?_
  simp only [List.mem_singleton] at hx
  subst hx
  exact h _ (.inl ⟨hs.facts.1, by show (socketn.COMMAND, 1) ∈ sockWritable; decide,
    fun h => absurd h (by decide), fun _ => by decide, fun h => absurd h (by decide)⟩)

theorem allowsSend_all {P : Ev E → Prop} {n : Nat} (h : ∀ e, sockAccess n e → P e) :
    AllowsSend B (Lang.all P) n := by
  intro s hs d
  have hL := allows_all h
  unfold sendSeq
  exact .bind (emits_getTxWritePointer hL hs) fun _ => .bind (hL.wrTx hs) fun _ =>
    .bind (emits_setTxWritePointer hL hs _) fun _ => emits_command_all h hs _ rfl

theorem emits_rawSeq_all {P : Ev E → Prop} {n : Nat} (h : ∀ e, sockAccess n e → P e) {s : Socket}
    (hs : IsSocket s n) (f : List U8) (fsz : U16) : Emits (Lang.all P) (rawSeq (traced B) s f fsz) := by
  have hL := allows_all h
  unfold rawSeq
  refine .bind (emits_getTxWritePointer hL hs) fun _ => ?_
  split
  · exact .bind (emits_setTxWritePointer hL hs _) fun _ => .bind (emits_command_all h hs _ rfl) fun _ => .pure _
  · exact .bind (hL.wrTx hs) fun _ => .bind (emits_setTxWritePointer hL hs _) fun _ =>
      .bind (emits_command_all h hs _ rfl) fun _ => .pure _

/-- Traffic of an operation on the live socket at position `i`. -/
theorem step_emits {L : Lang E} {n : Nat} (hL : Allows L n) (hT : AllowsSend B L n)
    (c : Client (TW W E) H) (fuel : Nat) (o : Op (TW W E)) (i : Nat) (ho : o.target = some i) (h : Handle)
    (hg : c.live[i]? = some h) (hs : IsSocket h.socket n) :
    ∃ evs, (c.step (traced B) fuel o).dev.bus.log = c.dev.bus.log ++ evs ∧ L.mem evs := by
  have none : ∃ evs, c.dev.bus.log = c.dev.bus.log ++ evs ∧ L.mem evs := ⟨[], by simp, L.nil⟩
  have hU : ∀ {ε α : Type} (m : M (UdpSocket × Device (TW W E) H) ε α), EmitsU L n m →
      ∃ evs, (c.onUdp i m).dev.bus.log = c.dev.bus.log ++ evs ∧ L.mem evs := by
    intro ε α m hm
    unfold Client.onUdp
    rw [hg]
    cases h with
    | udp u => exact (hm.run (u, c.dev) hs).1
    | tcp t => exact none
    | raw s => exact none
  cases o with
  | udpSocket => cases ho
  | tcpSocket => cases ho
  | takeSocket => cases ho
  | common o => cases ho
  | reactivate g => cases ho
  | udpSetPort j p => cases ho; exact hU _ (.onSockBus (emitsU_setPort hL p))
  | udpConnect j r => cases ho; exact hU _ (emitsU_udpConnect hL r)
  | udpBind j p => cases ho; exact hU _ (emitsU_udpBind hL p)
  | udpSendTo j r b => cases ho; exact hU _ (emitsU_udpSendTo hL fuel r b fun s hs d _ => hT s hs d)
  | udpSend j b =>
    cases ho; simp only [Client.step, hg]
    cases h with
    | udp u => exact (emits_udpSend hL hs fuel b fun d _ => hT _ hs d).run c.dev
    | tcp t => exact none
    | raw s => exact none
  | udpReceive j b =>
    cases ho; simp only [Client.step, hg]
    cases h with
    | udp u => exact (emits_udpReceive hL hs fuel).run (b, c.dev)
    | tcp t => exact none
    | raw s => exact none
  | udpClose j =>
    cases ho; simp only [Client.step, hg]
    cases h with
    | udp u => exact (emits_udpClose hL hs).run c.dev
    | tcp t => exact none
    | raw s => exact none
  | tcpConnect j r =>
    cases ho; simp only [Client.step, hg]
    cases h with
    | tcp t => exact (emits_tcpConnect hL hs fuel r).run c.dev
    | udp t => exact none
    | raw s => exact none
  | tcpSend j b =>
    cases ho; simp only [Client.step, hg]
    cases h with
    | tcp t => exact (emits_tcpSend hL hs fuel b fun d _ => hT _ hs d).run c.dev
    | udp t => exact none
    | raw s => exact none
  | tcpReceive j b =>
    cases ho; simp only [Client.step, hg]
    cases h with
    | tcp t => exact (emits_tcpReceive hL hs fuel).run (b, c.dev)
    | udp t => exact none
    | raw s => exact none
  | tcpClose j =>
    cases ho; simp only [Client.step, hg]
    cases h with
    | tcp t => exact (emits_tcpClose hL hs).run c.dev
    | udp t => exact none
    | raw s => exact none
  | releaseSocket j =>
    cases ho; simp only [Client.step, hg]
    cases h with
    | raw s => exact (Emits.releaseSocket (E := E) (ε := E) s).run c.dev
    | udp t => exact none
    | tcp t => exact none
  | leak j => cases ho; simp only [Client.step, hg]; exact none

theorem commonOp_emits {L : Lang E} (hC : AllowsCommon L) (o : CommonOp) (w : TW W E) :
    ∃ evs, (o.run (traced B) w).log = w.log ++ evs ∧ L.mem evs := by
  cases o with
  | gateway => exact (emits_gateway (B := B) hC).run w
  | subnetMask => exact (emits_subnetMask (B := B) hC).run w
  | mac => exact (emits_mac (B := B) hC).run w
  | ip => exact (emits_ip (B := B) hC).run w
  | phyConfig => exact (emits_phyConfig (B := B) hC).run w
  | resetDevice => exact (emits_resetChip (B := B) hC).run w
  | version => exact (emits_version (B := B) hC).run w
  | currentRetryTimeout => exact (emits_currentRetryTimeout (B := B) hC).run w
  | currentRetryCount => exact (emits_currentRetryCount (B := B) hC).run w
  | setMode m => exact (emits_setModeDev (B := B) hC m).run w
  | setRetryTimeout t => exact (emits_setRetryTimeout (B := B) hC t).run w
  | setRetryCount n => exact (emits_setRetryCount (B := B) hC n).run w

/-- Traffic of an operation without socket argument. -/
theorem step_emits_common {L : Lang E} (hC : AllowsCommon L) (c : Client (TW W E) H) (fuel : Nat)
    (o : Op (TW W E)) (ho : o.target = none) (hr : ∀ g, o ≠ .reactivate g) :
    ∃ evs, (c.step (traced B) fuel o).dev.bus.log = c.dev.bus.log ++ evs ∧ L.mem evs := by
  cases o with
  | udpSocket =>
    obtain ⟨evs, h, hm⟩ := (emits_udpSocket (L := L)).run c.dev
    refine ⟨evs, ?_, hm⟩
    simp only [Client.step, Client.alloc]
    split <;> exact h
  | tcpSocket =>
    obtain ⟨evs, h, hm⟩ := (emits_tcpSocket (L := L)).run c.dev
    refine ⟨evs, ?_, hm⟩
    simp only [Client.step, Client.alloc]
    split <;> exact h
  | takeSocket =>
    refine ⟨[], ?_, L.nil⟩
    simp only [Client.step, Device.takeSocket, List.append_nil]
    rcases c.dev.state.socket with ⟨_ | _, _⟩ <;> rfl
  | common o => exact commonOp_emits hC o _
  | reactivate g => exact absurd rfl (hr g)
  | _ => cases ho

/-- No handle, no effect. -/
theorem step_none (c : Client W H) (fuel : Nat) (o : Op W) (i : Nat) (ho : o.target = some i)
    (hg : c.live[i]? = none) : c.step B fuel o = c := by
  cases o <;> first
    | cases ho; done
    | (cases ho; simp only [Client.step, Client.onUdp, hg])

/-- Socket identity of live handles. -/
theorem AllocInv.isSocket {c : Client W H} (hi : AllocInv c) {h : Handle} (hm : h ∈ c.live) :
    IsSocket h.socket h.index :=
  ⟨hi.bound _ (List.mem_append_left _ (List.mem_map_of_mem hm)), hi.canonical h hm⟩

/-- Traffic of a whole history. -/
theorem run_emits {L : Lang E} (hL : ∀ n, n < 8 → Allows L n) (hT : ∀ n, n < 8 → AllowsSend B L n)
    (hC : AllowsCommon L) (fuel : Nat) (ops : List (Op (TW W E))) (hr : ∀ g, Op.reactivate g ∈ ops → g = id)
    (c : Client (TW W E) H) (hi : AllocInv c) :
    ∃ evs, (c.run (traced B) fuel ops).dev.bus.log = c.dev.bus.log ++ evs ∧ L.mem evs := by
  induction ops generalizing c with
  | nil => exact ⟨[], by simp [Client.run], L.nil⟩
  | cons o os ih =>
    have h1 : ∃ evs, (c.step (traced B) fuel o).dev.bus.log = c.dev.bus.log ++ evs ∧ L.mem evs := by
      cases ho : o.target with
      | none =>
        by_cases hg : ∃ g, o = .reactivate g
        · obtain ⟨g, rfl⟩ := hg
          have : g = id := hr g (by simp)
          subst this
          exact ⟨[], by simp [Client.step, Device.deactivate, InactiveDevice.activate], L.nil⟩
        · exact step_emits_common hC c fuel o ho fun g h => hg ⟨g, h⟩
      | some i =>
        cases hg : c.live[i]? with
        | none => rw [step_none c fuel o i ho hg]; exact ⟨[], by simp, L.nil⟩
        | some h =>
          have hs := hi.isSocket (List.mem_of_getElem? hg)
          exact step_emits (hL _ hs.1) (hT _ hs.1) c fuel o i ho h hg hs
    obtain ⟨e1, h1, l1⟩ := h1
    obtain ⟨e2, h2, l2⟩ := ih (fun g hg => hr g (List.mem_cons_of_mem _ hg)) _ (hi.step fuel o)
    exact ⟨e1 ++ e2, by
      rw [← List.append_assoc, ← h1]; exact h2, L.app l1 l2⟩

end W5500
