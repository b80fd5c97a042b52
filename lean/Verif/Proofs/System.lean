import Verif.Spec.System
import Verif.Proofs.Client
import Verif.Proofs.UdpHistory
import Verif.Proofs.Regs
/-! # Client operations and the sockets they do not concern -/

namespace W5500
open Spec
variable {W E H : Type} {B : Bus W E}

/-- Write frames of the common calls other than `reset_device`. -/
def CommonFrames (b : U8) (a : U16) (d : List U8) : Prop :=
  b = COMMON ∧ ((∃ m : Mode, a = common.MODE ∧ d = m.toRegister) ∨ (∃ t : RetryTime, a = common.RETRY_TIME ∧ d = t.toRegister) ∨
    ∃ n, a = common.RETRY_COUNT ∧ d = [n])

theorem moves_common (o : CommonOp) (ho : o ≠ .resetDevice) (w : W) : Reach B CommonFrames w (o.run B w) := by
  cases o with
  | resetDevice => exact absurd rfl ho
  | gateway =>
    exact (show MovesOn B CommonFrames id (Device.gateway B) by unfold Device.gateway readIp; moves).run w
  | subnetMask =>
    exact (show MovesOn B CommonFrames id (Device.subnetMask B) by unfold Device.subnetMask readIp; moves).run w
  | mac =>
    exact (show MovesOn B CommonFrames id (Device.mac B) by unfold Device.mac; moves).run w
  | ip =>
    exact (show MovesOn B CommonFrames id (Device.ip B) by unfold Device.ip readIp; moves).run w
  | phyConfig =>
    exact (show MovesOn B CommonFrames id (Device.phyConfig B) by unfold Device.phyConfig; moves).run w
  | version =>
    exact (show MovesOn B CommonFrames id (W5500.version B) by unfold W5500.version; moves).run w
  | currentRetryTimeout =>
    exact (show MovesOn B CommonFrames id (W5500.currentRetryTimeout B) by unfold W5500.currentRetryTimeout; moves).run w
  | currentRetryCount =>
    exact (show MovesOn B CommonFrames id (W5500.currentRetryCount B) by unfold W5500.currentRetryCount; moves).run w
  | setMode m => exact (MovesOn.write ⟨rfl, .inl ⟨m, rfl, rfl⟩⟩).run w
  | setRetryTimeout t => exact (MovesOn.write ⟨rfl, .inr (.inl ⟨t, rfl, rfl⟩)⟩).run w
  | setRetryCount n => exact (MovesOn.write ⟨rfl, .inr (.inr ⟨n, rfl, rfl⟩)⟩).run w

/-- An operation on a handle writes to the registers and the TX buffer of its socket only. -/
theorem step_target (c : Client W H) (fuel : Nat) (o : Op W) (i : Nat) (ho : o.target = some i) (h : Handle)
    (hg : c.live[i]? = some h) :
    Reach B (SockFrames h.socket sockRegs) c.dev.bus (c.step B fuel o).dev.bus := by
  have up : ∀ {u : UdpSocket} {w w' : W}, Reach B (SockFrames u.socket udpRegs) w w' →
      Reach B (SockFrames u.socket sockRegs) w w' := fun h => h.mono (SockFrames.mono udpRegs_sub)
  have hU : ∀ {ε α : Type} (m : M (UdpSocket × Device W H) ε α),
      (∀ u, Reach B (SockFrames u.socket sockRegs) c.dev.bus (m (u, c.dev)).2.2.bus) →
      Reach B (SockFrames h.socket sockRegs) c.dev.bus (c.onUdp i m).dev.bus := by
    intro ε α m hm
    unfold Client.onUdp
    rw [hg]
    cases h with
    | udp u => exact hm u
    | tcp t => exact .refl _
    | raw s => exact .refl _
  cases o with
  | udpSocket => cases ho
  | tcpSocket => cases ho
  | takeSocket => cases ho
  | common o => cases ho
  | reactivate g => cases ho
  | udpSetPort j p => cases ho; exact hU _ fun u => up ((moves_setPort p).run u c.dev.bus).1
  | udpConnect j r => cases ho; exact hU _ fun u => moves_udpConnect r u c.dev
  | udpBind j p => cases ho; exact hU _ fun u => up (moves_udpBind p u c.dev)
  | udpSendTo j r b => cases ho; exact hU _ fun u => moves_udpSendTo fuel r b u c.dev
  | udpSend j b =>
    cases ho; simp only [Client.step, hg]
    cases h with
    | udp u => exact up ((moves_deviceUdpSend fuel u b).run c.dev)
    | tcp t => exact .refl _
    | raw s => exact .refl _
  | udpReceive j b =>
    cases ho; simp only [Client.step, hg]
    cases h with
    | udp u => exact up ((moves_deviceUdpReceive fuel u).run (b, c.dev))
    | tcp t => exact .refl _
    | raw s => exact .refl _
  | udpClose j =>
    cases ho; simp only [Client.step, hg]
    cases h with
    | udp u => exact up ((moves_deviceUdpClose u).run c.dev)
    | tcp t => exact .refl _
    | raw s => exact .refl _
  | tcpConnect j r =>
    cases ho; simp only [Client.step, hg]
    cases h with
    | tcp t => exact (moves_deviceTcpConnect fuel t r).run c.dev
    | udp t => exact .refl _
    | raw s => exact .refl _
  | tcpSend j b =>
    cases ho; simp only [Client.step, hg]
    cases h with
    | tcp t => exact (moves_deviceTcpSend fuel t b).run c.dev
    | udp t => exact .refl _
    | raw s => exact .refl _
  | tcpReceive j b =>
    cases ho; simp only [Client.step, hg]
    cases h with
    | tcp t => exact (moves_deviceTcpReceive fuel t).run (b, c.dev)
    | udp t => exact .refl _
    | raw s => exact .refl _
  | tcpClose j =>
    cases ho; simp only [Client.step, hg]
    cases h with
    | tcp t => exact (moves_deviceTcpClose t).run c.dev
    | udp t => exact .refl _
    | raw s => exact .refl _
  | releaseSocket j =>
    cases ho; simp only [Client.step, hg]
    cases h with
    | tcp t => exact .refl _
    | udp t => exact .refl _
    | raw s =>
      show Reach _ _ _ (Device.releaseSocket s c.dev).2.bus
      unfold Device.releaseSocket
      split <;> exact .refl _
  | leak j =>
    cases ho; simp only [Client.step, hg]
    exact .refl _

/-- An operation on a position without handle does nothing. -/
theorem step_noHandle (c : Client W H) (fuel : Nat) (o : Op W) (i : Nat) (ho : o.target = some i)
    (hg : c.live[i]? = none) : c.step B fuel o = c := by
  cases o <;> cases ho <;> simp only [Client.step, Client.onUdp, hg]

/-- Allocation does not use the bus, and keeps the handles. -/
theorem step_alloc (c : Client W H) (fuel : Nat) (o : Op W) (ho : o = .udpSocket ∨ o = .tcpSocket ∨ o = .takeSocket) :
    (c.step B fuel o).dev.bus = c.dev.bus ∧ ∀ h ∈ c.live, h ∈ (c.step B fuel o).live := by
  rcases ho with rfl | rfl | rfl
  · simp only [Client.step, Client.alloc, Device.udpSocket, M.bind_def, Device.takeSocket]
    rcases socket_spec c.dev.state with ⟨i, h8, -, hbit, hr⟩ | ⟨-, hr⟩ <;> rw [hr]
    · exact ⟨rfl, fun h hh => List.mem_append_left _ hh⟩
    · exact ⟨rfl, fun h hh => hh⟩
  · simp only [Client.step, Client.alloc, Device.tcpSocket, M.bind_def, Device.takeSocket]
    rcases socket_spec c.dev.state with ⟨i, h8, -, hbit, hr⟩ | ⟨-, hr⟩ <;> rw [hr]
    · exact ⟨rfl, fun h hh => List.mem_append_left _ hh⟩
    · exact ⟨rfl, fun h hh => hh⟩
  · simp only [Client.step, Device.takeSocket]
    rcases socket_spec c.dev.state with ⟨i, h8, -, hbit, hr⟩ | ⟨-, hr⟩ <;> rw [hr]
    · exact ⟨rfl, fun h hh => List.mem_append_left _ hh⟩
    · exact ⟨rfl, fun h hh => hh⟩

/-- The handles other than the one an operation works on stay as they are. -/
theorem step_others (c : Client W H) (fuel : Nat) (o : Op W) (h : Handle) (j : Nat) (hj : c.live[j]? = some h)
    (ho : o.target ≠ some j) : h ∈ (c.step B fuel o).live := by
  have hm := List.mem_of_getElem? hj
  have hset : ∀ i x, i ≠ j → h ∈ c.live.set i x := fun i x hne =>
    List.mem_of_getElem? (i := j) (by rw [List.getElem?_set_ne hne]; exact hj)
  have herase : ∀ i, i ≠ j → h ∈ c.live.eraseIdx i := fun i hne =>
    List.mem_eraseIdx_iff_getElem?.mpr ⟨j, fun e => hne e.symm, hj⟩
  have hU : ∀ {ε α : Type} (i : Nat) (m : M (UdpSocket × Device W H) ε α), i ≠ j → h ∈ (c.onUdp i m).live := by
    intro ε α i m hne
    unfold Client.onUdp
    split
    · exact hset _ _ hne
    · exact hm
  have ne : ∀ i, some i ≠ some j → i ≠ j := fun i h e => h (congrArg some e)
  cases o with
  | udpSocket => exact (step_alloc c fuel _ (.inl rfl)).2 h hm
  | tcpSocket => exact (step_alloc c fuel _ (.inr (.inl rfl))).2 h hm
  | takeSocket => exact (step_alloc c fuel _ (.inr (.inr rfl))).2 h hm
  | common o => exact hm
  | reactivate g => exact hm
  | udpSetPort i p => exact hU _ _ (ne i ho)
  | udpConnect i r => exact hU _ _ (ne i ho)
  | udpBind i p => exact hU _ _ (ne i ho)
  | udpSendTo i r b => exact hU _ _ (ne i ho)
  | udpSend i b => simp only [Client.step]; split <;> exact hm
  | udpReceive i b => simp only [Client.step]; split <;> exact hm
  | tcpConnect i b => simp only [Client.step]; split <;> exact hm
  | tcpSend i b => simp only [Client.step]; split <;> exact hm
  | tcpReceive i b => simp only [Client.step]; split <;> exact hm
  | udpClose i => simp only [Client.step]; split <;> first | exact hm | exact herase i (ne i ho)
  | tcpClose i => simp only [Client.step]; split <;> first | exact hm | exact herase i (ne i ho)
  | releaseSocket i => simp only [Client.step]; split <;> first | exact hm | exact herase i (ne i ho)
  | leak i => simp only [Client.step]; split <;> first | exact hm | exact herase i (ne i ho)

theorem step_tcpSend {c : Client W H} {i : Nat} {t : TcpSocket} {fuel : Nat} {data : List U8}
    (hg : c.live[i]? = some (.tcp t)) :
    (c.step B fuel (.tcpSend i data)).dev = (Device.tcpSend B fuel t data c.dev).2 := by
  simp only [Client.step, hg]

theorem step_tcpReceive {c : Client W H} {i : Nat} {t : TcpSocket} {fuel : Nat} {buf : List U8}
    (hg : c.live[i]? = some (.tcp t)) :
    (c.step B fuel (.tcpReceive i buf)).dev = (Device.tcpReceive B fuel t (buf, c.dev)).2.2 := by
  simp only [Client.step, hg]

theorem step_udpSend {c : Client W H} {i : Nat} {u : UdpSocket} {fuel : Nat} {data : List U8}
    (hg : c.live[i]? = some (.udp u)) :
    c.step B fuel (.udpSend i data) = { c with dev := (Device.udpSend B fuel u data c.dev).2 } := by
  simp only [Client.step, hg]

theorem step_udpReceive {c : Client W H} {i : Nat} {u : UdpSocket} {fuel : Nat} {buf : List U8}
    (hg : c.live[i]? = some (.udp u)) :
    c.step B fuel (.udpReceive i buf) = { c with dev := (Device.udpReceive B fuel u (buf, c.dev)).2.2 } := by
  simp only [Client.step, hg]

theorem onUdp_eq {ε α : Type} {c : Client W H} {i : Nat} {u : UdpSocket} (m : M (UdpSocket × Device W H) ε α)
    (hg : c.live[i]? = some (.udp u)) :
    c.onUdp i m = { c with dev := (m (u, c.dev)).2.2, live := c.live.set i (.udp (m (u, c.dev)).2.1) } := by
  simp only [Client.onUdp, hg]

/-- Two handles with the same index are the same handle. -/
theorem AllocInv.unique {c : Client W H} (hi : AllocInv c) {h h' : Handle} (hh : h ∈ c.live) (hh' : h' ∈ c.live)
    (e : h.index = h'.index) : h = h' := by
  obtain ⟨i, hi1, rfl⟩ := List.getElem_of_mem hh
  obtain ⟨j, hj1, rfl⟩ := List.getElem_of_mem hh'
  have hn : (c.live.map Handle.index).Nodup := (List.nodup_append.mp hi.nodup).1
  have key : ∀ i j (hi1 : i < c.live.length) (hj1 : j < c.live.length), i < j → c.live[i].index ≠ c.live[j].index := by
    intro i j hi1 hj1 hlt
    have := List.pairwise_iff_getElem.mp hn i j (by simpa using hi1) (by simpa using hj1) hlt
    simpa using this
  have : i = j := by
    rcases Nat.lt_trichotomy i j with h | h | h
    · exact absurd e (key i j hi1 hj1 h)
    · exact h
    · exact absurd e.symm (key j i hj1 hi1 h)
  subst this
  rfl

namespace Spec
variable {sched : Nat → List (Nat × Act)} {faults : Nat → Option (E × Nat)}

theorem foreign_common {n : Nat} {b : U8} {a : U16} {d : List U8} (h : CommonFrames b a d) : Foreign n b a d := by
  obtain ⟨rfl, h⟩ := h
  unfold Foreign
  rw [if_pos (by decide)]
  rcases h with ⟨m, rfl, rfl⟩ | ⟨t, rfl, rfl⟩ | ⟨x, rfl, rfl⟩
  · intro i hi _
    have : i = 0 := by simp only [Mode.toRegister, List.length_cons, List.length_nil] at hi; omega
    subst this
    show m.toU8.getLsbD 7 = false
    rcases m with ⟨_ | _, _ | _, _ | _, _ | _⟩ <;> rfl
  · intro i hi h0
    have : i = 0 ∨ i = 1 := by
      simp only [RetryTime.toRegister, toBeBytes, List.length_cons, List.length_nil] at hi; omega
    rcases this with rfl | rfl <;> exact absurd h0 (by decide)
  · intro i hi h0
    have : i = 0 := by simp only [List.length_cons, List.length_nil] at hi; omega
    subst this
    exact absurd h0 (by decide)

/-- An operation elsewhere does nothing to socket `n` on the bus, or lets time pass. -/
theorem elsewhere_reach {n : Nat} {c : Client Chip H} (hi : AllocInv c) {o : Op Chip} (ho : Aside n c o) (fuel : Nat) :
    Reach (Chip.dev sched faults).bus (Foreign n) c.dev.bus (c.step (Chip.dev sched faults).bus fuel o).dev.bus ∨
      Passes c.dev.bus (c.step (Chip.dev sched faults).bus fuel o).dev.bus := by
  cases ht : o.target with
  | some i =>
    left
    cases hg : c.live[i]? with
    | none => rw [step_noHandle c fuel o i ht hg]; exact .refl _
    | some h =>
      have hne : h.index ≠ n := by
        cases o <;> cases ht
        all_goals exact ho _ h rfl hg
      have hm := List.mem_of_getElem? hg
      have h8 : h.index < 8 := hi.bound _ (List.mem_append_left _ (List.mem_map_of_mem hm))
      have := step_target (B := (Chip.dev sched faults).bus) c fuel o i ht h hg
      rw [hi.canonical h hm] at this
      exact this.mono fun b a d => foreign_sock h8 hne
  | none =>
    cases o with
    | udpSocket => left; rw [(step_alloc c fuel _ (.inl rfl)).1]; exact .refl _
    | tcpSocket => left; rw [(step_alloc c fuel _ (.inr (.inl rfl))).1]; exact .refl _
    | takeSocket => left; rw [(step_alloc c fuel _ (.inr (.inr rfl))).1]; exact .refl _
    | common o =>
      left
      refine (moves_common o ?_ c.dev.bus).mono fun b a d => foreign_common
      rintro rfl
      exact ho
    | reactivate g => right; exact ho
    | _ => cases ht

/-! ## TCP -/

theorem TcpRun.reach {n : Nat} {c c1 c2 : Chip} {acc del : List U8} (h : TcpRun sched faults n c acc del c1)
    (hr : Reach (Chip.dev sched faults).bus (Foreign n) c1 c2) : TcpRun sched faults n c acc del c2 :=
  hr.induct (I := fun x => TcpRun sched faults n c acc del x) (fun _ b a d h => .read b a d h)
    (fun _ _ _ _ hf h => .write _ _ _ h hf) h

theorem TcpRun.elsewhere {n : Nat} {c0 : Chip} {c : Client Chip H} {acc del : List U8}
    (h : TcpRun sched faults n c0 acc del c.dev.bus) (hi : AllocInv c) {o : Op Chip} (ho : Aside n c o) (fuel : Nat) :
    TcpRun sched faults n c0 acc del (c.step (Chip.dev sched faults).bus fuel o).dev.bus :=
  (elsewhere_reach hi ho fuel).elim h.reach fun hp => .pass h hp

theorem TcpClient.alloc {n : Nat} {c0 c : Client Chip H} {acc del : List U8} (hi : AllocInv c0)
    (h : TcpClient sched faults n c0 acc del c) : AllocInv c := by
  induction h with
  | start => exact hi
  | elsewhere fuel o _ _ ih => exact ih.step fuel o
  | send fuel i _ data _ _ _ _ _ ih => exact ih.step fuel _
  | receive fuel i _ _ _ _ _ _ _ _ _ ih => exact ih.step fuel _
  | failedSend fuel i _ data _ _ _ _ _ ih => exact ih.step fuel _
  | failedReceive fuel i _ _ _ _ _ _ _ ih => exact ih.step fuel _

theorem tcp_canonical {n i : Nat} {c : Client Chip H} {t : TcpSocket} (hi : AllocInv c) (hg : c.live[i]? = some (.tcp t))
    (hn : t.socket.index.toNat = n) : t = ⟨Socket.new (BitVec.ofNat 8 n)⟩ := by
  have := hi.canonical _ (List.mem_of_getElem? hg)
  have : t.socket = Socket.new (BitVec.ofNat 8 n) := hn ▸ this
  cases t
  exact congrArg _ this

/-- A client history is a history of the socket. -/
theorem TcpClient.run {n : Nat} {c0 c : Client Chip H} {acc del : List U8} (hi : AllocInv c0)
    (h : TcpClient sched faults n c0 acc del c) : TcpRun sched faults n c0.dev.bus acc del c.dev.bus := by
  induction h with
  | start => exact .start
  | elsewhere fuel o h ho ih => exact ih.elsewhere (h.alloc hi) ho fuel
  | send fuel i t data k h hg hn hr ih =>
    have ht := tcp_canonical (h.alloc hi) hg hn
    rw [step_tcpSend hg]
    subst ht
    exact .send fuel data k ih (Prod.ext hr rfl)
  | receive fuel i t buf buf' k h hg hn hr hb ih =>
    have ht := tcp_canonical (h.alloc hi) hg hn
    rw [step_tcpReceive hg]
    subst ht
    exact .receive fuel buf buf' k ih (Prod.ext hr (Prod.ext hb rfl))
  | failedSend fuel i t data h hg hn hr hw ih =>
    have ht := tcp_canonical (h.alloc hi) hg hn
    rw [step_tcpSend hg] at hw ⊢
    subst ht
    exact .failedSend fuel data _ ih rfl hr hw
  | failedReceive fuel i t buf h hg hn hr hw ih =>
    have ht := tcp_canonical (h.alloc hi) hg hn
    rw [step_tcpReceive hg] at hw ⊢
    subst ht
    exact .failedReceive fuel buf _ _ ih rfl hr hw

/-! ## UDP -/

theorem UdpRun.reach {n : Nat} {u0 u : UdpSocket} {c0 c1 c2 : Chip} {log : List UdpSent} {got : List UdpGot}
    (h : UdpRun sched faults n u0 c0 log got u c1)
    (hr : Reach (Chip.dev sched faults).bus (Foreign n) c1 c2) : UdpRun sched faults n u0 c0 log got u c2 :=
  hr.induct (I := fun x => UdpRun sched faults n u0 c0 log got u x) (fun _ b a d h => .read b a d h)
    (fun _ _ _ _ hf h => .write _ _ _ h hf) h

theorem UdpClient.alloc {n : Nat} {c0 c : Client Chip H} {log : List UdpSent} {got : List UdpGot} (hi : AllocInv c0)
    (h : UdpClient sched faults n c0 log got c) : AllocInv c := by
  induction h with
  | start => exact hi
  | elsewhere fuel o _ _ ih => exact ih.step fuel o
  | call fuel i o _ _ _ _ ih => exact ih.step fuel o

theorem mem_set_self {l : List Handle} {i : Nat} {h h' : Handle} (hg : l[i]? = some h) : h' ∈ l.set i h' := by
  have hi : i < l.length := by
    rcases Nat.lt_or_ge i l.length with h | h
    · exact h
    · rw [List.getElem?_eq_none h] at hg; cases hg
  exact List.mem_of_getElem? (i := i) (by rw [List.getElem?_set_self hi])

/-- One call on the socket. -/
theorem UdpCall.run {n fuel i : Nat} {u u0 : UdpSocket} {c0 : Chip} {c : Client Chip H} {o : Op Chip}
    {log log' : List UdpSent} {got got' : List UdpGot} (hg : c.live[i]? = some (.udp u)) (hn : u.socket.index.toNat = n)
    (h : UdpRun sched faults n u0 c0 log got u c.dev.bus)
    (hc : UdpCall sched faults n fuel i u c (c.step (Chip.dev sched faults).bus fuel o) o log' got') :
    ∃ u', .udp u' ∈ (c.step (Chip.dev sched faults).bus fuel o).live ∧ u'.socket.index.toNat = n ∧
      UdpRun sched faults n u0 c0 (log ++ log') (got ++ got') u' (c.step (Chip.dev sched faults).bus fuel o).dev.bus := by
  have hm := List.mem_of_getElem? hg
  cases hc with
  | setPort port =>
    rw [List.append_nil, List.append_nil]
    have e := onUdp_eq (Device.onSockBus (UdpSocket.setPort (Chip.dev sched faults).bus port)) hg
    have hk := (Keeps.onSockBus (H := H) (keeps_setPort (B := (Chip.dev sched faults).bus) port) (u, c.dev)).1
    simp only [Client.step, e]
    exact ⟨_, mem_set_self hg, by rw [hk]; exact hn, .setPort port _ h rfl⟩
  | bind port =>
    rw [List.append_nil, List.append_nil]
    have e := onUdp_eq (Device.udpBind (Chip.dev sched faults).bus port) hg
    have hk := (keeps_udpBind (B := (Chip.dev sched faults).bus) port (u, c.dev)).1
    simp only [Client.step, e]
    exact ⟨_, mem_set_self hg, by rw [hk]; exact hn, .bind port _ h rfl⟩
  | connect remote hs =>
    rw [List.append_nil, List.append_nil]
    have e := onUdp_eq (Device.udpConnect (Chip.dev sched faults).bus remote) hg
    have hk := (keeps_udpConnect (B := (Chip.dev sched faults).bus) remote (u, c.dev)).1
    simp only [Client.step, e] at hs ⊢
    exact ⟨_, mem_set_self hg, by rw [hk]; exact hn, .connect remote _ h rfl hs⟩
  | send data dst hd hr =>
    rw [List.append_nil]
    rw [step_udpSend hg]
    exact ⟨u, hm, hn, .send fuel data dst h (Prod.ext hr rfl) hd⟩
  | failedSend data dst hd hr hdr =>
    rw [List.append_nil]
    rw [step_udpSend hg] at hdr ⊢
    exact ⟨u, hm, hn, .failedSend fuel data dst _ h rfl hd hr hdr⟩
  | sendNowhere data hd =>
    rw [List.append_nil, List.append_nil]
    rw [step_udpSend hg]
    exact ⟨u, hm, hn, .sendNowhere fuel data _ h rfl hd⟩
  | sendTo dst data hr =>
    rw [List.append_nil]
    have e := onUdp_eq (Device.udpSendTo (Chip.dev sched faults).bus fuel (.v4 dst) data) hg
    have hk := (keeps_udpSendTo (B := (Chip.dev sched faults).bus) fuel (.v4 dst) data (u, c.dev)).1
    simp only [Client.step, e]
    exact ⟨_, mem_set_self hg, by rw [hk]; exact hn, .sendTo fuel dst data h (Prod.ext hr rfl)⟩
  | failedSendTo dst data hr hdr hs =>
    rw [List.append_nil]
    have e := onUdp_eq (Device.udpSendTo (Chip.dev sched faults).bus fuel (.v4 dst) data) hg
    have hk := (keeps_udpSendTo (B := (Chip.dev sched faults).bus) fuel (.v4 dst) data (u, c.dev)).1
    simp only [Client.step, e] at hs hdr ⊢
    exact ⟨_, mem_set_self hg, by rw [hk]; exact hn, .failedSendTo fuel dst data _ h rfl hr hdr hs⟩
  | sendTo6 segments port data =>
    rw [List.append_nil, List.append_nil]
    have e := onUdp_eq (Device.udpSendTo (Chip.dev sched faults).bus fuel (.v6 segments port) data) hg
    simp only [Client.step, e]
    exact ⟨u, mem_set_self hg, hn, h⟩
  | receive buf buf' k origin hr hb =>
    rw [List.append_nil]
    rw [step_udpReceive hg]
    exact ⟨u, hm, hn, .receive fuel buf buf' k origin h (Prod.ext hr (Prod.ext hb rfl))⟩
  | failedReceive buf hr hrd =>
    rw [List.append_nil, List.append_nil]
    rw [step_udpReceive hg] at hrd ⊢
    exact ⟨u, hm, hn, .failedReceive fuel buf _ _ h rfl hr hrd⟩

/-- Operations elsewhere keep the handle of socket `n`. -/
theorem elsewhere_keeps {n : Nat} {c : Client Chip H} {h : Handle} (hm : h ∈ c.live) (hn : h.index = n) {o : Op Chip}
    (ho : Aside n c o) (fuel : Nat) : h ∈ (c.step (Chip.dev sched faults).bus fuel o).live := by
  obtain ⟨j, hj, e⟩ := List.getElem_of_mem hm
  have hj' : c.live[j]? = some h := by rw [List.getElem?_eq_getElem hj, e]
  refine step_others c fuel o _ j hj' fun ht => ?_
  have : ∀ i h, o.target = some i → c.live[i]? = some h → h.index ≠ n := by
    cases o <;> first | exact ho | exact nomatch ht
  exact this j _ ht hj' hn

theorem udpSendTo_ok {fuel : Nat} {dst : SockAddr4} {data : List U8} {u : UdpSocket} {d : Device Chip H}
    (hr : (Device.udpSendTo (Chip.dev sched faults).bus fuel (.v4 dst) data (u, d)).1 = .ok ()) :
    (Device.udpSendTo (Chip.dev sched faults).bus fuel (.v4 dst) data (u, d)).2.1.destination = some dst := by
  unfold Device.udpSendTo Device.onSockBus M.zoom at hr ⊢
  dsimp only at hr ⊢
  generalize hx : UdpSocket.socketSendTo (Chip.dev sched faults).bus fuel dst data (u, d.bus) = x at hr
  obtain ⟨x, u', w'⟩ := x
  have hr : x = .ok () := hr
  subst hr
  show u'.destination = some dst
  unfold UdpSocket.socketSendTo at hx
  simp only [M.bind_eq_ok, M.mapErr_eq_ok, M.get_eq_ok, M.onSnd_eq_ok] at hx
  obtain ⟨_, ⟨u1, w1⟩, h1, _, _, ⟨rfl, rfl⟩, _, h2⟩ := hx
  have h2 : u1 = u' := h2
  subst h2
  clear hr
  unfold UdpSocket.setDestination at h1
  simp only [M.bind_eq_ok, M.get_eq_ok] at h1
  obtain ⟨_, _, ⟨rfl, rfl⟩, h1⟩ := h1
  have key : ∀ b : Bool, (b = false → u.destination = some dst) → ((if b = true then (do
        M.mapErr UdpSocketError.other (M.onSnd (u.socket.setDestinationIp (Chip.dev sched faults).bus dst.ip))
        M.mapErr UdpSocketError.other (M.onSnd (u.socket.setDestinationPort (Chip.dev sched faults).bus dst.port))
        M.modify (fun s => ({ s.1 with destination := some dst }, s.2)) : M (UdpSocket × Chip) _ Unit)
      else pure ()) (u, d.bus) = (.ok (), (u1, w1))) → u1.destination = some dst := by
    intro b hb h1
    cases b with
    | true =>
      rw [if_pos rfl] at h1
      simp only [M.bind_eq_ok, M.mapErr_eq_ok, M.onSnd_eq_ok] at h1
      obtain ⟨_, ⟨u2, w2⟩, ⟨_, e2⟩, _, ⟨u3, w3⟩, ⟨_, e3⟩, h1⟩ := h1
      cases h1
      rfl
    | false =>
      cases h1
      exact hb rfl
  refine key _ (fun hd => ?_) h1
  cases hdd : u.destination with
  | none => rw [hdd] at hd; exact nomatch hd
  | some x =>
    rw [hdd] at hd
    simp only [decide_eq_false_iff_not, ne_eq, Decidable.not_not] at hd
    rw [hd]

/-- A client history is a history of the socket. -/
theorem UdpClient.run {n : Nat} {c0 c : Client Chip H} {u0 : UdpSocket} {log : List UdpSent} {got : List UdpGot}
    (hi : AllocInv c0) (hu : .udp u0 ∈ c0.live) (hn : u0.socket.index.toNat = n)
    (h : UdpClient sched faults n c0 log got c) :
    ∃ u, .udp u ∈ c.live ∧ u.socket.index.toNat = n ∧ UdpRun sched faults n u0 c0.dev.bus log got u c.dev.bus := by
  induction h with
  | start => exact ⟨u0, hu, hn, .start⟩
  | @elsewhere log got c fuel o h ho ih =>
    obtain ⟨u, h1, h2, h3⟩ := ih
    have ha := h.alloc hi
    exact ⟨u, elsewhere_keeps h1 h2 ho fuel, h2, (elsewhere_reach ha ho fuel).elim h3.reach fun hp => .pass h3 hp⟩
  | @call log log' got got' c u fuel i o h hg hn' hc ih =>
    obtain ⟨u1, h1, h2, h3⟩ := ih
    have ha := h.alloc hi
    have := ha.unique h1 (List.mem_of_getElem? hg) (h2.trans hn'.symm)
    cases this
    exact hc.run hg hn' h3

/-- The same for sockets that need not be open. -/
theorem UdpCall.calls {n fuel i : Nat} {u : UdpSocket} {c : Client Chip H} {o : Op Chip}
    {log' : List UdpSent} {got' : List UdpGot} (hg : c.live[i]? = some (.udp u)) (hn : u.socket.index.toNat = n)
    (h : UdpCalls sched faults n u c.dev.bus)
    (hc : UdpCall sched faults n fuel i u c (c.step (Chip.dev sched faults).bus fuel o) o log' got') :
    ∃ u', .udp u' ∈ (c.step (Chip.dev sched faults).bus fuel o).live ∧ u'.socket.index.toNat = n ∧
      UdpCalls sched faults n u' (c.step (Chip.dev sched faults).bus fuel o).dev.bus := by
  have hm := List.mem_of_getElem? hg
  cases hc with
  | setPort port =>
    have e := onUdp_eq (Device.onSockBus (UdpSocket.setPort (Chip.dev sched faults).bus port)) hg
    have hk := (Keeps.onSockBus (H := H) (keeps_setPort (B := (Chip.dev sched faults).bus) port) (u, c.dev)).1
    simp only [Client.step, e]
    exact ⟨_, mem_set_self hg, by rw [hk]; exact hn, .setPort port _ h rfl⟩
  | bind port =>
    have e := onUdp_eq (Device.udpBind (Chip.dev sched faults).bus port) hg
    have hk := (keeps_udpBind (B := (Chip.dev sched faults).bus) port (u, c.dev)).1
    simp only [Client.step, e]
    exact ⟨_, mem_set_self hg, by rw [hk]; exact hn, .bind port _ h rfl⟩
  | connect remote hs =>
    have e := onUdp_eq (Device.udpConnect (Chip.dev sched faults).bus remote) hg
    have hk := (keeps_udpConnect (B := (Chip.dev sched faults).bus) remote (u, c.dev)).1
    simp only [Client.step, e] at hs ⊢
    exact ⟨_, mem_set_self hg, by rw [hk]; exact hn, .connect remote _ h rfl hs⟩
  | send data dst hd hr => rw [step_udpSend hg]; exact ⟨u, hm, hn, .send fuel data _ h rfl⟩
  | failedSend data dst hd hr hdr => rw [step_udpSend hg]; exact ⟨u, hm, hn, .send fuel data _ h rfl⟩
  | sendNowhere data hd => rw [step_udpSend hg]; exact ⟨u, hm, hn, .send fuel data _ h rfl⟩
  | sendTo dst data hr =>
    have e := onUdp_eq (Device.udpSendTo (Chip.dev sched faults).bus fuel (.v4 dst) data) hg
    have hk := (keeps_udpSendTo (B := (Chip.dev sched faults).bus) fuel (.v4 dst) data (u, c.dev)).1
    simp only [Client.step, e]
    refine ⟨_, mem_set_self hg, by rw [hk]; exact hn, .sendTo fuel (.v4 dst) data _ h rfl fun a ha => ?_⟩
    cases ha
    exact .inl (udpSendTo_ok hr)
  | failedSendTo dst data hr hdr hs =>
    have e := onUdp_eq (Device.udpSendTo (Chip.dev sched faults).bus fuel (.v4 dst) data) hg
    have hk := (keeps_udpSendTo (B := (Chip.dev sched faults).bus) fuel (.v4 dst) data (u, c.dev)).1
    simp only [Client.step, e] at hs hdr ⊢
    exact ⟨_, mem_set_self hg, by rw [hk]; exact hn, .sendTo fuel (.v4 dst) data _ h rfl hs⟩
  | sendTo6 segments port data =>
    have e := onUdp_eq (Device.udpSendTo (Chip.dev sched faults).bus fuel (.v6 segments port) data) hg
    simp only [Client.step, e]
    exact ⟨u, mem_set_self hg, hn, h⟩
  | receive buf buf' k origin hr hb => rw [step_udpReceive hg]; exact ⟨u, hm, hn, .receive fuel buf _ _ h rfl⟩
  | failedReceive buf hr hrd => rw [step_udpReceive hg]; exact ⟨u, hm, hn, .receive fuel buf _ _ h rfl⟩

theorem UdpCalls.reach {n : Nat} {u : UdpSocket} {c1 c2 : Chip} (h : UdpCalls sched faults n u c1)
    (hr : Reach (Chip.dev sched faults).bus (Foreign n) c1 c2) : UdpCalls sched faults n u c2 :=
  hr.induct (I := fun x => UdpCalls sched faults n u x) (fun _ b a d h => .read b a d h)
    (fun _ _ _ _ hf h => .write _ _ _ h hf) h

/-- A client history is a history of the socket. -/
theorem UdpClient.calls {n : Nat} {c0 c : Client Chip H} {u0 : UdpSocket} {log : List UdpSent} {got : List UdpGot}
    (hi : AllocInv c0) (hu : .udp u0 ∈ c0.live) (hn : u0.socket.index.toNat = n) (h0 : UdpCalls sched faults n u0 c0.dev.bus)
    (h : UdpClient sched faults n c0 log got c) :
    ∃ u, .udp u ∈ c.live ∧ u.socket.index.toNat = n ∧ UdpCalls sched faults n u c.dev.bus := by
  induction h with
  | start => exact ⟨u0, hu, hn, h0⟩
  | @elsewhere log got c fuel o h ho ih =>
    obtain ⟨u, h1, h2, h3⟩ := ih
    have ha := h.alloc hi
    refine ⟨u, elsewhere_keeps h1 h2 ho fuel, h2, (elsewhere_reach ha ho fuel).elim h3.reach fun hp => .pass h3 hp⟩
  | @call log log' got got' c u fuel i o h hg hn' hc ih =>
    obtain ⟨u1, h1, h2, h3⟩ := ih
    have ha := h.alloc hi
    have := ha.unique h1 (List.mem_of_getElem? hg) (h2.trans hn'.symm)
    cases this
    exact hc.calls hg hn' h3

/-! ## Sizes -/

/-- Operations of a client leave legal buffer sizes legal. -/
theorem ClientRun.inv {c0 c : Client Chip H} (hi : AllocInv c0) (hz : ∀ n, n < 8 → Sock.SizesOk (c0.dev.bus.socks n).mem)
    (h : ClientRun sched faults c0 c) : AllocInv c ∧ ∀ n, n < 8 → Sock.SizesOk (c.dev.bus.socks n).mem := by
  induction h with
  | start => exact ⟨hi, hz⟩
  | @step c fuel o _ ho ih =>
    obtain ⟨ha, hz⟩ := ih
    refine ⟨ha.step fuel o, fun n hn => ?_⟩
    have hst := Sock.stable_mem Sock.SizesOk
    have elsewhere : Aside n c o → Sock.SizesOk ((c.step (Chip.dev sched faults).bus fuel o).dev.bus.socks n).mem := by
      intro he
      rcases elsewhere_reach (sched := sched) (faults := faults) ha he fuel with hr | hp
      · exact hr.induct (I := At n fun s => Sock.SizesOk s.mem)
          (fun w b a d hi => (hst.at n) _ _ (Chip.readFrame_evolves w b a d) hi)
          (fun w _ _ _ hf hi => foreign_keep hst hf w hi) (hz n hn)
      · exact hst.evolves (hp.evolves.socks n) (hz n hn)
    by_cases hr : o = .common .resetDevice
    · subst hr
      show Sock.SizesOk ((resetChip (Chip.dev sched faults).bus c.dev.bus).2.socks n).mem
      generalize hw : resetChip (Chip.dev sched faults).bus c.dev.bus = r
      obtain ⟨r, c'⟩ := r
      obtain ⟨k, _, e⟩ := Chip.regs_write hw
      have e : unptr (c'.socks n).mem = (c.dev.bus.regs.store 0 0 (List.take k [0x80])).smem n :=
        congrArg (fun r => r.smem n) e
      show Sock.SizesOk (unptr (c'.socks n).mem)
      rw [e]
      cases k with
      | zero => exact hz n hn
      | succ k =>
        have : List.take (k + 1) [(0x80 : U8)] = [0x80] := by simp
        rw [this]
        show Sock.SizesOk ((c.dev.bus.regs.poke 0 0 0x80).smem n)
        unfold RegFile.poke
        rw [if_pos rfl, if_neg (by decide), if_pos (by decide)]
        exact ⟨.inr (.inl rfl), .inr (.inl rfl)⟩
    · cases ht : o.target with
      | none =>
        refine elsewhere ?_
        cases o with
        | common o => cases o <;> first | exact absurd rfl hr | exact nofun
        | reactivate g => exact ho g rfl
        | udpSocket => exact nofun
        | tcpSocket => exact nofun
        | takeSocket => exact nofun
        | _ => cases ht
      | some i =>
        cases hg : c.live[i]? with
        | none => rw [step_noHandle c fuel o i ht hg]; exact hz n hn
        | some h =>
          have hm := List.mem_of_getElem? hg
          by_cases he : h.index = n
          · have := step_target (B := (Chip.dev sched faults).bus) c fuel o i ht h hg
            rw [ha.canonical h hm, he] at this
            exact reach_sizesOk hn this (hz n hn)
          · refine elsewhere ?_
            have : ∀ j h', o.target = some j → c.live[j]? = some h' → h'.index ≠ n := by
              intro j h' hj hh
              rw [ht] at hj
              cases hj
              rw [hg] at hh
              cases hh
              exact he
            cases o <;> first | exact this | cases ht

end Spec
end W5500
