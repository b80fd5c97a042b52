import Verif.Props.LocalPort
import Verif.Props.UdpOpen
import Verif.Props.UdpChip
import Verif.Spec.Told
/-! # Local ports of UDP sockets

C105 UDP sockets in use have different local ports. The chip hands a datagram to a socket by its destination port; with two open
sockets on one port, a program cannot know which of them gets it. -/

namespace W5500.Spec
open W5500

/-- The port a call names. -/
def Op.namesPort {W : Type} : Op W → Option U16
  | .udpSetPort _ p => some p
  | .udpBind _ p => some p
  | _ => none

/-- One of the ports sockets have before `bind` and `set_port`: 49849 plus the number of the socket. -/
def DefaultPort (p : U16) : Prop := 49849 ≤ p.toNat ∧ p.toNat < 49857

end W5500.Spec

namespace W5500.Props
open W5500 W5500.Spec
variable {W E H : Type}

/-- A UDP socket with port `p`, this not being its default. -/
def isNamed (p : U16) : Handle → Bool
  | .udp u => u.port == p && u.port.toNat != 49849 + u.socket.index.toNat
  | _ => false

theorem countP_set_le {α : Type} {f : α → Bool} {l : List α} {i : Nat} {a b : α} (hg : l[i]? = some a) (h : f b = true → f a = true) :
    (l.set i b).countP f ≤ l.countP f := by
  induction l generalizing i with
  | nil => exact Nat.le_refl _
  | cons x l ih =>
    cases i with
    | zero =>
      obtain rfl : x = a := by simpa using hg
      rw [List.set_cons_zero, List.countP_cons, List.countP_cons]
      by_cases hb : f b = true
      · rw [if_pos hb, if_pos (h hb)]; exact Nat.le_refl _
      · rw [if_neg hb]; omega
    | succ i =>
      rw [List.set_cons_succ, List.countP_cons, List.countP_cons]
      exact Nat.add_le_add_right (ih (by simpa using hg)) _

theorem countP_set_le_succ {α : Type} {f : α → Bool} {l : List α} {i : Nat} {b : α} : (l.set i b).countP f ≤ l.countP f + 1 := by
  induction l generalizing i with
  | nil => exact Nat.zero_le _
  | cons x l ih =>
    cases i with
    | zero => rw [List.set_cons_zero, List.countP_cons, List.countP_cons]; split <;> split <;> omega
    | succ i =>
      rw [List.set_cons_succ, List.countP_cons, List.countP_cons]
      have := ih (i := i)
      omega

theorem two_le_countP {α : Type} {f : α → Bool} {l : List α} {i j : Nat} {a b : α} (hij : i ≠ j) (hi : l[i]? = some a)
    (hj : l[j]? = some b) (ha : f a = true) (hb : f b = true) : 2 ≤ l.countP f := by
  induction l generalizing i j with
  | nil => exact nomatch hi
  | cons x l ih =>
    rw [List.countP_cons]
    cases i with
    | zero =>
      cases j with
      | zero => exact absurd rfl hij
      | succ j =>
        obtain rfl : x = a := by simpa using hi
        have : 0 < l.countP f := List.countP_pos_iff.mpr ⟨b, List.mem_of_getElem? (by simpa using hj), hb⟩
        rw [if_pos ha]; omega
    | succ i =>
      cases j with
      | zero =>
        obtain rfl : x = b := by simpa using hj
        have : 0 < l.countP f := List.countP_pos_iff.mpr ⟨a, List.mem_of_getElem? (by simpa using hi), ha⟩
        rw [if_pos hb]; omega
      | succ j =>
        have := ih (fun e => hij (congrArg _ e)) (by simpa using hi) (by simpa using hj)
        omega

theorem countP_eraseIdx_le {α : Type} {f : α → Bool} {l : List α} {i : Nat} : (l.eraseIdx i).countP f ≤ l.countP f :=
  (List.eraseIdx_sublist l i).countP_le

/-- What the calls on a UDP socket object do to its port. -/
theorem setPort_port (B : Bus W E) (p : U16) (s : UdpSocket × Device W H) :
    (Device.onSockBus (UdpSocket.setPort B p) s).2.1.port = p := by
  show UdpSocket.port ((M.mapErr UdpSocketError.other (M.onSnd _)) (_, _) : Res (UdpSocketError E) Unit × (UdpSocket × W)).2.1 = p
  rw [onSnd_mapErr]

theorem bind_port (B : Bus W E) (p : U16) (s : UdpSocket × Device W H) : (Device.udpBind B p s).2.1.port = p := by
  obtain ⟨s, d⟩ := s
  rw [C31_bind_script]

theorem connect_keeps_port (B : Bus W E) (r : SockAddr) (s : UdpSocket × Device W H) :
    (Device.udpConnect B r s).2.1.port = s.1.port := by
  obtain ⟨s, d⟩ := s
  cases r with
  | v6 _ _ => rfl
  | v4 r =>
    rw [C31_connect_script]
    dsimp only
    rcases onOk_cases (M.mapErr UdpSocketError.other (writeAll B (openScript s.socket.register s.port.toNat 0x02 0 ++
      destScript s r)) d.bus).1 { s with destination := some r } s with e | e <;> rw [e]

theorem sendTo_keeps_port (B : Bus W E) (fuel : Nat) (r : SockAddr) (b : List U8) (s : UdpSocket × Device W H) :
    (Device.udpSendTo B fuel r b s).2.1.port = s.1.port := by
  obtain ⟨s, d⟩ := s
  rcases sendTo_object B fuel r b s d with h | ⟨_, h⟩ <;> rw [h]

theorem onUdp_keeps {ε α : Type} (c : Client W H) (i : Nat) {m : M (UdpSocket × Device W H) ε α} (hk : Keeps m)
    (hp : ∀ s, (m s).2.1.port = s.1.port) (p : U16) : (c.onUdp i m).live.countP (isNamed p) ≤ c.live.countP (isNamed p) := by
  unfold Client.onUdp
  split
  · rename_i u hg
    refine countP_set_le hg fun h => ?_
    dsimp only [isNamed] at h ⊢
    rw [← hp (u, c.dev), ← (hk (u, c.dev)).1]
    exact h
  · exact Nat.le_refl _

theorem onUdp_sets {ε α : Type} (c : Client W H) (i : Nat) {m : M (UdpSocket × Device W H) ε α} {q : U16}
    (hp : ∀ s, (m s).2.1.port = q) (p : U16) :
    (c.onUdp i m).live.countP (isNamed p) ≤ c.live.countP (isNamed p) + [q].count p := by
  by_cases e : q = p
  · subst e
    rw [List.count_singleton_self]
    unfold Client.onUdp
    split
    · exact countP_set_le_succ
    · exact Nat.le_add_right _ _
  · refine Nat.le_trans ?_ (Nat.le_add_right _ _)
    unfold Client.onUdp
    split
    · rename_i u hg
      refine countP_set_le hg fun h => ?_
      dsimp only [isNamed] at h
      rw [hp] at h
      simp [e] at h
    · exact Nat.le_refl _

theorem udpSocket_new {d d' : Device W H} {u : UdpSocket} (h : Device.udpSocket (E := E) d = (.ok u, d')) :
    ∃ k, k < 8 ∧ u = UdpSocket.new (Socket.new (BitVec.ofNat 8 k)) := by
  unfold Device.udpSocket at h
  rw [M.bind_def] at h
  simp only [Device.takeSocket] at h
  rcases socket_spec d.state with ⟨k, hk, _, _, e⟩ | ⟨_, e⟩
  · rw [e] at h
    exact ⟨k, hk, (Res.ok.inj (Prod.mk.inj h).1).symm⟩
  · rw [e] at h
    exact nomatch (Prod.mk.inj h).1

/-- A port that is not the default of its socket was named once for every socket that has it. -/
theorem named_ports (B : Bus W E) (fuel : Nat) (w : W) (host : H) (ops : List (Op W)) (p : U16) :
    (Client.run B fuel (Client.initial w host) ops).live.countP (isNamed p) ≤ (ops.filterMap Op.namesPort).count p := by
  suffices h : ∀ (rops : List (Op W)),
      (Client.run B fuel (Client.initial w host) rops.reverse).live.countP (isNamed p) ≤ (rops.reverse.filterMap Op.namesPort).count p by
    simpa using h ops.reverse
  intro rops
  induction rops with
  | nil => exact Nat.le_refl _
  | cons op rops ih =>
    rw [List.reverse_cons, List.filterMap_append, List.count_append]
    unfold Client.run at ih ⊢
    rw [List.foldl_append]
    generalize hc : List.foldl _ _ rops.reverse = c at ih ⊢
    refine Nat.le_trans (m := c.live.countP (isNamed p) + (List.filterMap Op.namesPort [op]).count p) ?_ (by omega)
    show (Client.step B fuel c op).live.countP (isNamed p) ≤ _
    have same : ∀ l : List Handle, l = c.live → l.countP (isNamed p) ≤ c.live.countP (isNamed p) + 0 := fun l e => e ▸ Nat.le_refl _
    have erase : ∀ i, (c.live.eraseIdx i).countP (isNamed p) ≤ c.live.countP (isNamed p) + 0 := fun i => countP_eraseIdx_le
    cases op with
    | udpSocket =>
      show (c.alloc .udp (Device.udpSocket (E := E) c.dev)).live.countP _ ≤ _ + 0
      have hu : ∀ u d, Device.udpSocket (E := E) c.dev = (.ok u, d) → isNamed p (.udp u) = false := by
        intro u d h
        obtain ⟨k, hk, rfl⟩ := udpSocket_new h
        have e : (UdpSocket.new (Socket.new (BitVec.ofNat 8 k))).port.toNat = 49849 + k := C33_default k hk
        dsimp only [isNamed]
        rw [e, show (UdpSocket.new (Socket.new (BitVec.ofNat 8 k))).socket.index.toNat = k from socket_new_index k hk]
        simp
      unfold Client.alloc
      split
      · rename_i u hr
        rw [List.countP_append, List.countP_singleton, hu u _ (Prod.ext hr rfl)]
        exact Nat.le_refl _
      · exact Nat.le_refl _
    | tcpSocket =>
      show (c.alloc .tcp (Device.tcpSocket (E := E) c.dev)).live.countP _ ≤ _ + 0
      unfold Client.alloc
      split
      · rw [List.countP_append]; exact Nat.le_refl _
      · exact Nat.le_refl _
    | takeSocket =>
      show (Client.step B fuel c .takeSocket).live.countP _ ≤ _ + 0
      dsimp only [Client.step]
      split
      · rw [List.countP_append]; exact Nat.le_refl _
      · exact Nat.le_refl _
    | udpSetPort i q => exact onUdp_sets c i (setPort_port B q) p
    | udpBind i q => exact onUdp_sets c i (bind_port B q) p
    | udpConnect i r => exact onUdp_keeps c i (keeps_udpConnect r) (connect_keeps_port B r) p
    | udpSendTo i r b => exact onUdp_keeps c i (keeps_udpSendTo fuel r b) (sendTo_keeps_port B fuel r b) p
    | udpSend i b | udpReceive i b | tcpConnect i r | tcpSend i b | tcpReceive i b =>
      dsimp only [Client.step]
      split
      · exact same _ rfl
      · exact same _ rfl
    | udpClose i | tcpClose i | releaseSocket i | leak i =>
      dsimp only [Client.step, Client.consume]
      split
      · exact erase i
      · exact same _ rfl
    | common o => exact same _ rfl
    | reactivate g => exact same _ rfl

/-- C105, what holds: if the ports named in `bind` and `set_port` are different and none is one of the eight defaults, then in every
history of API calls different UDP sockets the program holds have different local ports. Missing: without that condition. -/
theorem C105_partial (B : Bus W E) (fuel : Nat) (w : W) (host : H) (ops : List (Op W)) (hd : (ops.filterMap Op.namesPort).Nodup)
    (ho : ∀ p ∈ ops.filterMap Op.namesPort, ¬DefaultPort p) {i j : Nat} {u u' : UdpSocket} (hij : i ≠ j)
    (hi : (Client.run B fuel (Client.initial w host) ops).live[i]? = some (.udp u))
    (hj : (Client.run B fuel (Client.initial w host) ops).live[j]? = some (.udp u')) : u.port ≠ u'.port := by
  intro e
  have hn := named_ports B fuel w host ops u.port
  have ha : AllocInv (Client.run B fuel (Client.initial w host) ops) := (allocInv_initial w host).run fuel ops
  generalize Client.run B fuel (Client.initial w host) ops = c at hi hj hn ha
  have h8 : ∀ {k : Nat} {v : UdpSocket}, c.live[k]? = some (.udp v) → v.socket.index.toNat < 8 := fun h =>
    ha.bound _ (List.mem_append_left _ (List.mem_map_of_mem (List.mem_of_getElem? h)))
  have hne : u.socket.index.toNat ≠ u'.socket.index.toNat := by
    intro e
    have hp : (c.live.map Handle.index).Nodup := (List.nodup_append.mp ha.nodup).1
    have := (List.getElem?_inj (by simpa using (List.getElem?_eq_some_iff.mp hi).1) hp (j := j)).mp
      (by rw [List.getElem?_map, List.getElem?_map, hi, hj]; exact congrArg some e)
    exact hij this
  have named : ∀ {k : Nat} {v : UdpSocket}, c.live[k]? = some (.udp v) → v.port = u.port →
      u.port.toNat ≠ 49849 + v.socket.index.toNat → isNamed u.port (.udp v) = true := by
    intro k v _ hv h
    dsimp only [isNamed]
    rw [hv]
    simpa using h
  have in_ops : ∀ {k : Nat} {v : UdpSocket}, c.live[k]? = some (.udp v) → isNamed u.port (.udp v) = true →
      u.port ∈ ops.filterMap Op.namesPort := by
    intro k v hk h
    have : 0 < c.live.countP (isNamed u.port) := List.countP_pos_iff.mpr ⟨_, List.mem_of_getElem? hk, h⟩
    exact List.count_pos_iff.mp (by omega)
  by_cases h1 : u.port.toNat = 49849 + u.socket.index.toNat
  · have := h8 hi
    exact ho _ (in_ops hj (named hj e.symm (by omega))) ⟨by omega, by omega⟩
  · by_cases h2 : u.port.toNat = 49849 + u'.socket.index.toNat
    · have := h8 hj
      exact ho _ (in_ops hi (named hi rfl h1)) ⟨by omega, by omega⟩
    · have a1 := named hi rfl h1
      have a2 := named hj e.symm h2
      have hc : (ops.filterMap Op.namesPort).count u.port ≤ 1 := List.nodup_iff_count.mp hd _
      have : 2 ≤ c.live.countP (isNamed u.port) := two_le_countP hij hi hj a1 a2
      omega

/-! ## The port a socket is opened with -/

theorem script_extends {B : Bus W E} (l : List Wr) (t : TW W E) : ∃ evs, (writeAll (traced B) l t).2.log = t.log ++ evs := by
  obtain ⟨evs, h, _⟩ := (emits_writeAll (B := B) (Λ := ⟨fun _ => True, trivial, fun _ _ => trivial⟩) l fun _ _ _ => trivial).run t
  exact ⟨evs, h⟩

/-- When a script sends a frame, it has sent all frames before it, successfully. -/
theorem script_before {B : Bus W E} {l : List Wr} {t : TW W E} {pre post : List (Ev E)} {b : U8} {a : U16} {d : List U8}
    {r : Res E Unit} (h : (writeAll (traced B) l t).2.log = t.log ++ (pre ++ .wr b a d r :: post)) :
    ∃ l1 l2, l = l1 ++ (b, a, d) :: l2 ∧ pre = l1.map Wr.done := by
  induction l generalizing t pre with
  | nil =>
    have h : t.log = t.log ++ (pre ++ .wr b a d r :: post) := h
    have := congrArg List.length h
    simp at this
  | cons x l ih =>
    obtain ⟨b', a', d'⟩ := x
    have hs : writeAll (traced B) ((b', a', d') :: l) t = ((traced B).write b' a' d' >>= fun _ => writeAll (traced B) l) t := rfl
    rw [hs, M.bind_def] at h
    have hw : (traced B).write b' a' d' t = ((B.writeFrame t.w b' a' d').1, ⟨(B.writeFrame t.w b' a' d').2,
        t.log ++ [.wr b' a' d' (B.writeFrame t.w b' a' d').1]⟩) := rfl
    rw [hw] at h
    generalize B.writeFrame t.w b' a' d' = q at h
    obtain ⟨q, w'⟩ := q
    have stop : t.log ++ [.wr b' a' d' q] = t.log ++ (pre ++ .wr b a d r :: post) →
        ∃ l1 l2, ((b', a', d') :: l : List Wr) = l1 ++ (b, a, d) :: l2 ∧ pre = l1.map Wr.done := by
      intro h
      have h := List.append_cancel_left h
      cases pre with
      | nil =>
        obtain ⟨rfl, rfl, rfl, _⟩ := Ev.wr.inj (List.cons.inj h).1
        exact ⟨[], l, rfl, rfl⟩
      | cons y pre =>
        have := (List.cons.inj h).2
        exact absurd this.symm (by simp)
    match q, stop, h with
    | .ok _, _, h =>
      obtain ⟨evs, he⟩ := script_extends (B := B) l ⟨w', t.log ++ [.wr b' a' d' (.ok ())]⟩
      have h : (writeAll (traced B) l ⟨w', t.log ++ [.wr b' a' d' (.ok ())]⟩).2.log = t.log ++ (pre ++ .wr b a d r :: post) := h
      have h' := h
      rw [he, List.append_assoc] at h'
      have h' := List.append_cancel_left h'
      cases pre with
      | nil =>
        obtain ⟨rfl, rfl, rfl, _⟩ := Ev.wr.inj (List.cons.inj h').1
        exact ⟨[], l, rfl, rfl⟩
      | cons y pre =>
        obtain rfl := (List.cons.inj h').1
        obtain ⟨l1, l2, rfl, rfl⟩ := ih (pre := pre) (t := ⟨w', t.log ++ [.wr b' a' d' (.ok ())]⟩) (by
          rw [h]
          simp)
        exact ⟨(b', a', d') :: l1, l2, rfl, rfl⟩
    | .err _, stop, h => exact stop h
    | .panic, stop, h => exact stop h
    | .fuel, stop, h => exact stop h

theorem split_unique {α : Type} {x : α} : ∀ {f t l1 l2 : List α}, x ∉ f → x ∉ t → f ++ x :: t = l1 ++ x :: l2 → l1 = f
  | [], t, [], l2, _, _, _ => rfl
  | [], t, y :: l1, l2, _, ht, h => by
    have := (List.cons.inj h).2
    exact absurd (this ▸ List.mem_append_right _ (List.mem_cons_self ..)) ht
  | y :: f, t, [], l2, hf, _, h => absurd ((List.cons.inj h).1 ▸ List.mem_cons_self ..) hf
  | y :: f, t, z :: l1, l2, hf, ht, h => by
    obtain ⟨rfl, h1⟩ := List.cons.inj h
    rw [split_unique (fun hm => hf (List.mem_cons_of_mem _ hm)) ht h1]

/-- C105, where the port of the object matters: whatever the bus does, when `bind` or `connect` tells the chip to open the socket
(OPEN, 0x01 in Sn_CR), the port last written to Sn_PORT is that of the object. -/
theorem C105_open (B : Bus W E) {u u' : UdpSocket} {d : Device W H} {d' : Device (TW W E) H} {r : Res (UdpSocketError E) Unit}
    (h : (∃ port, Device.udpBind (traced B) port (u, ⟨⟨d.bus, []⟩, d.state⟩) = (r, (u', d'))) ∨
      (∃ remote, Device.udpConnect (traced B) remote (u, ⟨⟨d.bus, []⟩, d.state⟩) = (r, (u', d'))))
    {pre post : List (Ev E)} {r' : Res E Unit} (hl : d'.bus.log = pre ++ .wr u.socket.register 0x01 [0x01] r' :: post) :
    localPort u.socket.register pre = some (be u'.port.toNat) := by
  have state : ∀ (m : M (TW W E) E Unit) (t : TW W E), (M.mapErr UdpSocketError.other m t).2 = (m t).2 := by
    intro m t
    rw [M.mapErr_def]
    generalize m t = q
    obtain ⟨_ | _ | _ | _, _⟩ := q <;> rfl
  have key : ∀ (reg : U8) (f t : List Wr), (reg, 0x01, [0x01]) ∉ f → (reg, 0x01, [0x01]) ∉ t →
      (writeAll (traced B) (f ++ (reg, 0x01, [0x01]) :: t) ⟨d.bus, []⟩).2.log = pre ++ .wr reg 0x01 [0x01] r' :: post →
      pre = f.map Wr.done := by
    intro reg f t hf ht hw
    obtain ⟨l1, l2, h1, rfl⟩ := script_before (B := B) (t := ⟨d.bus, []⟩) hw
    rw [split_unique hf ht h1]
  have hb : ∀ (reg : U8) (x : Nat), (reg, 0x01, [0x01]) ∉ (openScript reg x 0x02 0).take 5 := by
    intro reg x
    simp [openScript]
  have hp : ∀ (reg : U8) (l : List Wr) (x : Nat),
      localPort reg ((l ++ (openScript reg x 0x02 0).take 5).map (Wr.done (E := E))) = some (be x) := by
    intro reg l x
    simp [localPort, openScript, Wr.done, portWrite]
  rcases h with ⟨port, h⟩ | ⟨remote, h⟩
  · rw [C31_bind_script] at h
    obtain ⟨_, rfl, rfl⟩ := Prod.mk.inj h |>.imp_right Prod.mk.inj
    dsimp only at hl ⊢
    rw [state] at hl
    rw [key u.socket.register ([(u.socket.register, 0x04, be port.toNat)] ++ (openScript u.socket.register port.toNat 0x02 0).take 5) []
      (by
        intro hm
        rcases List.mem_append.mp hm with hm | hm
        · simp at hm
        · exact hb _ _ hm) (by simp) hl]
    exact hp _ _ _
  · cases remote with
    | v6 _ _ =>
      obtain ⟨_, rfl, rfl⟩ := Prod.mk.inj h |>.imp_right Prod.mk.inj
      exact absurd (show [] = _ from hl) (by simp)
    | v4 remote =>
      rw [C31_connect_script] at h
      obtain ⟨_, h2, rfl⟩ := Prod.mk.inj h |>.imp_right Prod.mk.inj
      have hport : u'.port = u.port := by
        rw [← h2]
        rcases onOk_cases (M.mapErr UdpSocketError.other (writeAll (traced B) (openScript u.socket.register u.port.toNat 0x02 0 ++
          destScript u remote)) ⟨d.bus, []⟩).1 { u with destination := some remote } u with e | e <;>
          exact (congrArg UdpSocket.port e).trans rfl
      dsimp only at hl
      rw [state] at hl
      rw [hport, key u.socket.register ([] ++ (openScript u.socket.register u.port.toNat 0x02 0).take 5) (destScript u remote)
        (hb _ _) (by unfold destScript; split <;> simp [remoteScript]) hl]
      exact hp _ _ _

/-! ## What does not hold -/

/-- C105 is false in general: `bind` never looks at other sockets. In every history, two UDP sockets may be bound to the same port … -/
theorem C105_refuted (B : Bus W E) (fuel : Nat) (w : W) (host : H) (ops : List (Op W)) (p : U16) {i j : Nat} {u u' : UdpSocket}
    (hij : i ≠ j) (hi : (Client.run B fuel (Client.initial w host) ops).live[i]? = some (.udp u))
    (hj : (Client.run B fuel (Client.initial w host) ops).live[j]? = some (.udp u')) :
    let c := Client.run B fuel (Client.initial w host) (ops ++ [.udpBind i p, .udpBind j p])
    ∃ v v', c.live[i]? = some (.udp v) ∧ c.live[j]? = some (.udp v') ∧ v.port = p ∧ v'.port = p := by
  dsimp only
  unfold Client.run at *
  rw [List.foldl_append]
  generalize List.foldl _ _ ops = c at *
  have li := (List.getElem?_eq_some_iff.mp hi).1
  have lj := (List.getElem?_eq_some_iff.mp hj).1
  have h1 : Client.step B fuel c (.udpBind i p) =
      { c with dev := (Device.udpBind B p (u, c.dev)).2.2, live := c.live.set i (.udp (Device.udpBind B p (u, c.dev)).2.1) } := by
    dsimp only [Client.step, Client.onUdp]
    rw [hi]
  have h2 : (c.live.set i (.udp (Device.udpBind B p (u, c.dev)).2.1))[j]? = some (.udp u') := by
    rw [List.getElem?_set_ne hij]; exact hj
  show ∃ v v', (Client.step B fuel (Client.step B fuel c (.udpBind i p)) (.udpBind j p)).live[i]? = some (.udp v) ∧
    (Client.step B fuel (Client.step B fuel c (.udpBind i p)) (.udpBind j p)).live[j]? = some (.udp v') ∧ v.port = p ∧ v'.port = p
  rw [h1]
  dsimp only [Client.step, Client.onUdp]
  rw [h2]
  dsimp only
  refine ⟨_, _, ?_, List.getElem?_set_self (by simpa using lj), bind_port B p (u, c.dev), bind_port B p _⟩
  rw [List.getElem?_set_ne (Ne.symm hij), List.getElem?_set_self li]

/-- … and on the chip both calls succeed: both sockets are open as UDP sockets (0x22) on port 5000. -/
theorem C105_refuted_chip :
    let B := (Chip.dev emitSched noFaults).bus
    let r0 := Device.udpBind B 5000 (demoUdp, demoDevice)
    let r1 := Device.udpBind B 5000 (UdpSocket.new (Socket.new 1), r0.2.2)
    r0.1 = .ok () ∧ r1.1 = .ok () ∧ (r1.2.2.bus.socks 0).sr = 0x22 ∧ (r1.2.2.bus.socks 1).sr = 0x22 ∧
      (r1.2.2.bus.socks 0).srcPort = be 5000 ∧ (r1.2.2.bus.socks 1).srcPort = be 5000 := by
  decide +kernel

/-- A port that only one `bind` names is not safe either, if it is one of the defaults: socket 0 is bound to port 49850, socket 1 is
connected without `bind`. -/
theorem C105_refuted_default :
    let B := (Chip.dev emitSched noFaults).bus
    let c := Client.run B 9 (Client.initial Chip.powerUp ()) [.udpSocket, .udpSocket, .udpBind 0 49850, .udpConnect 1 (.v4 addrA)]
    (c.live.map fun | .udp u => u.port | _ => 0) = [49850, 49850] ∧ (c.dev.bus.socks 0).sr = 0x22 ∧ (c.dev.bus.socks 1).sr = 0x22 ∧
      (c.dev.bus.socks 0).srcPort = be 49850 ∧ (c.dev.bus.socks 1).srcPort = be 49850 := by
  decide +kernel

/-- The hypotheses of C105_partial are met by a program with two UDP sockets, one of them bound. -/
example :
    let ops : List (Op Chip) := [.udpSocket, .udpSetPort 0 68, .udpSocket, .udpBind 0 5000, .udpConnect 1 (.v4 addrA)]
    let c := Client.run (Chip.dev emitSched noFaults).bus 9 (Client.initial Chip.powerUp ()) ops
    (ops.filterMap Op.namesPort).Nodup ∧ (ops.filterMap Op.namesPort).all (fun p => p.toNat < 49849) = true ∧
      (c.live.map fun | .udp u => u.port | _ => 0) = [5000, 49850] ∧ (c.dev.bus.socks 0).srcPort = be 5000 ∧
      (c.dev.bus.socks 1).srcPort = be 49850 := by
  decide +kernel

/-- The hypotheses of C105_open are met: the traffic of a `bind` to port 5000 and of a `connect`, each with its OPEN command. -/
example :
    let B := (Chip.dev emitSched noFaults).bus
    let open_ : Ev Unit := .wr demoUdp.socket.register 0x01 [0x01] (.ok ())
    let l0 := (Device.udpBind (traced B) 5000 (demoUdp, (⟨⟨Chip.powerUp, []⟩, DeviceState.new ()⟩ : Device (TW Chip Unit) Unit))).2.2.bus.log
    let l1 := (Device.udpConnect (traced B) (.v4 addrA)
      (demoUdp, (⟨⟨Chip.powerUp, []⟩, DeviceState.new ()⟩ : Device (TW Chip Unit) Unit))).2.2.bus.log
    l0.takeWhile (· ≠ open_) ≠ l0 ∧ localPort demoUdp.socket.register (l0.takeWhile (· ≠ open_)) = some (be 5000) ∧
      l1.takeWhile (· ≠ open_) ≠ l1 ∧ localPort demoUdp.socket.register (l1.takeWhile (· ≠ open_)) = some (be 49849) := by
  decide +kernel

end W5500.Props
