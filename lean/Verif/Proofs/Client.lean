import Verif.Spec.Client
import Verif.Proofs.Monad
/-! # The allocation invariant of client histories -/

namespace W5500
open Spec
variable {W E H : Type} {B : Bus W E}

/-! ## Bits -/

theorem getLsbD_setBit (x : U8) (i j : Nat) (v : Bool) (hi : i < 8) (hj : j < 8) :
    (setBit x i v).getLsbD j = if j = i then v else x.getLsbD j := by
  revert x
  have hi' : i = 0 ∨ i = 1 ∨ i = 2 ∨ i = 3 ∨ i = 4 ∨ i = 5 ∨ i = 6 ∨ i = 7 := by omega
  have hj' : j = 0 ∨ j = 1 ∨ j = 2 ∨ j = 3 ∨ j = 4 ∨ j = 5 ∨ j = 6 ∨ j = 7 := by omega
  intro x
  cases v <;> simp only [setBit, Bool.false_eq_true, if_true, if_false, BitVec.getLsbD_or,
    BitVec.getLsbD_and, BitVec.getLsbD_not, BitVec.getLsbD_shiftLeft]
  all_goals
    rcases hi' with rfl | rfl | rfl | rfl | rfl | rfl | rfl | rfl <;>
    rcases hj' with rfl | rfl | rfl | rfl | rfl | rfl | rfl | rfl <;> simp

theorem socketLoop_spec (st : DeviceState H) (l : List Nat) :
    (∃ pre i post, l = pre ++ i :: post ∧ (∀ j ∈ pre, st.sockets.getLsbD j = false) ∧
      st.sockets.getLsbD i = true ∧
      st.socketLoop l = (some (Socket.new (BitVec.ofNat 8 i)),
        { st with sockets := setBit st.sockets i false })) ∨
    ((∀ j ∈ l, st.sockets.getLsbD j = false) ∧ st.socketLoop l = (none, st)) := by
  induction l with
  | nil => exact .inr ⟨by simp, rfl⟩
  | cons i is ih =>
    unfold DeviceState.socketLoop
    by_cases h : st.sockets.getLsbD i = true
    · exact .inl ⟨[], i, is, rfl, by simp, h, by rw [if_pos h]⟩
    · rw [if_neg h]
      have h' : st.sockets.getLsbD i = false := by simpa using h
      rcases ih with ⟨pre, k, post, hl, hp, hk, hr⟩ | ⟨ha, hr⟩
      · refine .inl ⟨i :: pre, k, post, by simp [hl], ?_, hk, hr⟩
        intro j hj; rcases List.mem_cons.mp hj with rfl | hj
        · exact h'
        · exact hp j hj
      · refine .inr ⟨?_, hr⟩
        intro j hj; rcases List.mem_cons.mp hj with rfl | hj
        · exact h'
        · exact ha j hj

/-- `State::socket`: the lowest set bit is cleared and returned, or no bit is set. -/
theorem socket_spec (st : DeviceState H) :
    (∃ i, i < 8 ∧ (∀ j, j < i → st.sockets.getLsbD j = false) ∧ st.sockets.getLsbD i = true ∧
      st.socket = (some (Socket.new (BitVec.ofNat 8 i)),
        { st with sockets := setBit st.sockets i false })) ∨
    ((∀ j, j < 8 → st.sockets.getLsbD j = false) ∧ st.socket = (none, st)) := by
  rcases socketLoop_spec st [0, 1, 2, 3, 4, 5, 6, 7] with ⟨pre, i, post, hl, hp, hk, hr⟩ | ⟨ha, hr⟩
  · left
    have hl' : List.range 8 = pre ++ i :: post := hl
    have hlen : pre.length < 8 := by
      have := congrArg List.length hl'
      simp at this; omega
    have hi : i = pre.length := by
      have h1 : (List.range 8)[pre.length]? = some i := by rw [hl']; simp
      rw [List.getElem?_range hlen] at h1
      simpa using h1.symm
    refine ⟨i, by omega, ?_, hk, hr⟩
    intro j hj
    apply hp
    have h1 : (List.range 8)[j]? = some j := List.getElem?_range (by omega)
    rw [hl', List.getElem?_append_left (by omega)] at h1
    exact List.mem_of_getElem? h1
  · right
    refine ⟨?_, hr⟩
    intro j hj
    apply ha
    have : j ∈ List.range 8 := List.mem_range.mpr hj
    exact this

/-! ## Operations keep the socket identity and the allocation state -/

/-- `m` changes neither which socket the object is nor the allocation state. -/
def Keeps {ε α : Type} (m : M (UdpSocket × Device W H) ε α) : Prop :=
  ∀ s, (m s).2.1.socket = s.1.socket ∧ (m s).2.2.state = s.2.state

/-- `m` does not change which socket the object is. -/
def KeepsSock {ε α : Type} (m : M (UdpSocket × W) ε α) : Prop := ∀ s, (m s).2.1.socket = s.1.socket

theorem KeepsSock.bind {ε α β : Type} {m : M (UdpSocket × W) ε α} {f : α → M (UdpSocket × W) ε β}
    (h : KeepsSock m) (hf : ∀ a, KeepsSock (f a)) : KeepsSock (m >>= f) := by
  intro s
  have h1 := h s
  rw [M.bind_def]
  generalize m s = r at h1
  obtain ⟨_ | _ | _ | _, t⟩ := r
  · exact (hf _ t).trans h1
  all_goals exact h1

theorem KeepsSock.mapErr {ε ε' α : Type} {m : M (UdpSocket × W) ε α} (f : ε → ε') (h : KeepsSock m) :
    KeepsSock (M.mapErr f m) := by
  intro s
  have h1 := h s
  rw [M.mapErr_def]
  generalize m s = r at h1
  obtain ⟨_ | _ | _ | _, t⟩ := r <;> exact h1

theorem KeepsSock.onSnd {ε α : Type} {m : M W ε α} : KeepsSock (M.onSnd m) := fun _ => rfl
theorem KeepsSock.get {ε : Type} : KeepsSock (M.get : M (UdpSocket × W) ε _) := fun _ => rfl

theorem keeps_setPort (p : U16) : KeepsSock (UdpSocket.setPort B p) :=
  .bind (fun _ => rfl) fun _ => .bind .get fun _ => .mapErr _ .onSnd

theorem keeps_setDestination (r : SockAddr4) : KeepsSock (UdpSocket.setDestination B r) := by
  refine .bind .get fun s => ?_
  have key : ∀ b : Bool, KeepsSock (ε := UdpSocketError E) (if b = true then (do
        M.mapErr UdpSocketError.other (M.onSnd (s.1.socket.setDestinationIp B r.ip))
        M.mapErr UdpSocketError.other (M.onSnd (s.1.socket.setDestinationPort B r.port))
        M.modify (fun s => ({ s.1 with destination := some r }, s.2)) : M (UdpSocket × W) _ Unit)
      else pure ()) := by
    intro b; cases b
    · exact fun _ => rfl
    · exact .bind (.mapErr _ .onSnd) fun _ => .bind (.mapErr _ .onSnd) fun _ => fun _ => rfl
  exact key _

theorem Keeps.onSockBus {ε α : Type} {m : M (UdpSocket × W) ε α} (h : KeepsSock m) :
    Keeps (H := H) (Device.onSockBus m) := fun s => ⟨h (s.1, s.2.bus), rfl⟩

theorem Keeps.throw {ε α : Type} (e : ε) : Keeps (W := W) (H := H) (M.throw e : M _ ε α) :=
  fun _ => ⟨rfl, rfl⟩

theorem keeps_udpConnect (r : SockAddr) : Keeps (H := H) (Device.udpConnect B r) := by
  unfold Device.udpConnect
  split
  · exact .throw _
  · exact .onSockBus (.bind .get fun _ => .bind (.mapErr _ .onSnd) fun _ => keeps_setDestination _)

theorem keeps_udpBind (p : U16) : Keeps (H := H) (Device.udpBind B p) :=
  .onSockBus (.bind (keeps_setPort p) fun _ => .bind .get fun _ => .mapErr _ .onSnd)

theorem keeps_udpSendTo (fuel : Nat) (r : SockAddr) (b : List U8) :
    Keeps (H := H) (Device.udpSendTo B fuel r b) := by
  unfold Device.udpSendTo
  split
  · exact .throw _
  · exact .onSockBus (.bind (.mapErr _ (keeps_setDestination _)) fun _ => .bind .get fun _ => .onSnd)

theorem state_onBus {ε α : Type} (m : M W ε α) (d : Device W H) :
    (Device.onBus m d).2.state = d.state := rfl

theorem state_onSockBus {S ε α : Type} (m : M (S × W) ε α) (s : S × Device W H) :
    (Device.onSockBus m s).2.2.state = s.2.state := rfl

theorem state_tcpConnect (fuel : Nat) (t : TcpSocket) (r : SockAddr) (d : Device W H) :
    (Device.tcpConnect B fuel t r d).2.state = d.state := by
  unfold Device.tcpConnect
  split <;> rfl

/-! ## The invariant -/

/-- Indices of live handles and lost slots. -/
def Spec.Client.held (c : Client W H) : List Nat := c.live.map Handle.index ++ c.lost

/-- Slots held by the client or lost are exactly the slots marked as taken, each once; live handles are sockets
as created by `Socket::new`. -/
structure AllocInv (c : Client W H) : Prop where
  nodup : c.held.Nodup
  taken : ∀ i, i < 8 → (c.dev.state.sockets.getLsbD i = false ↔ i ∈ c.held)
  bound : ∀ i ∈ c.held, i < 8
  canonical : ∀ h ∈ c.live, h.socket = Socket.new (BitVec.ofNat 8 h.index)

theorem allocInv_initial (w : W) (host : H) : AllocInv (Client.initial w host) where
  nodup := by simp [Client.held, Client.initial]
  taken := by
    intro i hi
    have : (0xFF#8).getLsbD i = true := by
      have hi' : i = 0 ∨ i = 1 ∨ i = 2 ∨ i = 3 ∨ i = 4 ∨ i = 5 ∨ i = 6 ∨ i = 7 := by omega
      rcases hi' with rfl | rfl | rfl | rfl | rfl | rfl | rfl | rfl <;> rfl
    simp [Client.held, Client.initial, DeviceState.new, this]
  bound := by simp [Client.held, Client.initial]
  canonical := by simp [Client.initial]

/-- Only `state`, indices and canonicity matter. -/
theorem AllocInv.congr {c c' : Client W H} (hi : AllocInv c) (hs : c'.dev.state.sockets = c.dev.state.sockets)
    (hh : c'.held.Perm c.held)
    (hc : ∀ h ∈ c'.live, h.socket = Socket.new (BitVec.ofNat 8 h.index)) : AllocInv c' where
  nodup := hh.nodup_iff.mpr hi.nodup
  taken := by intro i h8; rw [hs, hh.mem_iff]; exact hi.taken i h8
  bound := by intro i h; exact hi.bound i (hh.mem_iff.mp h)
  canonical := hc

theorem index_of_socket_eq {h h' : Handle} (e : h.socket = h'.socket) : h.index = h'.index := by
  simp [Handle.index, e]

theorem socket_new_index (i : Nat) (hi : i < 8) :
    (Socket.new (BitVec.ofNat 8 i)).index.toNat = i := by
  simp [Socket.new]; omega

/-- Replacing a live handle by one for the same socket. -/
theorem AllocInv.set {c : Client W H} (hi : AllocInv c) {i : Nat} {h h' : Handle}
    (hg : c.live[i]? = some h) (e : h'.socket = h.socket) (d : Device W H)
    (hs : d.state.sockets = c.dev.state.sockets) :
    AllocInv { c with dev := d, live := c.live.set i h' } := by
  have hidx : h'.index = h.index := index_of_socket_eq e
  refine hi.congr hs ?_ ?_
  · have : (c.live.set i h').map Handle.index = c.live.map Handle.index := by
      rw [List.map_set, hidx]
      apply List.ext_getElem?
      intro j
      rw [List.getElem?_set]
      split
      · subst_vars
        simp only [List.length_map, List.getElem?_map, hg, Option.map_some]
        split
        · rfl
        · rename_i hlt
          have := (List.getElem?_eq_some_iff.mp hg).1
          contradiction
      · rfl
    simp [Client.held, this]
  · intro k hk
    rcases List.mem_or_eq_of_mem_set hk with hk | rfl
    · exact hi.canonical k hk
    · rw [e, hidx]; exact hi.canonical h (List.mem_of_getElem? hg)

theorem AllocInv.dev {c : Client W H} (hi : AllocInv c) (d : Device W H)
    (hs : d.state.sockets = c.dev.state.sockets) : AllocInv { c with dev := d } :=
  hi.congr hs (List.Perm.refl _) hi.canonical

theorem AllocInv.onUdp {ε α : Type} {c : Client W H} (hi : AllocInv c) (i : Nat)
    {m : M (UdpSocket × Device W H) ε α} (hm : Keeps m) : AllocInv (c.onUdp i m) := by
  unfold Client.onUdp
  split
  · rename_i u hg
    have := hm (u, c.dev)
    exact hi.set (h := .udp u) (h' := .udp _) hg this.1 _ (by rw [this.2])
  · exact hi

/-- A new handle for the slot that `State::socket` returned. -/
theorem AllocInv.push {c : Client W H} (hi : AllocInv c) {i : Nat} (h8 : i < 8)
    (hbit : c.dev.state.sockets.getLsbD i = true) {h : Handle}
    (hh : h.socket = Socket.new (BitVec.ofNat 8 i)) (d : Device W H)
    (hd : d.state.sockets = setBit c.dev.state.sockets i false) :
    AllocInv { c with dev := d, live := c.live ++ [h] } := by
  have hidx : h.index = i := by simp only [Handle.index, hh]; exact socket_new_index i h8
  have hfree : i ∉ c.held := by
    intro hm; rw [(hi.taken i h8).mpr hm] at hbit; cases hbit
  have hperm : (Client.held { c with dev := d, live := c.live ++ [h] }).Perm (i :: c.held) := by
    simp only [Client.held, List.map_append, List.map_cons, List.map_nil, hidx, List.append_assoc,
      List.singleton_append]
    exact List.perm_middle
  constructor
  · exact hperm.nodup_iff.mpr (List.nodup_cons.mpr ⟨hfree, hi.nodup⟩)
  · intro j hj
    rw [hperm.mem_iff, List.mem_cons, hd, getLsbD_setBit _ _ _ _ h8 hj]
    by_cases hji : j = i
    · simp [hji]
    · simp only [hji, if_false, false_or]; exact hi.taken j hj
  · intro j hj
    rcases List.mem_cons.mp (hperm.mem_iff.mp hj) with rfl | hj
    · exact h8
    · exact hi.bound j hj
  · intro k hk
    rcases List.mem_append.mp hk with hk | hk
    · exact hi.canonical k hk
    · simp at hk; subst hk; rw [hidx]; exact hh

theorem perm_getElem_eraseIdx {α : Type} (l : List α) (i : Nat) (h : i < l.length) :
    l.Perm (l[i] :: l.eraseIdx i) := by
  induction l generalizing i with
  | nil => simp at h
  | cons a l ih =>
    cases i with
    | zero => exact List.Perm.refl _
    | succ i =>
      have := ih i (by simpa using h)
      simp only [List.getElem_cons_succ, List.eraseIdx_cons_succ]
      exact (this.cons a).trans (List.Perm.swap _ _ _)

theorem held_eraseIdx {c : Client W H} {i : Nat} {h : Handle} (hg : c.live[i]? = some h) :
    c.held.Perm (h.index :: ((c.live.eraseIdx i).map Handle.index ++ c.lost)) := by
  obtain ⟨hlt, rfl⟩ := List.getElem?_eq_some_iff.mp hg
  have : c.live.Perm (c.live[i] :: c.live.eraseIdx i) := perm_getElem_eraseIdx _ _ hlt
  exact ((this.map Handle.index).append_right c.lost)

/-- The handle is gone and so is its slot. -/
theorem AllocInv.lose {c : Client W H} (hi : AllocInv c) {i : Nat} {h : Handle}
    (hg : c.live[i]? = some h) (d : Device W H) (hd : d.state.sockets = c.dev.state.sockets) :
    AllocInv { dev := d, live := c.live.eraseIdx i, lost := c.lost ++ [h.index] } := by
  refine hi.congr hd ?_ ?_
  · refine List.Perm.trans ?_ (held_eraseIdx hg).symm
    simp only [Client.held, ← List.append_assoc]
    exact List.perm_append_singleton _ _
  · intro k hk; exact hi.canonical k (List.mem_of_mem_eraseIdx hk)

/-- The handle is gone and its slot is free again. -/
theorem AllocInv.free {c : Client W H} (hi : AllocInv c) {i : Nat} {h : Handle}
    (hg : c.live[i]? = some h) (d : Device W H)
    (hd : d.state.sockets = setBit c.dev.state.sockets h.index true) :
    AllocInv { dev := d, live := c.live.eraseIdx i, lost := c.lost } := by
  have hp := held_eraseIdx hg
  have h8 : h.index < 8 := hi.bound _ (hp.mem_iff.mpr (by simp))
  have hn := hp.nodup_iff.mp hi.nodup
  rw [List.nodup_cons] at hn
  constructor
  · exact hn.2
  · intro j hj
    rw [hd, getLsbD_setBit _ _ _ _ h8 hj]
    by_cases hji : j = h.index
    · subst hji; simp only [if_true]
      exact iff_of_false (by simp) hn.1
    · simp only [hji, if_false]
      rw [hi.taken j hj, hp.mem_iff, List.mem_cons]
      simp only [hji, false_or]; rfl
  · intro j hj; exact hi.bound j (hp.mem_iff.mpr (List.mem_cons_of_mem _ hj))
  · intro k hk; exact hi.canonical k (List.mem_of_mem_eraseIdx hk)

/-- What `close` does to the allocation state: released iff it returned `Ok`. -/
theorem close_alloc {ε : Type} (m : M W ε Unit) (s : Socket) (d : Device W H) (h8 : s.index.toNat < 8) :
    let r := (do Device.onBus m; Device.releaseSocket s : M (Device W H) ε Unit) d
    ((m d.bus).1 = .ok () ∧ r.1 = .ok () ∧ r.2.state.sockets = setBit d.state.sockets s.index.toNat true) ∨
    ((m d.bus).1 ≠ .ok () ∧ r.1 = (m d.bus).1 ∧ r.2.state.sockets = d.state.sockets) := by
  have h1 : (Device.onBus m d).1 = (m d.bus).1 := rfl
  have h2 : (Device.onBus m d).2.state = d.state := rfl
  simp only [M.bind_def]
  rw [← h1]
  generalize Device.onBus m d = q at h2
  obtain ⟨_ | _ | _ | _, t⟩ := q
  · left
    refine ⟨rfl, ?_⟩
    dsimp only at h2 ⊢
    simp [Device.releaseSocket, DeviceState.releaseSocket, h2, h8]
  all_goals right; exact ⟨by simp, rfl, congrArg _ h2⟩

theorem AllocInv.step {c : Client W H} (hi : AllocInv c) (fuel : Nat) (o : Op W) :
    AllocInv (c.step B fuel o) := by
  cases o with
  | udpSocket =>
    simp only [Client.step, Client.alloc, Device.udpSocket, M.bind_def, Device.takeSocket]
    rcases socket_spec c.dev.state with ⟨i, h8, -, hbit, hr⟩ | ⟨-, hr⟩
    · rw [hr]; exact hi.push h8 hbit rfl _ rfl
    · rw [hr]; exact hi.dev _ rfl
  | tcpSocket =>
    simp only [Client.step, Client.alloc, Device.tcpSocket, M.bind_def, Device.takeSocket]
    rcases socket_spec c.dev.state with ⟨i, h8, -, hbit, hr⟩ | ⟨-, hr⟩
    · rw [hr]; exact hi.push h8 hbit rfl _ rfl
    · rw [hr]; exact hi.dev _ rfl
  | takeSocket =>
    simp only [Client.step, Device.takeSocket]
    rcases socket_spec c.dev.state with ⟨i, h8, -, hbit, hr⟩ | ⟨-, hr⟩
    · rw [hr]; exact hi.push h8 hbit rfl _ rfl
    · rw [hr]; exact hi.dev _ rfl
  | udpSetPort i p => exact hi.onUdp i (.onSockBus (keeps_setPort p))
  | udpConnect i r => exact hi.onUdp i (keeps_udpConnect r)
  | udpBind i p => exact hi.onUdp i (keeps_udpBind p)
  | udpSendTo i r b => exact hi.onUdp i (keeps_udpSendTo fuel r b)
  | udpSend i b =>
    simp only [Client.step]; split
    · exact hi.dev _ rfl
    · exact hi
  | udpReceive i b =>
    simp only [Client.step]; split
    · exact hi.dev _ rfl
    · exact hi
  | udpClose i =>
    simp only [Client.step]; split
    · rename_i u hg
      have h8 : u.socket.index.toNat < 8 :=
        hi.bound _ ((held_eraseIdx hg).mem_iff.mpr (by simp [Handle.index, Handle.socket]))
      rcases close_alloc (H := H) (u.socketClose B) u.socket c.dev h8 with ⟨-, hr, hs⟩ | ⟨hn, hr, hs⟩
      · change (Device.udpClose B u c.dev).1 = _ at hr
        simp only [Client.consume, hr]; exact hi.free hg _ hs
      · change (Device.udpClose B u c.dev).1 = _ at hr
        have : ∀ a, (Device.udpClose B u c.dev).1 ≠ .ok a := by rw [hr]; exact fun a => hn
        have hl := hi.lose hg _ hs
        unfold Client.consume
        split
        · rename_i h; exact absurd h (this _)
        · exact hl
    · exact hi
  | tcpConnect i r =>
    simp only [Client.step]; split
    · exact hi.dev _ (by rw [state_tcpConnect])
    · exact hi
  | tcpSend i b =>
    simp only [Client.step]; split
    · exact hi.dev _ rfl
    · exact hi
  | tcpReceive i b =>
    simp only [Client.step]; split
    · exact hi.dev _ rfl
    · exact hi
  | tcpClose i =>
    simp only [Client.step]; split
    · rename_i u hg
      have h8 : u.socket.index.toNat < 8 :=
        hi.bound _ ((held_eraseIdx hg).mem_iff.mpr (by simp [Handle.index, Handle.socket]))
      rcases close_alloc (H := H) (u.socketClose B) u.socket c.dev h8 with ⟨-, hr, hs⟩ | ⟨hn, hr, hs⟩
      · change (Device.tcpClose B u c.dev).1 = _ at hr
        simp only [Client.consume, hr]; exact hi.free hg _ hs
      · change (Device.tcpClose B u c.dev).1 = _ at hr
        have : ∀ a, (Device.tcpClose B u c.dev).1 ≠ .ok a := by rw [hr]; exact fun a => hn
        have hl := hi.lose hg _ hs
        unfold Client.consume
        split
        · rename_i h; exact absurd h (this _)
        · exact hl
    · exact hi
  | releaseSocket i =>
    simp only [Client.step]; split
    · rename_i s hg
      have h8 : s.index.toNat < 8 :=
        hi.bound _ ((held_eraseIdx hg).mem_iff.mpr (by simp [Handle.index, Handle.socket]))
      simp only [Device.releaseSocket, DeviceState.releaseSocket, h8, if_true, Client.consume]
      exact hi.free hg _ rfl
    · exact hi
  | leak i =>
    simp only [Client.step]; split
    · rename_i h hg; exact hi.lose hg _ rfl
    · exact hi
  | common o => exact hi.dev _ rfl
  | reactivate g => exact hi.dev _ rfl

theorem AllocInv.run {c : Client W H} (hi : AllocInv c) (fuel : Nat) (ops : List (Op W)) :
    AllocInv (c.run B fuel ops) := by
  induction ops generalizing c with
  | nil => exact hi
  | cons o os ih => exact ih (hi.step fuel o)

end W5500
