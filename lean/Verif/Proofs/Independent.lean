import Verif.Spec.Independent
import Verif.Proofs.RelateClient
import Verif.Proofs.Veil
/-! # Calls on different sockets commute -/

namespace W5500
open Spec
variable {W E H V : Type}

/-- The effect of a call on the handle it works on and on the bus. -/
def Spec.Op.call (B : Bus W E) (fuel : Nat) (o : Op W) (x : Handle) (w : W) : Seen E × Handle × W :=
  let d : Device W Unit := ⟨w, DeviceState.new ()⟩
  match o, x with
  | .udpSetPort _ p, .udp u =>
    let r := Device.onSockBus (UdpSocket.setPort B p) (u, d)
    (.udp r.1 r.2.1, .udp r.2.1, r.2.2.bus)
  | .udpConnect _ a, .udp u =>
    let r := Device.udpConnect B a (u, d)
    (.udp r.1 r.2.1, .udp r.2.1, r.2.2.bus)
  | .udpBind _ p, .udp u =>
    let r := Device.udpBind B p (u, d)
    (.udp r.1 r.2.1, .udp r.2.1, r.2.2.bus)
  | .udpSend _ b, .udp u =>
    let r := Device.udpSend B fuel u b d
    (.udpSent r.1 u, .udp u, r.2.bus)
  | .udpSendTo _ a b, .udp u =>
    let r := Device.udpSendTo B fuel a b (u, d)
    (.udpSent r.1 r.2.1, .udp r.2.1, r.2.2.bus)
  | .udpReceive _ b, .udp u =>
    let r := Device.udpReceive B fuel u (b, d)
    (.udpReceived r.1 r.2.1, .udp u, r.2.2.bus)
  | .tcpConnect _ a, .tcp t =>
    let r := Device.tcpConnect B fuel t a d
    (.tcp r.1, .tcp t, r.2.bus)
  | .tcpSend _ b, .tcp t =>
    let r := Device.tcpSend B fuel t b d
    (.tcpSent r.1, .tcp t, r.2.bus)
  | .tcpReceive _ b, .tcp t =>
    let r := Device.tcpReceive B fuel t (b, d)
    (.tcpReceived r.1 r.2.1, .tcp t, r.2.2.bus)
  | _, _ => (.nothing, x, w)

theorem set_same {α : Type} {l : List α} {i : Nat} {x : α} (h : l[i]? = some x) : l.set i x = l := by
  apply List.ext_getElem?
  intro j
  rw [List.getElem?_set]
  split
  · rename_i e
    subst e
    split
    · exact h.symm
    · rename_i hl
      rw [List.getElem?_eq_none (by omega)]
  · rfl

/-- A call only looks at its handle and the bus, and only changes these. -/
theorem call_eq (B : Bus W E) (fuel : Nat) {c : Client W H} {o : Op W} {i : Nat} {x : Handle} (hc : o.IsCall)
    (ht : o.target = some i) (hx : c.live[i]? = some x) :
    c.seen B fuel o = (o.call B fuel x c.dev.bus).1 ∧
    c.step B fuel o = { dev := { c.dev with bus := (o.call B fuel x c.dev.bus).2.2 }
                        live := c.live.set i (o.call B fuel x c.dev.bus).2.1
                        lost := c.lost } := by
  have hs := set_same hx
  cases o <;> first | exact hc.elim | skip
  all_goals
    cases ht
    unfold Client.seen Client.step
    dsimp only [Client.seenUdp, Client.onUdp]
    rw [hx]
    cases x with
    | udp u =>
      first
        | exact ⟨rfl, rfl⟩
        | (dsimp only [Op.call]; rw [hs]; exact ⟨rfl, rfl⟩)
        | (rename_i a; cases a <;> exact ⟨rfl, rfl⟩)
        | (rename_i a _; cases a <;> exact ⟨rfl, rfl⟩)
    | tcp t =>
      first
        | (dsimp only [Op.call]; rw [hs]; exact ⟨rfl, rfl⟩)
        | (rename_i a; cases a <;> (dsimp only [Op.call]; rw [hs]; exact ⟨rfl, rfl⟩))
    | raw s => dsimp only [Op.call]; rw [hs]; exact ⟨rfl, rfl⟩

theorem call_none (B : Bus W E) (fuel : Nat) {c : Client W H} {o : Op W} {i : Nat} (hc : o.IsCall) (ht : o.target = some i)
    (hx : c.live[i]? = none) : c.seen B fuel o = .nothing ∧ c.step B fuel o = c := by
  cases o <;> first | exact hc.elim | skip
  all_goals
    cases ht
    unfold Client.seen Client.step
    dsimp only [Client.seenUdp, Client.onUdp]
    rw [hx]
    exact ⟨rfl, rfl⟩

/-- The same call on two related states of the bus. -/
theorem call_like {F T : U8 → Prop} {B : Bus W E} {R : W → W → Prop} (h : Respects F T Eq B B R) (fuel : Nat) {o : Op W} {i : Nat}
    {x : Handle} (hc : o.IsCall) (ht : o.target = some i)
    (hx : F x.socket.register ∧ F x.socket.rxBuffer ∧ T x.socket.txBuffer) {w w' : W} (r : R w w') :
    (o.call B fuel x w).1 = (o.call B fuel x w').1 ∧ (o.call B fuel x w).2.1 = (o.call B fuel x w').2.1 ∧
    R (o.call B fuel x w).2.2 (o.call B fuel x w').2.2 := by
  have hl : ∀ w : W, (Client.mk (H := Unit) ⟨w, DeviceState.new ()⟩ (List.replicate (i + 1) x) []).live[i]? = some x := by
    intro w
    simp
  obtain ⟨h1, h2⟩ := call_eq B fuel hc ht (hl w)
  obtain ⟨h1', h2'⟩ := call_eq B fuel hc ht (hl w')
  have ho : o.Like Eq R o := by
    cases o <;> first | exact hc.elim | (constructor; done) | (constructor; rfl)
  obtain ⟨h3, h4⟩ := step_like h Cut.eq (c := ⟨⟨w, DeviceState.new ()⟩, List.replicate (i + 1) x, []⟩)
    (c' := ⟨⟨w', DeviceState.new ()⟩, List.replicate (i + 1) x, []⟩) ⟨r, rfl, rfl, rfl⟩ fuel
    (o := o) ⟨fun j y hj hy => by
      cases hj.symm.trans ht
      cases (hl w).symm.trans hy
      exact hx, fun q hq => by subst hq; exact hc.elim⟩ ho
  rw [h1, h1'] at h3
  rw [h2, h2'] at h4
  refine ⟨h3, ?_, h4.bus⟩
  have := congrArg (·[i]?) h4.live
  simpa [List.getElem?_set] using this

/-- A transfer independent of the call. -/
theorem call_frame {F G : U8 → Prop} {B : Bus W E} (hI : Independent B F G) (fuel : Nat) {o : Op W} {i : Nat} {x : Handle}
    (hc : o.IsCall) (ht : o.target = some i) (hx : F x.socket.register ∧ F x.socket.rxBuffer ∧ F x.socket.txBuffer)
    {g : Frame} (hg : G g.block) (w : W) :
    o.call B fuel x (g.run B w).2 = ((o.call B fuel x w).1, (o.call B fuel x w).2.1, (g.run B (o.call B fuel x w).2.2).2) ∧
    (g.run B (o.call B fuel x w).2.2).1 = (g.run B w).1 := by
  have hR : Respects F F Eq B B (fun a b => g.run B a = ((g.run B w).1, b)) := by
    have key : ∀ f : Frame, F f.block → ∀ a b, g.run B a = ((g.run B w).1, b) →
        (f.run B a).1 = (f.run B b).1 ∧ g.run B (f.run B a).2 = ((g.run B w).1, (f.run B b).2) := by
      intro f hf a b hab
      obtain ⟨h1, h2, h3⟩ := hI f g hf hg a
      rw [hab] at h1 h2 h3
      exact ⟨h1.symm, Prod.ext h2 h3.symm⟩
    refine ⟨fun b a d s s' hb r => ?_, fun b a d s s' hb r => ?_, fun b a d d' s s' hb hd r => ?_⟩
    · obtain ⟨h1, h2⟩ := key (.rd b a d) hb s s' r
      exact ⟨(Prod.mk.inj h1).1, (Prod.mk.inj h1).2, h2⟩
    · obtain ⟨h1, h2⟩ := key (.wr b a d) hb s s' r
      exact ⟨(Prod.mk.inj h1).1, h2⟩
    · subst hd
      obtain ⟨h1, h2⟩ := key (.wr b a d) hb s s' r
      exact ⟨(Prod.mk.inj h1).1, h2⟩
  obtain ⟨h1, h2, h3⟩ := call_like hR fuel hc ht hx (w := w) (w' := (g.run B w).2) rfl
  rw [h3]
  exact ⟨Prod.ext h1.symm (Prod.ext h2.symm rfl), rfl⟩

/-- Two calls. -/
theorem call_comm {F G : U8 → Prop} {B : Bus W E} (hI : Independent B F G) (fuel fuel' : Nat) {o o' : Op W} {i i' : Nat}
    {x x' : Handle} (hc : o.IsCall) (ht : o.target = some i) (hc' : o'.IsCall) (ht' : o'.target = some i')
    (hx : F x.socket.register ∧ F x.socket.rxBuffer ∧ F x.socket.txBuffer)
    (hx' : G x'.socket.register ∧ G x'.socket.rxBuffer ∧ G x'.socket.txBuffer) (w : W) :
    o'.call B fuel' x' (o.call B fuel x w).2.2 =
      ((o'.call B fuel' x' w).1, (o'.call B fuel' x' w).2.1, (o.call B fuel x (o'.call B fuel' x' w).2.2).2.2) ∧
    (o.call B fuel x (o'.call B fuel' x' w).2.2).1 = (o.call B fuel x w).1 ∧
    (o.call B fuel x (o'.call B fuel' x' w).2.2).2.1 = (o.call B fuel x w).2.1 := by
  have hR : Respects G G Eq B B
      (fun a b => o.call B fuel x a = ((o.call B fuel x w).1, (o.call B fuel x w).2.1, b)) := by
    have key : ∀ g : Frame, G g.block → ∀ a b, o.call B fuel x a = ((o.call B fuel x w).1, (o.call B fuel x w).2.1, b) →
        (g.run B a).1 = (g.run B b).1 ∧
        o.call B fuel x (g.run B a).2 = ((o.call B fuel x w).1, (o.call B fuel x w).2.1, (g.run B b).2) := by
      intro g hg a b hab
      obtain ⟨h1, h2⟩ := call_frame hI fuel hc ht hx hg a
      rw [hab] at h1 h2
      exact ⟨h2.symm, h1⟩
    refine ⟨fun b a d s s' hb r => ?_, fun b a d s s' hb r => ?_, fun b a d d' s s' hb hd r => ?_⟩
    · obtain ⟨h1, h2⟩ := key (.rd b a d) hb s s' r
      exact ⟨(Prod.mk.inj h1).1, (Prod.mk.inj h1).2, h2⟩
    · obtain ⟨h1, h2⟩ := key (.wr b a d) hb s s' r
      exact ⟨(Prod.mk.inj h1).1, h2⟩
    · subst hd
      obtain ⟨h1, h2⟩ := key (.wr b a d) hb s s' r
      exact ⟨(Prod.mk.inj h1).1, h2⟩
  obtain ⟨h1, h2, h3⟩ := call_like hR fuel' hc' ht' hx' (w := w) (w' := (o.call B fuel x w).2.2) rfl
  rw [h3]
  exact ⟨Prod.ext h1.symm (Prod.ext h2.symm rfl), rfl, rfl⟩

theorem sockBlocks {x : Handle} {n : Nat} (hn : n < 8) (h : x.socket = Socket.new (BitVec.ofNat 8 n)) :
    SockBlocks n x.socket.register ∧ SockBlocks n x.socket.rxBuffer ∧ SockBlocks n x.socket.txBuffer := by
  rw [h]
  unfold SockBlocks
  revert n
  intro n hn _
  have : ∀ n, n < 8 → ((Socket.new (BitVec.ofNat 8 n)).register.toNat = 4 * n + 1 ∧
      (Socket.new (BitVec.ofNat 8 n)).rxBuffer.toNat = 4 * n + 3 ∧
      (Socket.new (BitVec.ofNat 8 n)).txBuffer.toNat = 4 * n + 2) := by decide +kernel
  obtain ⟨h1, h2, h3⟩ := this n hn
  exact ⟨.inl h1, .inr (.inr h2), .inr (.inl h3)⟩

/-- Two calls of a client, on different sockets. -/
theorem step_comm {B : Bus W E} (hI : ∀ n m, n < 8 → m < 8 → n ≠ m → Independent B (SockBlocks n) (SockBlocks m)) {c : Client W H}
    (hi : AllocInv c) (fuel fuel' : Nat) {o o' : Op W} {i i' : Nat} (hc : o.IsCall) (ht : o.target = some i)
    (hc' : o'.IsCall) (ht' : o'.target = some i') (hne : i ≠ i') :
    (c.step B fuel o).seen B fuel' o' = c.seen B fuel' o' ∧ (c.step B fuel' o').seen B fuel o = c.seen B fuel o ∧
    (c.step B fuel o).step B fuel' o' = (c.step B fuel' o').step B fuel o := by
  rcases hx : c.live[i]? with _ | x
  · obtain ⟨h1, h2⟩ := call_none B fuel hc ht hx
    rw [h2, h1]
    refine ⟨rfl, ?_, ?_⟩
    all_goals
      have hx2 : (c.step B fuel' o').live[i]? = none := by
        rcases hx' : c.live[i']? with _ | x'
        · rw [(call_none B fuel' hc' ht' hx').2]; exact hx
        · rw [(call_eq B fuel' hc' ht' hx').2]
          show (c.live.set i' _)[i]? = none
          rw [List.getElem?_set_ne (Ne.symm hne)]; exact hx
    · exact (call_none B fuel hc ht hx2).1
    · exact (call_none B fuel hc ht hx2).2.symm
  · rcases hx' : c.live[i']? with _ | x'
    · obtain ⟨h1, h2⟩ := call_none B fuel' hc' ht' hx'
      rw [h2, h1]
      have hx2 : (c.step B fuel o).live[i']? = none := by
        rw [(call_eq B fuel hc ht hx).2]
        show (c.live.set i _)[i']? = none
        rw [List.getElem?_set_ne hne]; exact hx'
      exact ⟨(call_none B fuel' hc' ht' hx2).1, rfl, (call_none B fuel' hc' ht' hx2).2⟩
    · have hm := List.mem_of_getElem? hx
      have hm' := List.mem_of_getElem? hx'
      have h8 : x.index < 8 := hi.bound _ (List.mem_append_left _ (List.mem_map_of_mem hm))
      have h8' : x'.index < 8 := hi.bound _ (List.mem_append_left _ (List.mem_map_of_mem hm'))
      have hidx : x.index ≠ x'.index := by
        intro e
        have hnd : (c.live.map Handle.index).Nodup := (List.nodup_append.mp hi.nodup).1
        have g1 : (c.live.map Handle.index)[i]? = some x.index := by rw [List.getElem?_map, hx]; rfl
        have g2 : (c.live.map Handle.index)[i']? = some x.index := by rw [List.getElem?_map, hx', e]; rfl
        exact hne ((List.getElem?_inj (List.getElem?_eq_some_iff.mp g1).1 hnd).mp (g1.trans g2.symm))
      have hsx := sockBlocks h8 (hi.canonical x hm)
      have hsx' := sockBlocks h8' (hi.canonical x' hm')
      obtain ⟨k1, k2, k3⟩ := call_comm (hI _ _ h8 h8' hidx) fuel fuel' hc ht hc' ht' hsx hsx' c.dev.bus
      obtain ⟨a1, a2⟩ := call_eq B fuel hc ht hx
      obtain ⟨b1, b2⟩ := call_eq B fuel' hc' ht' hx'
      have hxb : (c.step B fuel o).live[i']? = some x' := by
        rw [a2]
        show (c.live.set i _)[i']? = _
        rw [List.getElem?_set_ne hne]; exact hx'
      have hxa : (c.step B fuel' o').live[i]? = some x := by
        rw [b2]
        show (c.live.set i' _)[i]? = _
        rw [List.getElem?_set_ne (Ne.symm hne)]; exact hx
      obtain ⟨c1, c2⟩ := call_eq B fuel' hc' ht' hxb
      obtain ⟨d1, d2⟩ := call_eq B fuel hc ht hxa
      have ea : (c.step B fuel o).dev.bus = (o.call B fuel x c.dev.bus).2.2 := by rw [a2]
      have eb : (c.step B fuel' o').dev.bus = (o'.call B fuel' x' c.dev.bus).2.2 := by rw [b2]
      rw [ea, k1] at c1 c2
      rw [eb] at d1 d2
      refine ⟨by rw [c1, b1], by rw [d1, k2, a1], ?_⟩
      rw [c2, d2, a2, b2, k3]
      dsimp only
      rw [List.set_comm _ _ hne]

/-- Any number of calls on two sockets. -/
theorem shuffle_after {B : Bus W E} (hI : ∀ n m, n < 8 → m < 8 → n ≠ m → Independent B (SockBlocks n) (SockBlocks m)) {i i' : Nat} (hne : i ≠ i')
    {xs : List (Nat × Op W)} (hx : ∀ p ∈ xs, p.2.IsCall ∧ p.2.target = some i) {fuel' : Nat} {o' : Op W} (hc' : o'.IsCall)
    (ht' : o'.target = some i') {c : Client W H} (hi : AllocInv c) :
    (c.step B fuel' o').outputs B xs = c.outputs B xs ∧ (c.after B xs).seen B fuel' o' = c.seen B fuel' o' ∧
    (c.step B fuel' o').after B xs = (c.after B xs).step B fuel' o' := by
  induction xs generalizing c with
  | nil => exact ⟨rfl, rfl, rfl⟩
  | cons p xs ih =>
    obtain ⟨fuel, o⟩ := p
    obtain ⟨hc, ht⟩ := hx _ (List.mem_cons_self ..)
    obtain ⟨h1, h2, h3⟩ := step_comm hI hi fuel fuel' hc ht hc' ht' hne
    obtain ⟨h4, h5, h6⟩ := ih (fun q hq => hx q (List.mem_cons_of_mem _ hq)) (hi.step (B := B) fuel o)
    unfold Client.outputs Client.after
    rw [← h3, h2, h4, h5, h6, h1]
    exact ⟨rfl, rfl, rfl⟩

theorem shuffle_like {B : Bus W E} (hI : ∀ n m, n < 8 → m < 8 → n ≠ m → Independent B (SockBlocks n) (SockBlocks m)) {i i' : Nat} (hne : i ≠ i')
    {xs ys zs : List (Nat × Op W)} (hs : Shuffle xs ys zs) (hx : ∀ p ∈ xs, p.2.IsCall ∧ p.2.target = some i)
    (hy : ∀ p ∈ ys, p.2.IsCall ∧ p.2.target = some i') {c : Client W H} (hi : AllocInv c) :
    Shuffle (c.outputs B xs) (c.outputs B ys) (c.outputs B zs) ∧ c.after B zs = (c.after B xs).after B ys := by
  induction hs generalizing c with
  | nil => exact ⟨.nil, rfl⟩
  | @left p xs ys zs hs ih =>
    obtain ⟨fuel, o⟩ := p
    obtain ⟨h1, h2⟩ := ih (fun q hq => hx q (List.mem_cons_of_mem _ hq)) hy (hi.step (B := B) fuel o)
    obtain ⟨hc, ht⟩ := hx _ (List.mem_cons_self ..)
    rw [(shuffle_after hI (Ne.symm hne) hy hc ht hi).1] at h1
    exact ⟨.left _ h1, h2⟩
  | @right p xs ys zs hs ih =>
    obtain ⟨fuel, o⟩ := p
    obtain ⟨h1, h2⟩ := ih hx (fun q hq => hy q (List.mem_cons_of_mem _ hq)) (hi.step (B := B) fuel o)
    obtain ⟨hc, ht⟩ := hy _ (List.mem_cons_self ..)
    obtain ⟨h3, _, h5⟩ := shuffle_after hI hne hx hc ht hi
    rw [h3] at h1
    refine ⟨.right _ h1, ?_⟩
    show (c.step B fuel o).after B zs = _
    rw [h2, h5]
    rfl

theorem allocInv_after {B : Bus W E} {c : Client W H} (hi : AllocInv c) (ops : List (Nat × Op W)) : AllocInv (c.after B ops) := by
  induction ops generalizing c with
  | nil => exact hi
  | cons p ops ih => exact ih (hi.step (B := B) p.1 p.2)

/-- The separate buses are independent. -/
theorem separate_independent (Bs : Nat → Bus V E) (n m : Nat) (_ : n < 8) (_ : m < 8) (hne : n ≠ m) :
    Independent (separate Bs) (SockBlocks n) (SockBlocks m) := by
  intro f g hf hg w
  have ef : f.block.toNat / 4 = n := by unfold SockBlocks at hf; omega
  have eg : g.block.toNat / 4 = m := by unfold SockBlocks at hg; omega
  have hmn : m ≠ n := Ne.symm hne
  cases f with
  | rd b a d =>
    simp only [Frame.block] at ef
    cases g with
    | rd b' a' d' =>
      simp only [Frame.block] at eg
      simp only [Frame.run, separate, ef, eg, if_neg hne, if_neg hmn, true_and]
      funext k
      by_cases h1 : k = n <;> by_cases h2 : k = m <;> simp_all
    | wr b' a' d' =>
      simp only [Frame.block] at eg
      simp only [Frame.run, separate, ef, eg, if_neg hne, if_neg hmn, true_and]
      funext k
      by_cases h1 : k = n <;> by_cases h2 : k = m <;> simp_all
  | wr b a d =>
    simp only [Frame.block] at ef
    cases g with
    | rd b' a' d' =>
      simp only [Frame.block] at eg
      simp only [Frame.run, separate, ef, eg, if_neg hne, if_neg hmn, true_and]
      funext k
      by_cases h1 : k = n <;> by_cases h2 : k = m <;> simp_all
    | wr b' a' d' =>
      simp only [Frame.block] at eg
      simp only [Frame.run, separate, ef, eg, if_neg hne, if_neg hmn, true_and]
      funext k
      by_cases h1 : k = n <;> by_cases h2 : k = m <;> simp_all

end W5500
