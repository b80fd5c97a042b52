import Verif.Spec.Forge
import Verif.Proofs.Client
/-! # Clients that meddle with their handles: the invariant -/

namespace W5500
open Spec
variable {W E H : Type} {B : Bus W E}

theorem state_onUdp {ε α : Type} (c : Client W H) (i : Nat) {m : M (UdpSocket × Device W H) ε α} (hm : Keeps m) :
    (c.onUdp i m).dev.state = c.dev.state := by
  unfold Client.onUdp
  split
  · exact (hm _).2
  · rfl

/-- A call on a handle that does not close it leaves the allocation state alone. -/
theorem state_step (c : Client W H) (fuel : Nat) {o : Op W} (ht : o.target.isSome = true) (hc : o.closes = false) :
    (c.step B fuel o).dev.state = c.dev.state := by
  cases o with
  | udpSetPort i p => exact state_onUdp c i (.onSockBus (keeps_setPort p))
  | udpConnect i r => exact state_onUdp c i (keeps_udpConnect r)
  | udpBind i p => exact state_onUdp c i (keeps_udpBind p)
  | udpSendTo i r b => exact state_onUdp c i (keeps_udpSendTo fuel r b)
  | udpSend i b | udpReceive i b | tcpSend i b | tcpReceive i b | leak i => simp only [Client.step]; split <;> rfl
  | tcpConnect i r =>
    simp only [Client.step]; split
    · exact state_tcpConnect ..
    · rfl
  | udpSocket | tcpSocket | takeSocket | common | reactivate => simp [Op.target] at ht
  | udpClose | tcpClose | releaseSocket => simp [Op.closes] at hc

theorem AllocInv.meddle {c : Meddler W H} (hi : AllocInv c.own) (fuel : Nat) {o : MOp W H} (ho : o.closesAlien = false) :
    AllocInv (c.step B fuel o).own := by
  cases o with
  | own o => exact hi.step fuel o
  | renumber i k =>
    simp only [Meddler.step]
    split
    · rename_i s hg; exact hi.lose hg _ rfl
    · exact hi
  | renew w host => exact allocInv_initial w host
  | foreign h => exact hi
  | alien o =>
    simp only [Meddler.step]
    split
    · rename_i ht; exact hi.dev _ (by rw [state_step _ _ ht ho])
    · exact hi

theorem AllocInv.meddles {c : Meddler W H} (hi : AllocInv c.own) (fuel : Nat) {ops : List (MOp W H)}
    (ho : ∀ o ∈ ops, o.closesAlien = false) : AllocInv (c.run B fuel ops).own := by
  induction ops generalizing c with
  | nil => exact hi
  | cons o os ih => exact ih (hi.meddle fuel (ho o (by simp))) fun o h => ho o (List.mem_cons_of_mem _ h)

theorem Meddler.run_append (c : Meddler W H) (fuel : Nat) (xs ys : List (MOp W H)) :
    c.run B fuel (xs ++ ys) = (c.run B fuel xs).run B fuel ys := List.foldl_append ..

theorem Meddler.run_own (c : Meddler W H) (fuel : Nat) (ops : List (Op W)) :
    c.run B fuel (ops.map .own) = { c with own := c.own.run B fuel ops } := by
  induction ops generalizing c with
  | nil => rfl
  | cons o os ih => exact ih _

/-- A free slot is handed out sooner or later. -/
theorem takes_reach (fuel : Nat) {n : Nat} (hn : n < 8) (k : Nat) : ∀ (i : Nat) (c : Client W H), n - i ≤ k → i ≤ n →
    (∀ j, j < i → c.dev.state.sockets.getLsbD j = false) → c.dev.state.sockets.getLsbD n = true →
    ∃ m l, (c.run B fuel (List.replicate m .takeSocket)).live = c.live ++ l ++ [.raw (Socket.new (BitVec.ofNat 8 n))] := by
  induction k with
  | zero =>
    intro i c hk hi hlow hbit
    obtain rfl : i = n := by omega
    rcases socket_spec c.dev.state with ⟨i', h8, hl', hb', hr⟩ | ⟨hall, -⟩
    · have : i' = i := by
        rcases Nat.lt_trichotomy i' i with h | h | h
        · rw [hlow _ h] at hb'; cases hb'
        · exact h
        · rw [hl' _ h] at hbit; cases hbit
      subst this
      refine ⟨1, [], ?_⟩
      simp only [List.replicate, Client.run, List.foldl, Client.step, Device.takeSocket, hr, List.append_nil]
    · rw [hall _ hn] at hbit; cases hbit
  | succ k ih =>
    intro i c hk hi hlow hbit
    rcases socket_spec c.dev.state with ⟨i', h8, hl', hb', hr⟩ | ⟨hall, -⟩
    · by_cases hne : i' = n
      · subst hne
        refine ⟨1, [], ?_⟩
        simp only [List.replicate, Client.run, List.foldl, Client.step, Device.takeSocket, hr, List.append_nil]
      · have hlt : i' < n := by
          rcases Nat.lt_trichotomy i' n with h | h | h
          · exact h
          · exact absurd h hne
          · rw [hl' _ h] at hbit; cases hbit
        have hge : i ≤ i' := by
          apply Nat.le_of_not_lt; intro h
          rw [hlow _ h] at hb'; cases hb'
        have hs : (c.step B fuel .takeSocket).dev.state.sockets = setBit c.dev.state.sockets i' false := by
          simp only [Client.step, Device.takeSocket, hr]
        have hl : (c.step B fuel .takeSocket).live = c.live ++ [.raw (Socket.new (BitVec.ofNat 8 i'))] := by
          simp only [Client.step, Device.takeSocket, hr]
        obtain ⟨m, l, h⟩ := ih (i' + 1) (c.step B fuel .takeSocket) (by omega) (by omega)
          (fun j hj => by
            rw [hs, getLsbD_setBit _ _ _ _ h8 (by omega)]
            split
            · rfl
            · exact hl' j (by omega))
          (by rw [hs, getLsbD_setBit _ _ _ _ h8 hn, if_neg (by omega)]; exact hbit)
        refine ⟨m + 1, .raw (Socket.new (BitVec.ofNat 8 i')) :: l, ?_⟩
        rw [List.replicate_succ]
        refine Eq.trans h ?_
        rw [hl]; simp
    · rw [hall _ hn] at hbit; cases hbit

end W5500
