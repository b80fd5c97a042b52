import Verif.Props.Alloc
import Verif.Spec.Chip
/-! # C14, C18: what a client is told about sockets — `UdpSocket::index` and `Device::release`; C08: the default retry time -/

namespace W5500.Props
open W5500.Spec
variable {W E H : Type}

/-- C14, as far as a client can see it: after any history, two different UDP sockets return different values of `index`, all below 8. -/
theorem C14_index (B : Bus W E) (fuel : Nat) (w : W) (host : H) (ops : List (Op W)) (i j : Nat) (u v : UdpSocket) :
    let c := Client.run B fuel (Client.initial w host) ops
    c.live[i]? = some (.udp u) → c.live[j]? = some (.udp v) → u.getIndex.toNat < 8 ∧ (u.getIndex = v.getIndex → i = j) := by
  intro c hu hv
  obtain ⟨h1, h2⟩ := C14_live_sockets_distinct B fuel w host ops
  change (c.live.map Handle.index).Nodup at h1
  obtain ⟨hi, ei⟩ := List.getElem?_eq_some_iff.mp hu
  obtain ⟨hj, ej⟩ := List.getElem?_eq_some_iff.mp hv
  refine ⟨(h2 _ (List.mem_of_getElem? hu)).1, fun h => ?_⟩
  have e : (c.live.map Handle.index)[i]'(by simpa using hi) = (c.live.map Handle.index)[j]'(by simpa using hj) := by
    rw [List.getElem_map, List.getElem_map, ei, ej]
    exact congrArg BitVec.toNat h
  have hp := List.pairwise_iff_getElem.mp h1
  rcases Nat.lt_trichotomy i j with h | h | h
  · exact absurd e (hp i j _ _ h)
  · exact h
  · exact absurd e.symm (hp j i _ _ h)

example : ∃ u v, (Client.run okBus 5 (Client.initial () ()) [.udpSocket, .tcpSocket, .udpSocket]).live[0]? = some (.udp u) ∧
    (Client.run okBus 5 (Client.initial () ()) [.udpSocket, .tcpSocket, .udpSocket]).live[2]? = some (.udp v) ∧ u.getIndex = 0 ∧ v.getIndex = 2 :=
  ⟨_, _, rfl, rfl, by decide, by decide⟩

/-- C18, `release` and `deactivate`: after any history they return the bus as it is, and a state in which exactly the slots of live and of lost
sockets are taken; so that `any_allocated` says whether there are any. -/
theorem C18_release (B : Bus W E) (fuel : Nat) (w : W) (host : H) (ops : List (Op W)) :
    let c := Client.run B fuel (Client.initial w host) ops
    c.dev.release.1 = c.dev.bus ∧ c.dev.deactivate.1 = c.dev.bus ∧ c.dev.deactivate.2.state = c.dev.release.2 ∧
    (∀ i, i < 8 → (c.dev.release.2.sockets.getLsbD i = false ↔ i ∈ c.live.map Handle.index ∨ i ∈ c.lost)) ∧
    (c.dev.release.2.anyAllocated = true ↔ c.live ≠ [] ∨ c.lost ≠ []) := by
  intro c
  have hi : AllocInv c := (allocInv_initial w host).run fuel ops
  have hx := fun i h => C18_outstanding_exact B fuel w host ops i h
  refine ⟨rfl, rfl, rfl, hx, ?_⟩
  have key : c.dev.state.sockets ≠ 0xFF ↔ ∃ i, i < 8 ∧ c.dev.state.sockets.getLsbD i = false := by
    constructor
    · intro h
      refine Classical.byContradiction fun hn => h (BitVec.eq_of_getLsbD_eq fun i h8 => ?_)
      rw [eq_true_of_ne_false fun e => hn ⟨i, h8, e⟩]
      revert i
      decide
    · rintro ⟨i, h8, e⟩ h
      rw [h] at e
      revert i
      decide
  change decide (c.dev.state.sockets ≠ 0xFF) = true ↔ _
  rw [decide_eq_true_iff, key]
  constructor
  · rintro ⟨i, h8, e⟩
    rcases (hx i h8).mp e with h | h
    · exact .inl fun h0 => by change i ∈ c.live.map _ at h; rw [h0] at h; exact nomatch h
    · exact .inr fun h0 => by change i ∈ c.lost at h; rw [h0] at h; exact nomatch h
  · rintro (h | h)
    · obtain ⟨x, hm⟩ := List.exists_mem_of_ne_nil _ h
      have hm' : x.index ∈ c.held := List.mem_append_left _ (List.mem_map_of_mem hm)
      exact ⟨x.index, hi.bound _ hm', (hx _ (hi.bound _ hm')).mpr (.inl (List.mem_map_of_mem hm))⟩
    · obtain ⟨x, hm⟩ := List.exists_mem_of_ne_nil _ h
      have hm' : x ∈ c.held := List.mem_append_right _ hm
      exact ⟨x, hi.bound _ hm', (hx _ (hi.bound _ hm')).mpr (.inr hm)⟩

example : (Client.run okBus 5 (Client.initial () ()) [.udpSocket, .tcpSocket, .udpClose 0]).dev.release.2.sockets = 0b11111101 := by decide

/-! ## C08 -/

/-- C08, `RetryTime::default`: with or without overflow checks it is 200 ms, which is what the chip has after a reset. -/
theorem C08_default (oc : Bool) : ∃ t, RetryTime.default oc = some t ∧ t.toMillis = 200 ∧
    t.toRegister = [Chip.powerUp.cmem common.RETRY_TIME, Chip.powerUp.cmem (common.RETRY_TIME + 1)] := by
  cases oc <;> exact ⟨⟨2000⟩, by decide, by decide, by decide⟩

end W5500.Props
