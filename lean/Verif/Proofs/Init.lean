import Verif.Proofs.Regs
import Verif.Proofs.TcpHistory
import Verif.Spec.Config
/-! # Settings on the chip -/

namespace W5500.Spec
open W5500
variable {E ε α : Type} {sched : Nat → List (Nat × Act)} {faults : Nat → Option (E × Nat)}

namespace Chip

/-- A cell outside the written range. -/
theorem write_cell {c c' : Chip} {a b : U16} {data : List U8} {r : Res E Unit} {l : Nat} (hl : data.length = l)
    (h : (dev sched faults).bus.write 0 a data c = (r, c')) (h0 : ∀ i, i < l → a + BitVec.ofNat 16 i ≠ 0)
    (hb : ∀ i, i < l → a + BitVec.ofNat 16 i ≠ b) : c'.cmem b = c.cmem b := by
  obtain ⟨k, _, e⟩ := regs_write h
  have e : c'.regs = c.regs.store 0 a (data.take k) := e
  have := (RegFile.store_other c.regs a b (data.take k) (fun i hi => h0 i (by
    rw [List.length_take] at hi; omega)) (fun i hi => hb i (by rw [List.length_take] at hi; omega))).1
  rw [← e] at this
  exact this

/-- A written cell. -/
theorem write_cell_ok {c c' : Chip} {a : U16} {data : List U8}
    (h : (dev sched faults).bus.write 0 a data c = (.ok (), c')) {l : Nat} (hl : data.length = l) (hl' : l < 65536)
    (h0 : ∀ i, i < l → a + BitVec.ofNat 16 i ≠ 0)
    (h39 : ∀ i, i < l → a + BitVec.ofNat 16 i ≠ 0x39) (i : Nat) (hi : i < data.length) :
    c'.cmem (a + BitVec.ofNat 16 i) = data[i] := by
  have e : c'.regs = c.regs.store 0 a data := regs_write_ok h
  have := RegFile.store_self c.regs a data (by omega) (fun i hi => h0 i (by omega)) (fun i hi => h39 i (by omega)) i hi
  rw [← e] at this
  exact this

end Chip

theorem ipAt_eq (c : Chip) (a : U16) :
    ipAt c a = (List.range 4).map fun i => c.cmem (a + BitVec.ofNat 16 i) := by
  simp [ipAt, List.range, List.range.loop]
theorem macAt_eq (c : Chip) (a : U16) :
    macAt c a = (List.range 6).map fun i => c.cmem (a + BitVec.ofNat 16 i) := by
  simp [macAt, List.range, List.range.loop]

theorem ipAt_write {c c' : Chip} {a b : U16} {data : List U8} {r : Res E Unit} {l : Nat}
    (h : (Chip.dev sched faults).bus.write 0 a data c = (r, c')) (hl : data.length = l)
    (h0 : ∀ i, i < l → a + BitVec.ofNat 16 i ≠ 0)
    (hb : ∀ i, i < l → ∀ j, j < 4 → a + BitVec.ofNat 16 i ≠ b + BitVec.ofNat 16 j) : ipAt c' b = ipAt c b := by
  rw [ipAt_eq, ipAt_eq]
  refine List.map_congr_left fun j hj => Chip.write_cell hl h h0 fun i hi => hb i hi j (List.mem_range.mp hj)

theorem macAt_write {c c' : Chip} {a b : U16} {data : List U8} {r : Res E Unit} {l : Nat}
    (h : (Chip.dev sched faults).bus.write 0 a data c = (r, c')) (hl : data.length = l)
    (h0 : ∀ i, i < l → a + BitVec.ofNat 16 i ≠ 0)
    (hb : ∀ i, i < l → ∀ j, j < 6 → a + BitVec.ofNat 16 i ≠ b + BitVec.ofNat 16 j) : macAt c' b = macAt c b := by
  rw [macAt_eq, macAt_eq]
  refine List.map_congr_left fun j hj => Chip.write_cell hl h h0 fun i hi => hb i hi j (List.mem_range.mp hj)

theorem range_map_getElem {f : Nat → U8} {l : List U8} (h : ∀ i (hi : i < l.length), f i = l[i]) :
    (List.range l.length).map f = l := by
  apply List.ext_getElem (by simp)
  intro i h1 h2
  rw [List.getElem_map, List.getElem_range, h i h2]

theorem ipAt_write_ok {c c' : Chip} {a : U16} {data : List U8}
    (h : (Chip.dev sched faults).bus.write 0 a data c = (.ok (), c')) (hl : data.length = 4)
    (h0 : ∀ i, i < 4 → a + BitVec.ofNat 16 i ≠ 0) (h39 : ∀ i, i < 4 → a + BitVec.ofNat 16 i ≠ 0x39) :
    ipAt c' a = data := by
  rw [ipAt_eq, ← hl]
  exact range_map_getElem fun i hi => Chip.write_cell_ok h hl (by decide) h0 h39 i hi

theorem macAt_write_ok {c c' : Chip} {a : U16} {data : List U8}
    (h : (Chip.dev sched faults).bus.write 0 a data c = (.ok (), c')) (hl : data.length = 6)
    (h0 : ∀ i, i < 6 → a + BitVec.ofNat 16 i ≠ 0) (h39 : ∀ i, i < 6 → a + BitVec.ofNat 16 i ≠ 0x39) :
    macAt c' a = data := by
  rw [macAt_eq, ← hl]
  exact range_map_getElem fun i hi => Chip.write_cell_ok h hl (by decide) h0 h39 i hi

/-- What is remembered as written has been written. -/
structure CacheOk (S : HostConfig) (s : HostConfig × Chip) : Prop where
  gateway : s.1.gateway = S.gateway → ipAt s.2 0x01 = S.gateway.octets
  subnet : s.1.subnet = S.subnet → ipAt s.2 0x05 = S.subnet.octets
  mac : s.1.mac = S.mac → macAt s.2 0x09 = S.mac.octets
  ip : s.1.ip = S.ip → ipAt s.2 0x0F = S.ip.octets

/-- One step of `write_settings`. -/
theorem hoare_setting {J J' : HostConfig × Chip → Prop} {Q : Unit → HostConfig × Chip → Prop} {R : HostConfig × Chip → Prop}
    {diff : HostConfig → Prop} [DecidablePred diff] {a : U16} {data : List U8} {upd : HostConfig → HostConfig}
    {rest : M (HostConfig × Chip) E Unit}
    (hw : ∀ m c r c', J (m, c) → diff m → (Chip.dev sched faults).bus.write 0 a data c = (r, c') →
      R (m, c') ∧ (r = .ok () → J' (upd m, c')))
    (hskip : ∀ s, J s → ¬ diff s.1 → J' s)
    (hrest : Hoare J' rest Q R) :
    Hoare J (do
      let s ← M.get
      if diff s.1 then
        M.onSnd ((Chip.dev sched faults).bus.write 0 a data)
        M.modify fun s => (upd s.1, s.2)
        rest
      else rest) Q R := by
  refine .of_state fun s hs => .bind (.get (Q := fun x y => x = s ∧ y = s) fun _ h => ⟨h, h⟩) fun x => ?_
  refine .fact fun hx => ?_
  rw [hx]
  split
  · rename_i hd
    refine .bind (Q := fun _ t => J' (upd t.1, t.2)) ?_ fun _ => ?_
    · constructor
      rintro t rfl
      rw [M.onSnd_apply]
      rcases hwr : (Chip.dev sched faults).bus.write 0 a data t.2 with ⟨r, c'⟩
      have := hw t.1 t.2 r c' hs hd hwr
      obtain _ | _ | _ | _ := r
      · exact this.2 rfl
      · exact this.1
      · exact this.1
      · exact this.1
    · exact .bind (.modify (Q := fun _ => J') fun s h => h) fun _ => hrest
  · rename_i hd
    exact hrest.pre fun t ht => by rw [ht]; exact hskip s hs hd

theorem hoare_writeSettings (S : HostConfig) :
    Hoare (CacheOk S) (writeSettings (Chip.dev sched faults).bus S) (fun _ s => CacheOk S s ∧ s.1 = S)
      (CacheOk S) := by
  refine hoare_setting (diff := fun m => S.gateway ≠ m.gateway) (upd := fun m => { m with gateway := S.gateway })
    (J' := fun s => CacheOk S s ∧ s.1.gateway = S.gateway) ?_ (fun s h hd => ⟨h, (Decidable.not_not.mp hd).symm⟩) ?_
  · intro m c r c' hJ hd h
    have e1 := ipAt_write (l := 4) (b := 0x05) h rfl (by decide) (by decide)
    have e2 := macAt_write (l := 4) (b := 0x09) h rfl (by decide) (by decide)
    have e3 := ipAt_write (l := 4) (b := 0x0F) h rfl (by decide) (by decide)
    refine ⟨⟨fun h => absurd h.symm hd, fun h => e1.trans (hJ.subnet h), fun h => e2.trans (hJ.mac h),
      fun h => e3.trans (hJ.ip h)⟩, ?_⟩
    rintro rfl
    exact ⟨⟨fun _ => ipAt_write_ok h rfl (by decide) (by decide), fun h => e1.trans (hJ.subnet h),
      fun h => e2.trans (hJ.mac h), fun h => e3.trans (hJ.ip h)⟩, rfl⟩
  refine hoare_setting (diff := fun m => S.subnet ≠ m.subnet) (upd := fun m => { m with subnet := S.subnet })
    (J' := fun s => CacheOk S s ∧ s.1.gateway = S.gateway ∧ s.1.subnet = S.subnet) ?_
    (fun s h hd => ⟨h.1, h.2, (Decidable.not_not.mp hd).symm⟩) ?_
  · intro m c r c' ⟨hJ, hg⟩ hd h
    have e1 := ipAt_write (l := 4) (b := 0x01) h rfl (by decide) (by decide)
    have e2 := macAt_write (l := 4) (b := 0x09) h rfl (by decide) (by decide)
    have e3 := ipAt_write (l := 4) (b := 0x0F) h rfl (by decide) (by decide)
    refine ⟨⟨fun h => e1.trans (hJ.gateway h), fun h => absurd h.symm hd, fun h => e2.trans (hJ.mac h),
      fun h => e3.trans (hJ.ip h)⟩, ?_⟩
    rintro rfl
    exact ⟨⟨fun h => e1.trans (hJ.gateway h), fun _ => ipAt_write_ok h rfl (by decide) (by decide),
      fun h => e2.trans (hJ.mac h), fun h => e3.trans (hJ.ip h)⟩, hg, rfl⟩
  refine hoare_setting (diff := fun m => S.mac ≠ m.mac) (upd := fun m => { m with mac := S.mac })
    (J' := fun s => CacheOk S s ∧ s.1.gateway = S.gateway ∧ s.1.subnet = S.subnet ∧ s.1.mac = S.mac) ?_
    (fun s h hd => ⟨h.1, h.2.1, h.2.2, (Decidable.not_not.mp hd).symm⟩) ?_
  · intro m c r c' ⟨hJ, hg, hs⟩ hd h
    have e1 := ipAt_write (l := 6) (b := 0x01) h rfl (by decide) (by decide)
    have e2 := ipAt_write (l := 6) (b := 0x05) h rfl (by decide) (by decide)
    have e3 := ipAt_write (l := 6) (b := 0x0F) h rfl (by decide) (by decide)
    refine ⟨⟨fun h => e1.trans (hJ.gateway h), fun h => e2.trans (hJ.subnet h), fun h => absurd h.symm hd,
      fun h => e3.trans (hJ.ip h)⟩, ?_⟩
    rintro rfl
    exact ⟨⟨fun h => e1.trans (hJ.gateway h), fun h => e2.trans (hJ.subnet h),
      fun _ => macAt_write_ok h rfl (by decide) (by decide), fun h => e3.trans (hJ.ip h)⟩, hg, hs, rfl⟩
  refine hoare_setting (diff := fun m => S.ip ≠ m.ip) (upd := fun m => { m with ip := S.ip })
    (J' := fun s => CacheOk S s ∧ s.1.gateway = S.gateway ∧ s.1.subnet = S.subnet ∧ s.1.mac = S.mac ∧ s.1.ip = S.ip) ?_
    (fun s h hd => ⟨h.1, h.2.1, h.2.2.1, h.2.2.2, (Decidable.not_not.mp hd).symm⟩)
    (rest := pure ()) (.pure ?_)
  · intro m c r c' ⟨hJ, hg, hs, hm⟩ hd h
    have e1 := ipAt_write (l := 4) (b := 0x01) h rfl (by decide) (by decide)
    have e2 := ipAt_write (l := 4) (b := 0x05) h rfl (by decide) (by decide)
    have e3 := macAt_write (l := 4) (b := 0x09) h rfl (by decide) (by decide)
    refine ⟨⟨fun h => e1.trans (hJ.gateway h), fun h => e2.trans (hJ.subnet h), fun h => e3.trans (hJ.mac h),
      fun h => absurd h.symm hd⟩, ?_⟩
    rintro rfl
    exact ⟨⟨fun h => e1.trans (hJ.gateway h), fun h => e2.trans (hJ.subnet h), fun h => e3.trans (hJ.mac h),
      fun _ => ipAt_write_ok h rfl (by decide) (by decide)⟩, hg, hs, hm, rfl⟩
  · rintro ⟨m, c⟩ ⟨h, h1, h2, h3, h4⟩
    refine ⟨h, ?_⟩
    obtain ⟨_, _, _, _⟩ := m
    simp only at h1 h2 h3 h4
    rw [h1, h2, h3, h4]

/-- The same for `Manual::refresh`. -/
structure ManualOk (m : Manual) (c : Chip) : Prop where
  coherent : CacheOk m.settings (m.current, c)
  setup : m.isSetup = true → m.current = m.settings

theorem hoare_refresh (S : HostConfig) :
    Hoare (fun s => ManualOk s.1 s.2 ∧ s.1.settings = S) (Manual.refresh (Chip.dev sched faults).bus)
      (fun _ s => (ManualOk s.1 s.2 ∧ s.1.settings = S) ∧ s.1.isSetup = true)
      (fun s => ManualOk s.1 s.2 ∧ s.1.settings = S) := by
  unfold Manual.refresh
  refine .of_state fun s hs => .bind (.get (Q := fun x y => x = s ∧ y = s) fun _ h => ⟨h, h⟩) fun x => .fact fun hx => ?_
  subst hx
  dsimp only
  split
  · rename_i hb
    have hb : x.1.isSetup = false := by simpa using hb
    refine .bind (Q := fun _ s => ManualOk s.1 s.2 ∧ s.1.settings = S ∧ s.1.current = S) (.zoom ?_) fun _ => ?_
    · have := hoare_writeSettings (sched := sched) (faults := faults) S
      rintro t rfl
      rw [hs.2]
      refine this.conseq (fun u hu => by rw [hu]; exact hs.2 ▸ hs.1.coherent) (fun _ u h => ?_) (fun u h => ?_)
      · exact ⟨⟨h.1, fun _ => h.2⟩, rfl, h.2⟩
      · exact ⟨⟨h, fun h' => by dsimp only at h'; rw [hb] at h'; cases h'⟩, rfl⟩
    · exact .modify fun s h => ⟨⟨⟨h.1.coherent, fun _ => h.2.2.trans h.2.1.symm⟩, h.2.1⟩, rfl⟩
  · rename_i hb
    exact .pure fun t ht => by rw [ht]; exact ⟨hs, by simpa using hb⟩

theorem cell_ne {a b : U16} {l : Nat} (hb : b = 0 ∨ 0x12 < b.toNat)
    (h : ∀ i, i < l → a + BitVec.ofNat 16 i ≠ 0 ∧ (a + BitVec.ofNat 16 i).toNat ≤ 0x12) :
    ∀ i, i < l → a + BitVec.ofNat 16 i ≠ b := by
  intro i hi e
  have := h i hi
  rw [e] at this
  rcases hb with hb | hb
  · exact this.1 hb
  · omega

/-- `refresh` does not touch other registers. -/
theorem hoare_refresh_other (x : U8) (b : U16) (hb : b = 0 ∨ 0x12 < b.toNat) :
    Hoare (fun s => s.2.cmem b = x) (Manual.refresh (Chip.dev sched faults).bus)
      (fun _ s => s.2.cmem b = x) (fun s => s.2.cmem b = x) := by
  have hw : ∀ S, Hoare (fun s : HostConfig × Chip => s.2.cmem b = x) (writeSettings (Chip.dev sched faults).bus S)
      (fun _ s => s.2.cmem b = x) (fun s => s.2.cmem b = x) := by
    intro S
    refine hoare_setting (J' := fun s => s.2.cmem b = x) (diff := fun m => S.gateway ≠ m.gateway)
      (upd := fun m => { m with gateway := S.gateway }) (fun m c r c' hJ _ h => ?_) (fun s h _ => h) ?_
    · have := Chip.write_cell (b := b) (l := 4) rfl h (by decide) (cell_ne hb (by decide))
      exact ⟨this.trans hJ, fun _ => this.trans hJ⟩
    refine hoare_setting (J' := fun s => s.2.cmem b = x) (diff := fun m => S.subnet ≠ m.subnet)
      (upd := fun m => { m with subnet := S.subnet }) (fun m c r c' hJ _ h => ?_) (fun s h _ => h) ?_
    · have := Chip.write_cell (b := b) (l := 4) rfl h (by decide) (cell_ne hb (by decide))
      exact ⟨this.trans hJ, fun _ => this.trans hJ⟩
    refine hoare_setting (J' := fun s => s.2.cmem b = x) (diff := fun m => S.mac ≠ m.mac)
      (upd := fun m => { m with mac := S.mac }) (fun m c r c' hJ _ h => ?_) (fun s h _ => h) ?_
    · have := Chip.write_cell (b := b) (l := 6) rfl h (by decide) (cell_ne hb (by decide))
      exact ⟨this.trans hJ, fun _ => this.trans hJ⟩
    refine hoare_setting (J' := fun s => s.2.cmem b = x) (diff := fun m => S.ip ≠ m.ip)
      (upd := fun m => { m with ip := S.ip }) (rest := pure ()) (fun m c r c' hJ _ h => ?_) (fun s h _ => h)
      (.pure fun _ h => h)
    · have := Chip.write_cell (b := b) (l := 4) rfl h (by decide) (cell_ne hb (by decide))
      exact ⟨this.trans hJ, fun _ => this.trans hJ⟩
  unfold Manual.refresh
  refine .bind (Q := fun _ s => s.2.cmem b = x) (.get fun _ h => h) fun s => ?_
  dsimp only
  split
  · exact .bind (Q := fun _ s => s.2.cmem b = x) (.zoom fun s hs => (hw _).pre fun t ht => by rw [ht]; exact hs)
      fun _ => .modify fun _ h => h
  · exact .pure fun _ h => h

/-- The settings registers agree. -/
def SameCells (c c' : Chip) : Prop := ∀ a : U16, 0 < a.toNat → a.toNat ≤ 0x12 → c'.cmem a = c.cmem a

theorem SameCells.ipAt {c c' : Chip} (h : SameCells c c') (a : U16) (h1 : 0 < a.toNat) (h2 : a.toNat ≤ 0x0F) :
    ipAt c' a = ipAt c a := by
  unfold Spec.ipAt
  rw [h a h1 (by omega), h (a + 1) (by simp; omega) (by simp; omega), h (a + 2) (by simp; omega) (by simp; omega),
    h (a + 3) (by simp; omega) (by simp; omega)]

theorem SameCells.macAt {c c' : Chip} (h : SameCells c c') : macAt c' 0x09 = macAt c 0x09 := by
  unfold Spec.macAt
  rw [h 0x09 (by decide) (by decide), h (0x09 + 1) (by decide) (by decide), h (0x09 + 2) (by decide) (by decide),
    h (0x09 + 3) (by decide) (by decide), h (0x09 + 4) (by decide) (by decide), h (0x09 + 5) (by decide) (by decide)]

theorem ManualOk.of_cells {m : Manual} {c c' : Chip} (h : ManualOk m c) (hc : SameCells c c') : ManualOk m c' :=
  ⟨⟨fun e => (hc.ipAt _ (by decide) (by decide)).trans (h.coherent.gateway e),
    fun e => (hc.ipAt _ (by decide) (by decide)).trans (h.coherent.subnet e),
    fun e => hc.macAt.trans (h.coherent.mac e),
    fun e => (hc.ipAt _ (by decide) (by decide)).trans (h.coherent.ip e)⟩, h.setup⟩

theorem cells_evolves {c c' : Chip} (h : c.Evolves c') : SameCells c c' := fun a _ _ => by rw [h.cmem]

theorem cells_read {c : Chip} (block : U8) (a : U16) (d : List U8) :
    SameCells c ((Chip.dev sched faults).bus.readFrame c block a d).2.2 := cells_evolves (Chip.readFrame_evolves _ _ _ _)

/-- Storing outside the settings registers. -/
theorem RegFile.store_settings (r : RegFile) (b : BitVec 5) (a : U16) (data : List U8)
    (h : b = 0 → ∀ i (h : i < data.length), (a + BitVec.ofNat 16 i = 0 → data[i].getLsbD 7 = false) ∧
      (a + BitVec.ofNat 16 i = 0 ∨ 0x12 < (a + BitVec.ofNat 16 i).toNat))
    (x : U16) (h1 : 0 < x.toNat) (h2 : x.toNat ≤ 0x12) : (r.store b a data).cmem x = r.cmem x := by
  induction data generalizing r a with
  | nil => rfl
  | cons y ys ih =>
    have e : ∀ i, a + 1 + BitVec.ofNat 16 i = a + BitVec.ofNat 16 (i + 1) := fun i => by
      rw [BitVec.ofNat_add, BitVec.add_assoc, BitVec.add_comm (BitVec.ofNat 16 i)]; rfl
    show (RegFile.store (r.poke b a y) b (a + 1) ys).cmem x = _
    rw [ih _ _ (fun hb i hi => by rw [e]; exact h hb (i + 1) (by simpa using hi))]
    unfold RegFile.poke
    by_cases hb : b = 0
    · have h0 := h hb 0 (by simp)
      simp only [BitVec.add_zero, List.getElem_cons_zero] at h0
      rw [if_pos hb]
      split
      · rfl
      split
      · rename_i h3
        rw [h0.1 h3.1] at h3
        cases h3.2
      · refine if_neg fun hx => ?_
        subst hx
        rcases h0.2 with h4 | h4
        · subst h4; exact absurd h1 (by decide)
        · omega
    · rw [if_neg hb]
      split <;> rfl

theorem cells_write {c : Chip} {block : U8} {a : U16} {d : List U8} (h : OtherSettings block a d) :
    SameCells c ((Chip.dev sched faults).bus.writeFrame c block a d).2 := by
  intro x h1 h2
  obtain ⟨k, _, e⟩ := Chip.regs_write (sched := sched) (faults := faults) (c := c) (block := block) (a := a) (data := d)
    (r := ((Chip.dev sched faults).bus.writeFrame c block a d).1)
    (c' := ((Chip.dev sched faults).bus.writeFrame c block a d).2) rfl
  have := RegFile.store_settings c.regs (block.setWidth 5) a (d.take k) (fun hb i hi => by
    have hi' : i < d.length := by rw [List.length_take] at hi; omega
    rw [List.getElem_take]
    exact h hb i hi') x h1 h2
  rw [← e] at this
  exact this

end W5500.Spec
