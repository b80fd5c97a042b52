import Verif.Spec.Trace
import Verif.Proofs.Monad
/-! # Composition rules for `Emits` and `FailStop` -/

namespace W5500
variable {W σ τ E ε ε' α β S H : Type}

section Emits
variable [HasLog σ E] {L : Lang E}

theorem Emits.noop {m : M σ ε α} (h : ∀ s, HasLog.log (m s).2 = HasLog.log s) : Emits L m :=
  ⟨fun s => ⟨[], by simp [h s], L.nil⟩⟩

theorem Emits.pure (a : α) : Emits L (Pure.pure a : M σ ε α) := Emits.noop fun _ => rfl
theorem Emits.throw (e : ε) : Emits L (M.throw e : M σ ε α) := Emits.noop fun _ => rfl
theorem Emits.panic : Emits L (M.panic : M σ ε α) := Emits.noop fun _ => rfl
theorem Emits.outOfFuel : Emits L (M.outOfFuel : M σ ε α) := Emits.noop fun _ => rfl
theorem Emits.get : Emits L (M.get : M σ ε σ) := Emits.noop fun _ => rfl
theorem Emits.sliceTo (b : List U8) (n : Nat) : Emits L (M.sliceTo b n : M σ ε _) := by
  unfold M.sliceTo; split
  · exact .pure _
  · exact .panic
theorem Emits.sliceFrom (b : List U8) (n : Nat) : Emits L (M.sliceFrom b n : M σ ε _) := by
  unfold M.sliceFrom; split
  · exact .pure _
  · exact .panic

theorem Emits.modifyFst (f : S → σ → S) :
    Emits L (M.modify (fun s => (f s.1 s.2, s.2)) : M (S × σ) ε Unit) := Emits.noop fun _ => rfl

theorem Emits.bind {m : M σ ε α} {f : α → M σ ε β} (hm : Emits L m) (hf : ∀ a, Emits L (f a)) :
    Emits L (m >>= f) := by
  constructor; intro s
  obtain ⟨e1, h1, l1⟩ := hm.run s
  show ∃ evs, HasLog.log (M.bind m f s).2 = _ ∧ _
  unfold M.bind
  split <;> rename_i s' heq <;> rw [heq] at h1
  · obtain ⟨e2, h2, l2⟩ := (hf _).run s'
    exact ⟨e1 ++ e2, by rw [h2, h1, List.append_assoc], L.app l1 l2⟩
  all_goals exact ⟨e1, h1, l1⟩

theorem Emits.mapErr {m : M σ ε α} (f : ε → ε') (hm : Emits L m) : Emits L (M.mapErr f m) := by
  constructor; intro s
  obtain ⟨e1, h1, l1⟩ := hm.run s
  unfold M.mapErr
  split <;> rename_i heq <;> rw [heq] at h1 <;> exact ⟨e1, h1, l1⟩

theorem Emits.zoom [HasLog τ E] {get : τ → σ} {put : σ → τ → τ} {m : M σ ε α}
    (hg : ∀ s, HasLog.log (get s) = HasLog.log s) (hp : ∀ t s, HasLog.log (put t s) = HasLog.log t)
    (hm : Emits L m) : Emits L (M.zoom get put m) := by
  constructor; intro s
  obtain ⟨e1, h1, l1⟩ := hm.run (get s)
  exact ⟨e1, by simp only [M.zoom, hp, h1, hg], l1⟩

theorem Emits.onSnd {m : M σ ε α} (hm : Emits L m) : Emits L (M.onSnd m : M (S × σ) ε α) :=
  Emits.zoom (fun _ => rfl) (fun _ _ => rfl) hm

theorem Emits.onBus {m : M σ ε α} (hm : Emits L m) : Emits L (Device.onBus m : M (Device σ H) ε α) :=
  Emits.zoom (fun _ => rfl) (fun _ _ => rfl) hm

theorem Emits.onSockBus {m : M (S × σ) ε α} (hm : Emits L m) :
    Emits L (Device.onSockBus m : M (S × Device σ H) ε α) :=
  Emits.zoom (fun _ => rfl) (fun _ _ => rfl) hm

theorem Emits.withLocal {m : M (S × σ) ε α} (b : S) (hm : Emits L m) : Emits L (M.withLocal b m) := by
  constructor; intro s
  obtain ⟨e1, h1, l1⟩ := hm.run (b, s)
  unfold M.withLocal
  split <;> rename_i heq <;> rw [heq] at h1 <;> exact ⟨e1, h1, l1⟩

theorem Emits.withPrefix {m : M (List U8 × σ) ε α} (n : Nat) (hm : Emits L m) :
    Emits L (M.withPrefix n m) := by
  constructor; intro s
  unfold M.withPrefix
  split
  · exact hm.run (s.1.take n, s.2)
  · exact ⟨[], by simp, L.nil⟩

theorem Emits.takeSocket : Emits L (Device.takeSocket : M (Device σ H) ε _) := Emits.noop fun _ => rfl
theorem Emits.releaseSocket (k : Socket) : Emits L (Device.releaseSocket k : M (Device σ H) ε _) := by
  apply Emits.noop
  intro s
  unfold Device.releaseSocket
  split <;> rfl

end Emits

section prim
variable {L : Lang E} {B : Bus W E}

theorem Emits.write {b : U8} {a : U16} {d : List U8} (h : ∀ r, L.mem [.wr b a d r]) :
    Emits L ((traced B).write b a d) := ⟨fun _ => ⟨_, rfl, h _⟩⟩

theorem Emits.readBuf {b : U8} {a : U16} {i : List U8}
    (h : ∀ d r, d.length = i.length → L.mem [.rd b a d r]) :
    Emits L ((traced B).readBuf b a i) := by
  constructor; intro s
  refine ⟨[.rd b a (B.readFrame s.w b a i).2.1 (B.readFrame s.w b a i).1], ?_, h _ _ (B.read_length ..)⟩
  unfold Bus.readBuf
  split <;> rename_i heq <;> simp only [traced, Prod.mk.injEq] at heq <;> obtain ⟨h1, h2, rfl⟩ := heq <;>
    rfl

theorem Emits.readSlice {b : U8} {a : U16} (h : ∀ d r, L.mem [.rd b a d r]) :
    Emits L ((traced B).readSlice b a) := ⟨fun _ => ⟨_, rfl, h _ _⟩⟩

theorem Emits.read1 {b : U8} {a : U16} (h : ∀ d r, d.length = 1 → L.mem [.rd b a d r]) :
    Emits L ((traced B).read1 b a) := by
  unfold Bus.read1
  apply Emits.bind (Emits.readBuf (by simpa using h))
  intro l; split
  · exact .pure _
  · exact .panic

theorem Emits.read2 {b : U8} {a : U16} (h : ∀ d r, d.length = 2 → L.mem [.rd b a d r]) :
    Emits L ((traced B).read2 b a) := by
  unfold Bus.read2
  apply Emits.bind (Emits.readBuf (by simpa using h))
  intro l; split
  · exact .pure _
  · exact .panic

end prim

/-- Every value returned by `m` satisfies `Q`. -/
structure Returns (m : M σ ε α) (Q : α → Prop) : Prop where
  run : ∀ s a, (m s).1 = .ok a → Q a

theorem Returns.onSnd {m : M σ ε α} {Q : α → Prop} (h : Returns m Q) :
    Returns (M.onSnd m : M (S × σ) ε α) Q := ⟨fun s a ha => h.run s.2 a ha⟩

theorem Returns.withLocal {m : M (S × σ) ε α} {Q : α → Prop} (b : S) (h : Returns m Q) :
    Returns (M.withLocal b m) (fun r => Q r.1) := by
  constructor; intro s a ha
  unfold M.withLocal at ha
  split at ha <;> rename_i heq <;> cases ha
  exact h.run _ _ (by rw [heq])

theorem Returns.pure {a : α} {Q : α → Prop} (h : Q a) : Returns (Pure.pure a : M σ ε α) Q := by
  constructor; intro s b hb; cases hb; exact h

theorem Returns.bind {m : M σ ε α} {f : α → M σ ε β} {Q : β → Prop} (h : ∀ a, Returns (f a) Q) :
    Returns (m >>= f) Q := by
  constructor; intro s b hb
  change (M.bind m f s).1 = _ at hb
  unfold M.bind at hb
  split at hb
  · exact (h _).run _ _ hb
  all_goals cases hb

theorem Returns.withPrefix {m : M (List U8 × σ) ε α} {Q : α → Prop} (n : Nat) (h : Returns m Q) :
    Returns (M.withPrefix n m) Q := by
  constructor; intro s a ha
  unfold M.withPrefix at ha
  split at ha
  · exact h.run _ _ ha
  · cases ha

theorem Returns.sliceTo {b : List U8} {n : Nat} {Q : List U8 → Prop} (h : Q (b.take n)) :
    Returns (M.sliceTo b n : M σ ε _) Q := by
  unfold M.sliceTo
  split
  · exact .pure h
  · constructor; intro s a ha; cases ha

theorem Returns.sliceFrom {b : List U8} {n : Nat} {Q : List U8 → Prop} (h : Q (b.drop n)) :
    Returns (M.sliceFrom b n : M σ ε _) Q := by
  unfold M.sliceFrom
  split
  · exact .pure h
  · constructor; intro s a ha; cases ha

theorem Emits.bindR [HasLog σ E] {L : Lang E} {m : M σ ε α} {f : α → M σ ε β} {Q : α → Prop}
    (hm : Emits L m) (hQ : Returns m Q) (hf : ∀ a, Q a → Emits L (f a)) : Emits L (m >>= f) := by
  constructor; intro s
  obtain ⟨e1, h1, l1⟩ := hm.run s
  have hq := hQ.run s
  show ∃ evs, HasLog.log (M.bind m f s).2 = _ ∧ _
  unfold M.bind
  split <;> rename_i s' heq <;> rw [heq] at h1 hq
  · obtain ⟨e2, h2, l2⟩ := (hf _ (hq _ rfl)).run s'
    exact ⟨e1 ++ e2, by rw [h2, h1, List.append_assoc], L.app l1 l2⟩
  all_goals exact ⟨e1, h1, l1⟩

section FailStop
variable [HasLog σ E] {conv : E → ε}

theorem FailStop.noop {m : M σ ε α} (h : ∀ s, HasLog.log (m s).2 = HasLog.log s)
    (h' : ∀ s x, (m s).1 ≠ .err (conv x)) : FailStop conv m :=
  ⟨fun s => ⟨[], by simp [h s], .inl ⟨by simp, h' s⟩⟩⟩

theorem FailStop.pure (a : α) : FailStop conv (Pure.pure a : M σ ε α) :=
  FailStop.noop (fun _ => rfl) (fun _ _ h => by cases h)
theorem FailStop.throw (e : ε) (h : ∀ x, e ≠ conv x) : FailStop conv (M.throw e : M σ ε α) :=
  FailStop.noop (fun _ => rfl) (fun _ x h' => h x (by injection h'))
theorem FailStop.panic : FailStop conv (M.panic : M σ ε α) :=
  FailStop.noop (fun _ => rfl) (fun _ _ h => by cases h)
theorem FailStop.outOfFuel : FailStop conv (M.outOfFuel : M σ ε α) :=
  FailStop.noop (fun _ => rfl) (fun _ _ h => by cases h)
theorem FailStop.get : FailStop conv (M.get : M σ ε σ) :=
  FailStop.noop (fun _ => rfl) (fun _ _ h => by cases h)
theorem FailStop.sliceTo (b : List U8) (n : Nat) : FailStop conv (M.sliceTo b n : M σ ε _) := by
  unfold M.sliceTo; split
  · exact .pure _
  · exact .panic
theorem FailStop.sliceFrom (b : List U8) (n : Nat) : FailStop conv (M.sliceFrom b n : M σ ε _) := by
  unfold M.sliceFrom; split
  · exact .pure _
  · exact .panic
theorem FailStop.modifyFst (f : S → σ → S) :
    FailStop conv (M.modify (fun s => (f s.1 s.2, s.2)) : M (S × σ) ε Unit) :=
  FailStop.noop (fun _ => rfl) (fun _ _ h => by cases h)

theorem StopsAt.append {e1 e2 : List (Ev E)} {r : Res ε β} (h1 : ∀ e ∈ e1, e.res = .ok ())
    (h2 : StopsAt conv e2 r) : StopsAt conv (e1 ++ e2) r := by
  rcases h2 with ⟨ok2, n2⟩ | ⟨pre, last, he, hpre, hl⟩
  · exact .inl ⟨fun e he => (List.mem_append.mp he).elim (h1 e) (ok2 e), n2⟩
  · exact .inr ⟨e1 ++ pre, last, by rw [he, List.append_assoc],
      fun e he => (List.mem_append.mp he).elim (h1 e) (hpre e), hl⟩

theorem StopsAt.ok {e1 : List (Ev E)} {a : α} (h : StopsAt conv e1 (.ok a : Res ε α)) :
    ∀ e ∈ e1, e.res = .ok () := by
  rcases h with ⟨ok2, n2⟩ | ⟨pre, last, he, hpre, hl⟩
  · exact ok2
  · revert hl; split <;> simp

/-- Changing the outcome along a map that commutes with the conversions. -/
theorem StopsAt.map {conv' : E → ε'} {e1 : List (Ev E)} {r : Res ε α} {r' : Res ε' β}
    (h : StopsAt conv e1 r) (hb : ∀ x, r' = .err (conv' x) → r = .err (conv x))
    (hf : ∀ x, r = .err (conv x) → r' = .err (conv' x))
    (hp : r = .panic → r' = .panic) (hu : r = .fuel → r' = .fuel) : StopsAt conv' e1 r' := by
  rcases h with ⟨ok2, n2⟩ | ⟨pre, last, he, hpre, hl⟩
  · exact .inl ⟨ok2, fun x hx => n2 x (hb x hx)⟩
  · refine .inr ⟨pre, last, he, hpre, ?_⟩
    generalize last.res = q at hl ⊢
    cases q with
    | ok => exact hl
    | err x => exact hf x hl
    | panic => exact hp hl
    | fuel => exact hu hl

theorem FailStop.bind {m : M σ ε α} {f : α → M σ ε β} (hm : FailStop conv m)
    (hf : ∀ a, FailStop conv (f a)) : FailStop conv (m >>= f) := by
  constructor; intro s
  obtain ⟨e1, h1, c1⟩ := hm.run s
  show ∃ evs, HasLog.log (M.bind m f s).2 = _ ∧ StopsAt conv evs (M.bind m f s).1
  unfold M.bind
  split <;> rename_i s' heq <;> rw [heq] at h1 c1
  · obtain ⟨e2, h2, c2⟩ := (hf _).run s'
    exact ⟨e1 ++ e2, by rw [h2, h1, List.append_assoc], c2.append c1.ok⟩
  all_goals
    refine ⟨e1, h1, c1.map ?_ ?_ ?_ ?_⟩ <;> simp

theorem FailStop.mapErr {conv' : E → ε'} {m : M σ ε α} (f : ε → ε') (hc : ∀ x, f (conv x) = conv' x)
    (hi : ∀ e x, f e = conv' x → e = conv x) (hm : FailStop conv m) : FailStop conv' (M.mapErr f m) := by
  constructor; intro s
  obtain ⟨e1, h1, c1⟩ := hm.run s
  unfold M.mapErr
  split <;> rename_i heq <;> rw [heq] at h1 c1 <;> refine ⟨e1, h1, c1.map ?_ ?_ ?_ ?_⟩ <;>
    simp <;> grind

/-- `mapErr` with the conversion itself, on a function whose errors are bus errors. -/
theorem FailStop.mapErr_id {m : M σ E α} (f : E → ε) (hi : ∀ e x, f e = f x → e = x)
    (hm : FailStop id m) : FailStop f (M.mapErr f m) :=
  FailStop.mapErr f (fun _ => rfl) (by simpa using hi) hm

theorem FailStop.zoom [HasLog τ E] {get : τ → σ} {put : σ → τ → τ} {m : M σ ε α}
    (hg : ∀ s, HasLog.log (get s) = HasLog.log s) (hp : ∀ t s, HasLog.log (put t s) = HasLog.log t)
    (hm : FailStop conv m) : FailStop conv (M.zoom get put m) := by
  constructor; intro s
  obtain ⟨e1, h1, l1⟩ := hm.run (get s)
  exact ⟨e1, by simp only [M.zoom, hp, h1, hg], l1⟩

theorem FailStop.onSnd {m : M σ ε α} (hm : FailStop conv m) :
    FailStop conv (M.onSnd m : M (S × σ) ε α) :=
  FailStop.zoom (fun _ => rfl) (fun _ _ => rfl) hm

theorem FailStop.onBus {m : M σ ε α} (hm : FailStop conv m) :
    FailStop conv (Device.onBus m : M (Device σ H) ε α) :=
  FailStop.zoom (fun _ => rfl) (fun _ _ => rfl) hm

theorem FailStop.onSockBus {m : M (S × σ) ε α} (hm : FailStop conv m) :
    FailStop conv (Device.onSockBus m : M (S × Device σ H) ε α) :=
  FailStop.zoom (fun _ => rfl) (fun _ _ => rfl) hm

theorem FailStop.withLocal {m : M (S × σ) ε α} (b : S) (hm : FailStop conv m) :
    FailStop conv (M.withLocal b m) := by
  constructor; intro s
  obtain ⟨e1, h1, c1⟩ := hm.run (b, s)
  unfold M.withLocal
  split <;> rename_i heq <;> rw [heq] at h1 c1 <;> refine ⟨e1, h1, c1.map ?_ ?_ ?_ ?_⟩ <;> simp

theorem FailStop.withPrefix {m : M (List U8 × σ) ε α} (n : Nat) (hm : FailStop conv m) :
    FailStop conv (M.withPrefix n m) := by
  constructor; intro s
  unfold M.withPrefix
  split
  · exact hm.run (s.1.take n, s.2)
  · exact ⟨[], by simp, .inl ⟨by simp, by simp⟩⟩

theorem FailStop.takeSocket : FailStop conv (Device.takeSocket : M (Device σ H) ε _) :=
  FailStop.noop (fun _ => rfl) (fun _ _ h => by cases h)
theorem FailStop.releaseSocket (k : Socket) :
    FailStop conv (Device.releaseSocket k : M (Device σ H) ε _) := by
  apply FailStop.noop <;> intro s <;> unfold Device.releaseSocket <;> split <;> simp <;> rfl

end FailStop

section prim
variable {B : Bus W E}

theorem StopsAt.single (e : Ev E) (r : Res E α)
    (h : match e.res with
      | .ok _ => ∃ a, r = .ok a
      | .err x => r = .err x
      | .panic => r = .panic
      | .fuel => r = .fuel) : StopsAt id [e] r := by
  cases he : e.res with
  | ok u =>
    rw [he] at h; obtain ⟨a, rfl⟩ := h
    exact .inl ⟨by simp [he], by simp⟩
  | err x => rw [he] at h; exact .inr ⟨[], e, rfl, by simp, by rw [he]; exact h⟩
  | panic => rw [he] at h; exact .inr ⟨[], e, rfl, by simp, by rw [he]; exact h⟩
  | fuel => rw [he] at h; exact .inr ⟨[], e, rfl, by simp, by rw [he]; exact h⟩

theorem FailStop.write {b : U8} {a : U16} {d : List U8} : FailStop id ((traced B).write b a d) := by
  constructor; intro s
  refine ⟨_, rfl, StopsAt.single _ _ ?_⟩
  simp only [Ev.res, Bus.write, traced]
  split <;> simp_all

theorem FailStop.readSlice {b : U8} {a : U16} : FailStop id ((traced B).readSlice b a) := by
  constructor; intro s
  refine ⟨_, rfl, StopsAt.single _ _ ?_⟩
  simp only [Ev.res, Bus.readSlice, traced]
  split <;> simp_all

theorem FailStop.readBuf {b : U8} {a : U16} {i : List U8} :
    FailStop id ((traced B).readBuf b a i) := by
  constructor; intro s
  refine ⟨[.rd b a (B.readFrame s.w b a i).2.1 (B.readFrame s.w b a i).1], ?_, StopsAt.single _ _ ?_⟩
  · unfold Bus.readBuf
    split <;> rename_i heq <;> simp only [traced, Prod.mk.injEq] at heq <;> obtain ⟨h1, h2, rfl⟩ := heq <;>
      rfl
  · simp only [Ev.res, Bus.readBuf, traced]
    generalize B.readFrame s.w b a i = q
    rcases q with ⟨_ | _ | _ | _, q2, q3⟩ <;> simp

theorem FailStop.read1 {b : U8} {a : U16} : FailStop id ((traced B).read1 b a) := by
  unfold Bus.read1
  apply FailStop.bind FailStop.readBuf
  intro l; split
  · exact .pure _
  · exact .panic

theorem FailStop.read2 {b : U8} {a : U16} : FailStop id ((traced B).read2 b a) := by
  unfold Bus.read2
  apply FailStop.bind FailStop.readBuf
  intro l; split
  · exact .pure _
  · exact .panic

end prim
end W5500
