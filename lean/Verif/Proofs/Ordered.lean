import Verif.Proofs.AccessDev
import Verif.Proofs.Bytes
/-! # The language of transmissions in the right order -/

namespace W5500
open Spec
variable {W E : Type} {B : Bus W E}

/-- `SendOrdered` as a language. -/
def Lang.ordered (n : Nat) (P : List U8 → Prop) : Lang E where
  mem := SendOrdered n P
  nil := by intro pre e post h; simp at h
  app := by
    intro a b ha hb pre e post h hs
    rcases List.append_eq_append_iff.mp h with ⟨c, h1, h2⟩ | ⟨c, h1, h2⟩
    · obtain ⟨pre', r, t, p, d, hp, hr, ht, hd⟩ := hb c e post h2 hs
      refine ⟨a ++ pre', r, t, p, d, hp, hr, ht, ?_⟩
      rcases hd with ⟨hd, rfl⟩ | ⟨hd, rfl⟩
      · exact .inl ⟨hd, by simp [h1]⟩
      · exact .inr ⟨hd, by simp [h1]⟩
    · match c with
      | [] =>
        obtain ⟨pre', r, t, p, d, hp, hr, ht, hd⟩ := hb [] e post (by simpa using h2.symm) hs
        exfalso
        rcases hd with ⟨_, hd⟩ | ⟨_, hd⟩ <;> simp at hd
      | x :: c' =>
        simp at h2
        exact ha pre e c' (by rw [h1, ← h2.1]) hs

theorem SendOrdered.single {n : Nat} {P : List U8 → Prop} {e : Ev E} (h : ¬ isSend n e) :
    SendOrdered n P [e] := by
  intro pre e' post he hs
  rcases pre with _ | ⟨_, pre⟩
  · simp at he; rw [← he.1] at hs; exact absurd hs h
  · simp at he

theorem allows_ordered (n : Nat) (P : List U8 → Prop) : Allows (Lang.ordered (E := E) n P) n :=
  fun _ _ h => SendOrdered.single h

theorem SendOrdered.of_nosend {n : Nat} {P : List U8 → Prop} {l : List (Ev E)} (h : ∀ e ∈ l, ¬ isSend n e) :
    SendOrdered n P l := by
  intro pre e post he hs
  exact absurd hs (h e (by simp [he]))

theorem SendOrdered.seq {n : Nat} {P : List U8 → Prop} {r t : U8} {p : Nat} {d : List U8} {e : Ev E}
    (hp : p < 65536) (hr : r.toNat = 4 * n + 1) (ht : t.toNat = 4 * n + 2) (hd : P d) :
    SendOrdered n P [.rd r 0x24 (be p) (.ok ()), .wr t (BitVec.ofNat 16 p) d (.ok ()),
      .wr r 0x24 (be ((p + d.length) % 65536)) (.ok ()), e] := by
  intro pre e' post he hs
  match pre, he with
  | [], he => simp at he; rw [← he.1] at hs; exact absurd hs (by simp [isSend])
  | [_], he =>
    simp at he; rw [← he.2.1] at hs
    obtain ⟨h, _⟩ := hs; omega
  | [_, _], he =>
    simp at he; rw [← he.2.2.1] at hs
    obtain ⟨_, h, _⟩ := hs; exact absurd h (by decide)
  | [a, b, c], he =>
    simp at he
    obtain ⟨rfl, rfl, rfl, _⟩ := he
    exact ⟨[], r, t, p, d, hp, hr, ht, .inl ⟨hd, rfl⟩⟩
  | _ :: _ :: _ :: _ :: _, he => simp at he

theorem SendOrdered.seq0 {n : Nat} {P : List U8 → Prop} {r t : U8} {p : Nat} {e : Ev E}
    (hp : p < 65536) (hr : r.toNat = 4 * n + 1) (ht : t.toNat = 4 * n + 2) (hd : P []) :
    SendOrdered n P [.rd r 0x24 (be p) (.ok ()), .wr r 0x24 (be p) (.ok ()), e] := by
  intro pre e' post he hs
  match pre, he with
  | [], he => simp at he; rw [← he.1] at hs; exact absurd hs (by simp [isSend])
  | [_], he =>
    simp at he; rw [← he.2.1] at hs
    obtain ⟨_, h, _⟩ := hs; exact absurd h (by decide)
  | [a, b], he =>
    simp at he
    obtain ⟨rfl, rfl, _⟩ := he
    exact ⟨[], r, t, p, [], hp, hr, ht, .inr ⟨hd, rfl⟩⟩
  | _ :: _ :: _ :: _, he => simp at he

/-- What `read2` does on a traced bus. -/
theorem read2_traced (t : TW W E) (b : U8) (a : U16) :
    ∃ d r w, (d.length = 2) ∧
      (((traced B).read2 b a t).2 = ⟨w, t.log ++ [.rd b a d r]⟩) ∧
      (match r with
       | .ok _ => ∃ x : U16, d = be x.toNat ∧ ((traced B).read2 b a t).1 = .ok x
       | .err e => ((traced B).read2 b a t).1 = .err e
       | .panic => ((traced B).read2 b a t).1 = .panic
       | .fuel => ((traced B).read2 b a t).1 = .fuel) := by
  refine ⟨(B.readFrame t.w b a [0, 0]).2.1, (B.readFrame t.w b a [0, 0]).1,
    (B.readFrame t.w b a [0, 0]).2.2, B.read_length .., ?_⟩
  have hl := B.read_length t.w b a [0, 0]
  have key : (traced B).readBuf b a [0, 0] t = match B.readFrame t.w b a [0, 0] with
      | (.ok _, d, w') => (.ok d, ⟨w', t.log ++ [.rd b a d (.ok ())]⟩)
      | (.err e, d, w') => (.err e, ⟨w', t.log ++ [.rd b a d (.err e)]⟩)
      | (.panic, d, w') => (.panic, ⟨w', t.log ++ [.rd b a d .panic]⟩)
      | (.fuel, d, w') => (.fuel, ⟨w', t.log ++ [.rd b a d .fuel]⟩) := by
    simp only [Bus.readBuf, traced]
    generalize B.readFrame t.w b a [0, 0] = q
    obtain ⟨_ | _ | _ | _, q2, q3⟩ := q <;> rfl
  unfold Bus.read2
  rw [M.bind_def, key]
  generalize B.readFrame t.w b a [0, 0] = q at hl
  obtain ⟨_ | _ | _ | _, d, w'⟩ := q
  · match d, hl with
    | [x, y], _ =>
      refine ⟨rfl, fromBeBytes x y, ?_, rfl⟩
      rw [← toBeBytes_eq_be, toBeBytes_fromBeBytes]
  all_goals exact ⟨rfl, rfl⟩

theorem txwp_traced (t : TW W E) (s : Socket) :
    ∃ d r w, (d.length = 2) ∧
      ((s.getTxWritePointer (traced B) t).2 =
        ⟨w, t.log ++ [.rd s.register socketn.TX_DATA_WRITE_POINTER d r]⟩) ∧
      (match r with
       | .ok _ => ∃ x : U16, d = be x.toNat ∧ (s.getTxWritePointer (traced B) t).1 = .ok x
       | .err e => (s.getTxWritePointer (traced B) t).1 = .err e
       | .panic => (s.getTxWritePointer (traced B) t).1 = .panic
       | .fuel => (s.getTxWritePointer (traced B) t).1 = .fuel) :=
  read2_traced t s.register socketn.TX_DATA_WRITE_POINTER

theorem emits_sendSeq_ordered {s : Socket} {n : Nat} {P : List U8 → Prop} (hs : IsSocket s n) {d : List U8}
    (hd : P d) : Emits (Lang.ordered n P) (sendSeq (traced B) s d) := by
  obtain ⟨hr, ht, -, -⟩ := hs.facts
  constructor; intro t
  obtain ⟨rd, rr, w, hl, hst, hres⟩ := txwp_traced (B := B) t s
  unfold sendSeq
  rw [M.bind_def]
  generalize Socket.getTxWritePointer (traced B) s t = q at hst hres ⊢
  obtain ⟨q1, q2⟩ := q
  dsimp only at hst hres
  subst hst
  have hns : ∀ r, ¬ isSend n (Ev.rd s.register socketn.TX_DATA_WRITE_POINTER rd r : Ev E) := by
    intro r h; exact h
  cases rr with
  | err e => subst hres; exact ⟨_, rfl, SendOrdered.single (hns _)⟩
  | panic => subst hres; exact ⟨_, rfl, SendOrdered.single (hns _)⟩
  | fuel => subst hres; exact ⟨_, rfl, SendOrdered.single (hns _)⟩
  | ok u =>
    obtain ⟨x, rfl, rfl⟩ := hres
    dsimp only
    have hx : BitVec.ofNat 16 x.toNat = x := by simp
    rw [M.bind_def]
    simp only [Bus.write, traced]
    have e2 : ∀ r, ¬ isSend n (Ev.wr s.txBuffer x d r : Ev E) := by
      rintro r ⟨h, _⟩; omega
    have e3 : ∀ d' r, ¬ isSend n (Ev.wr s.register socketn.TX_DATA_WRITE_POINTER d' r : Ev E) := by
      rintro d' r ⟨_, h, _⟩; exact absurd h (by decide)
    generalize B.writeFrame w s.txBuffer x d = q
    obtain ⟨_ | _ | _ | _, w2⟩ := q
    case err =>
      refine ⟨[_, _], by simp [HasLog.log]; exact ⟨rfl, rfl⟩, SendOrdered.of_nosend ?_⟩
      simp [hns, e2]
    case panic =>
      refine ⟨[_, _], by simp [HasLog.log]; exact ⟨rfl, rfl⟩, SendOrdered.of_nosend ?_⟩
      simp [hns, e2]
    case fuel =>
      refine ⟨[_, _], by simp [HasLog.log]; exact ⟨rfl, rfl⟩, SendOrdered.of_nosend ?_⟩
      simp [hns, e2]
    case ok =>
    dsimp only
    rw [M.bind_def]
    simp only [Socket.setTxWritePointer, Bus.write]
    have hlen : toBeBytes (x + BitVec.ofNat 16 d.length) = be ((x.toNat + d.length) % 65536) := by
      rw [toBeBytes_eq_be]; simp [BitVec.toNat_add]
    rw [hlen]
    generalize B.writeFrame w2 s.register socketn.TX_DATA_WRITE_POINTER _ = q
    obtain ⟨_ | _ | _ | _, w3⟩ := q
    case err =>
      refine ⟨[_, _, _], by simp [HasLog.log]; exact ⟨rfl, rfl, rfl⟩, SendOrdered.of_nosend ?_⟩
      simp [hns, e2, e3]
    case panic =>
      refine ⟨[_, _, _], by simp [HasLog.log]; exact ⟨rfl, rfl, rfl⟩, SendOrdered.of_nosend ?_⟩
      simp [hns, e2, e3]
    case fuel =>
      refine ⟨[_, _, _], by simp [HasLog.log]; exact ⟨rfl, rfl, rfl⟩, SendOrdered.of_nosend ?_⟩
      simp [hns, e2, e3]
    case ok =>
    refine ⟨_, ?_, SendOrdered.seq (P := P) (d := d) (e := .wr s.register socketn.COMMAND [0x20]
      (B.writeFrame w3 s.register socketn.COMMAND [0x20]).1) x.isLt hr ht hd⟩
    simp [Socket.command, Bus.write, HasLog.log, hx]; exact ⟨rfl, rfl, rfl⟩

theorem emits_rawSeq_ordered {s : Socket} {n : Nat} (hs : IsSocket s n) (f : List U8) (fsz : U16) :
    Emits (Lang.ordered n (fun d => d = f ∨ d = [])) (rawSeq (traced B) s f fsz) := by
  by_cases h : (f.isEmpty || decide (f.length > fsz.toNat)) = true
  · obtain ⟨hr, ht, -, -⟩ := hs.facts
    constructor; intro t
    obtain ⟨rd, rr, w, hl, hst, hres⟩ := txwp_traced (B := B) t s
    unfold rawSeq
    simp only [h, if_true]
    rw [M.bind_def]
    generalize Socket.getTxWritePointer (traced B) s t = q at hst hres ⊢
    obtain ⟨q1, q2⟩ := q
    dsimp only at hst hres
    subst hst
    have hns : ∀ r, ¬ isSend n (Ev.rd s.register socketn.TX_DATA_WRITE_POINTER rd r : Ev E) := by
      intro r h; exact h
    cases rr with
    | err e => subst hres; exact ⟨_, rfl, SendOrdered.single (hns _)⟩
    | panic => subst hres; exact ⟨_, rfl, SendOrdered.single (hns _)⟩
    | fuel => subst hres; exact ⟨_, rfl, SendOrdered.single (hns _)⟩
    | ok u =>
      obtain ⟨x, rfl, rfl⟩ := hres
      dsimp only
      rw [M.bind_def]
      simp only [Socket.setTxWritePointer, Bus.write, traced, toBeBytes_eq_be]
      have e3 : ∀ d' r, ¬ isSend n (Ev.wr s.register socketn.TX_DATA_WRITE_POINTER d' r : Ev E) := by
        rintro d' r ⟨_, h, _⟩; exact absurd h (by decide)
      generalize B.writeFrame w s.register socketn.TX_DATA_WRITE_POINTER _ = q
      obtain ⟨_ | _ | _ | _, w3⟩ := q
      case err =>
        refine ⟨[_, _], by simp [HasLog.log]; exact ⟨rfl, rfl⟩, SendOrdered.of_nosend ?_⟩
        simp [hns, e3]
      case panic =>
        refine ⟨[_, _], by simp [HasLog.log]; exact ⟨rfl, rfl⟩, SendOrdered.of_nosend ?_⟩
        simp [hns, e3]
      case fuel =>
        refine ⟨[_, _], by simp [HasLog.log]; exact ⟨rfl, rfl⟩, SendOrdered.of_nosend ?_⟩
        simp [hns, e3]
      case ok =>
      refine ⟨_, ?_, SendOrdered.seq0 (e := .wr s.register socketn.COMMAND [socketn.Command.send.toU8]
        (B.writeFrame w3 s.register socketn.COMMAND [socketn.Command.send.toU8]).1) x.isLt hr ht (.inr rfl)⟩
      · simp only [M.bind_def, Socket.command, Bus.write, HasLog.log]
        generalize B.writeFrame w3 s.register socketn.COMMAND _ = q
        obtain ⟨_ | _ | _ | _, w4⟩ := q <;> simp [M.pure_def] <;> exact rfl
  · have : rawSeq (traced B) s f fsz = (do
        sendSeq (traced B) s f
        pure (BitVec.ofNat 16 f.length)) := by
      unfold rawSeq sendSeq
      simp only [h, bind_assoc]
      rfl
    rw [this]
    exact .bind (emits_sendSeq_ordered hs (.inl rfl)) fun _ => .pure _

end W5500
