import Verif.Model.Tcp
/-! # Laws of the state monad -/

namespace W5500
variable {W σ τ E ε ε' α β S H : Type}

namespace M

theorem bind_def (m : M σ ε α) (f : α → M σ ε β) (s : σ) :
    (m >>= f) s = match m s with
      | (.ok a, s') => f a s'
      | (.err e, s') => (.err e, s')
      | (.panic, s') => (.panic, s')
      | (.fuel, s') => (.fuel, s') := rfl

theorem pure_def (a : α) (s : σ) : (pure a : M σ ε α) s = (.ok a, s) := rfl

theorem bind_ok {m : M σ ε α} {f : α → M σ ε β} {s s' : σ} {a : α} (h : m s = (.ok a, s')) :
    (m >>= f) s = f a s' := by rw [bind_def, h]

theorem bind_err {m : M σ ε α} {f : α → M σ ε β} {s s' : σ} {e : ε} (h : m s = (.err e, s')) :
    (m >>= f) s = (.err e, s') := by rw [bind_def, h]

theorem bind_panic {m : M σ ε α} {f : α → M σ ε β} {s s' : σ} (h : m s = (.panic, s')) :
    (m >>= f) s = (.panic, s') := by rw [bind_def, h]

theorem bind_fuel {m : M σ ε α} {f : α → M σ ε β} {s s' : σ} (h : m s = (.fuel, s')) :
    (m >>= f) s = (.fuel, s') := by rw [bind_def, h]

instance : LawfulMonad (M σ ε) := LawfulMonad.mk'
  (id_map := by
    intro α x
    funext s
    show (x >>= fun a => pure (id a)) s = x s
    rw [bind_def]; split <;> rename_i h <;> rw [h] <;> rfl)
  (pure_bind := by intros; rfl)
  (bind_assoc := by
    intro α β γ x f g
    funext s
    simp only [bind_def]
    generalize x s = r
    obtain ⟨_ | _ | _ | _, t⟩ := r <;> rfl)

theorem mapErr_def (f : ε → ε') (m : M σ ε α) (s : σ) :
    mapErr f m s = match m s with
      | (.ok a, s') => (.ok a, s')
      | (.err e, s') => (.err (f e), s')
      | (.panic, s') => (.panic, s')
      | (.fuel, s') => (.fuel, s') := rfl

theorem mapErr_ok {f : ε → ε'} {m : M σ ε α} {s s' : σ} {a : α} (h : m s = (.ok a, s')) :
    mapErr f m s = (.ok a, s') := by rw [mapErr_def, h]

theorem mapErr_err {f : ε → ε'} {m : M σ ε α} {s s' : σ} {e : ε} (h : m s = (.err e, s')) :
    mapErr f m s = (.err (f e), s') := by rw [mapErr_def, h]

theorem mapErr_bind (f : ε → ε') (m : M σ ε α) (g : α → M σ ε β) :
    mapErr f (m >>= g) = mapErr f m >>= fun a => mapErr f (g a) := by
  funext s
  simp only [bind_def, mapErr_def]
  generalize m s = r
  obtain ⟨_ | _ | _ | _, t⟩ := r <;> rfl

theorem mapErr_pure (f : ε → ε') (a : α) : mapErr f (pure a : M σ ε α) = pure a := rfl

theorem onSnd_bind (m : M σ ε α) (g : α → M σ ε β) :
    (onSnd (m >>= g) : M (S × σ) ε β) = onSnd m >>= fun a => onSnd (g a) := by
  funext s
  simp only [onSnd, zoom, bind_def]
  generalize m s.2 = r
  obtain ⟨_ | _ | _ | _, t⟩ := r <;> rfl

theorem onSnd_mapErr (f : ε → ε') (m : M σ ε α) :
    (onSnd (mapErr f m) : M (S × σ) ε' α) = mapErr f (onSnd m) := by
  funext s
  simp only [onSnd, zoom, mapErr_def]
  generalize m s.2 = r
  obtain ⟨_ | _ | _ | _, t⟩ := r <;> rfl

theorem onSnd_apply (m : M σ ε α) (s : S × σ) :
    (onSnd m : M (S × σ) ε α) s = ((m s.2).1, (s.1, (m s.2).2)) := rfl

end M
end W5500
