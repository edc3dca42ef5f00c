import Verif.Thm.MUStall
import Verif.Thm.LLScaling

/-!
# Two runs in lockstep

`Lock R P m m'`: started in states related by `R`, the computations `m` and `m'` either raise the same exception or return
values related by `P`, and in both cases end in related states.
-/

namespace Verif
open V3 Act

/-- see the head of the file -/
def Lock {S S' α β : Type} (R : S → S' → Prop) (P : α → β → Prop) (m : Act S α) (m' : Act S' β) : Prop :=
  ∀ s s', R s s' → Outcome P (m s).1 (m' s').1 ∧ R (m s).2 (m' s').2

namespace Lock
variable {S S' α β γ δ : Type} {R : S → S' → Prop} {P : α → β → Prop} {Q : γ → δ → Prop}

theorem bind {m : Act S α} {m' : Act S' β} {f : α → Act S γ} {f' : β → Act S' δ} (hm : Lock R P m m')
    (hf : ∀ a a', P a a' → Lock R Q (f a) (f' a')) : Lock R Q (m >>= f) (m' >>= f') := by
  intro s s' hs
  obtain ⟨h1, h2⟩ := hm s s' hs
  rw [bind_def, bind_def]
  rcases hr : m s with ⟨e | a, s1⟩ <;> rcases hr' : m' s' with ⟨e' | a', s1'⟩ <;> rw [hr, hr'] at h1 h2
  · exact ⟨h1, h2⟩
  · exact h1.elim
  · exact h1.elim
  · exact hf a a' h1 _ _ h2

theorem pure {a : α} {b : β} (h : P a b) : Lock R P (pure a : Act S α) (pure b : Act S' β) := fun _ _ hs => ⟨h, hs⟩
theorem ret {a : α} {b : β} (h : P a b) : Lock R P (ret a : Act S α) (ret b : Act S' β) := fun _ _ hs => ⟨h, hs⟩
theorem raise (e : PyErr) : Lock R P (raise e : Act S α) (raise e : Act S' β) := fun _ _ hs => ⟨rfl, hs⟩
theorem get : Lock R R (get : Act S S) (get : Act S' S') := fun _ _ hs => ⟨hs, hs⟩

theorem tryFinite {m : Act S α} {m' : Act S' β} (hm : Lock R P m m') :
    Lock R (Option.Rel P) (tryFinite m) (tryFinite m') := by
  intro s s' hs
  obtain ⟨h1, h2⟩ := hm s s' hs
  unfold Act.tryFinite
  rcases hr : m s with ⟨e | a, s1⟩ <;> rcases hr' : m' s' with ⟨e' | a', s1'⟩ <;> rw [hr, hr'] at h1 h2
  · have h1 : e = e' := h1
    subst h1
    cases e
    case nonfinite => exact ⟨Option.Rel.none, h2⟩
    all_goals exact ⟨rfl, h2⟩
  · exact h1.elim
  · exact h1.elim
  · exact ⟨Option.Rel.some h1, h2⟩

theorem mono {m : Act S α} {m' : Act S' β} {P' : α → β → Prop} (hm : Lock R P m m') (h : ∀ a b, P a b → P' a b) :
    Lock R P' m m' := fun s s' hs => ⟨(hm s s' hs).1.mono fun _ _ _ _ => h _ _, (hm s s' hs).2⟩

end Lock

theorem Outcome.eq {ε α : Type*} {r r' : Except ε α} (h : Outcome (fun a b => b = a) r r') : r' = r := by
  cases r <;> cases r'
  · exact congrArg _ (Eq.symm h)
  · exact h.elim
  · exact h.elim
  · exact congrArg _ h

end Verif
