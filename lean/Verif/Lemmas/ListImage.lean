import Mathlib.Logic.Equiv.Fin.Basic
import Mathlib.Data.List.Forall2
import Mathlib.Data.List.Perm.Basic

/-! Helper lemmas: index bijections between lists. -/

namespace Verif

theorem perm_equiv {α : Type*} {L M : List α} (h : L.Perm M) :
    ∃ σ : Fin L.length ≃ Fin M.length, ∀ i, M.get (σ i) = L.get i := by
  induction h with
  | nil => exact ⟨Equiv.refl _, fun i => rfl⟩
  | @cons x l₁ l₂ _ ih =>
    obtain ⟨σ, hσ⟩ := ih
    refine ⟨(finSuccEquiv _).trans ((Equiv.optionCongr σ).trans (finSuccEquiv _).symm), fun i => ?_⟩
    refine Fin.cases ?_ (fun j => ?_) i
    · simp
    · have := hσ j
      simpa using this
  | @swap x y l =>
    refine ⟨(Equiv.swap (0 : Fin (l.length + 1 + 1)) 1), fun i => ?_⟩
    refine Fin.cases ?_ (fun j => ?_) i
    · simp
    · refine Fin.cases ?_ (fun k => ?_) j
      · simp
      · rw [Equiv.swap_apply_of_ne_of_ne]
        · simp
        · exact Fin.succ_ne_zero _
        · intro h
          rw [← Fin.succ_zero_eq_one, Fin.succ_inj] at h
          exact Fin.succ_ne_zero _ h
  | trans _ _ ih1 ih2 =>
    obtain ⟨σ, hσ⟩ := ih1
    obtain ⟨τ, hτ⟩ := ih2
    exact ⟨σ.trans τ, fun i => by simp only [Equiv.trans_apply, hτ, hσ]⟩

/-- corresponding entries, up to a rearrangement -/
def ListImage {α β : Type*} (P : α → β → Prop) (L : List α) (L' : List β) : Prop :=
  ∃ M, List.Forall₂ P L M ∧ M.Perm L'

theorem ListImage.nil {α β : Type*} {P : α → β → Prop} : ListImage P [] [] := ⟨[], .nil, .refl _⟩

theorem ListImage.append {α β : Type*} {P : α → β → Prop} {A B : List α} {A' B' : List β} (h : ListImage P A A')
    (h' : ListImage P B B') : ListImage P (A ++ B) (A' ++ B') := by
  obtain ⟨M, h1, h2⟩ := h
  obtain ⟨N, h3, h4⟩ := h'
  exact ⟨M ++ N, List.rel_append h1 h3, h2.append h4⟩

theorem ListImage.perm {α β : Type*} {P : α → β → Prop} {A : List α} {A' B' : List β} (h : ListImage P A A')
    (h' : A'.Perm B') : ListImage P A B' := by
  obtain ⟨M, h1, h2⟩ := h
  exact ⟨M, h1, h2.trans h'⟩

theorem ListImage.equiv {α β : Type*} {P : α → β → Prop} {L : List α} {L' : List β} (h : ListImage P L L') :
    ∃ σ : Fin L.length ≃ Fin L'.length, ∀ i, P (L.get i) (L'.get (σ i)) := by
  obtain ⟨M, h1, h2⟩ := h
  obtain ⟨σ, hσ⟩ := perm_equiv h2
  refine ⟨(finCongr h1.length_eq).trans σ, fun i => ?_⟩
  simp only [Equiv.trans_apply, hσ]
  exact h1.get i.2 (by rw [← h1.length_eq]; exact i.2)

/-- a block that is listed in reverse -/
theorem listImage_reverse {α β : Type*} {P : α → β → Prop} {n : ℕ} {a : ℕ → α} {b : ℕ → β}
    (h : ∀ i < n, P (a i) (b (n - 1 - i))) : ListImage P ((List.range n).map a) ((List.range n).map b) := by
  refine ⟨((List.range n).map b).reverse, ?_, List.reverse_perm _⟩
  rw [List.forall₂_iff_get]
  refine ⟨by simp, fun i h1 h2 => ?_⟩
  simp only [List.length_map, List.length_range] at h1
  simpa using h i h1

end Verif
