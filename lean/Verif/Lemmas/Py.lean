import Verif.Model.Py
/-! Lemmas about the Python conventions. -/
namespace Verif

theorem ok_bind {α β : Type} (a : α) (f : α → Except PyErr β) :
    ((Except.ok a : Except PyErr α) >>= f) = f a := by rw [bind]; rfl

theorem error_bind {α β : Type} (e : PyErr) (f : α → Except PyErr β) :
    ((Except.error e : Except PyErr α) >>= f) = .error e := by rw [bind]; rfl

theorem pyMap_ok_of_forall {α β : Type} {f : α → Except PyErr β} {g : α → β} :
    ∀ {l : List α}, (∀ a ∈ l, f a = .ok (g a)) → pyMap f l = .ok (l.map g)
  | [], _ => rfl
  | a :: as, h => by
    have h1 := h a (by simp)
    have h2 := pyMap_ok_of_forall (l := as) (fun b hb => h b (by simp [hb]))
    simp [pyMap, h1, h2]

theorem pyMap_ok_iff {α β : Type} {f : α → Except PyErr β} :
    ∀ {l : List α}, (∃ r, pyMap f l = .ok r) ↔ ∀ a ∈ l, ∃ b, f a = .ok b
  | [] => by simp [pyMap]
  | a :: as => by
    have ih := pyMap_ok_iff (f := f) (l := as)
    simp only [List.mem_cons, forall_eq_or_imp]
    constructor
    · rintro ⟨r, hr⟩
      unfold pyMap at hr
      cases hfa : f a with
      | error e => simp [hfa] at hr
      | ok b =>
        refine ⟨⟨b, rfl⟩, ?_⟩
        cases hm : pyMap f as with
        | error e => simp [hfa, hm] at hr
        | ok bs => exact ih.mp ⟨bs, hm⟩
    · rintro ⟨⟨b, hb⟩, h⟩
      obtain ⟨bs, hbs⟩ := ih.mpr h
      exact ⟨b :: bs, by simp [pyMap, hb, hbs]⟩

end Verif
