import Verif.Model.Constituents
import Verif.Spec.OrderedMap
/-! Helper lemmas for C04: the abstraction relation and its preservation. -/
namespace Verif.Constituents
open Verif Verif.Spec

variable {V : Type}

/-- The object represents the ordered map `m`: same names in order, same values. -/
structure Rep (s : State V) (m : OMap V) : Prop where
  fields : s.fields = m.keys
  attrs : ∀ n, s.attrs n = m.find n
  nodup : m.keys.Nodup

theorem find_cons (p : String × V) (t : OMap V) (k : String) :
    OMap.find (p :: t) k = if p.1 = k then some p.2 else OMap.find t k := by
  unfold OMap.find
  rw [List.find?_cons]
  by_cases h : p.1 = k
  · simp [h]
  · have : (p.1 == k) = false := by simpa using h
    simp [this, h]

theorem find_none_of_notMem (m : OMap V) (n : String) (h : n ∉ m.keys) : m.find n = none := by
  induction m with
  | nil => rfl
  | cons p t ih =>
    simp only [OMap.keys, List.map_cons, List.mem_cons, not_or] at h
    rw [find_cons, if_neg (fun e => h.1 e.symm), ih h.2]

theorem find_isSome_of_mem (m : OMap V) (n : String) (h : n ∈ m.keys) : ∃ v, m.find n = some v := by
  induction m with
  | nil => simp [OMap.keys] at h
  | cons p t ih =>
    rw [find_cons]
    by_cases hp : p.1 = n
    · exact ⟨p.2, by simp [hp]⟩
    · have : n ∈ OMap.keys t := by
        simp only [OMap.keys, List.map_cons, List.mem_cons] at h
        rcases h with h | h
        · exact absurd h.symm hp
        · exact h
      obtain ⟨v, hv⟩ := ih this
      exact ⟨v, by simp [hp, hv]⟩

theorem find_append_new (m : OMap V) (n : String) (v : V) (h : n ∉ m.keys) (k : String) :
    OMap.find (m ++ [(n, v)]) k = if k = n then some v else m.find k := by
  unfold OMap.find
  rw [List.find?_append]
  by_cases hk : k = n
  · subst hk
    have := find_none_of_notMem m k h
    unfold OMap.find at this
    have h2 : m.find? (fun p => p.1 == k) = none := by simpa using this
    simp [h2]
  · have : ¬ n = k := fun e => hk e.symm
    cases hf : m.find? (fun p => p.1 == k) <;> simp [hk, this]

theorem keys_replace (m : OMap V) (n : String) (v : V) : (m.replace n v).keys = m.keys := by
  induction m with
  | nil => rfl
  | cons p t ih =>
    simp only [OMap.keys, OMap.replace, List.map_cons, List.cons.injEq] at *
    refine ⟨?_, ih⟩
    split
    · simp_all
    · rfl

theorem find_replace (m : OMap V) (n : String) (v : V) (h : n ∈ m.keys) (k : String) :
    (m.replace n v).find k = if k = n then some v else m.find k := by
  have key : ∀ (t : OMap V) (k : String), (OMap.replace t n v).find k =
      if k = n then (if n ∈ t.keys then some v else none) else t.find k := by
    intro t k
    induction t with
    | nil => simp [OMap.replace, OMap.find, OMap.keys]
    | cons p t ih =>
      have e1 : OMap.replace (p :: t) n v =
        (if p.1 = n then (n, v) else p) :: OMap.replace t n v := rfl
      rw [e1, find_cons, find_cons, ih]
      have e2 : n ∈ OMap.keys (p :: t) ↔ n = p.1 ∨ n ∈ OMap.keys t := by
        simp only [OMap.keys, List.map_cons, List.mem_cons]
      by_cases hp : p.1 = n
      · by_cases hk : k = n
        · simp [e2, hp, hk]
        · have hk' : ¬ n = k := fun e => hk e.symm
          simp [hp, hk, hk']
      · have hp' : ¬ n = p.1 := fun e => hp e.symm
        by_cases hk : k = n
        · subst hk; simp [e2, hp, hp']
        · simp [hp, hk]
  rw [key]
  simp [h]

theorem find_erase (m : OMap V) (n k : String) :
    (OMap.erase m n).find k = if k = n then none else m.find k := by
  induction m with
  | nil => simp [OMap.erase, OMap.find]
  | cons p t ih =>
    by_cases hp : p.1 = n
    · have e1 : OMap.erase (p :: t) n = OMap.erase t n := by simp [OMap.erase, hp]
      rw [e1, ih, find_cons]
      by_cases hk : k = n
      · simp [hk]
      · have : ¬ p.1 = k := by rw [hp]; exact fun e => hk e.symm
        simp [hk, this]
    · have e1 : OMap.erase (p :: t) n = p :: OMap.erase t n := by simp [OMap.erase, hp]
      rw [e1, find_cons, find_cons, ih]
      by_cases hpk : p.1 = k
      · have : ¬ k = n := by rw [← hpk]; exact hp
        simp [hpk, this]
      · simp [hpk]

theorem keys_erase (m : OMap V) (n : String) (h : m.keys.Nodup) :
    (OMap.erase m n).keys = m.keys.erase n := by
  rw [h.erase_eq_filter]
  unfold OMap.keys OMap.erase
  rw [List.filter_map]
  congr 1
  apply List.filter_congr
  intro p _
  by_cases hp : p.1 = n <;> simp [hp]

theorem rep_init : Rep (State.init : State V) [] :=
  ⟨rfl, fun _ => rfl, by simp [OMap.keys]⟩

/-- Iterating from cursor `k` yields the pairs of the map from position `k` on. -/
theorem drain_rep (s : State V) (m : OMap V) (h : Rep s m) :
    ∀ (fuel k : Nat), k ≤ m.length → m.length - k < fuel →
      State.drain fuel { s with cursor := k } =
        (.ok (m.drop k), { s with cursor := m.length }) := by
  intro fuel
  induction fuel with
  | zero => intro k _ h2; omega
  | succ fuel ih =>
    intro k hk hf
    by_cases hlt : k < m.length
    · have hfield : s.fields[k]? = some (m[k]).1 := by
        rw [h.fields]; simp [OMap.keys, hlt]
      have hval : s.attrs (m[k]).1 = some (m[k]).2 := by
        rw [h.attrs]
        have hnd := h.nodup
        clear hfield h ih
        induction m generalizing k with
        | nil => simp at hlt
        | cons p t iht =>
          cases k with
          | zero => simp [find_cons]
          | succ k =>
            have hk' : k < t.length := by simpa using hlt
            simp only [OMap.keys, List.map_cons, List.nodup_cons] at hnd
            have hne : ¬ p.1 = (t[k]).1 := by
              intro e
              exact hnd.1 (by rw [e]; exact List.mem_map.mpr ⟨t[k], List.getElem_mem _, rfl⟩)
            have := iht k (by omega) (by simp at hf ⊢; omega) hk' hnd.2
            simp only [List.getElem_cons_succ]
            rw [find_cons, if_neg hne, this]
      have hnext : State.next { s with cursor := k } =
          (.ok ((m[k]).1, (m[k]).2), { s with cursor := k + 1 }) := by
        simp only [State.next, hfield, hval]
      have hrec := ih (k + 1) (by omega) (by omega)
      simp only [State.drain, hnext, hrec]
      rw [List.drop_eq_getElem_cons hlt]
    · have hk' : k = m.length := by omega
      subst hk'
      have hfield : s.fields[m.length]? = none := by
        rw [h.fields]; simp [OMap.keys]
      simp [State.drain, State.next, hfield]

theorem items_rep (s : State V) (m : OMap V) (h : Rep s m) :
    s.items = (.ok m, { s with cursor := m.length }) := by
  have hl : s.fields.length = m.length := by rw [h.fields]; simp [OMap.keys]
  have := drain_rep s m h (s.fields.length + 1) 0 (by omega) (by omega)
  simpa [State.items, State.iter] using this

end Verif.Constituents
