import Verif.Lemmas.Constituents
/-!
Property C04: the constituents container behaves like an ordered map under every history.
-/
namespace Verif.Constituents
open Verif Verif.Spec

variable {V : Type}

/-- What an ordered map does on each operation of the interface.  `append` of a name that
is already present is an insertion in place. -/
def specStep (m : OMap V) : Op V → Out V × OMap V
  | .append n v => (.done, m.insert n v)
  | .update n v => if n ∈ m.keys then (.done, m.replace n v) else (.raised .keyError, m)
  | .pop n =>
    match m.find n with
    | some v => (.value v, OMap.erase m n)
    | none => (.raised .valueError, m)
  | .get n =>
    match m.find n with
    | some v => (.value v, m)
    | none => (.raised .attributeError, m)
  | .len => (.count m.length, m)
  | .names => (.list m.keys, m)
  | .items => (.pairs m, m)

/-- A history run on the ordered map. -/
def specRun (m : OMap V) : List (Op V) → List (Out V) × OMap V
  | [] => ([], m)
  | op :: ops =>
    let (o, m') := specStep m op
    let (os, m'') := specRun m' ops
    (o :: os, m'')

/-- The history never appends a name that is present at that moment. -/
def FreshAppends (m : OMap V) : List (Op V) → Prop
  | [] => True
  | op :: ops =>
    (match op with
      | .append n _ => n ∉ m.keys
      | _ => True) ∧ FreshAppends (specStep m op).2 ops

/-- One call on the object and on the map give the same answer and keep representing. -/
theorem step_refines (s : State V) (m : OMap V) (h : Rep s m) (op : Op V)
    (hf : ∀ n v, op = .append n v → n ∉ m.keys) :
    (s.step op).1 = (specStep m op).1 ∧ Rep (s.step op).2 (specStep m op).2 := by
  cases op with
  | append n v =>
    have hn := hf n v rfl
    have hi : m.insert n v = m ++ [(n, v)] := by unfold OMap.insert; rw [if_neg hn]
    have hks : OMap.keys (m ++ [(n, v)]) = m.keys ++ [n] := by simp [OMap.keys]
    simp only [State.step, specStep, hi]
    refine ⟨by trivial, ?_, ?_, ?_⟩
    · rw [hks]; simp [State.append, State.setattr, h.fields]
    · intro k
      simp only [State.append, State.setattr]
      rw [find_append_new m n v hn k, h.attrs]
    · rw [hks, List.nodup_append]
      refine ⟨h.nodup, by simp, ?_⟩
      intro a ha b hb e
      simp at hb
      subst hb; subst e
      exact hn ha
  | update n v =>
    by_cases hn : n ∈ m.keys
    · obtain ⟨w, hw⟩ := find_isSome_of_mem m n hn
      have ha : s.attrs n = some w := by rw [h.attrs, hw]
      simp only [State.step, State.update, ha, specStep, hn, if_true]
      refine ⟨by trivial, ?_, ?_, ?_⟩
      · simp [State.setattr, keys_replace, h.fields]
      · intro k
        simp only [State.setattr]
        rw [find_replace m n v hn k, h.attrs]
      · rw [keys_replace]; exact h.nodup
    · have ha : s.attrs n = none := by rw [h.attrs, find_none_of_notMem m n hn]
      simp only [State.step, State.update, ha, specStep, hn, if_false]
      exact ⟨by trivial, h⟩
  | pop n =>
    by_cases hn : n ∈ m.keys
    · obtain ⟨w, hw⟩ := find_isSome_of_mem m n hn
      have ha : s.attrs n = some w := by rw [h.attrs, hw]
      have hfld : n ∈ s.fields := by rw [h.fields]; exact hn
      simp only [State.step, State.pop, hfld, if_true, ha, specStep, hw]
      refine ⟨by trivial, ?_, ?_, ?_⟩
      · simp only [State.delattr]
        rw [h.fields, keys_erase m n h.nodup]
      · intro k
        simp only [State.delattr]
        rw [find_erase, h.attrs]
      · rw [keys_erase m n h.nodup]
        exact h.nodup.erase n
    · have hw := find_none_of_notMem m n hn
      have hfld : n ∉ s.fields := by rw [h.fields]; exact hn
      simp only [State.step, State.pop, hfld, if_false, specStep, hw]
      exact ⟨by trivial, h⟩
  | get n =>
    have ha := h.attrs n
    cases hm : m.find n with
    | none =>
      rw [hm] at ha
      simp only [State.step, State.getattr, ha, specStep, hm]
      exact ⟨by trivial, h⟩
    | some v =>
      rw [hm] at ha
      simp only [State.step, State.getattr, ha, specStep, hm]
      exact ⟨by trivial, h⟩
  | len => exact ⟨by simp [State.step, specStep, h.fields, OMap.keys], h⟩
  | names => exact ⟨by simp [State.step, specStep, h.fields], h⟩
  | items =>
    simp only [State.step, items_rep s m h, specStep]
    exact ⟨by trivial, h.fields, h.attrs, h.nodup⟩

theorem run_refines (ops : List (Op V)) : ∀ (s : State V) (m : OMap V), Rep s m →
    FreshAppends m ops →
    (s.run ops).1 = (specRun m ops).1 ∧ Rep (s.run ops).2 (specRun m ops).2 := by
  induction ops with
  | nil => intro s m h _; exact ⟨rfl, h⟩
  | cons op ops ih =>
    intro s m h hf
    have h1 := step_refines s m h op (by
      intro n v e; subst e; exact hf.1)
    have h2 := ih _ _ h1.2 hf.2
    simp only [State.run, specRun]
    exact ⟨by rw [h1.1, h2.1], h2.2⟩

/-- C04 for every history that does not append a name already present: all answers
(values, errors, length, names, iteration) are those of an ordered map. -/
theorem C04_container_refines_ordered_map_partial (ops : List (Op V))
    (h : FreshAppends ([] : OMap V) ops) :
    ((State.init : State V).run ops).1 = (specRun [] ops).1 :=
  (run_refines ops _ _ rep_init h).1

/-- C04 is false in general: after appending a name twice and popping it once, the container
still lists the name but iteration raises `AttributeError`. -/
theorem C04_container_refines_ordered_map_false :
    let ops : List (Op Nat) := [.append "m2" 1, .append "m2" 2, .pop "m2", .names, .items]
    ((State.init : State Nat).run ops).1 =
      [.done, .done, .value 2, .list ["m2"], .raised .attributeError] ∧
    (specRun ([] : OMap Nat) ops).1 = [.done, .done, .value 2, .list [], .pairs []] := by
  decide

/-- C04 is also false for nested loops over one container: the object is its own iterator,
so an inner loop exhausts the outer one.  With `n ≥ 1` constituents the inner body runs
`n` times instead of `n * n`. -/
theorem C04_nested_iteration_false (s : State V) (m : OMap V) (h : Rep s m) (hne : m ≠ []) :
    State.nestedCount (m.length + 1) s.iter = m.length := by
  have hlen : 0 < m.length := List.length_pos_iff.mpr hne
  obtain ⟨fuel, hfuel⟩ : ∃ f, m.length + 1 = f + 1 + 1 := ⟨m.length - 1, by omega⟩
  have hrep : Rep s.iter m := ⟨h.fields, h.attrs, h.nodup⟩
  have hd := drain_rep s m h (s.fields.length + 1) 0 (by omega) (by
    have : s.fields.length = m.length := by rw [h.fields]; simp [OMap.keys]
    omega)
  have hn : ∃ p, s.iter.next = (.ok p, { s with cursor := 1 }) := by
    rw [State.drain] at hd
    cases hx : State.next { s with cursor := 0 } with
    | mk r s' =>
      have hx0 : s.iter.next = (r, s') := hx
      rw [hx0]
      simp only [hx] at hd
      cases r with
      | error e =>
        cases e <;> simp at hd
        · obtain ⟨h1, h2⟩ := hd
          cases m with
          | nil => exact absurd rfl hne
          | cons => exact absurd h1 (by simp)
      | ok p =>
        refine ⟨p, ?_⟩
        unfold State.next at hx
        cases hfld : s.fields[0]? with
        | none => simp [hfld] at hx
        | some f =>
          cases hat : s.attrs f with
          | none => simp [hfld, hat] at hx
          | some v =>
            simp [hfld, hat] at hx
            rw [← hx.2]
  obtain ⟨p, hp⟩ := hn
  have hrep1 : Rep { s with cursor := 1 } m := ⟨h.fields, h.attrs, h.nodup⟩
  have hi := items_rep _ m hrep1
  have hend : State.next { s with cursor := m.length } =
      (.error .stopIteration, { s with cursor := m.length }) := by
    have : s.fields[m.length]? = none := by rw [h.fields]; simp [OMap.keys]
    simp [State.next, this]
  rw [hfuel, State.nestedCount]
  simp only [hp, hi]
  rw [State.nestedCount]
  simp only [hend]
  omega

/-- A history with updates, removals and re-insertion satisfies the hypothesis. -/
example : FreshAppends ([] : OMap Nat)
    [.append "m2" 1, .append "s2" 2, .update "m2" 3, .pop "s2", .append "s2" 4, .items] := by
  refine ⟨by decide, by decide, trivial, trivial, by decide, trivial, trivial⟩

/-- Two constituents: a nested loop visits 2 pairs, not 4. -/
example : State.nestedCount 3 (((State.init : State Nat).append "m2" 1).append "s2" 2).iter = 2 := by
  decide

end Verif.Constituents
