import Verif.Model.ConstituentsItems
import Verif.Props.Constituents
/-!
C04 with access by item.
-/
namespace Verif.Constituents
open Verif Verif.Spec

variable {V : Type}

/-- Names with a comma and a blank between them. -/
def listed : List String → String
  | [] => ""
  | [n] => n
  | n :: m :: ns => n ++ ", " ++ listed (m :: ns)

/-- What an ordered map does: `m[n] = v` puts a new name at the end. -/
def specCall (m : OMap V) : Call V → Result V × OMap V
  | .op o => (.out (specStep m o).1, (specStep m o).2)
  | .item n =>
    match m.find n with
    | some v => (.out (.value v), m)
    | none => (.out (.raised .attributeError), m)
  | .setItem n v => (.out .done, m.insert n v)
  | .text => (.text ("pyTMD.constituents\n    constituents: " ++ listed m.keys), m)

/-- A history run on the ordered map. -/
def specCalls (m : OMap V) : List (Call V) → List (Result V) × OMap V
  | [] => ([], m)
  | c :: cs => ((specCall m c).1 :: (specCalls (specCall m c).2 cs).1, (specCalls (specCall m c).2 cs).2)

/-- Names are new when they are appended, and held when they are set as items. -/
def Orderly (m : OMap V) : List (Call V) → Prop
  | [] => True
  | c :: cs =>
    (match c with
      | .op (.append n _) => n ∉ m.keys
      | .setItem n _ => n ∈ m.keys
      | _ => True) ∧ Orderly (specCall m c).2 cs

theorem listed_eq (l : List String) : ", ".intercalate l = listed l := by
  induction l with
  | nil => rfl
  | cons n l ih =>
    cases l with
    | nil => rw [String.intercalate_singleton]; rfl
    | cons k l => rw [String.intercalate_cons_cons, ih]; rfl

theorem text_eq (s : State V) : s.text = "pyTMD.constituents\n    constituents: " ++ listed s.fields := by
  rw [State.text, listed_eq]
  rw [String.intercalate_cons_cons, String.intercalate_singleton]
  rw [← String.append_assoc]
  rfl

theorem call_refines (s : State V) (m : OMap V) (h : Rep s m) (c : Call V)
    (hf : match c with
      | .op (.append n _) => n ∉ m.keys
      | .setItem n _ => n ∈ m.keys
      | _ => True) :
    (s.call c).1 = (specCall m c).1 ∧ Rep (s.call c).2 (specCall m c).2 := by
  cases c with
  | op o =>
    have := step_refines s m h o (by intro n v e; subst e; exact hf)
    exact ⟨congrArg Result.out this.1, this.2⟩
  | item n =>
    have ha := h.attrs n
    cases hm : m.find n with
    | none =>
      rw [hm] at ha
      simp only [State.call, State.getattr, ha, specCall, hm]
      exact ⟨by trivial, h⟩
    | some v =>
      rw [hm] at ha
      simp only [State.call, State.getattr, ha, specCall, hm]
      exact ⟨by trivial, h⟩
  | setItem n v =>
    have hn : n ∈ m.keys := hf
    have hi : m.insert n v = m.replace n v := by unfold OMap.insert; rw [if_pos hn]
    simp only [State.call, specCall, hi]
    refine ⟨by trivial, ?_, ?_, ?_⟩
    · simp [State.setattr, keys_replace, h.fields]
    · intro k
      simp only [State.setattr]
      rw [find_replace m n v hn k, h.attrs]
    · rw [keys_replace]; exact h.nodup
  | text => exact ⟨by rw [State.call, specCall, text_eq, h.fields], h⟩

theorem calls_refine (cs : List (Call V)) : ∀ (s : State V) (m : OMap V), Rep s m → Orderly m cs →
    (s.calls cs).1 = (specCalls m cs).1 ∧ Rep (s.calls cs).2 (specCalls m cs).2 := by
  induction cs with
  | nil => intro s m h _; exact ⟨rfl, h⟩
  | cons c cs ih =>
    intro s m h hf
    have h1 := call_refines s m h c hf.1
    have h2 := ih _ _ h1.2 hf.2
    exact ⟨by rw [State.calls, specCalls, h1.1, h2.1], h2.2⟩

/-- **C04** (items).  With access by item and the text of the container as well, all answers of every history are
those of an ordered map, if names that are appended are new and items that are set are held.  Missing: other
histories, for which the claim is false. -/
theorem C04_items_partial (cs : List (Call V)) (h : Orderly ([] : OMap V) cs) :
    ((State.init : State V).calls cs).1 = (specCalls [] cs).1 :=
  (calls_refine cs _ _ rep_init h).1

/-- Attributes that are not listed do not matter to loops. -/
theorem drain_agree (fuel : Nat) : ∀ s t : State V, s.fields = t.fields → (∀ f ∈ s.fields, s.attrs f = t.attrs f) →
    s.cursor = t.cursor → (State.drain fuel s).1 = (State.drain fuel t).1 := by
  induction fuel with
  | zero => intro s t _ _ _; rfl
  | succ fuel ih =>
    rintro s ⟨tf, ta, tc⟩ hf ha hc
    simp only at hf ha hc
    subst hf hc
    rw [State.drain, State.drain, State.next, State.next]
    cases hx : s.fields[s.cursor]? with
    | none => rfl
    | some f =>
      have hm : f ∈ s.fields := List.mem_of_getElem? hx
      simp only [hx, ← ha f hm]
      cases s.attrs f with
      | none => rfl
      | some v =>
        have h := ih { s with cursor := s.cursor + 1 } ⟨s.fields, ta, s.cursor + 1⟩ rfl ha rfl
        simp only
        revert h
        cases State.drain fuel { s with cursor := s.cursor + 1 } with
        | mk r s' =>
          cases State.drain fuel ⟨s.fields, ta, s.cursor + 1⟩ with
          | mk q t' =>
            intro h
            obtain rfl : r = q := h
            cases r <;> rfl

theorem drain_fields (fuel : Nat) : ∀ s : State V, (State.drain fuel s).2.fields = s.fields := by
  induction fuel with
  | zero => intro s; rfl
  | succ fuel ih =>
    intro s
    rw [State.drain, State.next]
    cases s.fields[s.cursor]? with
    | none => rfl
    | some f =>
      simp only
      cases s.attrs f with
      | none => rfl
      | some v =>
        have h := ih { s with cursor := s.cursor + 1 }
        simp only
        revert h
        cases State.drain fuel { s with cursor := s.cursor + 1 } with
        | mk r s' =>
          intro h
          cases r <;> exact h

/-- **C04** (refuted: new items).  In every state a new name that is set as an item can be read, but is in no list:
the number, the names and the pairs of the container stay as they were, and it cannot be removed. -/
theorem C04_setitem_false (s : State V) (m : OMap V) (h : Rep s m) (n : String) (v : V) (hn : n ∉ m.keys) :
    (s.calls [.setItem n v, .item n, .op .len, .op .names, .op .items, .op (.pop n)]).1 =
      [.out .done, .out (.value v), .out (.count m.length), .out (.list m.keys), .out (.pairs m),
        .out (.raised .valueError)] ∧
    (specCalls m [.setItem n v, .item n, .op .len]).1 =
      [.out .done, .out (.value v), .out (.count (m.length + 1))] := by
  have hi : m.insert n v = m ++ [(n, v)] := by unfold OMap.insert; rw [if_neg hn]
  constructor
  · have hf : (s.setattr n v).fields = m.keys := h.fields
    have hd : (s.setattr n v).items.1 = .ok m := by
      have e := items_rep s m h
      have d := drain_agree (s.fields.length + 1) (s.setattr n v).iter s.iter rfl (by
        intro f hfm
        have : f ≠ n := fun e => hn (by rw [← e, ← h.fields]; exact hfm)
        simp [State.iter, State.setattr, this]) rfl
      rw [State.items] at e ⊢
      exact d.trans (by rw [e])
    have hp : (s.setattr n v).items.2.fields = m.keys := by
      rw [State.items, drain_fields]
      exact h.fields
    have hl : m.keys.length = m.length := by simp [OMap.keys]
    have hg : (s.setattr n v).getattr n = .ok v := by simp [State.getattr, State.setattr]
    revert hd hp
    simp only [State.calls, State.call, State.step, hg, hf, hl]
    cases (s.setattr n v).items with
    | mk r t =>
      intro hd hp
      obtain rfl : r = .ok m := hd
      have hq : n ∉ t.fields := by rw [show t.fields = m.keys from hp]; exact hn
      simp only [State.pop, hq, if_false]
  · have := find_append_new m n v hn n
    simp [specCalls, specCall, specStep, hi, this]

/-- A history with items and the text. -/
example : Orderly ([] : OMap Nat) [.op (.append "m2" 1), .op (.append "s2" 2), .setItem "m2" 3, .item "m2", .text,
    .op (.pop "s2"), .item "s2"] := by
  refine ⟨by decide, by decide, by decide, trivial, trivial, trivial, trivial, trivial⟩

example : ((State.init : State Nat).calls [.op (.append "m2" 1), .op (.append "s2" 2), .setItem "m2" 3, .item "m2",
    .text]).1 = [.out .done, .out .done, .out .done, .out (.value 3),
      .text "pyTMD.constituents\n    constituents: m2, s2"] := by
  decide +kernel

end Verif.Constituents
