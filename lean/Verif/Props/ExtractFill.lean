import Verif.Props.Extract
/-!
C70: extraction with extrapolation.
-/
namespace Verif.Extract
open Verif

variable {K : Type} [Field K] [LinearOrder K] [IsStrictOrderedRing K] [FloorRing K]

/-- The same request without extrapolation. -/
def Request.bare (r : Request K) : Request K := { r with near := fun _ _ _ _ => none }

/-- What extrapolation makes of a value: values stay, a masked value may get an extrapolated one, which is
scaled as the others are. -/
def Filled (r : Request K) (o0 o : Out K) : Prop :=
  (o0 ≠ .masked → o = o0) ∧
  (o0 = .masked → o = .masked ∨ ∃ x y hc q z, r.near x y hc q = some z ∧ o = .val z.1 z.2 r.scale)

theorem bare_fill (r : Request K) (x y : List K) (hc : List (List (Fld K))) (q : K × K) (o : Out K) :
    r.bare.fill x y hc q o = o := by
  cases o <;> rfl

theorem filled_fill (r : Request K) (x y : List K) (hc : List (List (Fld K))) (q : K × K) (o : Out K) :
    Filled r o (r.fill x y hc q o) := by
  constructor
  · intro h
    cases o with
    | masked => exact absurd rfl h
    | val a b c => rfl
    | nan => rfl
  · rintro rfl
    rw [Request.fill]
    cases h : r.near x y hc q with
    | none => exact Or.inl rfl
    | some z => exact Or.inr ⟨x, y, hc, q, z, h, rfl⟩

theorem bind_ok {α β : Type} {a : Except PyErr α} {k : α → Except PyErr β} {b : β}
    (h : (a >>= k) = .ok b) : ∃ x, a = .ok x ∧ k x = .ok b := by
  cases a with
  | error e => rw [error_bind] at h; cases h
  | ok x => exact ⟨x, rfl, by rwa [ok_bind] at h⟩

theorem pyMap_two {α β γ : Type} {f : α → Except PyErr β} {g : α → Except PyErr γ} {R : β → γ → Prop} :
    ∀ {l : List α} {bs : List β}, pyMap f l = .ok bs →
      (∀ a ∈ l, ∀ b, f a = .ok b → ∃ c, g a = .ok c ∧ R b c) →
      ∃ cs, pyMap g l = .ok cs ∧ List.Forall₂ R bs cs
  | [], bs, h, _ => by
    cases h
    exact ⟨[], rfl, .nil⟩
  | a :: l, bs, h, hr => by
    unfold pyMap at h
    cases ha : f a with
    | error e => simp [ha] at h
    | ok b =>
      cases hl : pyMap f l with
      | error e => simp [ha, hl] at h
      | ok bs' =>
        obtain ⟨c, hc, hbc⟩ := hr a (by simp) b ha
        obtain ⟨cs, hcs, hrel⟩ := pyMap_two hl (fun x hx => hr x (by simp [hx]))
        simp [ha, hl] at h
        subst h
        exact ⟨c :: cs, by simp [pyMap, hc, hcs], .cons hbc hrel⟩

theorem evaluate_fill (f : Fmt) (r : Request K) (stored : Bool) (x y : List K) (hc : List (List (Fld K)))
    (pts : List (K × K)) (outs0 : List (Out K)) (h : evaluate f r.bare stored x y hc pts = .ok outs0) :
    ∃ outs, evaluate f r stored x y hc pts = .ok outs ∧ List.Forall₂ (Filled r) outs0 outs := by
  refine pyMap_two h fun q _ o h => ?_
  obtain ⟨o', e1, h⟩ := bind_ok h
  obtain ⟨inv, e2, h⟩ := bind_ok h
  rw [bare_fill] at h
  cases h
  have e1' : atPoint r.method stored x y hc r.scale q = .ok o' := e1
  refine ⟨_, by rw [e1', ok_bind, e2, ok_bind], ?_⟩
  cases inv
  · exact filled_fill r x y hc q o'
  · exact ⟨fun _ => rfl, fun _ => Or.inl rfl⟩

theorem extractFile_fill (f : Fmt) (r : Request K) (box : Box K) (g : Layer K) (pts : List (K × K))
    (outs0 : List (Out K)) (ps : List (K × K)) (h : extractFile f r.bare box g pts = .ok (outs0, ps)) :
    ∃ outs, extractFile f r box g pts = .ok (outs, ps) ∧ List.Forall₂ (Filled r) outs0 outs := by
  obtain ⟨dlon, e1, h⟩ := bind_ok h
  obtain ⟨⟨g1, p1⟩, e2, h⟩ := bind_ok h
  obtain ⟨g2, e3, h⟩ := bind_ok h
  obtain ⟨o, e4, h⟩ := bind_ok h
  cases h
  obtain ⟨outs, e5, hr⟩ := evaluate_fill f r false g2.lon g2.lat g2.hc ps outs0 e4
  refine ⟨outs, ?_, hr⟩
  have e2' : place r box dlon g pts = .ok (g1, ps) := e2
  rw [extractFile, e1, ok_bind, e2', ok_bind]
  dsimp only
  rw [e3, ok_bind, e5, ok_bind]

theorem extractFiles_fill (f : Fmt) (r : Request K) (box : Box K) : ∀ (gs : List (Layer K))
    (pts : List (K × K)) (outs0 : List (List (Out K))), extractFiles f r.bare box gs pts = .ok outs0 →
    ∃ outs, extractFiles f r box gs pts = .ok outs ∧ List.Forall₂ (List.Forall₂ (Filled r)) outs0 outs
  | [], pts, outs0, h => by
    cases h
    exact ⟨[], rfl, .nil⟩
  | g :: gs, pts, outs0, h => by
    obtain ⟨⟨o, p⟩, e1, h⟩ := bind_ok h
    obtain ⟨rest, e2, h⟩ := bind_ok h
    cases h
    obtain ⟨o', e3, h1⟩ := extractFile_fill f r box g pts o p e1
    obtain ⟨rest', e4, h2⟩ := extractFiles_fill f r box gs p rest e2
    refine ⟨o' :: rest', ?_, .cons h1 h2⟩
    rw [extractFiles, e3, ok_bind]
    dsimp only
    rw [e4, ok_bind]

/-- **C70** (extrapolation).  Extraction with extrapolation returns every value that extraction without it
returns, for all grids, files and points and with or without cropping; a masked value stays masked or gets
the value that extrapolation gives, in the same units. -/
theorem C70_extrapolated (f : Fmt) (r : Request K) (files : List (Layer K)) (pts : List (K × K))
    (outs0 : List (List (Out K))) (h : extract f r.bare files pts = .ok outs0) :
    ∃ outs, extract f r files pts = .ok outs ∧ List.Forall₂ (List.Forall₂ (Filled r)) outs0 outs := by
  obtain ⟨box, e1, h⟩ := bind_ok h
  obtain ⟨outs, e2, hr⟩ := extractFiles_fill f r box files pts outs0 h
  have e1' : r.boundsOr pts = .ok box := e1
  exact ⟨outs, by rw [extract, e1', ok_bind, e2], hr⟩

/-- A point next to land gets a value, scaled. -/
example : extract got { plain with method := .linear, near := fun _ _ _ _ => some (1, 2), scale := 100 }
    [exampleFile 0] [(225, -45)] = .ok [[.val 1 2 100]] ∧
    extract got { plain with method := .linear, scale := 100 } [exampleFile 0] [(225, -45)] =
      .ok [[.masked]] := by
  decide +kernel

end Verif.Extract
