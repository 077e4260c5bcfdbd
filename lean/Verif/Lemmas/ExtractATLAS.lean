import Verif.Model.ExtractATLAS
import Verif.Lemmas.Staggered
/-! Interpolation of the constants and depths of an ATLAS model at one point. -/
namespace Verif.AtlasNet
open Verif Verif.Spec Verif.Extract
open Verif.Staggered (SameMask Positive Sounds mask_congr)

variable {K : Type} [Field K] [LinearOrder K] [IsStrictOrderedRing K]

/-! ## NaN -/

theorem validPairs_fst (cs : List (K × Interp.Cell K)) :
    (Interp.validPairs cs).map Prod.fst = (cs.filter fun p => p.2.valid).map Prod.fst := by
  induction cs with
  | nil => rfl
  | cons p cs ih =>
    obtain ⟨w, v, m⟩ := p
    unfold Interp.validPairs at ih ⊢
    rw [List.filterMap_cons, List.filter_cons]
    cases v with
    | none =>
      have : (⟨none, m⟩ : Interp.Cell K).valid = false := rfl
      simp only [this, Bool.false_eq_true, if_false]
      exact ih
    | some v =>
      cases m with
      | true =>
        have : (⟨some v, true⟩ : Interp.Cell K).valid = false := rfl
        simp only [this, Bool.false_eq_true, if_false]
        exact ih
      | false =>
        have : (⟨some v, false⟩ : Interp.Cell K).valid = true := rfl
        simp only [this, if_true, List.map_cons]
        rw [ih]

theorem nan_congr (ax ay : Interp.Axis K) (d d' : ℕ → ℕ → Interp.Cell K) (f f' : K) (lon lat : K)
    (hm : ∀ j i, (d j i).masked = (d' j i).masked) (hv : ∀ j i, (d j i).val.isNone = (d' j i).val.isNone)
    {o o' : Interp.Cell K} (e : Interp.bilinear ax ay d (some f) lon lat = .ok o)
    (e' : Interp.bilinear ax ay d' (some f') lon lat = .ok o') : o.val.isNone = o'.val.isNone := by
  have hval : ∀ j i, (d j i).valid = (d' j i).valid := by
    intro j i
    have := hv j i
    unfold Interp.Cell.valid
    rw [hm j i]
    rw [← Option.not_isNone, ← Option.not_isNone, this]
  have key : ∀ ix iy, (Interp.cell ax ay d (some f) lon lat ix iy).val.isNone =
      (Interp.cell ax ay d' (some f') lon lat ix iy).val.isNone := by
    intro ix iy
    unfold Interp.cell
    have ha : ∀ a b c e : K, ([(a, d iy ix), (b, d iy (ix + 1)), (c, d (iy + 1) ix),
        (e, d (iy + 1) (ix + 1))].any fun p => p.2.valid) = ([(a, d' iy ix), (b, d' iy (ix + 1)),
        (c, d' (iy + 1) ix), (e, d' (iy + 1) (ix + 1))].any fun p => p.2.valid) := by
      intro a b c e
      simp only [List.any_cons, List.any_nil, hval]
    have hw : ∀ a b c e : K, (Interp.weighted (Interp.validPairs [(a, d iy ix), (b, d iy (ix + 1)),
        (c, d (iy + 1) ix), (e, d (iy + 1) (ix + 1))])).isNone = (Interp.weighted (Interp.validPairs
        [(a, d' iy ix), (b, d' iy (ix + 1)), (c, d' (iy + 1) ix), (e, d' (iy + 1) (ix + 1))])).isNone := by
      intro a b c e
      unfold Interp.weighted
      simp only [validPairs_fst]
      have : (([(a, d iy ix), (b, d iy (ix + 1)), (c, d (iy + 1) ix), (e, d (iy + 1) (ix + 1))].filter
          fun p => p.2.valid).map Prod.fst) = ([(a, d' iy ix), (b, d' iy (ix + 1)), (c, d' (iy + 1) ix),
          (e, d' (iy + 1) (ix + 1))].filter fun p => p.2.valid).map Prod.fst := by
        simp only [List.filter_cons, List.filter_nil, hval]
        cases (d' iy ix).valid <;> cases (d' iy (ix + 1)).valid <;> cases (d' (iy + 1) ix).valid <;>
          cases (d' (iy + 1) (ix + 1)).valid <;> rfl
      rw [this]
      split_ifs <;> rfl
    dsimp only
    rw [ha]
    simp only [apply_ite Interp.Cell.val, apply_ite Option.isNone, hv, hw, Option.isNone_some]
  unfold Interp.bilinear at e e'
  split at e
  · rename_i x0 x1 y0 y1 h1 h2 h3 h4
    rw [h1, h2, h3, h4] at e'
    simp only at e'
    by_cases hin : x0 ≤ lon ∧ lon ≤ x1 ∧ y0 < lat ∧ lat < y1
    · rw [if_pos hin] at e e'
      split at e
      · rename_i g1 g2
        rw [g1, g2] at e'
        cases e
        cases e'
        exact key _ _
      · cases e
    · rw [if_neg hin] at e e'
      cases e
      cases e'
      rfl
  · cases e

/-- Whether the interpolated number is masked or NaN depends on the mask only. -/
theorem bilinearC_congr {x y : List K} {hc bath : List (List (Fld K))} (same : SameMask hc bath) {a b : K}
    {v w : Option (K × K)} {k k' : Bool}
    (e : bilinearC x y (fun j i => nanCell (entry hc j i)) a b = .ok (v, k))
    (e' : bilinearC x y (fun j i => nanCell (entry bath j i)) a b = .ok (w, k')) :
    k = k' ∧ v.isNone = w.isNone := by
  have hm : ∀ j i, (nanCell (entry hc j i)).2 = (nanCell (entry bath j i)).2 := fun j i => same j i
  have hn : ∀ (f f' : K × K → K) j i, ((nanCell (entry hc j i)).1.map f).isNone =
      ((nanCell (entry bath j i)).1.map f').isNone := by
    intro f f' j i
    have := same j i
    unfold nanCell
    rw [this]
    cases (entry bath j i).masked <;> rfl
  have hval : ∀ (f f' : K × K → K) j i, (⟨(nanCell (entry hc j i)).1.map f, (nanCell (entry hc j i)).2⟩ :
      Interp.Cell K).valid = (⟨(nanCell (entry bath j i)).1.map f', (nanCell (entry bath j i)).2⟩ :
      Interp.Cell K).valid := by
    intro f f' j i
    have := same j i
    unfold Interp.Cell.valid nanCell
    simp only
    rw [this]
    cases (entry bath j i).masked <;> rfl
  unfold bilinearC at e e'
  cases g1 : Interp.bilinear (ofList x) (ofList y)
      (fun j i => ⟨(nanCell (entry hc j i)).1.map Prod.fst, (nanCell (entry hc j i)).2⟩)
      (some fillRe) a b with
  | error _ => rw [g1] at e; cases e
  | ok o =>
    cases g2 : Interp.bilinear (ofList x) (ofList y)
        (fun j i => ⟨(nanCell (entry bath j i)).1.map Prod.fst, (nanCell (entry bath j i)).2⟩)
        (some fillRe) a b with
    | error _ => rw [g2] at e'; cases e'
    | ok o' =>
      have m1 := mask_congr _ _ _ _ _ _ _ _ (fun j i => hm j i) (fun j i => hval _ _ j i) g1 g2
      have n1 := nan_congr _ _ _ _ _ _ _ _ (fun j i => hm j i) (fun j i => hn _ _ j i) g1 g2
      rw [g1, ok_bind] at e
      rw [g2, ok_bind] at e'
      cases g3 : Interp.bilinear (ofList x) (ofList y)
          (fun j i => ⟨(nanCell (entry hc j i)).1.map Prod.snd, (nanCell (entry hc j i)).2⟩)
          (some 0) a b with
      | error _ => rw [g3] at e; cases e
      | ok p =>
        cases g4 : Interp.bilinear (ofList x) (ofList y)
            (fun j i => ⟨(nanCell (entry bath j i)).1.map Prod.snd, (nanCell (entry bath j i)).2⟩)
            (some 0) a b with
        | error _ => rw [g4] at e'; cases e'
        | ok p' =>
          have n2 := nan_congr _ _ _ _ _ _ _ _ (fun j i => hm j i) (fun j i => hn _ _ j i) g3 g4
          rw [g3, ok_bind] at e
          rw [g4, ok_bind] at e'
          have e1 := Except.ok.inj e
          have e2 := Except.ok.inj e'
          simp only [Prod.mk.injEq] at e1 e2
          refine ⟨by rw [← e1.2, ← e2.2, m1], ?_⟩
          rw [← e1.1, ← e2.1]
          cases h1 : o.val <;> cases h2 : o'.val <;> rw [h1, h2] at n1 <;> cases h3 : p.val <;>
            cases h4 : p'.val <;> rw [h3, h4] at n2 <;> first | rfl | (simp at n1; done) | (simp at n2; done)

/-! ## One point -/

/-- The constant a user expects, given the interpolated number and the interpolated depth: for a
velocity in centimetres per second a transport is divided by the depth. -/
def current (speed : Bool) (scale : K) : Option (K × K) → Option (K × K) → Out K
  | some z, some d => .val z.1 z.2 (if speed then scale * (100 / d.1) else scale)
  | _, _ => .masked

/-- What a user expects at a place, given the chart `T` of the quantity and the chart `H` of depths.
`'spline'` and `'linear'`: bilinear interpolation, masked next to land; `'bilinear'`: the mean of the
surrounding points in the sea, or the value of a point next to the place. -/
def Agrees (m : Method) (speed : Bool) (scale : K) (T H : Chart K) (q : K × K) (o : Out K) : Prop :=
  match m with
  | .bilinear => ∃ v w, (T.Mean q.1 q.2 v ∨ Close T q.1 q.2 v) ∧ (H.Mean q.1 q.2 w ∨ Close H q.1 q.2 w) ∧
      o = current speed scale v w
  | _ => ∃ v w, T.Value q.1 q.2 v ∧ H.Value q.1 q.2 w ∧ o = current speed scale v w

theorem convert_eq {speed : Bool} {scale : K} {H : Chart K} (hp : speed = true → Positive H) {d z : K × K}
    (h : Positive H → 0 < d.1) : convert speed false scale d.1 z = current speed scale (some z) (some d) := by
  unfold convert current
  cases speed with
  | false => rfl
  | true =>
    simp only [if_true, Bool.false_eq_true, false_or]
    rw [if_neg (h (hp rfl)).ne']

/-- The depth and a constant at a place inside matrices that show the charts. -/
theorem point {x y : List K} {hc bath : List (List (Fld K))} {T H : Chart K} {k0 j0 : ℤ}
    (ht : Shows x y hc T k0 j0) (hb : Shows x y bath H k0 j0) (same : SameMask hc bath) (m : Method)
    (stored speed : Bool) (scale : K) (q : K × K) (a1 : x.getD 0 0 ≤ q.1) (a2 : q.1 ≤ x.getD (x.length - 1) 0)
    (b1 : y.getD 0 0 ≤ q.2) (b2 : q.2 ≤ y.getD (y.length - 1) 0)
    (far : m = .bilinear → ∀ c : ℕ, c < x.length → |x.getD c 0| ≤ 720)
    (strict : m = .bilinear → q.1 < x.getD (x.length - 1) 0 ∧ y.getD 0 0 < q.2 ∧
      q.2 < y.getD (y.length - 1) 0)
    (pos : speed = true → Positive H) :
    ∃ d k v k', depthAt m x y bath q = .ok (d, k) ∧ constantAt m stored x y hc q = .ok (v, k') ∧
      Sounds m H q (if k = true then none else some d) ∧
      Agrees m speed scale T H q (if (k' || k) = true then .masked else match v with
        | some z => convert speed false scale d z
        | none => .nan) := by
  have main : ∀ (v w : Option (K × K)) (z z' : K × K) (k k' : Bool), k' = v.isNone → k = w.isNone →
      (∀ u, v = some u → z = u) → (∀ u, w = some u → z' = u) → (∀ u, w = some u → Positive H → 0 < u.1) →
      (if (k' || k) = true then Out.masked else convert speed false scale z'.1 z) = current speed scale v w := by
    intro v w z z' k k' e1 e2 e3 e4 e5
    cases v with
    | none => rw [e1]; cases w <;> rfl
    | some v =>
      cases w with
      | none => rw [e1, e2]; rfl
      | some w =>
        rw [e1, e2, e3 v rfl, e4 w rfl]
        exact convert_eq pos (e5 w rfl)
  have splines : (m = .spline ∨ m = .linear) → ∃ (d : K) (k : Bool) (v : Option (K × K)) (k' : Bool),
      depthAt m x y bath q = .ok (d, k) ∧ constantAt m stored x y hc q = .ok (v, k') ∧
      Sounds m H q (if k = true then none else some d) ∧
      Agrees m speed scale T H q (if (k' || k) = true then .masked else match v with
        | some z => convert speed false scale d z
        | none => .nan) := by
    intro hm
    obtain ⟨hc', hh, hs⟩ : ∃ hc', (if stored then fillMasked hc else hc) = hc' ∧ Shows x y hc' T k0 j0 := by
      cases stored with
      | false => exact ⟨hc, rfl, ht⟩
      | true => exact ⟨_, rfl, ht.filled⟩
    obtain ⟨w, hw, z', k, e1, e1', ek, ez⟩ := splines_value hb q.1 q.2 a1 a2 b1 b2
    obtain ⟨v, hv, z, k', e2, e2', ek', ez'⟩ := splines_value hs q.1 q.2 a1 a2 b1 b2
    refine ⟨z'.1, k, some z, k', ?_, ?_, ?_, ?_⟩
    · rcases hm with rfl | rfl <;> unfold depthAt <;> simp only
      · rw [e1, ok_bind]
      · rw [e1', ok_bind]
    · rcases hm with rfl | rfl <;> unfold constantAt <;> simp only [hh]
      · rw [e2, ok_bind]
      · rw [e2', ok_bind]
    · have : (if k = true then none else some z'.1) = w.map Prod.fst := by
        cases w with
        | none => rw [ek]; rfl
        | some w => rw [ek, ez w rfl]; rfl
      rw [this]
      rcases hm with rfl | rfl <;> exact ⟨w, hw, rfl⟩
    · have := main v w z z' k k' ek' ek ez' ez (by rintro u rfl hp; exact hp.value hw)
      rcases hm with rfl | rfl <;> exact ⟨v, w, hv, hw, this⟩
  cases m with
  | spline => exact splines (Or.inl rfl)
  | linear => exact splines (Or.inr rfl)
  | bilinear =>
    obtain ⟨s1, s2, s3⟩ := strict rfl
    obtain ⟨v, k', e2, hv⟩ := bilinearC_value ht q.1 q.2 a1 s1 s2 s3
    obtain ⟨w, k, e1, hw⟩ := bilinearC_value hb q.1 q.2 a1 s1 s2 s3
    obtain ⟨kk, nn⟩ := bilinearC_congr same e2 e1
    subst kk
    have near : ∀ {C : Chart K} {mat : List (List (Fld K))} (hs : Shows x y mat C k0 j0) (o : Option (K × K)),
        (C.Mean q.1 q.2 o ∨ ∃ c r : ℕ, c < x.length ∧ r < y.length ∧
          Interp.isclose q.1 (x.getD c 0) = true ∧ Interp.isclose q.2 (y.getD r 0) = true ∧
          o = C.value (k0 + c) (j0 + r)) → (C.Mean q.1 q.2 o ∨ Close C q.1 q.2 o) := by
      intro C mat hs o h
      rcases h with h | ⟨c, r, c1, r1, n1, n2, h⟩
      · exact Or.inl h
      · refine Or.inr ⟨k0 + c, j0 + r, hs.col c c1, hs.row r r1, ?_, ?_, h⟩
        · rw [← hs.lon c c1]
          unfold Interp.isclose at n1
          have := of_decide_eq_true n1
          have := far rfl c c1
          linarith
        · rw [← hs.lat r r1]
          unfold Interp.isclose at n2
          have := of_decide_eq_true n2
          linarith
    have hv := near ht _ hv
    have hw := near hb _ hw
    have hd : depthAt .bilinear x y bath q = .ok (filled w k') := by
      unfold depthAt
      simp only
      rw [e1, ok_bind]
    have hc : constantAt .bilinear stored x y hc q = .ok (v, k') := by
      unfold constantAt
      exact e2
    cases k' with
    | true =>
      simp only [if_true] at hv hw
      refine ⟨fillRe, true, v, true, ?_, hc, ⟨none, hw, rfl⟩, none, none, hv, hw, rfl⟩
      rw [hd]
      cases w <;> rfl
    | false =>
      simp only [Bool.false_eq_true, if_false] at hv hw
      cases w with
      | none =>
        have v0 : v = none := Option.isNone_iff_eq_none.1 nn
        subst v0
        exact ⟨fillRe, true, none, false, hd, hc, ⟨none, hw, rfl⟩, none, none, hv, hw, rfl⟩
      | some w =>
        cases v with
        | none => cases nn
        | some v =>
          refine ⟨w.1, false, some v, false, hd, hc, ⟨some w, hw, rfl⟩, some v, some w, hv, hw, ?_⟩
          exact main (some v) (some w) v w false false rfl rfl (by rintro u ⟨⟩; rfl) (by rintro u ⟨⟩; rfl)
            (by rintro u ⟨⟩ hp; exact hw.elim hp.mean hp.close)

end Verif.AtlasNet
