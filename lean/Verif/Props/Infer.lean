import Verif.Model.Infer
import Verif.Props.Predict
import Mathlib.Analysis.Convex.Segment
import Mathlib.Topology.Order.OrderClosed
import Mathlib.Topology.Algebra.Order.Field
import Mathlib.Tactic.FieldSimp
import Mathlib.Tactic.NormNum
/-!
C25, C26 and C27: inference of minor constituents.
-/
namespace Verif.Infer
open Verif Verif.Predict

/-! ### Specification -/

/-- The constant of a major constituent at a point, matched without regard to case. -/
def provided (constituents : List String) (row : List MC) (c : String) : Option MC :=
  ((constituents.map String.toLower).zip row).lookup c

/-- The normalised majors of a point, zero for those that are missing. -/
noncomputable def majors (b : Band) (constituents : List String) (row : List MC) : List MC :=
  List.zipWith (fun c a => match provided constituents row c with
    | some z => smul (1 / a) z
    | none => ⟨0, 0, false⟩) b.cindex b.norm

/-- A minor constituent is requested: it is on the list given, or no list (or an empty one) is
given. -/
def Wanted (minor : Option (List String)) (m : String) : Prop :=
  ∀ l, minor = some l → l ≠ [] → m ∈ l

instance (minor : Option (List String)) (m : String) : Decidable (Wanted minor m) :=
  match minor with
  | none => isTrue (by intro l h; cases h)
  | some l =>
    if h : l ≠ [] → m ∈ l then isTrue (by intro l' e; cases e; exact h)
    else isFalse (fun w => h (w l rfl))

/-- The minor constituents that are requested and that the model does not provide, each with its
position in the list of the band. -/
def missing (b : Band) (constituents : List String) (minor : Option (List String)) :
    List (String × ℕ) :=
  b.minors.zipIdx.filter (fun p => decide (p.1 ∉ constituents ∧ Wanted minor p.1))

/-- The wave inferred for a minor constituent. -/
noncomputable def wave (b : Band) (t : ℝ × ℝ) (z : List MC) (p : String × ℕ) : Spec.Wave :=
  ⟨(b.arg t p.2).pf, (b.arg t p.2).G * Real.pi / 180 + (b.arg t p.2).pu,
    (b.constant p.2 z).val⟩

/-- The value inferred at a point. -/
noncomputable def inferred (b : Band) (constituents : List String) (minor : Option (List String))
    (t : ℝ × ℝ) (row : List MC) : ℝ :=
  Spec.tide ((missing b constituents minor).map (wave b t (majors b constituents row)))

/-! ### Lemmas -/

theorem indices_eq (cons req : List String) (l : List String) (n : ℕ) :
    indices cons req n l
      = ((l.zipIdx n).filter (fun p => decide (p.1 ∉ cons ∧ p.1 ∈ req))).map Prod.snd := by
  induction l generalizing n with
  | nil => rfl
  | cons m t ih =>
    rw [indices, List.zipIdx_cons, List.filter_cons]
    by_cases h : m ∉ cons ∧ m ∈ req
    · rw [if_pos h, if_pos (by simpa using h), List.map_cons, ih]
    · rw [if_neg h, if_neg (by simpa using h), ih]

theorem wanted_iff (minor : Option (List String)) (all : List String) (m : String)
    (h : m ∈ all) : m ∈ requested minor all ↔ Wanted minor m := by
  match minor with
  | none => exact ⟨fun _ l h => (by cases h), fun _ => h⟩
  | some [] => exact ⟨fun _ l e hne => (by cases e; exact absurd rfl hne), fun _ => h⟩
  | some (a :: l) =>
    exact ⟨fun hm l' e _ => (by cases e; exact hm), fun w => w (a :: l) rfl (List.cons_ne_nil a l)⟩

theorem indices_missing (b : Band) (cons : List String) (minor : Option (List String)) :
    indices cons (requested minor b.minors) 0 b.minors
      = (missing b cons minor).map Prod.snd := by
  rw [indices_eq, missing]
  refine congrArg _ (List.filter_congr ?_)
  rintro ⟨m, k⟩ hp
  rw [List.mem_zipIdx_iff_getElem?] at hp
  rw [decide_eq_decide, wanted_iff minor b.minors m (List.mem_of_getElem? hp)]

theorem total_eq (b : Band) (idx : List ℕ) (t : ℝ × ℝ) (z : List MC) (h : MR) :
    (idx.foldl (fun h k => accum h (b.arg t k)
      ((b.arg t k).G * Real.pi / 180 + (b.arg t k).pu) (b.constant k z)) h)
      = (h.1 + Spec.tide (idx.map (fun k => wave b t z ("", k))),
          h.2 || idx.any (fun k => (b.constant k z).mask)) := by
  induction idx generalizing h with
  | nil => simp [Spec.tide]
  | cons k idx ih =>
    rw [List.foldl_cons, ih]
    refine Prod.ext ?_ ?_
    · simp only [Spec.tide, List.map_cons, List.sum_cons, wave, height_eq, accum]
      ring
    · simp only [accum, List.any_cons, Bool.or_self, Bool.or_assoc]

theorem mem_positions (c : String) (n : ℕ) (l : List String) (j : ℕ) :
    j ∈ positions c n l ↔ n ≤ j ∧ ∃ v, l[j - n]? = some v ∧ v.toLower = c := by
  induction l generalizing n with
  | nil => simp [positions]
  | cons v t ih =>
    have key : (j ∈ positions c (n + 1) t) ↔ n < j ∧ ∃ w, (v :: t)[j - n]? = some w ∧ w.toLower = c := by
      rw [ih]
      constructor
      · rintro ⟨h1, w, hw, hc⟩
        refine ⟨h1, w, ?_, hc⟩
        rw [show j - n = (j - (n + 1)) + 1 by omega, List.getElem?_cons_succ]
        exact hw
      · rintro ⟨h1, w, hw, hc⟩
        refine ⟨h1, w, ?_, hc⟩
        rw [show j - n = (j - (n + 1)) + 1 by omega, List.getElem?_cons_succ] at hw
        exact hw
    rw [positions]
    split
    · rename_i hv
      rw [List.mem_cons, key]
      constructor
      · rintro (rfl | ⟨h1, h2⟩)
        · exact ⟨le_refl _, v, by simp, hv⟩
        · exact ⟨h1.le, h2⟩
      · rintro ⟨h1, h2⟩
        rcases h1.eq_or_lt with h | h
        · exact Or.inl h.symm
        · exact Or.inr ⟨h, h2⟩
    · rename_i hv
      rw [key]
      constructor
      · rintro ⟨h1, h2⟩
        exact ⟨h1.le, h2⟩
      · rintro ⟨h1, w, hw, hc⟩
        rcases h1.eq_or_lt with h | h
        · subst h
          simp only [Nat.sub_self, List.getElem?_cons_zero, Option.some.injEq] at hw
          exact absurd (hw ▸ hc) hv
        · exact ⟨h, w, hw, hc⟩

theorem positions_nodup (c : String) (n : ℕ) (l : List String) : (positions c n l).Nodup := by
  induction l generalizing n with
  | nil => simp [positions]
  | cons v t ih =>
    rw [positions]
    split
    · refine List.nodup_cons.mpr ⟨?_, ih _⟩
      rw [mem_positions]
      omega
    · exact ih _

/-- Constituents that differ up to case are found at most once. -/
theorem findMajor_ok (cons : List String) (h : (cons.map String.toLower).Nodup) (c : String) :
    ∃ o, findMajor cons c = .ok o ∧
      (∀ j, o = some j ↔ (cons.map String.toLower)[j]? = some c) := by
  have hm : ∀ j, j ∈ positions c 0 cons ↔ (cons.map String.toLower)[j]? = some c := by
    intro j
    rw [mem_positions, List.getElem?_map]
    simp only [Nat.zero_le, true_and, Nat.sub_zero, Option.map_eq_some_iff]
  have hn := positions_nodup c 0 cons
  unfold findMajor
  cases hp : positions c 0 cons with
  | nil =>
    refine ⟨none, rfl, ?_⟩
    intro j
    rw [← hm, hp]
    simp
  | cons a t =>
    cases t with
    | nil =>
      refine ⟨some a, rfl, ?_⟩
      intro j
      rw [← hm, hp]
      simp [eq_comm]
    | cons a' t =>
      exfalso
      rw [hp] at hn hm
      have h1 := (hm a).mp (by simp)
      have h2 := (hm a').mp (by simp)
      have hlt : a < (cons.map String.toLower).length := (List.getElem?_eq_some_iff.mp h1).1
      have := (List.getElem?_inj hlt h).mp (h1.trans h2.symm)
      subst this
      simp at hn

theorem lookup_zip (ks : List String) (row : List MC) (hn : ks.Nodup)
    (hl : row.length = ks.length) (c : String) (j : ℕ) (h : ks[j]? = some c) :
    (ks.zip row).lookup c = row[j]? := by
  induction ks generalizing row j with
  | nil => simp at h
  | cons k ks ih =>
    cases row with
    | nil => simp at hl
    | cons z row =>
      cases j with
      | zero =>
        simp only [List.getElem?_cons_zero, Option.some.injEq] at h
        subst h
        simp [List.lookup]
      | succ j =>
        rw [List.getElem?_cons_succ] at h ⊢
        have hne : c ≠ k := by
          rintro rfl
          exact (List.nodup_cons.mp hn).1 (List.mem_of_getElem? h)
        rw [List.zip_cons_cons, List.lookup_cons, beq_eq_false_iff_ne.mpr hne]
        exact ih row (List.nodup_cons.mp hn).2 (by simpa using hl) j h

theorem lookup_zip_none (ks : List String) (row : List MC) (c : String) (h : c ∉ ks) :
    (ks.zip row).lookup c = none := by
  induction ks generalizing row with
  | nil => rfl
  | cons k ks ih =>
    cases row with
    | nil => rfl
    | cons z row =>
      rw [List.mem_cons, not_or] at h
      rw [List.zip_cons_cons, List.lookup_cons, beq_eq_false_iff_ne.mpr h.1]
      exact ih row h.2

/-- The positions found, for constituents that differ up to case. -/
theorem pyMap_findMajor (cons : List String) (h : (cons.map String.toLower).Nodup)
    (cs : List String) : ∃ js, pyMap (findMajor cons) cs = .ok js ∧ js.length = cs.length ∧
      (js.filter Option.isSome).length = (cs.filter (fun c => decide (c ∈ cons.map String.toLower))).length ∧
      ∀ (norm : List ℝ) (row : List MC), row.length = cons.length →
        pyMap (pick row) (js.zip norm)
          = .ok (List.zipWith (fun c a => match provided cons row c with
              | some z => smul (1 / a) z
              | none => ⟨0, 0, false⟩) cs norm) := by
  induction cs with
  | nil => exact ⟨[], rfl, rfl, rfl, fun _ _ _ => rfl⟩
  | cons c cs ih =>
    obtain ⟨js, h1, h2, h3, h4⟩ := ih
    obtain ⟨o, ho, hoj⟩ := findMajor_ok cons h c
    have hsome : o.isSome = decide (c ∈ cons.map String.toLower) := by
      rw [Bool.eq_iff_iff, Option.isSome_iff_exists, decide_eq_true_eq, List.mem_iff_getElem?]
      exact exists_congr hoj
    refine ⟨o :: js, ?_, by rw [List.length_cons, List.length_cons, h2], ?_, ?_⟩
    · rw [pyMap, ho, h1]
    · rw [List.filter_cons, List.filter_cons, hsome]
      split
      · rw [List.length_cons, List.length_cons, h3]
      · exact h3
    · intro norm row hrow
      cases norm with
      | nil => rfl
      | cons a norm =>
        have hp : pick row (o, a) = .ok (match provided cons row c with
              | some z => smul (1 / a) z
              | none => ⟨0, 0, false⟩) := by
          cases o with
          | none =>
            have : c ∉ cons.map String.toLower := by
              rw [← decide_eq_false_iff_not, ← hsome]; rfl
            rw [provided, lookup_zip_none _ _ _ this]
            rfl
          | some j =>
            have hj := (hoj j).mp rfl
            have hl := lookup_zip (cons.map String.toLower) row h (by simpa using hrow) c j hj
            have hlt : j < row.length := by
              have := (List.getElem?_eq_some_iff.mp hj).1
              rw [hrow]; simpa using this
            rw [provided, hl, pick, List.getElem?_eq_getElem hlt]
            dsimp only
            rw [item_ok row j row[j] (List.getElem?_eq_getElem hlt)]
            rfl
        rw [List.zip_cons_cons, pyMap, hp, h4 norm row hrow]
        rfl

theorem pairs_map {α β : Type} (f : α → β) (ts : List (ℝ × ℝ)) (rows : List α)
    (ps : List ((ℝ × ℝ) × α)) (h : pairs ts rows = .ok ps) :
    pairs ts (rows.map f) = .ok (ps.map (fun p => (p.1, f p.2))) := by
  match rows, ts with
  | [row], t :: ts =>
    have := Except.ok.inj h
    subst this
    simp [pairs]
  | [], [t] =>
    have := Except.ok.inj h
    subst this
    simp [pairs]
  | r1 :: r2 :: rs, [t] =>
    have := Except.ok.inj h
    subst this
    simp [pairs]
  | [], [] =>
    simp only [pairs, List.length_nil, if_true, List.zip_nil_right] at h
    have := Except.ok.inj h
    subst this
    simp [pairs]
  | [r], [] => simp [pairs] at h
  | r1 :: r2 :: rs, [] => simp [pairs] at h
  | [], t1 :: t2 :: ts => simp [pairs] at h
  | r1 :: r2 :: rs, t1 :: t2 :: ts =>
    simp only [pairs] at h ⊢
    split at h
    · rename_i hl
      have := Except.ok.inj h
      subst this
      have hl' : (f r1 :: f r2 :: rs.map f).length = (t1 :: t2 :: ts).length := by simpa using hl
      refine (if_pos hl').trans ?_
      simp [List.zip_map_right, Prod.map]
    · cases h

/-- Everything about `infer` on valid input. -/
theorem infer_eq (b : Band) (ts : List (ℝ × ℝ)) (zmajor : List (List MC))
    (cons : List String) (minor : Option (List String)) (raising : Bool)
    (hc : (cons.map String.toLower).Nodup) (hrow : ∀ row ∈ zmajor, row.length = cons.length)
    (ps : List ((ℝ × ℝ) × List MC)) (hps : pairs ts zmajor = .ok ps) :
    infer b ts zmajor cons minor raising =
      if (b.cindex.filter (fun c => decide (c ∈ cons.map String.toLower))).length < b.need then
        (if raising then .error .exception else .ok (.scalar 0))
      else if (missing b cons minor).all (fun p => p.2 = 0) then
        .ok (.scalar 0)
      else .ok (.array (ps.map (fun p =>
        (inferred b cons minor p.1 p.2,
          (missing b cons minor).any
            (fun q => (b.constant q.2 (majors b cons p.2)).mask))))) := by
  obtain ⟨js, h1, _, h3, h4⟩ := pyMap_findMajor cons hc b.cindex
  have hz : pyMap (fun row => pyMap (pick row) (js.zip b.norm)) zmajor
      = .ok (zmajor.map (majors b cons)) :=
    pyMap_ok_of_forall (fun row hr => h4 b.norm row (hrow row hr))
  rw [infer, h1, ok_bind, hz, ok_bind, h3]
  split
  · rfl
  · dsimp only
    rw [indices_missing, List.all_map]
    have e : (fun (k : ℕ) => decide (k = 0)) ∘ (Prod.snd : String × ℕ → ℕ)
        = fun p => decide (p.2 = 0) := rfl
    rw [e]
    by_cases hh : ((missing b cons minor).all fun p => decide (p.2 = 0)) = true
    · rw [if_pos hh, if_pos hh]
    · rw [if_neg hh, if_neg hh, pairs_map _ _ _ _ hps, ok_bind]
      refine congrArg Except.ok (congrArg Res.array ?_)
      rw [List.map_map]
      refine List.map_congr_left ?_
      intro p _
      simp only [Function.comp, total, total_eq, zero_add, Bool.false_or, inferred,
        List.map_map, List.any_map]
      rfl

/-! ### C25: what is inferred -/

/-- On constituents that differ up to case, with enough of them, and when some constituent other
than the first of the band is to be inferred: one value per prediction, the sum of the waves of the
minor constituents that are requested and not provided, each once.  Missing from the full claim:
`C25_first_false`, `C25_case_false`. -/
theorem C25_value_partial (b : Band) (ts : List (ℝ × ℝ)) (zmajor : List (List MC))
    (cons : List String) (minor : Option (List String)) (raising : Bool)
    (hc : (cons.map String.toLower).Nodup) (hrow : ∀ row ∈ zmajor, row.length = cons.length)
    (ps : List ((ℝ × ℝ) × List MC)) (hps : pairs ts zmajor = .ok ps)
    (hneed : b.need ≤ (b.cindex.filter (fun c => decide (c ∈ cons.map String.toLower))).length)
    (hmin : ∃ k m, 0 < k ∧ b.minors[k]? = some m ∧ m ∉ cons ∧ Wanted minor m) :
    ∃ l, infer b ts zmajor cons minor raising = .ok (.array l) ∧
      l.map Prod.fst = ps.map (fun p => inferred b cons minor p.1 p.2) := by
  obtain ⟨k, m, hk, hm, h1, h2⟩ := hmin
  suffices h : infer b ts zmajor cons minor raising = .ok (.array (ps.map (fun p =>
        (inferred b cons minor p.1 p.2,
          (missing b cons minor).any
            (fun q => (b.constant q.2 (majors b cons p.2)).mask))))) by
    exact ⟨_, h, by simp [List.map_map, Function.comp]⟩
  · rw [infer_eq b ts zmajor cons minor raising hc hrow ps hps, if_neg (by omega), if_neg]
    intro hall
    rw [List.all_eq_true] at hall
    have hmem : (m, k) ∈ missing b cons minor := by
      rw [missing, List.mem_filter]
      refine ⟨?_, by simpa using ⟨h1, h2⟩⟩
      rw [List.mem_zipIdx_iff_getElem?]
      exact hm
    have := hall _ hmem
    simp only [decide_eq_true_eq] at this
    omega

/-- A band whose constants are linear in the majors. -/
def LinearBand (b : Band) : Prop :=
  ∀ (k : ℕ) (x y : ℝ) (z w : List MC), z.length = w.length →
    (b.constant k (combine x y z w)).re = x * (b.constant k z).re + y * (b.constant k w).re ∧
    (b.constant k (combine x y z w)).im = x * (b.constant k z).im + y * (b.constant k w).im

theorem zc_combine (x y : ℝ) (z w : List MC) (h : z.length = w.length) (i : ℕ) :
    (zc (combine x y z w) i).re = x * (zc z i).re + y * (zc w i).re ∧
    (zc (combine x y z w) i).im = x * (zc z i).im + y * (zc w i).im := by
  by_cases hi : i < z.length
  · have hw : i < w.length := by omega
    simp [zc, combine, List.getD_eq_getElem?_getD, List.getElem?_zipWith,
      List.getElem?_eq_getElem hi, List.getElem?_eq_getElem hw]
  · have hw : ¬ i < w.length := by omega
    simp [zc, combine, List.getD_eq_getElem?_getD, List.getElem?_zipWith,
      List.getElem?_eq_none (not_lt.mp hi), List.getElem?_eq_none (not_lt.mp hw)]

theorem linear_short (env : Env) (corr : String) : LinearBand (shortPeriod env corr) := by
  intro k x y z w h
  have hz := zc_combine x y z w h
  simp only [shortPeriod, unmask]
  have hs : ∀ k, (shortTable k (combine x y z w)).re
      = x * (shortTable k z).re + y * (shortTable k w).re ∧
      (shortTable k (combine x y z w)).im
      = x * (shortTable k z).im + y * (shortTable k w).im := by
    intro k
    unfold shortTable
    split <;> simp only [two, add, smul, (hz _).1, (hz _).2] <;> constructor <;> ring
  split
  · unfold fesTable
    split
    case _ => simp only [three, add, smul, (hz _).1, (hz _).2]; constructor <;> ring
    case _ => simp only [three, add, smul, (hz _).1, (hz _).2]; constructor <;> ring
    case _ => simp only [three, add, smul, (hz _).1, (hz _).2]; constructor <;> ring
    case _ => simp only [three, add, smul, (hz _).1, (hz _).2]; constructor <;> ring
    case _ => simp only [three, add, smul, (hz _).1, (hz _).2]; constructor <;> ring
    case _ => simp only [two, add, smul, (hz _).1, (hz _).2]; constructor <;> ring
    case _ => simp only [two, add, smul, (hz _).1, (hz _).2]; constructor <;> ring
    case _ => exact hs _
  · exact hs k

theorem linear_combine (o0 o1 o2 v x y : ℝ) (a0 a1 a2 b0 b1 b2 c0 c1 c2 : MC)
    (h0 : c0.re = x * a0.re + y * b0.re ∧ c0.im = x * a0.im + y * b0.im)
    (h1 : c1.re = x * a1.re + y * b1.re ∧ c1.im = x * a1.im + y * b1.im)
    (h2 : c2.re = x * a2.re + y * b2.re ∧ c2.im = x * a2.im + y * b2.im) :
    (linear o0 o1 o2 v c0 c1 c2).re
      = x * (linear o0 o1 o2 v a0 a1 a2).re + y * (linear o0 o1 o2 v b0 b1 b2).re ∧
    (linear o0 o1 o2 v c0 c1 c2).im
      = x * (linear o0 o1 o2 v a0 a1 a2).im + y * (linear o0 o1 o2 v b0 b1 b2).im := by
  unfold linear
  split
  · simp only [add, smul, sub, h0.1, h0.2, h1.1, h1.2]; constructor <;> ring
  · simp only [add, smul, sub, h1.1, h1.2, h2.1, h2.2]; constructor <;> ring

theorem munk_combine (A : List (ℝ × ℝ × ℝ)) (v x y : ℝ) (a0 a1 a2 b0 b1 b2 c0 c1 c2 : MC)
    (h0 : c0.re = x * a0.re + y * b0.re ∧ c0.im = x * a0.im + y * b0.im)
    (h1 : c1.re = x * a1.re + y * b1.re ∧ c1.im = x * a1.im + y * b1.im)
    (h2 : c2.re = x * a2.re + y * b2.re ∧ c2.im = x * a2.im + y * b2.im) :
    (munk A v c0 c1 c2).re = x * (munk A v a0 a1 a2).re + y * (munk A v b0 b1 b2).re ∧
    (munk A v c0 c1 c2).im = x * (munk A v a0 a1 a2).im + y * (munk A v b0 b1 b2).im := by
  simp only [munk, add, smul, unmask, h0.1, h0.2, h1.1, h1.2, h2.1, h2.2]
  constructor <;> ring

theorem interpolate_combine (method : String) (A : List (ℝ × ℝ × ℝ)) (o : List ℝ) (v x y : ℝ)
    (z w : List MC) (h : z.length = w.length) :
    (interpolate method A o v (combine x y z w)).re
      = x * (interpolate method A o v z).re + y * (interpolate method A o v w).re ∧
    (interpolate method A o v (combine x y z w)).im
      = x * (interpolate method A o v z).im + y * (interpolate method A o v w).im := by
  have hz := zc_combine x y z w h
  unfold interpolate
  split
  · exact linear_combine _ _ _ _ _ _ _ _ _ _ _ _ _ _ _ (hz 0) (hz 1) (hz 2)
  · exact munk_combine _ _ _ _ _ _ _ _ _ _ _ _ _ (hz 0) (hz 1) (hz 2)

theorem linear_semi (env : Env) (method : String) : LinearBand (semiDiurnal env method) := by
  intro k x y z w h
  have := interpolate_combine method semiMatrix [env.freq "n2", env.freq "m2", env.freq "s2"]
    (env.freq (["eps2", "2n2", "mu2", "nu2", "gamma2", "alpha2", "beta2", "delta2", "lambda2",
      "l2", "t2", "r2", "k2", "eta2"].getD k "")) x y z w h
  simp only [semiDiurnal, smul]
  rw [this.1, this.2]
  constructor <;> ring

theorem linear_diurnal (env : Env) (method : String) : LinearBand (diurnal env method) := by
  intro k x y z w h
  have := interpolate_combine method diurnalMatrix [env.freq "q1", env.freq "o1", env.freq "k1"]
    (env.freq (["2q1", "sigma1", "rho1", "tau1", "beta1", "m1a", "m1b", "chi1", "pi1", "p1",
      "psi1", "phi1", "theta1", "j1", "so1", "oo1", "ups1"].getD k "")) x y z w h
  simp only [diurnal, smul]
  rw [this.1, this.2]
  constructor <;> ring

theorem linear_long (env : Env) : LinearBand (longPeriod env) := by
  intro k x y z w h
  have hz := zc_combine x y z w h
  have := linear_combine (env.freq "node") (env.freq "mm") (env.freq "mf")
    (env.freq (["sa", "ssa", "sta", "msm", "msf", "mst", "mt", "msqm", "mq"].getD k ""))
    x y (zc z 0) (zc z 1) (zc z 2) (zc w 0) (zc w 1) (zc w 2) _ _ _ (hz 0) (hz 1) (hz 2)
  simp only [longPeriod, smul]
  rw [this.1, this.2]
  constructor <;> ring

theorem lookup_combine (x y : ℝ) (ks : List String) (z w : List MC)
    (hz : z.length = ks.length) (hw : w.length = ks.length) (c : String) :
    (∃ a b, (ks.zip z).lookup c = some a ∧ (ks.zip w).lookup c = some b ∧
      (ks.zip (combine x y z w)).lookup c = some
        ⟨x * a.re + y * b.re, x * a.im + y * b.im, a.mask || b.mask⟩) ∨
    ((ks.zip z).lookup c = none ∧ (ks.zip w).lookup c = none ∧
      (ks.zip (combine x y z w)).lookup c = none) := by
  induction ks generalizing z w with
  | nil => right; simp
  | cons k ks ih =>
    cases z with
    | nil => simp at hz
    | cons a z =>
      cases w with
      | nil => simp at hw
      | cons b w =>
        simp only [combine, List.zipWith_cons_cons, List.zip_cons_cons, List.lookup_cons]
        cases c == k with
        | true => left; exact ⟨a, b, rfl, rfl, rfl⟩
        | false => exact ih z w (by simpa using hz) (by simpa using hw)

/-- The inferred value is linear in the major constants, for the four bands of the code
(`linear_short`, `linear_semi`, `linear_diurnal`, `linear_long`). -/
theorem C25_linear (b : Band) (hb : LinearBand b) (cons : List String)
    (req : Option (List String)) (t : ℝ × ℝ) (x y : ℝ) (r s : List MC) (hr : r.length = cons.length) (hs : s.length = cons.length) :
    inferred b cons req t (combine x y r s)
      = x * inferred b cons req t r + y * inferred b cons req t s := by
  have hm : ∀ k, (b.constant k (majors b cons (combine x y r s))).re
        = x * (b.constant k (majors b cons r)).re + y * (b.constant k (majors b cons s)).re ∧
      (b.constant k (majors b cons (combine x y r s))).im
        = x * (b.constant k (majors b cons r)).im + y * (b.constant k (majors b cons s)).im := by
    intro k
    have key : majors b cons (combine x y r s)
        = combine x y (majors b cons r) (majors b cons s) := by
      unfold majors
      generalize b.cindex = cs
      generalize b.norm = ns
      induction cs generalizing ns with
      | nil => rfl
      | cons c cs ih =>
        cases ns with
        | nil => rfl
        | cons a ns =>
          simp only [List.zipWith_cons_cons, combine] at ih ⊢
          rw [ih ns]
          refine congrArg₂ List.cons ?_ rfl
          rcases lookup_combine x y (cons.map String.toLower) r s (by simpa using hr)
            (by simpa using hs) c with ⟨u, v, h1, h2, h3⟩ | ⟨h1, h2, h3⟩
          · rw [combine] at h3
            simp only [provided, h1, h2, h3, smul]
            congr 1 <;> ring
          · rw [combine] at h3
            simp only [provided, h1, h2, h3]
            simp
    rw [key]
    refine hb k x y _ _ ?_
    simp [majors]
  simp only [inferred, Spec.tide, List.map_map]
  induction missing b cons req with
  | nil => simp
  | cons p l ih =>
    simp only [List.map_cons, List.sum_cons, ih, Function.comp, wave, height_eq, (hm p.2).1,
      (hm p.2).2]
    ring

theorem C25_bands_linear (env : Env) (corr method : String) :
    LinearBand (shortPeriod env corr) ∧ LinearBand (semiDiurnal env method) ∧
      LinearBand (diurnal env method) ∧ LinearBand (longPeriod env) :=
  ⟨linear_short env corr, linear_semi env method, linear_diurnal env method, linear_long env⟩

/-- The majors of the short-period tables. -/
def eight : List String := ["q1", "o1", "p1", "k1", "n2", "m2", "s2", "k2"]

/-- Refuted: when only `2q1` is requested and the model does not provide it, nothing is inferred
(`np.any` of the index list `[0]`). -/
theorem C25_first_false (env : Env) (t : ℝ × ℝ) (row : List MC) (hrow : row.length = 8) :
    infer (shortPeriod env "OTIS") [t] [row] eight (some ["2q1"]) false = .ok (.scalar 0) ∧
    "2q1" ∉ eight ∧ "2q1" ∈ (shortPeriod env "OTIS").minors := by
  refine ⟨?_, by decide, by simp [shortPeriod]⟩
  rw [infer_eq _ _ _ _ _ _ (by decide +kernel) (by intro r hr; simp at hr; subst hr; exact hrow)
    [(t, row)] rfl]
  rw [if_neg (by
    have : (shortPeriod env "OTIS").cindex.filter (fun c => decide (c ∈ eight.map String.toLower))
      = eight := by simp only [shortPeriod]; decide +kernel
    rw [this]; simp [shortPeriod, eight])]
  have hx : missing (shortPeriod env "OTIS") eight (some ["2q1"]) = [("2q1", 0)] := by
    change List.filter (fun p => decide (p.1 ∉ eight ∧ Wanted (some ["2q1"]) p.1)) (["2q1", "sigma1", "rho1",
      "m1b", "m1", "chi1", "pi1", "phi1", "theta1", "j1", "oo1", "2n2", "mu2", "nu2", "lambda2",
      "l2", "l2b", "t2", "eps2", "eta2"].zipIdx) = _
    decide +kernel
  rw [hx]
  rfl

/-- An environment in which only `2n2` has a nonzero nodal factor. -/
noncomputable def env2n2 : Env where
  args := fun _ _ => ⟨0, 0, 0⟩
  margs := fun _ k => ⟨0, if k = 11 then 1 else 0, 0⟩
  freq := fun _ => 0
  tilt := fun _ => 1

/-- Refuted: a model that provides `2N2` (in capitals, which is accepted for the majors) still has
`2n2` inferred, and so counted twice. -/
theorem C25_case_false :
    ∃ (cons : List String) (row : List MC) (l : List MR),
      "2n2" ∈ cons.map String.toLower ∧ (cons.map String.toLower).Nodup ∧
      row.length = cons.length ∧
      infer (shortPeriod env2n2 "OTIS") [(0, 0)] [row] cons none false = .ok (.array l) ∧
      l.map Prod.fst = [0.264] := by
  refine ⟨eight ++ ["2N2"], [⟨0, 0, false⟩, ⟨0, 0, false⟩, ⟨0, 0, false⟩, ⟨0, 0, false⟩,
    ⟨1, 0, false⟩, ⟨0, 0, false⟩, ⟨0, 0, false⟩, ⟨0, 0, false⟩, ⟨0, 0, false⟩], ?_⟩
  set row : List MC := [⟨0, 0, false⟩, ⟨0, 0, false⟩, ⟨0, 0, false⟩, ⟨0, 0, false⟩,
    ⟨1, 0, false⟩, ⟨0, 0, false⟩, ⟨0, 0, false⟩, ⟨0, 0, false⟩, ⟨0, 0, false⟩] with hrow
  have hnd : ((eight ++ ["2N2"]).map String.toLower).Nodup := by decide +kernel
  have hlen : row.length = (eight ++ ["2N2"]).length := rfl
  obtain ⟨l, h1, h2⟩ := C25_value_partial (shortPeriod env2n2 "OTIS") [(0, 0)] [row]
    (eight ++ ["2N2"]) none false hnd (by intro r hr; simp at hr; subst hr; exact hlen)
    [((0, 0), row)] rfl
    (by
      have : (shortPeriod env2n2 "OTIS").cindex.filter
          (fun c => decide (c ∈ (eight ++ ["2N2"]).map String.toLower))
          = (shortPeriod env2n2 "OTIS").cindex := by simp only [shortPeriod]; decide +kernel
      rw [this]; simp [shortPeriod])
    ⟨11, "2n2", by decide, rfl, by decide, by decide⟩
  refine ⟨l, by decide +kernel, hnd, hlen, h1, ?_⟩
  rw [h2]
  have hm : missing (shortPeriod env2n2 "OTIS") (eight ++ ["2N2"]) none
      = (shortPeriod env2n2 "OTIS").minors.zipIdx := by
    simp only [missing, shortPeriod]; decide +kernel
  have hlow : (eight ++ ["2N2"]).map String.toLower = eight ++ ["2n2"] := by decide +kernel
  have hmaj : majors (shortPeriod env2n2 "OTIS") (eight ++ ["2N2"]) row = row := by
    simp only [majors, provided, hlow]
    simp only [shortPeriod, eight, hrow]
    simp [List.lookup, smul]
  simp only [List.map_cons, List.map_nil, inferred, hm, hmaj]
  simp only [shortPeriod, List.zipIdx_cons, List.zipIdx_nil, List.map_cons, List.map_nil,
    Spec.tide, wave, height_eq, env2n2]
  simp [shortTable, two, add, smul, unmask, zc, hrow]

/-! ### C26: admittance -/

/-- The complex admittance at a frequency. -/
noncomputable def admittance (o0 o1 o2 : ℝ) (z0 z1 z2 : MC) (w : ℝ) : ℂ :=
  (linear o0 o1 o2 w z0 z1 z2).val

theorem linear_low (o0 o1 o2 w : ℝ) (z0 z1 z2 : MC) (h01 : o0 < o1) (hw : w ≤ o1) :
    admittance o0 o1 o2 z0 z1 z2 w
      = z0.val + (((w - o0) / (o1 - o0) : ℝ) : ℂ) * (z1.val - z0.val) := by
  have hne : o1 - o0 ≠ 0 := by linarith
  rcases hw.lt_or_eq with h | h
  · rw [admittance, linear, if_pos ⟨h01, h⟩]
    apply Complex.ext <;> simp only [MC.val, add, smul, sub, Complex.add_re, Complex.add_im,
      Complex.re_ofReal_mul, Complex.im_ofReal_mul, Complex.sub_re, Complex.sub_im] <;> ring
  · subst h
    rw [admittance, linear, if_neg (fun h => lt_irrefl _ h.2), div_self hne]
    apply Complex.ext <;> simp [MC.val, add, smul, sub]

theorem linear_high (o0 o1 o2 w : ℝ) (z0 z1 z2 : MC) (hw : o1 ≤ w) :
    admittance o0 o1 o2 z0 z1 z2 w
      = z1.val + (((w - o1) / (o2 - o1) : ℝ) : ℂ) * (z2.val - z1.val) := by
  rw [admittance, linear, if_neg (fun h => absurd h.2 (not_lt.mpr hw))]
  apply Complex.ext <;> simp only [MC.val, add, smul, sub, Complex.add_re, Complex.add_im,
    Complex.re_ofReal_mul, Complex.im_ofReal_mul, Complex.sub_re, Complex.sub_im] <;> ring

/-- The interpolated admittance equals the given one at each pivot frequency. -/
theorem C26_pivots (o0 o1 o2 : ℝ) (z0 z1 z2 : MC) (h01 : o0 < o1) (h12 : o1 < o2) :
    admittance o0 o1 o2 z0 z1 z2 o0 = ⟨z0.re, z0.im⟩ ∧
    admittance o0 o1 o2 z0 z1 z2 o1 = ⟨z1.re, z1.im⟩ ∧
    admittance o0 o1 o2 z0 z1 z2 o2 = ⟨z2.re, z2.im⟩ := by
  have h2 : o2 - o1 ≠ 0 := by linarith
  refine ⟨?_, ?_, ?_⟩
  · rw [linear_low _ _ _ _ _ _ _ h01 h01.le]; simp [MC.val]
  · rw [linear_high _ _ _ _ _ _ _ le_rfl]; simp [MC.val]
  · rw [linear_high _ _ _ _ _ _ _ h12.le, div_self h2]; simp [MC.val]

/-- It is continuous in the frequency. -/
theorem C26_continuous (o0 o1 o2 : ℝ) (z0 z1 z2 : MC) (h01 : o0 < o1) :
    Continuous (admittance o0 o1 o2 z0 z1 z2) := by
  have e : admittance o0 o1 o2 z0 z1 z2 = fun w => if w ≤ o1
      then z0.val + (((w - o0) / (o1 - o0) : ℝ) : ℂ) * (z1.val - z0.val)
      else z1.val + (((w - o1) / (o2 - o1) : ℝ) : ℂ) * (z2.val - z1.val) := by
    funext w
    split
    · rename_i h; exact linear_low _ _ _ _ _ _ _ h01 h
    · rename_i h; exact linear_high _ _ _ _ _ _ _ (not_le.mp h).le
  rw [e]
  refine Continuous.if_le ?_ ?_ continuous_id continuous_const ?_
  · exact continuous_const.add ((Complex.continuous_ofReal.comp
      ((continuous_id.sub continuous_const).div_const _)).mul continuous_const)
  · exact continuous_const.add ((Complex.continuous_ofReal.comp
      ((continuous_id.sub continuous_const).div_const _)).mul continuous_const)
  · intro w hw
    have hw' : w = o1 := hw
    subst hw'
    have : (w - o0) ≠ 0 := by linarith
    rw [div_self this, sub_self, zero_div]
    simp

/-- Inside the band it lies on the segment between the neighbouring admittances. -/
theorem C26_between (o0 o1 o2 w : ℝ) (z0 z1 z2 : MC) (h01 : o0 < o1) (h12 : o1 < o2) :
    (o0 ≤ w → w ≤ o1 → admittance o0 o1 o2 z0 z1 z2 w ∈
      segment ℝ (⟨z0.re, z0.im⟩ : ℂ) ⟨z1.re, z1.im⟩) ∧
    (o1 ≤ w → w ≤ o2 → admittance o0 o1 o2 z0 z1 z2 w ∈
      segment ℝ (⟨z1.re, z1.im⟩ : ℂ) ⟨z2.re, z2.im⟩) := by
  have h1 : 0 < o1 - o0 := by linarith
  have h2 : 0 < o2 - o1 := by linarith
  constructor
  · intro ha hb
    rw [linear_low _ _ _ _ _ _ _ h01 hb]
    refine ⟨1 - (w - o0) / (o1 - o0), (w - o0) / (o1 - o0), ?_, ?_, by ring, ?_⟩
    · rw [sub_nonneg, div_le_one h1]; linarith
    · exact div_nonneg (by linarith) h1.le
    · rw [Complex.real_smul, Complex.real_smul]
      simp only [MC.val]
      push_cast
      ring
  · intro ha hb
    rw [linear_high _ _ _ _ _ _ _ ha]
    refine ⟨1 - (w - o1) / (o2 - o1), (w - o1) / (o2 - o1), ?_, ?_, by ring, ?_⟩
    · rw [sub_nonneg, div_le_one h2]; linarith
    · exact div_nonneg (by linarith) h2.le
    · rw [Complex.real_smul, Complex.real_smul]
      simp only [MC.val]
      push_cast
      ring

/-- A constant admittance is reproduced at every frequency. -/
theorem C26_constant (o0 o1 o2 w : ℝ) (z : MC) :
    admittance o0 o1 o2 z z z w = ⟨z.re, z.im⟩ := by
  rw [admittance, linear]
  split <;> apply Complex.ext <;> simp [MC.val, add, smul, sub]

/-- A case: between pivots 1, 2, 4 with admittances 0, 1, i, the admittance at 3 is (1+i)/2. -/
example : admittance 1 2 4 ⟨0, 0, false⟩ ⟨1, 0, false⟩ ⟨0, 1, false⟩ 3 = ⟨1 / 2, 1 / 2⟩ := by
  rw [linear_high _ _ _ _ _ _ _ (by norm_num)]
  apply Complex.ext <;> simp [MC.val] <;> norm_num

/-! ### C27: an array is returned -/

/-- Refuted: with a single constituent a float is returned, and adding it to the prediction
fails. -/
theorem C27_scalar_false (env : Env) (t : ℝ × ℝ) (z : MC) (tide : List MR) :
    inferMinor env [t] [[z]] ["m2"] "OTIS" "linear" none false = .ok (.scalar 0) ∧
    addMinor tide (.scalar 0) = .error .attributeError := by
  refine ⟨?_, rfl⟩
  have hs : ∀ b : Band, (b.cindex.filter (fun c => decide (c ∈ ["m2"]))).length < b.need →
      infer b [t] [[z]] ["m2"] none false = .ok (.scalar 0) := by
    intro b hb
    rw [infer_eq b [t] [[z]] ["m2"] none false (by decide) (by simp) [(t, [z])] rfl]
    rw [if_pos (by
      have : ["m2"].map String.toLower = ["m2"] := by decide +kernel
      rw [this]; exact hb)]
    rfl
  rw [inferMinor, if_neg (by decide), hs (shortPeriod env "OTIS") (by simp only [shortPeriod]; decide),
    ok_bind, ok_bind, hs (longPeriod env) (by simp only [longPeriod]; decide)]
  dsimp only
  rw [ok_bind]
  simp [Res.add]

/-- For valid input an array, with one value per prediction, is returned exactly when there are
enough majors and some constituent other than the first of the band is to be inferred. -/
theorem C27_band_array_partial (b : Band) (ts : List (ℝ × ℝ)) (zmajor : List (List MC))
    (cons : List String) (minor : Option (List String))
    (hc : (cons.map String.toLower).Nodup) (hrow : ∀ row ∈ zmajor, row.length = cons.length)
    (ps : List ((ℝ × ℝ) × List MC)) (hps : pairs ts zmajor = .ok ps) :
    (∃ l, infer b ts zmajor cons minor false = .ok (.array l) ∧ l.length = ps.length) ↔
      (b.need ≤ (b.cindex.filter (fun c => decide (c ∈ cons.map String.toLower))).length ∧
        ∃ k m, 0 < k ∧ b.minors[k]? = some m ∧ m ∉ cons ∧ Wanted minor m) := by
  constructor
  · rintro ⟨l, hl, _⟩
    rw [infer_eq b ts zmajor cons minor false hc hrow ps hps] at hl
    split at hl
    · simp at hl
    · rename_i h1
      split at hl
      · simp at hl
      · rename_i h2
        refine ⟨not_lt.mp h1, ?_⟩
        rw [List.all_eq_true] at h2
        simp only [not_forall] at h2
        obtain ⟨⟨m, k⟩, hp, hk⟩ := h2
        rw [missing, List.mem_filter, List.mem_zipIdx_iff_getElem?] at hp
        have hd := of_decide_eq_true hp.2
        refine ⟨k, m, ?_, hp.1, hd.1, hd.2⟩
        simp only [decide_eq_true_eq] at hk
        omega
  · rintro ⟨hneed, hmin⟩
    obtain ⟨l, h1, h2⟩ := C25_value_partial b ts zmajor cons minor false hc hrow ps hps hneed hmin
    refine ⟨l, h1, ?_⟩
    have := congrArg List.length h2
    simpa using this

theorem infer_scalar_or_array (b : Band) (ts : List (ℝ × ℝ)) (zmajor : List (List MC))
    (cons : List String) (minor : Option (List String))
    (hc : (cons.map String.toLower).Nodup) (hrow : ∀ row ∈ zmajor, row.length = cons.length)
    (ps : List ((ℝ × ℝ) × List MC)) (hps : pairs ts zmajor = .ok ps) :
    infer b ts zmajor cons minor false = .ok (.scalar 0) ∨
      ∃ l, infer b ts zmajor cons minor false = .ok (.array l) ∧ l.length = ps.length := by
  rw [infer_eq b ts zmajor cons minor false hc hrow ps hps]
  split
  · left; rfl
  · split
    · left; rfl
    · right; exact ⟨_, rfl, by simp⟩

/-- `infer_minor` returns one value per prediction, which can be added to the prediction, when the
short-period majors are there and something is to be inferred in the short-period band. -/
theorem C27_array_partial (env : Env) (ts : List (ℝ × ℝ)) (zmajor : List (List MC))
    (cons : List String) (corr method : String) (hcorr : corr ≠ "GOT")
    (minor : Option (List String)) (tide : List MR)
    (hc : (cons.map String.toLower).Nodup) (hrow : ∀ row ∈ zmajor, row.length = cons.length)
    (ps : List ((ℝ × ℝ) × List MC)) (hps : pairs ts zmajor = .ok ps)
    (hneed : 6 ≤ ((shortPeriod env corr).cindex.filter
      (fun c => decide (c ∈ cons.map String.toLower))).length)
    (hmin : ∃ k m, 0 < k ∧ (shortPeriod env corr).minors[k]? = some m ∧ m ∉ cons ∧
      Wanted minor m) (htide : tide.length = ps.length) :
    ∃ r out, inferMinor env ts zmajor cons corr method minor false = .ok r ∧
      addMinor tide r = .ok out ∧ out.length = ps.length := by
  obtain ⟨l, h1, h2⟩ := (C27_band_array_partial (shortPeriod env corr) ts zmajor cons minor hc hrow
    ps hps).mpr ⟨hneed, hmin⟩
  rw [inferMinor, if_neg hcorr, h1, ok_bind, ok_bind]
  rcases infer_scalar_or_array (longPeriod env) ts zmajor cons minor hc hrow ps hps with
    h | ⟨m, h, hm⟩
  · rw [h]
    dsimp only
    rw [ok_bind]
    refine ⟨_, _, rfl, rfl, ?_⟩
    simp [h2, htide]
  · rw [h]
    dsimp only
    rw [ok_bind]
    refine ⟨_, _, rfl, rfl, ?_⟩
    simp [h2, hm, htide]

/-- The eight majors meet the hypotheses of the theorems above. -/
example (env : Env) : (eight.map String.toLower).Nodup ∧
    6 ≤ ((shortPeriod env "OTIS").cindex.filter
      (fun c => decide (c ∈ eight.map String.toLower))).length ∧
    ∃ k m, 0 < k ∧ (shortPeriod env "OTIS").minors[k]? = some m ∧ m ∉ eight ∧
      Wanted none m := by
  refine ⟨by decide +kernel, ?_, 1, "sigma1", by decide, rfl, by decide, by decide⟩
  have : (shortPeriod env "OTIS").cindex.filter (fun c => decide (c ∈ eight.map String.toLower))
      = eight := by simp only [shortPeriod]; decide +kernel
  rw [this]
  decide

end Verif.Infer
