import Verif.Model.Nodal
import Verif.Spec.Compound
import Mathlib.Tactic.Ring
import Mathlib.Tactic.Linarith

/-!
# Lemmas on the chain of nodal corrections
-/

namespace Verif.Nodal

/-- The names that occur as parents. -/
def bases : List String := ["o1", "k1", "oo1", "q1", "j1", "k2", "m2", "l2"]

/-- The branch is not a compound one. -/
def Rule.plain : Rule → Bool
  | .compound _ => false
  | _ => true

/-- The parents of a compound branch. -/
def Rule.parents : Rule → List Parent
  | .compound ps => ps
  | _ => []

/-! ## The first applicable branch, computed once for all types of corrections -/

/-- The branches of a name in order, up to the first without a condition, leaving out those for
`perth3` if `skip`. -/
def cands (skip : Bool) (c : String) : List Branch → List (Cond × Rule)
  | [] => []
  | b :: l =>
    if b.names.mem c && !(skip && b.cond == .perth3) then
      (b.cond, b.rule) :: (if b.cond == .always then [] else cands skip c l)
    else cands skip c l

/-- The first of them whose condition holds. -/
def pick (k : Cfg) (l : List (Cond × Rule)) : Rule :=
  match l.find? (fun b => b.1.holds k) with
  | some b => b.2
  | none => defaultRule

theorem pick_cands (k : Cfg) (c : String) (skip : Bool) (hs : skip = true → k.perth3 = false) :
    ∀ l : List Branch, pick k (cands skip c l) =
      match l.find? (fun b => b.names.mem c && b.cond.holds k) with
      | some b => b.rule
      | none => defaultRule
  | [] => rfl
  | b :: l => by
    unfold cands
    by_cases hm : b.names.mem c = true
    · by_cases hk : (skip && b.cond == .perth3) = true
      · have hf : b.cond.holds k = false := by
          simp only [Bool.and_eq_true, beq_iff_eq] at hk
          rw [hk.2]; exact hs hk.1
        simp only [hm, hk, Bool.not_true, Bool.and_false, Bool.false_eq_true, if_false]
        rw [pick_cands k c skip hs l, List.find?_cons]
        simp [hf]
      · simp only [Bool.not_eq_true] at hk
        simp only [hm, hk, Bool.not_false, Bool.and_true, if_true]
        unfold pick
        rw [List.find?_cons, List.find?_cons]
        by_cases hh : b.cond.holds k = true
        · simp [hh, hm]
        · simp only [Bool.not_eq_true] at hh
          have hal : (b.cond == Cond.always) = false := by
            cases hb : b.cond <;> simp_all [Cond.holds]
          simp only [hh, hm, hal, Bool.and_false, Bool.false_eq_true, if_false]
          exact pick_cands k c skip hs l
    · simp only [Bool.not_eq_true] at hm
      simp only [hm, Bool.false_and, Bool.false_eq_true, if_false]
      rw [pick_cands k c skip hs l, List.find?_cons]
      simp [hm]

theorem rule_eq_pick (k : Cfg) (c : String) (skip : Bool) (hs : skip = true → k.perth3 = false) :
    rule k c = pick k (cands skip c chain) := by
  rw [pick_cands k c skip hs]; rfl

theorem chain_parents : ∀ b ∈ chain, ∀ q ∈ b.rule.parents, q.name ∈ bases := by
  decide +kernel

theorem bases_plain : ∀ c ∈ bases, ∀ b ∈ cands false c chain, b.2.plain = true := by
  decide +kernel

theorem rule_cases (k : Cfg) (c : String) :
    rule k c = defaultRule ∨ ∃ b ∈ chain, b.names.mem c = true ∧ rule k c = b.rule := by
  unfold rule
  cases h : chain.find? (fun b => b.names.mem c && b.cond.holds k) with
  | none => exact Or.inl rfl
  | some b =>
    refine Or.inr ⟨b, List.mem_of_find?_eq_some h, ?_, rfl⟩
    have := List.find?_some h
    simp only [Bool.and_eq_true] at this
    exact this.1

theorem rule_parents (k : Cfg) (c : String) : ∀ q ∈ (rule k c).parents, q.name ∈ bases := by
  rcases rule_cases k c with h | ⟨b, hb, _, h⟩
  · rw [h]; intro q hq; simp [defaultRule, Rule.parents] at hq
  · rw [h]; exact chain_parents b hb

theorem rule_base_plain (k : Cfg) {c : String} (hc : c ∈ bases) : (rule k c).plain = true := by
  rw [rule_eq_pick k c false (by simp)]
  unfold pick
  cases h : (cands false c chain).find? (fun b => b.1.holds k) with
  | none => rfl
  | some b => exact bases_plain c hc b (List.mem_of_find?_eq_some h)

/-- The corrections of one constituent. -/
noncomputable def one (k : Cfg) (n p : ℝ) (c : String) : ℝ × ℝ :=
  match rule k c with
  | .compound ps => compose ps (ps.map fun q => (rule k q.name).eval n p)
  | r => r.eval n p

theorem one_plain (k : Cfg) (n p : ℝ) {c : String} (h : (rule k c).plain = true) :
    one k n p c = (rule k c).eval n p := by
  unfold one
  cases hr : rule k c <;> simp_all [Rule.plain]

theorem mapM_some {α β : Type} (f : α → Option β) (g : α → β) :
    ∀ l : List α, (∀ a ∈ l, f a = some (g a)) → l.mapM f = some (l.map g)
  | [], _ => rfl
  | a :: l, h => by
    rw [List.mapM_cons, h a (by simp), mapM_some f g l fun b hb => h b (by simp [hb])]
    rfl

theorem nodal_bases (k : Cfg) (n p : ℝ) (fuel : ℕ) (cs : List String) (h : ∀ c ∈ cs, c ∈ bases) :
    nodal (fuel + 1) k n p cs = some (cs.map fun c => (rule k c).eval n p) := by
  unfold nodal
  refine mapM_some _ _ cs fun c hc => ?_
  have := rule_base_plain k (h c hc)
  cases hr : rule k c <;> simp_all [Rule.plain]

theorem nodal_eq (k : Cfg) (n p : ℝ) (fuel : ℕ) (cs : List String) :
    nodal (fuel + 2) k n p cs = some (cs.map (one k n p)) := by
  unfold nodal
  refine mapM_some _ _ cs fun c _ => ?_
  have hp := rule_parents k c
  unfold one
  cases hr : rule k c with
  | compound ps =>
    rw [hr] at hp
    have hb : ∀ x ∈ ps.map Parent.name, x ∈ bases := by
      intro x hx
      obtain ⟨q, hq, rfl⟩ := List.mem_map.mp hx
      exact hp q hq
    simp only [nodal_bases k n p fuel _ hb, Option.map_some, List.map_map]
    rfl
  | _ => rfl

/-! ## Regrouping sums and products by parent -/

/-- Total of the multiples of `b`. -/
def total (l : List (String × ℤ)) (b : String) : ℤ :=
  ((l.filter fun q => q.1 == b).map Prod.snd).sum

/-- Total of the powers of `b`. -/
def power (l : List (String × ℕ)) (b : String) : ℕ :=
  ((l.filter fun q => q.1 == b).map Prod.snd).sum

theorem bases_nodup : bases.Nodup := by decide +kernel

theorem sum_single (U : String → ℝ) (m : ℝ) (a : String) : ∀ B : List String, B.Nodup →
    a ∈ B → (B.map fun b => (if a = b then m else 0) * U b).sum = m * U a
  | [], _, h => by simp at h
  | b :: B, hn, h => by
    rw [List.nodup_cons] at hn
    rw [List.map_cons, List.sum_cons]
    by_cases hab : a = b
    · subst hab
      have : (B.map fun b => (if a = b then m else 0) * U b) = B.map fun _ => (0 : ℝ) := by
        refine List.map_congr_left fun x hx => ?_
        have : a ≠ x := fun e => hn.1 (e ▸ hx)
        simp [this]
      rw [this]; simp
    · have hB : a ∈ B := by
        rcases List.mem_cons.mp h with e | e
        · exact absurd e hab
        · exact e
      rw [sum_single U m a B hn.2 hB]; simp [hab]

theorem sum_regroup (U : String → ℝ) : ∀ l : List (String × ℤ), (∀ q ∈ l, q.1 ∈ bases) →
    (l.map fun q => (q.2 : ℝ) * U q.1).sum = (bases.map fun b => (total l b : ℝ) * U b).sum
  | [], _ => by simp [total]
  | q :: l, h => by
    have ht : ∀ b, (total (q :: l) b : ℝ) = (if q.1 = b then (q.2 : ℝ) else 0) + total l b := by
      intro b
      unfold total
      by_cases hb : q.1 = b
      · simp [List.filter_cons, hb]
      · simp [List.filter_cons, hb]
    rw [List.map_cons, List.sum_cons, sum_regroup U l fun r hr => h r (by simp [hr]),
      ← sum_single U q.2 q.1 bases bases_nodup (h q (by simp)), ← List.sum_map_add]
    congr 1
    refine List.map_congr_left fun b _ => ?_
    rw [ht]; ring

theorem prod_single (F : String → ℝ) (m : ℕ) (a : String) : ∀ B : List String, B.Nodup →
    a ∈ B → (B.map fun b => F b ^ (if a = b then m else 0)).prod = F a ^ m
  | [], _, h => by simp at h
  | b :: B, hn, h => by
    rw [List.nodup_cons] at hn
    rw [List.map_cons, List.prod_cons]
    by_cases hab : a = b
    · subst hab
      have : (B.map fun b => F b ^ (if a = b then m else 0)) = B.map fun _ => (1 : ℝ) := by
        refine List.map_congr_left fun x hx => ?_
        have : a ≠ x := fun e => hn.1 (e ▸ hx)
        simp [this]
      rw [this]; simp
    · have hB : a ∈ B := by
        rcases List.mem_cons.mp h with e | e
        · exact absurd e hab
        · exact e
      rw [prod_single F m a B hn.2 hB]; simp [hab]

theorem prod_regroup (F : String → ℝ) : ∀ l : List (String × ℕ), (∀ q ∈ l, q.1 ∈ bases) →
    (l.map fun q => F q.1 ^ q.2).prod = (bases.map fun b => F b ^ power l b).prod
  | [], _ => by simp [power]
  | q :: l, h => by
    have ht : ∀ b, power (q :: l) b = (if q.1 = b then q.2 else 0) + power l b := by
      intro b
      unfold power
      by_cases hb : q.1 = b
      · simp [List.filter_cons, hb]
      · simp [List.filter_cons, hb]
    rw [List.map_cons, List.prod_cons, prod_regroup F l fun r hr => h r (by simp [hr]),
      ← prod_single F q.2 q.1 bases bases_nodup (h q (by simp)), ← List.prod_map_mul]
    congr 1
    refine List.map_congr_left fun b _ => ?_
    rw [ht, pow_add]

/-- The modulated parents of a compound tide of the specification. -/
def specMuls (dec : List (ℤ × String)) : List (String × ℤ) :=
  dec.filterMap fun q => (Spec.modulated q.2).map fun b => (b, q.1)

theorem angle_eq (U : String → ℝ) : ∀ dec : List (ℤ × String),
    Spec.angle U dec = ((specMuls dec).map fun q => (q.2 : ℝ) * U q.1).sum
  | [] => rfl
  | q :: l => by
    have ih := angle_eq U l
    unfold Spec.angle at ih ⊢
    rw [List.map_cons, List.sum_cons, ih]
    unfold specMuls
    cases h : Spec.modulated q.2 <;> simp [List.filterMap_cons, h]

theorem factor_eq (F : String → ℝ) : ∀ dec : List (ℤ × String),
    Spec.factor F dec =
      (((specMuls dec).map fun q => (q.1, q.2.natAbs)).map fun q => F q.1 ^ q.2).prod
  | [] => rfl
  | q :: l => by
    have ih := factor_eq F l
    unfold Spec.factor at ih ⊢
    rw [List.map_cons, List.prod_cons, ih]
    unfold specMuls
    cases h : Spec.modulated q.2 <;> simp [List.filterMap_cons, h]

/-- The parents of a compound branch agree with a decomposition. -/
def agrees (ps : List Parent) (dec : List (ℤ × String)) : Bool :=
  ps.all (fun q => bases.contains q.name) &&
  (specMuls dec).all (fun q => bases.contains q.1) &&
  bases.all fun b =>
    total (ps.map fun q => (q.name, q.mul)) b == total (specMuls dec) b &&
    power (ps.map fun q => (q.name, q.pow)) b ==
      power ((specMuls dec).map fun q => (q.1, q.2.natAbs)) b

theorem compose_of_agrees (G : String → ℝ × ℝ) {ps : List Parent} {dec : List (ℤ × String)}
    (h : agrees ps dec = true) :
    compose ps (ps.map fun q => G q.name) =
      (Spec.angle (fun b => (G b).1) dec, Spec.factor (fun b => (G b).2) dec) := by
  unfold agrees at h
  simp only [Bool.and_eq_true, List.all_eq_true, List.contains_iff_mem, beq_iff_eq] at h
  obtain ⟨⟨h1, h2⟩, h3⟩ := h
  have hz : ps.zip (ps.map fun q => G q.name) = ps.map fun q => (q, G q.name) := by
    clear h1 h3
    induction ps with
    | nil => rfl
    | cons a l ih => simp [ih]
  unfold compose
  rw [hz, List.map_map, List.map_map, angle_eq, factor_eq]
  refine Prod.ext ?_ ?_
  · have := sum_regroup (fun b => (G b).1) (ps.map fun q => (q.name, q.mul)) (by
      intro q hq
      obtain ⟨a, ha, rfl⟩ := List.mem_map.mp hq
      exact h1 a ha)
    rw [List.map_map] at this
    show (ps.map _).sum = _
    refine Eq.trans ?_ (this.trans ?_)
    · rfl
    dsimp only
    rw [sum_regroup (fun b => (G b).1) (specMuls dec) h2]
    congr 1
    exact List.map_congr_left fun b hb => by rw [(h3 b hb).1]
  · have := prod_regroup (fun b => (G b).2) (ps.map fun q => (q.name, q.pow)) (by
      intro q hq
      obtain ⟨a, ha, rfl⟩ := List.mem_map.mp hq
      exact h1 a ha)
    rw [List.map_map] at this
    show (ps.map _).prod = _
    refine Eq.trans ?_ (this.trans ?_)
    · rfl
    dsimp only
    rw [prod_regroup (fun b => (G b).2) ((specMuls dec).map fun q => (q.1, q.2.natAbs)) (by
      intro q hq
      obtain ⟨a, ha, rfl⟩ := List.mem_map.mp hq
      exact h2 a ha)]
    congr 1
    exact List.map_congr_left fun b hb => by rw [(h3 b hb).2]

end Verif.Nodal
