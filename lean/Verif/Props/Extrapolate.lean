import Verif.Model.Extrapolate
import Mathlib.Algebra.Order.BigOperators.Group.Finset
import Mathlib.Tactic.Linarith
/-!
Property C11: nearest-neighbour extrapolation.
-/
namespace Verif.Extrap
open Real

variable {n : ℕ} {V : Type}

/-- The distance is below the cutoff (`none` is infinite). -/
def Within (cutoff : Option ℝ) (d : ℝ) : Prop :=
  match cutoff with
  | none => True
  | some r => d < r

/-- What is assumed of scipy's kd-tree: a returned index is that of a closest tree point and its
distance is below the bound; nothing is returned only if no tree point is within the bound. -/
def KDSpec (query : Query n) : Prop :=
  ∀ (pts : List (Pt n)) (cutoff : Option ℝ) (p : Pt n),
    match query pts cutoff p with
    | some k => ∃ q, pts[k]? = some q ∧ Within cutoff (dist q p) ∧ ∀ r ∈ pts, dist q p ≤ dist r p
    | none => ∀ r ∈ pts, ¬ Within cutoff (dist r p)

/-- The specification of the property for one output point: either the value of a valid cell that
is at least as close as every other valid cell and within the cutoff, or masked with the fill
value when no valid cell is within the cutoff.  It mentions neither the box nor the batch. -/
def NearestSpec (cells : List (Node n V)) (fill : Option V) (cutoff : Option ℝ) (p : Pt n)
    (o : Out V) : Prop :=
  (o.masked = false ∧ ∃ c ∈ cells, c.valid = true ∧ o.val = c.val ∧ Within cutoff (dist c.pos p) ∧
    ∀ c' ∈ cells, c'.valid = true → dist c.pos p ≤ dist c'.pos p) ∨
  (o.masked = true ∧ o.val = fill ∧
    ∀ c' ∈ cells, c'.valid = true → ¬ Within cutoff (dist c'.pos p))

theorem abs_coord_le_dist (p q : Pt n) (i : Fin n) : |p i - q i| ≤ dist p q := by
  unfold dist
  rw [← sqrt_sq_eq_abs]
  apply sqrt_le_sqrt
  exact Finset.single_le_sum (f := fun j => (p j - q j) ^ 2) (fun j _ => sq_nonneg _)
    (Finset.mem_univ i)

theorem bmin_le (batch : List (Pt n)) (p : Pt n) (hp : p ∈ batch) (i : Fin n) :
    bmin batch i ≤ p i := by
  unfold bmin
  have hm : p i ∈ batch.map (fun p => p i) := List.mem_map.mpr ⟨p, hp, rfl⟩
  cases h : (batch.map (fun p => p i)).min? with
  | none => rw [List.min?_eq_none_iff] at h; rw [h] at hm; simp at hm
  | some a =>
    rw [List.min?_eq_some_iff] at h
    exact h.2 _ hm

theorem le_bmax (batch : List (Pt n)) (p : Pt n) (hp : p ∈ batch) (i : Fin n) :
    p i ≤ bmax batch i := by
  unfold bmax
  have hm : p i ∈ batch.map (fun p => p i) := List.mem_map.mpr ⟨p, hp, rfl⟩
  cases h : (batch.map (fun p => p i)).max? with
  | none => rw [List.max?_eq_none_iff] at h; rw [h] at hm; simp at hm
  | some a =>
    rw [List.max?_eq_some_iff] at h
    exact h.2 _ hm

/-- A cell within the cutoff of a requested point is inside the box. -/
theorem inBox_of_within (cutoff : Option ℝ) (batch : List (Pt n)) (p : Pt n) (hp : p ∈ batch)
    (c : Node n V) (h : Within cutoff (dist c.pos p)) : InBox cutoff batch c := by
  cases cutoff with
  | none => trivial
  | some r =>
    intro i
    have h1 := abs_le.mp (le_trans (abs_coord_le_dist c.pos p i) (le_of_lt h))
    have h2 := bmin_le batch p hp i
    have h3 := le_bmax batch p hp i
    have h4 : 0 ≤ r := le_trans (abs_nonneg _) (le_trans (abs_coord_le_dist c.pos p i) (le_of_lt h))
    constructor <;> linarith [h1.1, h1.2]

/-- C11: for every non-empty request, each output point satisfies the nearest-neighbour
specification with respect to all valid model cells: the box never changes the answer. -/
theorem C11_extrapolate_nearest (query : Query n) (hq : KDSpec query) (cells : List (Node n V))
    (fill : Option V) (cutoff : Option ℝ) (batch : List (Pt n)) (hb : batch ≠ []) :
    ∃ f : Pt n → Out V, extrapolate query cells fill cutoff batch = some (batch.map f) ∧
      ∀ p ∈ batch, NearestSpec cells fill cutoff p (f p) := by
  classical
  unfold extrapolate
  rw [if_neg hb]
  simp only
  set cand := cells.filter (fun c => c.valid && decide (InBox cutoff batch c)) with hcand
  have hmem : ∀ c, c ∈ cand ↔ c ∈ cells ∧ c.valid = true ∧ InBox cutoff batch c := by
    intro c
    rw [hcand, List.mem_filter]
    simp
  by_cases hc : cand = []
  · rw [if_pos hc]
    refine ⟨fun _ => { val := fill, masked := true }, rfl, fun p hp => Or.inr ⟨rfl, rfl, ?_⟩⟩
    intro c hcell hv hw
    have : c ∈ cand := (hmem c).mpr ⟨hcell, hv, inBox_of_within cutoff batch p hp c hw⟩
    rw [hc] at this
    simp at this
  · rw [if_neg hc]
    refine ⟨_, rfl, fun p hp => ?_⟩
    have hs := hq (cand.map (·.pos)) cutoff p
    cases hk : query (cand.map (·.pos)) cutoff p with
    | none =>
      rw [hk] at hs
      refine Or.inr ⟨rfl, rfl, ?_⟩
      intro c hcell hv hw
      exact hs c.pos (List.mem_map.mpr
        ⟨c, (hmem c).mpr ⟨hcell, hv, inBox_of_within cutoff batch p hp c hw⟩, rfl⟩) hw
    | some k =>
      rw [hk] at hs
      obtain ⟨q, hkq, hw, hmin⟩ := hs
      rw [List.getElem?_map] at hkq
      cases hck : cand[k]? with
      | none => rw [hck] at hkq; simp at hkq
      | some c =>
        rw [hck] at hkq
        simp only [Option.map_some, Option.some.injEq] at hkq
        subst hkq
        have hcm : c ∈ cand := List.mem_of_getElem? hck
        have hcm' := (hmem c).mp hcm
        simp only [hck]
        refine Or.inl ⟨rfl, c, hcm'.1, hcm'.2.1, rfl, hw, ?_⟩
        intro c' hc' hv'
        by_cases hin : InBox cutoff batch c'
        · exact hmin c'.pos (List.mem_map.mpr ⟨c', (hmem c').mpr ⟨hc', hv', hin⟩, rfl⟩)
        · have hnw : ¬ Within cutoff (dist c'.pos p) :=
            fun h => hin (inBox_of_within cutoff batch p hp c' h)
          cases cutoff with
          | none => exact absurd trivial hnw
          | some r =>
            exact le_trans (le_of_lt hw) (not_lt.mp hnw)

/-- C11: an extrapolated value never depends on the other requested points, except through the
choice among equally close cells: two requests containing the same point either both mask it or
both give values of valid cells at the same distance. -/
theorem C11_batch_independent (query : Query n) (hq : KDSpec query) (cells : List (Node n V))
    (fill : Option V) (cutoff : Option ℝ) (b1 b2 : List (Pt n)) (p : Pt n)
    (h1 : p ∈ b1) (h2 : p ∈ b2) :
    ∃ f1 f2 : Pt n → Out V, extrapolate query cells fill cutoff b1 = some (b1.map f1) ∧
      extrapolate query cells fill cutoff b2 = some (b2.map f2) ∧
      ((f1 p).masked = (f2 p).masked) ∧
      ((f1 p).masked = false → ∃ c1 ∈ cells, ∃ c2 ∈ cells, c1.valid = true ∧ c2.valid = true ∧
        (f1 p).val = c1.val ∧ (f2 p).val = c2.val ∧ dist c1.pos p = dist c2.pos p) := by
  obtain ⟨f1, e1, s1⟩ := C11_extrapolate_nearest query hq cells fill cutoff b1
    (List.ne_nil_of_mem h1)
  obtain ⟨f2, e2, s2⟩ := C11_extrapolate_nearest query hq cells fill cutoff b2
    (List.ne_nil_of_mem h2)
  refine ⟨f1, f2, e1, e2, ?_⟩
  rcases s1 p h1 with ⟨m1, c1, hc1, v1, e1, w1, n1⟩ | ⟨m1, _, n1⟩
  · rcases s2 p h2 with ⟨m2, c2, hc2, v2, e2, w2, n2⟩ | ⟨m2, _, n2⟩
    · refine ⟨by rw [m1, m2], fun _ => ⟨c1, hc1, c2, hc2, v1, v2, e1, e2, ?_⟩⟩
      exact le_antisymm (n1 c2 hc2 v2) (n2 c1 hc1 v1)
    · exact absurd w1 (n2 c1 hc1 v1)
  · rcases s2 p h2 with ⟨m2, c2, hc2, v2, e2, w2, n2⟩ | ⟨m2, _, n2⟩
    · exact absurd w2 (n1 c2 hc2 v2)
    · exact ⟨by rw [m1, m2], fun h => by rw [m1] at h; simp at h⟩

/-- A function meeting the kd-tree assumption exists (an exhaustive search), so the hypothesis
of the theorems is satisfiable. -/
theorem kdspec_satisfiable : ∃ query : Query n, KDSpec query := by
  classical
  have hex : ∀ (pts : List (Pt n)) (cutoff : Option ℝ) (p : Pt n), ∃ r : Option ℕ,
      match r with
      | some k => ∃ q, pts[k]? = some q ∧ Within cutoff (dist q p) ∧ ∀ r ∈ pts, dist q p ≤ dist r p
      | none => ∀ r ∈ pts, ¬ Within cutoff (dist r p) := by
    intro pts cutoff p
    by_cases h : ∃ q ∈ pts, Within cutoff (dist q p)
    · obtain ⟨q0, hq0, hw0⟩ := h
      obtain ⟨q, hq, hmin⟩ : ∃ q ∈ pts, ∀ r ∈ pts, dist q p ≤ dist r p := by
        have hne : pts ≠ [] := List.ne_nil_of_mem hq0
        clear hw0 hq0
        induction pts with
        | nil => exact absurd rfl hne
        | cons a t ih =>
          by_cases ht : t = []
          · subst ht; exact ⟨a, by simp, by simp⟩
          · obtain ⟨q, hq, hm⟩ := ih ht
            by_cases hle : dist a p ≤ dist q p
            · refine ⟨a, by simp, fun r hr => ?_⟩
              rcases List.mem_cons.mp hr with rfl | hr
              · exact le_refl _
              · exact le_trans hle (hm r hr)
            · refine ⟨q, List.mem_cons_of_mem _ hq, fun r hr => ?_⟩
              rcases List.mem_cons.mp hr with rfl | hr
              · exact (not_le.mp hle).le
              · exact hm r hr
      obtain ⟨k, hk⟩ := List.mem_iff_getElem?.mp hq
      refine ⟨some k, q, hk, ?_, hmin⟩
      cases cutoff with
      | none => trivial
      | some r => exact lt_of_le_of_lt (hmin q0 hq0) hw0
    · exact ⟨none, fun r hr hw => h ⟨r, hr, hw⟩⟩
  choose f hf using hex
  exact ⟨f, hf⟩

example : ∃ query : Query 3, KDSpec query := kdspec_satisfiable

end Verif.Extrap
