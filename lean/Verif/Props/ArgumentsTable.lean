import Verif.Model.ArgumentsTable
import Verif.Spec.Phases
import Verif.Props.Arguments
/-!
C132: the phases of sixty constituents are the formulas in print.
-/
namespace Verif.Astro
open Real

/-- The coefficients give the formula. -/
def Fits (o : Bool) (e : String × (ℝ → ℝ → ℝ → ℝ → ℝ → ℝ)) : Prop :=
  ∃ r, Coef.lookup o e.1 = some r ∧ ∀ T s h p n pp : ℝ, dot [T - s + h, s, h, p, n, pp, 90] r = e.2 T s h p pp

theorem found (o : Bool) {c : String} {f : ℝ → ℝ → ℝ → ℝ → ℝ → ℝ} {r : List ℤ} (hc : c ≠ "s1")
    (h : Coef.table.lookup c = some r)
    (hr : ∀ T s h p n pp : ℝ, dot [T - s + h, s, h, p, n, pp, 90] r = f T s h p pp) : Fits o (c, f) := by
  refine ⟨r, ?_, hr⟩
  rw [Coef.lookup, if_neg (by simp [hc])]
  exact h

theorem phases_fit (o : Bool) : ∀ e ∈ Spec.phases o, Fits o e := by
  simp only [Spec.phases, List.forall_mem_cons]
  exact ⟨
    found o (r := [0, 0, 1, 0, 0, -1, 0]) (by decide +kernel) (by decide +kernel) (by intro T s h p n pp; simp [dot]; ring),
    found o (r := [0, 0, 2, 0, 0, 0, 0]) (by decide +kernel) (by decide +kernel) (by intro T s h p n pp; simp [dot]; ring),
    found o (r := [0, 1, 0, -1, 0, 0, 0]) (by decide +kernel) (by decide +kernel) (by intro T s h p n pp; simp [dot]; ring),
    found o (r := [0, 2, -2, 0, 0, 0, 0]) (by decide +kernel) (by decide +kernel) (by intro T s h p n pp; simp [dot]; ring),
    found o (r := [0, 2, 0, 0, 0, 0, 0]) (by decide +kernel) (by decide +kernel) (by intro T s h p n pp; simp [dot]; ring),
    found o (r := [0, 3, 0, -1, 0, 0, 0]) (by decide +kernel) (by decide +kernel) (by intro T s h p n pp; simp [dot]; ring),
    found o (r := [1, -4, 2, 1, 0, 0, -1]) (by decide +kernel) (by decide +kernel) (by intro T s h p n pp; simp [dot]; ring),
    found o (r := [1, -3, 0, 2, 0, 0, -1]) (by decide +kernel) (by decide +kernel) (by intro T s h p n pp; simp [dot]; ring),
    found o (r := [1, -3, 2, 0, 0, 0, -1]) (by decide +kernel) (by decide +kernel) (by intro T s h p n pp; simp [dot]; ring),
    found o (r := [1, -2, 0, 1, 0, 0, -1]) (by decide +kernel) (by decide +kernel) (by intro T s h p n pp; simp [dot]; ring),
    found o (r := [1, -2, 2, -1, 0, 0, -1]) (by decide +kernel) (by decide +kernel) (by intro T s h p n pp; simp [dot]; ring),
    found o (r := [1, -1, 0, 0, 0, 0, -1]) (by decide +kernel) (by decide +kernel) (by intro T s h p n pp; simp [dot]; ring),
    found o (r := [1, -1, 2, 0, 0, 0, 1]) (by decide +kernel) (by decide +kernel) (by intro T s h p n pp; simp [dot]; ring),
    found o (r := [1, 0, 0, 0, 0, 0, 1]) (by decide +kernel) (by decide +kernel) (by intro T s h p n pp; simp [dot]),
    found o (r := [1, 0, 2, -1, 0, 0, 1]) (by decide +kernel) (by decide +kernel) (by intro T s h p n pp; simp [dot]; ring),
    found o (r := [1, 1, -3, 0, 0, 1, -1]) (by decide +kernel) (by decide +kernel) (by intro T s h p n pp; simp [dot]; ring),
    found o (r := [1, 1, -2, 0, 0, 0, -1]) (by decide +kernel) (by decide +kernel) (by intro T s h p n pp; simp [dot]; ring),
    ⟨[1, 1, -1, 0, 0, 0, if o then 1 else 2], by cases o <;> decide +kernel, by cases o <;> intro T s h p n pp <;> simp [dot] <;> ring⟩,
    found o (r := [1, 1, 0, 0, 0, 0, 1]) (by decide +kernel) (by decide +kernel) (by intro T s h p n pp; simp [dot]; ring),
    found o (r := [1, 1, 1, 0, 0, -1, 1]) (by decide +kernel) (by decide +kernel) (by intro T s h p n pp; simp [dot]; ring),
    found o (r := [1, 1, 2, 0, 0, 0, 1]) (by decide +kernel) (by decide +kernel) (by intro T s h p n pp; simp [dot]; ring),
    found o (r := [1, 2, -2, 1, 0, 0, 1]) (by decide +kernel) (by decide +kernel) (by intro T s h p n pp; simp [dot]; ring),
    found o (r := [1, 2, 0, -1, 0, 0, 1]) (by decide +kernel) (by decide +kernel) (by intro T s h p n pp; simp [dot]; ring),
    found o (r := [1, 3, 0, 0, 0, 0, 1]) (by decide +kernel) (by decide +kernel) (by intro T s h p n pp; simp [dot]; ring),
    found o (r := [2, -2, 0, 2, 0, 0, 0]) (by decide +kernel) (by decide +kernel) (by intro T s h p n pp; simp [dot]; ring),
    found o (r := [2, -2, 2, 0, 0, 0, 0]) (by decide +kernel) (by decide +kernel) (by intro T s h p n pp; simp [dot]; ring),
    found o (r := [2, -1, 0, 1, 0, 0, 0]) (by decide +kernel) (by decide +kernel) (by intro T s h p n pp; simp [dot]; ring),
    found o (r := [2, -1, 2, -1, 0, 0, 0]) (by decide +kernel) (by decide +kernel) (by intro T s h p n pp; simp [dot]; ring),
    found o (r := [2, 0, -1, 0, 0, 1, 0]) (by decide +kernel) (by decide +kernel) (by intro T s h p n pp; simp [dot]; ring),
    found o (r := [2, 0, 0, 0, 0, 0, 0]) (by decide +kernel) (by decide +kernel) (by intro T s h p n pp; simp [dot]; ring),
    found o (r := [2, 0, 1, 0, 0, -1, 0]) (by decide +kernel) (by decide +kernel) (by intro T s h p n pp; simp [dot]; ring),
    found o (r := [2, 1, -2, 1, 0, 0, 2]) (by decide +kernel) (by decide +kernel) (by intro T s h p n pp; simp [dot]; ring),
    found o (r := [2, 1, 0, -1, 0, 0, 2]) (by decide +kernel) (by decide +kernel) (by intro T s h p n pp; simp [dot]; ring),
    found o (r := [2, 2, -3, 0, 0, 1, 0]) (by decide +kernel) (by decide +kernel) (by intro T s h p n pp; simp [dot]; ring),
    found o (r := [2, 2, -2, 0, 0, 0, 0]) (by decide +kernel) (by decide +kernel) (by intro T s h p n pp; simp [dot]; ring),
    found o (r := [2, 2, -1, 0, 0, -1, 2]) (by decide +kernel) (by decide +kernel) (by intro T s h p n pp; simp [dot]; ring),
    found o (r := [2, 2, 0, 0, 0, 0, 0]) (by decide +kernel) (by decide +kernel) (by intro T s h p n pp; simp [dot]; ring),
    found o (r := [2, 3, 0, -1, 0, 0, 0]) (by decide +kernel) (by decide +kernel) (by intro T s h p n pp; simp [dot]; ring),
    found o (r := [2, -3, 2, 1, 0, 0, 0]) (by decide +kernel) (by decide +kernel) (by intro T s h p n pp; simp [dot]; ring),
    found o (r := [2, 4, -4, 0, 0, 0, 0]) (by decide +kernel) (by decide +kernel) (by intro T s h p n pp; simp [dot]; ring),
    found o (r := [3, 0, 0, 0, 0, 0, 0]) (by decide +kernel) (by decide +kernel) (by intro T s h p n pp; simp [dot]; ring),
    found o (r := [3, 1, 0, 0, 0, 0, 1]) (by decide +kernel) (by decide +kernel) (by intro T s h p n pp; simp [dot]; ring),
    found o (r := [3, 3, -3, 0, 0, 0, 0]) (by decide +kernel) (by decide +kernel) (by intro T s h p n pp; simp [dot]; ring),
    found o (r := [4, -1, 0, 1, 0, 0, 0]) (by decide +kernel) (by decide +kernel) (by intro T s h p n pp; simp [dot]; ring),
    found o (r := [4, 0, 0, 0, 0, 0, 0]) (by decide +kernel) (by decide +kernel) (by intro T s h p n pp; simp [dot]; ring),
    found o (r := [4, 2, -2, 0, 0, 0, 0]) (by decide +kernel) (by decide +kernel) (by intro T s h p n pp; simp [dot]; ring),
    found o (r := [4, 2, 0, 0, 0, 0, 0]) (by decide +kernel) (by decide +kernel) (by intro T s h p n pp; simp [dot]; ring),
    found o (r := [4, 4, -4, 0, 0, 0, 0]) (by decide +kernel) (by decide +kernel) (by intro T s h p n pp; simp [dot]; ring),
    found o (r := [5, 5, -5, 0, 0, 0, 0]) (by decide +kernel) (by decide +kernel) (by intro T s h p n pp; simp [dot]; ring),
    found o (r := [6, 0, 0, 0, 0, 0, 0]) (by decide +kernel) (by decide +kernel) (by intro T s h p n pp; simp [dot]; ring),
    found o (r := [6, 6, -6, 0, 0, 0, 0]) (by decide +kernel) (by decide +kernel) (by intro T s h p n pp; simp [dot]; ring),
    found o (r := [7, 7, -7, 0, 0, 0, 0]) (by decide +kernel) (by decide +kernel) (by intro T s h p n pp; simp [dot]; ring),
    found o (r := [8, 8, -8, 0, 0, 0, 0]) (by decide +kernel) (by decide +kernel) (by intro T s h p n pp; simp [dot]; ring),
    found o (r := [8, 0, 0, 0, 0, 0, 0]) (by decide +kernel) (by decide +kernel) (by intro T s h p n pp; simp [dot]; ring),
    found o (r := [2, 0, 2, 0, 0, 0, 0]) (by decide +kernel) (by decide +kernel) (by intro T s h p n pp; simp [dot]; ring),
    found o (r := [0, 4, -2, 0, 0, 0, 0]) (by decide +kernel) (by decide +kernel) (by intro T s h p n pp; simp [dot]; ring),
    found o (r := [0, 3, 0, -1, 0, 0, 0]) (by decide +kernel) (by decide +kernel) (by intro T s h p n pp; simp [dot]; ring),
    found o (r := [4, -2, 0, 2, 0, 0, 0]) (by decide +kernel) (by decide +kernel) (by intro T s h p n pp; simp [dot]; ring),
    found o (r := [2, -3, 2, 1, 0, 0, 0]) (by decide +kernel) (by decide +kernel) (by intro T s h p n pp; simp [dot]; ring),
    found o (r := [0, 0, 0, 0, 0, 0, 0]) (by decide +kernel) (by decide +kernel) (by intro T s h p n pp; simp [dot]),
    fun e he => absurd he List.not_mem_nil⟩

/-- The phase that a formula in print has at a time: the hour angle of the mean sun is 360 degrees times the part of
the day, and the longitudes are those of `mean_longitudes` for dynamic time. -/
noncomputable def printed (corrections : String) (deltat MJD : ℝ) (f : ℝ → ℝ → ℝ → ℝ → ℝ → ℝ) : ℝ :=
  let l := meanLongitudes (modeOf corrections) (MJD + deltat)
  f (360 * Int.fract MJD) l.s l.h l.p l.pp

theorem dot_printed {corrections : String} (deltat MJD : ℝ) {c : String} {f : ℝ → ℝ → ℝ → ℝ → ℝ → ℝ}
    (hf : (c, f) ∈ Spec.phases (otisType corrections)) {r : List ℤ} (hr : row corrections c = .ok r) :
    dot (fargs corrections deltat MJD) r = printed corrections deltat MJD f := by
  obtain ⟨r', h1, h2⟩ := phases_fit _ _ hf
  have : r = r' := by
    unfold row at hr
    rw [h1] at hr
    cases hr
    rfl
  subst this
  have e : 15 * (24 * Num.fmod MJD 1) = 360 * Int.fract MJD := by
    rw [Num.fmod, div_one, one_mul, Int.self_sub_floor]
    ring
  have := h2 (15 * (24 * Num.fmod MJD 1)) (meanLongitudes (modeOf corrections) (MJD + deltat)).s
    (meanLongitudes (modeOf corrections) (MJD + deltat)).h (meanLongitudes (modeOf corrections) (MJD + deltat)).p
    (meanLongitudes (modeOf corrections) (MJD + deltat)).n (meanLongitudes (modeOf corrections) (MJD + deltat)).pp
  rw [printed, ← e]
  exact this

/-- **C132**.  Whenever phases are returned, those of the sixty constituents are the formulas in print: at all times,
for all corrections, in lists of any length and order. -/
theorem C132_printed {corrections m1 : String} {deltat MJD : ℝ} {cs : List String} {a : List (ℝ × ℝ) × List ℝ}
    (h : arguments corrections m1 deltat MJD cs = .ok a) (i : ℕ) {c : String} (hi : cs[i]? = some c)
    {f : ℝ → ℝ → ℝ → ℝ → ℝ → ℝ} (hf : (c, f) ∈ Spec.phases (otisType corrections)) :
    a.2[i]? = some (printed corrections deltat MJD f) := by
  obtain ⟨rows, hr, e⟩ := arguments_ok h
  have hlen := pyMap_length hr
  have hlt : i < cs.length := (List.getElem?_eq_some_iff.1 hi).1
  obtain ⟨r, hir⟩ : ∃ r, rows[i]? = some r := ⟨rows[i], List.getElem?_eq_getElem (hlen ▸ hlt)⟩
  obtain ⟨c', hc', hc⟩ := pyMap_getElem hr i r hir
  cases hi.symm.trans hc'
  rw [e, List.getElem?_map, hir, Option.map_some, dot_printed deltat MJD hf hc]

/-- The table has one column for each formula in print, in the same order, for all corrections and without: the
phases it gives are the printed ones at all times. -/
theorem C132_table (corrections : Option String) : ∃ rows, argumentsTable corrections = .ok rows ∧
    rows.length = 60 ∧ ∀ deltat MJD : ℝ, rows.map (dot (fargs (corrections.getD "OTIS") deltat MJD)) =
      (Spec.phases (otisType (corrections.getD "OTIS"))).map fun e =>
        printed (corrections.getD "OTIS") deltat MJD e.2 := by
  unfold argumentsTable
  generalize corrections.getD "OTIS" = k
  have hn : tableNames = (Spec.phases (otisType k)).map Prod.fst := rfl
  have hk : ∀ e ∈ Spec.phases (otisType k), ∃ r, row k e.1 = .ok r := by
    intro e he
    obtain ⟨r, h1, -⟩ := phases_fit _ _ he
    exact ⟨r, by rw [row, h1]⟩
  obtain ⟨rows, hr⟩ : ∃ rows, coefficients k tableNames = .ok rows := by
    refine pyMap_ok_iff.2 fun c hc => ?_
    rw [hn] at hc
    obtain ⟨e, he, rfl⟩ := List.mem_map.1 hc
    exact hk e he
  have hl : rows.length = 60 := pyMap_length hr
  refine ⟨rows, hr, hl, fun deltat MJD => List.ext_getElem? fun i => ?_⟩
  have hs : (Spec.phases (otisType k)).length = 60 := rfl
  by_cases hi : i < 60
  · obtain ⟨r, hir⟩ : ∃ r, rows[i]? = some r := ⟨rows[i], List.getElem?_eq_getElem (by omega)⟩
    obtain ⟨e, he⟩ : ∃ e, (Spec.phases (otisType k))[i]? = some e :=
      ⟨(Spec.phases (otisType k))[i], List.getElem?_eq_getElem (by omega)⟩
    obtain ⟨c, hc, hrow⟩ := pyMap_getElem hr i r hir
    rw [hn, List.getElem?_map, he, Option.map_some, Option.some.injEq] at hc
    subst hc
    rw [List.getElem?_map, List.getElem?_map, hir, he, Option.map_some, Option.map_some,
      dot_printed deltat MJD (f := e.2) (List.mem_of_getElem? he) hrow]
  · rw [List.getElem?_eq_none (by simp; omega), List.getElem?_eq_none (by simp; omega)]

/-- **C132** (refuted: columns).  Two pairs of constituents of the table have the same column. -/
theorem C132_columns_false (corrections : Option String) : ∃ rows, argumentsTable corrections = .ok rows ∧
    rows[5]? = rows[56]? ∧ rows[38]? = rows[58]? ∧ tableNames.Nodup := by
  obtain ⟨rows, hr, -⟩ := C132_table corrections
  have key : ∀ (i j : ℕ) (c d : String) (r : List ℤ), tableNames[i]? = some c → tableNames[j]? = some d → c ≠ "s1" → d ≠ "s1" →
      Coef.table.lookup c = some r → Coef.table.lookup d = some r → rows[i]? = rows[j]? := by
    intro i j c d r hi hj hc hd h1 h2
    have one : ∀ (i : ℕ) (c : String), tableNames[i]? = some c → c ≠ "s1" → Coef.table.lookup c = some r → rows[i]? = some r := by
      intro i c hi hc h
      have hl : rows.length = tableNames.length := pyMap_length hr
      have hlt : i < tableNames.length := (List.getElem?_eq_some_iff.1 hi).1
      have hx := List.getElem?_eq_getElem (hl ▸ hlt)
      obtain ⟨c', hc', hrow⟩ := pyMap_getElem hr i _ hx
      cases hi.symm.trans hc'
      rw [row, Coef.lookup, if_neg (by simp [hc]), h] at hrow
      rw [hx]
      cases hrow
      rfl
    rw [one i c hi hc h1, one j d hj hd h2]
  exact ⟨rows, hr, key 5 56 "mt" "mtm" [0, 3, 0, -1, 0, 0, 0] rfl rfl (by decide) (by decide) (by decide +kernel)
    (by decide +kernel), key 38 58 "mns2" "eps2" [2, -3, 2, 1, 0, 0, 0] rfl rfl (by decide) (by decide)
    (by decide +kernel) (by decide +kernel), by decide +kernel⟩

/-- Phases are returned for lists with these constituents: midnight and noon, two types of corrections. -/
example (deltat MJD : ℝ) : ∃ a, arguments "GOT" "perth5" deltat MJD ["m2", "s1"] = .ok a ∧
    a.2[1]? = some (360 * Int.fract MJD + 180) := by
  obtain ⟨a, ha⟩ := (C53_defined "GOT" "perth5" deltat MJD ["m2", "s1"]).2 (by
    intro c hc
    simp only [List.mem_cons, List.not_mem_nil, or_false] at hc
    rcases hc with rfl | rfl
    · exact ⟨[2, 0, 0, 0, 0, 0, 0], by decide +kernel⟩
    · exact ⟨[1, 1, -1, 0, 0, 0, 2], by decide +kernel⟩)
  refine ⟨a, ha, ?_⟩
  have := C132_printed ha 1 (c := "s1") rfl (f := fun T _ _ _ _ => T + if otisType "GOT" then 90 else 180)
    (by simp [Spec.phases])
  rw [this, printed, if_neg (by decide)]

end Verif.Astro
