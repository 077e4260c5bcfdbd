import Verif.Model.Parameters
import Verif.Props.Equilibrium
import Verif.Model.Predict

/-!
# C55: the tabulated phases and frequencies track the tidal arguments
-/

namespace Verif.Parameters

open Verif Verif.Astro Real

/-- The arguments (degrees) at 1992-01-01T00:00 before reduction, for OTIS corrections. -/
def args0 : List ℚ :=
  let T : ℚ := 48622 - 51544.4993
  let s := 218.3164 + 13.17639648 * T
  let h := 280.4661 + 0.98564736 * T
  [360 * 48622 - s + h, s, h, 83.3535 + 0.11140353 * T, 125.0445 - 0.05295377 * T, 282.8, 90]

/-- π to twenty digits. -/
def piQ : ℚ := 3.14159265358979323846

/-- How many cycles separate the tabulated phase from the argument. -/
def cycles (r : List ℤ) (p : Params) : ℤ := ⌊(dotQ args0 r / 180 - p.phase / piQ) / 2 + 1 / 2⌋

/-- The row of a constituent, with the row of S1 for OTIS models. -/
def rowOtis (c : String) : List ℤ := (Coef.lookup true c).getD []

/-- Half cycles between tabulated phase and argument at the epoch. -/
def halfTurns (r : List ℤ) (p : Params) : ℚ := dotQ args0 r / 180 - 2 * cycles r p

theorem table_check : ∀ q ∈ table, (rowOtis q.1).length = 7 ∧ q.1 ≠ "s1" ∧
    (Coef.table.lookup q.1).isSome = true ∧
    (rowOtis q.1).headD 0 = q.2.species ∧
    |halfTurns (rowOtis q.1) q.2| ≤ 10 ∧
    |q.2.phase - piQ * halfTurns (rowOtis q.1) q.2| ≤ 9.99e-8 ∧
    |dotQ ratesOtis (rowOtis q.1)| ≤ 4000 ∧
    |q.2.omega * 86400 - piQ * dotQ ratesOtis (rowOtis q.1) / 180| ≤ 2.03e-10 * 86400 := by
  decide +kernel

theorem pi_close (x : ℝ) : |π * x - (piQ : ℝ) * x| ≤ 1e-19 * |x| := by
  rw [← sub_mul, abs_mul]
  refine mul_le_mul_of_nonneg_right ?_ (abs_nonneg _)
  have h1 := pi_gt_d20
  have h2 := pi_lt_d20
  have e : (piQ : ℝ) = 3.14159265358979323846 := by unfold piQ; push_cast; norm_num
  rw [e, abs_of_pos (by linarith)]
  linarith

/-- The tidal argument of an OTIS constituent in terms of the time since 1992-01-01. -/
theorem argument_linear (m1 : String) (t : ℝ) {c : String} {r : List ℤ} (hc : c ≠ "s1")
    (h : Coef.table.lookup c = some r) (h7 : r.length = 7) :
    ∃ uf G, arguments "OTIS" m1 0 (t + 48622) [c] = .ok (uf, [G]) ∧
      ∃ m : ℤ, G = (dotQ args0 r : ℝ) + (dotQ ratesOtis r : ℝ) * t + 360 * m := by
  obtain ⟨uf, hu⟩ := Equilibrium.arguments_one "OTIS" m1 0 (t + 48622) hc h
  refine ⟨uf, _, hu, ?_⟩
  obtain ⟨k0, k1, k2, k3, k4, hk⟩ := fargs_raw "OTIS" 0 (t + 48622)
  obtain ⟨c0, c1, c2, c3, c4, c5, c6, rfl⟩ : ∃ c0 c1 c2 c3 c4 c5 c6,
      r = [c0, c1, c2, c3, c4, c5, c6] := by
    match r, h7 with
    | [c0, c1, c2, c3, c4, c5, c6], _ => exact ⟨c0, c1, c2, c3, c4, c5, c6, rfl⟩
  have hmode : modeOf "OTIS" = .cartwright := by decide +kernel
  refine ⟨k0 * c0 + k1 * c1 + k2 * c2 + k3 * c3 + k4 * c4, ?_⟩
  rw [hk, hmode]
  simp only [rawLongitudes, dot, dotQ, args0, ratesOtis, List.zipWith, List.sum, List.foldr]
  push_cast
  ring

/-- C55: for each tabulated constituent, phase plus frequency times time stays with the tidal
argument of the same name, up to whole cycles: within a tenth of a microradian at the start of
1992 and 0.203 nanoradians per second before or after.  The species is the multiple of mean lunar
time. -/
theorem C55_tracks (m1 : String) (c : String) (p : Params) (hp : (c, p) ∈ table) (t : ℝ) :
    ∃ uf G, arguments "OTIS" m1 0 (t + 48622) [c] = .ok (uf, [G]) ∧
      ∃ m : ℤ, |(p.omega * t * 86400 + p.phase) - G * (π / 180) - 2 * π * m| ≤
        1e-7 + 2.04e-10 * (86400 * |t|) := by
  obtain ⟨h7, hs, hl, -, hb, hph, hrb, hom⟩ := table_check _ hp
  dsimp only at h7 hs hl hb hph hrb hom
  obtain ⟨r, hr⟩ := Option.isSome_iff_exists.1 hl
  have hrow : rowOtis c = r := by
    unfold rowOtis Coef.lookup
    rw [if_neg (by simp [hs]), hr]; rfl
  rw [hrow] at h7 hb hph hrb hom
  obtain ⟨uf, G, hG, m, hm⟩ := argument_linear m1 t hs hr h7
  refine ⟨uf, G, hG, -m - cycles r p, ?_⟩
  have b1 : |(p.phase : ℝ) - piQ * halfTurns r p| ≤ 9.99e-8 := by
    have : ((|p.phase - piQ * halfTurns r p| : ℚ) : ℝ) ≤ ((9.99e-8 : ℚ) : ℝ) := Rat.cast_le.2 hph
    push_cast at this; exact this
  have b2 : |(halfTurns r p : ℝ)| ≤ 10 := by
    have : ((|halfTurns r p| : ℚ) : ℝ) ≤ ((10 : ℚ) : ℝ) := Rat.cast_le.2 hb
    push_cast at this; exact this
  have b3 : |(p.omega : ℝ) * 86400 - piQ * dotQ ratesOtis r / 180| ≤ 2.03e-10 * 86400 := by
    have : ((|p.omega * 86400 - piQ * dotQ ratesOtis r / 180| : ℚ) : ℝ) ≤
      ((2.03e-10 * 86400 : ℚ) : ℝ) := Rat.cast_le.2 hom
    push_cast at this; exact this
  have b4 : |(dotQ ratesOtis r : ℝ)| ≤ 4000 := by
    have : ((|dotQ ratesOtis r| : ℚ) : ℝ) ≤ ((4000 : ℚ) : ℝ) := Rat.cast_le.2 hrb
    push_cast at this; exact this
  have p1 := pi_close (halfTurns r p)
  have p2 := pi_close ((dotQ ratesOtis r : ℝ) / 180)
  have e : (p.omega * t * 86400 + p.phase) - G * (π / 180) - 2 * π * ((-m - cycles r p : ℤ) : ℝ) =
      ((p.phase : ℝ) - piQ * halfTurns r p) - (π * halfTurns r p - piQ * halfTurns r p) +
      (((p.omega : ℝ) * 86400 - piQ * dotQ ratesOtis r / 180) -
        (π * (dotQ ratesOtis r / 180) - piQ * (dotQ ratesOtis r / 180))) * t := by
    rw [hm]
    unfold halfTurns
    push_cast
    ring
  rw [e]
  refine (abs_add_le _ _).trans (add_le_add ?_ ?_)
  · refine (abs_sub _ _).trans ?_
    linarith
  · rw [abs_mul, ← mul_assoc]
    refine mul_le_mul_of_nonneg_right ?_ (abs_nonneg t)
    refine (abs_sub _ _).trans ?_
    have : |(dotQ ratesOtis r : ℝ) / 180| ≤ 4000 / 180 := by
      rw [abs_div, abs_of_pos (by norm_num : (0 : ℝ) < 180)]; linarith
    linarith

/-- C55: the species is the first coefficient of the constituent. -/
theorem C55_species (c : String) (p : Params) (hp : (c, p) ∈ table) :
    ∃ r, Coef.table.lookup c = some r ∧ r.headD 0 = p.species := by
  obtain ⟨-, hs, hl, hh, -⟩ := table_check _ hp
  obtain ⟨r, hr⟩ := Option.isSome_iff_exists.1 hl
  refine ⟨r, hr, ?_⟩
  dsimp only at hs hh
  rw [← hh]
  unfold rowOtis Coef.lookup
  rw [if_neg (by simp [hs]), hr]; rfl

/-- C55: looking a name up ignores case and finds the tabulated values; other names are refused
when errors are requested. -/
theorem C55_lookup (c : String) (e : Bool) :
    (∀ p, (c.toLower, p) ∈ table → parameters c e = .ok p) ∧
    ((∀ p, (c.toLower, p) ∉ table) → parameters c true = .error .valueError) := by
  have hn : (table.map (·.1)).Nodup := by decide +kernel
  have look : ∀ (l : List (String × Params)) (x : String) (p : Params), (l.map (·.1)).Nodup →
      (x, p) ∈ l → l.lookup x = some p := by
    intro l x p
    induction l with
    | nil => intro _ h; simp at h
    | cons a l ih =>
      intro hn h
      obtain ⟨y, q⟩ := a
      simp only [List.map_cons, List.nodup_cons, List.mem_map, not_exists, not_and] at hn
      rw [List.lookup_cons]
      rcases List.mem_cons.1 h with h' | h'
      · cases h'; simp
      · have : (x == y) = false := by
          rw [beq_eq_false_iff_ne]; intro e; subst e; exact hn.1 (x, p) h' rfl
        rw [this]; exact ih hn.2 h'
  constructor
  · intro p hp
    unfold parameters
    rw [look table _ p hn hp]
  · intro h
    have : table.lookup c.toLower = none := by
      cases hl : table.lookup c.toLower with
      | none => rfl
      | some p =>
        exfalso
        have mem : ∀ (l : List (String × Params)) (x : String) (p : Params),
            l.lookup x = some p → (x, p) ∈ l := by
          intro l x p
          induction l with
          | nil => intro h; cases h
          | cons a l ih =>
            intro h
            obtain ⟨y, q⟩ := a
            rw [List.lookup_cons] at h
            cases hxy : x == y with
            | true => rw [hxy] at h; cases h; rw [eq_of_beq hxy]; exact List.mem_cons_self
            | false => rw [hxy] at h; exact List.mem_cons_of_mem _ (ih h)
        exact h p (mem _ _ _ hl)
    unfold parameters
    rw [this]
    rfl

example : parameters "M2" false = .ok ⟨0.2441, 1.731557546, 1.405189e-4, 0.693, 2⟩ := by
  decide +kernel

/-- C55 fails beyond the table: constituents that have tidal arguments but no parameters, among
them S1, M3, Mtm and the node tide, are predicted with OTIS corrections as if their frequency
were zero, although it is not. -/
theorem C55_missing_false : ∀ c ∈ ["s1", "m3", "mtm", "node"],
    parameters c false = .ok ⟨0, 0, 0, 0, 0⟩ ∧
      (∀ (env : Predict.Env) (t : ℝ) (a : Predict.Arg), env.omega c = 0 → env.ph c = 0 →
        Predict.phase env "OTIS" c t a = a.pu) ∧
      ∃ ω, frequency "OTIS" [c] = .ok [ω] ∧ ω ≠ 0 := by
  intro c hc
  have h1 : parameters c false = .ok ⟨0, 0, 0, 0, 0⟩ :=
    (by decide +kernel : ∀ c ∈ ["s1", "m3", "mtm", "node"],
      parameters c false = .ok ⟨0, 0, 0, 0, 0⟩) c hc
  refine ⟨h1, fun env t a h0 h0' => ?_, ?_⟩
  · unfold Predict.phase
    rw [if_pos (by decide +kernel), h0, h0']
    ring
  have h2 : ∃ r, row "OTIS" c = .ok r ∧ dotQ ratesOtis r ≠ 0 := by
    simp only [List.mem_cons, List.not_mem_nil, or_false] at hc
    rcases hc with rfl | rfl | rfl | rfl
    · exact ⟨[1, 1, -1, 0, 0, 0, 1], by decide +kernel, by decide +kernel⟩
    · exact ⟨[3, 0, 0, 0, 0, 0, 0], by decide +kernel, by decide +kernel⟩
    · exact ⟨[0, 3, 0, -1, 0, 0, 0], by decide +kernel, by decide +kernel⟩
    · exact ⟨[0, 0, 0, 0, 1, 0, 2], by decide +kernel, by decide +kernel⟩
  obtain ⟨r, hr, hd⟩ := h2
  have hf : frequency "OTIS" [c] = .ok [2 * π * dot (rates "OTIS") r / 360] := by
    have : coefficients "OTIS" [c] = .ok [r] := by
      unfold coefficients
      simp only [pyMap, hr]
    unfold frequency
    rw [this, ok_bind]
    rfl
  refine ⟨_, hf, ?_⟩
  rw [rates_eq, dot_map]
  have hq : ratesQ "OTIS" = ratesOtis := by
    unfold ratesQ
    exact if_pos (by decide +kernel)
  rw [hq]
  have : (dotQ ratesOtis r : ℝ) ≠ 0 := by exact_mod_cast hd
  have := pi_ne_zero
  positivity

end Verif.Parameters
