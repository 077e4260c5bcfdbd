import Verif.Model.Astro
import Verif.Lemmas.Py
import Verif.Lemmas.Num
import Verif.Lemmas.Nodal
import Verif.Props.Coef
import Mathlib.Tactic.FieldSimp
import Mathlib.Tactic.NormNum

/-!
# C53: tidal arguments advance at the tabulated frequencies
-/

namespace Verif.Astro

open Verif Real

/-! ## When the functions succeed -/

theorem table_length : ∀ q ∈ Coef.table, q.2.length = 7 := by decide +kernel

theorem row_length {corrections c : String} {r : List ℤ} (h : row corrections c = .ok r) :
    r.length = 7 := by
  unfold row Coef.lookup at h
  split at h
  · rename_i r' hr
    cases h
    split at hr
    · cases hr; rfl
    · exact table_length _ (Coef.lookup_mem _ _ _ hr)
  · cases h

theorem pyMap_getElem {α β : Type} {f : α → Except PyErr β} : ∀ {l : List α} {r : List β},
    pyMap f l = .ok r → ∀ i : ℕ, ∀ b, r[i]? = some b → ∃ a, l[i]? = some a ∧ f a = .ok b
  | [], r, h, i, b, hb => by
    simp only [pyMap, Except.ok.injEq] at h
    subst h; simp at hb
  | a :: l, r, h, i, b, hb => by
    unfold pyMap at h
    cases h1 : f a with
    | error e => simp [h1] at h
    | ok y =>
      cases h2 : pyMap f l with
      | error e => simp [h1, h2] at h
      | ok ys =>
        simp only [h1, h2, Except.ok.injEq] at h
        subst h
        cases i with
        | zero => simp at hb; subst hb; exact ⟨a, rfl, h1⟩
        | succ i =>
          obtain ⟨x, hx, hf⟩ := pyMap_getElem h2 i b (by simpa using hb)
          exact ⟨x, by simpa using hx, hf⟩

theorem pyMap_length {α β : Type} {f : α → Except PyErr β} : ∀ {l : List α} {r : List β},
    pyMap f l = .ok r → r.length = l.length
  | [], r, h => by
    simp only [pyMap, Except.ok.injEq] at h
    subst h; rfl
  | a :: l, r, h => by
    unfold pyMap at h
    cases h1 : f a with
    | error e => simp [h1] at h
    | ok y =>
      cases h2 : pyMap f l with
      | error e => simp [h1, h2] at h
      | ok ys =>
        simp only [h1, h2, Except.ok.injEq] at h
        subst h
        simp [pyMap_length h2]

theorem arguments_ok {corrections m1 : String} {deltat MJD : ℝ} {cs : List String}
    {a : List (ℝ × ℝ) × List ℝ} (h : arguments corrections m1 deltat MJD cs = .ok a) :
    ∃ rows, coefficients corrections cs = .ok rows ∧
      a.2 = rows.map (dot (fargs corrections deltat MJD)) := by
  unfold arguments at h
  cases hr : coefficients corrections cs with
  | error e => rw [hr, error_bind] at h; cases h
  | ok rows =>
    rw [hr, ok_bind] at h
    dsimp only at h
    rw [Nodal.nodal_eq _ _ _ 0] at h
    simp only [Except.ok.injEq] at h
    exact ⟨rows, rfl, by rw [← h]⟩

/-- C53: the tidal arguments are defined exactly for lists of constituents of the table, for all
times and types of corrections. -/
theorem C53_defined (corrections m1 : String) (deltat MJD : ℝ) (cs : List String) :
    (∃ a, arguments corrections m1 deltat MJD cs = .ok a) ↔
      ∀ c ∈ cs, ∃ r, Coef.table.lookup c = some r := by
  have hs1 : ∃ r, Coef.table.lookup "s1" = some r := ⟨_, (by decide +kernel :
    Coef.table.lookup "s1" = some [1, 1, -1, 0, 0, 0, 2])⟩
  have hrow : ∀ c, (∃ r, row corrections c = .ok r) ↔ ∃ r, Coef.table.lookup c = some r := by
    intro c
    unfold row Coef.lookup
    by_cases h : (otisType corrections && c == "s1") = true
    · rw [if_pos h]
      simp only [Bool.and_eq_true, beq_iff_eq] at h
      rw [h.2]
      exact ⟨fun _ => hs1, fun _ => ⟨_, rfl⟩⟩
    · rw [if_neg h]
      cases Coef.table.lookup c <;> simp
  have hco : (∃ r, coefficients corrections cs = .ok r) ↔
      ∀ c ∈ cs, ∃ r, Coef.table.lookup c = some r := by
    unfold coefficients
    rw [pyMap_ok_iff]
    exact forall_congr' fun c => imp_congr_right fun _ => hrow c
  rw [← hco]
  constructor
  · rintro ⟨a, ha⟩
    obtain ⟨rows, hr, _⟩ := arguments_ok ha
    exact ⟨rows, hr⟩
  · rintro ⟨rows, hr⟩
    unfold arguments
    rw [hr, ok_bind]
    dsimp only
    rw [Nodal.nodal_eq _ _ _ 0]
    exact ⟨_, rfl⟩

/-! ## The rates -/

theorem normalize_id {x : ℝ} (h0 : 0 ≤ x) (h1 : x < 360) : Math.normalizeAngle x 360 = x :=
  Num.fmod_unique (by norm_num) h0 h1 0 (by simp)

theorem normalize_if {x : ℝ} (h : 0 ≤ x ∧ x < 360 ∨ -360 ≤ x ∧ x < 0) :
    Math.normalizeAngle x 360 = if 0 ≤ x then x else x + 360 := by
  rcases h with h | h
  · rw [if_pos h.1, normalize_id h.1 h.2]
  · rw [if_neg (not_le.2 h.2)]
    exact Num.fmod_unique (by norm_num) (by linarith) (by linarith) (-1) (by push_cast; ring)

/-- Degrees per day of the arguments, for the formulas of Cartwright. -/
def ratesOtis : List ℚ :=
  [360 - 13.17639648 + 0.98564736, 13.17639648, 0.98564736, 0.11140353, -0.05295377, 0, 0]

/-- The longitudes of `ASTRO5` at 0.05 days after 2000-01-01T12:00 less those at that time, in
degrees per day: polynomials in centuries. -/
def polyRate (c : List ℚ) : ℚ :=
  ((c.zipIdx.map fun q => q.1 * (0.05 / 36525 : ℚ) ^ q.2).sum - c.headD 0) / 0.05

def lunarQ : List ℚ := [218.3164477, 481267.88123421, -1.5786e-3, 1.855835e-6, -1.53388e-8]
def elongationQ : List ℚ := [297.8501921, 445267.1114034, -1.8819e-3, 1.83195e-6, -8.8445e-9]

def ratesAstro5 : List ℚ :=
  let s := polyRate lunarQ
  let h := polyRate (List.zipWith (· - ·) lunarQ elongationQ)
  [360 - s + h, s, h, polyRate [83.3532465, 4069.0137287, -1.032e-2, -1.249172e-5],
    polyRate [125.04452, -1934.136261, 2.0708e-3, 2.22222e-6], 1.7192 / 36525, 0]

/-- The rates for the type of corrections, degrees per day. -/
def ratesQ (corrections : String) : List ℚ :=
  if otisType corrections then ratesOtis else ratesAstro5

/-- The rates of `frequency`, degrees per second. -/
noncomputable def rates (corrections : String) : List ℝ :=
  List.zipWith (fun y x => (y - x) / (86400 * (51544.55 - 51544.5)))
    (fargs corrections 0 51544.55) (fargs corrections 0 51544.5)

theorem mod_start : Num.fmod (51544.5 : ℝ) 1 = 0.5 :=
  Num.fmod_unique one_pos (by norm_num) (by norm_num) 51544 (by norm_num)

theorem mod_end : Num.fmod (51544.55 : ℝ) 1 = 0.55 :=
  Num.fmod_unique one_pos (by norm_num) (by norm_num) 51544 (by norm_num)

theorem rates_eq (corrections : String) :
    rates corrections = (ratesQ corrections).map fun q : ℚ => (q : ℝ) / 86400 := by
  unfold rates ratesQ fargs modeOf
  by_cases h : otisType corrections = true
  · rw [if_pos h, if_pos h]
    dsimp only [meanLongitudes, rawLongitudes]
    rw [mod_start, mod_end]
    rw [normalize_id, normalize_id, normalize_id, normalize_id, normalize_id, normalize_id,
      normalize_id, normalize_id]
    · simp only [List.zipWith, ratesOtis, List.map]
      norm_num
    all_goals norm_num
  · rw [if_neg h, if_neg h]
    dsimp only [meanLongitudes, rawLongitudes, Math.polynomialSum, List.zipWith, List.zipIdx,
      List.map, List.sum, List.foldr]
    rw [mod_start, mod_end]
    rw [normalize_if, normalize_if, normalize_if, normalize_if, normalize_if, normalize_if,
      normalize_if, normalize_if]
    · simp only [List.zipWith, ratesAstro5, List.map, polyRate, lunarQ, elongationQ, List.zipIdx,
        List.sum, List.foldr, List.headD]
      norm_num
    all_goals norm_num

theorem frequency_ok {corrections : String} {cs : List String} {w : List ℝ}
    (h : frequency corrections cs = .ok w) :
    ∃ rows, coefficients corrections cs = .ok rows ∧
      w = rows.map fun r => 2 * π * dot (rates corrections) r / 360 := by
  unfold frequency at h
  dsimp only at h
  cases hr : coefficients corrections cs with
  | error e => rw [hr, error_bind] at h; cases h
  | ok rows =>
    rw [hr, ok_bind] at h
    simp only [Except.ok.injEq] at h
    exact ⟨rows, rfl, h.symm⟩

/-! ## The phases -/

theorem normalize_raw (x : ℝ) : ∃ k : ℤ, Math.normalizeAngle x 360 = x + 360 * k := by
  refine ⟨-⌊x / 360⌋, ?_⟩
  unfold Math.normalizeAngle Num.fmod
  push_cast; ring

theorem fargs_raw (corrections : String) (deltat t : ℝ) :
    let l := rawLongitudes (modeOf corrections) (t + deltat)
    ∃ k0 k1 k2 k3 k4 : ℤ, fargs corrections deltat t =
      [360 * t - l.s + l.h + 360 * k0, l.s + 360 * k1, l.h + 360 * k2, l.p + 360 * k3,
        l.n + 360 * k4, l.pp, 90] := by
  intro l
  obtain ⟨k1, h1⟩ := normalize_raw l.s
  obtain ⟨k2, h2⟩ := normalize_raw l.h
  obtain ⟨k3, h3⟩ := normalize_raw l.p
  obtain ⟨k4, h4⟩ := normalize_raw l.n
  refine ⟨-⌊t / 1⌋ - k1 + k2, k1, k2, k3, k4, ?_⟩
  unfold fargs meanLongitudes
  dsimp only
  rw [h1, h2, h3, h4]
  refine List.cons_eq_cons.2 ⟨?_, rfl⟩
  unfold Num.fmod
  push_cast; ring

/-- C53 for OTIS, ATLAS, TMD3 and netcdf corrections: between any two times
the phase of each constituent advances by the frequency reported for it times the time elapsed,
up to whole cycles.  The frequency is in radians per second, times are in days and the difference
between dynamic and universal time is the same at both. -/
theorem C53_phase_rate (corrections m1 : String) (ht : otisType corrections = true)
    (deltat t₁ t₂ : ℝ) (cs : List String) {a₁ a₂ : List (ℝ × ℝ) × List ℝ} {w : List ℝ}
    (h₁ : arguments corrections m1 deltat t₁ cs = .ok a₁)
    (h₂ : arguments corrections m1 deltat t₂ cs = .ok a₂)
    (hw : frequency corrections cs = .ok w) (i : ℕ) (hi : i < cs.length) :
    ∃ g₁ g₂ ω : ℝ, a₁.2[i]? = some g₁ ∧ a₂.2[i]? = some g₂ ∧ w[i]? = some ω ∧
      ∃ m : ℤ, (g₂ - g₁) * (π / 180) = ω * (86400 * (t₂ - t₁)) + 2 * π * m := by
  obtain ⟨rows, hr, e₁⟩ := arguments_ok h₁
  obtain ⟨rows₂, hr₂, e₂⟩ := arguments_ok h₂
  obtain ⟨rows₃, hr₃, e₃⟩ := frequency_ok hw
  cases hr.symm.trans hr₂
  cases hr.symm.trans hr₃
  have hlen := pyMap_length hr
  obtain ⟨r, hir⟩ : ∃ r, rows[i]? = some r := ⟨rows[i], List.getElem?_eq_getElem (hlen ▸ hi)⟩
  obtain ⟨c, -, hc⟩ := pyMap_getElem hr i r hir
  have h7 := row_length hc
  refine ⟨_, _, _, by rw [e₁, List.getElem?_map, hir]; rfl, by rw [e₂, List.getElem?_map, hir]; rfl,
    by rw [e₃, List.getElem?_map, hir]; rfl, ?_⟩
  obtain ⟨c0, c1, c2, c3, c4, c5, c6, rfl⟩ : ∃ c0 c1 c2 c3 c4 c5 c6,
      r = [c0, c1, c2, c3, c4, c5, c6] := by
    match r, h7 with
    | [c0, c1, c2, c3, c4, c5, c6], _ => exact ⟨c0, c1, c2, c3, c4, c5, c6, rfl⟩
  obtain ⟨k0, k1, k2, k3, k4, hk⟩ := fargs_raw corrections deltat t₁
  obtain ⟨l0, l1, l2, l3, l4, hl⟩ := fargs_raw corrections deltat t₂
  refine ⟨(l0 - k0) * c0 + (l1 - k1) * c1 + (l2 - k2) * c2 + (l3 - k3) * c3 + (l4 - k4) * c4, ?_⟩
  rw [hk, hl, rates_eq]
  unfold modeOf ratesQ
  rw [if_pos ht, if_pos ht]
  simp only [rawLongitudes, dot, ratesOtis, List.map, List.zipWith, List.sum, List.foldr]
  push_cast
  ring

example : ∃ a₁ a₂ w, arguments "OTIS" "perth5" 0 59000 ["m2", "k1"] = .ok a₁ ∧
    arguments "OTIS" "perth5" 0 59100.25 ["m2", "k1"] = .ok a₂ ∧
    frequency "OTIS" ["m2", "k1"] = .ok w := by
  have hx : ∀ c ∈ ["m2", "k1"], ∃ r, Coef.table.lookup c = some r := by
    intro c hc
    exact Option.isSome_iff_exists.1 ((by decide +kernel : ∀ c ∈ ["m2", "k1"],
      (Coef.table.lookup c).isSome = true) c hc)
  obtain ⟨a₁, h₁⟩ := (C53_defined "OTIS" "perth5" 0 59000 _).2 hx
  obtain ⟨a₂, h₂⟩ := (C53_defined "OTIS" "perth5" 0 59100.25 _).2 hx
  obtain ⟨rows, hr, -⟩ := arguments_ok h₁
  refine ⟨a₁, a₂, rows.map fun r => 2 * π * dot (rates "OTIS") r / 360, h₁, h₂, ?_⟩
  unfold frequency
  rw [hr, ok_bind]
  rfl

/-! ## The signs and bands of the frequencies -/

/-- `dot` in the rationals. -/
def dotQ (a : List ℚ) (c : List ℤ) : ℚ :=
  (List.zipWith (fun (x : ℚ) (y : ℤ) => x * (y : ℚ)) a c).sum

theorem dot_map (c : ℝ) : ∀ (a : List ℚ) (r : List ℤ),
    dot (a.map fun q : ℚ => (q : ℝ) / c) r = (dotQ a r : ℝ) / c
  | [], r => by simp [dot, dotQ]
  | q :: a, [] => by simp [dot, dotQ]
  | q :: a, y :: r => by
    have h := dot_map c a r
    simp only [dot, dotQ, List.map, List.zipWith, List.sum_cons] at h ⊢
    rw [h]; push_cast; ring

theorem frequency_row {corrections : String} {cs : List String} {w : List ℝ}
    (h : frequency corrections cs = .ok w) (i : ℕ) {c : String} (hi : cs[i]? = some c) :
    ∃ r, row corrections c = .ok r ∧
      w[i]? = some (2 * π * ((dotQ (ratesQ corrections) r : ℝ) / 360) / 86400) := by
  obtain ⟨rows, hr, e⟩ := frequency_ok h
  have hlen := pyMap_length hr
  have hlt : i < cs.length := (List.getElem?_eq_some_iff.1 hi).1
  obtain ⟨r, hir⟩ : ∃ r, rows[i]? = some r := ⟨rows[i], List.getElem?_eq_getElem (hlen ▸ hlt)⟩
  obtain ⟨c', hc', hc⟩ := pyMap_getElem hr i r hir
  cases hi.symm.trans hc'
  refine ⟨r, hc, ?_⟩
  rw [e, List.getElem?_map, hir, Option.map_some, rates_eq, dot_map]
  exact congrArg some (by ring)

/-- The row of each constituent comes from the table, or is that of S1 for OTIS models. -/
theorem row_mem {corrections c : String} {r : List ℤ} (h : row corrections c = .ok r) :
    (c, r) ∈ Coef.table ∨ c = "s1" ∧ r = [1, 1, -1, 0, 0, 0, 1] := by
  unfold row Coef.lookup at h
  split at h
  · rename_i r' hr
    cases h
    split at hr
    · rename_i hs
      cases hr
      simp only [Bool.and_eq_true, beq_iff_eq] at hs
      exact Or.inr ⟨hs.2, rfl⟩
    · exact Or.inl (Coef.lookup_mem _ _ _ hr)
  · cases h

/-- The constituents whose phase does not increase. -/
def notForward : List String := ["node", "omega0", "z0"]

theorem forward_check : ∀ q ∈ ("s1", [1, 1, -1, 0, 0, 0, 1]) :: Coef.table,
    q.1 ∉ notForward →
      0 < dotQ ratesOtis q.2 ∧ 0 < dotQ ratesAstro5 q.2 := by
  decide +kernel

theorem backward_check : ∀ q ∈ ("s1", [1, 1, -1, 0, 0, 0, 1]) :: Coef.table,
    q.1 ∈ notForward →
      dotQ ratesOtis q.2 ≤ 0 ∧ dotQ ratesAstro5 q.2 ≤ 0 := by
  decide +kernel

theorem ratesQ_cases (corrections : String) :
    ratesQ corrections = ratesOtis ∨ ratesQ corrections = ratesAstro5 := by
  unfold ratesQ; split <;> simp

/-- C53: the frequency of every constituent of the table is positive, except for the node tide
under either of its names and the constant, for every type of corrections. -/
theorem C53_positive {corrections : String} {cs : List String} {w : List ℝ}
    (h : frequency corrections cs = .ok w) (i : ℕ) {c : String} (hi : cs[i]? = some c) :
    ∃ ω, w[i]? = some ω ∧ (0 < ω ↔ c ∉ ["node", "omega0", "z0"]) := by
  obtain ⟨r, hr, hw⟩ := frequency_row h i hi
  refine ⟨_, hw, ?_⟩
  have hm : (c, r) ∈ ("s1", [1, 1, -1, 0, 0, 0, 1]) :: Coef.table := by
    rcases row_mem hr with h | ⟨rfl, rfl⟩
    · exact List.mem_cons_of_mem _ h
    · exact List.mem_cons_self
  have hpos : 0 < 2 * π / 360 / 86400 := by positivity
  have he : 2 * π * ((dotQ (ratesQ corrections) r : ℝ) / 360) / 86400 =
      2 * π / 360 / 86400 * (dotQ (ratesQ corrections) r : ℝ) := by ring
  rw [he, mul_pos_iff_of_pos_left hpos, Rat.cast_pos]
  by_cases hc : c ∈ notForward
  · have := backward_check _ hm hc
    refine ⟨fun hx => ?_, fun hx => absurd hc hx⟩
    rcases ratesQ_cases corrections with e | e <;> rw [e] at hx
    · exact absurd hx (not_lt.2 this.1)
    · exact absurd hx (not_lt.2 this.2)
  · have := forward_check _ hm hc
    refine ⟨fun _ => hc, fun _ => ?_⟩
    rcases ratesQ_cases corrections with e | e <;> rw [e]
    · exact this.1
    · exact this.2

theorem species_check : ∀ q ∈ ("s1", [1, 1, -1, 0, 0, 0, 1]) :: Coef.table, ∀ r ∈
    [ratesOtis, ratesAstro5],
      |dotQ r q.2 / r.headD 0 - (q.2.headD 0 : ℚ)| < 1 / 2 := by
  decide +kernel

/-- C53: the frequency of a constituent lies within a quarter of the frequency of M2 of as many
lunar cycles per day as its first coefficient says, for every type of corrections. -/
theorem C53_species {corrections : String} {cs : List String} {w : List ℝ} {ω₂ : ℝ}
    (h : frequency corrections cs = .ok w) (h₂ : frequency corrections ["m2"] = .ok [ω₂])
    (i : ℕ) {c : String} (hi : cs[i]? = some c) :
    ∃ ω, w[i]? = some ω ∧ ∃ r, row corrections c = .ok r ∧
      |ω - (r.headD 0 : ℤ) * (ω₂ / 2)| < ω₂ / 4 := by
  obtain ⟨r, hr, hw⟩ := frequency_row h i hi
  refine ⟨_, hw, r, hr, ?_⟩
  have hm : (c, r) ∈ ("s1", [1, 1, -1, 0, 0, 0, 1]) :: Coef.table := by
    rcases row_mem hr with h | ⟨rfl, rfl⟩
    · exact List.mem_cons_of_mem _ h
    · exact List.mem_cons_self
  have hq : ratesQ corrections ∈ [ratesOtis, ratesAstro5] := by
    rcases ratesQ_cases corrections with e | e <;> rw [e] <;> simp
  have hs := species_check _ hm _ hq
  obtain ⟨r₂, hr₂, hw₂⟩ := frequency_row h₂ 0 (c := "m2") rfl
  have e₂ : r₂ = [2, 0, 0, 0, 0, 0, 0] := by
    have hne : (otisType corrections && "m2" == "s1") = false := by simp
    have hl : Coef.table.lookup "m2" = some [2, 0, 0, 0, 0, 0, 0] := by decide +kernel
    unfold row Coef.lookup at hr₂
    rw [hne, if_neg (by simp), hl] at hr₂
    cases hr₂; rfl
  have h0 : (0 : ℚ) < (ratesQ corrections).headD 0 := by
    rcases ratesQ_cases corrections with e | e <;> rw [e] <;> decide +kernel
  have hd : dotQ (ratesQ corrections) r₂ = 2 * (ratesQ corrections).headD 0 := by
    rw [e₂]
    rcases ratesQ_cases corrections with e | e <;> rw [e] <;> decide +kernel
  simp only [List.getElem?_cons_zero, Option.some.injEq] at hw₂
  rw [hw₂, hd]
  set q := (ratesQ corrections).headD 0
  set d := dotQ (ratesQ corrections) r
  have hs' : |(d : ℝ) / q - (r.headD 0 : ℤ)| < 1 / 2 := by
    have : ((|d / q - (r.headD 0 : ℤ)| : ℚ) : ℝ) < ((1 / 2 : ℚ) : ℝ) := Rat.cast_lt.2 hs
    push_cast at this
    exact this
  have hq0 : (0 : ℝ) < q := Rat.cast_pos.2 h0
  have hk : 0 < 2 * π / 360 / 86400 * (q : ℝ) := by positivity
  have he : 2 * π * ((d : ℝ) / 360) / 86400 -
      (r.headD 0 : ℤ) * (2 * π * (((2 * q : ℚ) : ℝ) / 360) / 86400 / 2) =
      2 * π / 360 / 86400 * q * ((d : ℝ) / q - (r.headD 0 : ℤ)) := by
    push_cast
    field_simp
  rw [he, abs_mul, abs_of_pos hk]
  calc _ < 2 * π / 360 / 86400 * q * (1 / 2) := mul_lt_mul_of_pos_left hs' hk
    _ = _ := by push_cast; ring

/-! ## The other types of corrections: the phases within a century of 2000 -/

theorem cubic_rate {c₂ c₃ c₄ B x y τ : ℝ} (hx : |x| ≤ 1) (hy : |y| ≤ 1) (hτ : |τ| ≤ 1)
    (hB : 3 * |c₂| + 4 * |c₃| + 5 * |c₄| ≤ B) :
    |c₂ * (x + y - τ) + c₃ * (x ^ 2 + x * y + y ^ 2 - τ ^ 2) +
      c₄ * (x ^ 3 + x ^ 2 * y + x * y ^ 2 + y ^ 3 - τ ^ 3)| ≤ B := by
  have mono : ∀ a b : ℕ, |x ^ a * y ^ b| ≤ 1 := fun a b => by
    rw [abs_mul, abs_pow, abs_pow]
    exact mul_le_one₀ (pow_le_one₀ (abs_nonneg _) hx) (by positivity)
      (pow_le_one₀ (abs_nonneg _) hy)
  have mt : ∀ a : ℕ, |τ ^ a| ≤ 1 := fun a => by
    rw [abs_pow]; exact pow_le_one₀ (abs_nonneg _) hτ
  have e1 : |x + y - τ| ≤ 3 := by
    have := abs_le.1 hx; have := abs_le.1 hy; have := abs_le.1 hτ
    exact abs_le.2 ⟨by linarith, by linarith⟩
  have e2 : |x ^ 2 + x * y + y ^ 2 - τ ^ 2| ≤ 4 := by
    have a := abs_le.1 (mono 2 0); have b := abs_le.1 (mono 1 1); have c := abs_le.1 (mono 0 2)
    have d := abs_le.1 (mt 2)
    simp only [pow_zero, pow_one, mul_one, one_mul] at a b c
    exact abs_le.2 ⟨by linarith, by linarith⟩
  have e3 : |x ^ 3 + x ^ 2 * y + x * y ^ 2 + y ^ 3 - τ ^ 3| ≤ 5 := by
    have a := abs_le.1 (mono 3 0); have b := abs_le.1 (mono 2 1); have c := abs_le.1 (mono 1 2)
    have c' := abs_le.1 (mono 0 3)
    have d := abs_le.1 (mt 3)
    simp only [pow_zero, pow_one, mul_one, one_mul] at a b c c'
    exact abs_le.2 ⟨by linarith, by linarith⟩
  refine le_trans (abs_add_le _ _) (le_trans (add_le_add (abs_add_le _ _) le_rfl) ?_)
  rw [abs_mul, abs_mul, abs_mul]
  have := mul_le_mul_of_nonneg_left e1 (abs_nonneg c₂)
  have := mul_le_mul_of_nonneg_left e2 (abs_nonneg c₃)
  have := mul_le_mul_of_nonneg_left e3 (abs_nonneg c₄)
  linarith

/-- The curvature of the arguments, weighted by the coefficients: degrees per century. -/
def curvature (r : List ℤ) : ℚ :=
  |r.getD 1 0 - r.getD 0 0| * 0.0048 + |r.getD 0 0 + r.getD 2 0| * 0.001 +
    |r.getD 3 0| * 0.0311 + |r.getD 4 0| * 0.0063

theorem curvature_check : ∀ q ∈ ("s1", [1, 1, -1, 0, 0, 0, 1]) :: Coef.table,
    curvature q.2 ≤ 1 / 4 := by decide +kernel

theorem curvature_row {corrections c : String} {r : List ℤ} (h : row corrections c = .ok r) :
    curvature r ≤ 1 / 4 := by
  have hm : (c, r) ∈ ("s1", [1, 1, -1, 0, 0, 0, 1]) :: Coef.table := by
    rcases row_mem h with h | ⟨rfl, rfl⟩
    · exact List.mem_cons_of_mem _ h
    · exact List.mem_cons_self
  exact curvature_check (c, r) hm

/-- What remains of the difference of a longitude after its mean rate. -/
theorem longitude_rest {c₀ c₁ c₂ c₃ c₄ B x y τ : ℝ} (hx : |x| ≤ 1) (hy : |y| ≤ 1) (hτ : |τ| ≤ 1)
    (hB : 3 * |c₂| + 4 * |c₃| + 5 * |c₄| ≤ B) :
    ∃ e, |e| ≤ B ∧
      (c₀ + c₁ * y + c₂ * y ^ 2 + c₃ * y ^ 3 + c₄ * y ^ 4) -
        (c₀ + c₁ * x + c₂ * x ^ 2 + c₃ * x ^ 3 + c₄ * x ^ 4) =
      (c₁ + c₂ * τ + c₃ * τ ^ 2 + c₄ * τ ^ 3) * (y - x) + e * (y - x) :=
  ⟨_, cubic_rate hx hy hτ hB, by ring⟩

/-- C53 for GOT, FES and other corrections: within a century of 2000 the phase of each
constituent advances by the frequency reported for it times the time elapsed, up to whole cycles
and a quarter of a degree per century. -/
theorem C53_phase_rate_century (corrections m1 : String)
    (ht : otisType corrections = false)
    (deltat t₁ t₂ : ℝ) (hc₁ : |t₁ + deltat - 51544.5| ≤ 36525)
    (hc₂ : |t₂ + deltat - 51544.5| ≤ 36525)
    (cs : List String) {a₁ a₂ : List (ℝ × ℝ) × List ℝ} {w : List ℝ}
    (h₁ : arguments corrections m1 deltat t₁ cs = .ok a₁)
    (h₂ : arguments corrections m1 deltat t₂ cs = .ok a₂)
    (hw : frequency corrections cs = .ok w) (i : ℕ) (hi : i < cs.length) :
    ∃ g₁ g₂ ω : ℝ, a₁.2[i]? = some g₁ ∧ a₂.2[i]? = some g₂ ∧ w[i]? = some ω ∧
      ∃ m : ℤ, |(g₂ - g₁) * (π / 180) - ω * (86400 * (t₂ - t₁)) - 2 * π * m| ≤
        (1 / 4 * (π / 180)) * (|t₂ - t₁| / 36525) := by
  obtain ⟨rows, hr, e₁⟩ := arguments_ok h₁
  obtain ⟨rows₂, hr₂, e₂⟩ := arguments_ok h₂
  obtain ⟨rows₃, hr₃, e₃⟩ := frequency_ok hw
  cases hr.symm.trans hr₂
  cases hr.symm.trans hr₃
  have hlen := pyMap_length hr
  obtain ⟨r, hir⟩ : ∃ r, rows[i]? = some r := ⟨rows[i], List.getElem?_eq_getElem (hlen ▸ hi)⟩
  obtain ⟨c, -, hc⟩ := pyMap_getElem hr i r hir
  have h7 := row_length hc
  have hcur : curvature r ≤ 1 / 4 := curvature_row hc
  refine ⟨_, _, _, by rw [e₁, List.getElem?_map, hir]; rfl, by rw [e₂, List.getElem?_map, hir]; rfl,
    by rw [e₃, List.getElem?_map, hir]; rfl, ?_⟩
  obtain ⟨c0, c1, c2, c3, c4, c5, c6, rfl⟩ : ∃ c0 c1 c2 c3 c4 c5 c6,
      r = [c0, c1, c2, c3, c4, c5, c6] := by
    match r, h7 with
    | [c0, c1, c2, c3, c4, c5, c6], _ => exact ⟨c0, c1, c2, c3, c4, c5, c6, rfl⟩
  obtain ⟨k0, k1, k2, k3, k4, hk⟩ := fargs_raw corrections deltat t₁
  obtain ⟨l0, l1, l2, l3, l4, hl⟩ := fargs_raw corrections deltat t₂
  refine ⟨(l0 - k0) * c0 + (l1 - k1) * c1 + (l2 - k2) * c2 + (l3 - k3) * c3 + (l4 - k4) * c4, ?_⟩
  rw [hk, hl, rates_eq]
  have hm : modeOf corrections = .astro5 := by unfold modeOf; rw [ht]; rfl
  have hq : ratesQ corrections = ratesAstro5 := by unfold ratesQ; rw [ht]; rfl
  rw [hm, hq]
  set x : ℝ := (t₁ + deltat - 51544.5) / 36525 with hxd
  set y : ℝ := (t₂ + deltat - 51544.5) / 36525 with hyd
  have hx : |x| ≤ 1 := by rw [hxd, abs_div, abs_of_pos (by norm_num : (0 : ℝ) < 36525)]; linarith
  have hy : |y| ≤ 1 := by rw [hyd, abs_div, abs_of_pos (by norm_num : (0 : ℝ) < 36525)]; linarith
  have hyx : t₂ - t₁ = 36525 * (y - x) := by rw [hxd, hyd]; ring
  have hτ : |(0.05 / 36525 : ℝ)| ≤ 1 := by rw [abs_of_pos] <;> norm_num
  obtain ⟨es, bs, hs⟩ := longitude_rest (c₀ := 218.3164477) (c₁ := 481267.88123421)
    (c₂ := -1.5786e-3) (c₃ := 1.855835e-6) (c₄ := -1.53388e-8) (B := 0.0048) hx hy hτ
    (by norm_num [abs_of_pos, abs_of_neg])
  obtain ⟨eh, bh, hh⟩ := longitude_rest (c₀ := 218.3164477 - 297.8501921)
    (c₁ := 481267.88123421 - 445267.1114034) (c₂ := -1.5786e-3 - -1.8819e-3)
    (c₃ := 1.855835e-6 - 1.83195e-6) (c₄ := -1.53388e-8 - -8.8445e-9) (B := 0.001) hx hy hτ
    (by norm_num [abs_of_pos, abs_of_neg])
  obtain ⟨ep, bp, hp⟩ := longitude_rest (c₀ := 83.3532465) (c₁ := 4069.0137287)
    (c₂ := -1.032e-2) (c₃ := -1.249172e-5) (c₄ := 0) (B := 0.0311) hx hy hτ
    (by norm_num [abs_of_pos, abs_of_neg])
  obtain ⟨en, bn, hn⟩ := longitude_rest (c₀ := 125.04452) (c₁ := -1934.136261)
    (c₂ := 2.0708e-3) (c₃ := 2.22222e-6) (c₄ := 0) (B := 0.0063) hx hy hτ
    (by norm_num [abs_of_pos, abs_of_neg])
  have hcur' : |(c1 : ℝ) - c0| * 0.0048 + |(c0 : ℝ) + c2| * 0.001 + |(c3 : ℝ)| * 0.0311 +
      |(c4 : ℝ)| * 0.0063 ≤ 1 / 4 := by
    have : ((curvature [c0, c1, c2, c3, c4, c5, c6] : ℚ) : ℝ) ≤ ((1 / 4 : ℚ) : ℝ) :=
      Rat.cast_le.2 hcur
    simp only [curvature, List.getD_cons_zero, List.getD_cons_succ] at this
    push_cast at this
    linarith
  have hE : |((c1 : ℝ) - c0) * es + (c0 + c2) * eh + c3 * ep + c4 * en| ≤ 1 / 4 := by
    refine le_trans ((abs_add_le _ _).trans (add_le_add ((abs_add_le _ _).trans
      (add_le_add (abs_add_le _ _) le_rfl)) le_rfl)) (le_trans ?_ hcur')
    rw [abs_mul, abs_mul, abs_mul, abs_mul]
    gcongr
  have key : ∀ (a b : ℝ), a = (((c1 : ℝ) - c0) * es + (c0 + c2) * eh + c3 * ep + c4 * en) *
      (y - x) * (π / 180) → |a| ≤ 1 / 4 * (π / 180) * (|t₂ - t₁| / 36525) := by
    intro a b ha
    rw [ha, hyx, abs_mul, abs_mul, abs_mul, abs_of_pos (by norm_num : (0 : ℝ) < 36525),
      abs_of_pos (by positivity : 0 < π / 180)]
    have := mul_le_mul_of_nonneg_right hE (by positivity : 0 ≤ |y - x| * (π / 180))
    calc _ = _ := mul_assoc _ _ _
      _ ≤ _ := this
      _ = _ := by ring
  refine key _ 0 ?_
  have hyx' : t₂ - t₁ - 36525 * (y - x) = 0 := by linarith
  rw [hyx]
  simp only [rawLongitudes, dot, ratesAstro5, polyRate, lunarQ, elongationQ, Math.polynomialSum,
    List.map, List.zipWith, List.zipIdx, List.sum, List.foldr, List.headD, ← hxd, ← hyd]
  push_cast
  linear_combination ((c1 : ℝ) - c0) * (π / 180) * hs + ((c0 : ℝ) + c2) * (π / 180) * hh +
    (c3 : ℝ) * (π / 180) * hp + (c4 : ℝ) * (π / 180) * hn + 2 * π * c0 * hyx'

end Verif.Astro
