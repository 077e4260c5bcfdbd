import Verif.Model.Love
import Verif.Props.Parameters

/-!
# C64: Love numbers by frequency
-/

namespace Verif.Love

open Verif Verif.Astro Real

/-- The frequency of one constituent. -/
theorem frequency_one {corrections c : String} {r : List ℤ} (h : row corrections c = .ok r) :
    frequency corrections [c] = .ok [π * (dotQ (ratesQ corrections) r : ℝ) / 15552000] := by
  have hc : coefficients corrections [c] = .ok [r] := by
    unfold coefficients
    simp only [pyMap, h, ok_bind]
  have e : frequency corrections [c] = .ok [2 * π * dot (rates corrections) r / 360] := by
    unfold frequency
    rw [hc, ok_bind]
    rfl
  rw [e, rates_eq, dot_map]
  congr 2
  ring

/-- Degrees per day of o1 for OTIS models. -/
def dayO1 : ℚ := 334.6328544

theorem omegaO1_eq : omegaO1 = .ok (π * (dayO1 : ℝ) / 15552000) := by
  have hr : row "OTIS" "o1" = .ok [1, -1, 0, 0, 0, 0, -1] := by decide +kernel
  have hd : dotQ (ratesQ "OTIS") [1, -1, 0, 0, 0, 0, -1] = dayO1 := by decide +kernel
  unfold omegaO1
  rw [frequency_one hr, ok_bind, hd]

theorem o1_bounds : 6.75977e-5 < π * (dayO1 : ℝ) / 15552000 ∧
    π * (dayO1 : ℝ) / 15552000 < 6.75978e-5 := by
  have h1 := pi_gt_d6
  have h2 := pi_lt_d6
  have e : (dayO1 : ℝ) = 334.6328544 := by unfold dayO1; push_cast; norm_num
  rw [e]
  constructor <;> linarith

/-- The four Earth models. -/
def models : List String := ["1066A", "PEM-C", "C2", "PREM"]

theorem earth_iff (model : String) : (∃ e, earth model = .ok e) ↔ model ∈ models := by
  unfold earth models
  by_cases h1 : model = "1066A"
  · simp [h1]
  by_cases h2 : model = "PEM-C"
  · simp [h2]
  by_cases h3 : model = "C2"
  · simp [h3]
  by_cases h4 : model = "PREM"
  · simp [h4]
  simp [h1, h2, h3, h4]

/-- C64: Love numbers are given for exactly the four Earth models, at every frequency; any other
name is an error, even where the Earth model would not matter. -/
theorem C64_models (omega : ℝ) (model : String) :
    (model ∈ models → ∃ r, loveNumbers omega model = .ok r) ∧
      (model ∉ models → loveNumbers omega model = .error .valueError) := by
  constructor
  · intro h
    obtain ⟨e, he⟩ := (earth_iff model).2 h
    unfold loveNumbers
    rw [he, ok_bind]
    split
    · exact ⟨_, rfl⟩
    split
    · exact ⟨_, rfl⟩
    rw [omegaO1_eq, ok_bind]
    exact ⟨_, rfl⟩
  · intro h
    have he : earth model = .error .valueError := by
      cases hx : earth model with
      | ok e => exact absurd ((earth_iff model).1 ⟨e, hx⟩) h
      | error x =>
        unfold earth at hx
        split at hx
        · cases hx
        split at hx
        · cases hx
        split at hx
        · cases hx
        split at hx
        · cases hx
        exact hx.symm
    unfold loveNumbers
    rw [he]
    rfl

/-- C64: outside the diurnal band the Love numbers depend neither on the Earth model nor on the
frequency; the tilt factor is 0.693 in both bands. -/
theorem C64_bands (omega : ℝ) (model : String) (h : model ∈ models) :
    (1e-4 < omega → loveNumbers omega model = .ok (0.609, 0.302, 0.0852)) ∧
      (omega < 2e-5 → loveNumbers omega model = .ok (0.606, 0.299, 0.0840)) ∧
      ((1e-4 < omega ∨ omega < 2e-5) → ∃ h2 k2 l2, loveNumbers omega model = .ok (h2, k2, l2) ∧
        1 + k2 - h2 = 0.693) := by
  obtain ⟨e, he⟩ := (earth_iff model).2 h
  have a1 : 1e-4 < omega → loveNumbers omega model = .ok (0.609, 0.302, 0.0852) := by
    intro hw
    unfold loveNumbers
    rw [he, ok_bind, if_pos hw]
  have a2 : omega < 2e-5 → loveNumbers omega model = .ok (0.606, 0.299, 0.0840) := by
    intro hw
    unfold loveNumbers
    rw [he, ok_bind, if_neg (by norm_num at hw ⊢; linarith), if_pos hw]
  refine ⟨a1, a2, ?_⟩
  rintro (hw | hw)
  · exact ⟨_, _, _, a1 hw, by norm_num⟩
  · exact ⟨_, _, _, a2 hw, by norm_num⟩

/-- The diurnal band. -/
theorem diurnal_eq {omega : ℝ} {model : String} {e : Earth} (he : earth model = .ok e)
    (h1 : 2e-5 ≤ omega) (h2 : omega ≤ 1e-4) :
    loveNumbers omega model =
      let ratio := (omega - π * (dayO1 : ℝ) / 15552000) / (e.fcn * 7292115e-11 - omega)
      .ok (e.h0 + e.h1 * ratio, e.k0 + e.k1 * ratio, e.l0 + e.l1 * ratio) := by
  unfold loveNumbers
  rw [he, ok_bind, if_neg (not_lt.2 h2), if_neg (not_lt.2 h1), omegaO1_eq, ok_bind]

/-- C64: at the frequency of o1 the Love numbers are the nominal ones of the Earth model. -/
theorem C64_nominal (model : String) (e : Earth) (he : earth model = .ok e) :
    ∃ w, frequency "OTIS" ["o1"] = .ok [w] ∧ loveNumbers w model = .ok (e.h0, e.k0, e.l0) := by
  have hr : row "OTIS" "o1" = .ok [1, -1, 0, 0, 0, 0, -1] := by decide +kernel
  have hd : dotQ (ratesQ "OTIS") [1, -1, 0, 0, 0, 0, -1] = dayO1 := by decide +kernel
  have hf := frequency_one hr
  rw [hd] at hf
  refine ⟨_, hf, ?_⟩
  obtain ⟨b1, b2⟩ := o1_bounds
  rw [diurnal_eq he (by norm_num at b1 ⊢; linarith) (by norm_num at b2 ⊢; linarith), sub_self,
    zero_div]
  dsimp only
  rw [mul_zero, mul_zero, mul_zero, add_zero, add_zero, add_zero]

/-- The frequency of the free core nutation of PREM, radians per second. -/
noncomputable def fcnPrem : ℝ := 1.0023214 * 7292115e-11

/-- The tilt factor of PREM in the diurnal band. -/
theorem tilt_prem {omega : ℝ} (h1 : 2e-5 ≤ omega) (h2 : omega ≤ 1e-4) :
    ∃ h k l, loveNumbers omega "PREM" = .ok (h, k, l) ∧
      1 + k - h = 0.6968 + 0.001261 * ((omega - π * (dayO1 : ℝ) / 15552000) / (fcnPrem - omega)) := by
  have he : earth "PREM" =
      .ok ⟨1.0023214, 5.994e-1, -2.532e-3, 2.962e-1, -1.271e-3, 8.378e-2, 7.932e-5⟩ := by
    unfold earth
    rw [if_neg (by decide), if_neg (by decide), if_neg (by decide), if_pos rfl]
  refine ⟨_, _, _, diurnal_eq he h1 h2, ?_⟩
  unfold fcnPrem
  ring

/-- C64: away from the resonance the tilt factor of the default Earth model lies between 0.3 and
0.8: below the free core nutation by 1e-7 radians per second or above it by 2e-8. -/
theorem C64_tilt (omega : ℝ) (h1 : 2e-5 ≤ omega) (h2 : omega ≤ 1e-4)
    (hr : 1e-7 ≤ fcnPrem - omega ∨ 2e-8 ≤ omega - fcnPrem) :
    ∃ h k l, loveNumbers omega "PREM" = .ok (h, k, l) ∧ 0.3 < 1 + k - h ∧ 1 + k - h < 0.8 := by
  obtain ⟨h, k, l, hl, ht⟩ := tilt_prem h1 h2
  refine ⟨h, k, l, hl, ?_⟩
  rw [ht]
  obtain ⟨b1, b2⟩ := o1_bounds
  generalize π * (dayO1 : ℝ) / 15552000 = o at *
  have f1 : 7.309e-5 < fcnPrem := by unfold fcnPrem; norm_num
  have f2 : fcnPrem < 7.3091e-5 := by unfold fcnPrem; norm_num
  rcases hr with hr | hr
  · have p : 0 < fcnPrem - omega := by norm_num at hr ⊢; linarith
    have q1 : -1 ≤ (omega - o) / (fcnPrem - omega) := by
      rw [le_div_iff₀ p]; norm_num at b2 f1 ⊢; linarith
    have q2 : (omega - o) / (fcnPrem - omega) ≤ 55 := by
      rw [div_le_iff₀ p]; norm_num at b1 b2 f1 f2 hr ⊢; linarith
    constructor <;> linarith
  · have p : 0 < omega - fcnPrem := by norm_num at hr ⊢; linarith
    have e : (omega - o) / (fcnPrem - omega) = -((omega - o) / (omega - fcnPrem)) := by
      rw [← div_neg]; congr 1; ring
    have q1 : 1 ≤ (omega - o) / (omega - fcnPrem) := by
      rw [le_div_iff₀ p]; norm_num at b2 f1 ⊢; linarith
    have q2 : (omega - o) / (omega - fcnPrem) ≤ 300 := by
      rw [div_le_iff₀ p]; norm_num at b1 b2 f1 f2 hr ⊢; linarith
    rw [e]
    constructor <;> linarith

/-- The diurnal constituents of the inference: pivots and inferred ones. -/
def diurnalNames : List String := ["q1", "o1", "k1", "2q1", "sigma1", "rho1", "tau1", "beta1", "m1a",
  "m1b", "chi1", "pi1", "p1", "psi1", "phi1", "theta1", "j1", "so1", "oo1", "ups1"]

/-- Rational bounds on π and on the free core nutation, times 15552000. -/
def okDay (q : ℚ) : Bool :=
  decide (2e-5 * 15552000 ≤ 3.141592 * q ∧ 3.141593 * q ≤ 1e-4 * 15552000 ∧
    (3.141593 * q ≤ (7.309e-5 - 1e-7) * 15552000 ∨ (7.3091e-5 + 2e-8) * 15552000 ≤ 3.141592 * q))

theorem names_check : ∀ c ∈ diurnalNames, c ≠ "s1" ∧ ∃ r ∈ (Coef.table.lookup c).toList,
    okDay (dotQ ratesOtis r) = true ∧ okDay (dotQ ratesAstro5 r) = true := by
  decide +kernel

/-- C64: at the frequency of every diurnal constituent that the inference uses, for every type of
corrections, the Love numbers are defined and the tilt factor is between 0.3 and 0.8, so that
dividing by it is harmless. -/
theorem C64_diurnal (corrections c : String) (hc : c ∈ diurnalNames) :
    ∃ w h k l, frequency corrections [c] = .ok [w] ∧ loveNumbers w "PREM" = .ok (h, k, l) ∧
      0.3 < 1 + k - h ∧ 1 + k - h < 0.8 := by
  obtain ⟨hs, r, hr, k1, k2⟩ := names_check c hc
  have hr' : row corrections c = .ok r := by
    unfold row Coef.lookup
    rw [if_neg (by simp [hs])]
    rw [Option.mem_toList] at hr
    rw [hr]
  have hok : okDay (dotQ (ratesQ corrections) r) = true := by
    rcases ratesQ_cases corrections with e | e <;> rw [e] <;> assumption
  generalize hq : dotQ (ratesQ corrections) r = q at hok
  have hf := frequency_one hr'
  rw [hq] at hf
  unfold okDay at hok
  rw [decide_eq_true_iff] at hok
  obtain ⟨g1, g2, g3⟩ := hok
  have hp1 := pi_gt_d6
  have hp2 := pi_lt_d6
  have g1' : (2e-5 * 15552000 : ℝ) ≤ 3.141592 * q := by
    have t := (Rat.cast_le (K := ℝ)).2 g1
    push_cast at t
    norm_num at t ⊢
    linarith
  have g2' : (3.141593 * q : ℝ) ≤ 1e-4 * 15552000 := by
    have t := (Rat.cast_le (K := ℝ)).2 g2
    push_cast at t
    norm_num at t ⊢
    linarith
  have hq0 : (0 : ℝ) < q := by norm_num at g1' ⊢; linarith
  have m1 : 3.141592 * (q : ℝ) ≤ π * q := mul_le_mul_of_nonneg_right hp1.le hq0.le
  have m2 : π * (q : ℝ) ≤ 3.141593 * q := mul_le_mul_of_nonneg_right hp2.le hq0.le
  have f1 : 7.309e-5 < fcnPrem := by unfold fcnPrem; norm_num
  have f2 : fcnPrem < 7.3091e-5 := by unfold fcnPrem; norm_num
  obtain ⟨h, k, l, a, b⟩ := C64_tilt (π * (q : ℝ) / 15552000)
    (by rw [le_div_iff₀ (by norm_num)]; linarith)
    (by rw [div_le_iff₀ (by norm_num)]; linarith)
    (by
      rcases g3 with g | g
      · left
        have g' : (3.141593 * q : ℝ) ≤ (7.309e-5 - 1e-7) * 15552000 := by
          have t := (Rat.cast_le (K := ℝ)).2 g
          push_cast at t
          norm_num at t ⊢
          linarith
        have : π * (q : ℝ) / 15552000 ≤ 7.309e-5 - 1e-7 := by
          rw [div_le_iff₀ (by norm_num)]; linarith
        linarith
      · right
        have g' : ((7.3091e-5 + 2e-8) * 15552000 : ℝ) ≤ 3.141592 * q := by
          have t := (Rat.cast_le (K := ℝ)).2 g
          push_cast at t
          norm_num at t ⊢
          linarith
        have : 7.3091e-5 + 2e-8 ≤ π * (q : ℝ) / 15552000 := by
          rw [le_div_iff₀ (by norm_num)]; linarith
        linarith)
  exact ⟨_, h, k, l, hf, a, b⟩

/-- The tilt factor at a rational frequency with a rational value for the frequency of o1. -/
def tiltQ (w : ℚ) : ℚ := 0.6968 + 0.001261 * ((w - 6.759775e-5) / (1.0023214 * 7292115e-11 - w))

theorem alpha_check : ∀ q ∈ Parameters.table,
    (q.2.species = 1 → (2e-5 ≤ q.2.omega ∧ q.2.omega ≤ 1e-4) ∧
      1e-7 ≤ |1.0023214 * 7292115e-11 - q.2.omega| ∧ |tiltQ q.2.omega - q.2.alpha| ≤ 0.0033) ∧
    (q.2.species ≠ 1 → (1e-4 < q.2.omega ∨ q.2.omega < 2e-5) ∧ q.2.alpha = 0.693) := by
  decide +kernel

/-- C64: the load factors tabulated for the OTIS constituents are the tilt factors of these Love
numbers: exactly for all but the diurnal constituents, within 0.0035 for those, including the
resonant k1. -/
theorem C64_alpha (c : String) (p : Parameters.Params) (hp : (c, p) ∈ Parameters.table) :
    ∃ h k l, loveNumbers p.omega "PREM" = .ok (h, k, l) ∧
      (p.species ≠ 1 → 1 + k - h = p.alpha) ∧ |(1 + k - h) - p.alpha| ≤ 0.0035 := by
  obtain ⟨d1, d2⟩ := alpha_check _ hp
  dsimp only at d1 d2
  by_cases hs : p.species = 1
  · obtain ⟨⟨w1, w2⟩, g, t⟩ := d1 hs
    have w1' : (2e-5 : ℝ) ≤ (p.omega : ℝ) := by
      have t := (Rat.cast_le (K := ℝ)).2 w1
      push_cast at t
      norm_num at t ⊢
      linarith
    have w2' : (p.omega : ℝ) ≤ 1e-4 := by
      have t := (Rat.cast_le (K := ℝ)).2 w2
      push_cast at t
      norm_num at t ⊢
      linarith
    obtain ⟨h, k, l, hl, ht⟩ := tilt_prem w1' w2'
    refine ⟨h, k, l, hl, fun h => absurd hs h, ?_⟩
    rw [ht]
    obtain ⟨b1, b2⟩ := o1_bounds
    generalize π * (dayO1 : ℝ) / 15552000 = o at *
    have g' : (1e-7 : ℝ) ≤ |fcnPrem - p.omega| := by
      have t := (Rat.cast_le (K := ℝ)).2 g
      unfold fcnPrem
      push_cast at t
      norm_num at t ⊢
      exact t
    have t' : |(0.6968 + 0.001261 * (((p.omega : ℝ) - 6.759775e-5) / (fcnPrem - p.omega))) -
        (p.alpha : ℝ)| ≤ 0.0033 := by
      have t2 := (Rat.cast_le (K := ℝ)).2 t
      unfold tiltQ at t2; unfold fcnPrem
      push_cast at t2
      norm_num at t2 ⊢
      exact t2
    have e : (0.6968 + 0.001261 * (((p.omega : ℝ) - o) / (fcnPrem - p.omega))) - (p.alpha : ℝ) =
        ((0.6968 + 0.001261 * (((p.omega : ℝ) - 6.759775e-5) / (fcnPrem - p.omega))) -
        (p.alpha : ℝ)) + 0.001261 * ((6.759775e-5 - o) / (fcnPrem - p.omega)) := by ring
    have s : |0.001261 * ((6.759775e-5 - o) / (fcnPrem - p.omega))| ≤ 0.0002 := by
      have hpos : 0 < |fcnPrem - (p.omega : ℝ)| := lt_of_lt_of_le (by norm_num) g'
      have hn : |6.759775e-5 - o| ≤ 1e-10 := by
        norm_num at b1 b2 ⊢
        exact abs_le.2 ⟨by linarith, by linarith⟩
      have hd : |6.759775e-5 - o| / |fcnPrem - (p.omega : ℝ)| ≤ 1e-1 := by
        rw [div_le_iff₀ hpos]; norm_num at hn g' ⊢; linarith
      rw [abs_mul, abs_div, abs_of_pos (by norm_num : (0 : ℝ) < 0.001261)]
      linarith
    rw [e]
    exact (abs_add_le _ _).trans (by linarith)
  · obtain ⟨w, ha⟩ := d2 hs
    have w' : (1e-4 : ℝ) < (p.omega : ℝ) ∨ (p.omega : ℝ) < 2e-5 := by
      rcases w with w | w
      · left
        have t := (Rat.cast_lt (K := ℝ)).2 w
        push_cast at t
        norm_num at t ⊢
        exact t
      · right
        have t := (Rat.cast_lt (K := ℝ)).2 w
        push_cast at t
        norm_num at t ⊢
        exact t
    obtain ⟨h, k, l, hl, ht⟩ := (C64_bands (p.omega : ℝ) "PREM" (by decide)).2.2 w'
    have ha' : (p.alpha : ℝ) = 0.693 := by rw [ha]; norm_num
    refine ⟨h, k, l, hl, fun _ => by rw [ht, ha'], ?_⟩
    rw [ht, ha', sub_self, abs_zero]
    norm_num

/-- The tilt factor of k1 differs from that of o1 by a resonance of four per cent. -/
example : ("k1", (⟨0.141565, 0.173003674, 7.292117e-5, 0.736, 1⟩ : Parameters.Params)) ∈
    Parameters.table := by decide +kernel

end Verif.Love
