import Verif.Props.SolidEarth
import Verif.Lemmas.Py

/-!
# Solid Earth tides: linearity and rotations (C39), corrections and permanent tide (C40)
-/

namespace Verif.SolidEarth

open Verif Real Spec

/-! ### C39: linearity, rotations, the axis -/

/-- C39, mass ratios.  The displacement is an affine function of the two mass ratios: what the
code computes for masses `m` (Sun) and `n` (Moon) is what it computes without Sun and Moon, plus
`m` times the effect of a unit Sun and `n` times the effect of a unit Moon. -/
theorem C39_linear (k : Keywords) (a t : ℝ) (meanTide : Bool) (X S L : Vec) (m n : ℝ) :
    let f := fun m n => tideRow { k with massRatioSolar := m, massRatioLunar := n } a meanTide t
      X S L
    f m n = f 0 0 + m • (f 1 0 - f 0 0) + n • (f 0 1 - f 0 0) := by
  dsimp only
  cases meanTide <;>
  · simp only [tideRow, loveH2, shidaL2, Bool.false_eq_true, if_false, if_true]
    generalize frequencyDiurnal X (doodsonArguments (t + 48622)) = u
    generalize frequencyLongPeriod X (doodsonArguments (t + 48622)) = v
    try generalize freeToMean X _ _ = w
    refine vec_ext ?_ ?_ ?_ <;>
      simp only [Pi.add_apply, Pi.sub_apply, Pi.smul_apply, smul_eq_mul, inPhase, degree2,
        degree3, F2, F3, outOfPhaseDiurnal, outOfPhaseSemidiurnal, latitudeDependence,
        diurnalOffsets, semidiurnalOffsets, latitudeOffsets, loveH2, shidaL2, Matrix.cons_val_zero,
        Matrix.cons_val_one, Matrix.cons_val] <;>
      ring

theorem turn_point (x r p l : ℝ) : turn x (point r p l) = point r p (l + x) := by
  refine vec_ext ?_ ?_ ?_ <;>
    simp only [turn, Matrix.cons_val_zero, Matrix.cons_val_one, Matrix.cons_val, point_0, point_1,
      point_2, cos_add, sin_add] <;> ring

theorem turn_add (x : ℝ) (v w : Vec) : turn x (v + w) = turn x v + turn x w := by
  refine vec_ext ?_ ?_ ?_ <;>
    simp only [turn, Matrix.cons_val_zero, Matrix.cons_val_one, Matrix.cons_val, Pi.add_apply] <;>
    ring

theorem turn_local3 (x u n e p l : ℝ) : turn x (local3 u n e p l) = local3 u n e p (l + x) := by
  refine vec_ext ?_ ?_ ?_ <;>
    simp only [turn, Matrix.cons_val_zero, Matrix.cons_val_one, Matrix.cons_val, local3_0,
      local3_1, local3_2, cos_add, sin_add] <;> ring

theorem turn_byBody (h2 l2 h3 l3 ratio a R P L l x : ℝ) {p : ℝ} (hp : 0 < cos p) :
    byBody h2 l2 h3 l3 ratio a R P (L + x) p (l + x) =
      turn x (byBody h2 l2 h3 l3 ratio a R P L p l) := by
  simp only [byBody, response_two _ _ _ _ _ hp, response_three _ _ _ _ _ hp,
    response_diurnal _ _ _ _ _ hp, response_semidiurnal _ _ _ _ _ hp, latitudeDiurnal,
    latitudeSemidiurnal, turn_add, turn_local3, add_sub_add_right_eq_sub]

theorem offsets_sum (k : Keywords) (a : ℝ) {r p R R' P P' : ℝ} (hr : 0 < r)
    (hp : 0 < cos p) (hR : 0 < R) (hR' : 0 < R') (hP : 0 ≤ cos P) (hP' : 0 ≤ cos P')
    (l L L' : ℝ) :
    inPhase k a (point r p l) (point R P L) (point R' P' L') +
      outOfPhaseDiurnal (point r p l) (point R P L) (point R' P' L')
        (F2 k.massRatioSolar a (point R P L)) (F2 k.massRatioLunar a (point R' P' L')) +
      outOfPhaseSemidiurnal (point r p l) (point R P L) (point R' P' L')
        (F2 k.massRatioSolar a (point R P L)) (F2 k.massRatioLunar a (point R' P' L')) +
      latitudeDependence (point r p l) (point R P L) (point R' P' L')
        (F2 k.massRatioSolar a (point R P L)) (F2 k.massRatioLunar a (point R' P' L')) =
      byBody (k.h2 - 0.0006 * (1 - 3 / 2 * cos p ^ 2))
          (k.l2 + 0.0002 * (1 - 3 / 2 * cos p ^ 2)) k.h3 k.l3 k.massRatioSolar a R P L p l +
        byBody (k.h2 - 0.0006 * (1 - 3 / 2 * cos p ^ 2))
          (k.l2 + 0.0002 * (1 - 3 / 2 * cos p ^ 2)) k.h3 k.l3 k.massRatioLunar a R' P' L' p l := by
  have hin : inPhase k a (point r p l) (point R P L) (point R' P' L') =
      degree2 k k.massRatioSolar a (point r p l) (point R P L) +
      degree2 k k.massRatioLunar a (point r p l) (point R' P' L') +
      degree3 k k.massRatioSolar a (point r p l) (point R P L) +
      degree3 k k.massRatioLunar a (point r p l) (point R' P' L') := by
    funext i; rfl
  rw [hin, degree2_point _ _ _ hr hp hR, degree2_point _ _ _ hr hp hR',
    degree3_point _ _ _ hr hp hR, degree3_point _ _ _ hr hp hR',
    outOfPhaseDiurnal_point hr hp hR hR', outOfPhaseSemidiurnal_point hr hp hR hR',
    latitudeDependence_point hr hp hR hR' hP hP', F2_point hR, F2_point hR', byBody, byBody]
  abel

/-- C39, rotations.  Turning station, Sun and Moon together about the axis of the Earth turns the
displacement by Sun and Moon (in phase, out of phase and latitude dependent). -/
theorem C39_turn (k : Keywords) (a x : ℝ) (X S L : Vec) (h : ¬ Degenerate X S L) :
    let f := fun X S L => inPhase k a X S L +
      outOfPhaseDiurnal X S L (F2 k.massRatioSolar a S) (F2 k.massRatioLunar a L) +
      outOfPhaseSemidiurnal X S L (F2 k.massRatioSolar a S) (F2 k.massRatioLunar a L) +
      latitudeDependence X S L (F2 k.massRatioSolar a S) (F2 k.massRatioLunar a L)
    f (turn x X) (turn x S) (turn x L) = turn x (f X S L) := by
  simp only [Degenerate, not_or] at h
  obtain ⟨r, p, l, hr, hp, rfl⟩ := exists_point X h.1
  obtain ⟨R, P, la, hR, hP, rfl⟩ := exists_body S h.2.1
  obtain ⟨R', P', la', hR', hP', rfl⟩ := exists_body L h.2.2
  dsimp only
  simp only [turn_point]
  rw [offsets_sum k a hr hp hR hR' hP hP', offsets_sum k a hr hp hR hR' hP hP', turn_byBody _ _ _ _
    _ _ _ _ _ _ _ hp, turn_byBody _ _ _ _ _ _ _ _ _ _ _ hp, turn_add]

/-- C39, refuted on the axis: a station at a pole gets no displacement (not a number), wherever
Sun and Moon are. -/
theorem C39_axis_false (k : Keywords) (a t z : ℝ) (meanTide : Bool) (S L : Vec) :
    tideOrNaN k a meanTide t ![0, 0, z] S L = none := by
  have h : Degenerate ![0, 0, z] S L := Or.inl ⟨rfl, rfl⟩
  rw [tideOrNaN, if_pos h]

/-! ### C40: directions -/

/-- The three directions are perpendicular unit vectors. -/
theorem C40_frame (p l : ℝ) :
    dotProduct (up p l) (up p l) = 1 ∧ dotProduct (north p l) (north p l) = 1 ∧
    dotProduct (east l) (east l) = 1 ∧ dotProduct (up p l) (north p l) = 0 ∧
    dotProduct (up p l) (east l) = 0 ∧ dotProduct (north p l) (east l) = 0 := by
  have h1 := sin_sq_add_cos_sq p
  have h2 := sin_sq_add_cos_sq l
  simp only [up, north, east, dotProduct, Fin.sum_univ_three, Matrix.cons_val_zero,
    Matrix.cons_val_one, Matrix.cons_val]
  refine ⟨?_, ?_, ?_, ?_, ?_, ?_⟩
  · linear_combination cos p ^ 2 * h2 + h1
  · linear_combination sin p ^ 2 * h2 + h1
  · linear_combination h2
  · linear_combination (-(cos p * sin p)) * h2
  · ring
  · ring

/-- C40.  The latitude dependent correction is horizontal: it has no component along the direction
from the centre of the Earth to the station, for any station off the axis. -/
theorem C40_horizontal (X S L : Vec) (f g : ℝ) (h : ¬ (X 0 = 0 ∧ X 1 = 0)) :
    dotProduct (latitudeDependence X S L f g) X = 0 := by
  obtain ⟨r, p, l, hr, hp, rfl⟩ := exists_point X h
  rw [latitudeDependence, assemble_horizontal hr hp]
  simp only [dotProduct, Fin.sum_univ_three, local3_0, local3_1, local3_2, point_0, point_1,
    point_2]
  have h2 := sin_sq_add_cos_sq l
  generalize (3 * ((latitudeOffsets f (point r p l) S).1 + _ + _ + _)) = N
  linear_combination (-(N * sin p * r * cos p)) * h2

theorem angle_point {r p : ℝ} (hr : 0 < r) (hp : 0 < cos p) (l x : ℝ) :
    sin (x + Spatial.arctan2 (point r p l 1) (point r p l 0)) = sin (x + l) ∧
    cos (x + Spatial.arctan2 (point r p l 1) (point r p l 0)) = cos (x + l) := by
  have hrp : 0 < r * cos p := mul_pos hr hp
  have hn : ‖(⟨point r p l 0, point r p l 1⟩ : ℂ)‖ = r * cos p := by
    rw [Complex.norm_def, Complex.normSq_mk, sqrt_eq_iff_mul_self_eq (by
      nlinarith [mul_self_nonneg (point r p l 0), mul_self_nonneg (point r p l 1)]) hrp.le,
      point_0, point_1]
    have h2 := sin_sq_add_cos_sq l
    linear_combination r ^ 2 * cos p ^ 2 * h2
  have h0 : (⟨point r p l 0, point r p l 1⟩ : ℂ) ≠ 0 := by
    intro e; rw [e, norm_zero] at hn; exact hrp.ne hn
  have hc : cos (Spatial.arctan2 (point r p l 1) (point r p l 0)) = cos l := by
    rw [Spatial.arctan2, Complex.cos_arg h0, hn, point_0]; field_simp
  have hs : sin (Spatial.arctan2 (point r p l 1) (point r p l 0)) = sin l := by
    rw [Spatial.arctan2, Complex.sin_arg, hn, point_1]; field_simp
  rw [sin_add, cos_add, hc, hs, sin_add, cos_add]
  exact ⟨rfl, rfl⟩

theorem foldl_local3 {α : Type} (f : α → Vec) (u n e : α → ℝ) (p l : ℝ)
    (h : ∀ q, f q = local3 (u q) (n q) (e q) p l) (t : List α) :
    t.foldl (fun D row => D + f row) 0 =
      local3 (t.map u).sum (t.map n).sum (t.map e).sum p l := by
  have : ∀ (t : List α) (a b c : ℝ), t.foldl (fun D row => D + f row) (local3 a b c p l) =
      local3 (a + (t.map u).sum) (b + (t.map n).sum) (c + (t.map e).sum) p l := by
    intro t
    induction t with
    | nil => intro a b c; simp
    | cons q t ih =>
      intro a b c
      rw [List.foldl_cons, h, local3_add, ih]
      simp only [List.map_cons, List.sum_cons, add_assoc]
  have h0 : (0 : Vec) = local3 0 0 0 p l := by simp [local3]
  rw [h0, this]
  simp

/-- The combination of the five slow angles with the multipliers of a row. -/
noncomputable def combination (d : Doodson) (n : List ℤ) : ℝ :=
  (List.zipWith (fun (x : ℝ) (m : ℤ) => (m : ℝ) * x) [d.s, d.h, d.p, d.np, d.ps] n).sum

theorem slow_eq (d : Doodson) (n : List ℤ) (h : n.length = 5) : slow d n = combination d n := by
  match n, h with
  | [a, b, c, e, f], _ =>
    simp only [slow, combination, List.getD_cons_zero, List.getD_cons_succ, List.zipWith_cons_cons,
      List.zipWith_nil_left, List.sum_cons, List.sum_nil]
    ring

theorem foldl_congr_mem {α : Type} (f g : α → Vec) (t : List α) (h : ∀ q ∈ t, f q = g q) :
    t.foldl (fun D row => D + f row) 0 = t.foldl (fun D row => D + g row) 0 := by
  generalize (0 : Vec) = z
  induction t generalizing z with
  | nil => rfl
  | cons q t ih =>
    rw [List.foldl_cons, List.foldl_cons, h q (by simp)]
    exact ih (fun q hq => h q (List.mem_cons_of_mem _ hq)) _

/-- C40.  Frequency dependent corrections of the diurnal band (IERS Conventions 2010, equation
7.12): with `x` the phase of a row plus the longitude, radial
`(R_ip sin x + R_op cos x) sin 2φ`, north `(T_ip sin x + T_op cos x) cos 2φ` and east
`(T_ip cos x - T_op sin x) sin φ`, in millimetres, summed over the table. -/
theorem C40_frequency_diurnal {r p : ℝ} (hr : 0 < r) (hp : 0 < cos p) (l : ℝ) (d : Doodson) :
    frequencyDiurnal (point r p l) d =
      local3
        (diurnalTable.map fun q => 1e-3 * (((q.r5 : ℝ) * sin (d.tau + combination d q.n + l) +
          q.r6 * cos (d.tau + combination d q.n + l)) * sin (2 * p))).sum
        (diurnalTable.map fun q => 1e-3 * (((q.r7 : ℝ) * sin (d.tau + combination d q.n + l) +
          q.r8 * cos (d.tau + combination d q.n + l)) * cos (2 * p))).sum
        (diurnalTable.map fun q => 1e-3 * (((q.r7 : ℝ) * cos (d.tau + combination d q.n + l) -
          q.r8 * sin (d.tau + combination d q.n + l)) * sin p)).sum p l := by
  rw [← foldl_local3 (fun q : Row => local3
        (1e-3 * (((q.r5 : ℝ) * sin (d.tau + combination d q.n + l) +
          q.r6 * cos (d.tau + combination d q.n + l)) * sin (2 * p)))
        (1e-3 * (((q.r7 : ℝ) * sin (d.tau + combination d q.n + l) +
          q.r8 * cos (d.tau + combination d q.n + l)) * cos (2 * p)))
        (1e-3 * (((q.r7 : ℝ) * cos (d.tau + combination d q.n + l) -
          q.r8 * sin (d.tau + combination d q.n + l)) * sin p)) p l) _ _ _ p l (fun q => rfl)]
  rw [frequencyDiurnal]
  refine foldl_congr_mem _ _ _ fun q hq => ?_
  have h5 : ∀ q ∈ diurnalTable, q.n.length = 5 := by decide
  rw [diurnalTerm, slow_eq d q.n (h5 q hq)]
  have e := angle_point hr hp l (d.tau + combination d q.n)
  simp only [e.1, e.2, cosla_point hr hp, sinla_point hr hp, cosphi_point hr hp, sinphi_point hr]
  rw [sin_two_mul, cos_two_mul']
  refine vec_ext ?_ ?_ ?_ <;> simp only [local3_0, local3_1, local3_2, Matrix.cons_val_zero,
    Matrix.cons_val_one, Matrix.cons_val] <;> ring

/-- C40.  Frequency dependent corrections of the long period band (IERS Conventions 2010,
equation 7.13): with `x` the phase of a row, radial `(3/2 sin²φ - 1/2)(R_ip cos x + R_op sin x)`,
north `(T_ip cos x + T_op sin x) sin 2φ`, no east component; in millimetres, summed over the
table. -/
theorem C40_frequency_long_period {r p : ℝ} (hr : 0 < r) (hp : 0 < cos p) (l : ℝ) (d : Doodson) :
    frequencyLongPeriod (point r p l) d =
      local3
        (longPeriodTable.map fun q => 1e-3 * ((3 / 2 * sin p ^ 2 - 1 / 2) *
          ((q.r5 : ℝ) * cos (combination d q.n) + q.r7 * sin (combination d q.n)))).sum
        (longPeriodTable.map fun q => 1e-3 * (((q.r6 : ℝ) * cos (combination d q.n) +
          q.r8 * sin (combination d q.n)) * sin (2 * p))).sum 0 p l := by
  have e0 : (0 : ℝ) = (longPeriodTable.map fun _ => (0 : ℝ)).sum := by simp
  rw [e0, ← foldl_local3 (fun q : Row => local3
        (1e-3 * ((3 / 2 * sin p ^ 2 - 1 / 2) *
          ((q.r5 : ℝ) * cos (combination d q.n) + q.r7 * sin (combination d q.n))))
        (1e-3 * (((q.r6 : ℝ) * cos (combination d q.n) +
          q.r8 * sin (combination d q.n)) * sin (2 * p))) 0 p l) _ _ _ p l (fun q => rfl)]
  rw [frequencyLongPeriod]
  refine foldl_congr_mem _ _ _ fun q hq => ?_
  have h5 : ∀ q ∈ longPeriodTable, q.n.length = 5 := by decide
  rw [longPeriodTerm, slow_eq d q.n (h5 q hq)]
  simp only [cosla_point hr hp, sinla_point hr hp, cosphi_point hr hp, sinphi_point hr]
  rw [sin_two_mul]
  refine vec_ext ?_ ?_ ?_ <;> simp only [local3_0, local3_1, local3_2, Matrix.cons_val_zero,
    Matrix.cons_val_one, Matrix.cons_val] <;> ring

/-- C39, rotations of the frequency dependent corrections: the long period ones turn with the
station; the diurnal ones turn with the station when the time of day moves along, that is, when
the mean lunar time at Greenwich decreases by the angle. -/
theorem C39_turn_frequency (X : Vec) (d : Doodson) (x : ℝ) (h : ¬ (X 0 = 0 ∧ X 1 = 0)) :
    frequencyLongPeriod (turn x X) d = turn x (frequencyLongPeriod X d) ∧
    frequencyDiurnal (turn x X) { d with tau := d.tau - x } = turn x (frequencyDiurnal X d) := by
  obtain ⟨r, p, l, hr, hp, rfl⟩ := exists_point X h
  have hc : ∀ n, combination { d with tau := d.tau - x } n = combination d n := fun n => rfl
  have hx : ∀ c : ℝ, d.tau - x + c + (l + x) = d.tau + c + l := fun c => by ring
  constructor
  · rw [turn_point, C40_frequency_long_period hr hp, C40_frequency_long_period hr hp, turn_local3]
  · rw [turn_point, C40_frequency_diurnal hr hp, C40_frequency_diurnal hr hp, turn_local3]
    simp only [hc, hx]

/-! ### C40: the permanent tide -/

/-- C40.  The mean tide is the tide-free result plus the response, with the Love and Shida numbers
of degree 2 at the station, to a potential that depends on latitude only: the permanent part of
the potential of degree 2, with amplitude -0.3146 m in the normalisation of Cartwright and
Tayler.  Neither time nor Sun and Moon enter. -/
theorem C40_mean_tide (k : Keywords) (a t : ℝ) {r p : ℝ} (hr : 0 < r) (hp : 0 < cos p)
    (l : ℝ) (S L : Vec) :
    tideOrNaN k a true t (point r p l) S L = (tideOrNaN k a false t (point r p l) S L).map
      (· + response (k.h2 - 0.0006 * (1 - 3 / 2 * cos p ^ 2))
        (k.l2 + 0.0002 * (1 - 3 / 2 * cos p ^ 2))
        (fun phi _ => sqrt (5 / (4 * π)) * -0.3146 * (legendreP 2).eval (sin phi)) p l) := by
  rw [tideOrNaN, tideOrNaN]
  split
  · rfl
  · rw [Option.map_some]
    refine congrArg some ?_
    rw [tideRow, tideRow, if_pos rfl, if_neg (by decide)]
    congr 1
    have hq : sqrt (45 / (16 * π)) = 3 / 2 * sqrt (5 / (4 * π)) := by
      rw [show (45 : ℝ) / (16 * π) = (3 / 2) ^ 2 * (5 / (4 * π)) by field_simp; norm_num,
        sqrt_mul (by norm_num), sqrt_sq (by norm_num)]
    have d1 : deriv (fun x => sqrt (5 / (4 * π)) * -0.3146 * (3 / 2 * sin x ^ 2 - 1 / 2)) p =
        sqrt (5 / (4 * π)) * -0.3146 * (3 * sin p * cos p) := by
      have := ((((hasDerivAt_sin p).pow 2).const_mul (3 / 2)).sub_const (1 / 2)).const_mul
        (sqrt (5 / (4 * π)) * -0.3146)
      refine this.deriv.trans ?_
      simp [-mul_eq_mul_left_iff, -mul_eq_mul_right_iff]
      ring
    simp only [response, legendre_two, d1, deriv_const, zero_div, mul_zero]
    rw [freeToMean, hq, loveH2, shidaL2]
    simp only [cosla_point hr hp, sinla_point hr hp, cosphi_point hr hp, sinphi_point hr]
    refine vec_ext ?_ ?_ ?_ <;> simp only [local3_0, local3_1, local3_2, Matrix.cons_val_zero,
      Matrix.cons_val_one, Matrix.cons_val] <;> ring

/-! ### Arrays and tide systems -/

theorem rows_eq {α : Type} {nt : ℕ} {l : List α} (h : l.length = nt) : rows nt l = .ok l := by
  unfold rows
  exact if_pos h

/-- C39, arrays.  With as many stations, Suns and Moons as times, row `i` of the result is the
displacement for time, station, Sun and Moon `i`. -/
theorem C39_rows (k : Keywords) (a : ℝ) (system : String) (ts : List ℝ) (XYZ SXYZ LXYZ : List Vec)
    (hs : system.toLower = "tide_free" ∨ system.toLower = "mean_tide")
    (hX : XYZ.length = ts.length) (hS : SXYZ.length = ts.length) (hL : LXYZ.length = ts.length) :
    ∃ out, solidEarthTide k a system ts XYZ SXYZ LXYZ = .ok out ∧ out.length = ts.length ∧
      ∀ (i : ℕ) (h : i < ts.length), out[i]? = some (tideOrNaN k a
        (decide (system.toLower = "mean_tide")) ts[i] (XYZ[i]'(hX ▸ h)) (SXYZ[i]'(hS ▸ h))
        (LXYZ[i]'(hL ▸ h))) := by
  have hm : ¬ system.toLower ∉ ["tide_free", "mean_tide"] := by
    rw [not_not]; rcases hs with h | h <;> rw [h] <;> decide
  refine ⟨_, by
    rw [solidEarthTide, if_neg hm, rows_eq hX, rows_eq hS, rows_eq hL, ok_bind, ok_bind, ok_bind],
    ?_, ?_⟩
  · simp [hX, hS, hL]
  · intro i h
    have h1 : i < XYZ.length := hX ▸ h
    have h2 : i < SXYZ.length := hS ▸ h
    have h3 : i < LXYZ.length := hL ▸ h
    rw [List.getElem?_map, List.getElem?_eq_getElem (by simp; omega), Option.map_some,
      List.getElem_zip, List.getElem_zip, List.getElem_zip]
    rfl

/-- C39, arrays.  One station for several times stands for itself at every time. -/
theorem C39_one_station (k : Keywords) (a : ℝ) (system : String) (ts : List ℝ) (X : Vec)
    (SXYZ LXYZ : List Vec) :
    solidEarthTide k a system ts [X] SXYZ LXYZ =
      solidEarthTide k a system ts (List.replicate ts.length X) SXYZ LXYZ := by
  have : rows ts.length [X] = rows ts.length (List.replicate ts.length X) := by
    rw [rows_eq (List.length_replicate ..)]
    unfold rows
    split
    · rename_i h
      rw [← h]; rfl
    · rfl
  rw [solidEarthTide, solidEarthTide, this]

/-- C40.  Tide systems are recognised in any case; other names are refused. -/
theorem C40_system (k : Keywords) (a : ℝ) (system : String) (ts : List ℝ)
    (XYZ SXYZ LXYZ : List Vec) :
    (system.toLower ≠ "tide_free" → system.toLower ≠ "mean_tide" →
      solidEarthTide k a system ts XYZ SXYZ LXYZ = .error .assertionError) ∧
    (∀ other : String, other.toLower = system.toLower →
      solidEarthTide k a other ts XYZ SXYZ LXYZ = solidEarthTide k a system ts XYZ SXYZ LXYZ) := by
  constructor
  · intro h1 h2
    rw [solidEarthTide, if_pos (by simp [h1, h2])]
  · intro other h
    rw [solidEarthTide, solidEarthTide, h]

/-- C40, arrays.  Requesting the mean tide adds to every row an offset that is a function of the
station alone: the same for all times, Suns and Moons. -/
theorem C40_mean_offset (k : Keywords) (X : Vec) :
    ∃ offset : Vec, ∀ (a t : ℝ) (S L : Vec),
      tideOrNaN k a true t X S L = (tideOrNaN k a false t X S L).map (· + offset) := by
  by_cases h : X 0 = 0 ∧ X 1 = 0
  · refine ⟨0, fun a t S L => ?_⟩
    have hd : Degenerate X S L := Or.inl h
    rw [tideOrNaN, tideOrNaN, if_pos hd, if_pos hd]; rfl
  · obtain ⟨r, p, l, hr, hp, rfl⟩ := exists_point X h
    exact ⟨_, fun a t S L => C40_mean_tide k a t hr hp l S L⟩

/-- The hypotheses of C39 and C40 are met: a station in the north, Sun and Moon far away. -/
example : ∃ r p : ℝ, 0 < r ∧ 0 < cos p ∧
    ¬ Degenerate (point r p 1) ![1.5e11, 0, 1e10] ![0, 3e8, 1e8] := by
  refine ⟨6371000, 0, by norm_num, by simp, ?_⟩
  rintro (⟨h0, h1⟩ | h | h)
  · rw [point_0] at h0
    rw [point_1] at h1
    have := sin_sq_add_cos_sq 1
    simp at h0 h1
    rw [h0, h1] at this
    norm_num at this
  · have := congrFun h 0
    norm_num at this
  · have := congrFun h 1
    norm_num at this

end Verif.SolidEarth
