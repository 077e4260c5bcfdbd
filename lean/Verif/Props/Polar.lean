import Verif.Model.Polar
import Verif.Spec.Polar
import Verif.Props.Constituents
import Verif.Props.NetCDF
/-!
C86: amplitudes and phases given by a container of constituents.
-/
namespace Verif.Polar
open Verif Verif.Constituents Verif.Spec

theorem lag_of_polar (z : ℂ) (a p : ℝ) (ha : 0 ≤ a) (h0 : 0 ≤ p) (h1 : p < 360)
    (h : NetCDF.complexForm a p = z) : Lag z a p := by
  refine ⟨ha, h0, h1, fun t => ?_⟩
  have e : -Complex.I * (p : ℂ) * Real.pi / 180 = ((-(p * (Real.pi / 180)) : ℝ) : ℂ) * Complex.I := by
    push_cast; ring
  rw [NetCDF.complexForm, e] at h
  have hr : z.re = a * Real.cos (p * (Real.pi / 180)) := by
    rw [← h, Complex.re_ofReal_mul, Complex.exp_ofReal_mul_I_re, Real.cos_neg]
  have hi : z.im = -(a * Real.sin (p * (Real.pi / 180))) := by
    rw [← h, Complex.im_ofReal_mul, Complex.exp_ofReal_mul_I_im, Real.sin_neg, mul_neg]
  rw [hr, hi, Real.cos_sub]
  ring

theorem norm_root (z : ℂ) : √(z.re ^ 2 + z.im ^ 2) = ‖z‖ := by
  rw [Complex.norm_def, Complex.normSq_apply, pow_two, pow_two]

theorem lag_cell (z : ℂ) : Lag z √(z.re ^ 2 + z.im ^ 2) (degrees z) := by
  obtain ⟨h1, h2⟩ := NetCDF.phase_range z
  have e0 := NetCDF.complexForm_phase z 0
  have e1 := NetCDF.complexForm_phase z 1
  simp only [Int.cast_zero, zero_mul, add_zero, Int.cast_one, one_mul] at e0 e1
  rw [norm_root]
  unfold degrees
  split
  · exact lag_of_polar _ _ _ (norm_nonneg _) (by linarith) (by linarith) e1
  · exact lag_of_polar _ _ _ (norm_nonneg _) (by linarith) (by linarith) e0

/-- What a lag says determines the constant. -/
theorem Lag.unique {z w : ℂ} {a p : ℝ} (hz : Lag z a p) (hw : Lag w a p) : z = w := by
  have h0 := (hz.2.2.2 0).trans (hw.2.2.2 0).symm
  have h1 := (hz.2.2.2 (Real.pi / 2)).trans (hw.2.2.2 (Real.pi / 2)).symm
  simp only [Real.cos_zero, Real.sin_zero, Real.cos_pi_div_two, Real.sin_pi_div_two] at h0 h1
  exact Complex.ext (by linarith) (by linarith)

/-- The container after a history of calls. -/
abbrev after (ops : List (Op Arr)) : State Arr := ((State.init : State Arr).run ops).2

/-- The ordered map after the same history. -/
abbrev kept (ops : List (Op Arr)) : OMap Arr := (specRun ([] : OMap Arr) ops).2

theorem getattr_kept (ops : List (Op Arr)) (h : FreshAppends ([] : OMap Arr) ops) (n : String) :
    (after ops).attrs n = (kept ops).find n :=
  (run_refines ops _ _ rep_init h).2.attrs n

/-- A masked array of amplitudes and one of phases describe a masked array of constants: same shape,
same number of cells, same mask, amplitude and lag of the datum in the cells that are not masked and
the fill value in both where they are. -/
def Describes (fill : ℝ) (sh : List ℕ) (cells : List (ℂ × Bool)) (amp ph : Reals) : Prop :=
  amp.shape = sh ∧ ph.shape = sh ∧
  amp.cells.length = cells.length ∧ ph.cells.length = cells.length ∧
  ∀ (i : ℕ) (c : ℂ × Bool), cells[i]? = some c →
    ∃ a p, amp.cells[i]? = some (a, c.2) ∧ ph.cells[i]? = some (p, c.2) ∧
      (c.2 = false → Lag c.1 a p) ∧ (c.2 = true → a = fill ∧ p = fill)

/-- C86: after every history of calls that does not append a name already present, the amplitude and
the phase of a constituent held as a masked array are the amplitude and the lag of what the
container holds under that name. -/
theorem C86_polar (fill : ℝ) (ops : List (Op Arr)) (h : FreshAppends ([] : OMap Arr) ops)
    (n : String) (sh : List ℕ) (cells : List (ℂ × Bool))
    (hk : (kept ops).find n = some (.masked sh cells)) :
    ∃ amp ph, amplitude fill (after ops) n = .ok amp ∧ phase fill (after ops) n = .ok ph ∧
      Describes fill sh cells amp ph := by
  have ha := (getattr_kept ops h n).trans hk
  refine ⟨_, _, by rw [amplitude, State.getattr, ha], by rw [phase, State.getattr, ha], rfl, rfl,
    by simp, by simp, fun i c hi => ?_⟩
  refine ⟨_, _, by rw [List.getElem?_map, hi]; rfl, by rw [List.getElem?_map, hi]; rfl, ?_, ?_⟩
  · intro hc
    simp only [hc, Bool.false_eq_true, if_false]
    exact lag_cell c.1
  · intro hc
    simp only [hc, if_true, and_self]

/-- C86: amplitude and phase together keep everything: two constituents of the same shape with equal
amplitudes and phases have the same mask and the same values where they are not masked. -/
theorem C86_recovers (fill : ℝ) (sh : List ℕ) (c d : List (ℂ × Bool)) (amp ph : Reals)
    (hc : Describes fill sh c amp ph) (hd : Describes fill sh d amp ph) (i : ℕ) :
    (c[i]?.map fun x => if x.2 then none else some x.1) =
      d[i]?.map fun x => if x.2 then none else some x.1 := by
  obtain ⟨-, -, l1, -, hc⟩ := hc
  obtain ⟨-, -, l2, -, hd⟩ := hd
  cases e : c[i]? with
  | none =>
    rw [List.getElem?_eq_none_iff] at e
    rw [List.getElem?_eq_none (by omega)]
  | some x =>
    have hl : i < d.length := by
      have := (List.getElem?_eq_some_iff.1 e).1
      omega
    have e' := List.getElem?_eq_getElem hl
    obtain ⟨a, p, h1, h2, h3, -⟩ := hc i x e
    obtain ⟨b, q, k1, k2, k3, -⟩ := hd i _ e'
    rw [h1] at k1
    rw [h2] at k2
    have k1 := Option.some.inj k1
    have k2 := Option.some.inj k2
    rw [e', Option.map_some, Option.map_some]
    obtain ⟨ea, em⟩ := Prod.mk.inj k1
    obtain ⟨ep, -⟩ := Prod.mk.inj k2
    rw [em]
    cases hm : (d[i]).2 with
    | true => rfl
    | false =>
      have hz := h3 (em.trans hm)
      rw [ea, ep] at hz
      rw [Lag.unique hz (k3 hm)]

/-- C86: a name that the container does not hold raises `AttributeError`. -/
theorem C86_absent (fill : ℝ) (ops : List (Op Arr)) (h : FreshAppends ([] : OMap Arr) ops)
    (n : String) (hk : n ∉ (kept ops).keys) :
    amplitude fill (after ops) n = .error .attributeError ∧
      phase fill (after ops) n = .error .attributeError := by
  have ha := (getattr_kept ops h n).trans (find_none_of_notMem _ _ hk)
  constructor
  · rw [amplitude, State.getattr, ha]
  · rw [phase, State.getattr, ha]

/-- C86 is false for constituents held as plain arrays: both calls raise. -/
theorem C86_plain_false (fill : ℝ) (sh : List ℕ) (cells : List ℂ) :
    let s := after [.append "m2" (.plain sh cells)]
    amplitude fill s "m2" = .error .attributeError ∧ phase fill s "m2" = .error .typeError :=
  ⟨rfl, rfl⟩

/-- C86: the shape of the container is that of its first constituent, and none when it is empty. -/
theorem C86_shape (ops : List (Op Arr)) (h : FreshAppends ([] : OMap Arr) ops) :
    shape (after ops) = (kept ops).head?.map (fun p => p.2.shape) := by
  have r := (run_refines ops _ _ rep_init h).2
  have hf : (after ops).fields = (kept ops).keys := r.fields
  rw [shape, hf]
  cases e : kept ops with
  | nil => rfl
  | cons p m =>
    have hp : (kept ops).find p.1 = some p.2 := by
      rw [e]; simp [OMap.find]
    have ha := (getattr_kept ops h p.1).trans hp
    simp only [OMap.keys, List.map_cons, State.getattr, ha, List.head?_cons, Option.map_some]

/-- C86 is false of shapes in general: a name appended twice and popped once leaves a container with
one name and no shape. -/
theorem C86_shape_false :
    let s := after [.append "m2" (.plain [1] [0]), .append "m2" (.plain [1] [1]), .pop "m2"]
    s.fields = ["m2"] ∧ shape s = none := by
  constructor <;> rfl

/-- A history that meets the hypotheses, with one masked cell and one that is not. -/
noncomputable def example86 : List (Op Arr) :=
  [.append "m2" (.masked [2] [(0, false), (1, false)]), .append "s2" (.plain [] []),
   .update "m2" (.masked [2] [(⟨0, 1⟩, false), (0, true)]), .len, .pop "s2"]

example : FreshAppends ([] : OMap Arr) example86 ∧
    (kept example86).find "m2" = some (.masked [2] [(⟨0, 1⟩, false), (0, true)]) ∧
    "s2" ∉ (kept example86).keys := by
  refine ⟨⟨by simp [OMap.keys], ⟨by decide, trivial, trivial, trivial, trivial⟩⟩, rfl, by decide⟩

/-- The tide of that constant one quarter of a period after its lag: lag 270 degrees. -/
example : Lag ⟨0, 1⟩ 1 270 := by
  refine ⟨by norm_num, by norm_num, by norm_num, fun t => ?_⟩
  have e : t - 270 * (Real.pi / 180) = (t + Real.pi / 2) - 2 * Real.pi := by ring
  rw [e, Real.cos_sub_two_pi, Real.cos_add_pi_div_two]
  simp

end Verif.Polar
