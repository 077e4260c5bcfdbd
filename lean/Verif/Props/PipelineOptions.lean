import Verif.Model.PipelineOptions
import Verif.Props.Pipeline
import Verif.Props.ExtractCrop
import Verif.Props.OtisCrop
import Verif.Props.ExtrapolatedSea
import Verif.Props.TMD3
import Verif.Props.Equilibrium
import Verif.Props.Parameters
import Verif.Model.MinorArguments
/-!
C113: what the options `CROP`, `EXTRAPOLATE`, `APPEND_NODE` and `APPLY_FLEXURE` do to predicted tides.
-/
namespace Verif.Pipeline
open Verif Verif.Predict Verif.Compute Verif.Extract Verif.Spec

/-! ## The node tide -/

/-- What a model says of itself once the node tide is there. -/
def About.with (b : About) (lats : Option (List ℝ)) : About :=
  if lats.isSome ∧ "node" ∉ b.names then { b with names := b.names ++ ["node"] } else b

/-- The complex constant of the node tide in equilibrium at a latitude. -/
noncomputable def nodeConstant (lat : ℝ) : ℂ := -(Equilibrium.nodeEquilibrium lat).1

/-- The constants that are added at each point. -/
noncomputable def added (b : About) (lats : Option (List ℝ)) (n : ℕ) : List (List (Option ℂ)) :=
  match lats with
  | some l => if "node" ∈ b.names then List.replicate n [] else l.map fun lat => [some (nodeConstant lat)]
  | none => List.replicate n []

theorem tide_of_constants {m m' : Extracted} (h : Compute.constants m.amp m.ph = Compute.constants m'.amp m'.ph)
    (h1 : m.names = m'.names) (h2 : m.corrections = m'.corrections) (h3 : m.minor = m'.minor)
    (P : Predict.Env) (I : Infer.Env) (o : Options) (ny nx : ℕ) (times : List (ℝ × ℝ)) :
    tideElevations P I o ny nx m times = tideElevations P I o ny nx m' times := by
  unfold tideElevations
  rw [h, h1, h2, h3]

theorem oscillation_node (lat : ℝ) :
    oscillation ((Equilibrium.nodeEquilibrium lat).1, false) ((Equilibrium.nodeEquilibrium lat).2, false)
      = oscillation (polar (.val (-(Equilibrium.nodeEquilibrium lat).1) 0 1)).1
        (polar (.val (-(Equilibrium.nodeEquilibrium lat).1) 0 1)).2 := by
  rw [((oscillation_polar _).2 _ rfl).2.2]
  unfold oscillation
  have e : (Equilibrium.nodeEquilibrium lat).2 * Real.pi / 180 = Real.pi := by
    unfold Equilibrium.nodeEquilibrium
    ring
  dsimp only
  rw [e]
  simp

/-- With the node tide the constants are those of a table with one more column. -/
theorem append_constants (n : ℕ) (outs : List (List (Extract.Out ℝ))) (b : About) (l : List ℝ) (hl : l.length = n) :
    Compute.constants
      (List.zipWith (fun row lat => row ++ [((Equilibrium.nodeEquilibrium lat).1, false)])
        (table n outs b.names b.corrections b.minor).amp l)
      (List.zipWith (fun row lat => row ++ [((Equilibrium.nodeEquilibrium lat).2, false)])
        (table n outs b.names b.corrections b.minor).ph l)
    = Compute.constants
      (table n (outs ++ [l.map fun lat => .val (-(Equilibrium.nodeEquilibrium lat).1) 0 1]) b.names b.corrections b.minor).amp
      (table n (outs ++ [l.map fun lat => .val (-(Equilibrium.nodeEquilibrium lat).1) 0 1]) b.names b.corrections b.minor).ph := by
  unfold Compute.constants table
  dsimp only
  refine List.ext_getElem (by simp [hl]) fun i h1 h2 => ?_
  have hi : i < l.length := by
    simp at h1
    omega
  simp only [List.getElem_zipWith, List.getElem_map, List.getElem_range, List.map_append, List.map_cons,
    List.map_nil]
  rw [List.zipWith_append (by simp), List.zipWith_append (by simp)]
  congr 1
  simp only [List.zipWith_cons_cons, List.zipWith_nil_right]
  rw [oscillation_node]
  simp [List.getD_eq_getElem?_getD, List.getElem?_map, List.getElem?_eq_getElem hi]

/-- From constants by file and point to predictions, with the node tide. -/
theorem finish_laid {α : Type} {P : Predict.Env} {I : Infer.Env} {o : Options} {b : About} {ny nx : ℕ}
    {lats : Option (List ℝ)} {pts times : List (ℝ × ℝ)} (hs : Suits P I o (b.with lats) pts.length ny nx times)
    (hl : ∀ l ∈ lats, l.length = pts.length) {files : List α} (hf : files.length = b.names.length)
    {outs : List (List (Extract.Out ℝ))} (R : α → ℝ × ℝ → Option ℂ → Prop)
    (m : List.Forall₂ (fun g col => List.Forall₂ (fun p v => R g p (number v)) pts col) files outs) :
    ∃ zs, finish P I o ny nx pts.length b lats times outs
        = .ok (laid o.type (expected P I o (b.with lats))
          (List.zipWith (· ++ ·) zs (added b lats pts.length)) times) ∧
      List.Forall₂ (fun p z => List.Forall₂ (fun g z => R g p z) files z) pts zs := by
  refine ⟨_, ?_, columns_rel R pts files outs m⟩
  have ho : outs.length = b.names.length := by rw [← m.length_eq, hf]
  have plain : lats = none ∨ "node" ∈ b.names → finish P I o ny nx pts.length b lats times outs
        = .ok (laid o.type (expected P I o (b.with lats))
          (List.zipWith (· ++ ·) ((List.range pts.length).map fun i => (column outs i).map number)
            (added b lats pts.length)) times) := by
    intro h
    have e1 : appendNode lats (table pts.length outs b.names b.corrections b.minor) =
        .ok (table pts.length outs b.names b.corrections b.minor) := by
      unfold appendNode
      rcases h with rfl | h
      · rfl
      · cases lats with
        | none => rfl
        | some l =>
          have : "node" ∈ (table pts.length outs b.names b.corrections b.minor).names := h
          simp only [if_pos this]
    have e2 : b.with lats = b := by
      unfold About.with
      rcases h with rfl | h
      · rfl
      · rw [if_neg (by simp [h])]
    have e3 : added b lats pts.length = List.replicate pts.length [] := by
      unfold added
      rcases h with rfl | h
      · rfl
      · cases lats with
        | none => rfl
        | some l => simp only [if_pos h]
    have e4 : ∀ zs : List (List (Option ℂ)), zs.length = pts.length →
        List.zipWith (· ++ ·) zs (List.replicate pts.length []) = zs := by
      intro zs hz
      refine List.ext_getElem (by simp [hz]) fun i _ _ => by simp
    rw [e2] at hs
    rw [finish, e1, ok_bind, e2, e3, e4 _ (by simp)]
    exact elevations_laid hs outs ho
  by_cases hn : "node" ∈ b.names
  · exact plain (Or.inr hn)
  cases lats with
  | none => exact plain (Or.inl rfl)
  | some l =>
    have ll := hl l rfl
    have e2 : b.with (some l) = { b with names := b.names ++ ["node"] } := by
      unfold About.with
      rw [if_pos ⟨rfl, hn⟩]
    have hn' : "node" ∉ (table pts.length outs b.names b.corrections b.minor).names := hn
    have hlen : ¬ (l.length ≠ (table pts.length outs b.names b.corrections b.minor).amp.length) := by
      simp [table, ll]
    rw [e2] at hs ⊢
    rw [finish, appendNode]
    simp only [if_neg hn', if_neg hlen]
    rw [ok_bind]
    have key := elevations_laid hs (outs ++ [l.map fun lat => .val (-(Equilibrium.nodeEquilibrium lat).1) 0 1])
      (by simp [ho])
    refine ((tide_of_constants ?_ ?_ ?_ ?_ P I o ny nx times).trans key).trans ?_
    · exact append_constants pts.length outs b l ll
    · rfl
    · rfl
    · rfl
    congr 2
    unfold added
    simp only [if_neg hn]
    refine List.ext_getElem (by simp [ll]) fun i h1 h2 => ?_
    have hi : i < l.length := by
      simp at h1
      omega
    simp [column, nodeConstant, number, List.getD_eq_getElem?_getD, List.getElem?_map,
      List.getElem?_eq_getElem hi]
    rw [show ((⟨-(Equilibrium.nodeEquilibrium l[i]).1, 0⟩ : ℂ)) = -((Equilibrium.nodeEquilibrium l[i]).1 : ℂ) from
      Complex.ext (by simp) (by simp)]

/-- **C113**, the node tide: where the constants of a model have none, `append_node` adds the node tide in
equilibrium to what is predicted; for corrections that are not those of OTIS (see `C113_node_false`) and
without inferring minor constituents (the inference uses the node tide). -/
theorem C113_node_partial (I : Infer.Env) (o : Options) (b : About) (hi : o.infer = false)
    (hc : orString o.corrections b.corrections ∉ ["OTIS", "ATLAS", "TMD3", "netcdf"]) (l : List ℝ)
    (hn : "node" ∉ b.names) (zs : List (Option ℂ)) (hz : zs.length = b.names.length) (lat : ℝ) (t : ℝ × ℝ) :
    ∃ w, Equilibrium.equilibriumTide (orString o.corrections b.corrections) (.one "node") t.2 [t.1] [lat] = .vec [w] ∧
      expected (Astro.predictEnv (orString o.corrections b.corrections)) I o (b.with (some l))
        (zs ++ [some (nodeConstant lat)]) t =
      (expected (Astro.predictEnv (orString o.corrections b.corrections)) I o b zs t).map (· + w) := by
  obtain ⟨u, f, G, h, e⟩ := Equilibrium.C54_node_constants (orString o.corrections b.corrections) "perth5" t.2 t.1 lat
  refine ⟨_, e, ?_⟩
  have e2 : b.with (some l) = { b with names := b.names ++ ["node"] } := by
    unfold About.with
    rw [if_pos ⟨rfl, hn⟩]
  have a : (Astro.predictEnv (orString o.corrections b.corrections)).args t.1 t.2 "node" = ⟨u, f, G⟩ := by
    show Astro.columnOf (Astro.arguments _ "perth5" t.2 (t.1 + 48622) ["node"]) 0 = _
    rw [h]
    rfl
  have ph : Predict.phase (Astro.predictEnv (orString o.corrections b.corrections))
      (orString o.corrections b.corrections) "node" t.1 ⟨u, f, G⟩ = G * Real.pi / 180 + u := by
    unfold Predict.phase usesParameters
    rw [if_neg (by simpa using hc)]
  rw [e2]
  unfold expected
  simp only [hi, if_neg hc, Bool.false_eq_true, if_false]
  generalize hE : Astro.predictEnv (orString o.corrections b.corrections) = E at a ph ⊢
  generalize orString o.corrections b.corrections = corr at ph ⊢
  unfold forecast
  by_cases m : none ∈ zs
  · rw [if_pos m, if_pos (List.mem_append_left _ m)]
    rfl
  · rw [if_neg m, if_neg (by simp [m])]
    simp only [Option.map_some, add_zero]
    congr 1
    unfold clock
    rw [List.map_append, List.zipWith_append (by simp [hz])]
    unfold tide
    rw [List.map_append, List.sum_append]
    congr 1
    simp only [List.map_cons, List.map_nil, List.zipWith_cons_cons, List.zipWith_nil_right, List.sum_cons, List.sum_nil,
      Option.getD_some, add_zero, a, ph]
    unfold Wave.height nodeConstant
    dsimp only
    rw [show G * (Real.pi / 180) + u - (Equilibrium.nodeEquilibrium lat).2 * (Real.pi / 180) =
      G * Real.pi / 180 + u - Real.pi by unfold Equilibrium.nodeEquilibrium; ring, Real.cos_sub_pi]
    generalize G * Real.pi / 180 + u = th
    simp [Complex.exp_ofReal_mul_I_re, Complex.exp_ofReal_mul_I_im]
    ring

/-- The node tide changes with time: it has another height when the node is at 0 and at 180 degrees. -/
theorem node_changes (corr : String) (hc : corr ∈ ["OTIS", "ATLAS", "TMD3", "netcdf"]) :
    ∃ t t' w w', Equilibrium.equilibriumTide corr (.one "node") 0 [t] [0] = .vec [w] ∧
      Equilibrium.equilibriumTide corr (.one "node") 0 [t'] [0] = .vec [w'] ∧ w ≠ w' := by
  have mode : Astro.modeOf corr = .cartwright := by
    unfold Astro.modeOf Astro.otisType
    rw [if_pos (by simpa using hc)]
  have z : ∀ n : ℝ, Equilibrium.Z corr (.one "node") 0 ((125.0445 - n) / 0.05295377 + 51544.4993 - 48622) =
      Real.cos (n * (Real.pi / 180)) * 2.7929 := by
    intro n
    have hq : ("node", (2.7929 : ℚ), [(0 : ℤ), 0, 0, 1, 0]) ∈ Equilibrium.lines := List.mem_cons_self
    have hz := Equilibrium.Z_one corr 0 ((125.0445 - n) / 0.05295377 + 51544.4993 - 48622) _ hq
    obtain ⟨m, hm⟩ := Equilibrium.fargs_angle corr 0 ((125.0445 - n) / 0.05295377 + 51544.4993 - 48622) 0 0 0 1 0
    rw [hm, mode, Real.cos_add_int_mul_two_pi] at hz
    refine hz.trans ?_
    unfold Astro.meanLongitudes
    dsimp only
    obtain ⟨k, hk⟩ := Astro.normalize_raw (Astro.rawLongitudes .cartwright
      ((125.0445 - n) / 0.05295377 + 51544.4993 - 48622 + 48622 + 0)).n
    rw [hk]
    have e : (Astro.rawLongitudes .cartwright ((125.0445 - n) / 0.05295377 + 51544.4993 - 48622 + 48622 + 0)).n = n := by
      unfold Astro.rawLongitudes
      dsimp only
      norm_num
      ring
    rw [e, ← Real.cos_neg (n * _), ← Real.cos_add_int_mul_two_pi (-(n * (Real.pi / 180))) (-k)]
    congr 2
    push_cast
    ring
  have z0 := z 0
  have z1 := z 180
  rw [zero_mul, Real.cos_zero] at z0
  rw [show (180 : ℝ) * (Real.pi / 180) = Real.pi by ring, Real.cos_pi] at z1
  have g : Equilibrium.gamma2 * Real.sqrt ((4 + 1) / (4 * Real.pi)) * Equilibrium.P20 0 ≠ 0 := by
    have := Real.pi_pos
    unfold Equilibrium.gamma2 Equilibrium.P20
    have : Real.sqrt ((4 + 1) / (4 * Real.pi)) ≠ 0 := (Real.sqrt_pos.2 (by positivity)).ne'
    simp [this]
    norm_num
  refine ⟨(125.0445 - 0) / 0.05295377 + 51544.4993 - 48622, (125.0445 - 180) / 0.05295377 + 51544.4993 - 48622,
    _, _, rfl, rfl, ?_⟩
  dsimp only
  rw [z0, z1]
  intro h
  have := mul_left_cancel₀ g h
  norm_num at this

/-- With the corrections of OTIS it is not the node tide that is added: there are no parameters for it, so
that it is the same height at all times, though the node tide changes with time. -/
theorem C113_node_false (I : Infer.Env) (o : Options) (b : About) (hi : o.infer = false)
    (hc : orString o.corrections b.corrections ∈ ["OTIS", "ATLAS", "TMD3", "netcdf"]) (l : List ℝ)
    (hn : "node" ∉ b.names) (zs : List (Option ℂ)) (hz : zs.length = b.names.length) (lat : ℝ) (t : ℝ × ℝ) :
    expected (Astro.predictEnv (orString o.corrections b.corrections)) I o (b.with (some l))
        (zs ++ [some (nodeConstant lat)]) t =
      (expected (Astro.predictEnv (orString o.corrections b.corrections)) I o b zs t).map
        (· - (Equilibrium.nodeEquilibrium lat).1) ∧
    ∃ t t' w w', Equilibrium.equilibriumTide (orString o.corrections b.corrections) (.one "node") 0 [t] [0] = .vec [w] ∧
      Equilibrium.equilibriumTide (orString o.corrections b.corrections) (.one "node") 0 [t'] [0] = .vec [w'] ∧ w ≠ w' := by
  refine ⟨?_, node_changes _ hc⟩
  have e2 : b.with (some l) = { b with names := b.names ++ ["node"] } := by
    unfold About.with
    rw [if_pos ⟨rfl, hn⟩]
  obtain ⟨u, f, G, h, uf⟩ : ∃ u f G, Astro.arguments (orString o.corrections b.corrections) "perth5" 0 (t.1 + 48622) ["node"] =
      .ok ([(u, f)], [G]) ∧ u = 0 ∧ f = 1 := by
    obtain ⟨uf, G, h, e⟩ := Equilibrium.term_node (orString o.corrections b.corrections) "perth5" 0 t.1 lat
    have huf : uf = [(0, 1)] := by
      unfold Astro.arguments at h
      cases hr : Astro.coefficients (orString o.corrections b.corrections) ["node"] with
      | error e => rw [hr, error_bind] at h; cases h
      | ok rows =>
        rw [hr, ok_bind] at h
        dsimp only at h
        rw [Nodal.C28_unknown _ _ _ 2 le_rfl "node" (by decide +kernel)] at h
        simp only [Except.ok.injEq, Prod.mk.injEq] at h
        exact h.1.symm
    subst huf
    exact ⟨0, 1, G, h, rfl, rfl⟩
  obtain ⟨rfl, rfl⟩ := uf
  have a : (Astro.predictEnv (orString o.corrections b.corrections)).args t.1 0 "node" = ⟨0, 1, G⟩ := by
    show Astro.columnOf (Astro.arguments _ "perth5" 0 (t.1 + 48622) ["node"]) 0 = _
    rw [h]
    rfl
  have q : Parameters.parameters "node" false = .ok ⟨0, 0, 0, 0, 0⟩ :=
    (Parameters.C55_missing_false "node" (by simp)).1
  have ph : Predict.phase (Astro.predictEnv (orString o.corrections b.corrections))
      (orString o.corrections b.corrections) "node" t.1 ⟨0, 1, G⟩ = 0 := by
    unfold Predict.phase usesParameters
    rw [if_pos (by simpa using hc)]
    simp only [Astro.predictEnv, q]
    ring
  rw [e2]
  unfold expected
  simp only [hi, if_pos hc, Bool.false_eq_true, if_false]
  generalize hE : Astro.predictEnv (orString o.corrections b.corrections) = E at a ph ⊢
  generalize orString o.corrections b.corrections = corr at ph ⊢
  unfold forecast
  by_cases m : none ∈ zs
  · rw [if_pos m, if_pos (List.mem_append_left _ m)]
    rfl
  · rw [if_neg m, if_neg (by simp [m])]
    simp only [Option.map_some, add_zero]
    congr 1
    unfold clock
    rw [List.map_append, List.zipWith_append (by simp [hz])]
    unfold tide
    rw [List.map_append, List.sum_append, sub_eq_add_neg]
    congr 1
    simp only [List.map_cons, List.map_nil, List.zipWith_cons_cons, List.zipWith_nil_right, List.sum_cons, List.sum_nil,
      Option.getD_some, add_zero, a, ph]
    unfold Wave.height nodeConstant
    simp

/-! ## Constants as numbers -/

theorem meets_number {m : Method} {C : Chart ℝ} {scale : ℝ} {p : ℝ × ℝ} {v : Extract.Out ℝ} (k : Meets m C scale p v) :
    v ≠ .nan ∧ ∃ w, Interpolated m C p w ∧ number v = complexed scale w := by
  have key : ∀ w, number (returned scale w) = complexed scale w := fun w => by cases w <;> rfl
  have nan : ∀ w : Option (ℝ × ℝ), returned scale w ≠ .nan := fun w => by cases w <;> (intro h; cases h)
  unfold Meets at k
  unfold Interpolated
  cases m with
  | spline => obtain ⟨w, a, rfl⟩ := k; exact ⟨nan w, w, a, key w⟩
  | linear => obtain ⟨w, a, rfl⟩ := k; exact ⟨nan _, _, ⟨w, a, rfl⟩, key _⟩
  | bilinear => obtain ⟨w, a, rfl⟩ := k; exact ⟨nan w, w, a, key w⟩

/-- The way constants of ATLAS models are interpolated: `'linear'` is not told from `'spline'`. -/
def atlasWay (m : Method) : Method := if m = .bilinear then .bilinear else .spline

theorem atlas_number {m : Method} {speed : Bool} {scale : ℝ} {T H : Chart ℝ} {p : ℝ × ℝ} {v : Extract.Out ℝ}
    (k : AtlasNet.Agrees m speed scale T H p v) :
    v ≠ .nan ∧ ∃ w d, Interpolated (atlasWay m) T p w ∧ Interpolated (atlasWay m) H p d ∧
      number v = flow speed scale w d := by
  have key : ∀ v w, number (AtlasNet.current speed scale v w) = flow speed scale v w := by
    intro v w
    cases v <;> cases w <;> rfl
  have nan : ∀ v w : Option (ℝ × ℝ), AtlasNet.current speed scale v w ≠ .nan := by
    intro v w
    cases v <;> cases w <;> (intro h; cases h)
  unfold AtlasNet.Agrees at k
  cases m with
  | spline => obtain ⟨v, w, a, c, rfl⟩ := k; exact ⟨nan v w, v, w, a, c, key v w⟩
  | linear => obtain ⟨v, w, a, c, rfl⟩ := k; exact ⟨nan v w, v, w, a, c, key v w⟩
  | bilinear => obtain ⟨v, w, a, c, rfl⟩ := k; exact ⟨nan v w, v, w, a, c, key v w⟩

theorem otis_number {m : Method} {speed : Bool} {T H : Chart ℝ} {p : ℝ × ℝ} {v : Extract.Out ℝ}
    (k : Staggered.Agrees m speed T H p v) :
    v ≠ .nan ∧ ∃ w d, Interpolated m T p w ∧ Interpolated (atlasWay m) H p d ∧ number v = flow speed 1 w d := by
  have key : ∀ v w, number (Staggered.current speed v w) = flow speed 1 v w := by
    intro v w
    cases v with
    | none => cases w <;> rfl
    | some z =>
      cases w with
      | none => rfl
      | some d => simp [Staggered.current, number, flow, complexed, units]
  have nan : ∀ v w : Option (ℝ × ℝ), Staggered.current speed v w ≠ .nan := by
    intro v w
    cases v <;> cases w <;> (intro h; cases h)
  unfold Staggered.Agrees at k
  cases m with
  | spline => obtain ⟨v, w, a, c, rfl⟩ := k; exact ⟨nan _ _, v, w, a, c, key v w⟩
  | linear => obtain ⟨v, w, a, c, rfl⟩ := k; exact ⟨nan _ _, _, w, ⟨v, a, rfl⟩, c, key _ w⟩
  | bilinear => obtain ⟨v, w, a, c, rfl⟩ := k; exact ⟨nan _ _, v, w, a, c, key v w⟩

/-- A constant with extrapolation: the one that is `told` at the place if there is one, else the one of the
closest point that has a value. -/
def Filled (told : Option ℂ → Prop) (C : Chart ℝ) (scale : ℝ) (d : ℝ × ℝ → ℝ × ℝ → ℝ) (cutoff : Option ℝ) (p : ℝ × ℝ)
    (z : Option ℂ) : Prop :=
  ∃ z', told z' ∧ (z' ≠ none → z = z') ∧ (z' = none → ∃ w, Nearest C d cutoff p w ∧ z = complexed scale w)

theorem answers_number {told : ℝ × ℝ → Extract.Out ℝ → Prop} {C : Chart ℝ} {scale : ℝ} {d : ℝ × ℝ → ℝ × ℝ → ℝ}
    {cutoff : Option ℝ} {p : ℝ × ℝ} {v : Extract.Out ℝ} (h : Near.Answers told C scale d cutoff p v)
    {told' : Option ℂ → Prop} (conv : ∀ v, told p v → v ≠ .nan ∧ told' (number v)) :
    Filled told' C scale d cutoff p (number v) := by
  obtain ⟨o', h1, h2, h3⟩ := h
  obtain ⟨n, c⟩ := conv o' h1
  refine ⟨number o', c, fun e => ?_, fun e => ?_⟩
  · rw [h2 fun k => e (by rw [k]; rfl)]
  · cases o' with
    | val _ _ _ => cases e
    | nan => exact absurd rfl n
    | masked =>
      obtain ⟨w, a, rfl⟩ := h3 rfl
      exact ⟨w, a, by cases w <;> rfl⟩

/-! ## Cropping -/

section
variable (P : Predict.Env) (I : Infer.Env) (o : Options) (ny nx : ℕ) (b : About) (lats : Option (List ℝ))

/-- **C113**, cropped GOT and FES models: where no grid is cut too close to the points (see `C72_…_false`), the
elevations are the tide of the field in the files, interpolated at the places, with the node tide if it is asked for. -/
theorem C113_cropped_partial (f : Fmt) (r : Request ℝ) (hr : r.crop = true) (hb : r.bounds = none)
    (hn : ∀ x y hc q, r.near x y hc q = none) (files : List (Layer ℝ × ℝ))
    (hg : ∀ g ∈ files, Global g.1 g.2 ∧ 4 ≤ g.1.lon.length ∧ g.1.lon.length ≤ 10 ^ 5 ∧ r.Covers g.1)
    (hl : files.length = b.names.length) (pts times : List (ℝ × ℝ)) (h0 : ∃ p ∈ pts, p ≠ (0, 0))
    (hp : ∀ g ∈ files, Extract.Within g.1 g.2 pts ∧ ∀ p ∈ pts, Place r.method g.1 p)
    (ha : ∀ l ∈ lats, l.length = pts.length) (hs : Suits P I o (b.with lats) pts.length ny nx times) :
    ∃ zs, optFiles P I o ny nx f r none lats (files.map Prod.fst) b pts times
        = .ok (laid o.type (expected P I o (b.with lats)) (List.zipWith (· ++ ·) zs (added b lats pts.length)) times) ∧
      List.Forall₂ (fun p z => List.Forall₂ (fun (g : Layer ℝ × ℝ) z => ∃ v,
        Interpolated r.method (globe g.1 g.2) p v ∧ z = complexed r.scale v) files z) pts zs := by
  obtain ⟨outs, e, m⟩ := C72_cropped_partial f r hr hb hn files hg pts h0 hp
  obtain ⟨zs, e1, m1⟩ := finish_laid hs ha hl (fun (g : Layer ℝ × ℝ) p z => ∃ v,
        Interpolated r.method (globe g.1 g.2) p v ∧ z = complexed r.scale v)
    (m.imp fun g col h => h.imp fun p v k => (meets_number k).2)
  exact ⟨zs, by rw [optFiles, e, ok_bind]; exact e1, m1⟩

/-- With `'spline'` and `'linear'` cropping does not change what is predicted. -/
theorem C113_same_partial (f : Fmt) (r : Request ℝ) (hm : r.method ≠ .bilinear) (hr : r.crop = true) (hb : r.bounds = none)
    (hn : ∀ x y hc q, r.near x y hc q = none) (files : List (Layer ℝ × ℝ))
    (hg : ∀ g ∈ files, Global g.1 g.2 ∧ 4 ≤ g.1.lon.length ∧ g.1.lon.length ≤ 10 ^ 5 ∧ r.Covers g.1)
    (pts times : List (ℝ × ℝ)) (h0 : ∃ p ∈ pts, p ≠ (0, 0))
    (hp : ∀ g ∈ files, Extract.Within g.1 g.2 pts ∧ ∀ p ∈ pts, Place r.method g.1 p) :
    optFiles P I o ny nx f r none lats (files.map Prod.fst) b pts times =
      optFiles P I o ny nx f { r with crop := false } none lats (files.map Prod.fst) b pts times := by
  obtain ⟨outs, e, e'⟩ := C72_same_partial f r hm hr hb hn files hg pts h0 hp
  unfold optFiles
  dsimp only
  rw [e, e']

/-- **C113**, cropped ATLAS netCDF models. -/
theorem C113_atlas_cropped_partial {s : AtlasNet.Site ℝ} {a : ℝ} (h : AtlasNet.Around s a) (h4 : 4 ≤ s.lon.length)
    (h5 : s.lon.length ≤ 10 ^ 5) (r : Request ℝ) (hr : r.crop = true) (hb : r.bounds = none)
    (hc : r.Covers (⟨s.lon, s.lat, []⟩ : Layer ℝ)) (hn : ∀ x y hc q, r.near x y hc q = none) (speed : Bool)
    (pos : speed = true → ∀ k j, 0 ≤ s.at k j) (fields : List (List (List (ℝ × ℝ))))
    (sh : ∀ hc ∈ fields, CGrid.Shape hc s.lat.length s.lon.length) (hl : fields.length = b.names.length)
    (pts times : List (ℝ × ℝ)) (h0 : ∃ p ∈ pts, p ≠ (0, 0)) (hw : Extract.Within (⟨s.lon, s.lat, []⟩ : Layer ℝ) a pts)
    (hp : ∀ p ∈ pts, AtlasNet.Spot r.method s p)
    (ha : ∀ l ∈ lats, l.length = pts.length) (hs : Suits P I o (b.with lats) pts.length ny nx times) :
    ∃ zs, optAtlas P I o ny nx r speed none lats s fields b pts times
        = .ok (laid o.type (expected P I o (b.with lats)) (List.zipWith (· ++ ·) zs (added b lats pts.length)) times) ∧
      List.Forall₂ (fun p z => List.Forall₂ (fun hc z => ∃ v w, Interpolated (atlasWay r.method) (AtlasNet.tides s a hc) p v ∧
        Interpolated (atlasWay r.method) (AtlasNet.waters s a) p w ∧ z = flow speed r.scale v w) fields z) pts zs := by
  obtain ⟨ds, outs, e, -, m⟩ := AtlasNet.C75_cropped_partial h h4 h5 r hr hb hc hn speed pos fields sh pts h0 hw hp
  obtain ⟨zs, e1, m1⟩ := finish_laid hs ha hl (fun hc p z => ∃ v w,
      Interpolated (atlasWay r.method) (AtlasNet.tides s a hc) p v ∧
        Interpolated (atlasWay r.method) (AtlasNet.waters s a) p w ∧ z = flow speed r.scale v w)
    (m.imp fun g col h => h.imp fun p v k => (atlas_number k).2)
  exact ⟨zs, by rw [optAtlas, e, ok_bind]; exact e1, m1⟩

/-- With `'spline'` and `'linear'` cropping does not change what is predicted from an ATLAS netCDF model. -/
theorem C113_atlas_same_partial {s : AtlasNet.Site ℝ} {a : ℝ} (h : AtlasNet.Around s a) (h4 : 4 ≤ s.lon.length)
    (h5 : s.lon.length ≤ 10 ^ 5) (r : Request ℝ) (hm : r.method ≠ .bilinear) (hr : r.crop = true) (hb : r.bounds = none)
    (hc : r.Covers (⟨s.lon, s.lat, []⟩ : Layer ℝ)) (hn : ∀ x y hc q, r.near x y hc q = none) (speed : Bool)
    (pos : speed = true → ∀ k j, 0 ≤ s.at k j) (fields : List (List (List (ℝ × ℝ))))
    (sh : ∀ hc ∈ fields, CGrid.Shape hc s.lat.length s.lon.length)
    (pts times : List (ℝ × ℝ)) (h0 : ∃ p ∈ pts, p ≠ (0, 0)) (hw : Extract.Within (⟨s.lon, s.lat, []⟩ : Layer ℝ) a pts)
    (hp : ∀ p ∈ pts, AtlasNet.Spot r.method s p) :
    optAtlas P I o ny nx r speed none lats s fields b pts times =
      optAtlas P I o ny nx { r with crop := false } speed none lats s fields b pts times := by
  obtain ⟨out, e, e'⟩ := AtlasNet.C75_same_partial h h4 h5 r hm hr hb hc hn speed pos fields sh pts h0 hw hp
  unfold optAtlas
  dsimp only
  rw [e, e']

/-- The way from constants of OTIS models to predictions. -/
theorem otis_options {r : Staggered.Ask ℝ} {s : Staggered.Site ℝ} {fields : List (List (List (Fld ℝ)))}
    {pts times : List (ℝ × ℝ)} {T : List (List (Fld ℝ)) → Chart ℝ} {H : Chart ℝ} {ds : List (Option ℝ)}
    {outs : List (List (Extract.Out ℝ))} (ha : ∀ l ∈ lats, l.length = pts.length)
    (hs : Suits P I o (b.with lats) pts.length ny nx times)
    (hl : fields.length = b.names.length) (e : Staggered.extract r s fields pts = .ok (ds, outs))
    (m : List.Forall₂ (fun hc os => List.Forall₂ (Staggered.Agrees r.method r.quantity.speed (T hc) H) pts os)
      fields outs) :
    ∃ zs, optOtis (n := 3) P I o ny nx r none lats s fields b pts times
        = .ok (laid o.type (expected P I o (b.with lats)) (List.zipWith (· ++ ·) zs (added b lats pts.length)) times) ∧
      List.Forall₂ (fun p z => List.Forall₂ (fun hc z => ∃ v w, Interpolated r.method (T hc) p v ∧
        Interpolated (atlasWay r.method) H p w ∧ z = flow r.quantity.speed 1 v w) fields z) pts zs := by
  obtain ⟨zs, e1, m1⟩ := finish_laid hs ha hl (fun hc p z => ∃ v w, Interpolated r.method (T hc) p v ∧
        Interpolated (atlasWay r.method) H p w ∧ z = flow r.quantity.speed 1 v w)
    (m.imp fun g col h => h.imp fun p v k => (otis_number k).2)
  exact ⟨zs, by rw [optOtis, e, ok_bind]; exact e1, m1⟩

/-- **C113**, cropped OTIS models of the world: the crop also mends what is predicted near the end of the grid. -/
theorem C113_otis_cropped_partial {s : Staggered.Site ℝ} {a : ℝ} (h : Staggered.Around s a) (h4 : 4 ≤ s.x.length)
    (h5 : s.x.length ≤ 10 ^ 5)
    (start : (0 ≤ a ∧ a ≤ 360 / (s.x.length : ℝ)) ∨ (-180 ≤ a ∧ a ≤ -180 + 360 / (s.x.length : ℝ)))
    (r : Staggered.Ask ℝ) (hg : r.geographic = true) (hr : r.crop = true) (hbd : r.bounds = none)
    (hn : ∀ x y hc q, r.near x y hc q = none) (hq : r.quantity.speed = true → r.quantity.node ≠ .z)
    (bil : r.method = .bilinear → r.quantity.node = .z)
    (fields : List (List (List (Fld ℝ)))) (hf : ∀ hc ∈ fields, CGrid.Shape hc s.y.length s.x.length ∧
      Staggered.Complete r.method false (Staggered.world s a) r.quantity.node.points (Staggered.worldValue s hc))
    (hl : fields.length = b.names.length)
    (pts times : List (ℝ × ℝ)) (hne : pts ≠ []) (nz : ∃ p ∈ pts, p.1 ≠ 0 ∨ p.2 ≠ 0)
    (xs : 2 * (360 / (s.x.length : ℝ)) ≤ r.margin (360 / (s.x.length : ℝ)))
    (ys : ∀ c : ℕ, c + 1 < s.y.length → s.y.getD (c + 1) 0 - s.y.getD c 0 ≤ r.margin (360 / (s.x.length : ℝ)) / 2)
    (hx : Staggered.Clear s a pts) (hb : ∀ p ∈ pts, Staggered.Band r.method r.quantity.node s.y p)
    (span : ∀ p ∈ pts, ∀ q ∈ pts,
      p.1 - q.1 + 2 * r.margin (360 / (s.x.length : ℝ)) < 359 - 360 / (s.x.length : ℝ))
    (hu : r.quantity.node = .u → (Staggered.Kept s.x (360 / (s.x.length : ℝ) / 2) (r.margin (360 / (s.x.length : ℝ)))
      (pts.map Prod.fst) ∧ (360 / (s.x.length : ℝ) / 2 ≤ a ∨ ∀ p ∈ pts, p.1 ≤ 180)) ∨ (0 ≤ a ∧ ∃ p ∈ pts, p.1 < 0) ∨
        (a < 0 ∧ ∃ p ∈ pts, 180 < p.1))
    (hv : r.quantity.node = .v → Staggered.Kept s.y ((s.y.getD 1 0 - s.y.getD 0 0) / 2)
      (r.margin (360 / (s.x.length : ℝ))) (pts.map Prod.snd))
    (ha : ∀ l ∈ lats, l.length = pts.length) (hs : Suits P I o (b.with lats) pts.length ny nx times) :
    ∃ zs, optOtis (n := 3) P I o ny nx r none lats s fields b pts times
        = .ok (laid o.type (expected P I o (b.with lats)) (List.zipWith (· ++ ·) zs (added b lats pts.length)) times) ∧
      List.Forall₂ (fun p z => List.Forall₂ (fun hc z => ∃ v w,
        Interpolated r.method ((Staggered.world s a).chart r.quantity.node.points (Staggered.worldValue s hc)) p v ∧
        Interpolated (atlasWay r.method) ((Staggered.world s a).depths r.quantity.node.points) p w ∧
        z = flow r.quantity.speed 1 v w) fields z) pts zs := by
  obtain ⟨ds, outs, e, -, m⟩ := Staggered.C111_world_partial h h4 h5 start r hg hr hbd hn hq bil fields hf pts hne nz xs ys
    hx hb span hu hv
  exact otis_options P I o ny nx b lats ha hs hl e m

/-- With `'spline'` and `'linear'` cropping does not change what is predicted from a regional OTIS model. -/
theorem C113_otis_same_partial {s : Staggered.Site ℝ} (h : Staggered.Rect s) (r : Staggered.Ask ℝ) (hr : r.crop = true)
    (hbd : r.bounds = none) (hm : r.method ≠ .bilinear) (part : Staggered.Partial s r.geographic false)
    (hg : r.geographic = true → (0 ≤ s.x.getD 0 0 ∨ s.x.getD (s.x.length - 1) 0 ≤ 180) ∧
      s.x.getD (s.x.length - 1) 0 - s.x.getD 0 0 < 359 - (s.x.getD 1 0 - s.x.getD 0 0))
    (hn : ∀ x y hc q, r.near x y hc q = none) (hq : r.quantity.speed = true → r.quantity.node ≠ .z)
    (rim : Staggered.Rim s false (Staggered.region s) r.quantity.node)
    (fields : List (List (List (Fld ℝ)))) (hf : ∀ hc ∈ fields, CGrid.Shape hc s.y.length s.x.length ∧
      Staggered.Complete r.method false (Staggered.region s) r.quantity.node.points (Staggered.regionValue hc))
    (pts times : List (ℝ × ℝ)) (hne : pts ≠ []) (nz : ∃ p ∈ pts, p.1 ≠ 0 ∨ p.2 ≠ 0)
    (bpos : 0 < r.margin (s.x.getD 1 0 - s.x.getD 0 0))
    (xs : ∀ c : ℕ, c + 1 < s.x.length →
      s.x.getD (c + 1) 0 - s.x.getD c 0 ≤ r.margin (s.x.getD 1 0 - s.x.getD 0 0) / 2)
    (ys : ∀ c : ℕ, c + 1 < s.y.length →
      s.y.getD (c + 1) 0 - s.y.getD c 0 ≤ r.margin (s.x.getD 1 0 - s.x.getD 0 0) / 2)
    (hx : ∀ p ∈ pts, Staggered.Within r.method r.quantity.node s.x p)
    (hb : ∀ p ∈ pts, Staggered.Band r.method r.quantity.node s.y p)
    (inner : r.quantity.node = .u → ∀ p ∈ pts, s.x.getD 1 0 ≤ p.1)
    (hu : r.quantity.node = .u → Staggered.Kept s.x ((s.x.getD 1 0 - s.x.getD 0 0) / 2)
      (r.margin (s.x.getD 1 0 - s.x.getD 0 0)) (pts.map Prod.fst) ∧
      (r.geographic = true → (s.x.getD 1 0 - s.x.getD 0 0) / 2 ≤ s.x.getD 0 0 ∨ ∀ p ∈ pts, p.1 ≤ 180))
    (hv : r.quantity.node = .v → Staggered.Kept s.y ((s.y.getD 1 0 - s.y.getD 0 0) / 2)
      (r.margin (s.x.getD 1 0 - s.x.getD 0 0)) (pts.map Prod.snd)) :
    optOtis (n := 3) P I o ny nx r none lats s fields b pts times =
      optOtis (n := 3) P I o ny nx { r with crop := false } none lats s fields b pts times := by
  have e := Staggered.C111_region_same_partial h r hr hbd hm part hg hn hq rim fields hf pts hne nz bpos xs ys hx hb inner
    hu hv
  unfold optOtis
  dsimp only
  rw [e]

/-! ## Extrapolation -/

/-- **C113**, GOT and FES with extrapolation: the elevations are the tide of the interpolated constants, and where these
are missing of those at the closest point of the files that has a value. -/
theorem C113_extrapolated (f : Fmt) (r : Request ℝ) (hr : r.crop = false) (query : Extrap.Query 3)
    (hq : Extrap.KDSpec query) (cutoff : Option ℝ) (files : List (Layer ℝ × ℝ))
    (hg : ∀ g ∈ files, Global g.1 g.2) (hl : files.length = b.names.length) (pts times : List (ℝ × ℝ)) (hne : pts ≠ [])
    (hp : ∀ g ∈ files, ∀ p ∈ pts, Place r.method g.1 p)
    (ha : ∀ l ∈ lats, l.length = pts.length) (hs : Suits P I o (b.with lats) pts.length ny nx times) :
    ∃ zs, optFiles P I o ny nx f r (some ⟨query, cutoff, Near.onEarth⟩) lats (files.map Prod.fst) b pts times
        = .ok (laid o.type (expected P I o (b.with lats)) (List.zipWith (· ++ ·) zs (added b lats pts.length)) times) ∧
      List.Forall₂ (fun p z => List.Forall₂ (fun (g : Layer ℝ × ℝ) z => Filled (fun z => ∃ v,
        Interpolated r.method (globe g.1 g.2) p v ∧ z = complexed r.scale v) (globe g.1 g.2) r.scale chord cutoff p z)
        files z) pts zs := by
  obtain ⟨outs, e, m⟩ := Near.C112_got_fes f r hr query hq cutoff files hg pts hne hp
  obtain ⟨zs, e1, m1⟩ := finish_laid hs ha hl (fun (g : Layer ℝ × ℝ) p z => Filled (fun z => ∃ v,
        Interpolated r.method (globe g.1 g.2) p v ∧ z = complexed r.scale v) (globe g.1 g.2) r.scale chord cutoff p z)
    (m.imp fun g col h => h.imp fun p v k => answers_number k fun v => meets_number)
  exact ⟨zs, by rw [optFiles, e, ok_bind]; exact e1, m1⟩

/-- **C113**, elevations and transports of ATLAS netCDF models with extrapolation. -/
theorem C113_atlas_extrapolated_partial {s : AtlasNet.Site ℝ} {a : ℝ} (h : AtlasNet.Around s a) (r : Request ℝ)
    (hr : r.crop = false) (query : Extrap.Query 3) (hq : Extrap.KDSpec query) (cutoff : Option ℝ)
    (fields : List (List (List (ℝ × ℝ)))) (sh : ∀ hc ∈ fields, CGrid.Shape hc s.lat.length s.lon.length)
    (hl : fields.length = b.names.length) (pts times : List (ℝ × ℝ)) (hne : pts ≠ [])
    (hp : ∀ p ∈ pts, AtlasNet.Spot r.method s p)
    (ha : ∀ l ∈ lats, l.length = pts.length) (hs : Suits P I o (b.with lats) pts.length ny nx times) :
    ∃ zs, optAtlas P I o ny nx r false (some ⟨query, cutoff, Near.onEarth⟩) lats s fields b pts times
        = .ok (laid o.type (expected P I o (b.with lats)) (List.zipWith (· ++ ·) zs (added b lats pts.length)) times) ∧
      List.Forall₂ (fun p z => List.Forall₂ (fun hc z => Filled (fun z => ∃ v w,
        Interpolated (atlasWay r.method) (AtlasNet.tides s a hc) p v ∧
        Interpolated (atlasWay r.method) (AtlasNet.waters s a) p w ∧ z = flow false r.scale v w)
        (AtlasNet.tides s a hc) r.scale chord cutoff p z) fields z) pts zs := by
  obtain ⟨ds, outs, e, -, m⟩ := Near.C112_atlas_partial h r hr query hq cutoff fields sh pts hne hp
  obtain ⟨zs, e1, m1⟩ := finish_laid hs ha hl (fun hc p z => Filled (fun z => ∃ v w,
        Interpolated (atlasWay r.method) (AtlasNet.tides s a hc) p v ∧
        Interpolated (atlasWay r.method) (AtlasNet.waters s a) p w ∧ z = flow false r.scale v w)
        (AtlasNet.tides s a hc) r.scale chord cutoff p z)
    (m.imp fun g col h => h.imp fun p v k => answers_number k fun v => atlas_number)
  exact ⟨zs, by rw [optAtlas, e, ok_bind]; exact e1, m1⟩

/-- The way from extrapolated constants of OTIS models to predictions. -/
theorem otis_filled {n : ℕ} {r : Staggered.Ask ℝ} {t : Near.Tree ℝ n} {s : Staggered.Site ℝ}
    {fields : List (List (List (Fld ℝ)))}
    {pts times : List (ℝ × ℝ)} {T : List (List (Fld ℝ)) → Chart ℝ} {H : Chart ℝ} {d : ℝ × ℝ → ℝ × ℝ → ℝ} {cutoff : Option ℝ}
    {ds : List (Option ℝ)} {outs : List (List (Extract.Out ℝ))} (ha : ∀ l ∈ lats, l.length = pts.length)
    (hs : Suits P I o (b.with lats) pts.length ny nx times)
    (hl : fields.length = b.names.length) (e : Near.extractOtis r t s fields pts = .ok (ds, outs))
    (m : List.Forall₂ (fun hc os => List.Forall₂ (Near.Answers (Staggered.Agrees r.method false (T hc) H) (T hc) 1 d cutoff)
      pts os) fields outs) :
    ∃ zs, optOtis P I o ny nx r (some t) lats s fields b pts times
        = .ok (laid o.type (expected P I o (b.with lats)) (List.zipWith (· ++ ·) zs (added b lats pts.length)) times) ∧
      List.Forall₂ (fun p z => List.Forall₂ (fun hc z => Filled (fun z => ∃ v w, Interpolated r.method (T hc) p v ∧
        Interpolated (atlasWay r.method) H p w ∧ z = flow false 1 v w) (T hc) 1 d cutoff p z) fields z) pts zs := by
  obtain ⟨zs, e1, m1⟩ := finish_laid hs ha hl (fun hc p z => Filled (fun z => ∃ v w, Interpolated r.method (T hc) p v ∧
        Interpolated (atlasWay r.method) H p w ∧ z = flow false 1 v w) (T hc) 1 d cutoff p z)
    (m.imp fun g col h => h.imp fun p v k => answers_number k fun v => otis_number)
  exact ⟨zs, by rw [optOtis, e, ok_bind]; exact e1, m1⟩

/-- **C113**, elevations and transports of OTIS models of the world with extrapolation. -/
theorem C113_otis_extrapolated_partial {s : Staggered.Site ℝ} {a : ℝ} (h : Staggered.Around s a) (r : Staggered.Ask ℝ)
    (hg : r.geographic = true) (hr : r.crop = false) (hq : r.quantity.speed = false)
    (query : Extrap.Query 3) (hk : Extrap.KDSpec query) (cutoff : Option ℝ)
    (fields : List (List (List (Fld ℝ)))) (hf : ∀ hc ∈ fields, CGrid.Shape hc s.y.length s.x.length ∧
      Staggered.Complete r.method false (Staggered.world s a) r.quantity.node.points (Staggered.worldValue s hc) ∧
      ∀ k j, (Staggered.world s a).Wet r.quantity.node.points k j → Staggered.worldValue s hc k j ≠ some (0, 0))
    (hl : fields.length = b.names.length)
    (pts times : List (ℝ × ℝ)) (hne : pts ≠ []) (hp : ∀ p ∈ pts, Staggered.Span r.method p)
    (hb : ∀ p ∈ pts, Staggered.Band r.method r.quantity.node s.y p)
    (start : (0 ≤ a ∧ a ≤ 360 / (s.x.length : ℝ) ∧
        (pts.length = 1 ∨ ∀ p ∈ pts, Grid.toPositive p.1 ≤ a + 360 - 360 / (s.x.length : ℝ))) ∨
      (-180 + Staggered.half r.quantity.node (360 / (s.x.length : ℝ)) ≤ a ∧ a ≤ -180 + 360 / (s.x.length : ℝ)))
    (ha : ∀ l ∈ lats, l.length = pts.length) (hs : Suits P I o (b.with lats) pts.length ny nx times) :
    ∃ zs, optOtis P I o ny nx r (some ⟨query, cutoff, Near.onEarth⟩) lats s fields b pts times
        = .ok (laid o.type (expected P I o (b.with lats)) (List.zipWith (· ++ ·) zs (added b lats pts.length)) times) ∧
      List.Forall₂ (fun p z => List.Forall₂ (fun hc z => Filled (fun z => ∃ v w,
        Interpolated r.method ((Staggered.world s a).chart r.quantity.node.points (Staggered.worldValue s hc)) p v ∧
        Interpolated (atlasWay r.method) ((Staggered.world s a).depths r.quantity.node.points) p w ∧ z = flow false 1 v w)
        ((Staggered.world s a).chart r.quantity.node.points (Staggered.worldValue s hc)) 1 chord cutoff p z)
        fields z) pts zs := by
  obtain ⟨ds, outs, e, -, m⟩ := Near.C112_otis_partial h r hg hr hq query hk cutoff fields hf pts hne hp hb start
  exact otis_filled P I o ny nx b lats ha hs hl e m

/-- **C113**, elevations and transports of regional OTIS models in degrees with extrapolation. -/
theorem C113_region_extrapolated_partial {s : Staggered.Site ℝ} (h : Staggered.Rect s) (r : Staggered.Ask ℝ)
    (hr : r.crop = false) (hgeo : r.geographic = true) (hg : Staggered.Partial s r.geographic false)
    (hq : r.quantity.speed = false)
    (query : Extrap.Query 3) (hk : Extrap.KDSpec query) (cutoff : Option ℝ)
    (rim : Staggered.Rim s false (Staggered.region s) r.quantity.node)
    (far : r.method = .bilinear → ∀ c : ℕ, c < s.x.length →
      |s.x.getD c 0 - Staggered.half r.quantity.node (s.x.getD 1 0 - s.x.getD 0 0)| ≤ 720)
    (fields : List (List (List (Fld ℝ)))) (hf : ∀ hc ∈ fields, CGrid.Shape hc s.y.length s.x.length ∧
      Staggered.Complete r.method false (Staggered.region s) r.quantity.node.points (Staggered.regionValue hc) ∧
      ∀ k j, (Staggered.region s).Wet r.quantity.node.points k j → Staggered.regionValue hc k j ≠ some (0, 0))
    (hl : fields.length = b.names.length)
    (pts times : List (ℝ × ℝ)) (hne : pts ≠ []) (hx : ∀ p ∈ pts, Staggered.Within r.method r.quantity.node s.x p)
    (hb : ∀ p ∈ pts, Staggered.Band r.method r.quantity.node s.y p)
    (ha : ∀ l ∈ lats, l.length = pts.length) (hs : Suits P I o (b.with lats) pts.length ny nx times) :
    ∃ zs, optOtis P I o ny nx r (some ⟨query, cutoff, Near.onEarth⟩) lats s fields b pts times
        = .ok (laid o.type (expected P I o (b.with lats)) (List.zipWith (· ++ ·) zs (added b lats pts.length)) times) ∧
      List.Forall₂ (fun p z => List.Forall₂ (fun hc z => Filled (fun z => ∃ v w,
        Interpolated r.method ((Staggered.region s).chart r.quantity.node.points (Staggered.regionValue hc)) p v ∧
        Interpolated (atlasWay r.method) ((Staggered.region s).depths r.quantity.node.points) p w ∧ z = flow false 1 v w)
        ((Staggered.region s).chart r.quantity.node.points (Staggered.regionValue hc)) 1 chord cutoff p z)
        fields z) pts zs := by
  obtain ⟨ds, outs, e, -, m⟩ := Near.C112_region_partial h r hr hgeo hg hq query hk cutoff rim far fields hf pts hne hx hb
  exact otis_filled P I o ny nx b lats ha hs hl e m

/-- **C113**, elevations and transports of OTIS models on a projection with extrapolation. -/
theorem C113_projected_extrapolated_partial {s : Staggered.Site ℝ} (h : Staggered.Rect s) (r : Staggered.Ask ℝ)
    (hr : r.crop = false) (hgeo : r.geographic = false) (hg : Staggered.Partial s r.geographic false)
    (hq : r.quantity.speed = false)
    (query : Extrap.Query 2) (hk : Extrap.KDSpec query) (cutoff : Option ℝ)
    (rim : Staggered.Rim s false (Staggered.region s) r.quantity.node)
    (far : r.method = .bilinear → ∀ c : ℕ, c < s.x.length →
      |s.x.getD c 0 - Staggered.half r.quantity.node (s.x.getD 1 0 - s.x.getD 0 0)| ≤ 720)
    (fields : List (List (List (Fld ℝ)))) (hf : ∀ hc ∈ fields, CGrid.Shape hc s.y.length s.x.length ∧
      Staggered.Complete r.method false (Staggered.region s) r.quantity.node.points (Staggered.regionValue hc) ∧
      ∀ k j, (Staggered.region s).Wet r.quantity.node.points k j → Staggered.regionValue hc k j ≠ some (0, 0))
    (hl : fields.length = b.names.length)
    (pts times : List (ℝ × ℝ)) (hne : pts ≠ []) (hx : ∀ p ∈ pts, Staggered.Within r.method r.quantity.node s.x p)
    (hb : ∀ p ∈ pts, Staggered.Band r.method r.quantity.node s.y p)
    (ha : ∀ l ∈ lats, l.length = pts.length) (hs : Suits P I o (b.with lats) pts.length ny nx times) :
    ∃ zs, optOtis P I o ny nx r (some ⟨query, cutoff, Near.onPlane⟩) lats s fields b pts times
        = .ok (laid o.type (expected P I o (b.with lats)) (List.zipWith (· ++ ·) zs (added b lats pts.length)) times) ∧
      List.Forall₂ (fun p z => List.Forall₂ (fun hc z => Filled (fun z => ∃ v w,
        Interpolated r.method ((Staggered.region s).chart r.quantity.node.points (Staggered.regionValue hc)) p v ∧
        Interpolated (atlasWay r.method) ((Staggered.region s).depths r.quantity.node.points) p w ∧ z = flow false 1 v w)
        ((Staggered.region s).chart r.quantity.node.points (Staggered.regionValue hc)) 1 flat cutoff p z)
        fields z) pts zs := by
  obtain ⟨ds, outs, e, -, m⟩ := Near.C112_projected_partial h r hr hgeo hg hq query hk cutoff rim far fields hf pts hne hx hb
  exact otis_filled P I o ny nx b lats ha hs hl e m

/-! ## Flexure -/

/-- **C113**, elevations from a regional TMD3 file: with `apply_flexure` the tide of the constants in the file times
the part of the tide the ice follows. -/
theorem C113_flexure_partial {g f : TMD3.File ℝ} (h : TMD3.Regular g) {re im : List (List (List ℝ))}
    (hf : TMD3.Elevations g f re im) (r : Staggered.Ask ℝ) (hz : r.quantity = ⟨.z, false⟩) (hr : r.crop = false)
    (hg : r.geographic = false ∨ Interp.isclose (g.x.getD (g.x.length - 1) 0 - g.x.getD 0 0)
      (360 - (g.x.getD 1 0 - g.x.getD 0 0)) = false)
    (hn : ∀ x y hc q, r.near x y hc q = none)
    (far : r.method = .bilinear → ∀ c : ℕ, c < g.x.length → |g.x.getD c 0| ≤ 720)
    (flexure : Bool) (hv : ∀ p ∈ re.zip im, Staggered.Complete r.method false (TMD3.sea g false 0) .elevation
      (TMD3.elevation g false flexure p.1 p.2))
    (pts times : List (ℝ × ℝ)) (hne : pts ≠ []) (hx : ∀ p ∈ pts, Staggered.Within r.method .z g.x p)
    (hb : ∀ p ∈ pts, Staggered.Band r.method .z g.y.reverse p)
    (ha : ∀ l ∈ lats, l.length = pts.length)
    (hs : Suits P I o (About.with { b with names := (TMD3.names f).map ascii } lats) pts.length ny nx times) :
    ∃ zs, optTmd3 P I o ny nx r flexure lats g f b pts times
        = .ok (laid o.type (expected P I o (About.with { b with names := (TMD3.names f).map ascii } lats))
          (List.zipWith (· ++ ·) zs (added { b with names := (TMD3.names f).map ascii } lats pts.length)) times) ∧
      List.Forall₂ (fun p z => List.Forall₂ (fun (q : List (List ℝ) × List (List ℝ)) z => ∃ v w,
        Interpolated r.method ((TMD3.sea g false 0).chart .elevation (TMD3.elevation g false flexure q.1 q.2)) p v ∧
        Interpolated (atlasWay r.method) ((TMD3.sea g false 0).depths .elevation) p w ∧
        z = flow false 1 v w) (re.zip im) z) pts zs := by
  obtain ⟨ds, outs, e, -, m⟩ := TMD3.C85_region_partial h hf r hz hr hg hn far flexure hv pts hne hx hb
  obtain ⟨zs, e1, m1⟩ := finish_laid hs ha (by simp [hf.many, hf.many'])
    (fun (q : List (List ℝ) × List (List ℝ)) p z => ∃ v w,
        Interpolated r.method ((TMD3.sea g false 0).chart .elevation (TMD3.elevation g false flexure q.1 q.2)) p v ∧
        Interpolated (atlasWay r.method) ((TMD3.sea g false 0).depths .elevation) p w ∧ z = flow false 1 v w)
    (m.imp fun g col h => h.imp fun p v k => (otis_number k).2)
  exact ⟨zs, by rw [optTmd3, e, ok_bind]; exact e1, m1⟩

/-- **C113**, elevations from a TMD3 file of the world, at one place. -/
theorem C113_flexure_global_partial {g f : TMD3.File ℝ} (h : TMD3.Regular g) {re im : List (List (List ℝ))}
    (hf : TMD3.Elevations g f re im) (three : 3 ≤ g.x.length) (a : ℝ)
    (lon : g.x = uniform a (360 / (g.x.length : ℝ)) g.x.length)
    (r : Staggered.Ask ℝ) (hz : r.quantity = ⟨.z, false⟩) (hr : r.crop = false) (hg : r.geographic = true)
    (hn : ∀ x y hc q, r.near x y hc q = none)
    (start : (0 ≤ a ∧ a ≤ 360 / (g.x.length : ℝ)) ∨ (-180 ≤ a ∧ a ≤ -180 + 360 / (g.x.length : ℝ)))
    (flexure : Bool) (hv : ∀ p ∈ re.zip im, Staggered.Complete r.method false (TMD3.sea g true a) .elevation
      (TMD3.elevation g true flexure p.1 p.2))
    (p : ℝ × ℝ) (times : List (ℝ × ℝ)) (hp : Staggered.Span r.method p) (hb : Staggered.Band r.method .z g.y.reverse p)
    (ha : ∀ l ∈ lats, l.length = 1)
    (hs : Suits P I o (About.with { b with names := (TMD3.names f).map ascii } lats) 1 ny nx times) :
    ∃ zs, optTmd3 P I o ny nx r flexure lats g f b [p] times
        = .ok (laid o.type (expected P I o (About.with { b with names := (TMD3.names f).map ascii } lats))
          (List.zipWith (· ++ ·) zs (added { b with names := (TMD3.names f).map ascii } lats 1)) times) ∧
      List.Forall₂ (fun p z => List.Forall₂ (fun (q : List (List ℝ) × List (List ℝ)) z => ∃ v w,
        Interpolated r.method ((TMD3.sea g true a).chart .elevation (TMD3.elevation g true flexure q.1 q.2)) p v ∧
        Interpolated (atlasWay r.method) ((TMD3.sea g true a).depths .elevation) p w ∧
        z = flow false 1 v w) (re.zip im) z) [p] zs := by
  obtain ⟨d, outs, e, -, m⟩ := TMD3.C85_global h hf three a lon r hz hr hg hn start flexure hv p hp hb
  obtain ⟨zs, e1, m1⟩ := finish_laid (pts := [p]) hs ha (by simp [hf.many, hf.many'])
    (fun (q : List (List ℝ) × List (List ℝ)) p z => ∃ v w,
        Interpolated r.method ((TMD3.sea g true a).chart .elevation (TMD3.elevation g true flexure q.1 q.2)) p v ∧
        Interpolated (atlasWay r.method) ((TMD3.sea g true a).depths .elevation) p w ∧ z = flow false 1 v w)
    (m.imp fun g col h => by
      obtain ⟨o, rfl, k⟩ := h
      exact List.forall₂_cons.2 ⟨(otis_number k).2, .nil⟩)
  exact ⟨zs, by rw [optTmd3, e, ok_bind]; exact e1, m1⟩

end

/-! ## Examples -/

/-- A track of two points and the model `ocean`, which has land, with the node tide and without a limit of distance: the
hypotheses of `C113_extrapolated` hold, and the model has two constituents in the end. -/
example (I : Infer.Env) (r : Request ℝ) (hr : r.crop = false) (hm : r.method = .spline) : ∃ (P : Predict.Env) (query : Extrap.Query 3)
    (zs : List (List (Option ℂ))),
    optFiles P I ⟨"drift", none, false, none⟩ 1 1 got r (some ⟨query, none, Near.onEarth⟩) (some [10, -20]) [ocean] lunar
        [(-30, 10), (350, -20)] [(0, 0), (1, 0)]
      = .ok (laid "drift" (expected P I ⟨"drift", none, false, none⟩ ⟨["m2", "node"], "GOT", none⟩) zs [(0, 0), (1, 0)]) ∧
    zs.map List.length = [2, 2] := by
  obtain ⟨query, hq⟩ := Extrap.kdspec_satisfiable (n := 3)
  have e : (360 : ℝ) / (ocean.lon.length : ℝ) = 90 := by
    show (360 : ℝ) / ((4 : ℕ) : ℝ) = 90
    norm_num
  have gl : Global ocean 0 := by
    refine ⟨⟨by show 3 ≤ 4; omega, ?_, ?_, by show 2 ≤ 3; omega, rfl, ?_⟩, Or.inl ⟨le_rfl, ?_⟩⟩
    · rw [e]
      show [(0 : ℝ), 90, 180, 270] = (List.range 4).map _
      simp only [List.range, List.range.loop, List.map_cons, List.map_nil]
      norm_num
    · show [(-60 : ℝ), 0, 60].Pairwise (· < ·)
      simp only [List.pairwise_cons, List.mem_cons, List.not_mem_nil, or_false]
      norm_num
    · intro r hr
      simp only [ocean, List.mem_cons, List.not_mem_nil, or_false] at hr
      rcases hr with rfl | rfl | rfl <;> rfl
    · rw [e]; norm_num
  have w : About.with lunar (some [10, -20]) = ⟨["m2", "node"], "GOT", none⟩ := by
    unfold About.with
    rw [if_pos ⟨rfl, by simp [lunar]⟩]
    rfl
  obtain ⟨zs, h1, h2⟩ := C113_extrapolated ⟨fun _ => true, fun _ _ _ => ⟨0, 1, 0⟩, fun _ => 0, fun _ => 0⟩ I
    ⟨"drift", none, false, none⟩ 1 1 lunar (some [10, -20]) got r hr query hq none [(ocean, 0)] (by simpa using gl) rfl
    [(-30, 10), (350, -20)] [(0, 0), (1, 0)] (by simp) (by
      intro g hg p hp
      rw [List.mem_singleton] at hg
      subst hg
      rw [hm]
      simp only [List.mem_cons, List.not_mem_nil, or_false] at hp
      rcases hp with rfl | rfl <;>
        exact ⟨by norm_num, by norm_num, by simp [ocean]; norm_num, by simp [ocean]; norm_num, fun h => by cases h⟩)
    (by intro l hl; cases hl; rfl) (by
      rw [w]
      exact ⟨Or.inr (Or.inl ⟨by decide +kernel, rfl⟩), fun _ _ => rfl, by decide +kernel, fun h => by cases h⟩)
  refine ⟨_, query, _, by rw [← w]; exact h1, ?_⟩
  have a : added lunar (some [10, -20]) 2 = [[some (nodeConstant 10)], [some (nodeConstant (-20))]] := by
    unfold added
    simp [lunar]
  show List.map List.length (List.zipWith (· ++ ·) zs (added lunar (some [10, -20]) 2)) = [2, 2]
  rw [a]
  match zs, h2 with
  | [z, z'], .cons k (.cons k' .nil) =>
    have e1 : z.length = 1 := k.length_eq.symm
    have e2 : z'.length = 1 := k'.length_eq.symm
    simp [e1, e2]

end Verif.Pipeline
