import Verif.Model.Predict
import Verif.Spec.Tide
import Verif.Lemmas.Py
import Mathlib.Algebra.Order.BigOperators.Group.List
import Mathlib.Algebra.BigOperators.Group.List.Basic
import Mathlib.Tactic.Ring
import Mathlib.Tactic.Linarith
/-!
C21, C22 and C23: predicted tides.
-/
namespace Verif.Predict
open Verif

/-- The complex constant of an entry. -/
def MC.val (z : MC) : ℂ := ⟨z.re, z.im⟩

/-- The waves of a point at a time. -/
noncomputable def waves (env : Env) (corr : String) (t : ℝ × ℝ) (names : List String)
    (row : List MC) : List Spec.Wave :=
  List.zipWith (fun c z => ⟨(env.args t.1 t.2 c).pf,
    phase env corr c t.1 (env.args t.1 t.2 c), z.val⟩) names row

/-- The value and mask that should be predicted for a point at a time. -/
noncomputable def prediction (env : Env) (corr : String) (t : ℝ × ℝ) (names : List String)
    (row : List MC) : MR :=
  (Spec.tide (waves env corr t names row), row.any (fun z => z.mask))

theorem height_eq (f th : ℝ) (z : MC) :
    (Spec.Wave.mk f th z.val).height = f * z.re * Real.cos th - f * z.im * Real.sin th := by
  simp only [Spec.Wave.height, MC.val, Complex.exp_mul_I, ← Complex.ofReal_cos,
    ← Complex.ofReal_sin]
  simp only [Complex.mul_re, Complex.ofReal_re, Complex.ofReal_im, Complex.add_re, Complex.add_im,
    Complex.mul_im, Complex.I_re, Complex.I_im]
  ring

theorem item_ok {α : Type} (l : List α) (k : ℕ) (a : α) (h : l[k]? = some a) :
    item l k = .ok a := by rw [item, h]

/-- One step of accumulation turns the prediction from the first `k` constituents into that from
the first `k + 1`. -/
theorem accum_prediction (env : Env) (corr : String) (t : ℝ × ℝ) (pre : List String) (c : String)
    (row : List MC) (z : MC) (hz : row[pre.length]? = some z) :
    accum (prediction env corr t pre (row.take pre.length)) (env.args t.1 t.2 c)
        (phase env corr c t.1 (env.args t.1 t.2 c)) z
      = prediction env corr t (pre ++ [c]) (row.take (pre ++ [c]).length) := by
  have hlt : pre.length < row.length := (List.getElem?_eq_some_iff.mp hz).1
  have ht : row.take (pre ++ [c]).length = row.take pre.length ++ [z] := by
    rw [List.length_append, List.length_singleton, List.take_succ, hz]
    rfl
  rw [ht]
  simp only [accum, prediction, waves, Spec.tide]
  rw [List.zipWith_append (by rw [List.length_take]; omega), List.map_append, List.sum_append,
    List.any_append]
  refine Prod.ext ?_ ?_
  · simp only [List.zipWith_cons_cons, List.zipWith_nil_left, List.map_cons, List.map_nil,
      List.sum_cons, List.sum_nil, add_zero, height_eq]
  · simp

theorem column_ok {α : Type} (m : List (List α)) (k : ℕ) (d : List α → α)
    (h : ∀ row ∈ m, row[k]? = some (d row)) : column m k = .ok (m.map d) :=
  pyMap_ok_of_forall (fun row hr => item_ok _ _ _ (h row hr))

theorem zipWith_map_same {α β γ δ : Type} (f : β → γ → δ) (g : α → β) (h : α → γ) (l : List α) :
    List.zipWith f (l.map g) (l.map h) = l.map (fun a => f (g a) (h a)) := by
  induction l with
  | nil => rfl
  | cons a t ih => simp only [List.map_cons, List.zipWith_cons_cons, ih]

theorem zip_map_self {α β : Type} (g : α → β) (l : List α) :
    l.zip (l.map g) = l.map (fun a => (a, g a)) := by
  induction l with
  | nil => rfl
  | cons a t ih => simp only [List.map_cons, List.zip_cons_cons, ih]

theorem getElem?_zip_of {α β : Type} (l : List α) (m : List β) (k : ℕ) (a : α) (b : β)
    (h1 : l[k]? = some a) (h2 : m[k]? = some b) : (l.zip m)[k]? = some (a, b) :=
  List.getElem?_zip_eq_some.mpr ⟨h1, h2⟩

theorem broadcast_self {α : Type} (n : ℕ) (col : List α) (h : col.length = n) :
    broadcast n col = .ok col := by
  unfold broadcast
  exact if_pos h

theorem mapLoop_eq (env : Env) (corr : String) (t : ℝ × ℝ) (names : List String)
    (hc : List (List MC)) (hrow : ∀ row ∈ hc, row.length = names.length) (cs pre : List String)
    (hn : names = pre ++ cs) :
    mapLoop env corr t.1 (names.map (env.args t.1 t.2)) hc pre.length cs
        (hc.map (fun row => prediction env corr t pre (row.take pre.length)))
      = .ok (hc.map (fun row => prediction env corr t names row)) := by
  induction cs generalizing pre with
  | nil =>
    rw [List.append_nil] at hn
    subst hn
    refine congrArg Except.ok (List.map_congr_left ?_)
    intro row hr
    rw [List.take_of_length_le (by rw [hrow row hr])]
  | cons c cs ih =>
    have hcol : ∀ row ∈ hc, ∃ z, row[pre.length]? = some z := by
      intro row hr
      have hl := hrow row hr
      rw [hn, List.length_append, List.length_cons] at hl
      exact ⟨_, List.getElem?_eq_getElem (by omega)⟩
    classical
    obtain ⟨d, hd⟩ : ∃ d : List MC → MC, ∀ row ∈ hc, row[pre.length]? = some (d row) := by
      refine ⟨fun row => if h : row ∈ hc then (hcol row h).choose else ⟨0, 0, false⟩, ?_⟩
      intro row hr
      dsimp only
      rw [dif_pos hr]
      exact (hcol row hr).choose_spec
    have hidx : (names.map (env.args t.1 t.2))[pre.length]? = some (env.args t.1 t.2 c) := by
      rw [hn, List.getElem?_map]; simp
    rw [mapLoop, item_ok _ _ _ hidx, ok_bind]
    dsimp only
    rw [column_ok hc pre.length d hd, ok_bind, zipWith_map_same]
    have := ih (pre ++ [c]) (by rw [hn, List.append_assoc]; rfl)
    rw [List.length_append, List.length_singleton] at this
    rw [← this]
    congr 1
    refine List.map_congr_left ?_
    intro row hr
    rw [accum_prediction env corr t pre c row (d row) (hd row hr), List.length_append,
      List.length_singleton]

theorem driftLoop_eq (env : Env) (corr : String) (ts : List (ℝ × ℝ)) (names : List String)
    (hc : List (List MC)) (hlen : hc.length = ts.length)
    (hrow : ∀ row ∈ hc, row.length = names.length) (cs pre : List String)
    (hn : names = pre ++ cs) :
    driftLoop env corr ts (ts.map (fun t => names.map (env.args t.1 t.2))) hc pre.length cs
        ((ts.zip hc).map (fun p => prediction env corr p.1 pre (p.2.take pre.length)))
      = .ok ((ts.zip hc).map (fun p => prediction env corr p.1 names p.2)) := by
  have hmem : ∀ p ∈ ts.zip hc, p.2 ∈ hc := fun p hp => (List.of_mem_zip hp).2
  induction cs generalizing pre with
  | nil =>
    rw [List.append_nil] at hn
    subst hn
    refine congrArg Except.ok (List.map_congr_left ?_)
    intro p hp
    rw [List.take_of_length_le (by rw [hrow p.2 (hmem p hp)])]
  | cons c cs ih =>
    have hcol : ∀ row ∈ hc, ∃ z, row[pre.length]? = some z := by
      intro row hr
      have hl := hrow row hr
      rw [hn, List.length_append, List.length_cons] at hl
      exact ⟨_, List.getElem?_eq_getElem (by omega)⟩
    classical
    obtain ⟨d, hd⟩ : ∃ d : List MC → MC, ∀ row ∈ hc, row[pre.length]? = some (d row) := by
      refine ⟨fun row => if h : row ∈ hc then (hcol row h).choose else ⟨0, 0, false⟩, ?_⟩
      intro row hr
      dsimp only
      rw [dif_pos hr]
      exact (hcol row hr).choose_spec
    have hA : column (ts.map (fun t => names.map (env.args t.1 t.2))) pre.length
        = .ok (ts.map (fun t => env.args t.1 t.2 c)) := by
      rw [column]
      have : ∀ l : List (ℝ × ℝ), pyMap (fun row => item row pre.length)
          (l.map (fun t => names.map (env.args t.1 t.2)))
          = .ok (l.map (fun t => env.args t.1 t.2 c)) := by
        intro l
        induction l with
        | nil => rfl
        | cons a u ihl =>
          rw [List.map_cons, pyMap, item_ok _ _ (env.args a.1 a.2 c) (by
            rw [hn, List.getElem?_map]; simp), ihl]
          rfl
      exact this ts
    rw [driftLoop, hA, ok_bind, column_ok hc pre.length d hd, ok_bind,
      broadcast_self _ _ (by rw [List.length_map, hlen]), ok_bind]
    have e1 : (ts.zip (ts.map (fun t => env.args t.1 t.2 c))).zip (hc.map d)
        = (ts.zip hc).map (fun p => ((p.1, env.args p.1.1 p.1.2 c), d p.2)) := by
      have : ts.zip (ts.map (fun t => env.args t.1 t.2 c))
          = ts.map (fun t => (t, env.args t.1 t.2 c)) := by
        exact zip_map_self _ ts
      rw [this, List.zip_map]
      rfl
    rw [e1, zipWith_map_same]
    have := ih (pre ++ [c]) (by rw [hn, List.append_assoc]; rfl)
    rw [List.length_append, List.length_singleton] at this
    rw [← this]
    congr 1
    refine List.map_congr_left ?_
    intro p hp
    rw [accum_prediction env corr p.1 pre c p.2 (d p.2) (hd _ (hmem p hp)), List.length_append,
      List.length_singleton]

theorem seriesLoop_eq (env : Env) (corr : String) (ts : List (ℝ × ℝ)) (names : List String)
    (row : List MC) (hc : List (List MC)) (hrow : row.length = names.length)
    (cs pre : List String) (hn : names = pre ++ cs) :
    seriesLoop env corr ts (ts.map (fun t => names.map (env.args t.1 t.2))) (row :: hc) pre.length cs
        (ts.map (fun t => prediction env corr t pre (row.take pre.length)))
      = .ok (ts.map (fun t => prediction env corr t names row)) := by
  induction cs generalizing pre with
  | nil =>
    rw [List.append_nil] at hn
    subst hn
    refine congrArg Except.ok (List.map_congr_left ?_)
    intro t _
    rw [List.take_of_length_le (by rw [hrow])]
  | cons c cs ih =>
    obtain ⟨z, hz⟩ : ∃ z, row[pre.length]? = some z := by
      have hl := hrow
      rw [hn, List.length_append, List.length_cons] at hl
      exact ⟨_, List.getElem?_eq_getElem (by omega)⟩
    have hA : column (ts.map (fun t => names.map (env.args t.1 t.2))) pre.length
        = .ok (ts.map (fun t => env.args t.1 t.2 c)) := by
      rw [column]
      have : ∀ l : List (ℝ × ℝ), pyMap (fun row => item row pre.length)
          (l.map (fun t => names.map (env.args t.1 t.2)))
          = .ok (l.map (fun t => env.args t.1 t.2 c)) := by
        intro l
        induction l with
        | nil => rfl
        | cons a u ihl =>
          rw [List.map_cons, pyMap, item_ok _ _ (env.args a.1 a.2 c) (by
            rw [hn, List.getElem?_map]; simp), ihl]
          rfl
      exact this ts
    rw [seriesLoop, hA, ok_bind, item_ok (row :: hc) 0 row rfl, ok_bind, item_ok _ _ z hz, ok_bind]
    have e1 : ts.zip (ts.map (fun t => env.args t.1 t.2 c))
          = ts.map (fun t => (t, env.args t.1 t.2 c)) := by
      exact zip_map_self _ ts
    rw [e1, zipWith_map_same]
    have := ih (pre ++ [c]) (by rw [hn, List.append_assoc]; rfl)
    rw [List.length_append, List.length_singleton] at this
    rw [← this]
    congr 1
    refine List.map_congr_left ?_
    intro t _
    rw [accum_prediction env corr t pre c row z hz, List.length_append,
      List.length_singleton]

theorem replicate_zero_prediction {α : Type} (env : Env) (corr : String) (f : α → ℝ × ℝ)
    (g : α → List MC) (l : List α) (n : ℕ) (hn : l.length = n) :
    List.replicate n ((0 : ℝ), false)
      = l.map (fun p => prediction env corr (f p) [] ((g p).take 0)) := by
  subst hn
  induction l with
  | nil => rfl
  | cons a t ih =>
    rw [List.length_cons, List.replicate_succ, List.map_cons, ih]
    simp [prediction, waves, Spec.tide]

/-! ### What the three functions return -/

/-- Prediction at one time for every point. -/
theorem C21_map_value (env : Env) (corr : String) (t deltat : ℝ) (hc : List (List MC))
    (names : List String) (hk : ∀ c ∈ names, env.known c = true)
    (hrow : ∀ row ∈ hc, row.length = names.length) :
    map env t deltat hc names corr
      = .ok (hc.map (fun row => prediction env corr (t, deltat) names row)) := by
  rw [map, argMatrix, if_pos (List.all_eq_true.mpr hk), ok_bind, List.map_cons,
    item_ok _ 0 _ rfl, ok_bind,
    replicate_zero_prediction env corr (fun _ => (t, deltat)) id hc hc.length rfl]
  exact mapLoop_eq env corr (t, deltat) names hc hrow names [] rfl

/-- Prediction along a track. -/
theorem C21_drift_value (env : Env) (corr : String) (ts : List (ℝ × ℝ)) (hc : List (List MC))
    (names : List String) (hk : ∀ c ∈ names, env.known c = true) (hlen : hc.length = ts.length)
    (hrow : ∀ row ∈ hc, row.length = names.length) :
    drift env ts hc names corr
      = .ok ((ts.zip hc).map (fun p => prediction env corr p.1 names p.2)) := by
  rw [drift, argMatrix, if_pos (List.all_eq_true.mpr hk), ok_bind,
    replicate_zero_prediction env corr Prod.fst Prod.snd (ts.zip hc) ts.length
      (by rw [List.length_zip, hlen, Nat.min_self])]
  exact driftLoop_eq env corr ts names hc hlen hrow names [] rfl

/-- Prediction of a time series. -/
theorem C21_series_value (env : Env) (corr : String) (ts : List (ℝ × ℝ)) (row : List MC)
    (hc : List (List MC)) (names : List String) (hk : ∀ c ∈ names, env.known c = true)
    (hrow : row.length = names.length) :
    timeSeries env ts (row :: hc) names corr
      = .ok (ts.map (fun t => prediction env corr t names row)) := by
  rw [timeSeries, argMatrix, if_pos (List.all_eq_true.mpr hk), ok_bind,
    replicate_zero_prediction env corr id (fun _ => row) ts ts.length rfl]
  exact seriesLoop_eq env corr ts names row hc hrow names [] rfl

/-! ### C21: linearity, superposition, order, bound -/

/-- The combination `a h + b g` of two rows of constants. -/
noncomputable def combine (a b : ℝ) (h g : List MC) : List MC :=
  List.zipWith (fun x y => ⟨a * x.re + b * y.re, a * x.im + b * y.im, x.mask || y.mask⟩) h g

theorem combine_val (env : Env) (corr : String) (t : ℝ × ℝ) (a b : ℝ) (names : List String)
    (h g : List MC) (hh : h.length = names.length) (hg : g.length = names.length) :
    (prediction env corr t names (combine a b h g)).1
      = a * (prediction env corr t names h).1 + b * (prediction env corr t names g).1 := by
  simp only [prediction, Spec.tide, waves]
  induction names generalizing h g with
  | nil => simp
  | cons c cs ih =>
    cases h with
    | nil => simp at hh
    | cons x h =>
      cases g with
      | nil => simp at hg
      | cons y g =>
        have := ih h g (by simpa using hh) (by simpa using hg)
        simp only [combine, List.zipWith_cons_cons, List.map_cons, List.sum_cons,
          height_eq] at this ⊢
        rw [this]
        ring

/-- The prediction is linear in the constants (time series; the other two functions return the
same values, `C22_agree`). -/
theorem C21_linear (env : Env) (corr : String) (ts : List (ℝ × ℝ)) (a b : ℝ) (h g : List MC)
    (names : List String) (hk : ∀ c ∈ names, env.known c = true)
    (hh : h.length = names.length) (hg : g.length = names.length) :
    ∃ x y z : List MR, timeSeries env ts [h] names corr = .ok x ∧
      timeSeries env ts [g] names corr = .ok y ∧
      timeSeries env ts [combine a b h g] names corr = .ok z ∧
      x.length = ts.length ∧ y.length = ts.length ∧ z.length = ts.length ∧
      z.map Prod.fst = List.zipWith (fun u v => a * u + b * v) (x.map Prod.fst) (y.map Prod.fst) := by
  refine ⟨_, _, _, C21_series_value env corr ts h [] names hk hh,
    C21_series_value env corr ts g [] names hk hg,
    C21_series_value env corr ts _ [] names hk (by
      rw [combine, List.length_zipWith, hh, hg, Nat.min_self]), by simp, by simp, by simp, ?_⟩
  rw [List.map_map, List.map_map, List.map_map, zipWith_map_same]
  exact List.map_congr_left (fun t _ => combine_val env corr t a b names h g hh hg)

/-- The prediction is the sum of the predictions of each constituent alone. -/
theorem C21_superposition (env : Env) (corr : String) (ts : List (ℝ × ℝ)) (row : List MC)
    (names : List String) (hk : ∀ c ∈ names, env.known c = true)
    (hrow : row.length = names.length) :
    ∃ x : List MR, timeSeries env ts [row] names corr = .ok x ∧
      ∃ single : String × MC → List MR,
        (∀ p ∈ names.zip row, timeSeries env ts [[p.2]] [p.1] corr = .ok (single p)) ∧
        ∀ j, (x[j]?).map Prod.fst = if j < ts.length then
          some (((names.zip row).map (fun p => ((single p)[j]?.map Prod.fst).getD 0)).sum) else none := by
  refine ⟨_, C21_series_value env corr ts row [] names hk hrow,
    fun p => ts.map (fun t => prediction env corr t [p.1] [p.2]), ?_, ?_⟩
  · intro p hp
    refine C21_series_value env corr ts [p.2] [] [p.1] ?_ rfl
    intro c hc
    rw [List.mem_singleton] at hc
    subst hc
    exact hk _ (List.of_mem_zip hp).1
  · intro j
    by_cases hj : j < ts.length
    · rw [if_pos hj]
      simp only [List.getElem?_map, List.getElem?_eq_getElem hj, Option.map_some, Option.getD_some,
        Option.some.injEq]
      clear hk
      generalize ts[j] = t
      simp only [prediction, Spec.tide, waves]
      induction names generalizing row with
      | nil => simp
      | cons c cs ih =>
        cases row with
        | nil => simp at hrow
        | cons z row =>
          have := ih row (by simpa using hrow)
          simp only [List.zipWith_cons_cons, List.map_cons, List.sum_cons, List.zip_cons_cons,
            List.zipWith_nil_left, List.map_nil, List.sum_nil, add_zero] at this ⊢
          rw [this]
    · rw [if_neg hj, List.getElem?_eq_none (by simpa using hj)]
      rfl

/-- The order of the constituents does not matter: any permutation of names together with their
constants gives the same values and masks. -/
theorem C21_order (env : Env) (corr : String) (ts : List (ℝ × ℝ)) (l l' : List (String × MC))
    (hp : l.Perm l') :
    timeSeries env ts [l.map Prod.snd] (l.map Prod.fst) corr
      = timeSeries env ts [l'.map Prod.snd] (l'.map Prod.fst) corr := by
  by_cases hk : ∀ c ∈ l.map Prod.fst, env.known c = true
  · have hk' : ∀ c ∈ l'.map Prod.fst, env.known c = true := by
      intro c hc
      exact hk c ((hp.map Prod.fst).mem_iff.mpr hc)
    rw [C21_series_value env corr ts _ [] _ hk (by simp),
      C21_series_value env corr ts _ [] _ hk' (by simp)]
    refine congrArg Except.ok (List.map_congr_left ?_)
    intro t _
    simp only [prediction, Spec.tide, waves, zipWith_map_same, List.map_map]
    refine Prod.ext ?_ ?_
    · exact (hp.map _).sum_eq
    · simp only [List.any_map]
      exact hp.any_eq
  · have h1 : ((l.map Prod.fst).all env.known) = false := by
      rw [← Bool.not_eq_true, List.all_eq_true]; exact hk
    have h2 : ((l'.map Prod.fst).all env.known) = false := by
      rw [← h1]; exact (hp.map Prod.fst).all_eq.symm
    rw [timeSeries, timeSeries, argMatrix, argMatrix, h1, h2]
    rfl

theorem abs_height_le (w : Spec.Wave) : |w.height| ≤ |w.f| * ‖w.h‖ := by
  rw [Spec.Wave.height]
  refine (Complex.abs_re_le_norm _).trans ?_
  rw [norm_mul, norm_mul, Complex.norm_exp_ofReal_mul_I, Complex.norm_real, mul_one, Real.norm_eq_abs]

/-- The prediction never exceeds the sum of nodal factor times amplitude. -/
theorem C21_bound (env : Env) (corr : String) (ts : List (ℝ × ℝ)) (row : List MC)
    (names : List String) (hk : ∀ c ∈ names, env.known c = true)
    (hrow : row.length = names.length) :
    ∃ x : List MR, timeSeries env ts [row] names corr = .ok x ∧
      ∀ (j : ℕ) (t : ℝ × ℝ) (v : MR), ts[j]? = some t → x[j]? = some v →
        |v.1| ≤ (List.zipWith (fun c z => |(env.args t.1 t.2 c).pf| * ‖(⟨z.re, z.im⟩ : ℂ)‖)
          names row).sum := by
  refine ⟨_, C21_series_value env corr ts row [] names hk hrow, ?_⟩
  intro j t v ht hv
  rw [List.getElem?_map, ht] at hv
  have hv' := Option.some.inj hv
  subst hv'
  simp only [prediction, Spec.tide, waves]
  clear hk ht hv
  induction names generalizing row with
  | nil => simp
  | cons c cs ih =>
    cases row with
    | nil => simp at hrow
    | cons z row =>
      have := ih row (by simpa using hrow)
      simp only [List.zipWith_cons_cons, List.map_cons, List.sum_cons]
      refine (abs_add_le _ _).trans (add_le_add ?_ this)
      exact abs_height_le _

/-! ### C22: agreement -/

/-- For point `i` and time `j`, the map at that time, any track that passes there, and the time
series at that point give the same value and mask. -/
theorem C22_agree (env : Env) (corr : String) (names : List String)
    (hk : ∀ c ∈ names, env.known c = true)
    (points : List (List MC)) (hpts : ∀ row ∈ points, row.length = names.length)
    (ts track_t : List (ℝ × ℝ)) (track : List (List MC)) (htrack : track.length = track_t.length)
    (htr : ∀ row ∈ track, row.length = names.length)
    (i j k : ℕ) (row : List MC) (t : ℝ × ℝ) (hi : points[i]? = some row) (hj : ts[j]? = some t)
    (hkt : track_t[k]? = some t) (hkr : track[k]? = some row) :
    ∃ m d s : List MR, map env t.1 t.2 points names corr = .ok m ∧
      drift env track_t track names corr = .ok d ∧
      timeSeries env ts [row] names corr = .ok s ∧
      ∃ v, m[i]? = some v ∧ d[k]? = some v ∧ s[j]? = some v := by
  have hr : row.length = names.length := hpts row (List.mem_of_getElem? hi)
  refine ⟨_, _, _, C21_map_value env corr t.1 t.2 points names hk hpts,
    C21_drift_value env corr track_t track names hk htrack htr,
    C21_series_value env corr ts row [] names hk hr, prediction env corr t names row, ?_, ?_, ?_⟩
  · rw [List.getElem?_map, hi]; rfl
  · rw [List.getElem?_map, getElem?_zip_of _ _ _ _ _ hkt hkr]; rfl
  · rw [List.getElem?_map, hj]; rfl

/-! ### C23: masks -/

/-- A value of a map is masked exactly when one of the constants of its point is. -/
theorem C23_map (env : Env) (corr : String) (t deltat : ℝ) (hc : List (List MC))
    (names : List String) (hk : ∀ c ∈ names, env.known c = true)
    (hrow : ∀ row ∈ hc, row.length = names.length) :
    ∃ m, map env t deltat hc names corr = .ok m ∧ m.length = hc.length ∧
      ∀ (i : ℕ) (v : MR) (row : List MC), m[i]? = some v → hc[i]? = some row →
        (v.2 = true ↔ ∃ z ∈ row, z.mask = true) := by
  refine ⟨_, C21_map_value env corr t deltat hc names hk hrow, by simp, ?_⟩
  intro i v row hv hr
  rw [List.getElem?_map, hr] at hv
  have := Option.some.inj hv
  subst this
  simp [prediction, List.any_eq_true]

/-- The same along a track. -/
theorem C23_drift (env : Env) (corr : String) (ts : List (ℝ × ℝ)) (hc : List (List MC))
    (names : List String) (hk : ∀ c ∈ names, env.known c = true) (hlen : hc.length = ts.length)
    (hrow : ∀ row ∈ hc, row.length = names.length) :
    ∃ m, drift env ts hc names corr = .ok m ∧ m.length = ts.length ∧
      ∀ (i : ℕ) (v : MR) (row : List MC), m[i]? = some v → hc[i]? = some row →
        (v.2 = true ↔ ∃ z ∈ row, z.mask = true) := by
  refine ⟨_, C21_drift_value env corr ts hc names hk hlen hrow, by
    simp [hlen], ?_⟩
  intro i v row hv hr
  have hi : i < ts.length := by
    rw [← hlen]; exact (List.getElem?_eq_some_iff.mp hr).1
  rw [List.getElem?_map, getElem?_zip_of _ _ _ _ _ (List.getElem?_eq_getElem hi) hr] at hv
  have := Option.some.inj hv
  subst this
  simp [prediction, List.any_eq_true]

/-- The same for a time series, at every time. -/
theorem C23_series (env : Env) (corr : String) (ts : List (ℝ × ℝ)) (row : List MC)
    (names : List String) (hk : ∀ c ∈ names, env.known c = true)
    (hrow : row.length = names.length) :
    ∃ m, timeSeries env ts [row] names corr = .ok m ∧ m.length = ts.length ∧
      ∀ v ∈ m, (v.2 = true ↔ ∃ z ∈ row, z.mask = true) := by
  refine ⟨_, C21_series_value env corr ts row [] names hk hrow, by simp, ?_⟩
  intro v hv
  obtain ⟨t, _, rfl⟩ := List.mem_map.mp hv
  simp [prediction, List.any_eq_true]

/-- Environments, rows and names that meet the hypotheses: two constituents, one masked. -/
example : ∃ (env : Env) (names : List String) (row : List MC),
    (∀ c ∈ names, env.known c = true) ∧ row.length = names.length ∧ names.length = 2 ∧
    (prediction env "GOT" (0, 0) names row) = (3, true) := by
  refine ⟨⟨fun _ => true, fun _ _ _ => ⟨0, 1, 0⟩, fun _ => 0, fun _ => 0⟩, ["m2", "s2"],
    [⟨1, 5, false⟩, ⟨2, 0, true⟩], by simp, rfl, rfl, ?_⟩
  have h : usesParameters "GOT" = false := by decide
  simp only [prediction, Spec.tide, waves, List.zipWith_cons_cons, List.zipWith_nil_left,
    List.map_cons, List.map_nil, height_eq, phase, h]
  norm_num

end Verif.Predict
