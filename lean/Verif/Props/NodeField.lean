import Verif.Model.NodeField
import Verif.Props.Extract
import Mathlib.Analysis.Real.Pi.Bounds
import Mathlib.Analysis.Complex.Exponential
/-!
C128: the node tide appended to the constants of a model is the same whether the model is extracted, or
read first and interpolated afterwards.
-/
namespace Verif.NodeField
open Verif Verif.Extract Verif.Spec Verif.Grid

/-- The equilibrium constant of the node tide at a latitude in degrees, in metres (Cartwright and Edden 1973,
with Love numbers of Wahr 1981): the potential amplitude, the tilt factor and the Legendre function, with
the phase of 180 degrees. -/
noncomputable def equilibrium (lat : ℝ) : ℝ :=
  -(0.027929 * (1 + 0.299 - 0.606) * ((3 * Real.sin (lat * Real.pi / 180) ^ 2 - 1) / 2) *
    Real.sqrt (5 / (4 * Real.pi)))

theorem constant_eq (lat : ℝ) : constant lat = (equilibrium lat, 0) := by
  have h : (180 : ℝ) * Real.pi / 180 = Real.pi := by ring
  simp only [constant, Equilibrium.nodeEquilibrium, h, Real.cos_pi, Real.sin_pi, mul_zero, neg_zero,
    equilibrium, Equilibrium.P20, Equilibrium.gamma2]
  refine Prod.ext ?_ rfl
  rw [show ((4 : ℝ) + 1) / (4 * Real.pi) = 5 / (4 * Real.pi) by norm_num]
  ring

theorem equilibrium_small (lat : ℝ) : |equilibrium lat| ≤ 1 := by
  have h1 : Real.sqrt (5 / (4 * Real.pi)) ≤ 1 := by
    refine Real.sqrt_le_iff.2 ⟨zero_le_one, ?_⟩
    rw [one_pow, div_le_one (by positivity)]
    have := Real.pi_gt_three
    linarith
  have h0 := Real.sqrt_nonneg (5 / (4 * Real.pi))
  have s0 := sq_nonneg (Real.sin (lat * Real.pi / 180))
  have s1 := Real.sin_sq_le_one (lat * Real.pi / 180)
  have h2 : |(3 * Real.sin (lat * Real.pi / 180) ^ 2 - 1) / 2| ≤ 1 := by
    rw [abs_le]; constructor <;> linarith
  rw [equilibrium, abs_neg, abs_mul, abs_mul, abs_of_nonneg h0,
    abs_of_nonneg (show (0 : ℝ) ≤ 0.027929 * (1 + 0.299 - 0.606) by norm_num)]
  calc _ ≤ (0.027929 * (1 + 0.299 - 0.606) : ℝ) * 1 * 1 := by gcongr
    _ ≤ 1 := by norm_num

/-- The files of the model with the node tide on the same axes. -/
noncomputable def layer (g : Layer ℝ) : Layer ℝ := ⟨g.lon, g.lat, field g.lat g.lon.length⟩

theorem entry_field (lat : List ℝ) (n r c : ℕ) (hr : r < lat.length) (hc : c < n) :
    entry (field lat n) r c = ⟨equilibrium (lat.getD r 0), 0, false⟩ := by
  have : (field lat n).getD r [] = List.replicate n ⟨(constant (lat.getD r 0)).1, (constant (lat.getD r 0)).2, false⟩ := by
    simp [field, List.getD_eq_getElem?_getD, List.getElem?_eq_getElem hr]
  rw [entry, this, constant_eq, List.getD_eq_getElem?_getD, List.getElem?_replicate, if_pos hc]
  rfl

theorem layer_global {g : Layer ℝ} {a : ℝ} (h : Global g a) : Global (layer g) a :=
  ⟨⟨h.three, h.lon, h.lat, h.two, by simp [layer, field], by
    intro r hr
    obtain ⟨y, -, rfl⟩ := List.mem_map.1 hr
    simp [layer]⟩, h.start⟩

theorem layer_value {g : Layer ℝ} {a : ℝ} (h : Global g a) (k j : ℤ) (h0 : 0 ≤ j) (h1 : j < g.lat.length) :
    (globe (layer g) a).value k j = some (equilibrium (g.lat.getD j.toNat 0), 0) := by
  have n0 : 0 < g.lon.length := by have := h.three; omega
  have c0 := Int.emod_nonneg k (show (g.lon.length : ℤ) ≠ 0 by omega)
  have c1 := Int.emod_lt_of_pos k (show (0 : ℤ) < g.lon.length by omega)
  show (entry (field g.lat g.lon.length) j.toNat (k % g.lon.length).toNat).number = _
  rw [entry_field _ _ _ _ (by omega) (by omega)]
  rfl

/-- The matrix that is appended to a stored model shows this. -/
theorem field_shows {g : Layer ℝ} {a : ℝ} (h : Global g a) {x : List ℝ} {hc : List (List (Fld ℝ))}
    (hs : Shows x g.lat hc (globe g a) (-1) 0) :
    Shows x g.lat (field g.lat x.length) (globe (layer g) a) (-1) 0 := by
  refine ⟨hs.asc, hs.two, hs.two', by simp [field], ?_, hs.lon, hs.lat, hs.col, hs.row, ?_⟩
  · intro r hr
    obtain ⟨y, -, rfl⟩ := List.mem_map.1 hr
    simp
  · intro r c hr hc'
    rw [layer_value h _ _ (by omega) (by omega), entry_field _ _ _ _ hr hc']
    simp [Fld.number]

/-- `v` is the linear interpolation between the node tides of two neighbouring parallels of the model. -/
def Between (lat : List ℝ) (y v : ℝ) : Prop :=
  ∃ (j : ℕ) (s : ℝ), j + 1 < lat.length ∧ 0 ≤ s ∧ s ≤ 1 ∧
    y = (1 - s) * lat.getD j 0 + s * lat.getD (j + 1) 0 ∧
    v = (1 - s) * equilibrium (lat.getD j 0) + s * equilibrium (lat.getD (j + 1) 0)

theorem value_between {g : Layer ℝ} {a : ℝ} (h : Global g a) {x y : ℝ} {v : Option (ℝ × ℝ)}
    (hv : (globe (layer g) a).Value x y v) : ∃ w, v = some (w, 0) ∧ Between g.lat y w := by
  obtain ⟨k, j, t, s, hat, rfl⟩ := hv
  have r0 : 0 ≤ j ∧ j < g.lat.length := hat.row
  have r1 : 0 ≤ j + 1 ∧ j + 1 < g.lat.length := hat.row'
  have e : (j + 1).toNat = j.toNat + 1 := by omega
  have v1 := fun k => layer_value h k j r0.1 r0.2
  have v2 := fun k => layer_value h k (j + 1) r1.1 r1.2
  refine ⟨(1 - s) * equilibrium (g.lat.getD j.toNat 0) + s * equilibrium (g.lat.getD (j.toNat + 1) 0), ?_,
    j.toNat, s, by omega, hat.s0, hat.s1, ?_, rfl⟩
  · rw [Chart.corners, v1, v1, v2, v2, e, Chart.blend, if_pos (by simp)]
    simp only [List.map_cons, List.map_nil, List.sum_cons, List.sum_nil, Option.getD_some, mul_zero, add_zero]
    congr 2
    ring
  · have := hat.y_eq
    rw [show (globe (layer g) a).lat j = g.lat.getD j.toNat 0 from rfl,
      show (globe (layer g) a).lat (j + 1) = g.lat.getD (j + 1).toNat 0 from rfl, e] at this
    exact this

theorem between_small {lat : List ℝ} {y v : ℝ} (h : Between lat y v) : |v| ≤ 1 := by
  obtain ⟨j, s, -, s0, s1, -, rfl⟩ := h
  have a := abs_le.1 (equilibrium_small (lat.getD j 0))
  have b := abs_le.1 (equilibrium_small (lat.getD (j + 1) 0))
  rw [abs_le]
  constructor <;> nlinarith

/-- On a parallel of the model the interpolation is the node tide of the parallel. -/
theorem between_parallel {lat : List ℝ} (hl : lat.Pairwise (· < ·)) {y v : ℝ} (h : Between lat y v)
    (hy : y ∈ lat) : v = equilibrium y := by
  obtain ⟨j, s, hj, s0, s1, ey, rfl⟩ := h
  obtain ⟨m, hm, rfl⟩ := List.getElem_of_mem hy
  have mono := List.pairwise_iff_getElem.1 hl
  have gd : ∀ i (hi : i < lat.length), lat.getD i 0 = lat[i] := fun i hi => by
    simp [List.getD_eq_getElem?_getD, List.getElem?_eq_getElem hi]
  rw [gd j (by omega), gd (j + 1) hj] at ey ⊢
  have step := mono j (j + 1) (by omega) hj (by omega)
  rcases Nat.lt_trichotomy m j with c | rfl | c
  · have := mono m j hm (by omega) c
    nlinarith
  · have : s = 0 := by
      have : s * (lat[m + 1] - lat[m]) = 0 := by linarith
      rcases mul_eq_zero.1 this with e | e
      · exact e
      · linarith
    rw [this]; ring
  · rcases Nat.eq_or_lt_of_le (show j + 1 ≤ m from c) with e | c'
    · subst e
      have : s = 1 := by
        have : (1 - s) * (lat[j + 1] - lat[j]) = 0 := by linarith
        rcases mul_eq_zero.1 this with e | e <;> linarith
      rw [this]; ring
    · have := mono (j + 1) m hj hm c'
      nlinarith

/-- The second order of the cosine. -/
theorem cos_step (x d : ℝ) (hd : |d| ≤ 1) : |Real.cos (x + d) - Real.cos x + d * Real.sin x| ≤ d ^ 2 := by
  have h := Complex.norm_exp_sub_one_sub_id_le (x := (d : ℂ) * Complex.I) (by simpa using hd)
  have e : Real.cos (x + d) - Real.cos x + d * Real.sin x
      = (Complex.exp (x * Complex.I) * (Complex.exp (d * Complex.I) - 1 - d * Complex.I)).re := by
    rw [Complex.exp_mul_I, Complex.exp_mul_I, Real.cos_add, ← Complex.ofReal_cos, ← Complex.ofReal_sin,
      ← Complex.ofReal_cos, ← Complex.ofReal_sin]
    simp only [Complex.mul_re, Complex.add_re, Complex.add_im, Complex.sub_re, Complex.sub_im, Complex.mul_im,
      Complex.ofReal_re, Complex.ofReal_im, Complex.I_re, Complex.I_im, Complex.one_re, Complex.one_im]
    ring
  rw [e]
  refine (Complex.abs_re_le_norm _).trans ?_
  rw [norm_mul, Complex.norm_exp_ofReal_mul_I, one_mul]
  simpa using h

/-- Linear interpolation of the cosine. -/
theorem cos_between (u v s : ℝ) (h0 : 0 ≤ s) (h1 : s ≤ 1) (h : |v - u| ≤ 1) :
    |(1 - s) * Real.cos u + s * Real.cos v - Real.cos ((1 - s) * u + s * v)| ≤ (v - u) ^ 2 / 4 := by
  set x := (1 - s) * u + s * v with hx
  have d1 : |-(s * (v - u))| ≤ 1 := by
    rw [abs_neg, abs_mul, abs_of_nonneg h0]
    calc s * |v - u| ≤ 1 * 1 := by gcongr
      _ = 1 := by ring
  have d2 : |(1 - s) * (v - u)| ≤ 1 := by
    rw [abs_mul, abs_of_nonneg (by linarith : 0 ≤ 1 - s)]
    calc (1 - s) * |v - u| ≤ 1 * 1 := by gcongr; linarith
      _ = 1 := by ring
  have a := abs_le.1 (cos_step x _ d1)
  have b := abs_le.1 (cos_step x _ d2)
  rw [show x + -(s * (v - u)) = u by rw [hx]; ring] at a
  rw [show x + (1 - s) * (v - u) = v by rw [hx]; ring] at b
  have q : s * (1 - s) * (v - u) ^ 2 ≤ (v - u) ^ 2 / 4 := by
    nlinarith [mul_nonneg (sq_nonneg (s - 1 / 2)) (sq_nonneg (v - u))]
  have s' : 0 ≤ 1 - s := by linarith
  have a1 := mul_le_mul_of_nonneg_left a.1 s'
  have a2 := mul_le_mul_of_nonneg_left a.2 s'
  have b1 := mul_le_mul_of_nonneg_left b.1 h0
  have b2 := mul_le_mul_of_nonneg_left b.2 h0
  rw [abs_le]
  constructor <;> nlinarith

theorem equilibrium_cos (y : ℝ) : equilibrium y =
    0.027929 * (1 + 0.299 - 0.606) * Real.sqrt (5 / (4 * Real.pi)) * ((3 * Real.cos (y * Real.pi / 90) - 1) / 4) := by
  have h : Real.cos (y * Real.pi / 90) = 1 - 2 * Real.sin (y * Real.pi / 180) ^ 2 := by
    rw [show y * Real.pi / 90 = 2 * (y * Real.pi / 180) by ring, Real.cos_two_mul, Real.cos_sq']
    ring
  rw [equilibrium, h]
  ring

/-- Between parallels that are at most `d` degrees apart, the interpolated node tide is that of the place to
five thousandths of a millimetre times the square of `d`. -/
theorem between_close {lat : List ℝ} {y v d : ℝ} (hl : lat.Pairwise (· < ·)) (hd : d ≤ 20)
    (hgap : ∀ j, j + 1 < lat.length → lat.getD (j + 1) 0 - lat.getD j 0 ≤ d) (h : Between lat y v) :
    |v - equilibrium y| ≤ 5 / 10 ^ 6 * d ^ 2 := by
  obtain ⟨j, s, hj, s0, s1, rfl, rfl⟩ := h
  have g := hgap j hj
  have pos : lat.getD j 0 < lat.getD (j + 1) 0 := by
    have := List.pairwise_iff_getElem.1 hl j (j + 1) (by omega) hj (by omega)
    simpa [List.getD_eq_getElem?_getD, List.getElem?_eq_getElem hj,
      List.getElem?_eq_getElem (show j < lat.length by omega)] using this
  generalize lat.getD j 0 = u at g pos ⊢
  generalize lat.getD (j + 1) 0 = w at g pos ⊢
  have p0 := Real.pi_gt_d2
  have p1 := Real.pi_lt_d2
  have small : |w * Real.pi / 90 - u * Real.pi / 90| ≤ 1 := by
    rw [show w * Real.pi / 90 - u * Real.pi / 90 = (w - u) * Real.pi / 90 by ring,
      abs_of_pos (by have := Real.pi_pos; have : 0 < w - u := by linarith
                     positivity)]
    rw [div_le_one (by norm_num)]
    nlinarith
  have k := cos_between (u * Real.pi / 90) (w * Real.pi / 90) s s0 s1 small
  rw [show (1 - s) * (u * Real.pi / 90) + s * (w * Real.pi / 90) = ((1 - s) * u + s * w) * Real.pi / 90 by ring] at k
  rw [equilibrium_cos, equilibrium_cos, equilibrium_cos]
  have h1 : Real.sqrt (5 / (4 * Real.pi)) ≤ 1 := by
    refine Real.sqrt_le_iff.2 ⟨zero_le_one, ?_⟩
    rw [one_pow, div_le_one (by positivity)]
    linarith
  have h0 := Real.sqrt_nonneg (5 / (4 * Real.pi))
  set A := 0.027929 * (1 + 0.299 - 0.606) * Real.sqrt (5 / (4 * Real.pi)) with hA
  have A0 : 0 ≤ A := by rw [hA]; positivity
  have A1 : A ≤ 0.01936 := by
    rw [hA]
    calc _ ≤ (0.027929 * (1 + 0.299 - 0.606) : ℝ) * 1 := by gcongr
      _ ≤ 0.01936 := by norm_num
  rw [show (1 - s) * (A * ((3 * Real.cos (u * Real.pi / 90) - 1) / 4)) +
      s * (A * ((3 * Real.cos (w * Real.pi / 90) - 1) / 4)) -
      A * ((3 * Real.cos (((1 - s) * u + s * w) * Real.pi / 90) - 1) / 4)
      = A * (3 / 4) * ((1 - s) * Real.cos (u * Real.pi / 90) + s * Real.cos (w * Real.pi / 90) -
        Real.cos (((1 - s) * u + s * w) * Real.pi / 90)) by ring, abs_mul, abs_of_nonneg (by positivity)]
  calc _ ≤ 0.01936 * (3 / 4) * ((w * Real.pi / 90 - u * Real.pi / 90) ^ 2 / 4) := by gcongr
    _ = 0.01936 * (3 / 4) / 4 / 8100 * Real.pi ^ 2 * (w - u) ^ 2 := by ring
    _ ≤ 0.01936 * (3 / 4) / 4 / 8100 * 3.15 ^ 2 * d ^ 2 := by
      have : 0 ≤ w - u := by linarith
      gcongr
    _ ≤ 5 / 10 ^ 6 * d ^ 2 := by
      have := sq_nonneg d
      nlinarith

theorem pyMap_concat {α β : Type} {f : α → Except PyErr β} {l : List α} {a : α} {m : List β} {b : β}
    (h : pyMap f l = .ok m) (h' : f a = .ok b) : pyMap f (l ++ [a]) = .ok (m ++ [b]) := by
  induction l generalizing m with
  | nil =>
    cases h
    rw [List.nil_append, pyMap, h']
    rfl
  | cons c l ih =>
    rw [pyMap] at h
    cases e1 : f c with
    | error e => rw [e1] at h; cases h
    | ok d =>
      rw [e1] at h
      cases e2 : pyMap f l with
      | error e => rw [e2] at h; cases h
      | ok t =>
        rw [e2] at h
        cases h
        rw [List.cons_append, pyMap, e1, ih e2]
        rfl

/-- Reading first: the constants of the files as without the node tide, and what the field of the node tide
says at the places. -/
theorem stored_row (f : Fmt) (r : Request ℝ)
    (hn : ∀ x y hc q, r.near x y hc q = none) (names : List String) (hd : "node" ∉ names)
    (files : List (Layer ℝ)) (g : Layer ℝ) (a : ℝ) (hmem : g ∈ files)
    (hax : SameAxes files g.lon g.lat) (hg : ∀ g ∈ files, Global g a) (pts : List (ℝ × ℝ))
    (hne : pts ≠ []) (hp : ∀ p ∈ pts, Place r.method g p) (hf : Fits f g a pts) :
    ∃ outs row, readInterpolate f r false names files pts = .ok outs ∧
      readInterpolate f r true names files pts = .ok (outs ++ [row]) ∧
      List.Forall₂ (Meets r.method (globe (layer g) a) r.scale) pts row := by
  obtain ⟨s, outs, es, ei, -⟩ := C71_stored_partial f r hn files g a hmem hax hg pts hne hp hf
  obtain ⟨s', es', s1, s2, s3⟩ := read_shows f files g a hmem hax hg
  rw [es] at es'
  obtain rfl : s = s' := by injection es' with e; injection e
  have G := hg g hmem
  have inc : s.lon.Pairwise (· < ·) := by rw [s1]; exact uniform_increasing _ _ G.step0 _
  have two : 2 ≤ s.lon.length := by
    rw [s1, uniform_length]; have := G.three; omega
  obtain ⟨x0, x1, x2, -⟩ := extended_range G f
  rw [← s1] at x0 x1 x2
  have zipped : ((pts.map (suit a)).map Prod.fst).zip (pts.map Prod.snd) = pts.map (suit a) := by
    rw [List.map_map, List.zip_map']
    exact List.map_congr_left fun p _ => rfl
  have hw : width s = s.lon.length ∧ Shows s.lon g.lat (field g.lat s.lon.length) (globe (layer g) a) (-1) 0 := by
    obtain ⟨g₁, fs, rfl⟩ : ∃ g₁ fs, files = g₁ :: fs := by
      cases files with
      | nil => simp at hmem
      | cons g₁ fs => exact ⟨g₁, fs, rfl⟩
    cases hfields : s.fields with
    | nil => rw [hfields] at s3; cases s3
    | cons hc rest =>
      rw [hfields] at s3
      obtain ⟨sh, -⟩ := List.forall₂_cons.1 s3
      rw [s2] at sh
      constructor
      · rw [width, hfields, List.headD_cons]
        have h2 := sh.height
        have h3 := sh.two'
        cases hc with
        | nil => simp at h2; omega
        | cons row rows => exact sh.width row (by simp)
      · obtain ⟨b1, b2⟩ := hax g₁ (by simp)
        have G₁ := hg g₁ (by simp)
        have sh' : Shows s.lon g₁.lat hc (globe g₁ a) (-1) 0 := by rw [b2]; exact sh
        have := field_shows G₁ sh'
        have el : layer g₁ = layer g := by rw [layer, layer, b1, b2]
        rw [el, b2] at this
        exact this
  obtain ⟨row, er, hrow⟩ := evaluate_meets (layer_global G) f r hn true
    (g' := ⟨s.lon, s.lat, field s.lat (width s)⟩) s1 s2 (by
      show Shows s.lon s.lat (field s.lat (width s)) _ _ _
      rw [hw.1, s2]; exact hw.2) (pts.map (suit a)) (by
    intro q hq
    obtain ⟨p, hpm, rfl⟩ := List.mem_map.1 hq
    have pl := hp p hpm
    exact suit_range (layer_global G) ⟨pl.west, pl.east, pl.south, pl.north, pl.strict⟩)
  refine ⟨outs, row, ?_, ?_, ?_⟩
  · rw [readInterpolate, es, ok_bind]
    show interpolate f r (append false names s) pts = _
    rw [append, if_neg (by simp), ei]
  · rw [readInterpolate, es, ok_bind]
    show interpolate f r (append true names s) pts = _
    rw [append, if_pos ⟨rfl, hd⟩]
    unfold interpolate at ei ⊢
    dsimp only
    rw [min?_increasing inc two, max?_increasing inc two] at ei ⊢
    simp only at ei ⊢
    rw [x0, stored_adjust G f pts hne hf _ x1 x2, ok_bind, zipped] at ei ⊢
    exact pyMap_concat ei er
  · rw [List.forall₂_map_left_iff] at hrow
    exact hrow.imp fun p o ho => Meets.turn (globe_round (layer_global G).toEven) (suit_same a p) ho

/-- C128, reading first: the constants of the files as without the node tide, and one column more.  It
has for every place the number interpolated between the node tides of the neighbouring parallels, with
the factor that turns the units of the files into metres. -/
theorem C128_stored (f : Fmt) (r : Request ℝ) (hm : r.method ≠ .bilinear)
    (hn : ∀ x y hc q, r.near x y hc q = none) (names : List String) (hd : "node" ∉ names)
    (files : List (Layer ℝ)) (g : Layer ℝ) (a : ℝ) (hmem : g ∈ files)
    (hax : SameAxes files g.lon g.lat) (hg : ∀ g ∈ files, Global g a) (pts : List (ℝ × ℝ))
    (hne : pts ≠ []) (hp : ∀ p ∈ pts, Place r.method g p) (hf : Fits f g a pts) :
    ∃ outs row, readInterpolate f r false names files pts = .ok outs ∧
      readInterpolate f r true names files pts = .ok (outs ++ [row]) ∧
      List.Forall₂ (fun (p : ℝ × ℝ) o => ∃ v, Between g.lat p.2 v ∧ o = .val v 0 r.scale) pts row := by
  obtain ⟨outs, row, e1, e2, hrow⟩ := stored_row f r hn names hd files g a hmem hax hg pts hne hp hf
  have G := hg g hmem
  refine ⟨outs, row, e1, e2, hrow.imp fun p o ho' => ?_⟩
  unfold Meets at ho'
  generalize r.method = mm at ho' hm
  cases mm with
  | bilinear => exact absurd rfl hm
  | spline =>
    obtain ⟨v, hv, rfl⟩ := ho'
    obtain ⟨w, rfl, hb⟩ := value_between G hv
    exact ⟨w, hb, rfl⟩
  | linear =>
    obtain ⟨v, hv, rfl⟩ := ho'
    obtain ⟨w, rfl, hb⟩ := value_between G hv
    refine ⟨w, hb, ?_⟩
    rw [if_neg]
    · rfl
    · intro e
      injection e with e
      have e1 : w = 10 ^ 20 := congrArg Prod.fst e
      have := between_small hb
      rw [e1, abs_of_pos (by norm_num)] at this
      norm_num at this

/-- C128: for places on parallels of a model in metres, both ways give the same constants.  Missing for the
full claim: models in other units, `C128_units_false`, and places between parallels, where the node tide is
interpolated (`C128_stored`). -/
theorem C128_same_partial (f : Fmt) (r : Request ℝ) (hm : r.method ≠ .bilinear) (hr : r.crop = false)
    (h1 : r.scale = 1) (hn : ∀ x y hc q, r.near x y hc q = none) (names : List String)
    (hd : "node" ∉ names) (files : List (Layer ℝ)) (g : Layer ℝ) (a : ℝ) (hmem : g ∈ files)
    (hax : SameAxes files g.lon g.lat) (hg : ∀ g ∈ files, Global g a) (pts : List (ℝ × ℝ))
    (hne : pts ≠ []) (hp : ∀ p ∈ pts, Place r.method g p) (hf : Fits f g a pts)
    (hl : ∀ p ∈ pts, p.2 ∈ g.lat) :
    ∃ outs, readInterpolate f r true names files pts = .ok outs ∧
      extractAppend f r true names files pts = .ok outs := by
  obtain ⟨outs, row, e1, e2, hrow⟩ := C128_stored f r hm hn names hd files g a hmem hax hg pts hne hp hf
  obtain ⟨s, outs', es, ei, ee⟩ := C71_same_partial f r hm hr hn files g a hmem hax hg pts hne hp hf
  have eo : outs' = outs := by
    rw [readInterpolate, es, ok_bind] at e1
    change interpolate f r (append false names s) pts = _ at e1
    rw [append, if_neg (by simp), ei] at e1
    injection e1
  have er : row = pts.map fun p => .val (constant p.2).1 (constant p.2).2 1 := by
    have inc := (hg g hmem).lat
    clear e1 e2 hne hp hf ei ee
    induction hrow with
    | nil => rfl
    | cons h _ ih =>
      obtain ⟨v, hb, rfl⟩ := h
      rw [List.map_cons, ih fun p hp => hl p (by simp [hp]), constant_eq,
        between_parallel inc hb (hl _ (by simp)), h1]
  refine ⟨outs ++ [row], e2, ?_⟩
  rw [extractAppend, ee, ok_bind, if_pos ⟨rfl, hd⟩, eo, er]

/-- C128 for models in metres whose parallels are at most `d` degrees apart: both ways have the same constants
of the files, and their node tides differ by at most five thousandths of a millimetre times the square of
`d`.  Missing for the full claim: models in other units, `C128_units_false`. -/
theorem C128_close_partial (f : Fmt) (r : Request ℝ) (hm : r.method ≠ .bilinear) (hr : r.crop = false)
    (h1 : r.scale = 1) (hn : ∀ x y hc q, r.near x y hc q = none) (names : List String)
    (hd : "node" ∉ names) (files : List (Layer ℝ)) (g : Layer ℝ) (a : ℝ) (hmem : g ∈ files)
    (hax : SameAxes files g.lon g.lat) (hg : ∀ g ∈ files, Global g a) (pts : List (ℝ × ℝ))
    (hne : pts ≠ []) (hp : ∀ p ∈ pts, Place r.method g p) (hf : Fits f g a pts) (d : ℝ) (hd20 : d ≤ 20)
    (hgap : ∀ j, j + 1 < g.lat.length → g.lat.getD (j + 1) 0 - g.lat.getD j 0 ≤ d) :
    ∃ outs row row', readInterpolate f r true names files pts = .ok (outs ++ [row]) ∧
      extractAppend f r true names files pts = .ok (outs ++ [row']) ∧
      List.Forall₂ (fun (p : ℝ × ℝ) o => ∃ v, o = .val v 0 1 ∧ |v - equilibrium p.2| ≤ 5 / 10 ^ 6 * d ^ 2) pts row ∧
      List.Forall₂ (fun (p : ℝ × ℝ) o => o = .val (equilibrium p.2) 0 1) pts row' := by
  obtain ⟨outs, row, e1, e2, hrow⟩ := C128_stored f r hm hn names hd files g a hmem hax hg pts hne hp hf
  obtain ⟨s, outs', es, ei, ee⟩ := C71_same_partial f r hm hr hn files g a hmem hax hg pts hne hp hf
  have eo : outs' = outs := by
    rw [readInterpolate, es, ok_bind] at e1
    change interpolate f r (append false names s) pts = _ at e1
    rw [append, if_neg (by simp), ei] at e1
    injection e1
  refine ⟨outs, row, pts.map fun p => .val (equilibrium p.2) 0 1, e2, ?_, ?_, ?_⟩
  · rw [extractAppend, ee, ok_bind, if_pos ⟨rfl, hd⟩, eo]
    simp only [constant_eq]
  · refine hrow.imp fun p o ho => ?_
    obtain ⟨v, hb, rfl⟩ := ho
    exact ⟨v, by rw [h1], between_close (hg g hmem).lat hd20 hgap hb⟩
  · rw [List.forall₂_map_right_iff]
    exact List.forall₂_same.2 fun _ _ => rfl

theorem mean_between {g : Layer ℝ} {a : ℝ} (h : Global g a) {x y : ℝ} {v : Option (ℝ × ℝ)}
    (hv : (globe (layer g) a).Mean x y v) : ∃ w, v = some (w, 0) ∧ Between g.lat y w := by
  obtain ⟨k, j, t, s, hat, rfl⟩ := hv
  have r0 : 0 ≤ j ∧ j < g.lat.length := hat.row
  have r1 : 0 ≤ j + 1 ∧ j + 1 < g.lat.length := hat.row'
  have v1 := fun k => layer_value h k j r0.1 r0.2
  have v2 := fun k => layer_value h k (j + 1) r1.1 r1.2
  have one : (1 - t) * (1 - s) + (t * (1 - s) + ((1 - t) * s + t * s)) = 1 := by ring
  refine value_between h (x := x) ⟨k, j, t, s, hat, ?_⟩
  rw [Chart.corners, v1, v1, v2, v2, Chart.blend, if_pos (by simp), Chart.mean]
  simp [Chart.share, one]

/-- The node tide changes by less than six tenths of a millimetre for a degree of latitude. -/
theorem equilibrium_lipschitz (y z : ℝ) : |equilibrium y - equilibrium z| ≤ 6 / 10 ^ 4 * |y - z| := by
  have p1 := Real.pi_lt_d2
  have p0 := Real.pi_pos
  have k := Real.abs_cos_sub_cos_le (y * Real.pi / 90) (z * Real.pi / 90)
  rw [equilibrium_cos, equilibrium_cos]
  have h1 : Real.sqrt (5 / (4 * Real.pi)) ≤ 1 := by
    refine Real.sqrt_le_iff.2 ⟨zero_le_one, ?_⟩
    rw [one_pow, div_le_one (by positivity)]
    have := Real.pi_gt_three
    linarith
  have h0 := Real.sqrt_nonneg (5 / (4 * Real.pi))
  set A := 0.027929 * (1 + 0.299 - 0.606) * Real.sqrt (5 / (4 * Real.pi)) with hA
  have A0 : 0 ≤ A := by rw [hA]; positivity
  have A1 : A ≤ 0.01936 := by
    rw [hA]
    calc _ ≤ (0.027929 * (1 + 0.299 - 0.606) : ℝ) * 1 := by gcongr
      _ ≤ 0.01936 := by norm_num
  rw [show A * ((3 * Real.cos (y * Real.pi / 90) - 1) / 4) - A * ((3 * Real.cos (z * Real.pi / 90) - 1) / 4)
      = A * (3 / 4) * (Real.cos (y * Real.pi / 90) - Real.cos (z * Real.pi / 90)) by ring, abs_mul,
    abs_of_nonneg (by positivity)]
  rw [show y * Real.pi / 90 - z * Real.pi / 90 = (Real.pi / 90) * (y - z) by ring, abs_mul,
    abs_of_nonneg (show 0 ≤ Real.pi / 90 by positivity)] at k
  calc _ ≤ 0.01936 * (3 / 4) * (3.15 / 90 * |y - z|) := by
        refine mul_le_mul (by linarith) (k.trans ?_) (abs_nonneg _) (by norm_num)
        gcongr
    _ ≤ 6 / 10 ^ 4 * |y - z| := by
      have := abs_nonneg (y - z)
      nlinarith

/-- C128 for every method of interpolation, and models in all units whose parallels are at most `d` degrees
apart: up to the scale, the node tide of a model that was read differs from that of an extraction by at
most five thousandths of a millimetre times the square of `d`, and half a thousandth more. -/
theorem C128_methods_partial (f : Fmt) (r : Request ℝ) (hn : ∀ x y hc q, r.near x y hc q = none)
    (names : List String) (hd : "node" ∉ names) (files : List (Layer ℝ)) (g : Layer ℝ) (a : ℝ)
    (hmem : g ∈ files) (hax : SameAxes files g.lon g.lat) (hg : ∀ g ∈ files, Global g a)
    (pts : List (ℝ × ℝ)) (hne : pts ≠ []) (hp : ∀ p ∈ pts, Place r.method g p) (hf : Fits f g a pts)
    (d : ℝ) (hd20 : d ≤ 20) (h90 : ∀ y ∈ g.lat, |y| ≤ 90)
    (hgap : ∀ j, j + 1 < g.lat.length → g.lat.getD (j + 1) 0 - g.lat.getD j 0 ≤ d) :
    ∃ outs row, readInterpolate f r false names files pts = .ok outs ∧
      readInterpolate f r true names files pts = .ok (outs ++ [row]) ∧
      List.Forall₂ (fun (p : ℝ × ℝ) o => ∃ v, o = .val v 0 r.scale ∧
        |v - equilibrium p.2| ≤ 5 / 10 ^ 6 * d ^ 2 + 6 / 10 ^ 7) pts row := by
  by_cases hm : r.method = .bilinear
  · obtain ⟨outs, row, e1, e2, hrow⟩ := stored_row f r hn names hd files g a hmem hax hg pts hne hp hf
    have G := hg g hmem
    refine ⟨outs, row, e1, e2, hrow.imp fun p o ho => ?_⟩
    rw [hm] at ho
    obtain ⟨v, hv | hv, rfl⟩ := ho
    · obtain ⟨w, rfl, hb⟩ := mean_between G hv
      have := between_close G.lat hd20 hgap hb
      exact ⟨w, rfl, by linarith⟩
    · obtain ⟨k, j, -, hj, -, hy, rfl⟩ := hv
      have hj' : 0 ≤ j ∧ j < g.lat.length := hj
      rw [layer_value G k j hj'.1 hj'.2]
      refine ⟨_, rfl, ?_⟩
      change |p.2 - g.lat.getD j.toNat 0| ≤ 1 / 10 ^ 8 + |g.lat.getD j.toNat 0| / 10 ^ 5 at hy
      have hl := h90 (g.lat.getD j.toNat 0) (by
        rw [List.getD_eq_getElem?_getD, List.getElem?_eq_getElem (show j.toNat < g.lat.length by omega)]
        exact List.getElem_mem _)
      have L := equilibrium_lipschitz (g.lat.getD j.toNat 0) p.2
      rw [abs_sub_comm (g.lat.getD j.toNat 0)] at L
      have := sq_nonneg d
      have q : |p.2 - g.lat.getD j.toNat 0| ≤ 1 / 10 ^ 8 + 90 / 10 ^ 5 := by linarith
      nlinarith
  · obtain ⟨outs, row, e1, e2, hrow⟩ := C128_stored f r hm hn names hd files g a hmem hax hg pts hne hp hf
    refine ⟨outs, row, e1, e2, hrow.imp fun p o ho => ?_⟩
    obtain ⟨v, hb, rfl⟩ := ho
    have := between_close (hg g hmem).lat hd20 hgap hb
    exact ⟨v, rfl, by linarith⟩

/-- C128 refuted for models that are not in metres (GOT and some FES models are in centimetres, with a scale
of a hundredth): at a place of the equator on a parallel of the model, both ways have an answer, and the
node tide that was appended on reading is the other one times the scale. -/
theorem C128_units_false (f : Fmt) (r : Request ℝ) (hm : r.method ≠ .bilinear) (hr : r.crop = false)
    (h1 : r.scale ≠ 1) (hn : ∀ x y hc q, r.near x y hc q = none) (names : List String)
    (hd : "node" ∉ names) (files : List (Layer ℝ)) (g : Layer ℝ) (a : ℝ) (hmem : g ∈ files)
    (hax : SameAxes files g.lon g.lat) (hg : ∀ g ∈ files, Global g a) (lon : ℝ)
    (hp : Place r.method g (lon, 0)) (hf : Fits f g a [(lon, 0)]) (hl : (0 : ℝ) ∈ g.lat) :
    ∃ outs, readInterpolate f r true names files [(lon, 0)]
        = .ok (outs ++ [[.val (equilibrium 0) 0 r.scale]]) ∧
      extractAppend f r true names files [(lon, 0)] = .ok (outs ++ [[.val (equilibrium 0) 0 1]]) ∧
      r.scale * equilibrium 0 ≠ 1 * equilibrium 0 := by
  have hp' : ∀ p ∈ [(lon, (0 : ℝ))], Place r.method g p := by simpa using hp
  obtain ⟨outs, row, e1, e2, hrow⟩ := C128_stored f r hm hn names hd files g a hmem hax hg _ (by simp) hp' hf
  obtain ⟨s, outs', es, ei, ee⟩ := C71_same_partial f r hm hr hn files g a hmem hax hg _ (by simp) hp' hf
  have eo : outs' = outs := by
    rw [readInterpolate, es, ok_bind] at e1
    change interpolate f r (append false names s) _ = _ at e1
    rw [append, if_neg (by simp), ei] at e1
    injection e1
  have er : row = [.val (equilibrium 0) 0 r.scale] := by
    cases hrow with
    | cons h t =>
      cases t
      obtain ⟨v, hb, rfl⟩ := h
      rw [between_parallel (hg g hmem).lat hb hl]
  refine ⟨outs, by rw [e2, er], ?_, ?_⟩
  · rw [extractAppend, ee, ok_bind, if_pos ⟨rfl, hd⟩, eo, List.map_cons, List.map_nil, constant_eq]
  · intro e
    have e0 : equilibrium 0 ≠ 0 := by
      have : 0 < Real.sqrt (5 / (4 * Real.pi)) := Real.sqrt_pos.2 (by positivity)
      rw [equilibrium, zero_mul, zero_div, Real.sin_zero]
      generalize Real.sqrt (5 / (4 * Real.pi)) = q at this
      have : 0 < -(0.027929 * (1 + 0.299 - 0.606) * ((3 * 0 ^ 2 - 1) / 2) * q) := by
        norm_num
        linarith
      exact this.ne'
    exact h1 (mul_right_cancel₀ e0 e)

/-- A global model with a parallel on the equator, and a place there. -/
example : ∃ (g : Layer ℝ), Global g 0 ∧ (0 : ℝ) ∈ g.lat ∧ Place .spline g (10, 0) ∧ Fits got g 0 [(10, 0)] := by
  refine ⟨⟨uniform 0 (360 / 4) 4, [-60, 0, 60], List.replicate 3 (List.replicate 4 ⟨1, 2, false⟩)⟩,
    ⟨⟨by simp [uniform], by simp [uniform], ?_, by simp, by simp, ?_⟩, Or.inl ⟨le_refl _, ?_⟩⟩, by simp,
    ⟨by norm_num, by norm_num, by simp, by simp, by simp⟩, Or.inl ⟨le_refl _, Or.inr (Or.inl ?_)⟩⟩
  · simp
  · intro r hr
    rw [List.eq_of_mem_replicate hr]
    simp [uniform]
  · simp only [uniform, List.length_map, List.length_range]
    norm_num
  · simp; norm_num

end Verif.NodeField
