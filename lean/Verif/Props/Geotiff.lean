import Verif.Spec.Geotiff
import Verif.Lemmas.Py
import Mathlib.Tactic.Linarith
import Mathlib.Tactic.Ring
import Mathlib.Tactic.FieldSimp
import Mathlib.Tactic.NormNum
import Mathlib.Data.Rat.Floor
/-!
C91: images that are read and written stay in place.
-/
namespace Verif.Geotiff
open Verif Verif.Spec.Geotiff

variable {K : Type} [Field K] [LinearOrder K] [IsStrictOrderedRing K] [FloorRing K]

/-! ### Evenly spaced coordinates -/

theorem slice_even (a d : K) (n o m : Nat) (h : o + m ≤ n) :
    slice o m ((List.range n).map fun (i : Nat) => a + (i : K) * d) =
      (List.range m).map fun (i : Nat) => a + (o : K) * d + (i : K) * d := by
  apply List.ext_getElem?
  intro i
  rw [slice, List.getElem?_take]
  by_cases hi : i < m
  · rw [if_pos hi, List.getElem?_drop, List.getElem?_map, List.getElem?_map,
      List.getElem?_range (by omega), List.getElem?_range hi]
    simp only [Option.map_some]
    congr 1
    push_cast
    ring
  · rw [if_neg hi, List.getElem?_eq_none]
    simpa using hi

theorem foldl_min (x : K) (l : List K) (h : ∀ y ∈ l, x ≤ y) : l.foldl min x = x := by
  induction l with
  | nil => rfl
  | cons y l ih =>
    rw [List.foldl_cons, min_eq_left (h y (by simp))]
    exact ih fun z hz => h z (by simp [hz])

theorem foldl_max (x : K) (l : List K) (h : ∀ y ∈ l, y ≤ x) : l.foldl max x = x := by
  induction l with
  | nil => rfl
  | cons y l ih =>
    rw [List.foldl_cons, max_eq_left (h y (by simp))]
    exact ih fun z hz => h z (by simp [hz])

theorem foldl_max_last (x y : K) (l : List K) (h : ∀ z ∈ x :: l, z ≤ y) :
    (l ++ [y]).foldl max x = y := by
  rw [List.foldl_append, List.foldl_cons, List.foldl_nil]
  apply max_eq_right
  have : ∀ (l : List K) (x : K), (∀ z ∈ x :: l, z ≤ y) → l.foldl max x ≤ y := by
    intro l
    induction l with
    | nil => intro x hx; exact hx x (by simp)
    | cons a l ih =>
      intro x hx
      rw [List.foldl_cons]
      refine ih _ fun z hz => ?_
      rcases List.mem_cons.1 hz with rfl | hz
      · exact max_le (hx x (by simp)) (hx a (by simp))
      · exact hx z (by simp [hz])
  exact this l x h

theorem foldl_min_last (x y : K) (l : List K) (h : ∀ z ∈ x :: l, y ≤ z) :
    (l ++ [y]).foldl min x = y := by
  rw [List.foldl_append, List.foldl_cons, List.foldl_nil]
  apply min_eq_right
  have : ∀ (l : List K) (x : K), (∀ z ∈ x :: l, y ≤ z) → y ≤ l.foldl min x := by
    intro l
    induction l with
    | nil => intro x hx; exact hx x (by simp)
    | cons a l ih =>
      intro x hx
      rw [List.foldl_cons]
      refine ih _ fun z hz => ?_
      rcases List.mem_cons.1 hz with rfl | hz
      · exact le_min (hx x (by simp)) (hx a (by simp))
      · exact hx z (by simp [hz])
  exact this l x h

theorem even_cons (a d : K) (m : Nat) : (List.range (m + 1)).map (fun (i : Nat) => a + (i : K) * d) =
    a :: (List.range m).map fun (i : Nat) => a + ((i + 1 : Nat) : K) * d := by
  rw [List.range_succ_eq_map, List.map_cons, List.map_map]
  simp only [Nat.cast_zero, zero_mul, add_zero]
  rfl

theorem even_ends (a d : K) (m : Nat) :
    (0 ≤ d → least ((List.range (m + 1)).map fun (i : Nat) => a + (i : K) * d) = .ok a ∧
      greatest ((List.range (m + 1)).map fun (i : Nat) => a + (i : K) * d) = .ok (a + m * d)) ∧
    (d ≤ 0 → least ((List.range (m + 1)).map fun (i : Nat) => a + (i : K) * d) =
        .ok (a + m * d) ∧
      greatest ((List.range (m + 1)).map fun (i : Nat) => a + (i : K) * d) = .ok a) := by
  have first : ∀ y ∈ (List.range m).map (fun (i : Nat) => a + ((i + 1 : Nat) : K) * d),
      ∃ i : Nat, i < m ∧ y = a + ((i + 1 : Nat) : K) * d := by
    intro y hy
    obtain ⟨i, hi, rfl⟩ := List.mem_map.1 hy
    exact ⟨i, List.mem_range.1 hi, rfl⟩
  have pos : ∀ i : Nat, (0 : K) ≤ ((i + 1 : Nat) : K) := fun i => Nat.cast_nonneg _
  have le : ∀ i : Nat, i < m → ((i + 1 : Nat) : K) ≤ m := fun i hi => Nat.cast_le.2 hi
  rw [even_cons]
  constructor
  · intro hd
    constructor
    · rw [least, foldl_min]
      intro y hy
      obtain ⟨i, -, rfl⟩ := first y hy
      have := mul_nonneg (pos i) hd
      linarith
    · rw [greatest]
      cases m with
      | zero => simp
      | succ k =>
        rw [List.range_succ, List.map_append, List.map_singleton, foldl_max_last]
        intro z hz
        rcases List.mem_cons.1 hz with rfl | hz
        · have := mul_nonneg (pos k) hd
          linarith
        · obtain ⟨i, hi, rfl⟩ := List.mem_map.1 hz
          have hi := List.mem_range.1 hi
          have : ((i + 1 : Nat) : K) ≤ ((k + 1 : Nat) : K) := Nat.cast_le.2 (by omega)
          have := mul_le_mul_of_nonneg_right this hd
          linarith
  · intro hd
    constructor
    · rw [least]
      cases m with
      | zero => simp
      | succ k =>
        rw [List.range_succ, List.map_append, List.map_singleton, foldl_min_last]
        intro z hz
        rcases List.mem_cons.1 hz with rfl | hz
        · have := mul_nonpos_of_nonneg_of_nonpos (pos k) hd
          linarith
        · obtain ⟨i, hi, rfl⟩ := List.mem_map.1 hz
          have hi := List.mem_range.1 hi
          have : ((i + 1 : Nat) : K) ≤ ((k + 1 : Nat) : K) := Nat.cast_le.2 (by omega)
          have := mul_le_mul_of_nonpos_right this hd
          linarith
    · rw [greatest, foldl_max]
      intro y hy
      obtain ⟨i, -, rfl⟩ := first y hy
      have := mul_nonpos_of_nonneg_of_nonpos (pos i) hd
      linarith

/-! ### Whole images -/

/-- C91: the coordinates are those of the centres of the pixels, and the values are in their
places. -/
theorem C91_places (t : Tiff K) (h : t.nb = 1) :
    ∃ i f, fromGeotiff none t = .ok i ∧ i.data = .two t.ny t.nx f ∧
      (∀ c < t.nx, i.x[c]? = some (centreX t c)) ∧ (∀ r < t.ny, i.y[r]? = some (centreY t r)) ∧
      i.x.length = t.nx ∧ i.y.length = t.ny ∧
      ∀ r < t.ny, ∀ c < t.nx, (f r c).1 = t.pix 0 r c ∧
        ((f r c).2 = true ↔ t.nodata = some (t.pix 0 r c) ∧ t.pix 0 r c ≠ 0) := by
  have hx : ∀ c < t.nx, (columns t)[c]? = some (centreX t c) := by
    intro c hc
    rw [columns, List.getElem?_map, List.getElem?_range hc, centreX]
    simp only [Option.map_some]
    congr 1
    ring
  have hy : ∀ r < t.ny, (rows t)[r]? = some (centreY t r) := by
    intro r hr
    rw [rows, List.getElem?_map, List.getElem?_range hr, centreY]
    simp only [Option.map_some]
    congr 1
    ring
  have lx : (columns t).length = t.nx := by simp [columns]
  have ly : (rows t).length = t.ny := by simp [rows]
  rw [fromGeotiff, readArray, if_pos h]
  cases hn : t.nodata with
  | none =>
    refine ⟨_, _, rfl, rfl, hx, hy, lx, ly, fun r _ c _ => ⟨rfl, ?_⟩⟩
    simp
  | some f =>
    by_cases hf : f = 0
    · rw [fillValues]
      simp only [hf, ne_eq, not_true_eq_false, if_false]
      refine ⟨_, _, rfl, rfl, hx, hy, lx, ly, fun r _ c _ => ⟨rfl, ?_⟩⟩
      simp only [Bool.false_eq_true, false_iff, not_and]
      intro e k
      exact k (Option.some.inj e).symm
    · rw [fillValues]
      simp only [ne_eq, hf, not_false_eq_true, if_true]
      refine ⟨_, _, rfl, rfl, hx, hy, lx, ly, fun r _ c _ => ⟨rfl, ?_⟩⟩
      simp only [Nat.add_zero, decide_eq_true_eq, Option.some.injEq]
      constructor
      · intro e
        exact ⟨e.symm, e ▸ hf⟩
      · exact fun e => e.1.symm

/-- What is written after reading. -/
def rewrite (i : Image K) : Tiff K := toGeotiff i.data i.extent i.spacing i.fill

/-- C91: an image with one band that is read and written is the same image.  Missing: fill value
zero. -/
theorem C91_image_partial (t : Tiff K) (h : t.nb = 1) (hz : t.nodata ≠ some 0) :
    ∃ i, fromGeotiff none t = .ok i ∧ Same (rewrite i) t := by
  rw [fromGeotiff, readArray, if_pos h]
  cases hn : t.nodata with
  | none =>
    refine ⟨_, rfl, rfl, rfl, h.symm, rfl, rfl, rfl, rfl, hn.symm, fun b hb r _ c _ => ?_⟩
    have : b = 0 := by omega
    subst this
    rfl
  | some f =>
    have hf : f ≠ 0 := fun e => hz (by rw [hn, e])
    rw [fillValues]
    simp only [if_pos hf]
    refine ⟨_, rfl, rfl, rfl, h.symm, rfl, rfl, rfl, rfl, hn.symm, fun b hb r _ c _ => ?_⟩
    have : b = 0 := by omega
    subst this
    rfl

/-- C91 is false of the fill value zero: no value is masked, and the file that is written has no
fill value. -/
theorem C91_zero_false (t : Tiff K) (h : t.nb = 1) (hz : t.nodata = some 0) :
    ∃ i f, fromGeotiff none t = .ok i ∧ i.data = .two t.ny t.nx f ∧ (∀ r c, (f r c).2 = false) ∧
      (rewrite i).nodata = none := by
  rw [fromGeotiff, readArray, if_pos h, hz, fillValues]
  simp only [ne_eq, not_true_eq_false, if_false]
  exact ⟨_, _, rfl, rfl, fun _ _ => rfl, rfl⟩

/-- C91 is false of images with several bands: the bands are taken for rows, the rows for columns
and the columns for bands. -/
theorem C91_bands_false (t : Tiff K) (h : t.nb ≠ 1) :
    ∃ i, fromGeotiff none t = .ok i ∧ (rewrite i).ny = t.nb ∧ (rewrite i).nx = t.ny ∧
      (rewrite i).nb = t.nx ∧ ∀ b r c, (rewrite i).pix c b r = t.pix b r c := by
  rw [fromGeotiff, readArray, if_neg h]
  cases hn : t.nodata with
  | none => exact ⟨_, rfl, rfl, rfl, rfl, fun _ _ _ => rfl⟩
  | some f =>
    rw [fillValues]
    by_cases hf : f ≠ 0
    · simp only [if_pos hf]
      exact ⟨_, rfl, rfl, rfl, rfl, fun _ _ _ => rfl⟩
    · simp only [if_neg hf]
      exact ⟨_, rfl, rfl, rfl, rfl, fun _ _ _ => rfl⟩

/-- C91: data of several bands that are written come back with the band as first axis. -/
theorem C91_written (ny nx nb : Nat) (hb : nb ≠ 1) (g : Nat → Nat → Nat → K × Bool)
    (extent : K × K × K × K) (spacing : K × K) (fill : Option K) :
    ∃ i f, fromGeotiff none (toGeotiff (.three ny nx nb g) extent spacing fill) = .ok i ∧
      i.data = .three nb ny nx f ∧ i.spacing = spacing ∧ i.extent.1 = extent.1 ∧
      i.extent.2.2.2 = extent.2.2.2 ∧ ∀ b r c, (f b r c).1 = (g r c b).1 := by
  have hr : readArray (toGeotiff (.three ny nx nb g) extent spacing fill) 0 0 nx ny =
      .three nb ny nx fun b r c => ((g r c b).1, false) := by
    rw [readArray]
    exact if_neg hb
  rw [fromGeotiff]
  dsimp only
  rw [show (toGeotiff (.three ny nx nb g) extent spacing fill).nx = nx from rfl,
    show (toGeotiff (.three ny nx nb g) extent spacing fill).ny = ny from rfl, hr]
  cases hn : (toGeotiff (.three ny nx nb g) extent spacing fill).nodata with
  | none => exact ⟨_, _, rfl, rfl, rfl, rfl, rfl, fun _ _ _ => rfl⟩
  | some f =>
    rw [fillValues]
    by_cases hf : f ≠ 0
    · simp only [if_pos hf]
      exact ⟨_, _, rfl, rfl, rfl, rfl, rfl, fun _ _ _ => rfl⟩
    · simp only [if_neg hf]
      exact ⟨_, _, rfl, rfl, rfl, rfl, rfl, fun _ _ _ => rfl⟩

/-! ### Parts of images -/

/-- The number of the pixel at which reading begins, counted from an edge, for a nonnegative
distance. -/
theorem trunc_nonneg {x : K} (h : 0 ≤ x) : trunc x = ⌊x⌋ := if_pos h

/-- Bounds inside an image, short of its right and lower edges. -/
structure Inside (t : Tiff K) (xl xr yl yr : K) : Prop where
  left : t.x0 ≤ xl
  right : xr < t.x0 + t.nx * t.dx
  top : yr ≤ t.y0
  bottom : t.y0 + t.ny * t.dy < yl
  width : xl ≤ xr
  height : yl ≤ yr

/-- Steps across an axis: from the distances of the bounds in pixels. -/
theorem steps {a b : K} {n : Nat} (ha : 0 ≤ a) (hab : a ≤ b) (hb : b < n) :
    ∃ o m : Nat, trunc a = o ∧ trunc (b - a) + 1 = ((m + 1 : Nat) : Int) ∧ o + (m + 1) ≤ n ∧
      (∀ c : Nat, a ≤ c + 1 / 2 → (c : K) + 1 ≤ b → o ≤ c ∧ c < o + (m + 1)) ∧
      (o : K) ≤ a ∧ a < o + 1 ∧ (m : K) ≤ b - a ∧ b - a < m + 1 := by
  have h1 : trunc a = (⌊a⌋.toNat : Int) := by
    rw [trunc_nonneg ha, Int.toNat_of_nonneg (Int.floor_nonneg.2 ha)]
  have h2 : trunc (b - a) = (⌊b - a⌋.toNat : Int) := by
    have : 0 ≤ b - a := sub_nonneg.2 hab
    rw [trunc_nonneg this, Int.toNat_of_nonneg (Int.floor_nonneg.2 this)]
  have fl : ∀ x : K, 0 ≤ x → ((⌊x⌋.toNat : Nat) : K) ≤ x ∧ x < ((⌊x⌋.toNat : Nat) : K) + 1 := by
    intro x hx
    have e : ((⌊x⌋.toNat : Nat) : K) = ((⌊x⌋ : Int) : K) := by
      rw [← Int.cast_natCast, Int.toNat_of_nonneg (Int.floor_nonneg.2 hx)]
    rw [e]
    exact ⟨Int.floor_le x, Int.lt_floor_add_one x⟩
  obtain ⟨o1, o2⟩ := fl a ha
  obtain ⟨m1, m2⟩ := fl (b - a) (sub_nonneg.2 hab)
  refine ⟨⌊a⌋.toNat, ⌊b - a⌋.toNat, h1, by rw [h2]; push_cast; rfl, ?_, ?_, o1, o2, m1, m2⟩
  · have : ((⌊a⌋.toNat + ⌊b - a⌋.toNat : Nat) : K) < n := by
      push_cast
      linarith
    have := Nat.cast_lt.1 this
    omega
  · intro c h3 h4
    constructor
    · have : ((⌊a⌋.toNat : Nat) : K) < ((c + 1 : Nat) : K) := by
        push_cast
        linarith
      have := Nat.cast_lt.1 this
      omega
    · have : (c : K) < ((⌊a⌋.toNat + (⌊b - a⌋.toNat + 1) : Nat) : K) := by
        push_cast
        linarith
      exact Nat.cast_lt.1 this

/-- C91: the part of an image inside bounds is read as the image that it is: same as the whole of a
smaller image with the same pixels in the same places.  It has every pixel whose centre is on the
inner side of the left and upper bounds and whose right and lower edges are not beyond the others. -/
theorem C91_part (t : Tiff K) (hn : NorthUp t) (xl xr yl yr : K) (hi : Inside t xl xr yl yr) :
    ∃ xo yo xc yc : Nat, fromGeotiff (some (xl, xr, yl, yr)) t =
        fromGeotiff none (part t xo yo xc yc) ∧ xo + xc ≤ t.nx ∧ yo + yc ≤ t.ny ∧
      (∀ c : Nat, xl ≤ centreX t c → right t c ≤ xr → xo ≤ c ∧ c < xo + xc) ∧
      ∀ r : Nat, centreY t r ≤ yr → yl ≤ bottom t r → yo ≤ r ∧ r < yo + yc := by
  have hdx := hn.right
  have hdy := hn.down
  have hab : |t.dy| = -t.dy := abs_of_neg hdy
  have hdy' : 0 < -t.dy := neg_pos.2 hdy
  obtain ⟨xo, xm, x1, x2, x3, x4, -⟩ := steps (a := (xl - t.x0) / t.dx) (b := (xr - t.x0) / t.dx)
    (n := t.nx) (div_nonneg (sub_nonneg.2 hi.left) hdx.le)
    (div_le_div_of_nonneg_right (sub_le_sub_right hi.width _) hdx.le)
    (by rw [div_lt_iff₀ hdx]; linarith [hi.right])
  obtain ⟨yo, ym, y1, y2, y3, y4, -⟩ := steps (a := (t.y0 - yr) / -t.dy) (b := (t.y0 - yl) / -t.dy)
    (n := t.ny) (div_nonneg (sub_nonneg.2 hi.top) hdy'.le)
    (div_le_div_of_nonneg_right (sub_le_sub_left hi.height _) hdy'.le)
    (by rw [div_lt_iff₀ hdy']; linarith [hi.bottom])
  rw [← sub_div] at x2 y2
  rw [show xr - t.x0 - (xl - t.x0) = xr - xl by ring] at x2
  rw [show t.y0 - yl - (t.y0 - yr) = yr - yl by ring] at y2
  refine ⟨xo, yo, xm + 1, ym + 1, ?_, x3, y3, ?_, ?_⟩
  · have hx : slice xo (xm + 1) (columns t) = columns (part t xo yo (xm + 1) (ym + 1)) := by
      rw [columns, columns, slice_even _ _ _ _ _ x3]
      refine List.map_congr_left fun i _ => ?_
      rw [part]
      ring
    have hy : slice yo (ym + 1) (rows t) = rows (part t xo yo (xm + 1) (ym + 1)) := by
      rw [rows, rows, slice_even _ _ _ _ _ y3]
      refine List.map_congr_left fun i _ => ?_
      rw [part]
      ring
    have hdata : readArray t xo yo (xm + 1) (ym + 1) =
        readArray (part t xo yo (xm + 1) (ym + 1)) 0 0 (xm + 1) (ym + 1) := rfl
    have ex := (even_ends (t.x0 + xo * t.dx + t.dx / 2) t.dx xm).1 hdx.le
    have ey := (even_ends (t.y0 + yo * t.dy + t.dy / 2) t.dy ym).2 hdy.le
    rw [fromGeotiff, fromGeotiff]
    simp only [x1, x2, y1, y2, hab]
    rw [if_neg (by omega)]
    simp only [Int.toNat_natCast]
    rw [hx, hy, hdata]
    rw [show columns (part t xo yo (xm + 1) (ym + 1)) = (List.range (xm + 1)).map
      fun (i : Nat) => t.x0 + xo * t.dx + t.dx / 2 + (i : K) * t.dx from rfl,
      show rows (part t xo yo (xm + 1) (ym + 1)) = (List.range (ym + 1)).map
      fun (i : Nat) => t.y0 + yo * t.dy + t.dy / 2 + (i : K) * t.dy from rfl,
      ex.1, ex.2, ey.1, ey.2, ok_bind, ok_bind, ok_bind, ok_bind]
    have e : (t.x0 + xo * t.dx + t.dx / 2 - t.dx / 2,
        t.x0 + xo * t.dx + t.dx / 2 + xm * t.dx - t.dx / 2,
        t.y0 + yo * t.dy + t.dy / 2 + ym * t.dy - t.dy / 2,
        t.y0 + yo * t.dy + t.dy / 2 - t.dy / 2) =
        ((part t xo yo (xm + 1) (ym + 1)).x0,
        (part t xo yo (xm + 1) (ym + 1)).x0 +
          (((part t xo yo (xm + 1) (ym + 1)).nx : K) - 1) * (part t xo yo (xm + 1) (ym + 1)).dx,
        (part t xo yo (xm + 1) (ym + 1)).y0 +
          (((part t xo yo (xm + 1) (ym + 1)).ny : K) - 1) * (part t xo yo (xm + 1) (ym + 1)).dy,
        (part t xo yo (xm + 1) (ym + 1)).y0) := by
      simp only [part, Prod.mk.injEq]
      push_cast
      refine ⟨by ring, by ring, by ring, by ring⟩
    rw [e]
    rfl
  · intro c h1 h2
    refine x4 c ?_ ?_
    · rw [div_le_iff₀ hdx]
      rw [centreX] at h1
      linarith
    · rw [le_div_iff₀ hdx]
      rw [Spec.Geotiff.right] at h2
      linarith
  · intro r h1 h2
    refine y4 r ?_ ?_
    · rw [div_le_iff₀ hdy']
      rw [centreY] at h1
      linarith
    · rw [le_div_iff₀ hdy']
      rw [Spec.Geotiff.bottom] at h2
      linarith

/-- C91: the extent that is returned with an image, given as bounds, returns the whole image. -/
theorem C91_extent (t : Tiff K) (hn : NorthUp t) (hx : 0 < t.nx) (hy : 0 < t.ny) :
    ∃ i, fromGeotiff none t = .ok i ∧ fromGeotiff (some i.extent) t = .ok i := by
  have hdx := hn.right
  have hdy := hn.down
  have hab : |t.dy| = -t.dy := abs_of_neg hdy
  have hdy' : -t.dy ≠ 0 := neg_ne_zero.2 hdy.ne
  obtain ⟨m, hm⟩ := Nat.exists_eq_succ_of_ne_zero hx.ne'
  obtain ⟨l, hl⟩ := Nat.exists_eq_succ_of_ne_zero hy.ne'
  have tr : ∀ n : Nat, trunc ((n : Nat) : K) = n := by
    intro n
    rw [trunc_nonneg (Nat.cast_nonneg _), Int.floor_natCast]
  have t0 : trunc (0 : K) = 0 := by
    have := tr 0
    simpa using this
  refine ⟨_, rfl, ?_⟩
  have ex := (even_ends (t.x0 + t.dx / 2) t.dx m).1 hdx.le
  have ey := (even_ends (t.y0 + t.dy / 2) t.dy l).2 hdy.le
  have cx : columns t = (List.range (m + 1)).map fun (i : Nat) =>
      t.x0 + t.dx / 2 + (i : K) * t.dx := by rw [columns, hm]
  have cy : rows t = (List.range (l + 1)).map fun (i : Nat) =>
      t.y0 + t.dy / 2 + (i : K) * t.dy := by rw [rows, hl]
  rw [fromGeotiff]
  dsimp only
  have w : (t.x0 + ((t.nx : K) - 1) * t.dx - t.x0) / t.dx = (m : K) := by
    rw [hm]
    push_cast
    field_simp
    ring
  have v : (t.y0 - (t.y0 + ((t.ny : K) - 1) * t.dy)) / |t.dy| = (l : K) := by
    rw [hl, hab, div_eq_iff hdy']
    push_cast
    ring
  rw [w, v, sub_self, sub_self, zero_div, zero_div, t0, tr, tr]
  rw [if_neg (by omega)]
  have sx : slice (Int.toNat 0) (Int.toNat ((m : Int) + 1)) (columns t) = columns t := by
    rw [slice, Int.toNat_zero, List.drop_zero, List.take_of_length_le]
    simp [columns]
    omega
  have sy : slice (Int.toNat 0) (Int.toNat ((l : Int) + 1)) (rows t) = rows t := by
    rw [slice, Int.toNat_zero, List.drop_zero, List.take_of_length_le]
    simp [rows]
    omega
  have nx : Int.toNat ((m : Int) + 1) = t.nx := by omega
  have ny : Int.toNat ((l : Int) + 1) = t.ny := by omega
  rw [sx, sy, nx, ny]
  have lx : least (columns t) = .ok (t.x0 + t.dx / 2) := by rw [cx]; exact ex.1
  have gx : greatest (columns t) = .ok (t.x0 + t.dx / 2 + m * t.dx) := by rw [cx]; exact ex.2
  have ly : least (rows t) = .ok (t.y0 + t.dy / 2 + l * t.dy) := by rw [cy]; exact ey.1
  have gy : greatest (rows t) = .ok (t.y0 + t.dy / 2) := by rw [cy]; exact ey.2
  rw [lx, gx, ly, gy, ok_bind, ok_bind, ok_bind, ok_bind]
  have e : (t.x0 + t.dx / 2 - t.dx / 2, t.x0 + t.dx / 2 + m * t.dx - t.dx / 2,
      t.y0 + t.dy / 2 + l * t.dy - t.dy / 2, t.y0 + t.dy / 2 - t.dy / 2) =
      (t.x0, t.x0 + ((t.nx : K) - 1) * t.dx, t.y0 + ((t.ny : K) - 1) * t.dy, t.y0) := by
    simp only [Prod.mk.injEq]
    rw [hm, hl]
    push_cast
    refine ⟨by ring, by ring, by ring, by ring⟩
  rw [e]
  rfl

/-- C91 is false of the outer edges: bounds that are the edges of the image are refused. -/
theorem C91_edges_false (t : Tiff K) (hn : NorthUp t) :
    fromGeotiff (some (t.x0, t.x0 + t.nx * t.dx, t.y0 + t.ny * t.dy, t.y0)) t =
      .error .exception := by
  have hdx := hn.right.ne'
  have w : (t.x0 + t.nx * t.dx - t.x0) / t.dx = (t.nx : K) := by
    field_simp
    ring
  rw [fromGeotiff]
  dsimp only
  rw [w, sub_self, zero_div]
  rw [if_pos]
  right; right; right; right; left
  rw [trunc_nonneg (Nat.cast_nonneg _), Int.floor_natCast, trunc_nonneg le_rfl]
  simp

/-- An image of three columns of width one. -/
def three : Tiff ℚ := ⟨3, 1, 1, 0, 1, 1, -1, fun _ _ c => c, none⟩

/-- C91 is false of bounds across pixels: of the columns of width one only the second has its centre
within 0.6 and 1.5, and only the first is read. -/
theorem C91_cover_false : NorthUp three ∧
    ((6 / 10 : ℚ) ≤ centreX three 1 ∧ centreX three 1 ≤ 3 / 2) ∧ centreX three 0 < 6 / 10 ∧
    ∃ i, fromGeotiff (some (6 / 10, 3 / 2, 1 / 2, 1)) three = .ok i ∧ i.x = [centreX three 0] := by
  refine ⟨⟨by norm_num [three], by norm_num [three]⟩, ⟨by norm_num [centreX, three],
    by norm_num [centreX, three]⟩, by norm_num [centreX, three], ?_⟩
  have hx : (((6 / 10 : ℚ) - three.x0) / three.dx) = 6 / 10 := by norm_num [three]
  have t1 : trunc (6 / 10 : ℚ) = 0 := by decide +kernel
  refine ⟨⟨[1 / 2], [1 / 2], .two 1 1 fun r c => (three.pix 0 (r + 0) (c + 0), false),
    (0, 0, 1, 1), (1, -1), none⟩, ?_, by norm_num [centreX, three]⟩
  rw [fromGeotiff]
  have a1 : trunc (((6 / 10 : ℚ) - three.x0) / three.dx) = 0 := by decide +kernel
  have a2 : trunc ((three.y0 - 1) / |three.dy|) = 0 := by decide +kernel
  have a3 : trunc (((3 / 2 : ℚ) - 6 / 10) / three.dx) + 1 = 1 := by decide +kernel
  have a4 : trunc (((1 : ℚ) - 1 / 2) / |three.dy|) + 1 = 1 := by decide +kernel
  dsimp only
  rw [a1, a2, a3, a4, if_neg (by decide)]
  have c1 : slice (Int.toNat 0) (Int.toNat 1) (columns three) = [1 / 2] := by decide +kernel
  have c2 : slice (Int.toNat 0) (Int.toNat 1) (rows three) = [1 / 2] := by decide +kernel
  rw [c1, c2]
  have e : ∀ x : ℚ, least [x] = .ok x ∧ greatest [x] = .ok x := fun x => ⟨rfl, rfl⟩
  rw [(e _).1, (e _).2, ok_bind, ok_bind, ok_bind, ok_bind]
  simp only [fillValues, three, readArray, if_true]
  norm_num

example : NorthUp three := ⟨by norm_num [three], by norm_num [three]⟩

example : Inside three 1 2 (1 / 2) 1 := by
  constructor <;> norm_num [three]

end Verif.Geotiff
