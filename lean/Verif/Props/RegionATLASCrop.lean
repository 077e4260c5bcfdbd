import Verif.Props.RegionATLAS
import Verif.Props.RegionCrop
/-!
C109 with cropping for regional ATLAS models in netCDF files.
-/
namespace Verif.AtlasNet
open Verif Verif.Spec Verif.Extract Verif.Grid
open Verif.Staggered (SameMask Positive Sounds)

variable {K : Type} [Field K] [LinearOrder K] [IsStrictOrderedRing K]

/-- A part of a matrix. -/
def part {α : Type} (c r : ℕ × ℕ) (m : List (List α)) : List (List α) := (sliceNat m r).map fun row => sliceNat row c

theorem part_shows {x y : List K} {hc : List (List (Fld K))} {C : Chart K} {k0 j0 : ℤ} (h : Shows x y hc C k0 j0)
    {a b r s : ℕ} (ab : a + 2 ≤ b) (bx : b ≤ x.length) (rs : r + 2 ≤ s) (sy : s ≤ y.length) :
    Shows (sliceNat x (a, b)) (sliceNat y (r, s)) (part (a, b) (r, s) hc) C (k0 + a) (j0 + r) := by
  unfold part
  have lx := sliceNat_length x a b bx
  have ly := sliceNat_length y r s sy
  have lh := sliceNat_length hc r s (by rw [h.height]; exact sy)
  refine ⟨⟨?_, ?_⟩, by omega, by omega, by rw [List.length_map, lh, ly], ?_, ?_, ?_, ?_, ?_, ?_⟩
  · exact (h.asc.1.sublist (List.drop_sublist _ _)).sublist (List.take_sublist _ _)
  · exact (h.asc.2.sublist (List.drop_sublist _ _)).sublist (List.take_sublist _ _)
  · intro row hrow
    obtain ⟨row', hr', rfl⟩ := List.mem_map.1 hrow
    have : row' ∈ hc := by
      unfold sliceNat at hr'
      exact List.mem_of_mem_drop (List.mem_of_mem_take hr')
    rw [sliceNat_length _ _ _ (by rw [h.width _ this]; exact bx), lx]
  · intro c hc'
    rw [sliceNat_getD _ _ _ _ _ (by omega), h.lon _ (by omega)]
    congr 1
    push_cast; ring
  · intro c hc'
    rw [sliceNat_getD _ _ _ _ _ (by omega), h.lat _ (by omega)]
    congr 1
    push_cast; ring
  · intro c hc'
    rw [show k0 + (a : ℤ) + (c : ℤ) = k0 + ((a + c : ℕ) : ℤ) by push_cast; ring]
    exact h.col _ (by omega)
  · intro c hc'
    rw [show j0 + (r : ℤ) + (c : ℤ) = j0 + ((r + c : ℕ) : ℤ) by push_cast; ring]
    exact h.row _ (by omega)
  · intro i c hi hc'
    rw [show k0 + (a : ℤ) + (c : ℤ) = k0 + ((a + c : ℕ) : ℤ) by push_cast; ring,
      show j0 + (r : ℤ) + (i : ℤ) = j0 + ((r + i : ℕ) : ℤ) by push_cast; ring,
      h.value _ _ (by omega) (by omega)]
    unfold Extract.entry
    rw [getD_map_lt _ _ _ [] _ (by omega), sliceNat_getD _ _ _ _ _ (by omega),
      sliceNat_getD _ _ _ _ _ (by omega)]

/-- The axes and every matrix are cropped in the same way. -/
theorem crop_parts {x y : List K} (hx : x.Pairwise (· < ·)) (hy : y.Pairwise (· < ·)) (two : 2 ≤ x.length)
    (two' : 2 ≤ y.length) (xmin xmax ymin ymax buf : K) (hb : 0 < buf)
    (x0 : x.getD 0 0 ≤ xmin) (xl : xmin ≤ xmax) (x1 : xmax ≤ x.getD (x.length - 1) 0)
    (xs : ∀ i : ℕ, i + 1 < x.length → x.getD (i + 1) 0 - x.getD i 0 ≤ buf)
    (y0 : y.getD 0 0 ≤ ymin) (yl : ymin ≤ ymax) (y1 : ymax ≤ y.getD (y.length - 1) 0)
    (ys : ∀ i : ℕ, i + 1 < y.length → y.getD (i + 1) 0 - y.getD i 0 ≤ buf) :
    ∃ a b r s : ℕ, (∀ m : List (List (Fld K)), cropCore m x y xmin xmax ymin ymax buf =
        .ok (part (a, b) (r, s) m, sliceNat x (a, b), sliceNat y (r, s))) ∧
      a + 2 ≤ b ∧ b ≤ x.length ∧ r + 2 ≤ s ∧ s ≤ y.length ∧
      x.getD a 0 ≤ xmin ∧ xmax ≤ x.getD (b - 1) 0 ∧ y.getD r 0 ≤ ymin ∧ ymax ≤ y.getD (s - 1) 0 ∧
      (xmax < x.getD (x.length - 1) 0 → xmax < x.getD (b - 1) 0) ∧
      (y.getD 0 0 < ymin → y.getD r 0 < ymin) ∧
      (ymax < y.getD (y.length - 1) 0 → ymax < y.getD (s - 1) 0) := by
  obtain ⟨a, b, e1, ab, bx, g1, g2, -, g4⟩ := axis_crop hx two xmin xmax buf hb x0 xl x1 xs
  obtain ⟨r, s, e2, rs, sy, f1, f2, f3, f4⟩ := axis_crop hy two' ymin ymax buf hb y0 yl y1 ys
  refine ⟨a, b, r, s, fun m => ?_, ab, bx, rs, sy, g1, g2, f1, f2, g4, f3, f4⟩
  unfold cropCore
  rw [e2, ok_bind, e1, ok_bind]
  rfl

theorem sliceNat_map {α β : Type} (f : α → β) (l : List α) (c : ℕ × ℕ) : sliceNat (l.map f) c = (sliceNat l c).map f := by
  unfold sliceNat
  rw [← List.map_drop, ← List.map_take]

theorem sliceNat_zip {α β γ : Type} (f : α → β → γ) (l : List α) (l' : List β) (c : ℕ × ℕ) :
    sliceNat (List.zipWith f l l') c = List.zipWith f (sliceNat l c) (sliceNat l' c) := by
  unfold sliceNat
  rw [List.drop_zipWith, List.take_zipWith]

theorem part_remask (c r : ℕ × ℕ) (m : List (List (Fld K))) : remask (part c r m) = part c r (remask m) := by
  unfold remask part
  rw [sliceNat_map, List.map_map, List.map_map]
  refine List.map_congr_left fun row _ => ?_
  exact (sliceNat_map _ _ _).symm

theorem part_combine (c r : ℕ × ℕ) (m n : List (List (Fld K))) :
    combine (part c r m) (part c r n) = part c r (combine m n) := by
  unfold combine part
  rw [sliceNat_zip, List.map_zipWith, List.zipWith_map]
  congr 1
  funext p q
  exact (sliceNat_zip _ _ _ _).symm

theorem masked_iff (c : Fld K) : c.masked = true ↔ c.number = none := by
  unfold Fld.number
  cases c.masked <;> simp

/-- **C109** with cropping for ATLAS models in netCDF files, for places in the region and as the file writes
them.  Missing: other places, see `C109_cropped_false`. -/
theorem C109_atlas_cropped_partial {s : Site K} (h : Sound s) (r : Request K) (hr : r.crop = true)
    (hb : r.bounds = none) (hn : ∀ x y hc q, r.near x y hc q = none) (hc : r.Reaches ⟨s.lon, s.lat, []⟩) (speed : Bool)
    (pos : speed = true → ∀ j i : ℕ, 0 ≤ (s.depth.getD j []).getD i 0)
    (fields : List (List (List (K × K)))) (sh : ∀ hc ∈ fields, CGrid.Shape hc s.lat.length s.lon.length)
    (pts : List (K × K)) (h0 : ∃ p ∈ pts, p ≠ (0, 0)) (hp : ∀ p ∈ pts, Written r.method ⟨s.lon, s.lat, []⟩ p) :
    ∃ ds outs, extract r speed s fields pts = .ok (ds, outs) ∧
      List.Forall₂ (Sounds r.method (bayWaters s)) pts ds ∧
      List.Forall₂ (fun hc row => List.Forall₂ (Agrees r.method speed r.scale (bayTides s hc) (bayWaters s)) pts row)
        fields outs := by
  obtain ⟨box, hany, b1, b2, b3, b4⟩ := box_any h0
  obtain ⟨buf, ebuf⟩ : ∃ buf, buf = r.bufferOr (s.lon.getD 1 0 - s.lon.getD 0 0) := ⟨_, rfl⟩
  have z := h.toZone
  have h2 := z.two
  have d0 := getD_lt z.lon (show 0 < 1 by omega) (by omega)
  unfold Request.Reaches at hc
  rw [← ebuf] at hc
  have bpos : 0 < buf := by
    have := hc.1 0 (by show 0 + 1 < s.lon.length; omega)
    simp only [Nat.zero_add] at this
    linarith
  have lmin : ∀ p ∈ pts, box.xmin ≤ p.1 := fun p hp =>
    (List.min?_eq_some_iff.1 b1).2 _ (List.mem_map.2 ⟨p, hp, rfl⟩)
  have lmax : ∀ p ∈ pts, p.1 ≤ box.xmax := fun p hp =>
    (List.max?_eq_some_iff.1 b2).2 _ (List.mem_map.2 ⟨p, hp, rfl⟩)
  have mmin : ∀ p ∈ pts, box.ymin ≤ p.2 := fun p hp =>
    (List.min?_eq_some_iff.1 b3).2 _ (List.mem_map.2 ⟨p, hp, rfl⟩)
  have mmax : ∀ p ∈ pts, p.2 ≤ box.ymax := fun p hp =>
    (List.max?_eq_some_iff.1 b4).2 _ (List.mem_map.2 ⟨p, hp, rfl⟩)
  obtain ⟨p1, m1, e1⟩ := List.mem_map.1 (List.min?_eq_some_iff.1 b1).1
  obtain ⟨p2, m2, e2⟩ := List.mem_map.1 (List.max?_eq_some_iff.1 b2).1
  obtain ⟨p3, m3, e3⟩ := List.mem_map.1 (List.min?_eq_some_iff.1 b3).1
  obtain ⟨p4, m4, e4⟩ := List.mem_map.1 (List.max?_eq_some_iff.1 b4).1
  have x0 : s.lon.getD 0 0 ≤ box.xmin := by rw [← e1]; exact (hp p1 m1).1.1
  have x1 : box.xmax ≤ s.lon.getD (s.lon.length - 1) 0 := by rw [← e2]; exact (hp p2 m2).1.2.1
  have xl : box.xmin ≤ box.xmax := le_trans (lmin p1 m1) (lmax p1 m1)
  obtain ⟨a, b, u, v, ec, o1, o2, o3, o4, o6, o7, o8, o9, o10, o11, o12⟩ := crop_parts z.lon z.lat h2 z.two'
    box.xmin box.xmax box.ymin box.ymax buf bpos x0 xl x1 hc.1
    (by rw [← e3]; exact (hp p3 m3).1.2.2.1) (le_trans (mmin p1 m1) (mmax p1 m1))
    (by rw [← e4]; exact (hp p4 m4).1.2.2.2) hc.2
  have lx := sliceNat_length s.lon a b o2
  have ly := sliceNat_length s.lat u v o4
  have s0 : (sliceNat s.lon (a, b)).getD 0 0 = s.lon.getD a 0 := by
    rw [sliceNat_getD _ _ _ _ _ (by omega)]; rfl
  have s1 : (sliceNat s.lon (a, b)).getD ((sliceNat s.lon (a, b)).length - 1) 0 = s.lon.getD (b - 1) 0 := by
    rw [lx, sliceNat_getD _ _ _ _ _ (by omega)]; congr 1; omega
  have t0 : (sliceNat s.lat (u, v)).getD 0 0 = s.lat.getD u 0 := by
    rw [sliceNat_getD _ _ _ _ _ (by omega)]; rfl
  have t1 : (sliceNat s.lat (u, v)).getD ((sliceNat s.lat (u, v)).length - 1) 0 = s.lat.getD (v - 1) 0 := by
    rw [ly, sliceNat_getD _ _ _ _ _ (by omega)]; congr 1; omega
  have far : ∀ c : ℕ, c < (sliceNat s.lon (a, b)).length → |(sliceNat s.lon (a, b)).getD c 0| ≤ 720 := by
    intro c hcl
    rw [sliceNat_getD _ _ _ _ _ (by omega)]
    exact z.far _ (by omega)
  have hin : ∀ p ∈ pts, (sliceNat s.lon (a, b)).getD 0 0 ≤ p.1 ∧
      p.1 ≤ (sliceNat s.lon (a, b)).getD ((sliceNat s.lon (a, b)).length - 1) 0 ∧ (sliceNat s.lat (u, v)).getD 0 0 ≤ p.2 ∧
      p.2 ≤ (sliceNat s.lat (u, v)).getD ((sliceNat s.lat (u, v)).length - 1) 0 ∧ (r.method = .bilinear →
        p.1 < (sliceNat s.lon (a, b)).getD ((sliceNat s.lon (a, b)).length - 1) 0 ∧
        (sliceNat s.lat (u, v)).getD 0 0 < p.2 ∧
        p.2 < (sliceNat s.lat (u, v)).getD ((sliceNat s.lat (u, v)).length - 1) 0) := by
    intro p hpm
    rw [s0, s1, t0, t1]
    refine ⟨le_trans o6 (lmin p hpm), le_trans (lmax p hpm) o7, le_trans o8 (mmin p hpm),
      le_trans (mmax p hpm) o9, fun hb => ⟨?_, ?_, ?_⟩⟩
    · exact lt_of_le_of_lt (lmax p hpm) (o10 (by rw [← e2]; exact ((hp p2 m2).2 hb).1))
    · exact lt_of_lt_of_le (o11 (by rw [← e3]; exact ((hp p3 m3).2 hb).2.1)) (mmin p hpm)
    · exact lt_of_le_of_lt (mmax p hpm) (o12 (by rw [← e4]; exact ((hp p4 m4).2 hb).2.2))
  have ext : ∀ m : List (List (Fld K)), extended fes (s.lon.getD 1 0 - s.lon.getD 0 0)
      ⟨sliceNat s.lon (a, b), sliceNat s.lat (u, v), m⟩ = .ok ⟨sliceNat s.lon (a, b), sliceNat s.lat (u, v), m⟩ := fun m =>
    z.kept fes m (by omega) (by rw [s0]; exact getD_le z.lon (Nat.zero_le a) (by omega))
      (by rw [s1]; exact getD_le z.lon (show b - 1 ≤ s.lon.length - 1 by omega) (by omega))
  have pl : ∀ m : List (List (Fld K)), Extract.place r box (s.lon.getD 1 0 - s.lon.getD 0 0) ⟨s.lon, s.lat, m⟩ pts =
      .ok (⟨sliceNat s.lon (a, b), sliceNat s.lat (u, v), part (a, b) (u, v) m⟩, pts) := by
    intro m
    unfold Extract.place
    rw [if_pos ⟨hr, hany⟩, ← ebuf]
    simp only
    rw [Staggered.crop_plain _ _ z.lon h2 x0 xl x1 (fun _ => z.convention.imp And.left And.right), ec, ok_bind]
  have hbath := part_shows (depths_bay h) o1 o2 o3 o4
  obtain ⟨ds, ed, hd⟩ := sounding_inside (hc := depths s.depth) (T := bayWaters s) hbath r.method pts far hin
  obtain ⟨outs, eo, ho⟩ := pyMap_rel (l := fields) (f := fun hc => do
      let h ← fieldOf r box (s.lon.getD 1 0 - s.lon.getD 0 0) s (sliceNat s.lon (a, b)) (sliceNat s.lat (u, v)) hc
      evaluate r speed false (fun _ => false) (sliceNat s.lon (a, b)) (sliceNat s.lat (u, v))
        (part (a, b) (u, v) (depths s.depth)) (combine h (part (a, b) (u, v) (depths s.depth))) pts)
    (R := fun hc row => List.Forall₂ (Agrees r.method speed r.scale (bayTides s hc) (bayWaters s)) pts row) (by
      intro hc hmem
      have ht := part_shows (tides_bay h (sh hc hmem)).1 o1 o2 o3 o4
      have same : SameMask (part (a, b) (u, v) (combine (numbers hc) (depths s.depth)))
          (part (a, b) (u, v) (depths s.depth)) := by
        intro j i
        by_cases hji : j < (sliceNat s.lat (u, v)).length ∧ i < (sliceNat s.lon (a, b)).length
        · rw [Bool.eq_iff_iff, masked_iff, masked_iff, ← ht.value j i hji.1 hji.2, ← hbath.value j i hji.1 hji.2]
          simp only [bayTides, bayWaters, bay]
          split <;> simp
        · rw [Staggered.entry_outside ht hji, Staggered.entry_outside hbath hji]
      obtain ⟨outs, eo, ho⟩ := evaluate_inside ht hbath same r hn false speed (fun e => bay_positive (pos e)) pts far hin
      refine ⟨outs, ?_, ho⟩
      have := fieldOf_eq (pl (numbers hc))
      simp only at this
      rw [this, ext, ok_bind, ok_bind]
      simp only
      rw [part_combine]
      exact eo)
  refine ⟨ds, outs, ?_, hd, ho⟩
  have hbox : r.boundsOr pts = .ok box := by
    unfold Request.boundsOr
    rw [b1, b2, b3, b4, hb]
    rfl
  unfold extract
  rw [hbox, ok_bind, z.step, ok_bind, pl, ok_bind]
  simp only
  rw [ext, ok_bind]
  simp only
  rw [part_remask, remask_plain, ed, ok_bind, eo, ok_bind]

/-- The hypotheses can hold: currents, with the last column cut off. -/
example : ∃ ds outs, extract (cropRequest .bilinear 20) true inlet [inflow] [(-15, 0), (-10, 1)] = .ok (ds, outs) ∧
    List.Forall₂ (Sounds .bilinear (bayWaters inlet)) [(-15, 0), (-10, 1)] ds ∧
    List.Forall₂ (fun hc row => List.Forall₂ (Agrees .bilinear true 1 (bayTides inlet hc) (bayWaters inlet))
      [(-15, 0), (-10, 1)] row) [inflow] outs := by
  refine C109_atlas_cropped_partial inlet_sound (cropRequest .bilinear 20) rfl rfl (fun _ _ _ _ => rfl) ⟨?_, ?_⟩ true ?_
    [inflow] ?_ _ ⟨(-15, 0), by simp, by decide +kernel⟩ ?_
  · intro i hi
    have hi' : i < 2 := by simp [inlet] at hi; omega
    exact (by decide +kernel : ∀ i < 2, ([-20, 0, 20] : List ℚ).getD (i + 1) 0 - ([-20, 0, 20] : List ℚ).getD i 0 ≤ 20) i hi'
  · intro i hi
    have hi' : i < 1 := by simp [inlet] at hi; omega
    exact (by decide +kernel : ∀ i < 1, ([-10, 10] : List ℚ).getD (i + 1) 0 - ([-10, 10] : List ℚ).getD i 0 ≤ 20) i hi'
  · intro _ j i
    rcases j with _ | _ | j <;> rcases i with _ | _ | _ | i <;> simp [inlet]
  · intro hc hm
    rw [List.mem_singleton] at hm
    subst hm
    exact ⟨rfl, by decide +kernel⟩
  · unfold Written Inside
    decide +kernel

example : extract (cropRequest .spline 10) true inlet [inflow] [(-10, 0)] =
    .ok ([some 250], [[.val 4 5 (2 / 5)]]) := by decide +kernel

end Verif.AtlasNet
