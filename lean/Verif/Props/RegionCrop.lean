import Verif.Props.Region
import Verif.Props.OtisCrop
/-!
C109 with cropping: a model of a region that is cropped to the neighbourhood of the places gives the
interpolation of the field in the file (GOT and FES models).
-/
namespace Verif.Extract
open Verif Verif.Spec Verif.Grid

variable {K : Type} [Field K] [LinearOrder K] [IsStrictOrderedRing K]

/-- The buffer reaches the next column and row everywhere. -/
def Request.Reaches (r : Request K) (g : Layer K) : Prop :=
  (∀ i : ℕ, i + 1 < g.lon.length →
    g.lon.getD (i + 1) 0 - g.lon.getD i 0 ≤ r.bufferOr (g.lon.getD 1 0 - g.lon.getD 0 0)) ∧
  ∀ i : ℕ, i + 1 < g.lat.length →
    g.lat.getD (i + 1) 0 - g.lat.getD i 0 ≤ r.bufferOr (g.lon.getD 1 0 - g.lon.getD 0 0)

/-- A place in the region as its file writes it; with `'bilinear'` not on the rim. -/
def Written (m : Method) (g : Layer K) (p : K × K) : Prop :=
  Inside g.lon g.lat p ∧ (m = .bilinear →
    p.1 < g.lon.getD (g.lon.length - 1) 0 ∧ g.lat.getD 0 0 < p.2 ∧ p.2 < g.lat.getD (g.lat.length - 1) 0)

/-- A part of a region is not taken for a globe. -/
theorem Zone.kept {lon lat : List K} (z : Zone lon lat) (f : Fmt) {x y : List K} (hc : List (List (Fld K)))
    (h2 : 2 ≤ x.length) (h0 : lon.getD 0 0 ≤ x.getD 0 0) (h1 : x.getD (x.length - 1) 0 ≤ lon.getD (lon.length - 1) 0) :
    Extract.extended f (lon.getD 1 0 - lon.getD 0 0) ⟨x, y, hc⟩ = .ok ⟨x, y, hc⟩ := by
  have z2 := z.two
  have g := z.gap
  have d := getD_lt z.lon (show 0 < 1 by omega) (by omega)
  have first : x.head? = some (x.getD 0 0) := by
    rw [List.head?_eq_getElem?, List.getD_eq_getElem?_getD, List.getElem?_eq_getElem (show 0 < x.length by omega)]
    rfl
  have last : x.getLast? = some (x.getD (x.length - 1) 0) := by
    rw [List.getLast?_eq_getElem?, List.getD_eq_getElem?_getD,
      List.getElem?_eq_getElem (show x.length - 1 < x.length by omega)]
    rfl
  unfold Extract.extended
  simp only [first, last]
  rw [if_neg]
  unfold Interp.isclose
  rw [decide_eq_true_eq, not_le]
  have r := z.range
  have e1 : |360 - (lon.getD 1 0 - lon.getD 0 0)| ≤ (360 : K) := by
    rw [abs_le]; constructor <;> linarith
  have e2 : (1 : K) / 100 ≤ |x.getD (x.length - 1) 0 - x.getD 0 0 - (360 - (lon.getD 1 0 - lon.getD 0 0))| := by
    rw [abs_of_neg (by linarith)]; linarith
  refine lt_of_lt_of_le ?_ e2
  have : (1 : K) / 10 ^ 5 * |360 - (lon.getD 1 0 - lon.getD 0 0)| ≤ 1 / 10 ^ 5 * 360 :=
    mul_le_mul_of_nonneg_left e1 (by norm_num)
  refine lt_of_le_of_lt (add_le_add_right this _) ?_
  norm_num

/-- One file with cropping. -/
theorem extractFile_region {g : Layer K} (h : Region g) (f : Fmt) (r : Request K) (hr : r.crop = true)
    (hn : ∀ x y hc q, r.near x y hc q = none) (hc : r.Reaches g) (pts : List (K × K))
    (box : Box K) (hbox : box.any = true)
    (b1 : (pts.map Prod.fst).min? = some box.xmin) (b2 : (pts.map Prod.fst).max? = some box.xmax)
    (b3 : (pts.map Prod.snd).min? = some box.ymin) (b4 : (pts.map Prod.snd).max? = some box.ymax)
    (hp : ∀ p ∈ pts, Written r.method g p) :
    ∃ outs, extractFile f r box g pts = .ok (outs, pts) ∧
      List.Forall₂ (Meets r.method (patch g) r.scale) pts outs := by
  obtain ⟨buf, ebuf⟩ : ∃ buf, buf = r.bufferOr (g.lon.getD 1 0 - g.lon.getD 0 0) := ⟨_, rfl⟩
  have z := h.toZone
  have h2 := z.two
  have d0 := getD_lt z.lon (show 0 < 1 by omega) (by omega)
  have bpos : 0 < buf := by
    have := hc.1 0 (by omega)
    rw [← ebuf] at this
    simp only [Nat.zero_add] at this
    linarith
  have lmin : ∀ p ∈ pts, box.xmin ≤ p.1 := fun p hp =>
    (List.min?_eq_some_iff.1 b1).2 _ (List.mem_map.2 ⟨p, hp, rfl⟩)
  have lmax : ∀ p ∈ pts, p.1 ≤ box.xmax := fun p hp =>
    (List.max?_eq_some_iff.1 b2).2 _ (List.mem_map.2 ⟨p, hp, rfl⟩)
  have mmin : ∀ p ∈ pts, box.ymin ≤ p.2 := fun p hp =>
    (List.min?_eq_some_iff.1 b3).2 _ (List.mem_map.2 ⟨p, hp, rfl⟩)
  have mmax : ∀ p ∈ pts, p.2 ≤ box.ymax := fun p hp =>
    (List.max?_eq_some_iff.1 b4).2 _ (List.mem_map.2 ⟨p, hp, rfl⟩)
  obtain ⟨p1, m1, e1⟩ := List.mem_map.1 (List.min?_eq_some_iff.1 b1).1
  obtain ⟨p2, m2, e2⟩ := List.mem_map.1 (List.max?_eq_some_iff.1 b2).1
  obtain ⟨p3, m3, e3⟩ := List.mem_map.1 (List.min?_eq_some_iff.1 b3).1
  obtain ⟨p4, m4, e4⟩ := List.mem_map.1 (List.max?_eq_some_iff.1 b4).1
  have x0 : g.lon.getD 0 0 ≤ box.xmin := by rw [← e1]; exact (hp p1 m1).1.1
  have x1 : box.xmax ≤ g.lon.getD (g.lon.length - 1) 0 := by rw [← e2]; exact (hp p2 m2).1.2.1
  have xl : box.xmin ≤ box.xmax := le_trans (lmin p1 m1) (lmax p1 m1)
  obtain ⟨a, b, u, v, hc', ec, o1, o2, o3, o4, o5, o6, o7, o8, o9, o10, o11, o12⟩ := cropCore_shows h.shows
    box.xmin box.xmax box.ymin box.ymax buf bpos x0 xl x1 (by rw [ebuf]; exact hc.1)
    (by rw [← e3]; exact (hp p3 m3).1.2.2.1) (le_trans (mmin p1 m1) (mmax p1 m1))
    (by rw [← e4]; exact (hp p4 m4).1.2.2.2) (by rw [ebuf]; exact hc.2)
  have lx := sliceNat_length g.lon a b o2
  have ly := sliceNat_length g.lat u v o4
  have s0 : (sliceNat g.lon (a, b)).getD 0 0 = g.lon.getD a 0 := by
    rw [sliceNat_getD _ _ _ _ _ (by omega)]; rfl
  have s1 : (sliceNat g.lon (a, b)).getD ((sliceNat g.lon (a, b)).length - 1) 0 = g.lon.getD (b - 1) 0 := by
    rw [lx, sliceNat_getD _ _ _ _ _ (by omega)]; congr 1; omega
  have t0 : (sliceNat g.lat (u, v)).getD 0 0 = g.lat.getD u 0 := by
    rw [sliceNat_getD _ _ _ _ _ (by omega)]; rfl
  have t1 : (sliceNat g.lat (u, v)).getD ((sliceNat g.lat (u, v)).length - 1) 0 = g.lat.getD (v - 1) 0 := by
    rw [ly, sliceNat_getD _ _ _ _ _ (by omega)]; congr 1; omega
  have ext := z.kept f (x := sliceNat g.lon (a, b)) (y := sliceNat g.lat (u, v)) hc' (by omega)
    (by rw [s0]; exact getD_le z.lon (Nat.zero_le a) (by omega))
    (by rw [s1]; exact getD_le z.lon (show b - 1 ≤ g.lon.length - 1 by omega) (by omega))
  obtain ⟨outs, eo, ho⟩ := evaluate_inside o5 f r hn false
    (by
      intro c hcl
      rw [sliceNat_getD _ _ _ _ _ (by omega)]
      exact z.far _ (by omega))
    pts (by
      intro p hpm
      rw [s0, s1, t0, t1]
      refine ⟨le_trans o6 (lmin p hpm), le_trans (lmax p hpm) o7, le_trans o8 (mmin p hpm),
        le_trans (mmax p hpm) o9, fun hb => ⟨?_, ?_, ?_⟩⟩
      · exact lt_of_le_of_lt (lmax p hpm) (o10 (by rw [← e2]; exact ((hp p2 m2).2 hb).1))
      · exact lt_of_lt_of_le (o11 (by rw [← e3]; exact ((hp p3 m3).2 hb).2.1)) (mmin p hpm)
      · exact lt_of_le_of_lt (mmax p hpm) (o12 (by rw [← e4]; exact ((hp p4 m4).2 hb).2.2)))
  refine ⟨outs, ?_, ho⟩
  have pl : place r box (g.lon.getD 1 0 - g.lon.getD 0 0) g pts =
      .ok (⟨sliceNat g.lon (a, b), sliceNat g.lat (u, v), hc'⟩, pts) := by
    unfold place
    rw [if_pos ⟨hr, hbox⟩, ← ebuf, Staggered.crop_plain _ _ z.lon h2 x0 xl x1
      (fun _ => z.convention.imp And.left And.right), ec, ok_bind]
  unfold extractFile
  rw [z.step, ok_bind, pl, ok_bind]
  simp only
  rw [ext, ok_bind]
  simp only
  rw [eo, ok_bind]

/-- **C109** with cropping, for places in the regions of all files and as they write them: each gets the
interpolation of the field in the file.  Missing: places outside or written otherwise, which are not
adjusted if the model is cropped; see `C109_cropped_false`. -/
theorem C109_cropped_partial (f : Fmt) (r : Request K) (hr : r.crop = true) (hb : r.bounds = none)
    (hn : ∀ x y hc q, r.near x y hc q = none) (files : List (Layer K))
    (hg : ∀ g ∈ files, Region g ∧ r.Reaches g) (pts : List (K × K)) (h0 : ∃ p ∈ pts, p ≠ (0, 0))
    (hp : ∀ g ∈ files, ∀ p ∈ pts, Written r.method g p) :
    ∃ outs, extract f r files pts = .ok outs ∧
      List.Forall₂ (fun g row => List.Forall₂ (Meets r.method (patch g) r.scale) pts row) files outs := by
  obtain ⟨p0, hp0, hne0⟩ := h0
  have hne : pts ≠ [] := List.ne_nil_of_mem hp0
  obtain ⟨x0, ex0, -, lx0⟩ := exists_min (pts.map Prod.fst) (by simpa using hne)
  obtain ⟨x1, ex1, -, lx1⟩ := exists_max (pts.map Prod.fst) (by simpa using hne)
  obtain ⟨y0, ey0, -, ly0⟩ := exists_min (pts.map Prod.snd) (by simpa using hne)
  obtain ⟨y1, ey1, -, ly1⟩ := exists_max (pts.map Prod.snd) (by simpa using hne)
  have hany : (⟨x0, x1, y0, y1⟩ : Box K).any = true := by
    unfold Box.any
    by_contra hcon
    simp only [Bool.not_eq_true, Bool.not_eq_false', Bool.and_eq_true, decide_eq_true_eq] at hcon
    obtain ⟨⟨⟨c1, c2⟩, c3⟩, c4⟩ := hcon
    have m1 : p0.1 ∈ pts.map Prod.fst := List.mem_map.2 ⟨p0, hp0, rfl⟩
    have m2 : p0.2 ∈ pts.map Prod.snd := List.mem_map.2 ⟨p0, hp0, rfl⟩
    refine hne0 (Prod.ext ?_ ?_)
    · have := lx0 p0.1 m1
      have := lx1 p0.1 m1
      show p0.1 = 0
      linarith
    · have := ly0 p0.2 m2
      have := ly1 p0.2 m2
      show p0.2 = 0
      linarith
  have loop : ∀ fs : List (Layer K), (∀ g ∈ fs, g ∈ files) →
      ∃ outs, extractFiles f r ⟨x0, x1, y0, y1⟩ fs pts = .ok outs ∧
        List.Forall₂ (fun g row => List.Forall₂ (Meets r.method (patch g) r.scale) pts row) fs outs := by
    intro fs
    induction fs with
    | nil => exact fun _ => ⟨[], rfl, .nil⟩
    | cons g fs ih =>
      intro hmem
      obtain ⟨g1, g2⟩ := hg g (hmem g (by simp))
      obtain ⟨row, e, hrow⟩ := extractFile_region g1 f r hr hn g2 pts ⟨x0, x1, y0, y1⟩ hany
        ex0 ex1 ey0 ey1 (hp g (hmem g (by simp)))
      obtain ⟨rest, e', hrest⟩ := ih fun g' hg' => hmem g' (by simp [hg'])
      refine ⟨row :: rest, ?_, .cons hrow hrest⟩
      rw [extractFiles, e, ok_bind]
      simp only
      rw [e', ok_bind]
  obtain ⟨outs, e, ho⟩ := loop files fun _ h => h
  refine ⟨outs, ?_, ho⟩
  unfold extract Request.boundsOr
  rw [ex0, ex1, ey0, ey1]
  simp only
  rw [ok_bind, hb]
  exact e

/-! ## An object the files were read into -/

theorem cropCore_axes {α : Type} {m n : List (List α)} {x y : List K} {x0 x1 y0 y1 buf : K} {o q : List (List α) × List K × List K}
    (h1 : cropCore m x y x0 x1 y0 y1 buf = .ok o) (h2 : cropCore n x y x0 x1 y0 y1 buf = .ok q) : o.2 = q.2 := by
  unfold cropCore at h1 h2
  cases e1 : cropSlice (flatnonzero y (y0 - buf) (y1 + buf)) with
  | error _ => rw [e1, error_bind] at h1; cases h1
  | ok a =>
    cases e2 : cropSlice (flatnonzero x (x0 - buf) (x1 + buf)) with
    | error _ => rw [e1, e2, ok_bind, error_bind] at h1; cases h1
    | ok b =>
      rw [e1, e2, ok_bind, ok_bind] at h1 h2
      cases h1
      cases h2
      rfl

/-- A place in a box; with `'bilinear'` away from the rim of the region too. -/
def InBox (m : Method) (box : Box K) (lon lat : List K) (p : K × K) : Prop :=
  (box.xmin ≤ p.1 ∧ p.1 ≤ box.xmax ∧ box.ymin ≤ p.2 ∧ p.2 ≤ box.ymax) ∧ (m = .bilinear →
    box.xmax < lon.getD (lon.length - 1) 0 ∧ lat.getD 0 0 < box.ymin ∧ box.ymax < lat.getD (lat.length - 1) 0)

/-- **C109** for an object the files were read into with cropping to a box in the region: a place in the box,
however its longitude is written, gets the interpolation of the field in the file.  `hs`: the region falls
short of a turn by more than each of its steps. -/
theorem C109_read_cropped_partial (f : Fmt) (r : Request K) (hn : ∀ x y hc q, r.near x y hc q = none)
    (files : List (Layer K)) (hfs : files ≠ []) (lon lat : List K) (hax : ∀ g ∈ files, g.lon = lon ∧ g.lat = lat)
    (hg : ∀ g ∈ files, Region g) (box : Box K) (buf : K) (hbox : box.any = true)
    (x0 : lon.getD 0 0 ≤ box.xmin) (xl : box.xmin ≤ box.xmax) (x1 : box.xmax ≤ lon.getD (lon.length - 1) 0)
    (y0 : lat.getD 0 0 ≤ box.ymin) (yl : box.ymin ≤ box.ymax) (y1 : box.ymax ≤ lat.getD (lat.length - 1) 0)
    (hs : ∀ i : ℕ, i + 1 < lon.length → lon.getD (i + 1) 0 - lon.getD i 0 ≤ buf ∧
      lon.getD (lon.length - 1) 0 - lon.getD 0 0 + (lon.getD (i + 1) 0 - lon.getD i 0) ≤ 360 - 1 / 100)
    (hs' : ∀ i : ℕ, i + 1 < lat.length → lat.getD (i + 1) 0 - lat.getD i 0 ≤ buf)
    (pts : List (K × K)) (hne : pts ≠ []) (hw : ∀ p ∈ pts, -180 < p.1 ∧ p.1 < 360)
    (hp : ∀ p ∈ pts, ∃ k : ℤ, InBox r.method box lon lat (turned p k)) :
    ∃ s outs, read f (some (box, buf)) files = .ok (some s) ∧ interpolate f r s pts = .ok outs ∧
      List.Forall₂ (fun g row => List.Forall₂ (fun p o => ∀ k : ℤ, InBox r.method box lon lat (turned p k) →
        Meets r.method (patch g) r.scale (turned p k) o) pts row) files outs := by
  obtain ⟨gl, hgl⟩ : ∃ gl, files.getLast? = some gl := by
    cases e : files.getLast? with
    | none => exact absurd (List.getLast?_eq_none_iff.1 e) hfs
    | some gl => exact ⟨gl, rfl⟩
  have hmem : gl ∈ files := List.mem_of_getLast? hgl
  have z : Zone lon lat := by
    have := (hg gl hmem).toZone
    rw [(hax gl hmem).1, (hax gl hmem).2] at this
    exact this
  have h2 := z.two
  have bpos : 0 < buf := by
    have := (hs 0 (by omega)).1
    have := getD_lt z.lon (show 0 < 1 by omega) (by omega)
    simp only [Nat.zero_add] at *
    linarith
  have window : ∀ g ∈ files, ∃ (a b u v : ℕ) (hc' : List (List (Fld K))),
      cropCore g.hc lon lat box.xmin box.xmax box.ymin box.ymax buf =
        .ok (hc', sliceNat lon (a, b), sliceNat lat (u, v)) ∧
      a + 2 ≤ b ∧ b ≤ lon.length ∧ u + 2 ≤ v ∧ v ≤ lat.length ∧
      Shows (sliceNat lon (a, b)) (sliceNat lat (u, v)) hc' (patch g) (0 + a) (0 + u) ∧
      lon.getD a 0 ≤ box.xmin ∧ box.xmax ≤ lon.getD (b - 1) 0 ∧ lat.getD u 0 ≤ box.ymin ∧
      box.ymax ≤ lat.getD (v - 1) 0 ∧
      (box.xmax < lon.getD (lon.length - 1) 0 → box.xmax < lon.getD (b - 1) 0) ∧
      (lat.getD 0 0 < box.ymin → lat.getD u 0 < box.ymin) ∧
      (box.ymax < lat.getD (lat.length - 1) 0 → box.ymax < lat.getD (v - 1) 0) := by
    intro g hgm
    have sh := (hg g hgm).shows
    rw [(hax g hgm).1, (hax g hgm).2] at sh
    exact cropCore_shows sh box.xmin box.xmax box.ymin box.ymax buf bpos x0 xl x1 (fun i hi => (hs i hi).1)
      y0 yl y1 hs'
  obtain ⟨a, b, u, v, hl, ecl, o1, o2, o3, o4, o5, o6, o7, o8, o9, o10, o11, o12⟩ := window gl hmem
  have lx := sliceNat_length lon a b o2
  have ly := sliceNat_length lat u v o4
  obtain ⟨x, ex⟩ : ∃ x, x = sliceNat lon (a, b) := ⟨_, rfl⟩
  obtain ⟨y, ey⟩ : ∃ y, y = sliceNat lat (u, v) := ⟨_, rfl⟩
  rw [← ex] at lx
  rw [← ey] at ly
  have getx : ∀ c : ℕ, a + c < b → x.getD c 0 = lon.getD (a + c) 0 := fun c hc => by
    rw [ex]; exact sliceNat_getD _ _ _ _ _ hc
  have gety : ∀ c : ℕ, u + c < v → y.getD c 0 = lat.getD (u + c) 0 := fun c hc => by
    rw [ey]; exact sliceNat_getD _ _ _ _ _ hc
  have s0 : x.getD 0 0 = lon.getD a 0 := getx 0 (by omega)
  have s1 : x.getD (x.length - 1) 0 = lon.getD (b - 1) 0 := by
    rw [lx, getx _ (by omega)]; congr 1; omega
  have t0 : y.getD 0 0 = lat.getD u 0 := gety 0 (by omega)
  have t1 : y.getD (y.length - 1) 0 = lat.getD (v - 1) 0 := by
    rw [ly, gety _ (by omega)]; congr 1; omega
  have f0 : lon.getD 0 0 ≤ lon.getD a 0 := getD_le z.lon (Nat.zero_le a) (by omega)
  have f1 : lon.getD (b - 1) 0 ≤ lon.getD (lon.length - 1) 0 :=
    getD_le z.lon (show b - 1 ≤ lon.length - 1 by omega) (by omega)
  have zc : Zone x y := by
    refine ⟨by omega, by omega, ?_, ?_, by rw [ex]; exact o5.asc.1, by rw [ey]; exact o5.asc.2⟩
    · rw [s1, s0, getx 1 (by omega)]
      have := (hs a (by omega)).2
      linarith
    · rw [s0, s1]
      rcases z.convention with w | w
      · exact Or.inl ⟨by linarith [w.1], by linarith [w.2]⟩
      · exact Or.inr ⟨by linarith [w.1], by linarith [w.2]⟩
  have hin : ∀ p : K × K, InBox r.method box lon lat p → Inside x y p := by
    rintro p ⟨⟨c1, c2, c3, c4⟩, -⟩
    refine ⟨?_, ?_, ?_, ?_⟩
    · rw [s0]; linarith
    · rw [s1]; linarith
    · rw [t0]; linarith
    · rw [t1]; linarith
  -- every file is cropped to the same axes
  have each : ∀ g ∈ files, ∃ hc', readFile f (some (box, buf)) g = .ok ⟨x, y, hc'⟩ ∧
      ∃ k j : ℤ, Shows x y hc' (patch g) k j := by
    intro g hgm
    obtain ⟨a', b', u', v', hc', ec, -, -, -, -, sh, -⟩ := window g hgm
    have same := cropCore_axes ec ecl
    simp only [Prod.mk.injEq] at same
    obtain ⟨q1, q2⟩ := same
    rw [q1, q2, ← ex, ← ey] at sh ec
    refine ⟨hc', ?_, _, _, sh⟩
    unfold readFile
    simp only
    rw [if_pos hbox, (hax g hgm).1, (hax g hgm).2, Staggered.crop_plain _ _ z.lon h2 x0 xl x1
      (fun _ => z.convention.imp And.left And.right), ec, ok_bind, ok_bind]
    simp only
    rw [zc.step, ok_bind]
    exact zc.extended f hc'
  obtain ⟨gs, egs, hgs⟩ := pyMap_rel (l := files) (f := readFile f (some (box, buf)))
    (R := fun g g' => g'.lon = x ∧ g'.lat = y ∧ ∃ k j : ℤ, Shows x y g'.hc (patch g) k j) (by
      intro g hgm
      obtain ⟨hc', e, sh⟩ := each g hgm
      exact ⟨_, e, rfl, rfl, sh⟩)
  obtain ⟨t, et, lt⟩ := adjust_lands zc hne hw
  have rows : ∀ (fs gs : List (Layer K)), List.Forall₂ (fun g g' : Layer K => g'.lon = x ∧ g'.lat = y ∧
        ∃ k j : ℤ, Shows x y g'.hc (patch g) k j) fs gs →
      ∃ outs, pyMap (fun hc => evaluate f r true x y hc (pts.map fun p => (t p.1, p.2))) (gs.map Layer.hc) = .ok outs ∧
        List.Forall₂ (fun g row => List.Forall₂ (fun p o => ∀ k : ℤ, InBox r.method box lon lat (turned p k) →
          Meets r.method (patch g) r.scale (turned p k) o) pts row) fs outs := by
    intro fs gs h
    induction h with
    | nil => exact ⟨[], rfl, .nil⟩
    | cons hh _ ih =>
      obtain ⟨-, -, k, j, sh⟩ := hh
      obtain ⟨rest, er, hr⟩ := ih
      obtain ⟨row, e, ho⟩ := evaluate_inside sh f r hn true (fun c hc => zc.far c hc)
        (pts.map fun p => (t p.1, p.2)) (by
          intro q hq
          obtain ⟨p, hpm, rfl⟩ := List.mem_map.1 hq
          obtain ⟨k, hk⟩ := hp p hpm
          have land := (lt p hpm).there k (hin _ hk)
          show x.getD 0 0 ≤ (t p.1, p.2).1 ∧ _
          rw [land]
          obtain ⟨i1, i2, i3, i4⟩ := hin _ hk
          refine ⟨i1, i2, i3, i4, fun hb => ?_⟩
          obtain ⟨⟨c1, c2, c3, c4⟩, st⟩ := hk
          obtain ⟨w1, w2, w3⟩ := st hb
          rw [s1, t0, t1]
          exact ⟨lt_of_le_of_lt c2 (o10 w1), lt_of_lt_of_le (o11 w2) c3, lt_of_le_of_lt c4 (o12 w3)⟩)
      refine ⟨row :: rest, ?_, .cons ?_ hr⟩
      · rw [List.map_cons, pyMap, e, er]
      · rw [List.forall₂_map_left_iff] at ho
        refine (forall₂_mem ho).imp fun p o hpo l hl => ?_
        obtain ⟨hpm, hm⟩ := hpo
        rw [← (lt p hpm).there l (hin _ hl)]
        exact hm
  have axes : ∀ (fs gs : List (Layer K)), List.Forall₂ (fun g g' : Layer K => g'.lon = x ∧ g'.lat = y ∧
        ∃ k j : ℤ, Shows x y g'.hc (patch g) k j) fs gs → ∀ g' ∈ gs, g'.lon = x ∧ g'.lat = y := by
    intro fs gs h
    induction h with
    | nil => intro g' hg'; cases hg'
    | cons hh _ ih =>
      intro g' hg'
      rcases List.mem_cons.1 hg' with rfl | hg'
      · exact ⟨hh.1, hh.2.1⟩
      · exact ih g' hg'
  obtain ⟨outs, eo, ho⟩ := rows files gs hgs
  obtain ⟨gl', hgl', lon', lat'⟩ : ∃ gl', gs.getLast? = some gl' ∧ gl'.lon = x ∧ gl'.lat = y := by
    cases e : gs.getLast? with
    | none =>
      have := List.getLast?_eq_none_iff.1 e
      subst this
      cases hgs
      exact absurd rfl hfs
    | some gl' =>
      have hh := axes files gs hgs gl' (List.mem_of_getLast? e)
      exact ⟨gl', rfl, hh.1, hh.2⟩
  refine ⟨⟨gl'.lon, gl'.lat, gs.map Layer.hc⟩, outs, ?_, ?_, ho⟩
  · unfold read
    rw [egs, ok_bind, hgl']
    rfl
  · unfold interpolate
    simp only
    rw [lon', lat', min?_increasing zc.lon zc.two, max?_increasing zc.lon zc.two]
    simp only
    rw [et, ok_bind, zip_lands]
    exact eo

/-! ## Examples -/

def cropRequest (m : Method) (buffer : ℚ) : Request ℚ := ⟨m, true, none, some buffer, fun _ _ _ _ => none, 1⟩

/-- A larger region. -/
def wideFile : Layer ℚ where
  lon := [-40, -20, 0, 20]
  lat := [-10, 10]
  hc := [[⟨0, 0, true⟩, ⟨1, 2, false⟩, ⟨3, 4, false⟩, ⟨0, 0, true⟩],
    [⟨0, 0, true⟩, ⟨5, 6, false⟩, ⟨7, 8, false⟩, ⟨9, 10, false⟩]]

/-- The hypotheses of `C109_cropped_partial` can hold: the first column is cut off. -/
example : ∃ outs, extract fes (cropRequest .bilinear 20) [wideFile] [(1, 0), (5, -5)] = .ok outs ∧
    List.Forall₂ (fun g row => List.Forall₂ (Meets .bilinear (patch g) 1) [(1, 0), (5, -5)] row) [wideFile] outs := by
  refine C109_cropped_partial fes (cropRequest .bilinear 20) rfl rfl (fun _ _ _ _ => rfl) [wideFile] ?_ _
    ⟨(1, 0), by simp, by decide +kernel⟩ ?_
  · intro g hg
    rw [List.mem_singleton] at hg
    subst hg
    refine ⟨⟨⟨?_, ?_, ?_, ?_, ?_, ?_⟩, rfl, ?_⟩, ?_, ?_⟩
    rotate_right 2
    · intro i hi
      have hi' : i < 3 := by
        have : wideFile.lon.length = 4 := rfl
        omega
      exact (by decide +kernel : ∀ i < 3, wideFile.lon.getD (i + 1) 0 - wideFile.lon.getD i 0 ≤ 20) i hi'
    · intro i hi
      have hi' : i < 1 := by
        have : wideFile.lat.length = 2 := rfl
        omega
      exact (by decide +kernel : ∀ i < 1, wideFile.lat.getD (i + 1) 0 - wideFile.lat.getD i 0 ≤ 20) i hi'
    all_goals decide +kernel
  · intro g hg
    rw [List.mem_singleton] at hg
    subst hg
    unfold Written Inside
    decide +kernel

example : extract fes (cropRequest .spline 20) [wideFile] [(-10, 0), (-5, 5)] =
    .ok [[.val 4 5 1, .val (11 / 2) (13 / 2) 1]] := by decide +kernel

/-- The hypotheses of `C109_read_cropped_partial` can hold, for places written in both ways. -/
example : ∃ s outs, read fes (some (⟨-11, 1, -5, 5⟩, 20)) [wideFile] = .ok (some s) ∧
    interpolate fes (request .bilinear) s [(350, 0), (-5, 5)] = .ok outs ∧
    List.Forall₂ (fun g row => List.Forall₂ (fun p o => ∀ k : ℤ,
      InBox .bilinear ⟨-11, 1, -5, 5⟩ [-40, -20, 0, 20] [-10, 10] (turned p k) →
      Meets .bilinear (patch g) 1 (turned p k) o) [(350, 0), (-5, 5)] row) [wideFile] outs := by
  refine C109_read_cropped_partial fes (request .bilinear) (fun _ _ _ _ => rfl) [wideFile] (by simp)
    [-40, -20, 0, 20] [-10, 10] (by intro g hg; rw [List.mem_singleton] at hg; subst hg; exact ⟨rfl, rfl⟩) ?_
    ⟨-11, 1, -5, 5⟩ 20 (by decide +kernel) (by decide +kernel) (by decide +kernel) (by decide +kernel)
    (by decide +kernel) (by decide +kernel) (by decide +kernel) ?_ ?_ _ (by simp) (by decide +kernel) ?_
  · intro g hg
    rw [List.mem_singleton] at hg
    subst hg
    refine ⟨⟨?_, ?_, ?_, ?_, ?_, ?_⟩, rfl, ?_⟩ <;> decide +kernel
  · intro i hi
    have hi' : i < 3 := by simp at hi; omega
    exact (by decide +kernel : ∀ i < 3, ([-40, -20, 0, 20] : List ℚ).getD (i + 1) 0 - ([-40, -20, 0, 20] : List ℚ).getD i 0 ≤ 20 ∧
      (20 : ℚ) - -40 + (([-40, -20, 0, 20] : List ℚ).getD (i + 1) 0 - ([-40, -20, 0, 20] : List ℚ).getD i 0) ≤ 360 - 1 / 100) i hi'
  · intro i hi
    have hi' : i < 1 := by simp at hi; omega
    exact (by decide +kernel : ∀ i < 1, ([-10, 10] : List ℚ).getD (i + 1) 0 - ([-10, 10] : List ℚ).getD i 0 ≤ 20) i hi'
  · intro p hp
    simp only [List.mem_cons, List.not_mem_nil, or_false] at hp
    rcases hp with rfl | rfl
    · exact ⟨-1, by unfold InBox turned; decide +kernel⟩
    · exact ⟨0, by unfold InBox turned; decide +kernel⟩

/-- A region of narrow columns. -/
def narrowFile : Layer ℚ where
  lon := [-30, -20, -10, 0, 10]
  lat := [-10, 10]
  hc := [[⟨0, 1, false⟩, ⟨2, 3, false⟩, ⟨4, 5, false⟩, ⟨6, 7, false⟩, ⟨8, 9, false⟩],
    [⟨2, 3, false⟩, ⟨4, 5, false⟩, ⟨6, 7, false⟩, ⟨8, 9, false⟩, ⟨10, 11, false⟩]]

/-- Not so with cropping for other batches: a place in the region, at 5 degrees west, gets nothing if its
longitude is written in the other convention; a batch of places outside is an error. -/
theorem C109_cropped_false : extract fes (cropRequest .spline 20) [narrowFile] [(-5, 0)] = .ok [[.val 6 7 1]] ∧
    extract fes (cropRequest .spline 20) [narrowFile] [(355, 0)] = .ok [[.masked]] ∧
    extract fes (request .spline) [narrowFile] [(355, 0)] = .ok [[.val 6 7 1]] ∧
    extract fes (cropRequest .linear 20) [narrowFile] [(-5, 0)] = .ok [[.val 6 7 1]] ∧
    extract fes (cropRequest .linear 20) [narrowFile] [(355, 0)] = .ok [[.masked]] ∧
    extract fes (cropRequest .linear 20) [narrowFile] [(60, 0)] = .error .indexError ∧
    extract fes (request .linear) [narrowFile] [(60, 0)] = .ok [[.masked]] := by
  refine ⟨?_, ?_, ?_, ?_, ?_, ?_, ?_⟩ <;> decide +kernel

end Verif.Extract
