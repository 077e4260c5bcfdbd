import Verif.Model.TMD3
import Verif.Spec.TMD3
import Verif.Props.ExtractOTIS
import Verif.Props.OTISGrid
/-!
C85: constants extracted from TMD3 files.
-/
namespace Verif.TMD3
open Verif Verif.Spec Verif.Extract Verif.Staggered

variable {K : Type} [Field K] [LinearOrder K] [IsStrictOrderedRing K]

/-- The grid in a file: coordinates in order, from west to east and from north to south, and matrices of their
shape. -/
structure Regular (f : File K) : Prop where
  x : f.x.Pairwise (· < ·)
  y : f.y.Pairwise (· > ·)
  two : 2 ≤ f.x.length
  two' : 2 ≤ f.y.length
  wct : CGrid.Shape f.wct f.y.length f.x.length
  mask : CGrid.Shape f.mask f.y.length f.x.length
  flexure : CGrid.Shape f.flexure f.y.length f.x.length

/-- Column of a matrix for a number of a meridian: in a region the number itself, around the globe modulo the number of
columns. -/
def column (f : File K) (glob : Bool) (k : ℤ) : ℕ := if glob then (k % f.x.length).toNat else k.toNat

/-- The sea of a file. -/
def sea (f : File K) (glob : Bool) (a : K) : Sea K where
  lon k := if glob then a + k * (360 / (f.x.length : K)) else f.x.getD k.toNat 0
  lat := fromSouth f.y.length f.y 0
  cols k := if glob then True else 0 ≤ k ∧ k < f.x.length
  rows j := 0 ≤ j ∧ j < f.y.length
  depth k j := (fromSouth f.y.length f.wct [] j).getD (column f glob k) 0
  sea k j := decide ((fromSouth f.y.length f.mask [] j).getD (column f glob k) 0 ≠ 0)
  west k := if glob then k - 1 else max (k - 1) 0
  south j := max (j - 1) 0
  dx := if glob then 360 / (f.x.length : K) else f.x.getD 1 0 - f.x.getD 0 0
  dy := fromSouth f.y.length f.y 0 1 - fromSouth f.y.length f.y 0 0

/-- The elevations of constituent `ic` in a file, with the percentages of the grid file if flexure is asked for. -/
def elevation (g : File K) (glob flexure : Bool) (re im : List (List K)) (k j : ℤ) : Option (K × K) :=
  tmdConstant ((fromSouth g.y.length re [] j).getD (column g glob k) 0)
    ((fromSouth g.y.length im [] j).getD (column g glob k) 0)
    (if flexure then some ((fromSouth g.y.length g.flexure [] j).getD (column g glob k) 0) else none)

theorem fromSouth_eq {α : Type} {ny : ℕ} (m : List α) (d : α) (h : m.length = ny) (j : ℤ) :
    fromSouth ny m d j = m.reverse.getD j.toNat d := by
  unfold fromSouth
  rw [List.getD_eq_getElem?_getD, List.getD_eq_getElem?_getD]
  by_cases hj : j.toNat < ny
  · rw [if_pos hj, List.getElem?_reverse (by omega), h]
  · rw [if_neg hj, List.getElem?_eq_none (by rw [List.length_reverse]; omega)]
    rfl

theorem Regular.rect {f : File K} (h : Regular f) : Rect (site f) := by
  have len : (site f).y.length = f.y.length := List.length_reverse
  refine ⟨⟨h.x, List.pairwise_reverse.2 h.y⟩, h.two, by rw [len]; exact h.two', ?_, ?_⟩
  · rw [len]
    exact ⟨by rw [← h.wct.1]; exact List.length_reverse, fun r hr => h.wct.2 r (List.mem_reverse.1 hr)⟩
  · rw [len]
    refine ⟨by rw [← h.mask.1]; simp [site], fun r hr => ?_⟩
    obtain ⟨q, hq, rfl⟩ := List.mem_map.1 hr
    rw [List.length_map]
    exact h.mask.2 q (List.mem_reverse.1 hq)

theorem mask_getD (m : List (List ℤ)) (j i : ℕ) :
    ((m.map fun r => r.map fun v => decide (v ≠ 0)).getD j []).getD i false =
      decide ((m.getD j []).getD i 0 ≠ 0) := by
  rw [List.getD_eq_getElem?_getD, List.getD_eq_getElem?_getD, List.getD_eq_getElem?_getD, List.getD_eq_getElem?_getD,
    List.getElem?_map]
  cases m[j]? with
  | none => simp
  | some r =>
    rw [Option.map_some, Option.getD_some, Option.getD_some, List.getElem?_map]
    cases r[i]? <;> simp

theorem region_sea {f : File K} (h : Regular f) : region (site f) = sea f false 0 := by
  have e1 : ∀ j, fromSouth f.y.length f.y 0 j = f.y.reverse.getD j.toNat 0 := fromSouth_eq _ _ rfl
  have e2 : ∀ j, fromSouth f.y.length f.wct [] j = f.wct.reverse.getD j.toNat [] := fromSouth_eq _ _ h.wct.1
  have e3 : ∀ j, fromSouth f.y.length f.mask [] j = f.mask.reverse.getD j.toNat [] := fromSouth_eq _ _ h.mask.1
  unfold region sea
  simp only [Bool.false_eq_true, if_false, e1, e2, e3, column, site, List.length_reverse, mask_getD, Int.toNat_one,
    Int.toNat_zero]
  congr 1
  funext j
  exact (e1 j).symm

theorem world_sea {f : File K} (h : Regular f) (a : K) : world (site f) a = sea f true a := by
  have e1 : ∀ j, fromSouth f.y.length f.y 0 j = f.y.reverse.getD j.toNat 0 := fromSouth_eq _ _ rfl
  have e2 : ∀ j, fromSouth f.y.length f.wct [] j = f.wct.reverse.getD j.toNat [] := fromSouth_eq _ _ h.wct.1
  have e3 : ∀ j, fromSouth f.y.length f.mask [] j = f.mask.reverse.getD j.toNat [] := fromSouth_eq _ _ h.mask.1
  unfold world sea
  simp only [if_true, e1, e2, e3, column, site, List.length_reverse, mask_getD, Int.toNat_one, Int.toNat_zero]
  congr 1
  funext j
  exact (e1 j).symm

/-- The matrix of the elevations of a constituent. -/
def matrix (g : File K) (flexure : Bool) (re im : List (List K)) : List (List (Fld K)) :=
  let hc := zipMatrix (fun a b => (⟨a, -b, false⟩ : Fld K)) re.reverse im.reverse
  if flexure = true then flexed (scale g) hc else hc

theorem reverse_shape {α : Type} {m : List (List α)} {ny nx : ℕ} (h : CGrid.Shape m ny nx) :
    CGrid.Shape m.reverse ny nx :=
  ⟨by rw [List.length_reverse, h.1], fun r hr => h.2 r (List.mem_reverse.1 hr)⟩

theorem matrix_shape {g : File K} (h : Regular g) (flexure : Bool) {re im : List (List K)}
    (hr : CGrid.Shape re g.y.length g.x.length) (hi : CGrid.Shape im g.y.length g.x.length) :
    CGrid.Shape (matrix g flexure re im) g.y.length g.x.length := by
  have h1 := zipMatrix_shape (fun a b => (⟨a, -b, false⟩ : Fld K)) (reverse_shape hr) (reverse_shape hi)
  unfold matrix
  cases flexure with
  | false => exact h1
  | true => exact zipMatrix_shape _ h1 (CGrid.shape_map _ _ _ _ (reverse_shape h.flexure))

theorem matrix_value {g : File K} (h : Regular g) (glob flexure : Bool) {re im : List (List K)}
    (hr : CGrid.Shape re g.y.length g.x.length) (hi : CGrid.Shape im g.y.length g.x.length) {k j : ℤ}
    (hj : j.toNat < g.y.length) (hk : column g glob k < g.x.length) :
    (Extract.entry (matrix g flexure re im) j.toNat (column g glob k)).number =
      elevation g glob flexure re im k j := by
  have e0 : CGrid.entry (zipMatrix (fun a b => (⟨a, -b, false⟩ : Fld K)) re.reverse im.reverse) j.toNat
      (column g glob k) = some ⟨(fromSouth g.y.length re [] j).getD (column g glob k) 0,
        -(fromSouth g.y.length im [] j).getD (column g glob k) 0, false⟩ := by
    rw [zipMatrix_entry, entry_some (reverse_shape hr) hj hk 0, entry_some (reverse_shape hi) hj hk 0,
      fromSouth_eq _ _ hr.1, fromSouth_eq _ _ hi.1]
    rfl
  unfold elevation tmdConstant matrix
  cases flexure with
  | false =>
    simp only [Bool.false_eq_true, if_false]
    rw [entry_getD, e0]
    rfl
  | true =>
    simp only [if_true]
    rw [entry_getD, flexed, zipMatrix_entry, e0, scale, CGrid.entry_map, entry_some (reverse_shape h.flexure) hj hk 0,
      fromSouth_eq g.flexure _ h.flexure.1]
    generalize ((g.flexure.reverse.getD j.toNat []).getD (column g glob k) 0) = w
    by_cases hw : w = 0
    · simp [Fld.number, hw]
    · have : w / 100 ≠ 0 := div_ne_zero hw (by norm_num)
      simp [Fld.number, hw, mul_div_assoc, neg_div]

theorem wet_range {g : File K} (h : Regular g) {glob : Bool} {a : K} {k j : ℤ}
    (hw : (sea g glob a).Wet .elevation k j) : j.toNat < g.y.length ∧ column g glob k < g.x.length := by
  have hd : (fromSouth g.y.length g.wct [] j).getD (column g glob k) 0 ≠ 0 := hw.2
  rw [fromSouth_eq _ _ h.wct.1] at hd
  constructor
  · by_contra hj
    apply hd
    rw [List.getD_eq_getElem?_getD (l := g.wct.reverse), List.getElem?_eq_none (by
      rw [List.length_reverse, h.wct.1]; omega)]
    rfl
  · by_contra hk
    apply hd
    rw [List.getD_eq_getElem?_getD, List.getD_eq_getElem?_getD]
    cases e : g.wct.reverse[j.toNat]? with
    | none => rfl
    | some r =>
      have := h.wct.2 r (List.mem_reverse.1 (List.mem_of_getElem? e))
      rw [Option.getD_some, List.getElem?_eq_none (by omega)]
      rfl

theorem chart_region {g : File K} (h : Regular g) (flexure : Bool) {re im : List (List K)}
    (hr : CGrid.Shape re g.y.length g.x.length) (hi : CGrid.Shape im g.y.length g.x.length) :
    (region (site g)).chart .elevation (regionValue (matrix g flexure re im)) =
      (sea g false 0).chart .elevation (elevation g false flexure re im) := by
  rw [region_sea h]
  unfold Sea.chart
  congr 1
  funext k j
  by_cases hw : (sea g false 0).Wet .elevation k j
  · rw [if_pos hw, if_pos hw]
    obtain ⟨h1, h2⟩ := wet_range h hw
    exact matrix_value h false flexure hr hi h1 h2
  · rw [if_neg hw, if_neg hw]

theorem chart_world {g : File K} (h : Regular g) (a : K) (flexure : Bool) {re im : List (List K)}
    (hr : CGrid.Shape re g.y.length g.x.length) (hi : CGrid.Shape im g.y.length g.x.length) :
    (world (site g) a).chart .elevation (worldValue (site g) (matrix g flexure re im)) =
      (sea g true a).chart .elevation (elevation g true flexure re im) := by
  rw [world_sea h]
  unfold Sea.chart
  congr 1
  funext k j
  by_cases hw : (sea g true a).Wet .elevation k j
  · rw [if_pos hw, if_pos hw]
    obtain ⟨h1, h2⟩ := wet_range h hw
    exact matrix_value h true flexure hr hi h1 h2
  · rw [if_neg hw, if_neg hw]

/-- A file with elevations of as many constituents as it names, on the grid of `g`. -/
structure Elevations (g f : File K) (re im : List (List (List K))) : Prop where
  real : f.vars.lookup "hRe" = some re
  imag : f.vars.lookup "hIm" = some im
  many : re.length = (names f).length
  many' : im.length = (names f).length
  shape : ∀ m ∈ re, CGrid.Shape m g.y.length g.x.length
  shape' : ∀ m ∈ im, CGrid.Shape m g.y.length g.x.length

theorem constants_ok {g f : File K} {re im : List (List (List K))} (hf : Elevations g f re im) (flexure : Bool) :
    pyMap (constants g f .z flexure) (List.range (names f).length) =
      .ok ((re.zip im).map fun p => matrix g flexure p.1 p.2) := by
  have h1 := hf.many
  have h2 := hf.many'
  have e : ((re.zip im).map fun p => matrix g flexure p.1 p.2) =
      (List.range (names f).length).map fun ic => matrix g flexure (re.getD ic []) (im.getD ic []) := by
    refine List.ext_getElem (by simp [h1, h2]) fun i hi hi' => ?_
    rw [List.length_map, List.length_range] at hi'
    simp [List.getD_eq_getElem?_getD, List.getElem?_eq_getElem (show i < re.length by omega),
      List.getElem?_eq_getElem (show i < im.length by omega)]
  rw [e]
  refine pyMap_ok_of_forall fun ic hic => ?_
  have hic := List.mem_range.1 hic
  have s1 : slab f (letter .z ++ "Re") ic = .ok (re.getD ic []).reverse := by
    rw [slab, show letter .z ++ "Re" = "hRe" from rfl, hf.real]
    simp only [List.getElem?_eq_getElem (show ic < re.length by omega), List.getD_eq_getElem?_getD, Option.getD_some]
  have s2 : slab f (letter .z ++ "Im") ic = .ok (im.getD ic []).reverse := by
    rw [slab, show letter .z ++ "Im" = "hIm" from rfl, hf.imag]
    simp only [List.getElem?_eq_getElem (show ic < im.length by omega), List.getD_eq_getElem?_getD, Option.getD_some]
  rw [constants, field, s1, ok_bind, s2, ok_bind, ok_bind]
  cases flexure <;> rfl

/-- `extract_constants` (TMD3) in a region: every elevation is the conjugate of the constant in the file at that place,
times the flexure if it is asked for, and the names come in the order of the file. -/
theorem C85_region_partial {g f : File K} (h : Regular g) {re im : List (List (List K))} (hf : Elevations g f re im)
    (r : Ask K) (hz : r.quantity = ⟨.z, false⟩) (hr : r.crop = false)
    (hg : r.geographic = false ∨ Interp.isclose (g.x.getD (g.x.length - 1) 0 - g.x.getD 0 0)
      (360 - (g.x.getD 1 0 - g.x.getD 0 0)) = false)
    (hn : ∀ x y hc q, r.near x y hc q = none)
    (far : r.method = .bilinear → ∀ c : ℕ, c < g.x.length → |g.x.getD c 0| ≤ 720)
    (flexure : Bool) (hv : ∀ p ∈ re.zip im, Complete r.method false (sea g false 0) .elevation
      (elevation g false flexure p.1 p.2))
    (pts : List (K × K)) (hne : pts ≠ []) (hx : ∀ p ∈ pts, Within r.method .z g.x p)
    (hb : ∀ p ∈ pts, Band r.method .z g.y.reverse p) :
    ∃ ds outs, extract r flexure g f pts = .ok (names f, ds, outs) ∧
      List.Forall₂ (Sounds r.method ((sea g false 0).depths .elevation)) pts ds ∧
      List.Forall₂ (fun p os => List.Forall₂ (Agrees r.method false
        ((sea g false 0).chart .elevation (elevation g false flexure p.1 p.2))
        ((sea g false 0).depths .elevation)) pts os) (re.zip im) outs := by
  have len : (site g).y.length = g.y.length := List.length_reverse
  obtain ⟨ds, outs, e, h1, h2⟩ := C73_region_partial h.rect r hr hg hn (by rw [hz]; simp) (by rw [hz]; intro c; cases c)
    (by
      intro hm c hc
      rw [hz]
      simpa [half, site] using far hm c hc)
    ((re.zip im).map fun p => matrix g flexure p.1 p.2) (by
      intro hc hh
      obtain ⟨p, hp, rfl⟩ := List.mem_map.1 hh
      have s1 := hf.shape _ (List.of_mem_zip hp).1
      have s2 := hf.shape' _ (List.of_mem_zip hp).2
      refine ⟨by rw [len]; exact matrix_shape h flexure s1 s2, ?_⟩
      have c := hv p hp
      rw [region_sea h, hz]
      refine ⟨fun a k j hw => ?_, fun a k j hw => ?_⟩
      · obtain ⟨w1, w2⟩ := wet_range h hw
        rw [show regionValue (matrix g flexure p.1 p.2) k j = elevation g false flexure p.1 p.2 k j from
          matrix_value h false flexure s1 s2 w1 w2]
        exact c.gaps a k j hw
      · obtain ⟨w1, w2⟩ := wet_range h hw
        rw [show regionValue (matrix g flexure p.1 p.2) k j = elevation g false flexure p.1 p.2 k j from
          matrix_value h false flexure s1 s2 w1 w2]
        exact c.zeros a k j hw)
    pts hne (by rw [hz]; exact hx) (by rw [hz]; exact hb)
  refine ⟨ds, outs, ?_, ?_, ?_⟩
  · rw [extract, hz, constants_ok hf flexure, ok_bind, e, ok_bind]
  · rw [hz, region_sea h] at h1
    exact h1
  · rw [List.forall₂_map_left_iff] at h2
    refine (List.forall₂_iff_zip.2 ⟨h2.length_eq, fun {p os} hp => ?_⟩)
    have k := (List.forall₂_iff_zip.1 h2).2 hp
    have hp' := (List.of_mem_zip hp).1
    have s1 := hf.shape _ (List.of_mem_zip hp').1
    have s2 := hf.shape' _ (List.of_mem_zip hp').2
    rw [hz] at k
    rw [show (region (site g)).chart (Node.points .z) (regionValue (matrix g flexure p.1 p.2)) = _ from
      chart_region h flexure s1 s2, region_sea h] at k
    exact k

/-- `extract_constants` (TMD3) of currents: the transports or currents are computed from the variables of the direction
that is asked for, conjugated and with the rows from south to north, and flexure makes no difference. -/
theorem C85_direction {g f : File K} {re im : List (List (List K))} (r : Ask K)
    (hd : (r.quantity.node = .u ∧ f.vars.lookup "URe" = some re ∧ f.vars.lookup "UIm" = some im) ∨
      (r.quantity.node = .v ∧ f.vars.lookup "VRe" = some re ∧ f.vars.lookup "VIm" = some im))
    (h1 : re.length = (names f).length) (h2 : im.length = (names f).length) (flexure : Bool) (pts : List (K × K)) :
    extract r flexure g f pts =
      (Staggered.extract r (site g) ((re.zip im).map fun p =>
        zipMatrix (fun a b => (⟨a, -b, false⟩ : Fld K)) p.1.reverse p.2.reverse) pts).map
          fun o => (names f, o.1, o.2) := by
  have e : ((re.zip im).map fun p => zipMatrix (fun a b => (⟨a, -b, false⟩ : Fld K)) p.1.reverse p.2.reverse) =
      (List.range (names f).length).map fun ic =>
        zipMatrix (fun a b => (⟨a, -b, false⟩ : Fld K)) (re.getD ic []).reverse (im.getD ic []).reverse := by
    refine List.ext_getElem (by simp [h1, h2]) fun i hi hi' => ?_
    rw [List.length_map, List.length_range] at hi'
    simp [List.getD_eq_getElem?_getD, List.getElem?_eq_getElem (show i < re.length by omega),
      List.getElem?_eq_getElem (show i < im.length by omega)]
  have k : pyMap (constants g f r.quantity.node flexure) (List.range (names f).length) =
      .ok ((re.zip im).map fun p =>
        zipMatrix (fun a b => (⟨a, -b, false⟩ : Fld K)) p.1.reverse p.2.reverse) := by
    rw [e]
    refine pyMap_ok_of_forall fun ic hic => ?_
    have hic := List.mem_range.1 hic
    have g1 := List.getElem?_eq_getElem (show ic < re.length by omega)
    have g2 := List.getElem?_eq_getElem (show ic < im.length by omega)
    rcases hd with ⟨hd, l1, l2⟩ | ⟨hd, l1, l2⟩
    · have s1 : slab f (letter .u ++ "Re") ic = .ok (re.getD ic []).reverse := by
        rw [slab, show letter .u ++ "Re" = "URe" from rfl, l1]
        simp only [g1, List.getD_eq_getElem?_getD, Option.getD_some]
      have s2 : slab f (letter .u ++ "Im") ic = .ok (im.getD ic []).reverse := by
        rw [slab, show letter .u ++ "Im" = "UIm" from rfl, l2]
        simp only [g2, List.getD_eq_getElem?_getD, Option.getD_some]
      rw [hd, constants, field, s1, ok_bind, s2, ok_bind, ok_bind, if_neg (by simp)]
    · have s1 : slab f (letter .v ++ "Re") ic = .ok (re.getD ic []).reverse := by
        rw [slab, show letter .v ++ "Re" = "VRe" from rfl, l1]
        simp only [g1, List.getD_eq_getElem?_getD, Option.getD_some]
      have s2 : slab f (letter .v ++ "Im") ic = .ok (im.getD ic []).reverse := by
        rw [slab, show letter .v ++ "Im" = "VIm" from rfl, l2]
        simp only [g2, List.getD_eq_getElem?_getD, Option.getD_some]
      rw [hd, constants, field, s1, ok_bind, s2, ok_bind, ok_bind, if_neg (by simp)]
  rw [extract, k, ok_bind]
  cases Staggered.extract r (site g) _ pts <;> rfl

/-- The same for a file that goes around the globe and a place in either convention of longitudes. -/
theorem C85_global {g f : File K} (h : Regular g) {re im : List (List (List K))} (hf : Elevations g f re im)
    (three : 3 ≤ g.x.length) (a : K) (lon : g.x = uniform a (360 / (g.x.length : K)) g.x.length)
    (r : Ask K) (hz : r.quantity = ⟨.z, false⟩) (hr : r.crop = false) (hg : r.geographic = true)
    (hn : ∀ x y hc q, r.near x y hc q = none)
    (start : (0 ≤ a ∧ a ≤ 360 / (g.x.length : K)) ∨ (-180 ≤ a ∧ a ≤ -180 + 360 / (g.x.length : K)))
    (flexure : Bool) (hv : ∀ p ∈ re.zip im, Complete r.method false (sea g true a) .elevation
      (elevation g true flexure p.1 p.2))
    (p : K × K) (hs : Span r.method p) (hb : Band r.method .z g.y.reverse p) :
    ∃ d outs, extract r flexure g f [p] = .ok (names f, [d], outs) ∧
      Sounds r.method ((sea g true a).depths .elevation) p d ∧
      List.Forall₂ (fun q os => ∃ o, os = [o] ∧ Agrees r.method false
        ((sea g true a).chart .elevation (elevation g true flexure q.1 q.2))
        ((sea g true a).depths .elevation) p o) (re.zip im) outs := by
  have len : (site g).y.length = g.y.length := List.length_reverse
  have ar : Around (site g) a := { toRect := h.rect, three := three, lon := lon }
  obtain ⟨ds, outs, e, h1, h2⟩ := C73_place ar r hg hr hn (by rw [hz]; simp)
    (by rw [hz]; simpa [half, site] using start)
    ((re.zip im).map fun p => matrix g flexure p.1 p.2) (by
      intro hc hh
      obtain ⟨q, hq, rfl⟩ := List.mem_map.1 hh
      have s1 := hf.shape _ (List.of_mem_zip hq).1
      have s2 := hf.shape' _ (List.of_mem_zip hq).2
      refine ⟨by rw [len]; exact matrix_shape h flexure s1 s2, ?_⟩
      have c := hv q hq
      rw [world_sea h, hz]
      refine ⟨fun b k j hw => ?_, fun b k j hw => ?_⟩
      · obtain ⟨w1, w2⟩ := wet_range h hw
        rw [show worldValue (site g) (matrix g flexure q.1 q.2) k j = elevation g true flexure q.1 q.2 k j from
          matrix_value h true flexure s1 s2 w1 w2]
        exact c.gaps b k j hw
      · obtain ⟨w1, w2⟩ := wet_range h hw
        rw [show worldValue (site g) (matrix g flexure q.1 q.2) k j = elevation g true flexure q.1 q.2 k j from
          matrix_value h true flexure s1 s2 w1 w2]
        exact c.zeros b k j hw)
    p hs (by rw [hz]; exact hb)
  refine ⟨ds, outs, ?_, ?_, ?_⟩
  · rw [extract, hz, constants_ok hf flexure, ok_bind, e, ok_bind]
  · rw [hz, world_sea h] at h1
    exact h1
  · rw [List.forall₂_map_left_iff] at h2
    refine (List.forall₂_iff_zip.2 ⟨h2.length_eq, fun {q os} hq => ?_⟩)
    have k := (List.forall₂_iff_zip.1 h2).2 hq
    have hq' := (List.of_mem_zip hq).1
    have s1 := hf.shape _ (List.of_mem_zip hq').1
    have s2 := hf.shape' _ (List.of_mem_zip hq').2
    rw [hz] at k
    rw [show (world (site g) a).chart (Node.points .z) (worldValue (site g) (matrix g flexure q.1 q.2)) = _ from
      chart_world h a flexure s1 s2, world_sea h] at k
    exact k

/-- The names are the words of the attribute, in their order. -/
theorem C85_names (l : List (List UInt8)) (h : ∀ w ∈ l, w ≠ [] ∧ ∀ b ∈ w, OTIS.isSpace b = false) (f : File K)
    (hf : f.order = List.intercalate [32] l) : names f = l := by
  unfold names
  rw [hf]
  clear hf f
  induction l with
  | nil => rfl
  | cons w t ih =>
    obtain ⟨h1, h2⟩ := h w (by simp)
    have ih := ih fun w' hw => h w' (List.mem_cons_of_mem _ hw)
    cases t with
    | nil =>
      have := OTIS.splitWords_word w [] [] h2
      rw [List.append_nil, List.append_nil] at this
      rw [show List.intercalate [32] [w] = w by simp [List.intercalate], this]
      simp [OTIS.splitWords, h1]
    | cons v u =>
      rw [show List.intercalate [32] (w :: v :: u) = w ++ (List.replicate 1 32 ++ List.intercalate [32] (v :: u)) by
        simp [List.intercalate], OTIS.splitWords_word w [] _ h2, List.append_nil,
        OTIS.splitWords_pad _ (by simpa using h1) 1 (by omega), List.reverse_reverse, ih]

/-! ## Examples and limits -/

/-- A small file: three columns and three rows, 30 m of water, the ice follows none of the tide in the first column, half
of it in the second and all of it in the third. -/
def bay : File ℚ where
  x := [0, 1, 2]
  y := [2, 1, 0]
  wct := [[30, 30, 30], [30, 30, 30], [30, 30, 30]]
  mask := [[1, 1, 1], [1, 1, 1], [1, 1, 1]]
  flexure := [[0, 50, 100], [0, 50, 100], [0, 50, 100]]
  order := [109, 50, 32, 115, 50]
  vars := [("hRe", [[[1, 2, 3], [4, 5, 6], [7, 8, 9]], [[1, 1, 1], [1, 1, 1], [1, 1, 1]]]),
    ("hIm", [[[1, 0, 0], [0, 0, 0], [0, 0, 1]], [[2, 2, 2], [2, 2, 2], [2, 2, 2]]]),
    ("URe", [[[1, 2, 3], [4, 5, 6], [7, 8, 9]], [[1, 1, 1], [1, 1, 1], [1, 1, 1]]]),
    ("UIm", [[[0, 0, 0], [0, 0, 0], [0, 0, 0]], [[2, 2, 2], [2, 2, 2], [2, 2, 2]]])]

/-- Ask in projected coordinates. -/
def askFor (node : Node) (m : Method) : Ask ℚ :=
  ⟨⟨node, false⟩, false, m, false, none, none, fun _ _ _ _ => none⟩

/-- The first row in the file is the northern one and numbers are conjugated. -/
example : extract (askFor .z .spline) false bay bay [(0, 2), (3 / 2, 1 / 2), (2, 0)] =
    .ok ([[109, 50], [115, 50]], [some 30, some 30, some 30],
      [[.val 1 (-1) 1, .val 7 (-1 / 4) 1, .val 9 (-1) 1], [.val 1 (-2) 1, .val 1 (-2) 1, .val 1 (-2) 1]]) := by
  decide +kernel

/-- With flexure, and masked next to the first column. -/
example : extract (askFor .z .spline) true bay bay [(1 / 2, 2), (1, 1), (2, 0)] =
    .ok ([[109, 50], [115, 50]], [some 30, some 30, some 30],
      [[.masked, .val (5 / 2) 0 1, .val 9 (-1) 1], [.masked, .val (1 / 2) (-1) 1, .val 1 (-2) 1]]) := by
  decide +kernel

/-- With `'linear'` the tide is undamped where the ice follows none of it: the constant in the first column
is the full one, although that in the next column is half of the one in the file. -/
theorem C85_grounded_false : extract (askFor .z .linear) true bay bay [(0, 2), (1, 2)] =
    .ok ([[109, 50], [115, 50]], [some 30, some 30],
      [[.val 1 (-1) 1, .val 1 0 1], [.val 1 (-2) 1, .val (1 / 2) (-1) 1]]) := by
  decide +kernel

/-- Transports are in the file at the same coordinates as elevations, but are taken for those half a step to the west: at
a point of the file the mean of the transports there and east of it is returned. -/
theorem C85_currents_false : extract (askFor .u .spline) false bay bay [(1, 1)] =
    .ok ([[109, 50], [115, 50]], [some 30], [[.val (11 / 2) 0 1], [.val 1 (-2) 1]]) := by
  decide +kernel

theorem bay_regular : Regular bay := by
  refine ⟨by decide +kernel, by decide +kernel, by decide, by decide, ⟨rfl, ?_⟩, ⟨rfl, ?_⟩, ⟨rfl, ?_⟩⟩ <;>
    decide +kernel

/-- The hypotheses of `C85_region_partial` hold for the example with splines. -/
example (flexure : Bool) : ∃ ds outs,
    extract (askFor .z .spline) flexure bay bay [(0, 2), (3 / 2, 1 / 2)] = .ok (names bay, ds, outs) := by
  obtain ⟨ds, outs, e, -⟩ := C85_region_partial bay_regular
    (re := [[[1, 2, 3], [4, 5, 6], [7, 8, 9]], [[1, 1, 1], [1, 1, 1], [1, 1, 1]]])
    (im := [[[1, 0, 0], [0, 0, 0], [0, 0, 1]], [[2, 2, 2], [2, 2, 2], [2, 2, 2]]]) (f := bay)
    ⟨rfl, rfl, by decide, by decide, by simp [CGrid.Shape, bay], by simp [CGrid.Shape, bay]⟩ (askFor .z .spline)
    rfl rfl (Or.inl rfl) (fun _ _ _ _ => rfl) (fun e => by cases e) flexure
    (fun p _ => ⟨fun e => by rcases e with e | e <;> simp [askFor] at e, fun e => by simp [askFor] at e⟩)
    [(0, 2), (3 / 2, 1 / 2)] (by simp)
    (by
      intro p hp
      simp only [List.mem_cons, List.not_mem_nil, or_false] at hp
      rcases hp with rfl | rfl <;>
        exact ⟨by simp [bay]; try norm_num, by simp [bay, half]; try norm_num, fun e => by simp [askFor] at e⟩)
    (by
      intro p hp
      simp only [List.mem_cons, List.not_mem_nil, or_false] at hp
      rcases hp with rfl | rfl <;>
        exact ⟨by simp [bay]; try norm_num, by simp [bay, low]; try norm_num, fun e => by simp [askFor] at e⟩)
  exact ⟨ds, outs, e⟩

end Verif.TMD3
