import Verif.Model.Masks
import Verif.Spec.Domain
import Verif.Props.Extract
/-! C80: the mask of a tide model. -/
namespace Verif.Masks
open Verif Verif.Spec Verif.Extract

variable {K : Type} [Field K] [LinearOrder K] [IsStrictOrderedRing K]

/-- A regular grid. -/
structure Regular (g : Grid K) : Prop where
  asc : Ascending g.x g.y
  two : 2 ≤ g.x.length
  two' : 2 ≤ g.y.length
  height : g.mz.length = g.y.length
  width : ∀ r ∈ g.mz, r.length = g.x.length

/-- Whether a point of the grid has no value. -/
def Grid.land (g : Grid K) (j i : ℕ) : Bool := (g.mz.getD j []).getD i true

/-- On an increasing axis the nodes that count are the ends of the cell with a weight that is not zero. -/
theorem reaches_iff {x : List K} (h : x.Pairwise (· < ·)) {c : ℕ} {t q : K} (hc : c + 1 < x.length)
    (t0 : 0 ≤ t) (t1 : t ≤ 1) (e : q = (1 - t) * x.getD c 0 + t * x.getD (c + 1) 0) (i : ℕ) :
    Reaches x i q ↔ (i = c ∧ t ≠ 1) ∨ (i = c + 1 ∧ t ≠ 0) := by
  have inc := ofList_increasing h (by omega)
  have st : x.getD c 0 < x.getD (c + 1) 0 := inc.step c hc
  have lt : ∀ {i j : ℕ}, i < j → j < x.length → x.getD i 0 < x.getD j 0 := fun {i j} a b => inc.lt a b
  have le : ∀ {i j : ℕ}, i ≤ j → j < x.length → x.getD i 0 ≤ x.getD j 0 := fun {i j} a b => inc.le a b
  have q1 : x.getD c 0 ≤ q := by rw [e]; nlinarith
  have q2 : q ≤ x.getD (c + 1) 0 := by rw [e]; nlinarith
  have s1 : t ≠ 1 ↔ q < x.getD (c + 1) 0 := by
    constructor
    · intro g
      have : t < 1 := lt_of_le_of_ne t1 g
      rw [e]; nlinarith
    · rintro g rfl
      rw [e] at g; simp at g
  have s0 : t ≠ 0 ↔ x.getD c 0 < q := by
    constructor
    · intro g
      have : 0 < t := lt_of_le_of_ne t0 (Ne.symm g)
      rw [e]; nlinarith
    · rintro g rfl
      rw [e] at g; simp at g
  rw [s1, s0]
  unfold Reaches
  constructor
  · rintro ⟨i0, i1, i2⟩
    have a1 : c ≤ i := by
      by_contra hn
      have : i + 1 ≤ c := by omega
      rcases i2 with i2 | i2
      · omega
      · exact absurd (lt_of_lt_of_le i2 (le_trans (le this (by omega)) q1)) (lt_irrefl _)
    have a2 : i ≤ c + 1 := by
      by_contra hn
      rcases i1 with i1 | i1
      · omega
      · exact absurd (lt_of_lt_of_le i1 (le_trans q2 (le (show c + 1 ≤ i - 1 by omega) (by omega)))) (lt_irrefl _)
    rcases Nat.lt_or_ge c i with hh | hh
    · right
      have : i = c + 1 := by omega
      subst this
      refine ⟨rfl, ?_⟩
      rcases i1 with i1 | i1
      · omega
      · simpa using i1
    · left
      have : i = c := by omega
      subst this
      refine ⟨rfl, ?_⟩
      rcases i2 with i2 | i2
      · omega
      · exact i2
  · rintro (⟨rfl, g⟩ | ⟨rfl, g⟩)
    · refine ⟨by omega, ?_, Or.inr g⟩
      rcases Nat.eq_zero_or_pos i with h0 | h0
      · exact Or.inl h0
      · exact Or.inr (lt_of_lt_of_le (lt (show i - 1 < i by omega) (by omega)) q1)
    · refine ⟨by omega, Or.inr (by simpa using g), ?_⟩
      rcases Nat.lt_or_ge (c + 1 + 1) x.length with h0 | h0
      · exact Or.inr (lt_of_le_of_lt q2 (lt (by omega) h0))
      · exact Or.inl (by omega)

/-- The mask as a matrix of elements. -/
def Grid.matrix (g : Grid K) : List (List (Fld K)) := g.mz.map fun r => r.map fun b => ⟨0, 0, b⟩

theorem matrix_masked (g : Grid K) (j i : ℕ) : (entry g.matrix j i).masked = g.land j i := by
  unfold entry Grid.matrix Grid.land
  rw [List.getD_eq_getElem?_getD, List.getD_eq_getElem?_getD, List.getElem?_map]
  cases h : g.mz[j]? with
  | none => simp [List.getD_eq_getElem?_getD, h]
  | some r =>
    simp only [Option.map_some, Option.getD_some]
    rw [List.getD_eq_getElem?_getD, List.getD_eq_getElem?_getD, h, List.getElem?_map]
    simp only [Option.getD_some]
    cases r[i]? <;> rfl

theorem numbers_matrix (g : Grid K) : (numbers g.mz : List (List K)) = maskRows g.matrix := by
  unfold numbers maskRows Grid.matrix
  rw [List.map_map]
  refine List.map_congr_left fun r _ => ?_
  rw [Function.comp, List.map_map]
  rfl

/-- The floor of a weighted sum of masks. -/
theorem floor_mask {a b c d : K} (ha : 0 ≤ a) (hb : 0 ≤ b) (hc : 0 ≤ c) (hd : 0 ≤ d) (h1 : a + b + c + d = 1)
    (p q r s : Bool) :
    floorBool (some (a * (if p then 1 else 0) + b * (if q then 1 else 0) + c * (if r then 1 else 0) +
        d * (if s then (1 : K) else 0))) = false ↔
      (a ≠ 0 ∧ p = false) ∨ (b ≠ 0 ∧ q = false) ∨ (c ≠ 0 ∧ r = false) ∨ (d ≠ 0 ∧ s = false) := by
  have key := positive_mask ha hb hc hd (!p) (!q) (!r) (!s)
  have f : ∀ (w : K) (m : Bool), w * (if (!m) then (1 : K) else 0) = w - w * (if m then (1 : K) else 0) := by
    intro w m
    cases m <;> simp
  have n : ∀ (w : K) (m : Bool), 0 ≤ w → 0 ≤ w * (if m then (1 : K) else 0) := by
    intro w m hw
    cases m <;> simp [hw]
  rw [f, f, f, f] at key
  simp only [Bool.not_eq_true'] at key
  rw [← key]
  unfold floorBool
  simp only [Bool.not_eq_eq_eq_not, Bool.not_false, decide_eq_true_eq]
  constructor
  · rintro ⟨-, h⟩
    linarith
  · intro h
    refine ⟨by linarith [n a p ha, n b q hb, n c r hc, n d s hd], by linarith⟩

/-- The mask in a cell: a point with a value counts. -/
theorem floor_cell {g : Grid K} (h : Regular g) (q : K × K) (he : Enclosed g.x g.y q) {c r : ℕ} {t s : K}
    (c1 : c + 1 < g.x.length) (r1 : r + 1 < g.y.length) (t0 : 0 ≤ t) (t1 : t ≤ 1) (s0 : 0 ≤ s) (s1 : s ≤ 1)
    (ea : q.1 = (1 - t) * g.x.getD c 0 + t * g.x.getD (c + 1) 0)
    (eb : q.2 = (1 - s) * g.y.getD r 0 + s * g.y.getD (r + 1) 0) :
    floorBool (some ((1 - t) * (1 - s) * (if g.land r c then 1 else 0)
      + t * (1 - s) * (if g.land r (c + 1) then 1 else 0) + (1 - t) * s * (if g.land (r + 1) c then 1 else 0)
      + t * s * (if g.land (r + 1) (c + 1) then (1 : K) else 0))) = false ↔ Wet g.x g.y g.land q := by
  have n1 : 0 ≤ 1 - t := by linarith
  have n2 : 0 ≤ 1 - s := by linarith
  rw [floor_mask (mul_nonneg n1 n2) (mul_nonneg t0 n2) (mul_nonneg n1 s0) (mul_nonneg t0 s0) (by ring)]
  have ri := reaches_iff h.asc.1 c1 t0 t1 ea
  have rj := reaches_iff h.asc.2 r1 s0 s1 eb
  have w1 : 1 - t ≠ 0 ↔ t ≠ 1 := by rw [sub_ne_zero]; exact ne_comm
  have w2 : 1 - s ≠ 0 ↔ s ≠ 1 := by rw [sub_ne_zero]; exact ne_comm
  simp only [mul_ne_zero_iff, w1, w2]
  unfold Wet
  constructor
  · intro g'
    refine ⟨he, ?_⟩
    rcases g' with g' | g' | g' | g'
    · exact ⟨c, r, (ri c).2 (Or.inl ⟨rfl, g'.1.1⟩), (rj r).2 (Or.inl ⟨rfl, g'.1.2⟩), g'.2⟩
    · exact ⟨c + 1, r, (ri _).2 (Or.inr ⟨rfl, g'.1.1⟩), (rj r).2 (Or.inl ⟨rfl, g'.1.2⟩), g'.2⟩
    · exact ⟨c, r + 1, (ri c).2 (Or.inl ⟨rfl, g'.1.1⟩), (rj _).2 (Or.inr ⟨rfl, g'.1.2⟩), g'.2⟩
    · exact ⟨c + 1, r + 1, (ri _).2 (Or.inr ⟨rfl, g'.1.1⟩), (rj _).2 (Or.inr ⟨rfl, g'.1.2⟩), g'.2⟩
  · rintro ⟨-, i, j, hi, hj, hl⟩
    rcases (ri i).1 hi with ⟨rfl, hi⟩ | ⟨rfl, hi⟩ <;> rcases (rj j).1 hj with ⟨rfl, hj⟩ | ⟨rfl, hj⟩ <;> tauto

/-- The mask by bilinear interpolation and floor. -/
theorem floor_wet {g : Grid K} (h : Regular g) (q : K × K) (he : Enclosed g.x g.y q) :
    floorBool (some (Spline.bilinear g.x g.y (numbers g.mz) q.1 q.2)) = false ↔ Wet g.x g.y g.land q := by
  obtain ⟨a1, a2, b1, b2⟩ := he
  have hh : g.matrix.length = g.y.length := by unfold Grid.matrix; rw [List.length_map, h.height]
  have hw : ∀ r ∈ g.matrix, r.length = g.x.length := by
    intro r hr
    obtain ⟨r', hr', rfl⟩ := List.mem_map.1 hr
    rw [List.length_map, h.width r' hr']
  obtain ⟨c, r, t, s, c1, r1, t0, t1, s0, s1, ea, eb, hφ⟩ :=
    bilinear_nodes h.asc h.two h.two' hh hw q.1 q.2 a1 a2 b1 b2
  have e := hφ fun c => if c.masked then 1 else 0
  simp only [matrix_masked] at e
  rw [numbers_matrix]
  unfold maskRows
  rw [e]
  exact floor_cell h q ⟨a1, a2, b1, b2⟩ c1 r1 t0 t1 s0 s1 ea eb

theorem within_iff {g : Grid K} (h : Regular g) (q : K × K) :
    ∃ b, within g q = .ok b ∧ (b = true ↔ Enclosed g.x g.y q) := by
  unfold within
  rw [min?_increasing h.asc.1 h.two, max?_increasing h.asc.1 h.two, min?_increasing h.asc.2 h.two',
    max?_increasing h.asc.2 h.two']
  refine ⟨_, rfl, ?_⟩
  rw [decide_eq_true_eq]
  rfl

theorem zip_rel {α β γ : Type} {P : α → β → Prop} {Q : α → γ → Prop} {R : α → δ → Prop} {F : β → γ → δ}
    (h : ∀ a b c, P a b → Q a c → R a (F b c)) : ∀ {l : List α} {bs : List β} {cs : List γ},
    List.Forall₂ P l bs → List.Forall₂ Q l cs → List.Forall₂ R l (List.zipWith F bs cs)
  | _, _, _, .nil, .nil => .nil
  | _, _, _, .cons p ps, .cons q qs => .cons (h _ _ _ p q) (zip_rel h ps qs)

/-- The whole of the function from its parts. -/
theorem masks_of {format : String} {method : Method} {grid : Kind → Except PyErr (Grid K)} {k : Kind}
    {g : Grid K} (convert : K × K → K × K) {idim : List ℕ} {pts : List ((K × K) × (K × K))}
    (hk : kind format = .ok k) (hg : grid k = .ok g) (hr : Regular g)
    (hf : fitting method idim pts.length = true) {R : (K × K) × (K × K) → Option Bool → Prop}
    (hp : ∀ p ∈ pts, ∃ m, maskAt method g p.1 (coordinates k convert p.2) = .ok m ∧
      ∀ i : Bool, (i = true ↔ Enclosed g.x g.y (coordinates k convert p.2)) →
        R p (m.map fun b => !b && i)) :
    ∃ outs, tideMasks format method grid convert idim pts = .ok outs ∧ List.Forall₂ R pts outs := by
  obtain ⟨ms, e1, r1⟩ := pyMap_rel hp
  obtain ⟨is, e2, r2⟩ := pyMap_rel (l := pts) (f := fun p => within g (coordinates k convert p.2))
    (R := fun p (i : Bool) => (i = true ↔ Enclosed g.x g.y (coordinates k convert p.2)))
    fun p _ => within_iff hr _
  refine ⟨_, ?_, zip_rel (fun a m i h1 h2 => h1 i h2) r1 r2⟩
  unfold tideMasks
  rw [hk, ok_bind, hg, ok_bind, e1, ok_bind, if_pos hf, e2, ok_bind]

theorem coordinates_shape (n : ℕ) (m : Method) : fitting m [n] n = true := by
  unfold fitting
  simp

/-- **C80**: with the default method a vector of points always gets an answer, and a point is valid exactly
if it is in the rectangle of the grid and a grid point with a value is around it. -/
theorem C80_spline (format : String) (grid : Kind → Except PyErr (Grid K)) (k : Kind) (g : Grid K)
    (convert : K × K → K × K) (pts : List ((K × K) × (K × K))) (hk : kind format = .ok k)
    (hg : grid k = .ok g) (hr : Regular g) :
    ∃ outs, tideMasks format .spline grid convert [pts.length] pts = .ok outs ∧
      List.Forall₂ (fun p o => ∃ b, o = some b ∧ (b = true ↔ Wet g.x g.y g.land (coordinates k convert p.2)))
        pts outs := by
  refine masks_of convert hk hg hr (coordinates_shape _ _) fun p _ => ?_
  unfold maskAt
  simp only
  rw [if_pos ⟨hr.asc, hr.two, hr.two'⟩]
  refine ⟨_, rfl, fun i hi => ⟨_, rfl, ?_⟩⟩
  rw [Bool.and_eq_true, hi]
  constructor
  · rintro ⟨h1, h2⟩
    refine (floor_wet hr _ h2).1 ?_
    unfold Spline.spline at h1
    rw [clamp_inside _ h2.1 h2.2.1, clamp_inside _ h2.2.2.1 h2.2.2.2] at h1
    simpa using h1
  · intro h1
    refine ⟨?_, h1.1⟩
    have := (floor_wet hr _ h1.1).2 h1
    unfold Spline.spline
    rw [clamp_inside _ h1.1.1 h1.1.2.1, clamp_inside _ h1.1.2.2.1 h1.1.2.2.2, this]
    rfl

/-- **C80** (partial: the claim is for all points): with the method `'linear'` the same holds for points whose
coordinates in the model are those passed by the user. -/
theorem C80_linear_partial (format : String) (grid : Kind → Except PyErr (Grid K)) (k : Kind) (g : Grid K)
    (convert : K × K → K × K) (pts : List ((K × K) × (K × K))) (hk : kind format = .ok k)
    (hg : grid k = .ok g) (hr : Regular g) (same : ∀ p ∈ pts, coordinates k convert p.2 = p.1) :
    ∃ outs, tideMasks format .linear grid convert [pts.length] pts = .ok outs ∧
      List.Forall₂ (fun p o => ∃ b, o = some b ∧ (b = true ↔ Wet g.x g.y g.land (coordinates k convert p.2)))
        pts outs := by
  refine masks_of convert hk hg hr (coordinates_shape _ _) fun p hp => ?_
  unfold maskAt
  simp only
  rw [if_pos hr.asc, same p hp]
  refine ⟨_, rfl, fun i hi => ⟨_, rfl, ?_⟩⟩
  rw [Bool.and_eq_true, hi]
  constructor
  · rintro ⟨h1, h2⟩
    refine (floor_wet hr _ h2).1 ?_
    unfold Spline.linear at h1
    rw [clamp_inside _ h2.1 h2.2.1, clamp_inside _ h2.2.2.1 h2.2.2.2, if_pos ⟨rfl, rfl⟩] at h1
    simpa using h1
  · intro h1
    refine ⟨?_, h1.1⟩
    have := (floor_wet hr _ h1.1).2 h1
    unfold Spline.linear
    rw [clamp_inside _ h1.1.1 h1.1.2.1, clamp_inside _ h1.1.2.2.1 h1.1.2.2.2, if_pos ⟨rfl, rfl⟩,
      Option.getD_some, this]
    rfl

/-- **C80** is false for the method `'linear'` in general: the coordinates of the user are used as those of the
model.  A western longitude, which the other methods accept, is never valid for a model from 0 to 360 degrees. -/
theorem C80_linear_false (format : String) (grid : Kind → Except PyErr (Grid K)) (k : Kind) (g : Grid K)
    (convert : K × K → K × K) (pts : List ((K × K) × (K × K))) (hk : kind format = .ok k)
    (hg : grid k = .ok g) (hr : Regular g) (hx : 0 ≤ g.x.getD 0 0) (hp : ∀ p ∈ pts, p.1.1 < 0) :
    ∃ outs, tideMasks format .linear grid convert [pts.length] pts = .ok outs ∧
      List.Forall₂ (fun _ o => o = some false) pts outs := by
  refine masks_of convert hk hg hr (coordinates_shape _ _) fun p hpm => ?_
  unfold maskAt
  simp only
  rw [if_pos hr.asc]
  refine ⟨_, rfl, fun i hi => ?_⟩
  have : Spline.clamp g.x p.1.1 ≠ p.1.1 := by
    unfold Spline.clamp
    rw [headD_getD]
    have := hp p hpm
    intro e
    have := le_max_left (g.x.getD 0 0) (min (g.x.getLastD 0) p.1.1)
    rw [e] at this
    linarith
  unfold Spline.linear
  rw [if_neg (fun e => this e.1)]
  simp [floorBool]

/-- **C80** is false for input that is not a vector: numbers, and grids of more than one row, raise an error
whatever the model. -/
theorem C80_shape_false (format : String) (method : Method) (grid : Kind → Except PyErr (Grid K)) (k : Kind)
    (g : Grid K) (convert : K × K → K × K) (pts : List ((K × K) × (K × K))) (hk : kind format = .ok k)
    (hg : grid k = .ok g) (hr : Regular g) (idim : List ℕ)
    (hd : idim = [] ∨ ∃ ny nx, idim = [ny, nx] ∧ 2 ≤ ny ∧ 1 ≤ nx ∧ pts.length = ny * nx) :
    ∃ e, tideMasks format method grid convert idim pts = .error e := by
  have hf : fitting method idim pts.length = false := by
    unfold fitting
    rcases hd with rfl | ⟨ny, nx, rfl, h1, h2, h3⟩
    · rfl
    · have n1 : pts.length ≠ 1 := by rw [h3]; nlinarith
      have n2 : nx ≠ pts.length := by rw [h3]; nlinarith
      simp [n1, n2]
  unfold tideMasks
  rw [hk, ok_bind, hg, ok_bind, hf]
  cases pyMap (fun p => maskAt method g p.1 (coordinates k convert p.2)) pts with
  | error e => exact ⟨e, rfl⟩
  | ok v => exact ⟨_, rfl⟩

/-- **C80** is false for FES models in ASCII files (and names that are not formats): the mask is never read. -/
theorem C80_format_false (method : Method) (grid : Kind → Except PyErr (Grid K)) (convert : K × K → K × K)
    (idim : List ℕ) (pts : List ((K × K) × (K × K))) :
    tideMasks "FES-ascii" method grid convert idim pts = .error .unbound := rfl

/-- **C80**: the formats of the other models are known. -/
theorem C80_formats : ∀ f ∈ ["OTIS", "ATLAS-compact", "TMD3", "ATLAS-netcdf", "GOT-ascii", "GOT-netcdf",
    "FES-netcdf"], ∃ k, kind f = .ok k := by
  intro f hf
  simp only [List.mem_cons, List.not_mem_nil, or_false] at hf
  rcases hf with rfl | rfl | rfl | rfl | rfl | rfl | rfl <;> exact ⟨_, rfl⟩

/-! ## Agreement with the constants of the model -/

/-- The mask of a file of GOT or FES. -/
def ofLayer (g : Layer K) : Grid K := ⟨g.lon, g.lat, g.hc.map fun r => r.map Fld.masked⟩

theorem ofLayer_regular {g : Layer K} {a : K} (h : Even g a) : Regular (ofLayer g) := by
  refine ⟨h.shows.asc, h.shows.two, h.two, ?_, ?_⟩
  · show (g.hc.map _).length = _
    rw [List.length_map]; exact h.height
  · intro r hr
    obtain ⟨r', hr', rfl⟩ := List.mem_map.1 hr
    rw [List.length_map]
    exact h.width r' hr'

theorem ofLayer_numbers (g : Layer K) : (numbers (ofLayer g).mz : List (List K)) = maskRows g.hc := by
  unfold numbers ofLayer maskRows
  simp only [List.map_map]
  refine List.map_congr_left fun r _ => ?_
  simp only [Function.comp, List.map_map]
  rfl

/-- **C80** (partial: the claim is equivalence, for all points): wherever a global GOT or FES model from 0 to 360 degrees
gives a constant with the default method, and up to the last column of the model, the point is valid. -/
theorem C80_extract_partial (f : Fmt) (r : Request K) (hm : r.method = .spline) (hr : r.crop = false)
    (hn : ∀ x y hc q, r.near x y hc q = none) (g : Layer K) (a : K) (hg : Global g a)
    (format : String) (k : Kind) (hk : kind format = .ok k) (hko : k ≠ .otis) (pts : List (K × K))
    (hne : pts ≠ []) (hp : ∀ p ∈ pts, Place r.method g p)
    (hl : ∀ p ∈ pts, 0 ≤ p.1 ∧ a ≤ p.1 ∧ p.1 ≤ g.lon.getD (g.lon.length - 1) 0) (convert : K × K → K × K) :
    ∃ row outs, extract f r [g] pts = .ok [row] ∧
      tideMasks format .spline (fun _ => .ok (ofLayer g)) convert [pts.length] (pts.map fun p => (p, p)) = .ok outs ∧
      List.Forall₂ (fun o b => o ≠ .masked → b = some true) row outs := by
  obtain ⟨rows, e1, h1⟩ := C70_got_fes f r hr hn [(g, a)] (by simpa using hg) pts hne (by simpa using hp)
  cases h1 with
  | cons h1 h2 =>
  cases h2
  rename_i row
  have reg := ofLayer_regular hg.toEven
  obtain ⟨outs, e2, h2⟩ := C80_spline format (fun _ => .ok (ofLayer g)) k (ofLayer g) convert
    (pts.map fun p => (p, p)) hk rfl reg
  rw [List.length_map] at e2
  rw [List.forall₂_map_left_iff] at h2
  refine ⟨row, outs, e1, e2, ?_⟩
  clear e1 e2 hne
  induction h1 generalizing outs with
  | nil => cases h2; exact .nil
  | cons m1 _ ih =>
    rename_i p o ps os hrest
    cases h2 with
    | cons m2 t2 =>
    rename_i b bs
    refine .cons ?_ (ih (fun q hq => hp q (by simp [hq])) (fun q hq => hl q (by simp [hq])) _ t2)
    intro ho
    obtain ⟨v, rfl, hv⟩ := m2
    congr 1
    rw [hv]
    obtain ⟨l1, l2, l3⟩ := hl p (by simp)
    have pl := hp p (by simp)
    have ec : coordinates k convert p = p := by
      cases k with
      | otis => exact absurd rfl hko
      | _ => unfold coordinates; simp only; rw [if_neg (not_lt.2 l1)]
    simp only [ec]
    have x0 : g.lon.getD 0 0 = a := by
      have := hg.toEven.shows.lon 0 (by have := hg.three; omega)
      rw [this]
      show a + ((0 + (0 : ℕ) : ℤ) : K) * _ = a
      simp
    have en : Enclosed (ofLayer g).x (ofLayer g).y p := ⟨by show g.lon.getD 0 0 ≤ _; rw [x0]; exact l2, l3, pl.south, pl.north⟩
    rw [← floor_wet reg p en, ofLayer_numbers]
    show floorBool (some (Spline.bilinear g.lon g.lat (maskRows g.hc) p.1 p.2)) = false
    obtain ⟨v', hval, z, mm, s1, -, s3, -⟩ := splines_value hg.toEven.shows p.1 p.2 en.1 en.2.1 en.2.2.1 en.2.2.2
    have m1 : Meets .spline (globe g a) r.scale p o := by rw [← hm]; exact m1
    obtain ⟨w, hw, rfl⟩ := m1
    rw [hw.unique (globe_ordered hg.toEven) hval] at ho
    have hs : v'.isNone = false := by
      cases v' with
      | none => exact absurd rfl ho
      | some _ => rfl
    unfold splineC Spline.spline at s1
    have c1 : Spline.clamp g.lon p.1 = p.1 := clamp_inside _ en.1 en.2.1
    have c2 : Spline.clamp g.lat p.2 = p.2 := clamp_inside _ en.2.2.1 en.2.2.2
    rw [if_pos (show Spans g.lon g.lat from ⟨reg.asc, reg.two, reg.two'⟩), c1, c2] at s1
    have s4 := congrArg Prod.snd (Except.ok.inj s1)
    simp only at s4
    rw [s3, hs, decide_eq_false_iff_not, not_lt] at s4
    obtain ⟨c, j, t, u, -, -, t0, t1, u0, u1, -, -, hφ⟩ := bilinear_nodes hg.toEven.shows.asc hg.toEven.shows.two
      hg.two hg.height hg.width p.1 p.2 en.1 en.2.1 en.2.2.1 en.2.2.2
    have e := hφ fun c => if c.masked then 1 else 0
    have n1 : 0 ≤ 1 - t := by linarith
    have n2 : 0 ≤ 1 - u := by linarith
    have pos : 0 ≤ Spline.bilinear g.lon g.lat (maskRows g.hc) p.1 p.2 := by
      unfold maskRows
      rw [e]
      have i : ∀ b : Bool, (0 : K) ≤ if b then 1 else 0 := by intro b; cases b <;> simp
      have := mul_nonneg (mul_nonneg n1 n2) (i (entry g.hc j c).masked)
      have := mul_nonneg (mul_nonneg t0 n2) (i (entry g.hc j (c + 1)).masked)
      have := mul_nonneg (mul_nonneg n1 u0) (i (entry g.hc (j + 1) c).masked)
      have := mul_nonneg (mul_nonneg t0 u0) (i (entry g.hc (j + 1) (c + 1)).masked)
      linarith
    unfold floorBool
    simp only [Bool.not_eq_eq_eq_not, Bool.not_false, decide_eq_true_eq]
    exact ⟨pos, by linarith⟩

/-- **C80** is false between the last and the first column of a global model: there is a constant, but the point
is not valid. -/
theorem C80_seam_false (format : String) (k : Kind) (hk : kind format = .ok k) (hko : k ≠ .otis) (g : Layer K)
    (a : K) (hg : Even g a) (pts : List (K × K))
    (hl : ∀ p ∈ pts, g.lon.getD (g.lon.length - 1) 0 < p.1 ∧ 0 ≤ p.1) (convert : K × K → K × K) :
    ∃ outs, tideMasks format .spline (fun _ => .ok (ofLayer g)) convert [pts.length] (pts.map fun p => (p, p)) = .ok outs ∧
      List.Forall₂ (fun _ b => b = some false) pts outs := by
  obtain ⟨outs, e2, h2⟩ := C80_spline format (fun _ => .ok (ofLayer g)) k (ofLayer g) convert
    (pts.map fun p => (p, p)) hk rfl (ofLayer_regular hg)
  rw [List.length_map] at e2
  rw [List.forall₂_map_left_iff] at h2
  refine ⟨outs, e2, ?_⟩
  clear e2
  induction h2 with
  | nil => exact .nil
  | cons m _ ih =>
    rename_i p o ps os _
    refine .cons ?_ (ih fun q hq => hl q (by simp [hq]))
    obtain ⟨v, rfl, hv⟩ := m
    obtain ⟨l1, l2⟩ := hl p (by simp)
    congr 1
    rw [← Bool.not_eq_true, hv]
    rintro ⟨⟨-, en, -⟩, -⟩
    have ec : coordinates k convert p = p := by
      cases k with
      | otis => exact absurd rfl hko
      | _ => unfold coordinates; simp only; rw [if_neg (not_lt.2 l2)]
    simp only [ec] at en
    exact absurd en (not_le.2 l1)

/-- **C80** is false for global models from -180 to 180 degrees: no western longitude is valid. -/
theorem C80_west_false (format : String) (k : Kind) (hk : kind format = .ok k) (hko : k ≠ .otis) (g : Layer K)
    (a : K) (hg : Even g a) (pts : List (K × K))
    (hl : ∀ p ∈ pts, p.1 < 0 ∧ g.lon.getD (g.lon.length - 1) 0 < p.1 + 360) (convert : K × K → K × K) :
    ∃ outs, tideMasks format .spline (fun _ => .ok (ofLayer g)) convert [pts.length] (pts.map fun p => (p, p)) = .ok outs ∧
      List.Forall₂ (fun _ b => b = some false) pts outs := by
  obtain ⟨outs, e2, h2⟩ := C80_spline format (fun _ => .ok (ofLayer g)) k (ofLayer g) convert
    (pts.map fun p => (p, p)) hk rfl (ofLayer_regular hg)
  rw [List.length_map] at e2
  rw [List.forall₂_map_left_iff] at h2
  refine ⟨outs, e2, ?_⟩
  clear e2
  induction h2 with
  | nil => exact .nil
  | cons m _ ih =>
    rename_i p o ps os _
    refine .cons ?_ (ih fun q hq => hl q (by simp [hq]))
    obtain ⟨v, rfl, hv⟩ := m
    obtain ⟨l1, l2⟩ := hl p (by simp)
    congr 1
    rw [← Bool.not_eq_true, hv]
    rintro ⟨⟨-, en, -⟩, -⟩
    have ec : coordinates k convert p = (p.1 + 360, p.2) := by
      cases k with
      | otis => exact absurd rfl hko
      | _ => unfold coordinates; simp only; rw [if_pos l1]
    simp only [ec] at en
    exact absurd en (not_le.2 l2)

/-- The example with a masked point in the south west: valid next to it, where there is no constant. -/
theorem C80_coast_false :
    tideMasks "GOT-ascii" .spline (fun _ => .ok (ofLayer (exampleFile 0))) id [1] [((240, -30), (240, -30))]
        = .ok [some true] ∧
      extract got plain [exampleFile 0] [(240, -30)] = .ok [[.masked]] := by
  decide +kernel

/-- East of the last column at 270 degrees: not valid, where there is a constant. -/
example :
    tideMasks "GOT-ascii" .spline (fun _ => .ok (ofLayer (exampleFile 0))) id [1] [((315, 30), (315, 30))]
        = .ok [some false] ∧
      extract got plain [exampleFile 0] [(315, 30)] ≠ .ok [[.masked]] := by
  decide +kernel

/-- The hypotheses of `C80_extract_partial`. -/
example : Global (exampleFile 0) 0 ∧ kind "FES-netcdf" = .ok .fes ∧
    ∀ p ∈ [((240 : ℚ), (30 : ℚ)), (0, 60)], Place .spline (exampleFile 0) p ∧ 0 ≤ p.1 ∧ (0 : ℚ) ≤ p.1 ∧
      p.1 ≤ (exampleFile 0).lon.getD ((exampleFile 0).lon.length - 1) 0 := by
  refine ⟨exampleFile_global 0 (Or.inl (by norm_num)), rfl, ?_⟩
  intro p hp
  simp only [List.mem_cons, List.not_mem_nil, or_false] at hp
  rcases hp with rfl | rfl <;>
    exact ⟨⟨by norm_num, by norm_num, by simp [exampleFile] <;> norm_num, by simp [exampleFile] <;> norm_num, fun h => by cases h⟩,
      by norm_num, by norm_num, by simp [exampleFile] <;> norm_num⟩

/-! ## The quick bilinear method -/

/-- **C80** (partial: the edges are missing): with the method `'bilinear'` a point inside the grid is valid exactly
if a grid point with a value is around it, or it is as valid as a grid point that is very close to it. -/
theorem C80_bilinear_partial (format : String) (grid : Kind → Except PyErr (Grid K)) (k : Kind) (g : Grid K)
    (convert : K × K → K × K) (pts : List ((K × K) × (K × K))) (hk : kind format = .ok k)
    (hg : grid k = .ok g) (hr : Regular g)
    (hp : ∀ p ∈ pts, g.x.getD 0 0 ≤ (coordinates k convert p.2).1 ∧
      (coordinates k convert p.2).1 < g.x.getD (g.x.length - 1) 0 ∧
      g.y.getD 0 0 < (coordinates k convert p.2).2 ∧ (coordinates k convert p.2).2 < g.y.getD (g.y.length - 1) 0) :
    ∃ outs, tideMasks format .bilinear grid convert [pts.length] pts = .ok outs ∧
      List.Forall₂ (fun p o => ∃ b, o = some b ∧ ((b = true ↔ Wet g.x g.y g.land (coordinates k convert p.2)) ∨
        ∃ c r : ℕ, c < g.x.length ∧ r < g.y.length ∧
          Interp.isclose (coordinates k convert p.2).1 (g.x.getD c 0) = true ∧
          Interp.isclose (coordinates k convert p.2).2 (g.y.getD r 0) = true ∧ b = !g.land r c))
        pts outs := by
  refine masks_of convert hk hg hr (coordinates_shape _ _) fun p hpm => ?_
  obtain ⟨a1, a2, b1, b2⟩ := hp p hpm
  generalize coordinates k convert p.2 = q at *
  have en : Enclosed g.x g.y q := ⟨a1, a2.le, b1.le, b2.le⟩
  have ix := ofList_increasing hr.asc.1 hr.two
  have iy := ofList_increasing hr.asc.2 hr.two'
  obtain ⟨c, r, hin, -⟩ := Interp.C10_inside_never_raises_partial (ofList g.x) (ofList g.y) ix iy
    (fun _ _ => ⟨none, true⟩) none q.1 q.2 a1 a2 b1 b2
  have hR := Interp.bilinear_inCell (ofList g.x) (ofList g.y) ix iy
    (fun j i => ⟨some (((numbers g.mz).getD j []).getD i 0), false⟩) none q.1 q.2 c r hin
  unfold maskAt
  simp only
  rw [hR, ok_bind]
  obtain ⟨c1, r1, c2, c3, r2, r3, -⟩ := hin
  simp only [ofList] at c1 r1 c2 c3 r2 r3
  have num : ∀ j i : ℕ, j < g.y.length → i < g.x.length →
      ((numbers g.mz).getD j []).getD i 0 = if g.land j i then (1 : K) else 0 := by
    intro j i hj hi
    have hj' : j < g.mz.length := by rw [hr.height]; exact hj
    have hi' : i < (g.mz.getD j []).length := by
      rw [List.getD_eq_getElem?_getD, List.getElem?_eq_getElem hj']
      rw [Option.getD_some, hr.width _ (List.getElem_mem _)]
      exact hi
    unfold numbers Grid.land
    rw [getD_map_lt _ _ _ [] _ hj', getD_map_lt _ _ _ true _ hi']
  by_cases hn : Interp.NearCorner (ofList g.x) (ofList g.y) q.1 q.2 c r
  · have pick : ∃ c' r' : ℕ, (c' = c ∨ c' = c + 1) ∧ (r' = r ∨ r' = r + 1) ∧
        Interp.isclose q.1 (g.x.getD c' 0) = true ∧ Interp.isclose q.2 (g.y.getD r' 0) = true ∧
        ∀ (d : ℕ → ℕ → Interp.Cell K) (fill : Option K),
          Interp.cell (ofList g.x) (ofList g.y) d fill q.1 q.2 c r = d r' c' := by
      unfold Interp.NearCorner at hn
      simp only [ofList] at hn
      unfold Interp.cell
      simp only [ofList, Bool.and_eq_true]
      by_cases e1 : Interp.isclose q.2 (g.y.getD r 0) = true ∧ Interp.isclose q.1 (g.x.getD c 0) = true
      · exact ⟨c, r, Or.inl rfl, Or.inl rfl, e1.2, e1.1, fun d fill => by rw [if_pos e1]⟩
      by_cases e2 : Interp.isclose q.2 (g.y.getD (r + 1) 0) = true ∧ Interp.isclose q.1 (g.x.getD c 0) = true
      · exact ⟨c, r + 1, Or.inl rfl, Or.inr rfl, e2.2, e2.1, fun d fill => by
          rw [if_neg e1, if_pos e2]⟩
      by_cases e3 : Interp.isclose q.2 (g.y.getD r 0) = true ∧ Interp.isclose q.1 (g.x.getD (c + 1) 0) = true
      · exact ⟨c + 1, r, Or.inr rfl, Or.inl rfl, e3.2, e3.1, fun d fill => by
          rw [if_neg e1, if_neg e2, if_pos e3]⟩
      have e4 : Interp.isclose q.2 (g.y.getD (r + 1) 0) = true ∧
          Interp.isclose q.1 (g.x.getD (c + 1) 0) = true := by tauto
      exact ⟨c + 1, r + 1, Or.inr rfl, Or.inr rfl, e4.2, e4.1, fun d fill => by
        rw [if_neg e1, if_neg e2, if_neg e3, if_pos e4]⟩
    obtain ⟨c', r', hc', hr', n1, n2, hd⟩ := pick
    have l1 : c' < g.x.length := by omega
    have l2 : r' < g.y.length := by omega
    rw [hd]
    refine ⟨_, rfl, fun i hi => ⟨!g.land r' c', ?_, Or.inr ⟨c', r', l1, l2, n1, n2, rfl⟩⟩⟩
    rw [hi.2 en, num r' c' l2 l1]
    cases g.land r' c' <;> simp [floorBool]
  · rw [Interp.cell_far _ _ _ _ _ _ _ _ hn]
    simp only [ofList]
    have px : 0 < g.x.getD (c + 1) 0 - g.x.getD c 0 := by linarith
    have py : 0 < g.y.getD (r + 1) 0 - g.y.getD r 0 := by linarith
    obtain ⟨t, ht⟩ : ∃ t, t = (q.1 - g.x.getD c 0) / (g.x.getD (c + 1) 0 - g.x.getD c 0) := ⟨_, rfl⟩
    obtain ⟨s, hs⟩ : ∃ s, s = (q.2 - g.y.getD r 0) / (g.y.getD (r + 1) 0 - g.y.getD r 0) := ⟨_, rfl⟩
    have et : t * (g.x.getD (c + 1) 0 - g.x.getD c 0) = q.1 - g.x.getD c 0 := by
      rw [ht, div_mul_cancel₀ _ px.ne']
    have es : s * (g.y.getD (r + 1) 0 - g.y.getD r 0) = q.2 - g.y.getD r 0 := by
      rw [hs, div_mul_cancel₀ _ py.ne']
    have t0 : 0 ≤ t := by rw [ht]; exact div_nonneg (by linarith) px.le
    have t1 : t ≤ 1 := by rw [ht, div_le_one px]; linarith
    have s0 : 0 ≤ s := by rw [hs]; exact div_nonneg (by linarith) py.le
    have s1 : s ≤ 1 := by rw [hs, div_le_one py]; linarith
    have key := floor_cell hr q en (c := c) (r := r) c1 r1 t0 t1 s0 s1 (by linear_combination -et)
      (by linear_combination -es)
    rw [num r c (by omega) (by omega), num r (c + 1) (by omega) c1, num (r + 1) c r1 (by omega),
      num (r + 1) (c + 1) r1 c1]
    obtain ⟨dx, hdx⟩ : ∃ dx, dx = g.x.getD (c + 1) 0 - g.x.getD c 0 := ⟨_, rfl⟩
    obtain ⟨dy, hdy⟩ : ∃ dy, dy = g.y.getD (r + 1) 0 - g.y.getD r 0 := ⟨_, rfl⟩
    rw [← hdx] at et px
    rw [← hdy] at es py
    have w1 : |q.1 - g.x.getD c 0| = t * dx := by rw [abs_of_nonneg (by linarith), et]
    have w2 : |q.1 - g.x.getD (c + 1) 0| = (1 - t) * dx := by
      rw [abs_of_nonpos (by linarith)]; linear_combination et - hdx
    have w3 : |q.2 - g.y.getD r 0| = s * dy := by rw [abs_of_nonneg (by linarith), es]
    have w4 : |q.2 - g.y.getD (r + 1) 0| = (1 - s) * dy := by
      rw [abs_of_nonpos (by linarith)]; linear_combination es - hdy
    rw [w1, w2, w3, w4]
    have tot : (1 - t) * dx * ((1 - s) * dy) + (t * dx * ((1 - s) * dy) + ((1 - t) * dx * (s * dy) +
        (t * dx * (s * dy) + 0))) = dx * dy := by ring
    have val : ∀ a b d e : K, Interp.weighted (Interp.validPairs [((1 - t) * dx * ((1 - s) * dy), (⟨some a, false⟩ : Interp.Cell K)),
        (t * dx * ((1 - s) * dy), ⟨some b, false⟩), ((1 - t) * dx * (s * dy), ⟨some d, false⟩),
        (t * dx * (s * dy), ⟨some e, false⟩)])
        = some ((1 - t) * (1 - s) * a + t * (1 - s) * b + (1 - t) * s * d + t * s * e) := by
      intro a b d e
      simp only [Interp.validPairs, Interp.Cell.valid, List.filterMap_cons, List.filterMap_nil, Option.isSome_some,
        Bool.not_false, Bool.and_true, if_true, Interp.weighted, List.map_cons, List.map_nil, List.sum_cons,
        List.sum_nil]
      rw [tot, if_neg (mul_pos px py).ne']
      congr 1
      rw [div_eq_iff (mul_pos px py).ne']
      ring
    rw [val]
    simp only [List.any_cons, Interp.Cell.valid, Option.isSome_some, Bool.not_false, Bool.and_true, Bool.true_or,
      if_true]
    refine ⟨_, rfl, fun i hi => ⟨_, rfl, Or.inl ?_⟩⟩
    show (!_ && i) = true ↔ _
    rw [hi.2 en, Bool.and_true, Bool.not_eq_true', key]

end Verif.Masks
