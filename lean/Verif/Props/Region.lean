import Verif.Props.Extract
/-!
C109: a model of a region gives the interpolation of its field inside the region and nothing outside,
however longitudes are written (GOT and FES models).
-/
namespace Verif.Extract
open Verif Verif.Spec Verif.Grid

variable {K : Type} [Field K] [LinearOrder K] [IsStrictOrderedRing K]

/-- The field in the file of a regional model as a chart: only the columns and rows of the file. -/
def patch (g : Layer K) : Chart K where
  lon k := g.lon.getD k.toNat 0
  lat j := g.lat.getD j.toNat 0
  cols k := 0 ≤ k ∧ k < g.lon.length
  rows j := 0 ≤ j ∧ j < g.lat.length
  value k j := (entry g.hc j.toNat k.toNat).number

/-- Axes of a region: they increase, the region and one step more fall short of a whole turn by at
least a hundredth of a degree, and longitudes are written from 0 to 360 or from -180 to 180 degrees. -/
structure Zone (lon lat : List K) : Prop where
  two : 2 ≤ lon.length
  two' : 2 ≤ lat.length
  gap : lon.getD (lon.length - 1) 0 - lon.getD 0 0 + (lon.getD 1 0 - lon.getD 0 0) ≤ 360 - 1 / 100
  convention : (0 ≤ lon.getD 0 0 ∧ lon.getD (lon.length - 1) 0 < 360) ∨
    (-180 < lon.getD 0 0 ∧ lon.getD (lon.length - 1) 0 ≤ 180)
  lon : lon.Pairwise (· < ·)
  lat : lat.Pairwise (· < ·)

/-- A file of a regional model. -/
structure Region (g : Layer K) : Prop extends Zone g.lon g.lat where
  height : g.hc.length = g.lat.length
  width : ∀ r ∈ g.hc, r.length = g.lon.length

/-- A place between the first and last columns and rows. -/
def Inside (lon lat : List K) (q : K × K) : Prop :=
  lon.getD 0 0 ≤ q.1 ∧ q.1 ≤ lon.getD (lon.length - 1) 0 ∧ lat.getD 0 0 ≤ q.2 ∧ q.2 ≤ lat.getD (lat.length - 1) 0

/-- The place with its longitude written `k` turns further east. -/
def turned (p : K × K) (k : ℤ) : K × K := (p.1 + k * 360, p.2)

/-- What a user expects of a regional model at a place: what the field says if the place lies in the
region, on whatever turn, and nothing otherwise. -/
def Answers (m : Method) (g : Layer K) (scale : K) (p : K × K) (o : Out K) : Prop :=
  (∀ k : ℤ, Inside g.lon g.lat (turned p k) → Meets m (patch g) scale (turned p k) o) ∧
    ((∀ k : ℤ, ¬ Inside g.lon g.lat (turned p k)) → o = .masked)

/-- A place is given with a longitude between -180 and 360 degrees; with `'bilinear'` it is not on the
rim of the region (see `C109_rim_false`). -/
structure Asked (m : Method) (lon lat : List K) (p : K × K) : Prop where
  west : -180 < p.1
  east : p.1 < 360
  strict : m = .bilinear → ∀ k : ℤ, Inside lon lat (turned p k) →
    (turned p k).1 < lon.getD (lon.length - 1) 0 ∧ lat.getD 0 0 < p.2 ∧ p.2 < lat.getD (lat.length - 1) 0

/-! ## Longitudes -/

/-- `q` is the place `p` as it is written in the convention of the axes. -/
structure Landed (lon lat : List K) (p q : K × K) : Prop where
  turn : ∃ k : ℤ, q = turned p k
  west : -180 < q.1
  east : q.1 < 360
  there : ∀ k : ℤ, Inside lon lat (turned p k) → q = turned p k

theorem turned_zero (p : K × K) : turned p 0 = p := by
  unfold turned
  simp

theorem turned_turned (p : K × K) (k l : ℤ) : turned (turned p k) l = turned p (k + l) := by
  unfold turned
  simp only [Prod.mk.injEq, and_true]
  push_cast
  ring

theorem small_turn {k : ℤ} {x y : K} (e : y = x + k * 360) (h1 : x - 360 < y) (h2 : y < x + 360) : k = 0 := by
  have a1 : (-1 : K) < k := by linarith
  have a2 : (k : K) < 1 := by linarith
  have b1 : (-1 : ℤ) < k := by exact_mod_cast a1
  have b2 : k < 1 := by exact_mod_cast a2
  omega

theorem turned_eq {p q : K × K} {k l : ℤ} (e : q = turned p l) (h1 : (turned p k).1 - 360 < q.1)
    (h2 : q.1 < (turned p k).1 + 360) : q = turned p k := by
  have : l - k = 0 := by
    refine small_turn (x := (turned p k).1) (y := q.1) ?_ h1 h2
    rw [e]
    unfold turned
    push_cast
    ring
  rw [e, show l = k by omega]

theorem Zone.range {lon lat : List K} (z : Zone lon lat) : lon.getD 0 0 < lon.getD (lon.length - 1) 0 := by
  have h2 := z.two
  have := List.pairwise_iff_getElem.1 z.lon 0 (lon.length - 1) (by omega) (by omega) (by omega)
  simpa [List.getD_eq_getElem?_getD, List.getElem?_eq_getElem (show 0 < lon.length by omega),
    List.getElem?_eq_getElem (show lon.length - 1 < lon.length by omega)] using this

theorem adjust_lands {lon lat : List K} (z : Zone lon lat) {pts : List (K × K)} (hne : pts ≠ [])
    (hp : ∀ p ∈ pts, -180 < p.1 ∧ p.1 < 360) :
    ∃ f : K → K, adjustGOT (lon.getD 0 0) (lon.getD (lon.length - 1) 0) (pts.map Prod.fst) = .ok ((pts.map Prod.fst).map f) ∧
      ∀ p ∈ pts, Landed lon lat p (f p.1, p.2) := by
  obtain ⟨mn, e1, m1, l1⟩ := exists_min (pts.map Prod.fst) (by simpa using hne)
  obtain ⟨mx, e2, m2, l2⟩ := exists_max (pts.map Prod.fst) (by simpa using hne)
  have rg := z.range
  unfold adjustGOT
  rw [e1, e2]
  simp only
  by_cases c1 : mn < 0 ∧ lon.getD (lon.length - 1) 0 > 180
  · rw [if_pos c1]
    have pos : 0 ≤ lon.getD 0 0 ∧ lon.getD (lon.length - 1) 0 < 360 :=
      z.convention.resolve_right fun e => absurd e.2 (not_le.2 c1.2)
    refine ⟨_, rfl, fun p hpm => ?_⟩
    obtain ⟨w, e⟩ := hp p hpm
    have turn : ∃ k : ℤ, ((if p.1 < 0 then p.1 + 360 else p.1 : K), p.2) = turned p k := by
      by_cases c : p.1 < 0
      · exact ⟨1, by simp [turned, c]⟩
      · exact ⟨0, by simp [turned, c]⟩
    have r0 : 0 ≤ (if p.1 < 0 then p.1 + 360 else p.1 : K) ∧ (if p.1 < 0 then p.1 + 360 else p.1 : K) < 360 := by
      split_ifs <;> constructor <;> linarith
    obtain ⟨l, el⟩ := turn
    refine ⟨⟨l, el⟩, by show (-180 : K) < if p.1 < 0 then p.1 + 360 else p.1; linarith [r0.1], r0.2, fun k hk => ?_⟩
    obtain ⟨k1, k2, -, -⟩ := hk
    refine turned_eq el ?_ ?_
    · show _ < if p.1 < 0 then p.1 + 360 else p.1
      linarith [r0.1]
    · show (if p.1 < 0 then p.1 + 360 else p.1) < _
      linarith [r0.2]
  · rw [if_neg c1]
    by_cases c2 : mx > 180 ∧ lon.getD 0 0 < 0
    · rw [if_pos c2]
      have neg : -180 < lon.getD 0 0 ∧ lon.getD (lon.length - 1) 0 ≤ 180 :=
        z.convention.resolve_left fun e => absurd e.1 (not_le.2 c2.2)
      refine ⟨_, rfl, fun p hpm => ?_⟩
      obtain ⟨w, e⟩ := hp p hpm
      have turn : ∃ k : ℤ, ((if p.1 > 180 then p.1 - 360 else p.1 : K), p.2) = turned p k := by
        by_cases c : p.1 > 180
        · exact ⟨-1, by simp only [if_pos c, turned, Prod.mk.injEq, and_true]; push_cast; ring⟩
        · exact ⟨0, by simp [turned, c]⟩
      have r0 : -180 < (if p.1 > 180 then p.1 - 360 else p.1 : K) ∧
          (if p.1 > 180 then p.1 - 360 else p.1 : K) ≤ 180 := by
        split_ifs <;> constructor <;> linarith
      obtain ⟨l, el⟩ := turn
      refine ⟨⟨l, el⟩, r0.1, by show (if p.1 > 180 then p.1 - 360 else p.1) < (360 : K); linarith [r0.2], fun k hk => ?_⟩
      obtain ⟨k1, k2, -, -⟩ := hk
      refine turned_eq el ?_ ?_
      · show _ < if p.1 > 180 then p.1 - 360 else p.1
        linarith [r0.1]
      · show (if p.1 > 180 then p.1 - 360 else p.1) < _
        linarith [r0.2]
    · rw [if_neg c2]
      refine ⟨id, by rw [List.map_id], fun p hpm => ?_⟩
      obtain ⟨w, e⟩ := hp p hpm
      have hmem : p.1 ∈ pts.map Prod.fst := List.mem_map.2 ⟨p, hpm, rfl⟩
      have lo := l1 p.1 hmem
      have hi := l2 p.1 hmem
      refine ⟨⟨0, by rw [turned_zero]; rfl⟩, w, e, fun k hk => ?_⟩
      obtain ⟨k1, k2, -, -⟩ := hk
      have ek : (turned p k).1 = p.1 + k * 360 := rfl
      rw [ek] at k1 k2
      have cases3 : k = 0 ∨ k ≤ -1 ∨ 1 ≤ k := by omega
      rcases cases3 with rfl | c | c
      · rw [turned_zero]; rfl
      · exfalso
        have c' : (k : K) ≤ -1 := by exact_mod_cast c
        rcases z.convention with v | v
        · linarith [v.1]
        · refine c2 ⟨?_, ?_⟩
          · linarith [v.1]
          · linarith
      · exfalso
        have c' : (1 : K) ≤ k := by exact_mod_cast c
        rcases z.convention with v | v
        · refine c1 ⟨?_, ?_⟩
          · linarith [v.2]
          · linarith
        · linarith [v.2]

/-! ## The matrix of a region -/

theorem Region.shows {g : Layer K} (h : Region g) : Shows g.lon g.lat g.hc (patch g) 0 0 := by
  refine ⟨⟨h.lon, h.lat⟩, h.two, h.two', h.height, h.width, ?_, ?_, ?_, ?_, ?_⟩
  · intro c _; show _ = g.lon.getD (0 + (c : ℤ)).toNat 0; rw [zero_add, Int.toNat_natCast]
  · intro c _; show _ = g.lat.getD (0 + (c : ℤ)).toNat 0; rw [zero_add, Int.toNat_natCast]
  · intro c hc; exact ⟨by omega, by simpa using hc⟩
  · intro c hc; exact ⟨by omega, by simpa using hc⟩
  · intro r c _ _
    show (entry g.hc (0 + (r : ℤ)).toNat (0 + (c : ℤ)).toNat).number = _
    rw [zero_add, zero_add, Int.toNat_natCast, Int.toNat_natCast]

theorem getD_lt {x : List K} (inc : x.Pairwise (· < ·)) {i j : ℕ} (h : i < j) (hj : j < x.length) :
    x.getD i 0 < x.getD j 0 := by
  have := List.pairwise_iff_getElem.1 inc i j (by omega) hj h
  simpa [List.getD_eq_getElem?_getD, List.getElem?_eq_getElem (show i < x.length by omega),
    List.getElem?_eq_getElem hj] using this

theorem getD_le {x : List K} (inc : x.Pairwise (· < ·)) {i j : ℕ} (h : i ≤ j) (hj : j < x.length) :
    x.getD i 0 ≤ x.getD j 0 := by
  rcases Nat.lt_or_eq_of_le h with h | rfl
  · exact (getD_lt inc h hj).le
  · exact le_rfl

theorem Zone.far {lon lat : List K} (z : Zone lon lat) (c : ℕ) (hc : c < lon.length) : |lon.getD c 0| ≤ 720 := by
  have h1 := getD_le z.lon (Nat.zero_le c) hc
  have h2 := getD_le z.lon (show c ≤ lon.length - 1 by omega) (by omega)
  rw [abs_le]
  rcases z.convention with v | v <;> constructor <;> linarith [v.1, v.2]

theorem Zone.step {lon lat : List K} (z : Zone lon lat) (f : Fmt) :
    step f lon = .ok (lon.getD 1 0 - lon.getD 0 0) := by
  have h2 := z.two
  have := getD_lt z.lon (show 0 < 1 by omega) (by omega)
  unfold Extract.step
  simp only [List.getD_eq_getElem?_getD] at this ⊢
  rw [List.getElem?_eq_getElem (show 0 < lon.length by omega), List.getElem?_eq_getElem (show 1 < lon.length by omega)] at this ⊢
  simp only [Option.getD_some] at this ⊢
  split_ifs
  · rw [abs_of_pos (by linarith)]
  · rfl

theorem Zone.extended {lon lat : List K} (z : Zone lon lat) (f : Fmt) (hc : List (List (Fld K))) :
    extended f (lon.getD 1 0 - lon.getD 0 0) ⟨lon, lat, hc⟩ = .ok ⟨lon, lat, hc⟩ := by
  have h2 := z.two
  have g := z.gap
  have d := getD_lt z.lon (show 0 < 1 by omega) (by omega)
  have first : lon.head? = some (lon.getD 0 0) := by
    rw [List.head?_eq_getElem?, List.getD_eq_getElem?_getD, List.getElem?_eq_getElem (show 0 < lon.length by omega)]
    rfl
  have last : lon.getLast? = some (lon.getD (lon.length - 1) 0) := by
    rw [List.getLast?_eq_getElem?, List.getD_eq_getElem?_getD,
      List.getElem?_eq_getElem (show lon.length - 1 < lon.length by omega)]
    rfl
  unfold Extract.extended
  simp only [first, last]
  rw [if_neg]
  unfold Interp.isclose
  rw [decide_eq_true_eq, not_le]
  have r := z.range
  have e1 : |360 - (lon.getD 1 0 - lon.getD 0 0)| ≤ (360 : K) := by
    rw [abs_le]; constructor <;> linarith
  have e2 : (1 : K) / 100 ≤ |lon.getD (lon.length - 1) 0 - lon.getD 0 0 - (360 - (lon.getD 1 0 - lon.getD 0 0))| := by
    rw [abs_of_neg (by linarith)]; linarith
  refine lt_of_lt_of_le ?_ e2
  have : (1 : K) / 10 ^ 5 * |360 - (lon.getD 1 0 - lon.getD 0 0)| ≤ 1 / 10 ^ 5 * 360 :=
    mul_le_mul_of_nonneg_left e1 (by norm_num)
  refine lt_of_le_of_lt (add_le_add_right this _) ?_
  norm_num

/-! ## Places outside -/

theorem Zone.outside {lon lat : List K} (z : Zone lon lat) (q : K × K) :
    ∃ b, outside lon lat q = .ok b ∧ (b = true ↔ ¬ Inside lon lat q) := by
  refine ⟨_, by unfold Extract.outside; rw [min?_increasing z.lon z.two, max?_increasing z.lon z.two,
    min?_increasing z.lat z.two', max?_increasing z.lat z.two'], ?_⟩
  rw [decide_eq_true_eq]
  unfold Inside
  constructor
  · rintro h ⟨h1, h2, h3, h4⟩
    rcases h with h | h | h | h <;> linarith
  · intro h
    by_contra c
    simp only [not_or, not_lt] at c
    exact h c

/-- At a place outside no method fails; `'linear'` and `'bilinear'` give nothing there. -/
theorem atPoint_outside {lon lat : List K} (z : Zone lon lat) (m : Method) (stored : Bool) (hc : List (List (Fld K)))
    (scale : K) {q : K × K} (hq : ¬ Inside lon lat q) :
    ∃ o, atPoint m stored lon lat hc scale q = .ok o ∧ (m ≠ .spline → o = .masked) := by
  have asc : Ascending lon lat := ⟨z.lon, z.lat⟩
  cases m with
  | spline =>
    unfold atPoint splineC
    simp only
    rw [if_pos ⟨asc, z.two, z.two'⟩, ok_bind]
    exact ⟨_, rfl, fun h => absurd rfl h⟩
  | linear =>
    have none : ∀ rows : List (List K), Spline.linear lon lat rows q.1 q.2 = none := by
      intro rows
      unfold Spline.linear
      rw [if_neg]
      rintro ⟨h1, h2⟩
      unfold Spline.clamp at h1 h2
      rw [headD_getD, getLastD_getD] at h1 h2
      refine hq ⟨?_, ?_, ?_, ?_⟩
      · rw [← h1]; exact le_max_left _ _
      · have := z.range
        rw [← h1]; exact max_le this.le (min_le_left _ _)
      · rw [← h2]; exact le_max_left _ _
      · have := getD_le z.lat (Nat.zero_le (lat.length - 1)) (by have := z.two'; omega)
        rw [← h2]; exact max_le this (min_le_left _ _)
    unfold atPoint regularC
    simp only
    rw [if_pos asc, none, none, none, ok_bind]
    exact ⟨_, rfl, fun _ => by simp⟩
  | bilinear =>
    have e : ∀ (d : ℕ → ℕ → Interp.Cell K) (fill : Option K), Interp.bilinear (ofList lon) (ofList lat) d fill q.1 q.2 =
        .ok ⟨fill, true⟩ := by
      intro d fill
      unfold Interp.bilinear
      rw [ofList_toList, ofList_toList, min?_increasing z.lon z.two, max?_increasing z.lon z.two,
        min?_increasing z.lat z.two', max?_increasing z.lat z.two']
      simp only
      rw [if_neg]
      rintro ⟨h1, h2, h3, h4⟩
      exact hq ⟨h1, h2, h3.le, h4.le⟩
    unfold atPoint bilinearC
    simp only
    rw [e, e, ok_bind, ok_bind, ok_bind]
    exact ⟨_, rfl, fun _ => rfl⟩

/-- One place, written in the convention of the file. -/
theorem evaluate_region {g : Layer K} (h : Region g) (f : Fmt) (r : Request K) (hf : f.bounded = true ∨ r.method ≠ .spline)
    (hn : ∀ x y hc q, r.near x y hc q = none) (stored : Bool) (t : K → K) (pts : List (K × K))
    (hp : ∀ p ∈ pts, Asked r.method g.lon g.lat p) (hl : ∀ p ∈ pts, Landed g.lon g.lat p (t p.1, p.2)) :
    ∃ outs, evaluate f r stored g.lon g.lat g.hc (pts.map fun p => (t p.1, p.2)) = .ok outs ∧
      List.Forall₂ (Answers r.method g r.scale) pts outs := by
  have key : ∀ p ∈ pts, ∃ o, (do
      let o ← atPoint r.method stored g.lon g.lat g.hc r.scale (t p.1, p.2)
      let inv ← (if f.bounded then outside g.lon g.lat (t p.1, p.2) else .ok false)
      (.ok (if inv then .masked else r.fill g.lon g.lat g.hc (t p.1, p.2) o) : Except PyErr (Out K))) = .ok o ∧
      Answers r.method g r.scale p o := by
    intro p hpm
    have L := hl p hpm
    by_cases hin : Inside g.lon g.lat (t p.1, p.2)
    · obtain ⟨k, ek⟩ := L.turn
      obtain ⟨b1, b2, b3, b4⟩ := hin
      obtain ⟨outs, eo, ho⟩ := evaluate_inside h.shows f r hn stored (fun c hc => h.toZone.far c hc) [(t p.1, p.2)] (by
        intro q hq
        rw [List.mem_singleton] at hq
        subst hq
        refine ⟨b1, b2, b3, b4, fun e => ?_⟩
        have := (hp p hpm).strict e k (by rw [← ek]; exact ⟨b1, b2, b3, b4⟩)
        rw [← ek] at this
        exact this)
      cases ho with
      | cons hm ht =>
        cases ht
        rename_i o
        refine ⟨o, ?_, ?_, ?_⟩
        · unfold evaluate pyMap at eo
          generalize (do
            let o ← atPoint r.method stored g.lon g.lat g.hc r.scale (t p.1, p.2)
            let inv ← (if f.bounded then outside g.lon g.lat (t p.1, p.2) else .ok false)
            (.ok (if inv then .masked else r.fill g.lon g.lat g.hc (t p.1, p.2) o) : Except PyErr (Out K))) = z at eo ⊢
          cases z with
          | error _ => cases eo
          | ok v =>
            simp only [pyMap, Except.ok.injEq, List.cons.injEq, and_true] at eo
            rw [eo]
        · intro l hin'
          rw [← L.there l hin']
          exact hm
        · intro hno
          exact absurd (show Inside g.lon g.lat (turned p k) by rw [← ek]; exact ⟨b1, b2, b3, b4⟩) (hno k)
    · obtain ⟨o, eo, hm⟩ := atPoint_outside h.toZone r.method stored g.hc r.scale hin
      obtain ⟨b, eb, hb⟩ := h.toZone.outside (t p.1, p.2)
      have final : ∃ inv : Bool, (if f.bounded then outside g.lon g.lat (t p.1, p.2) else .ok false) = .ok inv ∧
          (inv = true ∨ o = .masked) := by
        cases hb' : f.bounded with
        | true => exact ⟨b, by simpa using eb, Or.inl (hb.2 hin)⟩
        | false => exact ⟨false, rfl, Or.inr (hm (hf.resolve_left (by rw [hb']; simp)))⟩
      obtain ⟨inv, ei, hi⟩ := final
      refine ⟨.masked, ?_, ?_, fun _ => rfl⟩
      · rw [eo, ok_bind, ei, ok_bind]
        rcases hi with rfl | rfl
        · rfl
        · cases inv
          · simp [Request.fill, hn]
          · rfl
      · intro l hin'
        have := L.there l hin'
        rw [← this] at hin'
        exact absurd hin' hin
  unfold evaluate
  obtain ⟨outs, e, ho⟩ := pyMap_rel key
  refine ⟨outs, ?_, ho⟩
  rw [← e]
  clear e ho key hl hp
  induction pts with
  | nil => rfl
  | cons p l ih => simp only [List.map_cons, pyMap]; rw [ih]

theorem zip_lands (t : K → K) (pts : List (K × K)) :
    ((pts.map Prod.fst).map t).zip (pts.map Prod.snd) = pts.map fun p => (t p.1, p.2) := by
  rw [List.map_map, List.zip_map']
  rfl

theorem Answers.turn {m : Method} {g : Layer K} {scale : K} {p q : K × K} {o : Out K} (e : ∃ k : ℤ, q = turned p k)
    (h : Answers m g scale q o) : Answers m g scale p o := by
  obtain ⟨k, rfl⟩ := e
  have sh : ∀ l : ℤ, turned p l = turned (turned p k) (l - k) := fun l => by
    rw [turned_turned]; congr 1; omega
  refine ⟨fun l hl => ?_, fun hno => h.2 fun l hl => hno (k + l) ?_⟩
  · rw [sh l] at hl ⊢
    exact h.1 _ hl
  · rw [turned_turned] at hl
    exact hl

theorem Asked.turn {m : Method} {lon lat : List K} {p q : K × K} (e : ∃ k : ℤ, q = turned p k)
    (h : Asked m lon lat p) (w : -180 < q.1) (ea : q.1 < 360) : Asked m lon lat q := by
  obtain ⟨k, rfl⟩ := e
  refine ⟨w, ea, fun hm l hl => ?_⟩
  rw [turned_turned] at hl ⊢
  exact h.strict hm _ hl

/-- **C109** for files of regional models that are read when the constants are asked for.  Whatever the
number of files, their regions and conventions of longitude, and the batch of places: a place in the
region of a file gets the interpolation of its field, a place outside gets nothing.  Excluded: the method
`'spline'` of GOT models, see `C109_got_false`. -/
theorem C109_extract_partial (f : Fmt) (r : Request K) (hf : f.bounded = true ∨ r.method ≠ .spline)
    (hr : r.crop = false) (hn : ∀ x y hc q, r.near x y hc q = none) (files : List (Layer K))
    (hg : ∀ g ∈ files, Region g) (pts : List (K × K)) (hne : pts ≠ [])
    (hp : ∀ g ∈ files, ∀ p ∈ pts, Asked r.method g.lon g.lat p) (hw : ∀ p ∈ pts, -180 < p.1 ∧ p.1 < 360) :
    ∃ outs, extract f r files pts = .ok outs ∧
      List.Forall₂ (fun g row => List.Forall₂ (Answers r.method g r.scale) pts row) files outs := by
  have loop : ∀ (fs : List (Layer K)) (box : Box K) (ps : List (K × K)),
      (∀ g ∈ fs, Region g) → (∀ g ∈ fs, ∀ p ∈ ps, Asked r.method g.lon g.lat p) → ps ≠ [] →
      (∀ p ∈ ps, -180 < p.1 ∧ p.1 < 360) →
      List.Forall₂ (fun p q : K × K => ∃ k : ℤ, q = turned p k) pts ps →
      ∃ outs, extractFiles f r box fs ps = .ok outs ∧
        List.Forall₂ (fun g row => List.Forall₂ (Answers r.method g r.scale) pts row) fs outs := by
    intro fs box
    induction fs with
    | nil => intro ps _ _ _ _ _; exact ⟨[], rfl, .nil⟩
    | cons g fs ih =>
      intro ps hG hP hN hW hS
      have gg := hG g (by simp)
      obtain ⟨t, et, lt⟩ := adjust_lands gg.toZone hN hW
      obtain ⟨row, e1, m1⟩ := evaluate_region gg f r hf hn false t ps (hP g (by simp)) lt
      have hW' : ∀ q ∈ ps.map (fun p => (t p.1, p.2)), ∃ p ∈ ps, (∃ k : ℤ, q = turned p k) ∧ -180 < q.1 ∧ q.1 < 360 := by
        intro q hq
        obtain ⟨p, hpm, rfl⟩ := List.mem_map.1 hq
        exact ⟨p, hpm, (lt p hpm).turn, (lt p hpm).west, (lt p hpm).east⟩
      obtain ⟨rest, e2, m2⟩ := ih (ps.map fun p => (t p.1, p.2)) (fun g' hg' => hG g' (by simp [hg']))
        (by
          intro g' hg' q hq
          obtain ⟨p, hpm, k, w, e⟩ := hW' q hq
          exact (hP g' (by simp [hg']) p hpm).turn k w e)
        (by simpa using hN)
        (fun q hq => by obtain ⟨_, _, _, w, e⟩ := hW' q hq; exact ⟨w, e⟩)
        (by
          rw [List.forall₂_map_right_iff]
          refine (forall₂_mem (List.Forall₂.flip hS)).flip.imp fun p q hpq => ?_
          obtain ⟨hq, k, rfl⟩ := hpq
          obtain ⟨l, el⟩ := (lt _ hq).turn
          exact ⟨k + l, by rw [el, turned_turned]⟩)
      refine ⟨row :: rest, ?_, .cons ?_ m2⟩
      · have place : place r box (g.lon.getD 1 0 - g.lon.getD 0 0) g ps = .ok (g, ps.map fun p => (t p.1, p.2)) := by
          unfold Extract.place
          rw [if_neg (by rw [hr]; simp), min?_increasing gg.lon gg.two, max?_increasing gg.lon gg.two]
          simp only
          rw [et, ok_bind, zip_lands]
        rw [extractFiles]
        unfold extractFile
        have ext := gg.toZone.extended f g.hc
        rw [gg.toZone.step, ok_bind, place, ok_bind]
        simp only
        rw [ext, ok_bind]
        simp only
        rw [e1, ok_bind, ok_bind]
        simp only
        rw [e2, ok_bind]
      · refine forall₂_trans hS m1 fun p q o hpq hm => hm.turn hpq
  obtain ⟨mn, h1, -⟩ := exists_min (pts.map Prod.fst) (by simpa using hne)
  obtain ⟨mx, h2, -⟩ := exists_max (pts.map Prod.fst) (by simpa using hne)
  obtain ⟨nn, h3, -⟩ := exists_min (pts.map Prod.snd) (by simpa using hne)
  obtain ⟨nx, h4, -⟩ := exists_max (pts.map Prod.snd) (by simpa using hne)
  unfold extract Request.boundsOr
  rw [h1, h2, h3, h4]
  simp only
  rw [ok_bind]
  exact loop files _ pts hg hp hne hw (List.forall₂_same.2 fun p _ => ⟨0, (turned_zero p).symm⟩)

/-- **C109** for an object the files were read into.  All files have the same axes. -/
theorem C109_stored_partial (f : Fmt) (r : Request K) (hf : f.bounded = true ∨ r.method ≠ .spline)
    (hn : ∀ x y hc q, r.near x y hc q = none) (files : List (Layer K)) (hfs : files ≠ []) (lon lat : List K)
    (hax : ∀ g ∈ files, g.lon = lon ∧ g.lat = lat) (hg : ∀ g ∈ files, Region g) (pts : List (K × K)) (hne : pts ≠ [])
    (hp : ∀ p ∈ pts, Asked r.method lon lat p) :
    ∃ s outs, read f none files = .ok (some s) ∧ interpolate f r s pts = .ok outs ∧
      List.Forall₂ (fun g row => List.Forall₂ (Answers r.method g r.scale) pts row) files outs := by
  have hread : pyMap (readFile f none) files = .ok files := by
    clear hfs hax
    induction files with
    | nil => rfl
    | cons g l ih =>
      have e : readFile f none g = .ok g := by
        have z := (hg g (by simp)).toZone
        unfold readFile
        simp only
        rw [ok_bind, z.step, ok_bind]
        exact z.extended f g.hc
      rw [pyMap, e, ih fun g' h' => hg g' (by simp [h'])]
  obtain ⟨gl, hgl⟩ : ∃ gl, files.getLast? = some gl := by
    cases e : files.getLast? with
    | none => exact absurd (List.getLast?_eq_none_iff.1 e) hfs
    | some gl => exact ⟨gl, rfl⟩
  have hmem : gl ∈ files := List.mem_of_getLast? hgl
  have z : Zone lon lat := by
    have := (hg gl hmem).toZone
    rw [(hax gl hmem).1, (hax gl hmem).2] at this
    exact this
  obtain ⟨t, et, lt⟩ := adjust_lands z hne fun p hpm => ⟨(hp p hpm).west, (hp p hpm).east⟩
  obtain ⟨outs, eo, ho⟩ := pyMap_rel (l := files)
    (f := fun g => evaluate f r true lon lat g.hc (pts.map fun p => (t p.1, p.2)))
    (R := fun g row => List.Forall₂ (Answers r.method g r.scale) pts row) (by
      intro g hgm
      have a := hax g hgm
      have := evaluate_region (hg g hgm) f r hf hn true t pts (by rw [a.1, a.2]; exact hp) (by rw [a.1, a.2]; exact lt)
      rw [a.1, a.2] at this
      exact this)
  refine ⟨⟨gl.lon, gl.lat, files.map Layer.hc⟩, outs, ?_, ?_, ho⟩
  · unfold read
    rw [hread, ok_bind, hgl]
    rfl
  · unfold interpolate
    simp only
    rw [(hax gl hmem).1, (hax gl hmem).2, min?_increasing z.lon z.two, max?_increasing z.lon z.two]
    simp only
    rw [et, ok_bind, zip_lands, ← eo]
    clear eo ho hread hgl hmem hax hg hfs
    induction files with
    | nil => rfl
    | cons g l ih => simp only [List.map_cons, pyMap]; rw [ih]

/-! ## Examples -/

/-- A region from 20 degrees west to 20 degrees east. -/
def regionFile : Layer ℚ where
  lon := [-20, 0, 20]
  lat := [-10, 10]
  hc := [[⟨1, 2, false⟩, ⟨3, 4, false⟩, ⟨0, 0, true⟩], [⟨5, 6, false⟩, ⟨7, 8, false⟩, ⟨9, 10, false⟩]]

/-- The same region from 340 to 380 degrees. -/
def farFile : Layer ℚ := { regionFile with lon := [340, 360, 380] }

theorem regionFile_region : Region regionFile := by
  refine ⟨⟨?_, ?_, ?_, ?_, ?_, ?_⟩, rfl, ?_⟩ <;> decide +kernel

def request (m : Method) : Request ℚ := ⟨m, false, none, none, fun _ _ _ _ => none, 1⟩

/-- The hypotheses of `C109_extract_partial` can hold, and its answers are not empty. -/
example : ∃ outs, extract fes (request .spline) [regionFile] [(350, 0), (-10, 0), (60, 0)] = .ok outs ∧
    List.Forall₂ (fun g row => List.Forall₂ (Answers .spline g 1) [(350, 0), (-10, 0), (60, 0)] row) [regionFile] outs :=
  C109_extract_partial fes (request .spline) (Or.inl rfl) rfl (fun _ _ _ _ => rfl) [regionFile]
    (by intro g hg; rw [List.mem_singleton] at hg; subst hg; exact regionFile_region) _ (by simp)
    (by
      intro g hg p hp
      exact ⟨(by decide +kernel : ∀ p ∈ ([(350, 0), (-10, 0), (60, 0)] : List (ℚ × ℚ)), -180 < p.1) p hp,
        (by decide +kernel : ∀ p ∈ ([(350, 0), (-10, 0), (60, 0)] : List (ℚ × ℚ)), p.1 < 360) p hp,
        fun h => by cases h⟩)
    (by decide +kernel)

example : extract fes (request .spline) [regionFile] [(350, 0), (-10, 0), (60, 0)] =
    .ok [[.val 4 5 1, .val 4 5 1, .masked]] := by decide +kernel

/-- Not so for GOT models: with the method `'spline'` a place outside, at whatever distance, gets the value
on the rim of the region. -/
theorem C109_got_false : extract got (request .spline) [regionFile] [(-120, 0), (-20, 0)] =
      .ok [[.val 3 4 1, .val 3 4 1]] ∧
    extract fes (request .spline) [regionFile] [(-120, 0), (-20, 0)] = .ok [[.masked, .val 3 4 1]] ∧
    extract got (request .linear) [regionFile] [(-120, 0), (-20, 0)] = .ok [[.masked, .val 3 4 1]] := by
  decide +kernel

/-- Not so for regions that extend across the end of their convention: a place in the east of the region is
taken to lie outside. -/
theorem C109_convention_false : extract fes (request .spline) [farFile] [(350, 0), (0, 0)] =
    .ok [[.val 4 5 1, .masked]] ∧ extract fes (request .spline) [regionFile] [(350, 0), (0, 0)] =
    .ok [[.val 4 5 1, .val 5 6 1]] := by
  decide +kernel

/-- Not so on the rim with the method `'bilinear'`: a place on the first parallel gets nothing, and one on
the last column makes the whole batch fail. -/
theorem C109_rim_false : extract fes (request .bilinear) [regionFile] [(-10, -10), (0, 0)] =
      .ok [[.masked, .val 5 6 1]] ∧
    extract fes (request .spline) [regionFile] [(-10, -10), (0, 0)] = .ok [[.val 2 3 1, .val 5 6 1]] ∧
    extract fes (request .bilinear) [regionFile] [(20, 0), (0, 0)] = .error .valueError := by
  decide +kernel

end Verif.Extract
