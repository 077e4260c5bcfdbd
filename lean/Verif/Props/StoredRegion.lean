import Verif.Props.ExtrapolatedStored
import Verif.Props.OtisCrop
/-!
C74 and C112 for regional and projected OTIS models that are read first and interpolated later.
-/
namespace Verif.Staggered
open Verif Verif.Spec Verif.Grid Verif.Extract

variable {K : Type} [Field K] [LinearOrder K] [IsStrictOrderedRing K]

/-- The object that is read from the files of a region, and the batches of places that it can be asked for. -/
theorem read_region {s : Site K} (h : Rect s) (geographic : Bool) (hg : Partial s geographic true) (m : Method)
    (node : Node) (rim : Rim s false (region s) node)
    (far : m = .bilinear → ∀ c : ℕ, c < s.x.length → |s.x.getD c 0 - half node (s.x.getD 1 0 - s.x.getD 0 0)| ≤ 720)
    (fields : List (List (List (Fld K)))) (hf : ∀ hc ∈ fields, CGrid.Shape hc s.y.length s.x.length) :
    ∃ st, read geographic node none s fields = .ok st ∧ st.geographic = geographic ∧
      st.x = nodeX node (s.x.getD 1 0 - s.x.getD 0 0) s.x ∧ st.y = nodeY node (s.y.getD 1 0 - s.y.getD 0 0) s.y ∧
      Shows st.x st.y st.bath ((region s).depths node.points) 0 0 ∧
      List.Forall₂ (fun hc hc' => hc ∈ fields ∧
        Shows st.x st.y hc' ((region s).chart node.points (regionValue hc)) 0 0) fields st.fields ∧
      (m = .bilinear → ∀ c : ℕ, c < st.x.length → |st.x.getD c 0| ≤ 720) ∧
      ∀ pts : List (K × K), pts ≠ [] → (∀ p ∈ pts, Within m node s.x p) → (∀ p ∈ pts, Band m node s.y p) →
        adjust geographic false st.x pts = .ok pts ∧
        ∀ q ∈ pts, Inside m st.x st.y q ∧ outside st.x st.y q = .ok false := by
  obtain ⟨f, ef, fx, fy, fnx, fny, sb, cons⟩ := regional_shows h node rim hg
  obtain ⟨c0, c1, c2⟩ := cols_inside h.asc.1 h.two node
  obtain ⟨r0, r1, r2⟩ := rows_inside h.asc.2 h.two' node
  obtain ⟨hcs, eh, hh⟩ := pyMap_rel (f := constituent geographic none s.x s.y f) (l := fields)
    (R := fun hc hc' => hc ∈ fields ∧
      Shows f.nx f.ny hc' ((region s).chart node.points (regionValue hc)) 0 0) fun hc hm => by
        obtain ⟨hc', e, st⟩ := cons hc (hf hc hm)
        exact ⟨hc', e, hm, st⟩
  refine ⟨⟨geographic, f.nx, f.ny, f.bath, hcs⟩, ?_, rfl, fnx, fny, sb, hh, ?_, fun pts hne hx hb => ?_⟩
  · unfold read
    simp only [Option.filter_none]
    rw [step_getD h.two, ok_bind, step_getD h.two', ok_bind]
    simp only [cropIf]
    rw [ok_bind]
    dsimp only
    rw [ok_bind]
    dsimp only
    rw [ef, ok_bind]
    simp only [aliased]
    rw [ok_bind, eh, ok_bind]
  · intro hm c hc
    dsimp only at hc ⊢
    rw [fnx, nodeX_length] at hc
    have := far hm c hc
    rw [fnx, nodeX_getD _ _ _ _ hc]
    unfold half at this
    split_ifs with e
    · rwa [if_pos e] at this
    · rwa [if_neg e, sub_zero] at this
  · dsimp only
    have hin : ∀ q ∈ pts, Inside m f.nx f.ny q := by
      intro q hq
      have w := hx q hq
      have b := hb q hq
      rw [fnx, fny]
      exact ⟨le_trans c0 w.west, by rw [c1]; exact w.east, le_trans r0 b.south, by rw [r1]; exact b.north,
        fun e => ⟨by rw [c1]; exact w.strict e, lt_of_le_of_lt r0 (b.strict e).1, by rw [r1]; exact (b.strict e).2⟩⟩
    refine ⟨adjust_within sb.asc.1 sb.two geographic hne fun p hp => ?_, fun q hq =>
      ⟨hin q hq, (hin q hq).outside sb.asc sb.two sb.two'⟩⟩
    exact ⟨(hin p hp).1, (hin p hp).2⟩

/-- **C74** for a region, in degrees or on a projection: the constants interpolated from the stored model are
the interpolation of the field in its files, for every batch of places. -/
theorem C74_region_partial {s : Site K} (h : Rect s) (geographic : Bool) (hg : Partial s geographic true) (m : Method)
    (node : Node) (speed : Bool) (near : Near K)
    (hn : ∀ x y hc q, near x y hc q = none) (hq : speed = true → node ≠ .z) (rim : Rim s false (region s) node)
    (far : m = .bilinear → ∀ c : ℕ, c < s.x.length → |s.x.getD c 0 - half node (s.x.getD 1 0 - s.x.getD 0 0)| ≤ 720)
    (fields : List (List (List (Fld K)))) (hf : ∀ hc ∈ fields, CGrid.Shape hc s.y.length s.x.length ∧
      Complete m true (region s) node.points (regionValue hc)) :
    ∃ st, read geographic node none s fields = .ok st ∧ ∀ pts : List (K × K), pts ≠ [] →
      (∀ p ∈ pts, Within m node s.x p) → (∀ p ∈ pts, Band m node s.y p) →
      ∃ ds outs, interpolate m near speed st pts = .ok (ds, outs) ∧
        List.Forall₂ (Sounds m ((region s).depths node.points)) pts ds ∧
        List.Forall₂ (fun hc os => List.Forall₂ (Agrees m speed
          ((region s).chart node.points (regionValue hc)) ((region s).depths node.points)) pts os) fields outs := by
  obtain ⟨st, er, eg, -, -, sb, hh, far', ask⟩ := read_region h geographic hg m node rim far fields
    fun hc hm => (hf hc hm).1
  refine ⟨st, er, fun pts hne hx hb => ?_⟩
  obtain ⟨ea, hin⟩ := ask pts hne hx hb
  obtain ⟨ds, ed, sd⟩ := depths_sound sb m far' fun q hq => (hin q hq).1
  have key : ∀ hc' ∈ st.fields, ∃ os, evaluate m near speed true st.x st.y st.x st.y st.bath hc' pts = .ok os ∧
      ∀ hc ∈ fields, Shows st.x st.y hc' ((region s).chart node.points (regionValue hc)) 0 0 →
      List.Forall₂ (Agrees m speed ((region s).chart node.points (regionValue hc))
        ((region s).depths node.points)) pts os := by
    intro hc' hm'
    obtain ⟨hc0, -, hm0, st0⟩ := forall₂_right hh hc' hm'
    obtain ⟨os, eo, -⟩ := evaluate_agrees st0 sb m near hn speed true (hf hc0 hm0).2
      (fun e => depths_positive _ (hq e)) far' hin
    refine ⟨os, eo, fun hc hm st' => ?_⟩
    obtain ⟨os', eo', ao⟩ := evaluate_agrees st' sb m near hn speed true (hf hc hm).2
      (fun e => depths_positive _ (hq e)) far' hin
    rw [eo] at eo'
    cases eo'
    exact ao
  obtain ⟨outs, eo, ao⟩ := pyMap_rel key
  refine ⟨ds, outs, ?_, sd, forall₂_trans hh ao fun hc hc' os g1 g2 => g2 hc g1.1 g1.2⟩
  unfold interpolate
  rw [eg, ea, ok_bind, ed, ok_bind, eo, ok_bind]

/-- **C74** for a region: with `'spline'` and `'linear'` the stored model gives what extracting the constants
gives, for every batch of places. -/
theorem C74_region_same_partial {s : Site K} (h : Rect s) (r : Ask K) (hr : r.crop = false)
    (hg : Partial s r.geographic false) (hg' : Partial s r.geographic true) (hm : r.method ≠ .bilinear)
    (hn : ∀ x y hc q, r.near x y hc q = none) (hq : r.quantity.speed = true → r.quantity.node ≠ .z)
    (rim : Rim s false (region s) r.quantity.node)
    (fields : List (List (List (Fld K)))) (hf : ∀ hc ∈ fields, CGrid.Shape hc s.y.length s.x.length ∧
      Complete r.method true (region s) r.quantity.node.points (regionValue hc))
    (pts : List (K × K)) (hne : pts ≠ []) (hx : ∀ p ∈ pts, Within r.method r.quantity.node s.x p)
    (hb : ∀ p ∈ pts, Band r.method r.quantity.node s.y p) :
    ∃ res, extract r s fields pts = .ok res ∧ (do
      let st ← read r.geographic r.quantity.node none s fields
      interpolate r.method r.near r.quantity.speed st pts) = .ok res := by
  obtain ⟨ds, outs, ee, sd, ao⟩ := C73_region_partial h r hr hg hn hq rim (fun e => absurd e hm) fields
    (fun hc hm => ⟨(hf hc hm).1, (hf hc hm).2.extracted⟩) pts hne hx hb
  obtain ⟨st, er, key⟩ := C74_region_partial h r.geographic hg' r.method r.quantity.node r.quantity.speed r.near hn hq
    rim (fun e => absurd e hm) fields hf
  obtain ⟨ds', outs', ei, sd', ao'⟩ := key pts hne hx hb
  have e1 : ds = ds' := forall₂_unique sd sd' fun _ _ _ a b => Sounds.unique (region_ordered h _ _) hm a b
  have e2 : outs = outs' := forall₂_unique ao ao' fun hc os os' a b =>
    forall₂_unique a b fun _ _ _ a b => Agrees.unique (region_ordered h _ _) (region_ordered h _ _) hm a b
  exact ⟨_, ee, by rw [er, ok_bind, ei, ← e1, ← e2]⟩

end Verif.Staggered

namespace Verif.Near
open Verif Verif.Spec Verif.Grid Verif.Extract

variable {K : Type} [Field K] [LinearOrder K] [IsStrictOrderedRing K] {n : ℕ}

/-- Stored regional OTIS models, for any way to measure distances. -/
theorem interpolateOtis_region {s : Staggered.Site K} (h : Staggered.Rect s) (geographic : Bool)
    (hg : Staggered.Partial s geographic true) (m : Method) (node : Staggered.Node) (t : Tree K n)
    (hk : Extrap.KDSpec t.query) (rim : Staggered.Rim s false (Staggered.region s) node)
    (far : m = .bilinear → ∀ c : ℕ, c < s.x.length →
      |s.x.getD c 0 - Staggered.half node (s.x.getD 1 0 - s.x.getD 0 0)| ≤ 720)
    (fields : List (List (List (Fld K)))) (hf : ∀ hc ∈ fields, CGrid.Shape hc s.y.length s.x.length ∧
      Staggered.Complete m true (Staggered.region s) node.points (Staggered.regionValue hc) ∧
      ∀ k j, (Staggered.region s).Wet node.points k j → Staggered.regionValue hc k j ≠ some (0, 0)) :
    ∃ st, Staggered.read geographic node none s fields = .ok st ∧ ∀ pts : List (K × K), pts ≠ [] →
      (∀ p ∈ pts, Staggered.Within m node s.x p) → (∀ p ∈ pts, Staggered.Band m node s.y p) →
      ∃ ds outs, interpolateOtis m t false st pts = .ok (ds, outs) ∧
        List.Forall₂ (Staggered.Sounds m ((Staggered.region s).depths node.points)) pts ds ∧
        List.Forall₂ (fun hc os => List.Forall₂ (Answers (Staggered.Agrees m false
          ((Staggered.region s).chart node.points (Staggered.regionValue hc))
          ((Staggered.region s).depths node.points))
          ((Staggered.region s).chart node.points (Staggered.regionValue hc)) 1
          (fun a b => Extrap.dist (t.pos a) (t.pos b)) t.cutoff) pts os) fields outs := by
  obtain ⟨st, er, eg, ex, ey, sb, hh, far', ask⟩ := Staggered.read_region h geographic hg m node rim far fields
    fun hc hm => (hf hc hm).1
  refine ⟨st, er, fun pts hne hx hb => ?_⟩
  obtain ⟨ea, hin⟩ := ask pts hne hx hb
  obtain ⟨ds, ed, sd⟩ := Staggered.depths_sound sb m far' fun q hq => (hin q hq).1
  have one : ∀ hc ∈ fields, ∀ hc',
      Shows st.x st.y hc' ((Staggered.region s).chart node.points (Staggered.regionValue hc)) 0 0 →
      ∃ os, evaluateOtis m t false true st.x st.y st.x st.y st.bath hc' pts = .ok os ∧
      List.Forall₂ (Answers (Staggered.Agrees m false
        ((Staggered.region s).chart node.points (Staggered.regionValue hc))
        ((Staggered.region s).depths node.points))
        ((Staggered.region s).chart node.points (Staggered.regionValue hc)) 1
        (fun a b => Extrap.dist (t.pos a) (t.pos b)) t.cutoff) pts os := by
    intro hc hm hc' sh
    obtain ⟨-, co, nz⟩ := hf hc hm
    have cover : Covers t.pos st.x st.y
        ((Staggered.region s).chart node.points (Staggered.regionValue hc)) 0 0 := by
      intro k j hk hj _
      have hk : 0 ≤ k ∧ k < s.x.length := hk
      have hj : 0 ≤ j ∧ j < s.y.length := hj
      refine ⟨k.toNat, j.toNat, ?_, ?_, ?_, ?_⟩
      · rw [ex, Staggered.nodeX_length]; omega
      · rw [ey, Staggered.nodeY_length]; omega
      · rw [Int.toNat_of_nonneg hk.1, Int.toNat_of_nonneg hj.1, zero_add, zero_add]
      · rw [Int.toNat_of_nonneg hk.1, Int.toNat_of_nonneg hj.1, zero_add, zero_add]
    exact otis_inside (ax := st.x) (ay := st.y) sh sb m t hk cover true co nz far' hin
  have key : ∀ hc' ∈ st.fields, ∃ os, evaluateOtis m t false true st.x st.y st.x st.y st.bath hc' pts = .ok os ∧
      ∀ hc ∈ fields,
        Shows st.x st.y hc' ((Staggered.region s).chart node.points (Staggered.regionValue hc)) 0 0 →
        List.Forall₂ (Answers (Staggered.Agrees m false
          ((Staggered.region s).chart node.points (Staggered.regionValue hc))
          ((Staggered.region s).depths node.points))
          ((Staggered.region s).chart node.points (Staggered.regionValue hc)) 1
          (fun a b => Extrap.dist (t.pos a) (t.pos b)) t.cutoff) pts os := by
    intro hc' hm'
    obtain ⟨hc0, -, hm0, st0⟩ := forall₂_right hh hc' hm'
    obtain ⟨os, eo, -⟩ := one hc0 hm0 hc' st0
    refine ⟨os, eo, fun hc hm sh => ?_⟩
    obtain ⟨os', eo', ao⟩ := one hc hm hc' sh
    rw [eo] at eo'
    cases eo'
    exact ao
  obtain ⟨outs, eo, ao⟩ := pyMap_rel key
  refine ⟨ds, outs, ?_, sd, forall₂_trans hh ao fun hc hc' os g1 g2 => g2 hc g1.1 g1.2⟩
  unfold interpolateOtis
  rw [eg, ea, ok_bind, ed, ok_bind, eo, ok_bind]

/-- C112 for elevations and transports of a regional OTIS model in degrees that is read first and interpolated
later, for every batch of places. -/
theorem C112_region_stored_partial {s : Staggered.Site ℝ} (h : Staggered.Rect s)
    (hg : Staggered.Partial s true true) (m : Method) (node : Staggered.Node)
    (query : Extrap.Query 3) (hk : Extrap.KDSpec query) (cutoff : Option ℝ)
    (rim : Staggered.Rim s false (Staggered.region s) node)
    (far : m = .bilinear → ∀ c : ℕ, c < s.x.length →
      |s.x.getD c 0 - Staggered.half node (s.x.getD 1 0 - s.x.getD 0 0)| ≤ 720)
    (fields : List (List (List (Fld ℝ)))) (hf : ∀ hc ∈ fields, CGrid.Shape hc s.y.length s.x.length ∧
      Staggered.Complete m true (Staggered.region s) node.points (Staggered.regionValue hc) ∧
      ∀ k j, (Staggered.region s).Wet node.points k j → Staggered.regionValue hc k j ≠ some (0, 0)) :
    ∃ st, Staggered.read true node none s fields = .ok st ∧ ∀ pts : List (ℝ × ℝ), pts ≠ [] →
      (∀ p ∈ pts, Staggered.Within m node s.x p) → (∀ p ∈ pts, Staggered.Band m node s.y p) →
      ∃ ds outs, interpolateOtis m ⟨query, cutoff, onEarth⟩ false st pts = .ok (ds, outs) ∧
        List.Forall₂ (Staggered.Sounds m ((Staggered.region s).depths node.points)) pts ds ∧
        List.Forall₂ (fun hc os => List.Forall₂ (Answers (Staggered.Agrees m false
          ((Staggered.region s).chart node.points (Staggered.regionValue hc))
          ((Staggered.region s).depths node.points))
          ((Staggered.region s).chart node.points (Staggered.regionValue hc)) 1 chord cutoff) pts os)
          fields outs := by
  have := interpolateOtis_region h true hg m node ⟨query, cutoff, onEarth⟩ hk rim far fields hf
  simp only [dist_chord] at this
  exact this

/-- C112 for elevations and transports of an OTIS model on a projection that is read first and interpolated
later: distances are those of the map. -/
theorem C112_projected_stored_partial {s : Staggered.Site ℝ} (h : Staggered.Rect s) (m : Method)
    (node : Staggered.Node) (query : Extrap.Query 2) (hk : Extrap.KDSpec query) (cutoff : Option ℝ)
    (rim : Staggered.Rim s false (Staggered.region s) node)
    (far : m = .bilinear → ∀ c : ℕ, c < s.x.length →
      |s.x.getD c 0 - Staggered.half node (s.x.getD 1 0 - s.x.getD 0 0)| ≤ 720)
    (fields : List (List (List (Fld ℝ)))) (hf : ∀ hc ∈ fields, CGrid.Shape hc s.y.length s.x.length ∧
      Staggered.Complete m true (Staggered.region s) node.points (Staggered.regionValue hc) ∧
      ∀ k j, (Staggered.region s).Wet node.points k j → Staggered.regionValue hc k j ≠ some (0, 0)) :
    ∃ st, Staggered.read false node none s fields = .ok st ∧ ∀ pts : List (ℝ × ℝ), pts ≠ [] →
      (∀ p ∈ pts, Staggered.Within m node s.x p) → (∀ p ∈ pts, Staggered.Band m node s.y p) →
      ∃ ds outs, interpolateOtis m ⟨query, cutoff, onPlane⟩ false st pts = .ok (ds, outs) ∧
        List.Forall₂ (Staggered.Sounds m ((Staggered.region s).depths node.points)) pts ds ∧
        List.Forall₂ (fun hc os => List.Forall₂ (Answers (Staggered.Agrees m false
          ((Staggered.region s).chart node.points (Staggered.regionValue hc))
          ((Staggered.region s).depths node.points))
          ((Staggered.region s).chart node.points (Staggered.regionValue hc)) 1 flat cutoff) pts os)
          fields outs := by
  have := interpolateOtis_region h false (Or.inl rfl) m node ⟨query, cutoff, onPlane⟩ hk rim far fields hf
  simp only [dist_flat] at this
  exact this

/-- A bay with land in its third column. -/
noncomputable def bay : Staggered.Site ℝ :=
  ⟨uniform 0 10 4, [-60, 0, 60], rows fun _ i => if i = 2 then 0 else 100, rows fun _ _ => true⟩

theorem bay_length : bay.x.length = 4 := by rw [show bay.x = uniform 0 10 4 from rfl, uniform_length]

theorem bay_rect : Staggered.Rect bay := by
  have l := bay_length
  refine ⟨⟨uniform_increasing 0 10 (by norm_num) 4, ?_⟩, by omega, by decide, ?_, ?_⟩
  · show ([-60, 0, 60] : List ℝ).Pairwise (· < ·)
    simp
  · rw [l]
    exact rows_shape _
  · rw [l]
    exact rows_shape _

/-- A tide in the bay. -/
theorem bay_tide (m : Method) (stored : Bool) :
    CGrid.Shape (rows fun j i => (⟨i + 1, j, false⟩ : Fld ℝ)) bay.y.length bay.x.length ∧
    Staggered.Complete m stored (Staggered.region bay) .elevation
      (Staggered.regionValue (rows fun j i => (⟨i + 1, j, false⟩ : Fld ℝ))) ∧
    ∀ k j, (Staggered.region bay).Wet .elevation k j →
      Staggered.regionValue (rows fun j i => (⟨i + 1, j, false⟩ : Fld ℝ)) k j ≠ some (0, 0) := by
  have l := bay_length
  have val : ∀ j < 3, ∀ i < 4, (Extract.entry (rows fun j i => (⟨i + 1, j, false⟩ : Fld ℝ)) j i).number =
      some ((i : ℝ) + 1, (j : ℝ)) := by
    intro j hj i hi
    unfold Extract.entry rows
    simp [List.getD_eq_getElem?_getD, hj, hi, Extract.Fld.number]
  have wet : ∀ k j, (Staggered.region bay).Wet .elevation k j → j.toNat < 3 ∧ k.toNat < 4 := by
    intro k j hw
    have hz : (bay.hz.getD j.toNat []).getD k.toNat 0 ≠ 0 := hw.2
    by_contra hn
    refine hz ?_
    by_cases hj : j.toNat < 3
    · have hk : ¬ k.toNat < 4 := fun h => hn ⟨hj, h⟩
      show ((rows fun _ i => if i = 2 then (0 : ℝ) else 100).getD j.toNat []).getD k.toNat 0 = 0
      have hr := (rows_shape fun _ i => if i = 2 then (0 : ℝ) else 100).2
        ((rows fun _ i => if i = 2 then (0 : ℝ) else 100).getD j.toNat []) (by
          rw [List.getD_eq_getElem?_getD, List.getElem?_eq_getElem (by rw [(rows_shape _).1]; exact hj),
            Option.getD_some]
          exact List.getElem_mem _)
      rw [List.getD_eq_getElem?_getD, List.getElem?_eq_none (by omega)]
      rfl
    · show ((rows fun _ i => if i = 2 then (0 : ℝ) else 100).getD j.toNat []).getD k.toNat 0 = 0
      unfold rows
      simp [List.getD_eq_getElem?_getD, hj]
  have all : ∀ k j, (Staggered.region bay).Wet .elevation k j →
      Staggered.regionValue (rows fun j i => (⟨i + 1, j, false⟩ : Fld ℝ)) k j =
        some (((k.toNat : ℕ) : ℝ) + 1, ((j.toNat : ℕ) : ℝ)) := fun k j hw =>
    val _ (wet k j hw).1 _ (wet k j hw).2
  have nz : ∀ k j, (Staggered.region bay).Wet .elevation k j →
      Staggered.regionValue (rows fun j i => (⟨i + 1, j, false⟩ : Fld ℝ)) k j ≠ some (0, 0) := by
    intro k j hw ee
    rw [all k j hw] at ee
    have e1 := (Prod.mk.inj (Option.some.inj ee)).1
    have : (0 : ℝ) ≤ ((k.toNat : ℕ) : ℝ) := Nat.cast_nonneg _
    linarith
  refine ⟨by rw [l]; exact rows_shape _, ⟨fun _ k j hw => by rw [all k j hw]; simp, fun _ => nz⟩, nz⟩

/-- The hypotheses of `C112_projected_stored_partial` and of `C74_region_partial` hold for the bay as a map,
with any method. -/
example (m : Method) (cutoff : Option ℝ) : ∃ (query : Extrap.Query 2) (st : Staggered.Stored ℝ)
    (ds : List (Option ℝ)) (outs : List (List (Out ℝ))) (ds' : List (Option ℝ)) (outs' : List (List (Out ℝ))),
    Staggered.read false .z none bay [rows fun j i => ⟨i + 1, j, false⟩] = .ok st ∧
    interpolateOtis m ⟨query, cutoff, onPlane⟩ false st [(5, 20), (21, -3)] = .ok (ds, outs) ∧
    Staggered.interpolate m (fun _ _ _ _ => none) false st [(5, 20), (21, -3)] = .ok (ds', outs') := by
  obtain ⟨query, hq⟩ := Extrap.kdspec_satisfiable (n := 2)
  have l := bay_length
  have g0 : bay.x.getD 0 0 = 0 := by
    rw [show bay.x = uniform 0 10 4 from rfl, uniform_getD _ _ _ _ (by omega)]; norm_num
  have g3 : bay.x.getD 3 0 = 30 := by
    rw [show bay.x = uniform 0 10 4 from rfl, uniform_getD _ _ _ _ (by omega)]; norm_num
  have far : m = .bilinear → ∀ c : ℕ, c < bay.x.length →
      |bay.x.getD c 0 - Staggered.half .z (bay.x.getD 1 0 - bay.x.getD 0 0)| ≤ 720 := by
    intro _ c hc
    rw [l] at hc
    rw [show bay.x = uniform 0 10 4 from rfl, uniform_getD _ _ _ _ hc, Staggered.half, if_neg (by decide), sub_zero,
      abs_le]
    have h1 : (0 : ℝ) ≤ c := Nat.cast_nonneg _
    have h2 : (c : ℝ) ≤ 4 := by exact_mod_cast hc.le
    constructor <;> linarith
  have hf : ∀ hc ∈ [rows fun j i => (⟨i + 1, j, false⟩ : Fld ℝ)], CGrid.Shape hc bay.y.length bay.x.length ∧
      Staggered.Complete m true (Staggered.region bay) .elevation (Staggered.regionValue hc) ∧
      ∀ k j, (Staggered.region bay).Wet .elevation k j → Staggered.regionValue hc k j ≠ some (0, 0) := by
    intro hc hm
    rw [List.mem_singleton.1 hm]
    exact bay_tide _ _
  have hx : ∀ p ∈ [((5 : ℝ), (20 : ℝ)), (21, -3)], Staggered.Within m .z bay.x p := by
    intro p hp
    simp only [List.mem_cons, List.not_mem_nil, or_false] at hp
    rcases hp with rfl | rfl <;>
      refine ⟨by rw [g0]; norm_num, ?_, fun _ => ?_⟩ <;>
      rw [l, show 4 - 1 = 3 from rfl, g3, Staggered.half, if_neg (by decide)] <;> norm_num
  have hb : ∀ p ∈ [((5 : ℝ), (20 : ℝ)), (21, -3)], Staggered.Band m .z bay.y p := by
    have e1 : bay.y.getD 0 0 = -60 := rfl
    have e2 : bay.y.getD (bay.y.length - 1) 0 = 60 := rfl
    intro p hp
    simp only [List.mem_cons, List.not_mem_nil, or_false] at hp
    rcases hp with rfl | rfl <;>
      exact ⟨by rw [e1]; norm_num, by rw [e2, Staggered.low, if_neg (by decide)]; norm_num, fun _ =>
        ⟨by rw [e1]; norm_num, by rw [e2, Staggered.low, if_neg (by decide)]; norm_num⟩⟩
  obtain ⟨st, e1, k1⟩ := C112_projected_stored_partial bay_rect m .z query hq cutoff (fun e => by cases e) far _ hf
  obtain ⟨st', e2, k2⟩ := Staggered.C74_region_partial bay_rect false (Or.inl rfl) m .z false (fun _ _ _ _ => none)
    (fun _ _ _ _ => rfl) (fun e => by cases e) (fun e => by cases e) far _ fun hc hm => ⟨(hf hc hm).1, (hf hc hm).2.1⟩
  rw [e1] at e2
  cases e2
  obtain ⟨ds, outs, e3, -⟩ := k1 [(5, 20), (21, -3)] (by simp) hx hb
  obtain ⟨ds', outs', e4, -⟩ := k2 [(5, 20), (21, -3)] (by simp) hx hb
  exact ⟨query, st, ds, outs, ds', outs', e1, e3, e4⟩

end Verif.Near
