import Verif.Props.ExtrapolatedLimits
import Verif.Props.ReadOTIS
/-!
C112 for ATLAS and OTIS models that are read first and interpolated later.
-/
namespace Verif.Near
open Verif Verif.Spec Verif.Grid Verif.Extract

variable {K : Type} [Field K] [LinearOrder K] [IsStrictOrderedRing K] {n : ℕ}

/-- Objects of global ATLAS models, for any way to measure distances that does not change after a turn. -/
theorem interpolateAtlas_answers {s : AtlasNet.Site K} {a : K} (h : AtlasNet.Around s a)
    {fields : List (List (List (K × K)))} {o : AtlasNet.Stored K} (ho : AtlasNet.Holds s a fields o)
    (spread : List K → List K → List (List (Fld K)) → K × K → Bool) (r : Request K)
    (t : Tree K n) (hq : Extrap.KDSpec t.query) (hturn : Turns t.pos)
    (pts : List (K × K)) (hne : pts ≠ []) (hp : ∀ p ∈ pts, AtlasNet.Spot r.method s p) (hf : AtlasNet.Fits s a pts) :
    ∃ ds outs o', interpolateAtlas spread r t false o pts = .ok ((ds, outs), o') ∧
      List.Forall₂ (fun hc row => List.Forall₂ (Answers
        (AtlasNet.Agrees r.method false r.scale (AtlasNet.tides s a hc) (AtlasNet.waters s a))
        (AtlasNet.tides s a hc) r.scale (fun a b => Extrap.dist (t.pos a) (t.pos b)) t.cutoff) pts row)
        fields outs := by
  have G : Global (⟨s.lon, s.lat, AtlasNet.depths s.depth⟩ : Layer K) a := h.global (AtlasNet.shape_map _ h.shape)
  obtain ⟨x0, x1, x2, x3⟩ := extended_range G fes
  have hx : o.lon = uniform (a - 360 / ((⟨s.lon, s.lat, AtlasNet.depths s.depth⟩ : Layer K).lon.length : K))
    (360 / ((⟨s.lon, s.lat, AtlasNet.depths s.depth⟩ : Layer K).lon.length : K))
    ((⟨s.lon, s.lat, AtlasNet.depths s.depth⟩ : Layer K).lon.length + fes.extra) := ho.lon
  rw [← hx] at x0 x1 x2 x3
  have zipped : ((pts.map (suit a)).map Prod.fst).zip (pts.map Prod.snd) = pts.map (suit a) := by
    rw [List.map_map, List.zip_map']
    exact List.map_congr_left fun p _ => rfl
  have adj := stored_adjust G fes pts hne hf _ x1 x2
  have hin : ∀ p ∈ pts.map (suit a), o.lon.getD 0 0 ≤ p.1 ∧ p.1 ≤ o.lon.getD (o.lon.length - 1) 0 ∧
      o.lat.getD 0 0 ≤ p.2 ∧ p.2 ≤ o.lat.getD (o.lat.length - 1) 0 ∧ (r.method = .bilinear →
        p.1 < o.lon.getD (o.lon.length - 1) 0 ∧ o.lat.getD 0 0 < p.2 ∧ p.2 < o.lat.getD (o.lat.length - 1) 0) := by
    intro q hq
    obtain ⟨p, hpm, rfl⟩ := List.mem_map.1 hq
    obtain ⟨r1, r2, r3, r4⟩ := suit_range G ((hp p hpm).place (AtlasNet.depths s.depth))
    rw [x0, x2 rfl, ho.lat]
    exact ⟨r2, r3, r1.south, r1.north, fun e => ⟨r4 e, (r1.strict e).2.2.2.1, (r1.strict e).2.2.2.2⟩⟩
  have hd : ∃ ds, pyMap (fun q => do
      let d ← AtlasNet.sounding r.method o.lon o.lat o.bath q
      .ok (AtlasNet.level (o.nan spread r.method q) d)) (pts.map (suit a)) = .ok ds := by
    obtain ⟨ds, ed, -⟩ := AtlasNet.sounding_inside (hc := o.bath) (T := AtlasNet.waters s a) ho.bath r.method
      (pts.map (suit a)) x3 hin
    rw [pyMap_ok_iff]
    intro q hqm
    obtain ⟨d, e⟩ := (pyMap_ok_iff.1 ⟨ds, ed⟩) q hqm
    exact ⟨_, by rw [e, ok_bind]⟩
  obtain ⟨ds, ed⟩ := hd
  have hrows : ∃ outs, pyMap (fun hc => evaluateAtlas r t false true (o.nan spread r.method) o.lon o.lat o.bath hc
      (pts.map (suit a))) o.fields = .ok outs ∧
      List.Forall₂ (fun hc row => List.Forall₂ (Answers
        (AtlasNet.Agrees r.method false r.scale (AtlasNet.tides s a hc) (AtlasNet.waters s a))
        (AtlasNet.tides s a hc) r.scale (fun a b => Extrap.dist (t.pos a) (t.pos b)) t.cutoff)
        (pts.map (suit a)) row) fields outs := by
    have hlon := ho.lon
    have hlat := ho.lat
    have hbath := ho.bath
    have hfields := ho.fields
    generalize o.nan spread r.method = nan
    clear ho ed
    generalize o.fields = ms at hfields
    induction hfields with
    | nil => exact ⟨[], rfl, .nil⟩
    | @cons hc m fs ms' x _ ih =>
      obtain ⟨rest, e1, h1⟩ := ih
      have cover : Covers t.pos o.lon o.lat (AtlasNet.tides s a hc) (-1) 0 := by
        have h3 := G.toEven.three
        refine covers_round hturn (N := s.lon.length) (lt_of_lt_of_le (by decide : 0 < 3) h3) ?_
          (AtlasNet.tides_round h hc) ?_
        · rw [hlon, uniform_length]; omega
        · intro j hj
          rw [hlat]
          exact ⟨hj.1, by have := hj.2; omega⟩
      obtain ⟨row, e2, h2⟩ := atlas_inside x.1 hbath x.2 r t hq cover true nan (pts.map (suit a)) x3 hin
      exact ⟨row :: rest, by rw [pyMap, e2, e1], .cons h2 h1⟩
  obtain ⟨outs, eo, hout⟩ := hrows
  refine ⟨ds, outs, { o with spoiled := o.spoiled || decide (r.method = .bilinear) }, ?_, ?_⟩
  · unfold interpolateAtlas
    rw [min?_increasing ho.bath.asc.1 ho.bath.two, max?_increasing ho.bath.asc.1 ho.bath.two]
    simp only
    rw [x0, adj, ok_bind, zipped]
    rw [ed, ok_bind, eo, ok_bind]
  · refine hout.imp fun hc row hrow => ?_
    rw [List.forall₂_map_left_iff] at hrow
    exact hrow.imp fun p o hm => Answers.turn hturn
      (AtlasNet.Agrees.turn (AtlasNet.tides_round h hc) (AtlasNet.waters_round h)) (suit_same a p) rfl hm

/-- C112 for the elevations of global ATLAS models that are read first and interpolated later, after any number
of uses of the object, for batches of longitudes that suit it (see `C76_batch_false` for the others). -/
theorem C112_atlas_stored_partial {s : AtlasNet.Site ℝ} {a : ℝ} (h : AtlasNet.Around s a)
    (fields : List (List (List (ℝ × ℝ)))) (sh : ∀ hc ∈ fields, CGrid.Shape hc s.lat.length s.lon.length)
    (spread : List ℝ → List ℝ → List (List (Fld ℝ)) → ℝ × ℝ → Bool) (us : List (AtlasNet.Use ℝ)) (r : Request ℝ)
    (query : Extrap.Query 3) (hk : Extrap.KDSpec query) (cutoff : Option ℝ)
    (pts : List (ℝ × ℝ)) (hne : pts ≠ []) (hp : ∀ p ∈ pts, AtlasNet.Spot r.method s p) (hf : AtlasNet.Fits s a pts) :
    ∃ o, AtlasNet.read none s fields = .ok o ∧ ∀ o1, AtlasNet.after spread o us = .ok o1 →
      ∃ ds outs o2, interpolateAtlas spread r ⟨query, cutoff, onEarth⟩ false o1 pts = .ok ((ds, outs), o2) ∧
        List.Forall₂ (fun hc row => List.Forall₂ (Answers
          (AtlasNet.Agrees r.method false r.scale (AtlasNet.tides s a hc) (AtlasNet.waters s a))
          (AtlasNet.tides s a hc) r.scale chord cutoff) pts row) fields outs := by
  obtain ⟨o, e, ho, -⟩ := AtlasNet.read_holds h fields sh
  refine ⟨o, e, fun o1 e1 => ?_⟩
  obtain ⟨b, rfl, -⟩ := AtlasNet.after_keeps spread us e1
  have := interpolateAtlas_answers (o := { o with spoiled := b }) h ⟨ho.lon, ho.lat, ho.bath, ho.fields⟩ spread r
    ⟨query, cutoff, onEarth⟩ hk onEarth_turns pts hne hp hf
  simp only [dist_chord] at this
  exact this

/-- Stored global OTIS models, for any way to measure distances that does not change after a turn. -/
theorem interpolateOtis_answers {s : Staggered.Site K} {a : K} (h : Staggered.Around s a) (m : Method)
    (node : Staggered.Node) (t : Tree K n) (hk : Extrap.KDSpec t.query) (hturn : Turns t.pos)
    (start : Staggered.Starts node a (360 / (s.x.length : K)))
    (fields : List (List (List (Fld K)))) (hf : ∀ hc ∈ fields, CGrid.Shape hc s.y.length s.x.length ∧
      Staggered.Complete m true (Staggered.world s a) node.points (Staggered.worldValue s hc) ∧
      ∀ k j, (Staggered.world s a).Wet node.points k j → Staggered.worldValue s hc k j ≠ some (0, 0))
    (pts : List (K × K)) (hne : pts ≠ []) (hs : ∀ p ∈ pts, Staggered.Lies m node a (360 / (s.x.length : K)) p)
    (hb : ∀ p ∈ pts, Staggered.Band m node s.y p) :
    ∃ st ds outs, Staggered.read true node none s fields = .ok st ∧
      interpolateOtis m t false st pts = .ok (ds, outs) ∧
      List.Forall₂ (Staggered.Sounds m ((Staggered.world s a).depths node.points)) pts ds ∧
      List.Forall₂ (fun hc os => List.Forall₂ (Answers (Staggered.Agrees m false
        ((Staggered.world s a).chart node.points (Staggered.worldValue s hc))
        ((Staggered.world s a).depths node.points))
        ((Staggered.world s a).chart node.points (Staggered.worldValue s hc)) 1
        (fun a b => Extrap.dist (t.pos a) (t.pos b)) t.cutoff) pts os) fields outs := by
  obtain ⟨f, ef, fx, fy, fnx, fny, sb, cons⟩ := Staggered.global_frame h node true
  obtain ⟨d0, d1⟩ := h.step0
  obtain ⟨b0, b1⟩ := Staggered.half_bounds node d0
  obtain ⟨x0, x1, -, -, rng⟩ := Staggered.cols_range h node fx
  rw [← fnx] at x0 x1 rng
  obtain ⟨r0, r1, r2⟩ := Staggered.rows_inside h.asc.2 h.two' node
  have rd : ((Staggered.world s a).depths node.points).Round s.x.length :=
    Staggered.world_round h node.points _ (Staggered.water_round node.points)
  have abound : -180 ≤ a ∧ a ≤ 360 := by
    rcases start with e | e <;> constructor <;> linarith [e.1, e.2]
  have far : m = .bilinear → ∀ c : ℕ, c < f.nx.length → |f.nx.getD c 0| ≤ 720 := by
    intro _ c hc
    have := rng c hc
    rw [abs_le]
    constructor <;> linarith [this.1, this.2]
  obtain ⟨pts', ea, hl⟩ := Staggered.adjust_stored (x := f.nx) (m := m) d0
    (by rw [min?_increasing sb.asc.1 sb.two, x0]) (by rw [max?_increasing sb.asc.1 sb.two, x1]) start hne hs
  have hin : ∀ q ∈ pts', Staggered.Inside m f.nx f.ny q ∧ outside f.nx f.ny q = .ok false := by
    intro q hq
    obtain ⟨p, hp, ⟨-, l1, l2, l3⟩, l4⟩ := forall₂_right hl q hq
    have b := hb p hp
    have i : Staggered.Inside m f.nx f.ny q := by
      rw [fny]
      refine ⟨by rw [x0]; exact l1, by rw [x1]; exact l2, by rw [l4]; exact le_trans r0 b.south,
        by rw [l4, r1]; exact b.north, fun e => ⟨by rw [x1]; exact l3 e, ?_, ?_⟩⟩
      · rw [l4]; exact lt_of_le_of_lt r0 (b.strict e).1
      · rw [l4, r1]; exact (b.strict e).2
    exact ⟨i, i.outside sb.asc sb.two sb.two'⟩
  obtain ⟨hcs, eh, hh⟩ := pyMap_rel (f := Staggered.constituent true none s.x s.y f) (l := fields)
    (R := fun hc hc' => hc ∈ fields ∧
      Shows f.nx f.ny hc' ((Staggered.world s a).chart node.points (Staggered.worldValue s hc)) (-1) 0) fun hc hm => by
        obtain ⟨hc', e, st⟩ := cons hc (hf hc hm).1
        exact ⟨hc', e, hm, st⟩
  obtain ⟨ds, ed, sd⟩ := Staggered.depths_sound sb m far fun q hq => (hin q hq).1
  have one : ∀ hc ∈ fields, ∀ hc',
      Shows f.nx f.ny hc' ((Staggered.world s a).chart node.points (Staggered.worldValue s hc)) (-1) 0 →
      ∃ os, evaluateOtis m t false true f.nx f.ny f.nx f.ny f.bath hc' pts' = .ok os ∧
      List.Forall₂ (Answers (Staggered.Agrees m false
        ((Staggered.world s a).chart node.points (Staggered.worldValue s hc))
        ((Staggered.world s a).depths node.points))
        ((Staggered.world s a).chart node.points (Staggered.worldValue s hc)) 1
        (fun a b => Extrap.dist (t.pos a) (t.pos b)) t.cutoff) pts os := by
    intro hc hm hc' st
    obtain ⟨-, co, nz⟩ := hf hc hm
    have rt := Staggered.world_round h node.points _ (Staggered.worldValue_round s hc)
    have cover : Covers t.pos f.nx f.ny
        ((Staggered.world s a).chart node.points (Staggered.worldValue s hc)) (-1) 0 := by
      have h3 := h.three
      refine covers_round hturn (N := s.x.length) (by omega) ?_ rt ?_
      · rw [fnx, Staggered.nodeX_length, fx, uniform_length]; omega
      · intro j hj
        rw [fny, Staggered.nodeY_length]
        exact ⟨hj.1, by have := hj.2; omega⟩
    obtain ⟨os, eo, ao⟩ := otis_inside (ax := f.nx) (ay := f.ny) st sb m t hk cover true co nz far hin
    exact ⟨os, eo, forall₂_trans hl ao fun p q o l a' =>
      Answers.turn hturn (Staggered.Agrees.turn rt rd) l.1.1 l.2.symm a'⟩
  have key : ∀ hc' ∈ hcs, ∃ os, evaluateOtis m t false true f.nx f.ny f.nx f.ny f.bath hc' pts' = .ok os ∧
      ∀ hc ∈ fields,
        Shows f.nx f.ny hc' ((Staggered.world s a).chart node.points (Staggered.worldValue s hc)) (-1) 0 →
        List.Forall₂ (Answers (Staggered.Agrees m false
          ((Staggered.world s a).chart node.points (Staggered.worldValue s hc))
          ((Staggered.world s a).depths node.points))
          ((Staggered.world s a).chart node.points (Staggered.worldValue s hc)) 1
          (fun a b => Extrap.dist (t.pos a) (t.pos b)) t.cutoff) pts os := by
    intro hc' hm'
    obtain ⟨hc0, -, hm0, st0⟩ := forall₂_right hh hc' hm'
    obtain ⟨os, eo, -⟩ := one hc0 hm0 hc' st0
    refine ⟨os, eo, fun hc hm st => ?_⟩
    obtain ⟨os', eo', ao⟩ := one hc hm hc' st
    rw [eo] at eo'
    cases eo'
    exact ao
  obtain ⟨outs, eo, ao⟩ := pyMap_rel key
  refine ⟨⟨true, f.nx, f.ny, f.bath, hcs⟩, ds, outs, ?_, ?_, forall₂_trans hl sd fun p q o l s' => ?_,
    forall₂_trans hh ao fun hc hc' os g1 g2 => g2 hc g1.1 g1.2⟩
  · unfold Staggered.read
    simp only [Option.filter_none]
    rw [h.step, ok_bind, Staggered.step_getD h.two', ok_bind]
    simp only [Staggered.cropIf]
    rw [ok_bind]
    dsimp only
    rw [ok_bind]
    dsimp only
    rw [ef, ok_bind]
    simp only [Staggered.aliased]
    rw [ok_bind, eh, ok_bind]
  · unfold interpolateOtis
    rw [ea, ok_bind, ed, ok_bind, eo, ok_bind]
  · rw [show q = (q.1, p.2) from Prod.ext rfl l.2] at s'
    exact s'.turn rd l.1.1

/-- C112 for elevations and transports of a global OTIS model that is read first and interpolated later, for
every batch of places. -/
theorem C112_otis_stored_partial {s : Staggered.Site ℝ} {a : ℝ} (h : Staggered.Around s a) (m : Method)
    (node : Staggered.Node) (query : Extrap.Query 3) (hk : Extrap.KDSpec query) (cutoff : Option ℝ)
    (start : Staggered.Starts node a (360 / (s.x.length : ℝ)))
    (fields : List (List (List (Fld ℝ)))) (hf : ∀ hc ∈ fields, CGrid.Shape hc s.y.length s.x.length ∧
      Staggered.Complete m true (Staggered.world s a) node.points (Staggered.worldValue s hc) ∧
      ∀ k j, (Staggered.world s a).Wet node.points k j → Staggered.worldValue s hc k j ≠ some (0, 0))
    (pts : List (ℝ × ℝ)) (hne : pts ≠ []) (hs : ∀ p ∈ pts, Staggered.Lies m node a (360 / (s.x.length : ℝ)) p)
    (hb : ∀ p ∈ pts, Staggered.Band m node s.y p) :
    ∃ st ds outs, Staggered.read true node none s fields = .ok st ∧
      interpolateOtis m ⟨query, cutoff, onEarth⟩ false st pts = .ok (ds, outs) ∧
      List.Forall₂ (Staggered.Sounds m ((Staggered.world s a).depths node.points)) pts ds ∧
      List.Forall₂ (fun hc os => List.Forall₂ (Answers (Staggered.Agrees m false
        ((Staggered.world s a).chart node.points (Staggered.worldValue s hc))
        ((Staggered.world s a).depths node.points))
        ((Staggered.world s a).chart node.points (Staggered.worldValue s hc)) 1 chord cutoff) pts os) fields outs := by
  have := interpolateOtis_answers h m node ⟨query, cutoff, onEarth⟩ hk onEarth_turns start fields hf pts hne hs hb
  simp only [dist_chord] at this
  exact this

/-- The hypotheses of `C112_atlas_stored_partial` hold for the example. -/
example (cutoff : Option ℝ) (spread : List ℝ → List ℝ → List (List (Fld ℝ)) → ℝ × ℝ → Bool) :
    ∃ (query : Extrap.Query 3) (o : AtlasNet.Stored ℝ), AtlasNet.read none reef [rows fun j i => ((i : ℝ), (j : ℝ))] = .ok o ∧
      ∃ ds outs o2, interpolateAtlas spread ⟨.spline, false, none, none, fun _ _ _ _ => none, 1⟩
        ⟨query, cutoff, onEarth⟩ false o [(10, 20), (180, 0), (-110, 5)] = .ok ((ds, outs), o2) := by
  obtain ⟨query, hq⟩ := Extrap.kdspec_satisfiable (n := 3)
  have l := reef_length
  obtain ⟨o, e, key⟩ := C112_atlas_stored_partial reef_around [rows fun j i => ((i : ℝ), (j : ℝ))] (by
      intro hc hm
      rw [List.mem_singleton.1 hm, l]
      exact rows_shape _) spread [] ⟨.spline, false, none, none, fun _ _ _ _ => none, 1⟩ query hq cutoff
    [(10, 20), (180, 0), (-110, 5)] (by simp) (by
      intro p hp
      have e1 : reef.lat.getD 0 0 = -60 := rfl
      have e2 : reef.lat.getD (reef.lat.length - 1) 0 = 60 := rfl
      simp only [List.mem_cons, List.not_mem_nil, or_false] at hp
      rcases hp with rfl | rfl | rfl <;>
        exact ⟨by norm_num, by norm_num, by show reef.lat.getD 0 0 ≤ _; rw [e1]; norm_num,
          by show _ ≤ reef.lat.getD (reef.lat.length - 1) 0; rw [e2]; norm_num, fun h => by cases h⟩) (Or.inl ⟨le_refl _, Or.inl ⟨(-110, 5), by simp, by norm_num⟩⟩)
  obtain ⟨ds, outs, o2, e2, -⟩ := key o rfl
  exact ⟨query, o, e, ds, outs, o2, e2⟩

/-- The hypotheses of `C112_otis_stored_partial` hold for the elevations of the example. -/
example (cutoff : Option ℝ) : ∃ (query : Extrap.Query 3) (st : Staggered.Stored ℝ) (ds : List (Option ℝ))
    (outs : List (List (Out ℝ))),
    Staggered.read true .z none lagoon [rows fun j i => ⟨i + 1, j, false⟩] = .ok st ∧
    interpolateOtis .linear ⟨query, cutoff, onEarth⟩ false st [(10, 20), (180, 0), (-110, 5)] = .ok (ds, outs) := by
  obtain ⟨query, hq⟩ := Extrap.kdspec_satisfiable (n := 3)
  obtain ⟨st, ds, outs, e1, e2, -⟩ := C112_otis_stored_partial lagoon_around .linear .z query hq cutoff
    (Or.inl ⟨by simp [Staggered.half], by rw [lagoon_step]; norm_num⟩) [rows fun j i => ⟨i + 1, j, false⟩] (by
      intro hc hm
      rw [List.mem_singleton.1 hm]
      exact lagoon_tide _ _) [(10, 20), (180, 0), (-110, 5)] (by simp) (by
      intro p hp
      simp only [List.mem_cons, List.not_mem_nil, or_false] at hp
      rcases hp with rfl | rfl | rfl <;> exact ⟨by norm_num, by norm_num, fun h => by cases h⟩) (by
      have e1 : lagoon.y.getD 0 0 = -60 := rfl
      have e2 : lagoon.y.getD (lagoon.y.length - 1) 0 = 60 := rfl
      intro p hp
      simp only [List.mem_cons, List.not_mem_nil, or_false] at hp
      rcases hp with rfl | rfl | rfl <;>
        exact ⟨by rw [e1]; norm_num, by rw [e2, Staggered.low, if_neg (by decide)]; norm_num, fun h => by cases h⟩)
  exact ⟨query, st, ds, outs, e1, e2⟩

end Verif.Near
