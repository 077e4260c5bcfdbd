import Verif.Props.Extrapolated
import Verif.Props.ExtractATLAS
import Verif.Props.ExtractOTIS
/-!
C112 for models that give depths: ATLAS and OTIS.
-/
namespace Verif.Near
open Verif Verif.Spec Verif.Grid Verif.Extract

variable {K : Type} [Field K] [LinearOrder K] [IsStrictOrderedRing K] {n : ℕ}

/-! ## ATLAS -/

theorem zip_self {α : Type} (l : List α) : l.zip l = l.map fun a => (a, a) := by
  induction l with
  | nil => rfl
  | cons a l ih => simp [ih]

/-- The value of a computation that ends without an exception. -/
def got {β : Type} (b : β) : Except PyErr β → β
  | .ok v => v
  | .error _ => b

/-- The elevations of a matrix that shows a chart, with extrapolation. -/
theorem atlas_inside {x y : List K} {hc bath : List (List (Fld K))} {T H : Chart K} {k0 j0 : ℤ}
    (ht : Shows x y hc T k0 j0) (hb : Shows x y bath H k0 j0) (same : Staggered.SameMask hc bath) (r : Request K)
    (t : Tree K n) (hq : Extrap.KDSpec t.query) (cover : Covers t.pos x y T k0 j0) (stored : Bool)
    (nan : K × K → Bool) (pts : List (K × K)) (far : ∀ c : ℕ, c < x.length → |x.getD c 0| ≤ 720)
    (hp : ∀ p ∈ pts, x.getD 0 0 ≤ p.1 ∧ p.1 ≤ x.getD (x.length - 1) 0 ∧ y.getD 0 0 ≤ p.2 ∧
      p.2 ≤ y.getD (y.length - 1) 0 ∧ (r.method = .bilinear → p.1 < x.getD (x.length - 1) 0 ∧
        y.getD 0 0 < p.2 ∧ p.2 < y.getD (y.length - 1) 0)) :
    ∃ outs, evaluateAtlas r t false stored nan x y bath hc pts = .ok outs ∧
      List.Forall₂ (Answers (AtlasNet.Agrees r.method false r.scale T H) T r.scale
        (fun a b => Extrap.dist (t.pos a) (t.pos b)) t.cutoff) pts outs := by
  have key : ∀ p ∈ pts, ∃ d k v k', AtlasNet.depthAt r.method x y bath p = .ok (d, k) ∧
      AtlasNet.constantAt r.method stored x y hc p = .ok (v, k') ∧ outside x y p = .ok false ∧
      AtlasNet.Agrees r.method false r.scale T H p (if (k' || k) = true then .masked else match v with
        | some z => .val z.1 z.2 r.scale
        | none => .nan) := by
    intro p hpm
    obtain ⟨p1, p2, p3, p4, p5⟩ := hp p hpm
    obtain ⟨d, k, v, k', e1, e2, -, ha⟩ := AtlasNet.point ht hb same r.method stored false r.scale p p1 p2 p3 p4
      (fun _ => far) p5 (by simp)
    refine ⟨d, k, v, k', e1, e2, ?_, ha⟩
    unfold outside
    rw [min?_increasing ht.asc.1 ht.two, max?_increasing ht.asc.1 ht.two, min?_increasing ht.asc.2 ht.two',
      max?_increasing ht.asc.2 ht.two']
    simp only [Except.ok.injEq, decide_eq_false_iff_not, not_or, not_lt]
    exact ⟨p1, p2, p3, p4⟩
  set D : K × K → K × Bool := fun p => got (0, false) (AtlasNet.depthAt r.method x y bath p) with hD
  set V : K × K → Option (K × K) × Bool := fun p => got (none, false) (AtlasNet.constantAt r.method stored x y hc p)
    with hV
  have eD : pyMap (AtlasNet.depthAt r.method x y bath) pts = .ok (pts.map D) :=
    pyMap_ok_of_forall fun p hpm => by
      obtain ⟨d, k, v, k', e1, -⟩ := key p hpm
      simp only [hD, e1]; rfl
  have eV : pyMap (AtlasNet.constantAt r.method stored x y hc) pts = .ok (pts.map V) :=
    pyMap_ok_of_forall fun p hpm => by
      obtain ⟨d, k, v, k', -, e2, -⟩ := key p hpm
      simp only [hV, e2]; rfl
  have eO : pyMap (outside x y) pts = .ok (pts.map fun _ => false) :=
    pyMap_ok_of_forall fun p hpm => by
      obtain ⟨d, k, v, k', -, -, e3, -⟩ := key p hpm
      exact e3
  set os : List (Option (Option (K × K))) := pts.map fun p => if (V p).2 || (D p).2 then none else some (V p).1 with hos
  obtain ⟨G, eG, hG⟩ := fillIn_eq t hq (cells t.pos nanCell x y hc) some pts os (by simp [hos])
  refine ⟨pts.map fun p => match (if (V p).2 || (D p).2 then (G (t.pos p)).map some else some (V p).1) with
    | none => .masked
    | some none => .nan
    | some (some z) => .val z.1 z.2 r.scale, ?_, ?_⟩
  · unfold evaluateAtlas
    rw [eD, ok_bind, eO, ok_bind, eV, ok_bind]
    simp only
    rw [show List.zipWith (fun (v : Option (K × K) × Bool) (d : K × Bool) => if (v.2 || d.2) = true then none else some v.1)
      (pts.map V) (pts.map D) = os by
        rw [hos, List.zipWith_map, List.zipWith_self], eG, hos, List.zipWith_map_right, List.zipWith_self]
    congr 1
    rw [List.map_map, List.zip_map', List.zip_map_right, zip_self]
    simp only [List.map_map, List.zipWith_map, List.zipWith_self]
    refine List.map_congr_left fun p _ => ?_
    simp only [Function.comp, Prod.map, id, Bool.false_eq_true, if_false, AtlasNet.convert]
    cases (V p).2 || (D p).2
    · simp only [Bool.false_eq_true, if_false, Option.some_or]
      rfl
    · simp only [if_true, Option.none_or]
      rfl
  · rw [List.forall₂_map_right_iff]
    refine List.forall₂_same.2 fun p hpm => ?_
    obtain ⟨d, k, v, k', e1, e2, -, ha⟩ := key p hpm
    have d1 : D p = (d, k) := by rw [hD]; simp only [e1]; rfl
    have v1 : V p = (v, k') := by rw [hV]; simp only [e2]; rfl
    rw [d1, v1]
    refine ⟨_, ha, fun hne => ?_, fun he => ?_⟩
    · cases hk : k' || k with
      | true => rw [hk] at hne; exact absurd rfl hne
      | false =>
        simp only [Bool.false_eq_true, if_false]
        cases v <;> rfl
    · cases hk : k' || k with
      | true =>
        simp only [if_true]
        have hm : (p, none) ∈ pts.zip os := by
          rw [hos, List.zip_map_right, zip_self, List.map_map]
          refine List.mem_map.2 ⟨p, hpm, ?_⟩
          simp only [Function.comp, Prod.map, id, d1, v1, hk, if_true]
        refine ⟨_, nearest_shows ht cover (hG p none hm rfl), ?_⟩
        cases G (t.pos p) <;> rfl
      | false =>
        rw [hk] at he
        cases v <;> cases he

/-- Global ATLAS models, for any way to measure distances that does not change after a turn. -/
theorem extractAtlas_answers {s : AtlasNet.Site K} {a : K} (h : AtlasNet.Around s a) (r : Request K)
    (hr : r.crop = false) (t : Tree K n) (hq : Extrap.KDSpec t.query) (hturn : Turns t.pos)
    (fields : List (List (List (K × K)))) (sh : ∀ hc ∈ fields, CGrid.Shape hc s.lat.length s.lon.length)
    (pts : List (K × K)) (hne : pts ≠ []) (hp : ∀ p ∈ pts, AtlasNet.Spot r.method s p) :
    ∃ ds outs, extractAtlas r t false s fields pts = .ok (ds, outs) ∧
      List.Forall₂ (Staggered.Sounds r.method (AtlasNet.waters s a)) pts ds ∧
      List.Forall₂ (fun hc row => List.Forall₂ (Answers
        (AtlasNet.Agrees r.method false r.scale (AtlasNet.tides s a hc) (AtlasNet.waters s a))
        (AtlasNet.tides s a hc) r.scale (fun a b => Extrap.dist (t.pos a) (t.pos b)) t.cutoff) pts row)
        fields outs := by
  obtain ⟨box, hbox⟩ := AtlasNet.bounds_ok r pts hne
  have win : ∀ m : List (List (Fld K)), CGrid.Shape m s.lat.length s.lon.length →
      ∃ g' : Layer K, place r box (360 / (s.lon.length : K)) ⟨s.lon, s.lat, m⟩ pts =
          .ok (⟨s.lon, s.lat, m⟩, pts.map (suit a)) ∧
        extended fes (360 / (s.lon.length : K)) ⟨s.lon, s.lat, m⟩ = .ok g' ∧
        g'.lon = uniform (a - 360 / (s.lon.length : K)) (360 / (s.lon.length : K)) (s.lon.length + fes.extra) ∧
        g'.lat = s.lat ∧ Shows g'.lon g'.lat g'.hc (globe ⟨s.lon, s.lat, m⟩ a) (-1) 0 := by
    intro m hm
    have G := h.global hm
    obtain ⟨g', e, h1, h2, h3⟩ := extended_shows G.toEven fes
    exact ⟨g', place_suit G r hr box _ pts hne, e, h1, h2, h3⟩
  have G0 := h.global (m := AtlasNet.plain s.depth) (AtlasNet.shape_map _ h.shape)
  obtain ⟨g', e1, e2, gl, gt, hs⟩ := win (AtlasNet.plain s.depth) (AtlasNet.shape_map _ h.shape)
  obtain ⟨x0, -, x2, far⟩ := extended_range G0 fes
  rw [show (⟨s.lon, s.lat, AtlasNet.plain s.depth⟩ : Layer K).lon = s.lon from rfl, ← gl] at x0 x2 far
  have hin : ∀ p ∈ pts.map (suit a), g'.lon.getD 0 0 ≤ p.1 ∧ p.1 ≤ g'.lon.getD (g'.lon.length - 1) 0 ∧
      g'.lat.getD 0 0 ≤ p.2 ∧ p.2 ≤ g'.lat.getD (g'.lat.length - 1) 0 ∧ (r.method = .bilinear →
        p.1 < g'.lon.getD (g'.lon.length - 1) 0 ∧ g'.lat.getD 0 0 < p.2 ∧
        p.2 < g'.lat.getD (g'.lat.length - 1) 0) := by
    intro q hq
    obtain ⟨p, hpm, rfl⟩ := List.mem_map.1 hq
    obtain ⟨r1, r2, r3, r4⟩ := suit_range G0 ((hp p hpm).place _)
    rw [x0, x2 rfl, gt]
    exact ⟨r2, r3, r1.south, r1.north, fun e => ⟨r4 e, (r1.strict e).2.2.2.1, (r1.strict e).2.2.2.2⟩⟩
  have hb := AtlasNet.remask_shows h hs
  have hstep : step fes s.lon = .ok (360 / (s.lon.length : K)) := G0.step fes
  obtain ⟨ds, ed, hd⟩ := AtlasNet.sounding_inside (hc := g'.hc) (T := AtlasNet.waters s a) hb r.method
    (pts.map (suit a)) far hin
  have hrows : ∃ outs, pyMap (fun hc => do
      let h ← AtlasNet.fieldOf r box (360 / (s.lon.length : K)) s s.lon s.lat hc
      evaluateAtlas r t false false (fun _ => false) g'.lon g'.lat (AtlasNet.remask g'.hc)
        (AtlasNet.combine h (AtlasNet.remask g'.hc)) (pts.map (suit a))) fields = .ok outs ∧
      List.Forall₂ (fun hc row => List.Forall₂ (Answers
        (AtlasNet.Agrees r.method false r.scale (AtlasNet.tides s a hc) (AtlasNet.waters s a))
        (AtlasNet.tides s a hc) r.scale (fun a b => Extrap.dist (t.pos a) (t.pos b)) t.cutoff) (pts.map (suit a)) row)
        fields outs := by
    refine pyMap_rel fun hc hmem => ?_
    obtain ⟨g'', f1, f2, gl2, gt2, hs'⟩ := win (AtlasNet.numbers hc) (AtlasNet.shape_map _ (sh hc hmem))
    rw [show g''.lon = g'.lon by rw [gl2, gl], show g''.lat = g'.lat by rw [gt2, gt]] at hs'
    obtain ⟨ht, same⟩ := AtlasNet.combine_shows h (sh hc hmem) hs' hb
    have cover : Covers t.pos g'.lon g'.lat (AtlasNet.tides s a hc) (-1) 0 := by
      have h3 := G0.toEven.three
      refine covers_round hturn (N := s.lon.length) (lt_of_lt_of_le (by decide : 0 < 3) h3) ?_ (AtlasNet.tides_round h hc) ?_
      · rw [gl, uniform_length]; omega
      · intro j hj
        rw [gt]
        exact ⟨hj.1, by have := hj.2; omega⟩
    obtain ⟨outs, eo, ho⟩ := atlas_inside ht hb same r t hq cover false (fun _ => false) (pts.map (suit a)) far hin
    refine ⟨outs, ?_, ho⟩
    rw [show AtlasNet.fieldOf r box (360 / (s.lon.length : K)) s s.lon s.lat hc = _ from AtlasNet.fieldOf_eq f1,
      f2, ok_bind, ok_bind, eo]
  obtain ⟨outs, eo, ho⟩ := hrows
  refine ⟨ds, outs, ?_, ?_, ?_⟩
  · unfold extractAtlas
    rw [hbox, ok_bind, hstep, ok_bind, e1, ok_bind]
    simp only
    rw [e2, ok_bind, ed, ok_bind, eo, ok_bind]
  · rw [List.forall₂_map_left_iff] at hd
    exact hd.imp fun p d hm => Staggered.Sounds.turn (AtlasNet.waters_round h) (suit_same a p) hm
  · refine ho.imp fun hc row hrow => ?_
    rw [List.forall₂_map_left_iff] at hrow
    exact hrow.imp fun p o hm => Answers.turn hturn
      (AtlasNet.Agrees.turn (AtlasNet.tides_round h hc) (AtlasNet.waters_round h)) (suit_same a p) rfl hm

/-- C112 for the elevations of global ATLAS models.  Every point gets what the elevations say there, and
where they say nothing the value at the closest point of the sea; the depths are not extrapolated.  For
currents see `C75_extrapolated_false`. -/
theorem C112_atlas_partial {s : AtlasNet.Site ℝ} {a : ℝ} (h : AtlasNet.Around s a) (r : Request ℝ)
    (hr : r.crop = false) (query : Extrap.Query 3) (hq : Extrap.KDSpec query) (cutoff : Option ℝ)
    (fields : List (List (List (ℝ × ℝ)))) (sh : ∀ hc ∈ fields, CGrid.Shape hc s.lat.length s.lon.length)
    (pts : List (ℝ × ℝ)) (hne : pts ≠ []) (hp : ∀ p ∈ pts, AtlasNet.Spot r.method s p) :
    ∃ ds outs, extractAtlas r ⟨query, cutoff, onEarth⟩ false s fields pts = .ok (ds, outs) ∧
      List.Forall₂ (Staggered.Sounds r.method (AtlasNet.waters s a)) pts ds ∧
      List.Forall₂ (fun hc row => List.Forall₂ (Answers
        (AtlasNet.Agrees r.method false r.scale (AtlasNet.tides s a hc) (AtlasNet.waters s a))
        (AtlasNet.tides s a hc) r.scale chord cutoff) pts row) fields outs := by
  have := extractAtlas_answers h r hr ⟨query, cutoff, onEarth⟩ hq onEarth_turns fields sh pts hne hp
  simp only [dist_chord] at this
  exact this

/-! ## OTIS -/

theorem cells_nonzero {pos : K × K → Extrap.Pt n} {x y : List K} {hc : List (List (Fld K))} {C : Chart K} {k0 j0 : ℤ}
    (h : Shows x y hc C k0 j0) (hz : Staggered.Nonzero hc) {cutoff : Option ℝ} {P : Extrap.Pt n} {w : Option (K × K)}
    (hb : Best (cells pos Staggered.nonzeroCell x y hc) cutoff P w) :
    Best (cells pos nanCell x y hc) cutoff P w := by
  have e : ∀ r i, Staggered.nonzeroCell (entry hc r i) = nanCell (entry hc r i) := by
    intro r i
    unfold Staggered.nonzeroCell nanCell
    cases hm : (entry hc r i).masked with
    | true => simp
    | false => simp [hz r i hm]
  have mem : ∀ c, c ∈ cells pos Staggered.nonzeroCell x y hc ↔ c ∈ cells pos nanCell x y hc := by
    intro c
    rw [mem_cells h.height h.width, mem_cells h.height h.width]
    simp only [e]
  unfold Best at hb ⊢
  simp only [mem] at hb
  exact hb

/-- The fill value in place of masked numbers does not change the cells. -/
theorem cells_fillZeros (pos : K × K → Extrap.Pt n) (x y : List K) {hc : List (List (Fld K))}
    (h : Staggered.Nonzero hc) :
    cells pos Staggered.nonzeroCell x y (Staggered.fillZeros hc) = cells pos Staggered.nonzeroCell x y hc := by
  rw [Staggered.fillZeros_eq h]
  unfold cells fillMasked
  rw [List.zip_map_right, List.flatMap_map]
  refine List.flatMap_congr fun r _ => ?_
  simp only [Prod.map]
  rw [List.zip_map_right, List.map_map]
  refine List.map_congr_left fun c _ => ?_
  have e : Staggered.nonzeroCell (if c.2.masked then ⟨fillRe, 0, true⟩ else c.2) = Staggered.nonzeroCell c.2 := by
    cases hm : c.2.masked with
    | false => rfl
    | true => simp [Staggered.nonzeroCell, hm]
  simp only [Function.comp, Prod.map, id]
  rw [← e]

/-- The elevations or transports of a matrix that shows a chart, with extrapolation. -/
theorem otis_inside {S : Sea K} {p : Points} {value : ℤ → ℤ → Option (K × K)} {x y ax ay : List K}
    {hc bath : List (List (Fld K))} {k0 j0 : ℤ} (ht : Shows x y hc (S.chart p value) k0 j0)
    (hb : Shows x y bath (S.depths p) k0 j0) (m : Method) (t : Tree K n) (hq : Extrap.KDSpec t.query)
    (cover : Covers t.pos x y (S.chart p value) k0 j0) (stored : Bool)
    (c : Staggered.Complete m stored S p value)
    (hz : ∀ k j, S.Wet p k j → value k j ≠ some (0, 0))
    (far : m = .bilinear → ∀ c : ℕ, c < x.length → |x.getD c 0| ≤ 720) {pts : List (K × K)}
    (hp : ∀ q ∈ pts, Staggered.Inside m x y q ∧ outside ax ay q = .ok false) :
    ∃ outs, evaluateOtis m t false stored ax ay x y bath hc pts = .ok outs ∧
      List.Forall₂ (Answers (Staggered.Agrees m false (S.chart p value) (S.depths p)) (S.chart p value) 1
        (fun a b => Extrap.dist (t.pos a) (t.pos b)) t.cutoff) pts outs := by
  have key : ∀ q ∈ pts, ∃ d o, Staggered.depthAt m x y bath q = .ok d ∧
      Staggered.constantAt m stored x y hc d q = .ok o ∧
      Staggered.Agrees m false (S.chart p value) (S.depths p) q (match o with
        | some z => .val z.1 z.2 1
        | none => .masked) := by
    intro q hqm
    obtain ⟨i, -⟩ := hp q hqm
    obtain ⟨d, o, e1, e2, -, s⟩ := Staggered.point ht hb m stored false q i.west i.east i.south i.north far i.strict
      (c.same ht hb) (c.full ht) (fun e => by cases e)
    exact ⟨d, o, e1, e2, s⟩
  set D : K × K → Option K := fun q => got none (Staggered.depthAt m x y bath q) with hD
  set V : K × K → Option (K × K) := fun q => got none (Staggered.constantAt m stored x y hc (D q) q) with hV
  have eD : pyMap (Staggered.depthAt m x y bath) pts = .ok (pts.map D) :=
    pyMap_ok_of_forall fun q hqm => by
      obtain ⟨d, o, e1, -⟩ := key q hqm
      simp only [hD, e1]; rfl
  have eO : pyMap (outside ax ay) pts = .ok (pts.map fun _ => false) :=
    pyMap_ok_of_forall fun q hqm => (hp q hqm).2
  have eV : pyMap (fun p => Staggered.constantAt m stored x y hc p.2 p.1) (pts.zip (pts.map D)) = .ok (pts.map V) := by
    rw [show pts.map V = (pts.zip (pts.map D)).map fun p => V p.1 by
      rw [show (fun p : (K × K) × Option K => V p.1) = V ∘ Prod.fst from rfl, ← List.map_map,
        List.map_fst_zip (by simp)]]
    refine pyMap_ok_of_forall fun p hpm => ?_
    rw [List.zip_map_right, zip_self, List.map_map] at hpm
    obtain ⟨q, hqm, rfl⟩ := List.mem_map.1 hpm
    obtain ⟨d, o, e1, e2, -⟩ := key q hqm
    have d1 : D q = d := by simp only [hD, e1]; rfl
    simp only [Function.comp, Prod.map, id, hV, d1, e2]
    rfl
  obtain ⟨G, eG, hG⟩ := fillIn_eq t hq (cells t.pos Staggered.nonzeroCell x y hc) id pts (pts.map V) (by simp)
  refine ⟨pts.map fun q => match (V q).or (G (t.pos q)) with
    | none => .masked
    | some z => .val z.1 z.2 1, ?_, ?_⟩
  · unfold evaluateOtis
    rw [eD, ok_bind, eO, ok_bind, eV, ok_bind]
    dsimp only
    rw [show cells t.pos Staggered.nonzeroCell x y
      (if stored = true ∧ m = .linear then Staggered.fillZeros hc else hc) =
        cells t.pos Staggered.nonzeroCell x y hc by
      split
      · next h =>
        refine cells_fillZeros t.pos x y ?_
        rcases c.full ht with e | e | e
        · rw [e] at h; cases h.2
        · rw [e.2] at h; cases h.1
        · exact e
      · rfl]
    rw [eG]
    congr 1
    rw [List.zipWith_map_right, List.zipWith_self, List.zip_map', List.zipWith_map, List.zipWith_self]
    refine List.map_congr_left fun q _ => ?_
    simp only [Option.map_id, id, Staggered.factor, Bool.false_eq_true, if_false]
    cases (V q).or (G (t.pos q)) <;> rfl
  · rw [List.forall₂_map_right_iff]
    refine List.forall₂_same.2 fun q hqm => ?_
    obtain ⟨d, o, e1, e2, ha⟩ := key q hqm
    have d1 : D q = d := by simp only [hD, e1]; rfl
    have v1 : V q = o := by simp only [hV, d1, e2]; rfl
    rw [v1]
    refine ⟨_, ha, fun hne => ?_, fun he => ?_⟩
    · cases o with
      | none => exact absurd rfl hne
      | some z => rfl
    · cases o with
      | some z => cases he
      | none =>
        have hm : (q, none) ∈ pts.zip (pts.map V) := by
          rw [List.zip_map_right, zip_self, List.map_map]
          exact List.mem_map.2 ⟨q, hqm, by simp only [Function.comp, Prod.map, id, v1]⟩
        refine ⟨_, nearest_shows ht cover (cells_nonzero ht (Staggered.shows_nonzero ht fun k j => ?_)
          (hG q none hm rfl)), ?_⟩
        · simp only [Sea.chart]
          by_cases hw : S.Wet p k j
          · rw [if_pos hw]
            exact hz k j hw
          · rw [if_neg hw]
            simp
        · rw [Option.none_or]
          cases G (t.pos q) <;> rfl

/-- Global OTIS models, given where the adjusted places are, for any way to measure distances that does not
change after a turn. -/
theorem extractOtis_lands {s : Staggered.Site K} {a : K} (h : Staggered.Around s a) (r : Staggered.Ask K)
    (hg : r.geographic = true) (hr : r.crop = false) (hq : r.quantity.speed = false) (t : Tree K n)
    (hk : Extrap.KDSpec t.query) (hturn : Turns t.pos) (start : -180 ≤ a ∧ a ≤ 360)
    (fields : List (List (List (Fld K)))) (hf : ∀ hc ∈ fields, CGrid.Shape hc s.y.length s.x.length ∧
      Staggered.Complete r.method false (Staggered.world s a) r.quantity.node.points (Staggered.worldValue s hc) ∧
      ∀ k j, (Staggered.world s a).Wet r.quantity.node.points k j → Staggered.worldValue s hc k j ≠ some (0, 0))
    {pts pts' : List (K × K)} (hne : pts ≠ []) (ha : Staggered.adjust true false s.x pts = .ok pts')
    (hl : List.Forall₂ (Staggered.Lands r.method r.quantity.node a (360 / (s.x.length : K))) pts pts')
    (hb : ∀ p ∈ pts, Staggered.Band r.method r.quantity.node s.y p) :
    ∃ ds outs, extractOtis r t s fields pts = .ok (ds, outs) ∧
      List.Forall₂ (Staggered.Sounds r.method ((Staggered.world s a).depths r.quantity.node.points)) pts ds ∧
      List.Forall₂ (fun hc os => List.Forall₂ (Answers (Staggered.Agrees r.method false
        ((Staggered.world s a).chart r.quantity.node.points (Staggered.worldValue s hc))
        ((Staggered.world s a).depths r.quantity.node.points))
        ((Staggered.world s a).chart r.quantity.node.points (Staggered.worldValue s hc)) 1
        (fun a b => Extrap.dist (t.pos a) (t.pos b)) t.cutoff) pts os) fields outs := by
  obtain ⟨f, ef, fx, fy, fnx, fny, sb, cons⟩ := Staggered.global_frame h r.quantity.node false
  obtain ⟨d0, d1⟩ := h.step0
  obtain ⟨b0, b1⟩ := Staggered.half_bounds r.quantity.node d0
  have rd : ((Staggered.world s a).depths r.quantity.node.points).Round s.x.length :=
    Staggered.world_round h r.quantity.node.points _ (Staggered.water_round r.quantity.node.points)
  have hin : ∀ q ∈ pts', Staggered.Inside r.method f.nx f.ny q ∧ outside f.x f.y q = .ok false := by
    intro q hq
    obtain ⟨p, hp, l⟩ := forall₂_right hl q hq
    rw [fnx, fny, fy]
    exact Staggered.lands_inside h fx l (hb p hp)
  have far : r.method = .bilinear → ∀ c : ℕ, c < f.nx.length → |f.nx.getD c 0| ≤ 720 := by
    intro _ c hc
    rw [fnx] at hc ⊢
    obtain ⟨-, -, -, -, rng⟩ := Staggered.cols_range h r.quantity.node fx
    have := rng c hc
    rw [abs_le]
    constructor <;> linarith [this.1, this.2]
  obtain ⟨ds, ed, sd⟩ := Staggered.depths_sound sb r.method far fun q hq => (hin q hq).1
  have key : ∀ hc ∈ fields, ∃ os, (do
      let hc ← Staggered.constituent r.geographic none s.x s.y f hc
      evaluateOtis r.method t r.quantity.speed false f.x f.y f.nx f.ny f.bath hc pts') = .ok os ∧
      List.Forall₂ (Answers (Staggered.Agrees r.method false
        ((Staggered.world s a).chart r.quantity.node.points (Staggered.worldValue s hc))
        ((Staggered.world s a).depths r.quantity.node.points))
        ((Staggered.world s a).chart r.quantity.node.points (Staggered.worldValue s hc)) 1
        (fun a b => Extrap.dist (t.pos a) (t.pos b)) t.cutoff) pts os := by
    intro hc hm
    obtain ⟨sh, co, nz⟩ := hf hc hm
    obtain ⟨hc', e, st⟩ := cons hc sh
    have rt := Staggered.world_round h r.quantity.node.points _ (Staggered.worldValue_round s hc)
    have cover : Covers t.pos f.nx f.ny
        ((Staggered.world s a).chart r.quantity.node.points (Staggered.worldValue s hc)) (-1) 0 := by
      have h3 := h.three
      refine covers_round hturn (N := s.x.length) (by omega) ?_ rt ?_
      · rw [fnx, Staggered.nodeX_length, fx, uniform_length]; omega
      · intro j hj
        rw [fny, Staggered.nodeY_length]
        exact ⟨hj.1, by have := hj.2; omega⟩
    obtain ⟨os, eo, ao⟩ := otis_inside (ax := f.x) (ay := f.y) st sb r.method t hk cover false co nz far hin
    refine ⟨os, by rw [hg, e, ok_bind, hq, eo], forall₂_trans hl ao fun p q o l a' => ?_⟩
    exact Answers.turn hturn (Staggered.Agrees.turn rt rd) l.same l.lat.symm a'
  obtain ⟨outs, eo, ao⟩ := pyMap_rel key
  refine ⟨ds, outs, ?_, forall₂_trans hl sd fun p q o l s' => ?_, ao⟩
  · have hx : pts.map Prod.fst ≠ [] := by simpa using hne
    have hy : pts.map Prod.snd ≠ [] := by simpa using hne
    obtain ⟨m1, e1, -⟩ := exists_min _ hx
    obtain ⟨m2, e2, -⟩ := exists_max _ hx
    obtain ⟨m3, e3, -⟩ := exists_min _ hy
    obtain ⟨m4, e4, -⟩ := exists_max _ hy
    have reg : r.region (360 / (s.x.length : K)) pts = .ok none := by
      unfold Staggered.Ask.region
      rw [e1, e2, e3, e4]
      simp [hr]
    unfold extractOtis
    rw [h.step, ok_bind, Staggered.step_getD h.two', ok_bind, reg, ok_bind]
    simp only [Staggered.cropIf]
    rw [ok_bind]
    dsimp only
    rw [ok_bind]
    dsimp only
    rw [hg] at eo ⊢
    rw [show (none : Staggered.Region K).isSome = false from rfl, ha, ok_bind, ef, ok_bind, ed, ok_bind]
    simp only [Staggered.aliased]
    rw [ok_bind, eo, ok_bind]
  · have := s'
    rw [show q = (q.1, p.2) from Prod.ext rfl l.lat] at this
    exact this.turn rd l.same

/-- C112 for elevations and transports of a global OTIS model, for any number of places (a model that starts
at the Greenwich meridian answers only if there is one place or none of them lies beyond its last column, see
`C73_batch_false`).  Every point gets what the field says there, and
where it says nothing the value at the closest point of the quantity in the sea.  Missing for the full claim:
numbers of the file that are zero in the sea, and currents, see `C112_currents_false`. -/
theorem C112_otis_partial {s : Staggered.Site ℝ} {a : ℝ} (h : Staggered.Around s a) (r : Staggered.Ask ℝ)
    (hg : r.geographic = true) (hr : r.crop = false) (hq : r.quantity.speed = false)
    (query : Extrap.Query 3) (hk : Extrap.KDSpec query) (cutoff : Option ℝ)
    (fields : List (List (List (Fld ℝ)))) (hf : ∀ hc ∈ fields, CGrid.Shape hc s.y.length s.x.length ∧
      Staggered.Complete r.method false (Staggered.world s a) r.quantity.node.points (Staggered.worldValue s hc) ∧
      ∀ k j, (Staggered.world s a).Wet r.quantity.node.points k j → Staggered.worldValue s hc k j ≠ some (0, 0))
    (pts : List (ℝ × ℝ)) (hne : pts ≠ []) (hs : ∀ p ∈ pts, Staggered.Span r.method p)
    (hb : ∀ p ∈ pts, Staggered.Band r.method r.quantity.node s.y p)
    (start : (0 ≤ a ∧ a ≤ 360 / (s.x.length : ℝ) ∧
        (pts.length = 1 ∨ ∀ p ∈ pts, toPositive p.1 ≤ a + 360 - 360 / (s.x.length : ℝ))) ∨
      (-180 + Staggered.half r.quantity.node (360 / (s.x.length : ℝ)) ≤ a ∧ a ≤ -180 + 360 / (s.x.length : ℝ))) :
    ∃ ds outs, extractOtis r ⟨query, cutoff, onEarth⟩ s fields pts = .ok (ds, outs) ∧
      List.Forall₂ (Staggered.Sounds r.method ((Staggered.world s a).depths r.quantity.node.points)) pts ds ∧
      List.Forall₂ (fun hc os => List.Forall₂ (Answers (Staggered.Agrees r.method false
        ((Staggered.world s a).chart r.quantity.node.points (Staggered.worldValue s hc))
        ((Staggered.world s a).depths r.quantity.node.points))
        ((Staggered.world s a).chart r.quantity.node.points (Staggered.worldValue s hc)) 1 chord cutoff)
        pts os) fields outs := by
  obtain ⟨d0, d1⟩ := h.step0
  obtain ⟨b0, b1⟩ := Staggered.half_bounds r.quantity.node d0
  have main : ∃ pts', Staggered.adjust true false s.x pts = .ok pts' ∧
      List.Forall₂ (Staggered.Lands r.method r.quantity.node a (360 / (s.x.length : ℝ))) pts pts' ∧
      -180 ≤ a ∧ a ≤ 360 := by
    rcases start with ⟨a0, a1, hone | hin⟩ | ⟨a0, a1⟩
    · obtain ⟨p, rfl⟩ := List.length_eq_one_iff.1 hone
      obtain ⟨pts', e, l⟩ := Staggered.adjust_single h a0 a1 r.quantity.node (hs p (by simp))
      exact ⟨pts', e, l, by linarith, by linarith⟩
    · obtain ⟨pts', e, l⟩ := Staggered.adjust_positive h a0 a1 r.quantity.node hne hs hin
      exact ⟨pts', e, l, by linarith, by linarith⟩
    · obtain ⟨pts', e, l⟩ := Staggered.adjust_signed h a0 a1 hne hs
      exact ⟨pts', e, l, by linarith, by linarith⟩
  obtain ⟨pts', e, l, start⟩ := main
  have := extractOtis_lands h r hg hr hq ⟨query, cutoff, onEarth⟩ hk onEarth_turns start fields hf hne e l hb
  simp only [dist_chord] at this
  exact this

/-- Regional OTIS models, for any way to measure distances. -/
theorem extractOtis_region {s : Staggered.Site K} (h : Staggered.Rect s) (r : Staggered.Ask K) (hr : r.crop = false)
    (hg : Staggered.Partial s r.geographic false) (hq : r.quantity.speed = false) (t : Tree K n)
    (hk : Extrap.KDSpec t.query)
    (rim : Staggered.Rim s false (Staggered.region s) r.quantity.node)
    (far : r.method = .bilinear → ∀ c : ℕ, c < s.x.length →
      |s.x.getD c 0 - Staggered.half r.quantity.node (s.x.getD 1 0 - s.x.getD 0 0)| ≤ 720)
    (fields : List (List (List (Fld K)))) (hf : ∀ hc ∈ fields, CGrid.Shape hc s.y.length s.x.length ∧
      Staggered.Complete r.method false (Staggered.region s) r.quantity.node.points (Staggered.regionValue hc) ∧
      ∀ k j, (Staggered.region s).Wet r.quantity.node.points k j → Staggered.regionValue hc k j ≠ some (0, 0))
    (pts : List (K × K)) (hne : pts ≠ []) (hx : ∀ p ∈ pts, Staggered.Within r.method r.quantity.node s.x p)
    (hb : ∀ p ∈ pts, Staggered.Band r.method r.quantity.node s.y p) :
    ∃ ds outs, extractOtis r t s fields pts = .ok (ds, outs) ∧
      List.Forall₂ (Staggered.Sounds r.method ((Staggered.region s).depths r.quantity.node.points)) pts ds ∧
      List.Forall₂ (fun hc os => List.Forall₂ (Answers (Staggered.Agrees r.method false
        ((Staggered.region s).chart r.quantity.node.points (Staggered.regionValue hc))
        ((Staggered.region s).depths r.quantity.node.points))
        ((Staggered.region s).chart r.quantity.node.points (Staggered.regionValue hc)) 1
        (fun a b => Extrap.dist (t.pos a) (t.pos b)) t.cutoff) pts os) fields outs := by
  obtain ⟨f, ef, fx, fy, fnx, fny, sb, cons⟩ := Staggered.regional_shows h r.quantity.node rim hg
  obtain ⟨c0, c1, c2⟩ := Staggered.cols_inside h.asc.1 h.two r.quantity.node
  obtain ⟨r0, r1, r2⟩ := Staggered.rows_inside h.asc.2 h.two' r.quantity.node
  have hin : ∀ q ∈ pts, Staggered.Inside r.method f.nx f.ny q ∧ outside f.x f.y q = .ok false := by
    intro q hq
    have w := hx q hq
    have b := hb q hq
    rw [fnx, fny, fx, fy]
    refine ⟨⟨le_trans c0 w.west, by rw [c1]; exact w.east, le_trans r0 b.south, by rw [r1]; exact b.north,
      fun e => ⟨by rw [c1]; exact w.strict e, lt_of_le_of_lt r0 (b.strict e).1, by rw [r1]; exact (b.strict e).2⟩⟩, ?_⟩
    refine Staggered.Inside.outside (m := .spline) h.asc h.two h.two' ⟨w.west, ?_, b.south, ?_, fun e => by cases e⟩
    · linarith [w.east]
    · linarith [b.north]
  have far' : r.method = .bilinear → ∀ c : ℕ, c < f.nx.length → |f.nx.getD c 0| ≤ 720 := by
    intro hm c hc
    rw [fnx, Staggered.nodeX_length] at hc
    have := far hm c hc
    rw [fnx, Staggered.nodeX_getD _ _ _ _ hc]
    unfold Staggered.half at this
    split_ifs with e
    · rwa [if_pos e] at this
    · rwa [if_neg e, sub_zero] at this
  obtain ⟨ds, ed, sd⟩ := Staggered.depths_sound sb r.method far' fun q hq => (hin q hq).1
  have key : ∀ hc ∈ fields, ∃ os, (do
      let hc ← Staggered.constituent r.geographic none s.x s.y f hc
      evaluateOtis r.method t r.quantity.speed false f.x f.y f.nx f.ny f.bath hc pts) = .ok os ∧
      List.Forall₂ (Answers (Staggered.Agrees r.method false
        ((Staggered.region s).chart r.quantity.node.points (Staggered.regionValue hc))
        ((Staggered.region s).depths r.quantity.node.points))
        ((Staggered.region s).chart r.quantity.node.points (Staggered.regionValue hc)) 1
        (fun a b => Extrap.dist (t.pos a) (t.pos b)) t.cutoff) pts os := by
    intro hc hm
    obtain ⟨sh, co, nz⟩ := hf hc hm
    obtain ⟨hc', e, st⟩ := cons hc sh
    have cover : Covers t.pos f.nx f.ny
        ((Staggered.region s).chart r.quantity.node.points (Staggered.regionValue hc)) 0 0 := by
      intro k j hk hj _
      have hk : 0 ≤ k ∧ k < s.x.length := hk
      have hj : 0 ≤ j ∧ j < s.y.length := hj
      refine ⟨k.toNat, j.toNat, ?_, ?_, ?_, ?_⟩
      · rw [fnx, Staggered.nodeX_length]; omega
      · rw [fny, Staggered.nodeY_length]; omega
      · rw [Int.toNat_of_nonneg hk.1, Int.toNat_of_nonneg hj.1, zero_add, zero_add]
      · rw [Int.toNat_of_nonneg hk.1, Int.toNat_of_nonneg hj.1, zero_add, zero_add]
    obtain ⟨os, eo, ao⟩ := otis_inside (ax := f.x) (ay := f.y) st sb r.method t hk cover false co nz far' hin
    exact ⟨os, by rw [e, ok_bind, hq, eo], ao⟩
  obtain ⟨outs, eo, ao⟩ := pyMap_rel key
  refine ⟨ds, outs, ?_, sd, ao⟩
  have hx' : pts.map Prod.fst ≠ [] := by simpa using hne
  have hy' : pts.map Prod.snd ≠ [] := by simpa using hne
  obtain ⟨m1, e1, -⟩ := exists_min _ hx'
  obtain ⟨m2, e2, -⟩ := exists_max _ hx'
  obtain ⟨m3, e3, -⟩ := exists_min _ hy'
  obtain ⟨m4, e4, -⟩ := exists_max _ hy'
  have reg : r.region (s.x.getD 1 0 - s.x.getD 0 0) pts = .ok none := by
    unfold Staggered.Ask.region
    rw [e1, e2, e3, e4]
    simp [hr]
  have ha : Staggered.adjust r.geographic false s.x pts = .ok pts :=
    Staggered.adjust_within h.asc.1 h.two r.geographic hne fun p hp => ⟨(hx p hp).west, by linarith [(hx p hp).east]⟩
  unfold extractOtis
  rw [Staggered.step_getD h.two, ok_bind, Staggered.step_getD h.two', ok_bind, reg, ok_bind]
  simp only [Staggered.cropIf]
  rw [ok_bind]
  dsimp only
  rw [ok_bind]
  dsimp only
  rw [show (none : Staggered.Region K).isSome = false from rfl, ha, ok_bind, ef, ok_bind, ed, ok_bind]
  simp only [Staggered.aliased]
  rw [ok_bind, eo, ok_bind]

theorem dist_flat (p q : ℝ × ℝ) : Extrap.dist (onPlane p) (onPlane q) = flat p q := by
  unfold Extrap.dist flat
  rw [Fin.sum_univ_two]
  rfl

/-- C112 for elevations and transports of a regional OTIS model in degrees. -/
theorem C112_region_partial {s : Staggered.Site ℝ} (h : Staggered.Rect s) (r : Staggered.Ask ℝ) (hr : r.crop = false)
    (hgeo : r.geographic = true)
    (hg : Staggered.Partial s r.geographic false) (hq : r.quantity.speed = false)
    (query : Extrap.Query 3) (hk : Extrap.KDSpec query) (cutoff : Option ℝ)
    (rim : Staggered.Rim s false (Staggered.region s) r.quantity.node)
    (far : r.method = .bilinear → ∀ c : ℕ, c < s.x.length →
      |s.x.getD c 0 - Staggered.half r.quantity.node (s.x.getD 1 0 - s.x.getD 0 0)| ≤ 720)
    (fields : List (List (List (Fld ℝ)))) (hf : ∀ hc ∈ fields, CGrid.Shape hc s.y.length s.x.length ∧
      Staggered.Complete r.method false (Staggered.region s) r.quantity.node.points (Staggered.regionValue hc) ∧
      ∀ k j, (Staggered.region s).Wet r.quantity.node.points k j → Staggered.regionValue hc k j ≠ some (0, 0))
    (pts : List (ℝ × ℝ)) (hne : pts ≠ []) (hx : ∀ p ∈ pts, Staggered.Within r.method r.quantity.node s.x p)
    (hb : ∀ p ∈ pts, Staggered.Band r.method r.quantity.node s.y p) :
    ∃ ds outs, extractOtis r ⟨query, cutoff, onEarth⟩ s fields pts = .ok (ds, outs) ∧
      List.Forall₂ (Staggered.Sounds r.method ((Staggered.region s).depths r.quantity.node.points)) pts ds ∧
      List.Forall₂ (fun hc os => List.Forall₂ (Answers (Staggered.Agrees r.method false
        ((Staggered.region s).chart r.quantity.node.points (Staggered.regionValue hc))
        ((Staggered.region s).depths r.quantity.node.points))
        ((Staggered.region s).chart r.quantity.node.points (Staggered.regionValue hc)) 1 chord cutoff)
        pts os) fields outs := by
  have := extractOtis_region h r hr hg hq ⟨query, cutoff, onEarth⟩ hk rim far fields hf pts hne hx hb
  simp only [dist_chord] at this
  exact this

/-- C112 for elevations and transports of an OTIS model on a projection: distances are those of the map. -/
theorem C112_projected_partial {s : Staggered.Site ℝ} (h : Staggered.Rect s) (r : Staggered.Ask ℝ) (hr : r.crop = false)
    (hgeo : r.geographic = false)
    (hg : Staggered.Partial s r.geographic false) (hq : r.quantity.speed = false)
    (query : Extrap.Query 2) (hk : Extrap.KDSpec query) (cutoff : Option ℝ)
    (rim : Staggered.Rim s false (Staggered.region s) r.quantity.node)
    (far : r.method = .bilinear → ∀ c : ℕ, c < s.x.length →
      |s.x.getD c 0 - Staggered.half r.quantity.node (s.x.getD 1 0 - s.x.getD 0 0)| ≤ 720)
    (fields : List (List (List (Fld ℝ)))) (hf : ∀ hc ∈ fields, CGrid.Shape hc s.y.length s.x.length ∧
      Staggered.Complete r.method false (Staggered.region s) r.quantity.node.points (Staggered.regionValue hc) ∧
      ∀ k j, (Staggered.region s).Wet r.quantity.node.points k j → Staggered.regionValue hc k j ≠ some (0, 0))
    (pts : List (ℝ × ℝ)) (hne : pts ≠ []) (hx : ∀ p ∈ pts, Staggered.Within r.method r.quantity.node s.x p)
    (hb : ∀ p ∈ pts, Staggered.Band r.method r.quantity.node s.y p) :
    ∃ ds outs, extractOtis r ⟨query, cutoff, onPlane⟩ s fields pts = .ok (ds, outs) ∧
      List.Forall₂ (Staggered.Sounds r.method ((Staggered.region s).depths r.quantity.node.points)) pts ds ∧
      List.Forall₂ (fun hc os => List.Forall₂ (Answers (Staggered.Agrees r.method false
        ((Staggered.region s).chart r.quantity.node.points (Staggered.regionValue hc))
        ((Staggered.region s).depths r.quantity.node.points))
        ((Staggered.region s).chart r.quantity.node.points (Staggered.regionValue hc)) 1 flat cutoff)
        pts os) fields outs := by
  have := extractOtis_region h r hr hg hq ⟨query, cutoff, onPlane⟩ hk rim far fields hf pts hne hx hb
  simp only [dist_flat] at this
  exact this

end Verif.Near
