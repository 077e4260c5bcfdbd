import Verif.Props.ExtrapolatedLimits
import Verif.Props.ExtractFill
import Verif.Props.Size
/-!
C112: places beyond a model get no constants by extrapolation either.
-/
namespace Verif.Near
open Verif Verif.Spec Verif.Grid Verif.Extract

variable {K : Type} [Field K] [LinearOrder K] [IsStrictOrderedRing K] {n : ℕ}

/-- A number on one side of all numbers of an axis. -/
def Beyond (axis : List K) (v : K) : Prop := (∀ c ∈ axis, v < c) ∨ ∀ c ∈ axis, c < v

theorem forall₂_get {α β : Type} {R : α → β → Prop} : ∀ {l : List α} {m : List β}, List.Forall₂ R l m →
    ∀ {i : ℕ} {a : α} {b : β}, l[i]? = some a → m[i]? = some b → R a b
  | _, _, .nil, _, _, _, h, _ => by simp at h
  | _, _, .cons r t, 0, _, _, h, g => by
    simp only [List.getElem?_cons_zero, Option.some.injEq] at h g
    subst h; subst g; exact r
  | _, _, .cons r t, i + 1, _, _, h, g => forall₂_get t (i := i) (by simpa using h) (by simpa using g)

theorem outside_beyond {x y : List K} {q : K × K} {b : Bool} (h : outside x y q = .ok b)
    (hq : Beyond x q.1 ∨ Beyond y q.2) : b = true := by
  unfold outside at h
  split at h
  · next x0 x1 y0 y1 e1 e2 e3 e4 =>
    have m1 := List.min?_mem e1
    have m2 := List.max?_mem e2
    have m3 := List.min?_mem e3
    have m4 := List.max?_mem e4
    cases h
    rw [decide_eq_true_eq]
    rcases hq with (hq | hq) | (hq | hq)
    · exact .inl (hq _ m1)
    · exact .inr (.inl (hq _ m2))
    · exact .inr (.inr (.inl (hq _ m3)))
    · exact .inr (.inr (.inr (hq _ m4)))
  · cases h

theorem evaluate_beyond {f : Fmt} (hf : f.bounded = true) {r : Request K} {t : Tree K n} {stored : Bool}
    {x y : List K} {hc : List (List (Fld K))} {pts : List (K × K)} {os : List (Out K)}
    (e : evaluate f r t stored x y hc pts = .ok os) {i : ℕ} {q : K × K} {o : Out K}
    (hi : pts[i]? = some q) (hq : Beyond x q.1 ∨ Beyond y q.2) (ho : os[i]? = some o) : o = .masked := by
  unfold evaluate at e
  obtain ⟨inv, e1, e⟩ := bind_ok e
  obtain ⟨vs, -, e⟩ := bind_ok e
  cases e
  obtain ⟨w, b, -, hb, rfl⟩ := List.getElem?_zipWith_eq_some.1 ho
  have h1 := forall₂_get (pyMap_forall₂ e1) hi hb
  rw [if_pos hf] at h1
  rw [if_pos (outside_beyond h1 hq)]

theorem evaluateAtlas_beyond {r : Request K} {t : Tree K n} {speed stored : Bool} {nan : K × K → Bool}
    {x y : List K} {bath hc : List (List (Fld K))} {pts : List (K × K)} {os : List (Out K)}
    (e : evaluateAtlas r t speed stored nan x y bath hc pts = .ok os) {i : ℕ} {q : K × K} {o : Out K}
    (hi : pts[i]? = some q) (hq : Beyond x q.1 ∨ Beyond y q.2) (ho : os[i]? = some o) : o = .masked := by
  unfold evaluateAtlas at e
  obtain ⟨ds, -, e⟩ := bind_ok e
  obtain ⟨inv, e1, e⟩ := bind_ok e
  obtain ⟨vs, -, e⟩ := bind_ok e
  cases e
  obtain ⟨w, b, -, hb, rfl⟩ := List.getElem?_zipWith_eq_some.1 ho
  have hb := (List.getElem?_zip_eq_some.1 (List.getElem?_zip_eq_some.1 hb).2).2
  rw [if_pos (outside_beyond (forall₂_get (pyMap_forall₂ e1) hi hb) hq)]

theorem evaluateOtis_beyond {m : Method} {t : Tree K n} {speed stored : Bool} {ax ay x y : List K}
    {bath hc : List (List (Fld K))} {pts : List (K × K)} {os : List (Out K)}
    (e : evaluateOtis m t speed stored ax ay x y bath hc pts = .ok os) {i : ℕ} {q : K × K} {o : Out K}
    (hi : pts[i]? = some q) (hq : Beyond ax q.1 ∨ Beyond ay q.2) (ho : os[i]? = some o) : o = .masked := by
  unfold evaluateOtis at e
  obtain ⟨ds, -, e⟩ := bind_ok e
  obtain ⟨inv, e1, e⟩ := bind_ok e
  obtain ⟨vs, -, e⟩ := bind_ok e
  cases e
  obtain ⟨w, b, -, hb, rfl⟩ := List.getElem?_zipWith_eq_some.1 ho
  have hb := (List.getElem?_zip_eq_some.1 hb).2
  have := outside_beyond (forall₂_get (pyMap_forall₂ e1) hi hb) hq
  rw [this]

/-- The latitudes are not changed when longitudes are adjusted. -/
theorem place_lat {r : Request K} (hr : r.crop = false) {box : Box K} {dlon : K} {g g' : Layer K}
    {pts pts' : List (K × K)} (e : place r box dlon g pts = .ok (g', pts')) :
    g' = g ∧ pts'.map Prod.snd = pts.map Prod.snd := by
  unfold place at e
  rw [if_neg (by simp [hr])] at e
  split at e
  · obtain ⟨x, e1, e⟩ := bind_ok e
    cases e
    refine ⟨rfl, List.map_snd_zip ?_⟩
    have : x.length = (pts.map Prod.fst).length := by
      unfold adjustGOT at e1
      split at e1
      · split_ifs at e1 <;> cases e1 <;> simp
      · cases e1
    simp [this]
  · cases e

theorem extended_lat {f : Fmt} {dlon : K} {g g' : Layer K} (e : extended f dlon g = .ok g') :
    g'.lat = g.lat := by
  unfold extended at e
  split at e
  · split at e
    · obtain ⟨_, -, e⟩ := bind_ok e
      obtain ⟨_, -, e⟩ := bind_ok e
      cases e
      rfl
    · cases e
      rfl
  · cases e

theorem snd_of {pts pts' : List (K × K)} (h : pts'.map Prod.snd = pts.map Prod.snd) {i : ℕ} {q : K × K}
    (hi : pts[i]? = some q) : ∃ q', pts'[i]? = some q' ∧ q'.2 = q.2 := by
  have h1 : (pts'.map Prod.snd)[i]? = some q.2 := by rw [h, List.getElem?_map, hi]; rfl
  rw [List.getElem?_map] at h1
  obtain ⟨q', e1, e2⟩ := Option.map_eq_some_iff.1 h1
  exact ⟨q', e1, e2⟩

theorem extractFiles_beyond {f : Fmt} (hf : f.bounded = true) {r : Request K} (hr : r.crop = false)
    {t : Tree K n} {box : Box K} : ∀ {files : List (Layer K)} {pts : List (K × K)} {outs : List (List (Out K))},
    extractFiles f r t box files pts = .ok outs →
    ∀ {k i : ℕ} {g : Layer K} {os : List (Out K)} {q : K × K} {o : Out K}, files[k]? = some g →
      outs[k]? = some os → pts[i]? = some q → Beyond g.lat q.2 → os[i]? = some o → o = .masked
  | [], _, _, _, k, _, _, _, _, _, hk, _, _, _, _ => by simp at hk
  | g0 :: files, pts, outs, e, k, i, g, os, q, o, hk, hos, hi, hq, ho => by
    unfold extractFiles at e
    obtain ⟨⟨os0, pts1⟩, e1, e⟩ := bind_ok e
    obtain ⟨rest, e2, e⟩ := bind_ok e
    cases e
    unfold extractFile at e1
    obtain ⟨dlon, -, e1⟩ := bind_ok e1
    obtain ⟨⟨g1, pts'⟩, e3, e1⟩ := bind_ok e1
    obtain ⟨g2, e4, e1⟩ := bind_ok e1
    obtain ⟨os', e5, e1⟩ := bind_ok e1
    cases e1
    obtain ⟨rfl, hl⟩ := place_lat hr e3
    obtain ⟨q', hi', hq'⟩ := snd_of hl hi
    cases k with
    | zero =>
      simp only [List.getElem?_cons_zero, Option.some.injEq] at hk hos
      subst hk; subst hos
      refine evaluate_beyond hf e5 hi' (.inr ?_) ho
      rw [extended_lat e4, hq']
      exact hq
    | succ k =>
      exact extractFiles_beyond hf hr e2 (k := k) (by simpa using hk) (by simpa using hos) hi'
        (by rw [hq']; exact hq) ho

theorem adjust_lat {geographic crop : Bool} {x : List K} {pts pts' : List (K × K)}
    (e : Staggered.adjust geographic crop x pts = .ok pts') :
    pts'.map Prod.snd = pts.map Prod.snd ∧ (geographic = false → pts' = pts) := by
  unfold Staggered.adjust at e
  split at e
  · split_ifs at e with h1 h2 h3
    · cases e; exact ⟨rfl, fun _ => rfl⟩
    · cases e
      exact ⟨by rw [List.map_map]; rfl, fun h => absurd h h1⟩
    · cases e; exact ⟨rfl, fun h => absurd h h1⟩
    · obtain ⟨l, e1, e⟩ := bind_ok e
      cases e
      refine ⟨List.map_snd_zip ?_, fun h => absurd h h1⟩
      have : l.length = (pts.map Prod.fst).length := by
        unfold adjustOTIS at e1
        split at e1
        · cases e1
        · dsimp only at e1
          split at e1
          · cases e1
          · cases e1
            split_ifs <;> simp
      simp [this]
  · cases e

theorem frame_axes {exact geographic : Bool} {node : Staggered.Node} {dx dy : K} {x y : List K} {hz : List (List K)}
    {sea : List (List Bool)} {f : Staggered.Frame K}
    (e : Staggered.frame exact geographic node dx dy x y hz sea = .ok f) :
    f.y = y ∧ (geographic = false → f.x = x) := by
  unfold Staggered.frame at e
  split at e
  · obtain ⟨x', e1, e⟩ := bind_ok e
    obtain ⟨b, -, e⟩ := bind_ok e
    cases e
    refine ⟨rfl, fun h => ?_⟩
    subst h
    simp only [Bool.false_and, Bool.false_eq_true, if_false] at e1
    cases e1
    rfl
  · cases e

theorem extractOtis_beyond {r : Staggered.Ask K} (hr : r.crop = false) {t : Tree K n} {s : Staggered.Site K}
    {fields : List (List (List (Fld K)))} {pts : List (K × K)} {ds : List (Option K)} {outs : List (List (Out K))}
    (e : extractOtis r t s fields pts = .ok (ds, outs)) {os : List (Out K)} (hos : os ∈ outs) {i : ℕ} {q : K × K}
    {o : Out K} (hi : pts[i]? = some q) (hq : Beyond s.y q.2 ∨ (r.geographic = false ∧ Beyond s.x q.1))
    (ho : os[i]? = some o) : o = .masked := by
  unfold extractOtis at e
  obtain ⟨dx, -, e⟩ := bind_ok e
  obtain ⟨dy, -, e⟩ := bind_ok e
  obtain ⟨reg, e0, e⟩ := bind_ok e
  have hreg : reg = none := by
    unfold Staggered.Ask.region at e0
    split at e0
    · cases e0
      simp [hr]
    · cases e0
  subst hreg
  simp only [Staggered.cropIf] at e
  obtain ⟨p1, e1, e⟩ := bind_ok e
  cases e1
  obtain ⟨p2, e2, e⟩ := bind_ok e
  cases e2
  obtain ⟨pts', e3, e⟩ := bind_ok e
  obtain ⟨f, e4, e⟩ := bind_ok e
  obtain ⟨d, -, e⟩ := bind_ok e
  obtain ⟨ab, -, e⟩ := bind_ok e
  obtain ⟨outs', e5, e⟩ := bind_ok e
  cases e
  obtain ⟨hc, -, e6⟩ := SolidEarth.pyMap_mem e5 os hos
  obtain ⟨hc', -, e7⟩ := bind_ok e6
  obtain ⟨hl, hp⟩ := adjust_lat e3
  obtain ⟨fy, fx⟩ := frame_axes e4
  rcases hq with hq | ⟨hg, hq⟩
  · obtain ⟨q', hi', hq'⟩ := snd_of hl hi
    exact evaluateOtis_beyond e7 hi' (.inr (by rw [fy, hq']; exact hq)) ho
  · rw [hp hg] at e7
    exact evaluateOtis_beyond e7 hi (.inl (by rw [fx hg]; exact hq)) ho

/-- C112: extrapolation does not reach beyond a model.  Without cropping, whatever the method and the kd-tree,
places north or south of the grid of an FES, ATLAS or OTIS model are masked, and places east or west of
an OTIS model on a projection. -/
theorem C112_beyond (t : Tree K n) (pts : List (K × K)) (i : ℕ) (q : K × K) (hi : pts[i]? = some q) :
    (∀ (r : Request K) (files : List (Layer K)) (outs : List (List (Out K))), r.crop = false →
      extract fes r t files pts = .ok outs → ∀ (k : ℕ) g os o, files[k]? = some g → outs[k]? = some os →
        Beyond g.lat q.2 → os[i]? = some o → o = .masked) ∧
    (∀ (r : Request K) (speed : Bool) (s : AtlasNet.Site K) (fields : List (List (List (K × K)))) ds outs,
      r.crop = false → extractAtlas r t speed s fields pts = .ok (ds, outs) → Beyond s.lat q.2 →
      ∀ os ∈ outs, ∀ o, os[i]? = some o → o = .masked) ∧
    (∀ (r : Staggered.Ask K) (s : Staggered.Site K) (fields : List (List (List (Fld K)))) ds outs,
      r.crop = false → extractOtis r t s fields pts = .ok (ds, outs) →
      Beyond s.y q.2 ∨ (r.geographic = false ∧ Beyond s.x q.1) →
      ∀ os ∈ outs, ∀ o, os[i]? = some o → o = .masked) := by
  refine ⟨?_, ?_, ?_⟩
  · intro r files outs hr e k g os o hk hos hq ho
    unfold extract at e
    obtain ⟨box, -, e⟩ := bind_ok e
    exact extractFiles_beyond rfl hr e hk hos hi hq ho
  · intro r speed s fields ds outs hr e hq os hos o ho
    unfold extractAtlas at e
    obtain ⟨box, -, e⟩ := bind_ok e
    obtain ⟨dlon, -, e⟩ := bind_ok e
    obtain ⟨⟨g1, pts'⟩, e3, e⟩ := bind_ok e
    obtain ⟨g2, e4, e⟩ := bind_ok e
    obtain ⟨d, -, e⟩ := bind_ok e
    obtain ⟨outs', e5, e⟩ := bind_ok e
    cases e
    obtain ⟨hc, -, e6⟩ := SolidEarth.pyMap_mem e5 os hos
    obtain ⟨hc', -, e7⟩ := bind_ok e6
    obtain ⟨rfl, hl⟩ := place_lat hr e3
    obtain ⟨q', hi', hq'⟩ := snd_of hl hi
    refine evaluateAtlas_beyond e7 hi' (.inr ?_) ho
    rw [extended_lat e4, hq']
    exact hq
  · intro r s fields ds outs hr e hq os hos o ho
    exact extractOtis_beyond hr e hos hi hq ho

/-- Requests beyond a model are answered: a place north of the example. -/
example (t : Tree ℚ n) (hq : Extrap.KDSpec t.query) (hcut : t.cutoff = none) :
    extract fes (asked false) t [strait] [(180, 0), (180, 70)] = .ok [[.val 1 2 1, .masked]] ∧
    Beyond strait.lat 70 := by
  refine ⟨?_, .inr (by decide +kernel)⟩
  have hs : step fes strait.lon = .ok 30 := by decide +kernel
  have e1 : place (asked false) ⟨180, 180, 0, 70⟩ 30 strait [(180, 0), (180, 70)] =
      .ok (strait, [(180, 0), (180, 70)]) := by decide +kernel
  have e2 : extended fes 30 strait = .ok wide := by decide +kernel
  have e3 : pyMap (fun q => if fes.bounded then outside wide.lon wide.lat q else .ok false) [(180, 0), (180, 70)] =
      .ok [false, true] := by decide +kernel
  have e4 : pyMap (atPoint (asked false).method false wide.lon wide.lat wide.hc (asked false).scale)
      [(180, 0), (180, 70)] = .ok [.masked, .masked] := by decide +kernel
  have e5 := fillIn_same t hq hcut nanCell wide.lon wide.lat wide.hc (fun z => Out.val z.1 z.2 (1 : ℚ))
    [(180, 0), (180, 70)] [none, none] rfl (1, 2) (by decide +kernel) (by decide +kernel)
  show (do
    let (outs, pts) ← extractFile fes (asked false) t ⟨180, 180, 0, 70⟩ strait [(180, 0), (180, 70)]
    let rest ← extractFiles fes (asked false) t ⟨180, 180, 0, 70⟩ [] pts
    .ok (outs :: rest)) = Except.ok [[Out.val (1 : ℚ) 2 1, .masked]]
  unfold extractFile
  rw [hs, ok_bind, e1, ok_bind]
  simp only
  rw [e2, ok_bind]
  unfold evaluate
  rw [e3, ok_bind, e4, ok_bind]
  simp only [List.map_cons, List.map_nil, unmasked]
  rw [show (asked false).scale = 1 from rfl, e5]
  rfl

end Verif.Near
