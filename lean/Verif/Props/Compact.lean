import Verif.Model.Compact
import Verif.Props.Combine
import Verif.Props.OtisCrop
import Verif.Props.ExtrapolatedStored
import Verif.Props.PipelineOptions
/-!
# C84, C112, C113: ATLAS-compact models for batches of places, cropped, stored, extrapolated and in predictions
-/
namespace Verif.Combine
open Verif Verif.Extract Verif.Spec Verif.Spec.Patches

section
variable {K : Type} [Field K] [LinearOrder K] [IsStrictOrderedRing K] [FloorRing K]

/-- The files of an ATLAS-compact model are in order: matrices of the shape of the axes, axes with equal steps, a
mask of small numbers, and wet nodes of local solutions on the globe. -/
structure Readable (g : Grid K) (fields : List (List (List (K × K)) × List (Local K (K × K)))) : Prop where
  depths : Fit g.x g.y g.hz
  even : ∃ a d b e, EvenAxis g.x a d ∧ EvenAxis g.y b e
  mask : GoodMask g.x g.y g.mz
  places : ∀ s ∈ g.sols, s.patch.OnGlobe
  fields : ∀ f ∈ fields, Fit g.x g.y f.1 ∧ ∀ s ∈ f.2, s.patch.OnGlobe

/-- The fine grid `s` and the constants `hcs` on it are the combination of the local and the global solutions in the
files. -/
structure Describes (g : Grid K) (fields : List (List (List (K × K)) × List (Local K (K × K))))
    (s : Staggered.Site K) (hcs : List (List (List (K × K)))) : Prop where
  lon : s.x = uniform (1 / 60) (1 / 30) 10800
  lat : s.y = uniform (-90 + 1 / 60) (1 / 30) 5400
  depth : ∀ j i, j < 5400 → i < 10800 → ∃ base v, Base g.x g.y (g.hz.map fun r => r.map fun d => (d, 0)) j i (base, 0) ∧
    CGrid.entry s.hz j i = some v ∧ Patches.Shows (g.sols.map Local.patch) base j i v
  sea : ∀ j i, j < 5400 → i < 10800 → ∃ w near, CGrid.entry s.sea j i = some w ∧ NearSea g.x g.y g.mz j i near ∧
    (w = true ↔ (∃ q ∈ g.sols, ∃ w, q.patch.Has j i w) ∨ near ≠ 0)
  constants : List.Forall₂ (fun f m => ∀ j i, j < 5400 → i < 10800 → ∃ base v, Base g.x g.y f.1 j i base ∧
    CGrid.entry m j i = some v ∧ Patches.Shows (f.2.map Local.patch) base j i v) fields hcs
  shape : ∀ m ∈ hcs, CGrid.Shape m 5400 10800

/-- What is read from the files. -/
structure Reads (g : Grid K) (fields : List (List (List (K × K)) × List (Local K (K × K))))
    (s : Staggered.Site K) (hcs : List (List (List (K × K)))) : Prop where
  site : Combine.site g = .ok s
  fields : pyMap (fun f => combineC g.x g.y f.1 f.2) fields = .ok hcs
  around : Staggered.Around s (1 / 60)
  lon : s.x = x30
  lat : s.y = y30
  shape : ∀ m ∈ hcs, CGrid.Shape m 5400 10800

theorem readable_reads {g : Grid K} {fields : List (List (List (K × K)) × List (Local K (K × K)))}
    (h : Readable g fields) : ∃ s hcs, Describes g fields s hcs ∧ Reads g fields s hcs := by
  obtain ⟨a, d, b, e, hx, hy⟩ := h.even
  obtain ⟨s, es, sx, sy, shz, ssea, har⟩ := site_around h.depths hx hy h.mask h.places
  obtain ⟨hz, e1, -, e2⟩ := C83_depths h.depths g.sols h.places
  obtain rfl : hz = s.hz := by rw [e1] at shz; exact Except.ok.inj shz
  obtain ⟨hcs, eh, hsh, hd⟩ : ∃ hcs, pyMap (fun f => combineC g.x g.y f.1 f.2) fields = .ok hcs ∧
      (∀ m ∈ hcs, CGrid.Shape m 5400 10800) ∧
      List.Forall₂ (fun f m => ∀ j i, j < 5400 → i < 10800 → ∃ base v, Base g.x g.y f.1 j i base ∧
        CGrid.entry m j i = some v ∧ Patches.Shows (f.2.map Local.patch) base j i v) fields hcs := by
    have hall := h.fields
    clear h
    induction fields with
    | nil => exact ⟨[], rfl, by simp, .nil⟩
    | cons f t ih =>
      obtain ⟨m, e1, e2, e5⟩ := C83_fields (hall f (by simp)).1 f.2 (hall f (by simp)).2
      obtain ⟨ms, e3, e4, e6⟩ := ih fun f hf => hall f (List.mem_cons_of_mem _ hf)
      refine ⟨m :: ms, by rw [pyMap, e1]; dsimp only; rw [e3], ?_, .cons e5 e6⟩
      intro q hq
      rcases List.mem_cons.1 hq with rfl | hq
      · exact e2
      · exact e4 q hq
  refine ⟨s, hcs, ⟨?_, ?_, e2, ssea, hd, hsh⟩, ⟨es, eh, har, sx, sy, hsh⟩⟩
  · rw [sx, x30_uniform]
    congr 1
    norm_num
  · rw [sy, y30_eq]
    unfold uniform
    refine List.map_congr_left fun i _ => ?_
    ring

namespace Reads
variable {g : Grid K} {fields : List (List (List (K × K)) × List (Local K (K × K)))} {s : Staggered.Site K}
  {hcs : List (List (List (K × K)))}

theorem columns (h : Reads g fields s hcs) : s.x.length = 10800 := by rw [h.lon]; exact x30_length

theorem rows (h : Reads g fields s hcs) : s.y.length = 5400 := by rw [h.lat]; exact y30_length

theorem step (h : Reads g fields s hcs) : (360 : K) / (s.x.length : K) = 1 / 30 := by rw [h.columns]; norm_num

theorem extract_eq (h : Reads g fields s hcs) (r : Staggered.Ask K) (pts : List (K × K)) :
    extract r g fields pts = Staggered.extract r s (hcs.map bared) pts := by
  unfold extract
  rw [h.site, ok_bind, h.fields, ok_bind]
  rfl

theorem read_eq (h : Reads g fields s hcs) (geo : Bool) (node : Staggered.Node) (region : Staggered.Region K) :
    read geo node region g fields = Staggered.read geo node region s (hcs.map bared) := by
  unfold read
  rw [h.site, ok_bind, h.fields, ok_bind]

theorem extrapolate_eq {n : ℕ} (h : Reads g fields s hcs) (r : Staggered.Ask K) (t : Near.Tree K n) (pts : List (K × K)) :
    extrapolate r t g fields pts = Near.extractOtis r t s (hcs.map bared) pts := by
  unfold extrapolate
  rw [h.site, ok_bind, h.fields, ok_bind]

theorem complete (h : Reads g fields s hcs) (m : Method) (stored : Bool) (node : Staggered.Node)
    (nz : m = .bilinear ∨ (m = .linear ∧ stored = true) → ∀ hc ∈ hcs, ∀ k j, (Staggered.world s (1 / 60)).Wet node.points k j →
      Staggered.worldValue s (bared hc) k j ≠ some (0, 0)) :
    ∀ hc ∈ hcs.map bared, CGrid.Shape hc s.y.length s.x.length ∧
      Staggered.Complete m stored (Staggered.world s (1 / 60)) node.points (Staggered.worldValue s hc) := by
  intro hc hhc
  obtain ⟨q, hq, rfl⟩ := List.mem_map.1 hhc
  refine ⟨?_, ?_, ?_⟩
  · rw [h.rows, h.columns]
    exact CGrid.shape_map _ _ _ _ (h.shape q hq)
  · intro _ k j hw
    exact wet_number h.around (by rw [h.rows, h.columns]; exact h.shape q hq) hw
  · exact fun e => nz e q hq

theorem living (h : Reads g fields s hcs) {m : Method} {stored : Bool} {node : Staggered.Node}
    (nz : m = .bilinear ∨ (m = .linear ∧ stored = true) → ∀ hc ∈ hcs, ∀ k j, (Staggered.world s (1 / 60)).Wet node.points k j →
      Staggered.worldValue s (bared hc) k j ≠ some (0, 0))
    (al : ∀ hc ∈ hcs, ∀ k j, (Staggered.world s (1 / 60)).Wet node.points k j →
      Staggered.worldValue s (bared hc) k j ≠ some (0, 0)) :
    ∀ hc ∈ hcs.map bared, CGrid.Shape hc s.y.length s.x.length ∧
      Staggered.Complete m stored (Staggered.world s (1 / 60)) node.points (Staggered.worldValue s hc) ∧
      ∀ k j, (Staggered.world s (1 / 60)).Wet node.points k j → Staggered.worldValue s hc k j ≠ some (0, 0) := by
  intro hc hhc
  obtain ⟨c1, c2⟩ := h.complete m stored node nz hc hhc
  refine ⟨c1, c2, ?_⟩
  obtain ⟨q, hq, rfl⟩ := List.mem_map.1 hhc
  exact al q hq

theorem starts (h : Reads g fields s hcs) (node : Staggered.Node) :
    Staggered.Starts node (1 / 60) (360 / (s.x.length : K)) := by
  rw [h.step]
  refine Or.inl ⟨?_, by norm_num⟩
  have := (Staggered.half_bounds node (d := (1 / 30 : K)) (by norm_num)).2
  linarith

end Reads

/-- The combined constants are nowhere zero in the sea. -/
def Alive (node : Staggered.Node) (s : Staggered.Site K) (hcs : List (List (List (K × K)))) : Prop :=
  ∀ hc ∈ hcs, ∀ k j, (Staggered.world s (1 / 60)).Wet node.points k j →
    Staggered.worldValue s (bared hc) k j ≠ some (0, 0)

/-- The constants are those of the combined solutions at the places. -/
def Right (m : Method) (q : Staggered.Quantity) (s : Staggered.Site K) (hcs : List (List (List (K × K))))
    (pts : List (K × K)) (ds : List (Option K)) (outs : List (List (Out K))) : Prop :=
  List.Forall₂ (Staggered.Sounds m ((Staggered.world s (1 / 60)).depths q.node.points)) pts ds ∧
    List.Forall₂ (fun hc os => List.Forall₂ (Staggered.Agrees m q.speed
      ((Staggered.world s (1 / 60)).chart q.node.points (Staggered.worldValue s (bared hc)))
      ((Staggered.world s (1 / 60)).depths q.node.points)) pts os) hcs outs

/-- **C84** for batches of places west of the last column of the grid in longitudes from 0 to 360 degrees. -/
theorem C84_places_partial {g : Grid K} {fields : List (List (List (K × K)) × List (Local K (K × K)))}
    (h : Readable g fields) : ∃ s hcs, Describes g fields s hcs ∧ ∀ (r : Staggered.Ask K), r.geographic = true →
      r.crop = false → (∀ x y hc q, r.near x y hc q = none) → (r.quantity.speed = true → r.quantity.node ≠ .z) →
      (r.method = .bilinear → Alive r.quantity.node s hcs) → ∀ pts : List (K × K), pts ≠ [] →
      (∀ p ∈ pts, Staggered.Span r.method p ∧ Staggered.Band r.method r.quantity.node s.y p ∧
        Grid.toPositive p.1 ≤ 360 - 1 / 60) →
      ∃ ds outs, extract r g fields pts = .ok (ds, outs) ∧ Right r.method r.quantity s hcs pts ds outs := by
  obtain ⟨s, hcs, d, rd⟩ := readable_reads h
  refine ⟨s, hcs, d, fun r hg hr hn hq nz pts hne hp => ?_⟩
  obtain ⟨ds, outs, e, m1, m2⟩ := Staggered.C73_places_partial rd.around r hg hr hn hq (hcs.map bared)
    (rd.complete _ _ _ fun e => by
      rcases e with e | e
      · exact nz e
      · cases e.2) pts hne (fun p h => (hp p h).1) (fun p h => (hp p h).2.1)
    (Or.inl ⟨by norm_num, by rw [rd.step]; norm_num, fun p h => by
      rw [rd.step]
      have := (hp p h).2.2
      linarith⟩)
  exact ⟨ds, outs, by rw [rd.extract_eq, e], m1, List.forall₂_map_left_iff.1 m2⟩

/-- **C84** with cropping: for a buffer of at least two steps of the fine grid, away from the meridian where the grid is
cut, with a window that does not go around the globe. -/
theorem C84_cropped_partial {g : Grid K} {fields : List (List (List (K × K)) × List (Local K (K × K)))}
    (h : Readable g fields) : ∃ s hcs, Describes g fields s hcs ∧ ∀ (r : Staggered.Ask K), r.geographic = true →
      r.crop = true → r.bounds = none → (∀ x y hc q, r.near x y hc q = none) →
      (r.quantity.speed = true → r.quantity.node ≠ .z) → (r.method = .bilinear → r.quantity.node = .z ∧ Alive .z s hcs) →
      1 / 15 ≤ r.margin (1 / 30) → ∀ pts : List (K × K), pts ≠ [] → (∃ p ∈ pts, p.1 ≠ 0 ∨ p.2 ≠ 0) →
      ((∀ p ∈ pts, 1 / 20 ≤ p.1 ∧ p.1 < 360 - 1 / 30) ∨
        ((∃ p ∈ pts, p.1 < 0) ∧ ∀ p ∈ pts, -180 + 1 / 20 ≤ p.1 ∧ p.1 < 180 - 1 / 15)) →
      (∀ p ∈ pts, Staggered.Band r.method r.quantity.node s.y p) →
      (∀ p ∈ pts, ∀ q ∈ pts, p.1 - q.1 + 2 * r.margin (1 / 30) < 359 - 1 / 30) →
      (r.quantity.node = .u → Staggered.Kept s.x (1 / 60) (r.margin (1 / 30)) (pts.map Prod.fst) ∨ ∃ p ∈ pts, p.1 < 0) →
      (r.quantity.node = .v → Staggered.Kept s.y (1 / 60) (r.margin (1 / 30)) (pts.map Prod.snd)) →
      ∃ ds outs, extract r g fields pts = .ok (ds, outs) ∧ Right r.method r.quantity s hcs pts ds outs := by
  obtain ⟨s, hcs, d, rd⟩ := readable_reads h
  refine ⟨s, hcs, d, fun r hg hr hbd hn hq bil mar pts hne nz clear hb span hu hv => ?_⟩
  have yat : ∀ c : ℕ, c < 5400 → s.y.getD c 0 = -90 + 1 / 60 + c * (1 / 30) := by
    intro c hc
    rw [d.lat, uniform_getD _ _ hc]
  have dy : (s.y.getD 1 0 - s.y.getD 0 0) / 2 = 1 / 60 := by
    rw [yat 1 (by norm_num), yat 0 (by norm_num)]
    push_cast
    ring
  obtain ⟨ds, outs, e, m1, m2⟩ := Staggered.C111_world_partial rd.around (by rw [rd.columns]; norm_num)
    (by rw [rd.columns]; norm_num) (Or.inl ⟨by norm_num, by rw [rd.step]; norm_num⟩) r hg hr hbd hn hq
    (fun e => (bil e).1) (hcs.map bared) (rd.complete _ _ _ fun e => by
      rcases e with e | e
      · rw [(bil e).1]
        exact (bil e).2
      · cases e.2) pts hne nz (by rw [rd.step]; linarith) (by
      intro c hc
      rw [rd.rows] at hc
      rw [rd.step, yat c (by omega), yat (c + 1) hc]
      push_cast
      linarith) (by
      unfold Staggered.Clear
      rw [rd.step]
      rcases clear with c | ⟨c1, c2⟩
      · refine Or.inl fun p hp => ?_
        obtain ⟨c1, c2⟩ := c p hp
        refine ⟨by linarith, by linarith, fun _ => by linarith, fun e => by norm_num at e⟩
      · refine Or.inr (Or.inl ⟨by norm_num, c1, fun p hp => ?_⟩)
        obtain ⟨c3, c4⟩ := c2 p hp
        exact ⟨by linarith, by linarith⟩) hb (by rw [rd.step]; exact span) (by
      intro e
      rw [rd.step]
      rcases hu e with k | k
      · refine Or.inl ⟨?_, Or.inl (by norm_num)⟩
        rw [show (1 / 30 / 2 : K) = 1 / 60 by norm_num]
        exact k
      · exact Or.inr (Or.inl ⟨by norm_num, k⟩)) (by
      intro e
      rw [rd.step, dy]
      exact hv e)
  exact ⟨ds, outs, by rw [rd.extract_eq, e], m1, List.forall₂_map_left_iff.1 m2⟩

/-- **C84** for a model that is read once and then interpolated, at any batch of places. -/
theorem C84_stored_partial {g : Grid K} {fields : List (List (List (K × K)) × List (Local K (K × K)))}
    (h : Readable g fields) : ∃ s hcs, Describes g fields s hcs ∧ ∀ (q : Staggered.Quantity),
      (q.speed = true → q.node ≠ .z) → ∀ (m : Method) (near : Staggered.Near K), (∀ x y hc q, near x y hc q = none) →
      (m ≠ .spline → Alive q.node s hcs) → ∀ pts : List (K × K), pts ≠ [] →
      (∀ p ∈ pts, Staggered.Lies m q.node (1 / 60) (1 / 30) p ∧ Staggered.Band m q.node s.y p) →
      ∃ st ds outs, read true q.node none g fields = .ok st ∧
        Staggered.interpolate m near q.speed st pts = .ok (ds, outs) ∧ Right m q s hcs pts ds outs := by
  obtain ⟨s, hcs, d, rd⟩ := readable_reads h
  refine ⟨s, hcs, d, fun q hq m near hn nz pts hne hp => ?_⟩
  obtain ⟨st, ds, outs, er, ei, m1, m2⟩ := Staggered.C74_stored rd.around m q.node q.speed near hn hq (rd.starts q.node)
    (hcs.map bared) (rd.complete _ _ _ fun e => by
      rcases e with rfl | ⟨rfl, -⟩ <;> exact nz (fun e => by cases e)) pts hne
    (fun p h => by rw [rd.step]; exact (hp p h).1) fun p h => (hp p h).2
  exact ⟨st, ds, outs, by rw [rd.read_eq, er], ei, m1, List.forall₂_map_left_iff.1 m2⟩

end

/-- The constants with extrapolation: those of the combined solutions, and next to land those of the closest point of
the fine grid in the sea. -/
def Reaches (m : Method) (node : Staggered.Node) (cutoff : Option ℝ) (s : Staggered.Site ℝ)
    (hcs : List (List (List (ℝ × ℝ)))) (pts : List (ℝ × ℝ)) (outs : List (List (Out ℝ))) : Prop :=
  List.Forall₂ (fun hc os => List.Forall₂ (Near.Answers (Staggered.Agrees m false
    ((Staggered.world s (1 / 60)).chart node.points (Staggered.worldValue s (bared hc)))
    ((Staggered.world s (1 / 60)).depths node.points))
    ((Staggered.world s (1 / 60)).chart node.points (Staggered.worldValue s (bared hc))) 1 chord cutoff) pts os) hcs outs

/-- **C112** for ATLAS-compact models, elevations and transports that are nowhere zero in the sea. -/
theorem C112_compact_partial {g : Grid ℝ} {fields : List (List (List (ℝ × ℝ)) × List (Local ℝ (ℝ × ℝ)))}
    (h : Readable g fields) (query : Extrap.Query 3) (hk : Extrap.KDSpec query) (cutoff : Option ℝ) :
    ∃ s hcs, Describes g fields s hcs ∧ ∀ (r : Staggered.Ask ℝ), r.geographic = true →
      r.crop = false → r.quantity.speed = false → Alive r.quantity.node s hcs → ∀ pts : List (ℝ × ℝ), pts ≠ [] →
      (∀ p ∈ pts, Staggered.Span r.method p ∧ Staggered.Band r.method r.quantity.node s.y p) →
      (pts.length = 1 ∨ ∀ p ∈ pts, Grid.toPositive p.1 ≤ 360 - 1 / 60) →
      ∃ ds outs, extrapolate r ⟨query, cutoff, Near.onEarth⟩ g fields pts = .ok (ds, outs) ∧
        Reaches r.method r.quantity.node cutoff s hcs pts outs := by
  obtain ⟨s, hcs, d, rd⟩ := readable_reads h
  refine ⟨s, hcs, d, fun r hg hr hq nz pts hne hp hin => ?_⟩
  obtain ⟨ds, outs, e, -, m2⟩ := Near.C112_otis_partial rd.around r hg hr hq query hk cutoff (hcs.map bared)
    (rd.living (fun _ => nz) nz) pts hne (fun p h => (hp p h).1) (fun p h => (hp p h).2)
    (Or.inl ⟨by norm_num, by rw [rd.step]; norm_num, hin.imp_right fun k p h => by
      rw [rd.step]
      have := k p h
      linarith⟩)
  exact ⟨ds, outs, by rw [rd.extrapolate_eq, e], List.forall₂_map_left_iff.1 m2⟩

/-- **C112** for ATLAS-compact models that are read once and then interpolated. -/
theorem C112_compact_stored_partial {g : Grid ℝ} {fields : List (List (List (ℝ × ℝ)) × List (Local ℝ (ℝ × ℝ)))}
    (h : Readable g fields) (query : Extrap.Query 3) (hk : Extrap.KDSpec query) (cutoff : Option ℝ) :
    ∃ s hcs, Describes g fields s hcs ∧ ∀ (m : Method) (node : Staggered.Node), Alive node s hcs →
      ∀ pts : List (ℝ × ℝ), pts ≠ [] →
      (∀ p ∈ pts, Staggered.Lies m node (1 / 60) (1 / 30) p ∧ Staggered.Band m node s.y p) →
      ∃ st ds outs, read true node none g fields = .ok st ∧
        Near.interpolateOtis m ⟨query, cutoff, Near.onEarth⟩ false st pts = .ok (ds, outs) ∧
        Reaches m node cutoff s hcs pts outs := by
  obtain ⟨s, hcs, d, rd⟩ := readable_reads h
  refine ⟨s, hcs, d, fun m node nz pts hne hp => ?_⟩
  obtain ⟨st, ds, outs, er, ei, -, m2⟩ := Near.C112_otis_stored_partial rd.around m node query hk cutoff (rd.starts node)
    (hcs.map bared) (rd.living (fun _ => nz) nz) pts hne (fun p h => by rw [rd.step]; exact (hp p h).1)
    fun p h => (hp p h).2
  exact ⟨st, ds, outs, by rw [rd.read_eq, er], ei, List.forall₂_map_left_iff.1 m2⟩

/-! ## The dictionary of local solutions -/

theorem store_new {N V : Type} [DecidableEq N] (k : N) (v : V) : ∀ d : List (N × V), k ∉ d.map Prod.fst →
    store k v d = d ++ [(k, v)]
  | [], _ => rfl
  | (k', v') :: t, h => by
    have h' : k' ≠ k ∧ k ∉ t.map Prod.fst := by
      simp only [List.map_cons, List.mem_cons, not_or] at h
      exact ⟨fun e => h.1 e.symm, h.2⟩
    rw [store, if_neg h'.1, store_new k v t h'.2]
    rfl

/-- **C83**: where the local solutions of a file have different names, all of them are kept, in the order of the
file. -/
theorem C83_names {N V : Type} [DecidableEq N] (records : List (N × V)) (h : (records.map Prod.fst).Nodup) :
    dictionary records = records := by
  have key : ∀ (l d : List (N × V)), ((d ++ l).map Prod.fst).Nodup →
      l.foldl (fun d p => store p.1 p.2 d) d = d ++ l := by
    intro l
    induction l with
    | nil => intro d _; simp
    | cons p t ih =>
      intro d hd
      have hp : p.1 ∉ d.map Prod.fst := by
        rw [List.map_append, List.nodup_append] at hd
        exact fun hm => hd.2.2 _ hm _ (by simp) rfl
      rw [List.foldl_cons, store_new _ _ _ hp, ih _ (by simpa using hd)]
      simp
  exact key records [] (by simpa using h)

theorem mem_store {N V : Type} [DecidableEq N] (k : N) (v : V) (p : N × V) : ∀ d : List (N × V), (d.map Prod.fst).Nodup →
    (p ∈ store k v d ↔ p = (k, v) ∨ (p ∈ d ∧ p.1 ≠ k))
  | [], _ => by simp [store]
  | (k', v') :: t, h => by
    have h1 := (List.nodup_cons.1 h).1
    have ih := mem_store k v p t (List.nodup_cons.1 h).2
    unfold store
    split_ifs with e
    · subst e
      simp only [List.mem_cons]
      constructor
      · rintro (rfl | hm)
        · exact Or.inl rfl
        · exact Or.inr ⟨Or.inr hm, fun e => h1 (by
            have := List.mem_map_of_mem (f := Prod.fst) hm
            rwa [e] at this)⟩
      · rintro (rfl | ⟨rfl | hm, ne⟩)
        · exact Or.inl rfl
        · exact absurd rfl ne
        · exact Or.inr hm
    · simp only [List.mem_cons, ih]
      constructor
      · rintro (rfl | rfl | ⟨hm, ne⟩)
        · exact Or.inr ⟨Or.inl rfl, e⟩
        · exact Or.inl rfl
        · exact Or.inr ⟨Or.inr hm, ne⟩
      · rintro (rfl | ⟨rfl | hm, ne⟩)
        · exact Or.inr (Or.inl rfl)
        · exact Or.inl rfl
        · exact Or.inr (Or.inr ⟨hm, ne⟩)

theorem keys_store {N V : Type} [DecidableEq N] (k : N) (v : V) : ∀ d : List (N × V), (d.map Prod.fst).Nodup →
    ((store k v d).map Prod.fst).Nodup
  | [], _ => by simp [store]
  | (k', v') :: t, h => by
    have h1 := List.nodup_cons.1 h
    unfold store
    split_ifs with e
    · exact h
    · refine List.nodup_cons.2 ⟨fun hm => ?_, keys_store k v t h1.2⟩
      obtain ⟨q, hq, e1⟩ := List.mem_map.1 hm
      rcases (mem_store k v q t h1.2).1 hq with rfl | ⟨hq, -⟩
      · exact e e1.symm
      · exact h1.1 (e1 ▸ List.mem_map_of_mem hq)

/-- **C83**: in general the last solution of each name is kept, and no other. -/
theorem C83_last {N V : Type} [DecidableEq N] (records : List (N × V)) (p : N × V) :
    p ∈ dictionary records ↔ ∃ pre post, records = pre ++ p :: post ∧ p.1 ∉ post.map Prod.fst := by
  have key : ∀ l : List (N × V), ((dictionary l).map Prod.fst).Nodup ∧
      ∀ p, p ∈ dictionary l ↔ ∃ pre post, l = pre ++ p :: post ∧ p.1 ∉ post.map Prod.fst := by
    intro l
    induction l using List.reverseRecOn with
    | nil => exact ⟨by simp [dictionary], fun p => by simp [dictionary]⟩
    | append_singleton t q ih =>
      have e : dictionary (t ++ [q]) = store q.1 q.2 (dictionary t) := by
        unfold dictionary
        rw [List.foldl_append]
        rfl
      rw [e]
      refine ⟨keys_store _ _ _ ih.1, fun p => ?_⟩
      rw [mem_store _ _ _ _ ih.1, ih.2]
      constructor
      · rintro (rfl | ⟨⟨pre, post, rfl, hn⟩, ne⟩)
        · exact ⟨t, [], rfl, by simp⟩
        · refine ⟨pre, post ++ [q], by simp, ?_⟩
          simp only [List.map_append, List.mem_append, not_or]
          exact ⟨hn, by simpa using ne⟩
      · rintro ⟨pre, post, h, hn⟩
        rcases List.eq_nil_or_concat post with rfl | ⟨post', q', rfl⟩
        · left
          have := List.append_inj' h (by simp)
          simp only [List.cons.injEq, and_true] at this
          exact this.2.symm
        · rw [List.concat_eq_append, ← List.cons_append, ← List.append_assoc] at h
          obtain ⟨h1, h2⟩ := List.append_inj' h (by simp)
          simp only [List.cons.injEq, and_true] at h2
          subst h2
          right
          rw [List.concat_eq_append, List.map_append, List.mem_append, not_or] at hn
          exact ⟨⟨pre, post', h1, hn.1⟩, by simpa using hn.2⟩
  exact (key records).2 p

/-- Of two local solutions with the same name the first is lost: here the cells of `bay` show the global solution, not
(1, 2), though the other solution has no nodes. -/
theorem C83_names_false : ∃ m, combineC (uniform (45 : ℚ) 90 4) [-45, 45]
      [[(0, 0), (0, 0), (0, 0), (0, 0)], [(0, 0), (0, 0), (0, 0), (0, 0)]]
      ((dictionary [("", bay), ("", ⟨0, 0, []⟩)]).map Prod.snd) = .ok m ∧
    CGrid.entry m 3299 10798 = some (0, 0) ∧ bay.patch.Has 3299 10798 (1, 2) := by
  refine ⟨plain30 fun j i => (Spline.spline (uniform (45 : ℚ) 90 4) [-45, 45] [[0, 0, 0, 0], [0, 0, 0, 0]] (midLon i) (midLat j),
    Spline.spline (uniform (45 : ℚ) 90 4) [-45, 45] [[0, 0, 0, 0], [0, 0, 0, 0]] (midLon i) (midLat j)), ?_, ?_, ?_⟩
  · unfold combineC resampleC
    rw [if_pos (by decide +kernel), ok_bind, grid_plain fun a b =>
      (Spline.spline (uniform (45 : ℚ) 90 4) [-45, 45] ([[((0 : ℚ), (0 : ℚ)), (0, 0), (0, 0), (0, 0)], [(0, 0), (0, 0), (0, 0), (0, 0)]].map fun r => r.map Prod.fst) a b,
      Spline.spline (uniform (45 : ℚ) 90 4) [-45, 45] ([[((0 : ℚ), (0 : ℚ)), (0, 0), (0, 0), (0, 0)], [(0, 0), (0, 0), (0, 0), (0, 0)]].map fun r => r.map Prod.snd) a b)]
    have ht : targets (⟨0, 0, []⟩ : Local ℚ (ℚ × ℚ)) = [] := rfl
    have hd : (dictionary [("", bay), ("", ⟨0, 0, []⟩)]).map Prod.snd = [⟨0, 0, []⟩] := rfl
    rw [hd]
    simp only [overlay, ht, assign, pyMap, ok_bind, List.foldl_nil, List.map_cons, List.map_nil]
  · rw [plain30_entry _ (by norm_num) (by norm_num)]
    decide +kernel
  · refine ⟨0, 0, _, _, rfl, (node_iff bay _ _ _ _).2 ⟨rfl, rfl⟩, ?_⟩
    unfold InCell
    rw [coord_mark, coord_mark, inCell_x, inCell_y]
    exact ⟨⟨1, by decide +kernel⟩, by decide +kernel⟩

example : dictionary [("a", 1), ("b", 2), ("a", 3)] = [("a", 3), ("b", 2)] := by decide +kernel

/-! ## An example -/

/-- A model with a local solution on both sides of Greenwich is `Readable`. -/
example : Readable ⟨uniform (45 : ℚ) 90 4, [-45, 45], [[100, 100, 0, 100], [100, 0, 100, 100]],
    [[1, 1, 0, 1], [1, 0, 1, 1]], [⟨bay.lon, bay.lat, [[some 7, none], [none, some 9]]⟩]⟩
    [([[(0, 1), (1, 0), (2, 0), (3, 0)], [(0, 0), (1, 0), (2, 0), (3, 0)]], [bay])] := by
  refine ⟨by decide +kernel, ⟨45, 90, -45, 90, ⟨by decide +kernel, by norm_num, by decide +kernel⟩,
    ⟨by decide +kernel, by norm_num, by decide +kernel⟩⟩, ⟨by decide +kernel, by decide +kernel, by decide +kernel⟩, ?_, ?_⟩
  · intro s hs
    rw [List.mem_singleton.1 hs]
    intro r c v x y hv hn
    refine bay_onGlobe r c ((bay.patch.value r c).getD 0) x y ?_ hn
    have : (r = 0 ∧ c = 0) ∨ (r = 1 ∧ c = 1) := by
      match r, c with
      | 0, 0 => simp
      | 1, 1 => simp
      | 0, 1 => simp [Patch.value, Local.patch] at hv
      | 1, 0 => simp [Patch.value, Local.patch] at hv
      | 0, c + 2 => simp [Patch.value, Local.patch] at hv
      | 1, c + 2 => simp [Patch.value, Local.patch] at hv
      | r + 2, c => simp [Patch.value, Local.patch] at hv
    rcases this with ⟨rfl, rfl⟩ | ⟨rfl, rfl⟩ <;> rfl
  · intro f hf
    rw [List.mem_singleton.1 hf]
    exact ⟨by decide +kernel, by simpa using bay_onGlobe⟩

/-- A global solution on 4 by 2 nodes, 100 m deep. -/
noncomputable def basin : Grid ℝ := ⟨uniform 45 90 4, uniform (-45) 90 2, [[100, 100, 100, 100], [100, 100, 100, 100]],
  [[1, 1, 1, 1], [1, 1, 1, 1]], []⟩

/-- A tide of 1 m everywhere. -/
noncomputable def swell : List (List (List (ℝ × ℝ)) × List (Local ℝ (ℝ × ℝ))) :=
  [([[(1, 0), (1, 0), (1, 0), (1, 0)], [(1, 0), (1, 0), (1, 0), (1, 0)]], [])]

theorem basin_readable : Readable basin swell := by
  have sp : Extract.Spans basin.x basin.y := by
    unfold Extract.Spans Extract.Ascending basin uniform
    simp only [List.range, List.range.loop, List.map_cons, List.map_nil, List.pairwise_cons, List.mem_cons,
      List.not_mem_nil, or_false]
    norm_num
  refine ⟨⟨sp, rfl, ?_⟩, ⟨45, 90, -45, 90, ⟨by simp [basin, uniform], by norm_num, ?_⟩, ⟨by simp [basin, uniform], by norm_num, ?_⟩⟩,
    ⟨rfl, ?_, ?_⟩, by simp [basin], ?_⟩
  · simp [basin, uniform]
  · simp [basin, uniform]
  · simp [basin, uniform]
  · simp [basin, uniform]
  · simp [basin]
  · intro f hf
    rw [swell, List.mem_singleton] at hf
    subst hf
    exact ⟨⟨sp, rfl, by simp [basin, uniform]⟩, by simp⟩

theorem swell_alive {s : Staggered.Site ℝ} {hcs : List (List (List (ℝ × ℝ)))} (d : Describes basin swell s hcs)
    (node : Staggered.Node) : Alive node s hcs := by
  obtain ⟨hc, hm, k⟩ : ∃ hc, hcs = [hc] ∧ ∀ j i, j < 5400 → i < 10800 → CGrid.entry hc j i = some (1, 0) := by
    have := d.constants
    unfold swell at this
    cases this with
    | @cons _ hc _ _ h t =>
      cases t
      refine ⟨hc, rfl, fun j i hj hi => ?_⟩
      obtain ⟨base, v, hb, hv, hs⟩ := h j i hj hi
      rcases hs with ⟨pre, p, post, h1, -⟩ | ⟨-, rfl⟩
      · simp at h1
      rw [hv]
      obtain ⟨k, l, t, s, hat, hval⟩ := hb
      have hv' : ∀ k l, (coarse basin.x basin.y [[(1, 0), (1, 0), (1, 0), (1, 0)], [(1, 0), (1, 0), (1, 0), (1, 0)]]).cols k →
          (coarse basin.x basin.y [[(1, 0), (1, 0), (1, 0), (1, 0)], [(1, 0), (1, 0), (1, 0), (1, 0)]]).rows l →
          (coarse basin.x basin.y [[(1, 0), (1, 0), (1, 0), (1, 0)], [(1, 0), (1, 0), (1, 0), (1, 0)]]).value k l = some (1, 0) := by
        intro k l hk hl
        simp only [coarse] at hk hl ⊢
        have h1 : (basin.x).length = 4 := by simp [basin, uniform]
        have h2 : (basin.y).length = 2 := by simp [basin, uniform]
        rw [h1] at hk
        rw [h2] at hl
        have : l.toNat = 0 ∨ l.toNat = 1 := by omega
        have : k.toNat = 0 ∨ k.toNat = 1 ∨ k.toNat = 2 ∨ k.toNat = 3 := by omega
        rcases ‹l.toNat = 0 ∨ _› with e | e <;> rcases ‹k.toNat = 0 ∨ _› with e' | e' | e' | e' <;> rw [e, e'] <;> rfl
      unfold Chart.blend Chart.corners at hval
      rw [hv' k l hat.col hat.row, hv' (k + 1) l hat.col' hat.row, hv' k (l + 1) hat.col hat.row',
        hv' (k + 1) (l + 1) hat.col' hat.row', if_pos (by
        intro p hp _
        simp only [List.mem_cons, List.not_mem_nil, or_false] at hp
        rcases hp with rfl | rfl | rfl | rfl <;> exact fun h => by cases h)] at hval
      rw [Option.some.inj hval]
      simp only [List.map_cons, List.map_nil, List.sum_cons, List.sum_nil, Option.getD_some]
      refine congrArg some (Prod.ext ?_ ?_) <;> dsimp only <;> ring
  subst hm
  intro hc' hm k' j' _ e
  rw [List.mem_singleton.1 hm] at e
  unfold Staggered.worldValue at e
  have e2 : s.x.length = 10800 := by rw [d.lon]; simp [uniform]
  rw [e2] at e
  generalize hi : (k' % ((10800 : ℕ) : ℤ)).toNat = i at e
  have hi' : i < 10800 := by omega
  generalize j'.toNat = j at e
  unfold Extract.entry bared at e
  rw [List.getD_eq_getElem?_getD, List.getD_eq_getElem?_getD, List.getElem?_map] at e
  cases hr : hc[j]? with
  | none =>
    rw [hr] at e
    simp [Fld.number] at e
  | some row =>
    rw [hr] at e
    simp only [Option.map_some, Option.getD_some, List.getElem?_map] at e
    cases hq : row[i]? with
    | none =>
      rw [hq] at e
      simp [Fld.number] at e
    | some v =>
      rw [hq] at e
      by_cases hj : j < 5400
      · have := k j i hj hi'
        unfold CGrid.entry at this
        rw [hr] at this
        simp only [Option.bind_some, hq, Option.some.injEq] at this
        subst this
        simp [Fld.number] at e
      · have := (d.shape hc (by simp)).1
        rw [List.getElem?_eq_none (by omega)] at hr
        cases hr

end Verif.Combine

namespace Verif.Pipeline
open Verif Verif.Predict Verif.Compute Verif.Extract Verif.Spec Verif.Combine

/-- At each place there is one constant for each of the combined fields: its interpolation, per depth for velocities. -/
def Told (m : Method) (q : Staggered.Quantity) (s : Staggered.Site ℝ) (hcs : List (List (List (ℝ × ℝ))))
    (p : ℝ × ℝ) (z : List (Option ℂ)) : Prop :=
  List.Forall₂ (fun hc z => ∃ v w,
    Interpolated m ((Staggered.world s (1 / 60)).chart q.node.points (Staggered.worldValue s (bared hc))) p v ∧
    Interpolated (atlasWay m) ((Staggered.world s (1 / 60)).depths q.node.points) p w ∧ z = flow q.speed 1 v w) hcs z

/-- The same with the closest point in the sea where there is none. -/
def Carried (m : Method) (node : Staggered.Node) (cutoff : Option ℝ) (s : Staggered.Site ℝ)
    (hcs : List (List (List (ℝ × ℝ)))) (p : ℝ × ℝ) (z : List (Option ℂ)) : Prop :=
  List.Forall₂ (fun hc z => Filled (fun z => ∃ v w,
    Interpolated m ((Staggered.world s (1 / 60)).chart node.points (Staggered.worldValue s (bared hc))) p v ∧
    Interpolated (atlasWay m) ((Staggered.world s (1 / 60)).depths node.points) p w ∧ z = flow false 1 v w)
    ((Staggered.world s (1 / 60)).chart node.points (Staggered.worldValue s (bared hc))) 1 chord cutoff p z) hcs z

section
variable (P : Predict.Env) (I : Infer.Env) (o : Options) (ny nx : ℕ) (b : About) (lats : Option (List ℝ))
  {g : Grid ℝ} {fields : List (List (List (ℝ × ℝ)) × List (Local ℝ (ℝ × ℝ)))}

theorem compact_right {r : Staggered.Ask ℝ} {pts times : List (ℝ × ℝ)} {s : Staggered.Site ℝ}
    {hcs : List (List (List (ℝ × ℝ)))} {ds : List (Option ℝ)} {outs : List (List (Extract.Out ℝ))}
    (ha : ∀ l ∈ lats, l.length = pts.length) (hs : Suits P I o (b.with lats) pts.length ny nx times)
    (hl : hcs.length = b.names.length) (e : Combine.extract r g fields pts = .ok (ds, outs))
    (m : Right r.method r.quantity s hcs pts ds outs) :
    ∃ zs, optCompact P I o ny nx r none lats g fields b pts times
        = .ok (laid o.type (expected P I o (b.with lats)) (List.zipWith (· ++ ·) zs (added b lats pts.length)) times) ∧
      List.Forall₂ (Told r.method r.quantity s hcs) pts zs := by
  obtain ⟨zs, e1, m1⟩ := finish_laid hs ha hl (fun hc p z => ∃ v w,
      Interpolated r.method ((Staggered.world s (1 / 60)).chart r.quantity.node.points (Staggered.worldValue s (bared hc))) p v ∧
      Interpolated (atlasWay r.method) ((Staggered.world s (1 / 60)).depths r.quantity.node.points) p w ∧
      z = flow r.quantity.speed 1 v w)
    (m.2.imp fun g col h => h.imp fun p v k => (otis_number k).2)
  exact ⟨zs, by rw [optCompact, e, ok_bind]; exact e1, m1⟩

/-- **C113** for ATLAS-compact models: elevations, transports and velocities at batches of places, with the node tide
if it is asked for. -/
theorem C113_compact_partial (h : Readable g fields) (hl : fields.length = b.names.length) :
    ∃ s hcs, Describes g fields s hcs ∧ ∀ (r : Staggered.Ask ℝ), r.geographic = true →
      r.crop = false → (∀ x y hc q, r.near x y hc q = none) → (r.quantity.speed = true → r.quantity.node ≠ .z) →
      (r.method = .bilinear → Alive r.quantity.node s hcs) → ∀ pts times : List (ℝ × ℝ), pts ≠ [] →
      (∀ p ∈ pts, Staggered.Span r.method p ∧ Staggered.Band r.method r.quantity.node s.y p ∧
        Grid.toPositive p.1 ≤ 360 - 1 / 60) →
      (∀ l ∈ lats, l.length = pts.length) → Suits P I o (b.with lats) pts.length ny nx times →
      ∃ zs, optCompact P I o ny nx r none lats g fields b pts times
          = .ok (laid o.type (expected P I o (b.with lats)) (List.zipWith (· ++ ·) zs (added b lats pts.length)) times) ∧
        List.Forall₂ (Told r.method r.quantity s hcs) pts zs := by
  obtain ⟨s, hcs, d, k⟩ := C84_places_partial h
  refine ⟨s, hcs, d, fun r hg hr hn hq nz pts times hne hp ha hs => ?_⟩
  obtain ⟨ds, outs, e, m⟩ := k r hg hr hn hq nz pts hne hp
  exact compact_right P I o ny nx b lats ha hs (by rw [← d.constants.length_eq, hl]) e m

/-- **C113** for ATLAS-compact models with cropping. -/
theorem C113_compact_cropped_partial (h : Readable g fields) (hl : fields.length = b.names.length) :
    ∃ s hcs, Describes g fields s hcs ∧ ∀ (r : Staggered.Ask ℝ), r.geographic = true →
      r.crop = true → r.bounds = none → (∀ x y hc q, r.near x y hc q = none) →
      (r.quantity.speed = true → r.quantity.node ≠ .z) → (r.method = .bilinear → r.quantity.node = .z ∧ Alive .z s hcs) →
      1 / 15 ≤ r.margin (1 / 30) → ∀ pts times : List (ℝ × ℝ), pts ≠ [] → (∃ p ∈ pts, p.1 ≠ 0 ∨ p.2 ≠ 0) →
      ((∀ p ∈ pts, 1 / 20 ≤ p.1 ∧ p.1 < 360 - 1 / 30) ∨
        ((∃ p ∈ pts, p.1 < 0) ∧ ∀ p ∈ pts, -180 + 1 / 20 ≤ p.1 ∧ p.1 < 180 - 1 / 15)) →
      (∀ p ∈ pts, Staggered.Band r.method r.quantity.node s.y p) →
      (∀ p ∈ pts, ∀ q ∈ pts, p.1 - q.1 + 2 * r.margin (1 / 30) < 359 - 1 / 30) →
      (r.quantity.node = .u → Staggered.Kept s.x (1 / 60) (r.margin (1 / 30)) (pts.map Prod.fst) ∨ ∃ p ∈ pts, p.1 < 0) →
      (r.quantity.node = .v → Staggered.Kept s.y (1 / 60) (r.margin (1 / 30)) (pts.map Prod.snd)) →
      (∀ l ∈ lats, l.length = pts.length) → Suits P I o (b.with lats) pts.length ny nx times →
      ∃ zs, optCompact P I o ny nx r none lats g fields b pts times
          = .ok (laid o.type (expected P I o (b.with lats)) (List.zipWith (· ++ ·) zs (added b lats pts.length)) times) ∧
        List.Forall₂ (Told r.method r.quantity s hcs) pts zs := by
  obtain ⟨s, hcs, d, k⟩ := C84_cropped_partial h
  refine ⟨s, hcs, d, fun r hg hr hbd hn hq bil mar pts times hne nz clear hb span hu hv ha hs => ?_⟩
  obtain ⟨ds, outs, e, m⟩ := k r hg hr hbd hn hq bil mar pts hne nz clear hb span hu hv
  exact compact_right P I o ny nx b lats ha hs (by rw [← d.constants.length_eq, hl]) e m

/-- **C113** for ATLAS-compact models with extrapolation: elevations and transports. -/
theorem C113_compact_extrapolated_partial (h : Readable g fields) (hl : fields.length = b.names.length)
    (query : Extrap.Query 3) (hk : Extrap.KDSpec query) (cutoff : Option ℝ) :
    ∃ s hcs, Describes g fields s hcs ∧ ∀ (r : Staggered.Ask ℝ), r.geographic = true →
      r.crop = false → r.quantity.speed = false → Alive r.quantity.node s hcs → ∀ pts times : List (ℝ × ℝ), pts ≠ [] →
      (∀ p ∈ pts, Staggered.Span r.method p ∧ Staggered.Band r.method r.quantity.node s.y p) →
      (pts.length = 1 ∨ ∀ p ∈ pts, Grid.toPositive p.1 ≤ 360 - 1 / 60) →
      (∀ l ∈ lats, l.length = pts.length) → Suits P I o (b.with lats) pts.length ny nx times →
      ∃ zs, optCompact P I o ny nx r (some ⟨query, cutoff, Near.onEarth⟩) lats g fields b pts times
          = .ok (laid o.type (expected P I o (b.with lats)) (List.zipWith (· ++ ·) zs (added b lats pts.length)) times) ∧
        List.Forall₂ (Carried r.method r.quantity.node cutoff s hcs) pts zs := by
  obtain ⟨s, hcs, d, k⟩ := C112_compact_partial h query hk cutoff
  refine ⟨s, hcs, d, fun r hg hr hq nz pts times hne hp hin ha hs => ?_⟩
  obtain ⟨ds, outs, e, m⟩ := k r hg hr hq nz pts hne hp hin
  obtain ⟨zs, e1, m1⟩ := finish_laid hs ha (by rw [← d.constants.length_eq, hl]) (fun hc p z => Filled (fun z => ∃ v w,
      Interpolated r.method ((Staggered.world s (1 / 60)).chart r.quantity.node.points (Staggered.worldValue s (bared hc))) p v ∧
      Interpolated (atlasWay r.method) ((Staggered.world s (1 / 60)).depths r.quantity.node.points) p w ∧
      z = flow false 1 v w)
      ((Staggered.world s (1 / 60)).chart r.quantity.node.points (Staggered.worldValue s (bared hc))) 1 chord cutoff p z)
    (m.imp fun g col h => h.imp fun p v k => answers_number k fun v => otis_number)
  exact ⟨zs, by rw [optCompact, e, ok_bind]; exact e1, m1⟩

end

/-- The hypotheses of `C113_compact_extrapolated_partial` hold for the basin, places on both sides of Greenwich and an
appended node tide. -/
example (P : Predict.Env) (hP : ∀ c, P.known c = true) (I : Infer.Env) (near : Staggered.Near ℝ) : ∃ (query : Extrap.Query 3)
    (zs : List (List (Option ℂ))),
    optCompact P I ⟨"drift", none, false, none⟩ 1 1 ⟨⟨.z, false⟩, true, .linear, false, none, none, near⟩
        (some ⟨query, none, Near.onEarth⟩) (some [10, -20]) basin swell ⟨["m2"], "GOT", none⟩ [(-30, 10), (20, -20)]
        [(0, 0), (1, 0)]
      = .ok (laid "drift" (expected P I ⟨"drift", none, false, none⟩ ⟨["m2", "node"], "GOT", none⟩) zs [(0, 0), (1, 0)]) ∧
    zs.map List.length = [2, 2] := by
  obtain ⟨query, hq⟩ := Extrap.kdspec_satisfiable (n := 3)
  have w : About.with ⟨["m2"], "GOT", none⟩ (some [10, -20]) = ⟨["m2", "node"], "GOT", none⟩ := by
    unfold About.with
    rw [if_pos ⟨rfl, by simp⟩]
    rfl
  obtain ⟨s, hcs, d, k⟩ := C113_compact_extrapolated_partial P I ⟨"drift", none, false, none⟩ 1 1 ⟨["m2"], "GOT", none⟩
    (some [10, -20]) basin_readable rfl query hq none
  have yat : ∀ c : ℕ, c < 5400 → s.y.getD c 0 = -90 + 1 / 60 + c * (1 / 30) := by
    intro c hc
    rw [d.lat, uniform_getD _ _ hc]
  have yl : s.y.length = 5400 := by rw [d.lat]; simp [uniform]
  obtain ⟨zs, h1, h2⟩ := k ⟨⟨.z, false⟩, true, .linear, false, none, none, near⟩ rfl rfl rfl (swell_alive d _)
    [(-30, 10), (20, -20)] [(0, 0), (1, 0)] (by simp) (by
      intro p hp
      simp only [List.mem_cons, List.not_mem_nil, or_false] at hp
      have y0 := yat 0 (by norm_num)
      have y1 := yat 1 (by norm_num)
      have y2 := yat 5399 (by norm_num)
      rcases hp with rfl | rfl <;> refine ⟨⟨by norm_num, by norm_num, fun h => by cases h⟩, ?_, ?_, fun h => by cases h⟩ <;>
        simp only [yl, y0, y1, y2, Staggered.low, reduceCtorEq, if_false] <;> norm_num) (Or.inr (by
      intro p hp
      simp only [List.mem_cons, List.not_mem_nil, or_false] at hp
      rcases hp with rfl | rfl <;> unfold Grid.toPositive <;> norm_num))
    (by intro l hl; cases hl; rfl) (by
      rw [w]
      exact ⟨Or.inr (Or.inl ⟨by decide +kernel, rfl⟩), fun _ _ => hP _, by decide +kernel, fun h => by cases h⟩)
  refine ⟨query, _, by rw [← w]; exact h1, ?_⟩
  have a : added ⟨["m2"], "GOT", none⟩ (some [10, -20]) 2 = [[some (nodeConstant 10)], [some (nodeConstant (-20))]] := by
    unfold added
    simp
  show List.map List.length (List.zipWith (· ++ ·) zs (added ⟨["m2"], "GOT", none⟩ (some [10, -20]) 2)) = [2, 2]
  rw [a]
  have l1 : hcs.length = 1 := d.constants.length_eq.symm
  match zs, h2 with
  | [z, z'], .cons k (.cons k' .nil) =>
    have e1 : z.length = 1 := by rw [← l1]; exact k.length_eq.symm
    have e2 : z'.length = 1 := by rw [← l1]; exact k'.length_eq.symm
    simp [e1, e2]

/-- The hypotheses of `C113_compact_cropped_partial` hold for the basin too. -/
example (P : Predict.Env) (hP : ∀ c, P.known c = true) (I : Infer.Env) : ∃ zs : List (List (Option ℂ)),
    optCompact P I ⟨"drift", none, false, none⟩ 1 1 ⟨⟨.z, false⟩, true, .spline, true, none, none, fun _ _ _ _ => none⟩
        none none basin swell ⟨["m2"], "GOT", none⟩ [(-30, 10), (20, -20)] [(0, 0), (1, 0)]
      = .ok (laid "drift" (expected P I ⟨"drift", none, false, none⟩ ⟨["m2"], "GOT", none⟩) zs [(0, 0), (1, 0)]) := by
  obtain ⟨s, hcs, d, k⟩ := C113_compact_cropped_partial P I ⟨"drift", none, false, none⟩ 1 1 ⟨["m2"], "GOT", none⟩
    none basin_readable rfl
  have yat : ∀ c : ℕ, c < 5400 → s.y.getD c 0 = -90 + 1 / 60 + c * (1 / 30) := by
    intro c hc
    rw [d.lat, uniform_getD _ _ hc]
  have yl : s.y.length = 5400 := by rw [d.lat]; simp [uniform]
  obtain ⟨zs, h1, -⟩ := k ⟨⟨.z, false⟩, true, .spline, true, none, none, fun _ _ _ _ => none⟩ rfl rfl rfl (by simp) (by simp)
    (fun h => by cases h) (by simp [Staggered.Ask.margin]; norm_num)
    [(-30, 10), (20, -20)] [(0, 0), (1, 0)] (by simp) ⟨(-30, 10), by simp, by norm_num⟩
    (Or.inr ⟨⟨(-30, 10), by simp, by norm_num⟩, by
      intro p hp
      simp only [List.mem_cons, List.not_mem_nil, or_false] at hp
      rcases hp with rfl | rfl <;> norm_num⟩) (by
      intro p hp
      simp only [List.mem_cons, List.not_mem_nil, or_false] at hp
      have y0 := yat 0 (by norm_num)
      have y1 := yat 1 (by norm_num)
      have y2 := yat 5399 (by norm_num)
      rcases hp with rfl | rfl <;> refine ⟨?_, ?_, fun h => by cases h⟩ <;>
        simp only [yl, y0, y1, y2, Staggered.low, reduceCtorEq, if_false] <;> norm_num) (by
      intro p hp q hq
      simp only [List.mem_cons, List.not_mem_nil, or_false] at hp hq
      rcases hp with rfl | rfl <;> rcases hq with rfl | rfl <;> simp [Staggered.Ask.margin] <;> norm_num)
    (fun h => by cases h) (fun h => by cases h) (by simp) 
    ⟨Or.inr (Or.inl ⟨by decide +kernel, rfl⟩), fun _ _ => hP _, by decide +kernel, fun h => by cases h⟩
  exact ⟨_, h1⟩

end Verif.Pipeline
