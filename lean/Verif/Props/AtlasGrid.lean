import Verif.Model.AtlasGrid
import Verif.Spec.AtlasGrid
import Verif.Props.Atlas
import Verif.Props.OTISGrid
/-!
# C82: grid files of ATLAS-compact models
-/
namespace Verif.OTIS
open Verif Verif.Bytes Verif.Spec.Atlas

/-- What the reader should return for the grid of a local solution. -/
def expectedDepth (s : LocalGrid) : LocalDepth :=
  LocalDepth.mk s.title (s.lon.map UInt32.toNat) (s.lat.map UInt32.toNat) (gridOf s.nx s.ny s.cells s.depth)

theorem readLocalDepth_encode (s : LocalGrid) (hs : s.Valid) (t : List UInt8) :
    readLocalDepth (s.encode ++ t) = .ok (expectedDepth s, t) := by
  obtain ⟨hx, hy, hnd, hlat, hlon, htitle, hcells, hd⟩ := hs
  obtain ⟨m1, hm1, -, e1⟩ := record_split (ints [s.nx, s.ny, s.cells.length] ++ floats s.lat ++ floats s.lon
    ++ pad 20 s.title)
  obtain ⟨m2, hm2, -, e2⟩ := record_split (ints (s.cells.map Prod.fst) ++ ints (s.cells.map Prod.snd))
  obtain ⟨m3, hm3, -, e3⟩ := record_split (floats s.depth)
  have he : s.encode ++ t = m1 ++ (be s.nx ++ (be s.ny ++ (be s.cells.length ++ (floats s.lat ++ (floats s.lon ++
      (pad 20 s.title ++ ((m1 ++ m2) ++ (ints (s.cells.map Prod.fst) ++ (ints (s.cells.map Prod.snd) ++
      ((m2 ++ m3) ++ (floats s.depth ++ (m3 ++ t)))))))))))) := by
    rw [LocalGrid.encode, e1, e2, e3]
    simp only [ints, List.flatMap_cons, List.flatMap_nil, List.append_assoc, List.append_nil, List.nil_append]
  rw [he, readLocalDepth]
  dsimp only
  rw [seek_left 4 _ _ (by rw [hm1]; rfl), readI_be_nat _ hx, ok_bind]
  dsimp only
  rw [readI_be_nat _ hy, ok_bind]
  dsimp only
  rw [readI_be_nat _ hnd, ok_bind]
  dsimp only
  rw [fromfile_floats _ _ 2 hlat]
  dsimp only
  rw [fromfile_floats _ _ 2 hlon]
  dsimp only
  rw [readBytes_left 20 _ _ (pad_length 20 _ htitle.1)]
  dsimp only
  rw [seek_left 8 _ _ (by rw [List.length_append, hm1, hm2]; rfl)]
  have hlt := goodCells_lt _ _ _ hcells hx hy
  rw [Int.toNat_natCast, fromfile_ints _ hlt.1 _ _ (by rw [List.length_map])]
  dsimp only
  rw [fromfile_ints _ hlt.2 _ _ (by rw [List.length_map])]
  dsimp only
  rw [seek_left 8 _ _ (by rw [List.length_append, hm2, hm3]; rfl), fromfile_floats _ _ _ hd]
  dsimp only
  rw [if_pos ⟨by rw [List.length_map, hd], by rw [List.length_map], by rw [List.length_map]⟩, map_ofNat_toNat,
    seek_left 4 _ _ (by rw [hm3]; rfl), Int.toNat_natCast, Int.toNat_natCast]
  have ez : ((s.cells.map Prod.fst).map toI4).zip ((s.cells.map Prod.snd).map toI4)
      = s.cells.map (fun p => ((p.1 : ℤ), (p.2 : ℤ))) := by
    rw [List.map_map, List.map_map, List.zip_map']
    refine List.map_congr_left ?_
    intro p hp
    obtain ⟨h1, h2, h3, h4⟩ := hcells.2 p hp
    simp only [Fits] at hx hy
    simp only [Function.comp]
    rw [toI4_nat p.1 (by omega), toI4_nat p.2 (by omega)]
  rw [ez, scatter_good _ _ _ hcells _ hd, ok_bind, strip_pad _ htitle]
  rfl

theorem encodeDepth_ne_nil (s : LocalGrid) (t : List UInt8) : s.encode ++ t ≠ [] := by
  intro h
  have := congrArg List.length h
  rw [LocalGrid.encode, record] at this
  simp only [List.length_append, be_length, List.length_nil] at this
  omega

theorem readLocalsDepth_encode (sols : List LocalGrid) (hs : ∀ s ∈ sols, s.Valid) (n : ℕ)
    (hn : (sols.flatMap LocalGrid.encode).length ≤ n) :
    readLocalsDepth n (sols.flatMap LocalGrid.encode) = .ok (sols.map expectedDepth) := by
  induction sols generalizing n with
  | nil => cases n <;> rfl
  | cons s t ih =>
    rw [List.flatMap_cons] at hn ⊢
    have hne := encodeDepth_ne_nil s (t.flatMap LocalGrid.encode)
    have hr := readLocalDepth_encode s (hs s (by simp)) (t.flatMap LocalGrid.encode)
    have hpos : 0 < s.encode.length := by
      have := encodeDepth_ne_nil s []
      rw [List.append_nil] at this
      exact List.length_pos_iff.mpr this
    rw [List.length_append] at hn
    obtain ⟨m, rfl⟩ : ∃ m, n = m + 1 := ⟨n - 1, by omega⟩
    generalize s.encode ++ t.flatMap LocalGrid.encode = bs at hne hr
    cases bs with
    | nil => exact absurd rfl hne
    | cons b u =>
      rw [readLocalsDepth, hr, ok_bind]
      dsimp only
      rw [ih (fun x hx => hs x (List.mem_cons_of_mem _ hx)) m (by omega), ok_bind, List.map_cons]

theorem reshape_flatten {α : Type} (nx : ℕ) (f : List (List α)) (h : ∀ r ∈ f, r.length = nx) :
    reshape nx f.length f.flatten = f := by
  induction f with
  | nil => rfl
  | cons r f ih =>
    rw [List.length_cons, reshape, List.flatten_cons, List.take_left' (h r (by simp)),
      List.drop_left' (h r (by simp)), ih fun x hx => h x (List.mem_cons_of_mem _ hx)]

theorem reshape_map {α β : Type} (g : α → β) (nx : ℕ) : ∀ (n : ℕ) (l : List α),
    reshape nx n (l.map g) = (reshape nx n l).map (List.map g)
  | 0, _ => rfl
  | n + 1, l => by rw [reshape, reshape, List.map_cons, ← List.map_take, ← List.map_drop, reshape_map]

theorem rectangle_length {α : Type} {nx ny : ℕ} {f : List (List α)} (h : Rectangle nx ny f) :
    f.flatten.length = nx * ny := flatten_length nx ny f h

theorem map_toI4_nat (l : List ℕ) (h : ∀ v ∈ l, Fits v) : l.map toI4 = l.map (fun v : ℕ => (v : ℤ)) :=
  List.map_congr_left fun v hv => toI4_nat v (h v hv)

theorem pairs_flat (l : List (ℕ × ℕ)) :
    reshape 2 l.length ((l.flatMap fun p => [p.1, p.2]).map fun v : ℕ => (v : ℤ))
      = l.map fun p => [(p.1 : ℤ), (p.2 : ℤ)] := by
  induction l with
  | nil => rfl
  | cons p l ih =>
    rw [List.length_cons, reshape, List.flatMap_cons, List.map_append, List.map_cons, List.map_cons, List.map_nil]
    rw [List.map_cons, ← ih]
    rfl

theorem fits_lt {l : List ℕ} (h : ∀ v ∈ l, Fits v) : ∀ v ∈ l, v < 2 ^ 32 := fun v hv => by
  have := h v hv
  unfold Fits at this
  omega

theorem mem_flatten_fits {f : List (List ℕ)} (h : ∀ r ∈ f, ∀ v ∈ r, Fits v) : ∀ v ∈ f.flatten, Fits v := fun v hv => by
  obtain ⟨r, hr, hv⟩ := List.mem_flatten.1 hv
  exact h r hr v hv

/-- What the reader should return for a file. -/
def expectedGrid (g : GlobalGrid) (sols : List LocalGrid) : AtlasGrid where
  limits := (g.lat ++ g.lon).map UInt32.toNat
  hz := g.depth
  mz := g.mask.map (List.map fun v : ℕ => (v : ℤ))
  iob := g.boundary.map fun p => [(p.1 : ℤ), (p.2 : ℤ)]
  dt := g.dt
  pmask := g.pmask.map (List.map fun v : ℕ => (v : ℤ))
  locals := sols.map expectedDepth

theorem readAtlasBody_good (g : GlobalGrid) (hg : g.Valid) (sols : List LocalGrid) (hs : ∀ s ∈ sols, s.Valid)
    (lim : List ℕ) (iob : List ℤ) (hi : iob.length = 2 * g.boundary.length)
    (m1 m2 m3 : List UInt8) (h1 : m1.length = 4) (h2 : m2.length = 4) (h3 : m3.length = 4) :
    readAtlasBody g.nx g.ny g.boundary.length lim g.dt iob (floats g.depth.flatten ++ ((m1 ++ m2) ++
      (ints g.mask.flatten ++ ((m2 ++ m3) ++ (ints g.pmask.flatten ++ (m3 ++ sols.flatMap LocalGrid.encode))))))
    = .ok { limits := lim, hz := g.depth, mz := g.mask.map (List.map fun v : ℕ => (v : ℤ)),
            iob := reshape 2 g.boundary.length iob, dt := g.dt,
            pmask := g.pmask.map (List.map fun v : ℕ => (v : ℤ)), locals := sols.map expectedDepth } := by
  obtain ⟨hx, hy, hlat, hlon, hb, hbv, hd, hm, hp, hmv, hpv⟩ := hg
  have hnn : ((g.nx : ℤ) * (g.ny : ℤ)).toNat = g.nx * g.ny := by rw [← Nat.cast_mul, Int.toNat_natCast]
  have ld := rectangle_length hd
  have lm := rectangle_length hm
  have lp := rectangle_length hp
  rw [readAtlasBody]
  dsimp only
  rw [hnn, fromfile_floats _ _ _ ld]
  dsimp only
  rw [seek_left 8 _ _ (by rw [List.length_append, h1, h2]; rfl),
    fromfile_ints _ (fits_lt (mem_flatten_fits hmv)) _ _ lm]
  dsimp only
  rw [seek_left 8 _ _ (by rw [List.length_append, h2, h3]; rfl),
    fromfile_ints _ (fits_lt (mem_flatten_fits hpv)) _ _ lp]
  dsimp only
  rw [seek_left 4 _ _ (by rw [h3]; rfl), if_neg (by omega),
    if_pos ⟨by rw [List.length_map, ld], lm, lp, by rw [hi]; push_cast; ring⟩,
    readLocalsDepth_encode sols hs _ le_rfl, ok_bind, Int.toNat_natCast, Int.toNat_natCast, Int.toNat_natCast,
    map_ofNat_toNat, map_toI4_nat _ (mem_flatten_fits hmv), map_toI4_nat _ (mem_flatten_fits hpv), reshape_map,
    reshape_map]
  rw [← hd.1, reshape_flatten _ _ hd.2, hd.1, ← hm.1, reshape_flatten _ _ hm.2, hm.1, ← hp.1,
    reshape_flatten _ _ hp.2]

/-- **C82**: reading the grid file of an ATLAS-compact model returns the depths, masks, open boundary, limits and time
step of the global grid and every local grid in the order of the file, each with its own title, limits and depths at
its own wet cells, whatever their number and sizes. -/
theorem C82_grid (g : GlobalGrid) (hg : g.Valid) (sols : List LocalGrid) (hs : ∀ s ∈ sols, s.Valid) :
    readAtlasGrid (g.encode ++ sols.flatMap LocalGrid.encode) = .ok (expectedGrid g sols) := by
  obtain ⟨hx, hy, hlat, hlon, hb, hbv, hd, hm, hp, hmv, hpv⟩ := id hg
  obtain ⟨m1, hm1, -, e1⟩ := record_split (ints [g.nx, g.ny] ++ floats g.lat ++ floats g.lon ++ floats [g.dt]
    ++ ints [g.boundary.length])
  obtain ⟨m2, hm2, -, e2⟩ := record_split
    (if g.boundary = [] then ints [0] else ints (g.boundary.flatMap fun p => [p.1, p.2]))
  obtain ⟨m3, hm3, -, e3⟩ := record_split (floats g.depth.flatten)
  obtain ⟨m4, hm4, -, e4⟩ := record_split (ints g.mask.flatten)
  obtain ⟨m5, hm5, -, e5⟩ := record_split (ints g.pmask.flatten)
  obtain ⟨B, hB⟩ : ∃ B, B = floats g.depth.flatten ++ ((m3 ++ m4) ++
      (ints g.mask.flatten ++ ((m4 ++ m5) ++ (ints g.pmask.flatten ++ (m5 ++ sols.flatMap LocalGrid.encode))))) :=
    ⟨_, rfl⟩
  have he : g.encode ++ sols.flatMap LocalGrid.encode = m1 ++ (be g.nx ++ (be g.ny ++ (floats g.lat ++
      (floats g.lon ++ (floats [g.dt] ++ (be g.boundary.length ++ ((m1 ++ m2) ++
      ((if g.boundary = [] then ints [0] else ints (g.boundary.flatMap fun p => [p.1, p.2])) ++
      ((m2 ++ m3) ++ B))))))))) := by
    rw [GlobalGrid.encode, e1, e2, e3, e4, e5, hB]
    simp only [ints, List.flatMap_cons, List.flatMap_nil, List.append_assoc, List.append_nil, List.nil_append]
  rw [he, readAtlasGrid]
  dsimp only
  rw [seek_left 4 _ _ (by rw [hm1]; rfl), readI_be_nat _ hx, ok_bind]
  dsimp only
  rw [readI_be_nat _ hy, ok_bind]
  dsimp only
  rw [fromfile_floats _ _ 2 hlat]
  dsimp only
  rw [fromfile_floats _ _ 2 hlon]
  dsimp only
  rw [fromfile_floats _ _ 1 rfl]
  have ed : (match List.map UInt32.toNat [g.dt] with
      | [d] => (Except.ok (UInt32.ofNat d) : Except PyErr UInt32)
      | _ => Except.error PyErr.valueError) = .ok g.dt := by
    show Except.ok (UInt32.ofNat g.dt.toNat) = _
    rw [UInt32.ofNat_toNat]
  refine (congrArg (fun e : Except PyErr UInt32 => e >>= _) ed).trans ?_
  rw [ok_bind, readI_be_nat _ hb, ok_bind]
  dsimp only
  by_cases h0 : g.boundary = []
  · have l0 : g.boundary.length = 0 := by rw [h0]; rfl
    rw [if_pos h0, if_pos (by rw [l0]; rfl)]
    dsimp only
    have e : (m1 ++ m2) ++ (ints [0] ++ ((m2 ++ m3) ++ B)) = ((m1 ++ m2) ++ ints [0] ++ (m2 ++ m3)) ++ B := by
      simp only [List.append_assoc]
    rw [e, seek_left 20 _ _ (by
      simp only [List.length_append, hm1, hm2, hm3, ints_length, List.length_cons, List.length_nil]; norm_num), hB,
      readAtlasBody_good g hg sols hs _ [] (by rw [l0]; rfl) m3 m4 m5 hm3 hm4 hm5]
    rw [expectedGrid, l0, h0, List.map_append]
    rfl
  · have hpos : 0 < g.boundary.length := List.length_pos_iff.mpr h0
    have hlen : (g.boundary.flatMap fun p => [p.1, p.2]).length = 2 * g.boundary.length := by
      generalize g.boundary = l
      induction l with
      | nil => rfl
      | cons p l ih => rw [List.flatMap_cons, List.length_append, ih, List.length_cons]; simp; ring
    have hfit : ∀ v ∈ g.boundary.flatMap (fun p => [p.1, p.2]), Fits v := by
      intro v hv
      obtain ⟨p, hp, hv⟩ := List.mem_flatMap.1 hv
      simp only [List.mem_cons, List.not_mem_nil, or_false] at hv
      rcases hv with rfl | rfl
      · exact (hbv p hp).1
      · exact (hbv p hp).2
    rw [if_neg h0, if_neg (by omega)]
    dsimp only
    rw [seek_left 8 _ _ (by rw [List.length_append, hm1, hm2]; rfl),
      show (2 * (g.boundary.length : ℤ)).toNat = 2 * g.boundary.length by omega,
      fromfile_ints _ (fits_lt hfit) _ _ hlen]
    dsimp only
    rw [seek_left 8 _ _ (by rw [List.length_append, hm2, hm3]; rfl), hB,
      readAtlasBody_good g hg sols hs _ _ (by rw [List.length_map, hlen]) m3 m4 m5 hm3 hm4 hm5,
      map_toI4_nat _ hfit, pairs_flat, expectedGrid, List.map_append]

/-- A grid with an open boundary and a local grid. -/
def sampleGrid : GlobalGrid := ⟨2, 1, [0, 1], [2, 3], 7, [(1, 1)], [[5, 6]], [[0, 1]], [[1, 0]]⟩
def sampleLocal : LocalGrid := ⟨2, 2, [4, 5], [6, 7], [65], [(1, 2), (2, 2)], [8, 9]⟩

example : sampleGrid.Valid ∧ sampleLocal.Valid := by
  simp [GlobalGrid.Valid, LocalGrid.Valid, sampleGrid, sampleLocal, Fits, Rectangle, GoodTitle, GoodCells, Visible]

end Verif.OTIS
