import Verif.Model.RegionalCompact
import Verif.Props.Regional
import Verif.Props.Combine
/-!
# C93: regions of models whose coordinates cannot be stored exactly, and of ATLAS-compact models
-/
namespace Verif.Regional
open Verif Verif.Bytes Verif.OTIS Verif.Grid Verif.Spec

variable {K : Type} [Field K] [LinearOrder K] [IsStrictOrderedRing K]

/-- The edges of the cells of a grid are stored with an error of at most `ε`. -/
def Nearly (num : F4 → K) (bits : K → F4) (ε ax dx : K) (n : ℕ) : Prop :=
  ∀ k ≤ n, |num (bits (ax + (k : K) * dx - dx / 2)) - (ax + (k : K) * dx - dx / 2)| ≤ ε

theorem stored_nearly {num : F4 → K} {bits : K → F4} {ax dx : K} {n : ℕ} (h : Stored num bits ax dx n) :
    Nearly num bits 0 ax dx n := fun k hk => by rw [h k hk]; simp

/-- The centres between two edges are weighted means of them. -/
theorem centres_mean (lo hi : K) (n : ℕ) :
    centres lo hi n = (List.range n).map fun i : ℕ => lo + ((2 * (i : K) + 1) / (2 * n)) * (hi - lo) := by
  unfold centres linspace
  refine List.map_congr_left fun i hi => ?_
  have hi := List.mem_range.1 hi
  have hn : (n : K) ≠ 0 := by exact_mod_cast (by omega : n ≠ 0)
  by_cases h1 : n = 1
  · subst h1
    have : i = 0 := by omega
    subst this
    push_cast
    ring
  · have h2 : (n : K) - 1 ≠ 0 := by
      intro e
      apply h1
      have : (n : K) = 1 := by linear_combination e
      exact_mod_cast this
    field_simp
    ring

theorem centres_near {lo hi lo' hi' ε : K} (h1 : |lo - lo'| ≤ ε) (h2 : |hi - hi'| ≤ ε) (n : ℕ) :
    List.Forall₂ (fun a b => |a - b| ≤ ε) (centres lo hi n) (centres lo' hi' n) := by
  rw [centres_mean, centres_mean, List.forall₂_map_left_iff, List.forall₂_map_right_iff]
  refine List.forall₂_same.2 fun i hi => ?_
  have hi := List.mem_range.1 hi
  have hn : (0 : K) < 2 * n := by
    have : (0 : K) < n := by exact_mod_cast (by omega : 0 < n)
    linarith
  have hin : (2 * (i : K) + 1) ≤ 2 * n := by
    have : (2 * i + 1 : ℕ) ≤ 2 * n := by omega
    exact_mod_cast this
  have t1 : (2 * (i : K) + 1) / (2 * n) ≤ 1 := (div_le_one hn).2 hin
  have t0 : (0 : K) ≤ (2 * (i : K) + 1) / (2 * n) := div_nonneg (by positivity) hn.le
  generalize (2 * (i : K) + 1) / (2 * n) = t at t0 t1
  rw [abs_le] at *
  constructor <;> nlinarith [h1.1, h1.2, h2.1, h2.2]

/-- The new grid file has exactly the nodes of the old grid within the bounds with their depths; its coordinates
differ by no more than the error with which the edges are stored. -/
theorem C93_near_partial {num : F4 → K} {bits : K → F4} {conv : K × K → K × K} {g : Grid K}
    {ax dx ay dy ε : K} {n m : ℕ} (h : Regular g ax dx ay dy n m) (hf : Fits g n m)
    (hx : Nearly num bits ε ax dx n) (hy : Nearly num bits ε ay dy m)
    {xmin xmax ymin ymax : K} {b : (K × K) × (K × K)} (hb : b = box conv xmin xmax ymin ymax)
    (ny : g.y.filter (inside b.2.1 b.2.2) ≠ []) {u : K} (hu : u ∈ g.x.filter (inside b.1.1 b.1.2))
    (hs : ε ≤ u + dx / 2 ∨ num g.dt ≤ 0) :
    ∃ file new, reduceGrid bits conv g xmin xmax ymin ymax = .ok file ∧ readAll num file = .ok new ∧
      List.Forall₂ (fun a b => |a - b| ≤ ε) new.x (g.x.filter (inside b.1.1 b.1.2)) ∧
      List.Forall₂ (fun a b => |a - b| ≤ ε) new.y (g.y.filter (inside b.2.1 b.2.2)) ∧
      new.hz = (select (inside b.2.1 b.2.2) g.y g.hz).map (select (inside b.1.1 b.1.2) g.x) ∧
      new.iob = g.iob ∧ new.dt = g.dt := by
  rcases cut_regular h b with ⟨_, _, o, k, p, l, hok, hpl, hk, hl, ex, ey, ec, sh⟩ | ⟨h0, _⟩
  · obtain ⟨i1, i2, i3⟩ := pairs_flat g.iob hf.even
    have hkn : k ≤ n := by omega
    have hlm : l ≤ m := by omega
    have hkl : 4 * k * l < 2 ^ 31 := lt_of_le_of_lt (Nat.mul_le_mul (Nat.mul_le_mul_left 4 hkn) hlm) hf.size
    obtain ⟨file, w, r⟩ := read_output_grid k l
      [bits (ay + (p : K) * dy - dy / 2), bits (ay + (p : K) * dy + ((l - 1 : ℕ) : K) * dy + dy / 2)]
      [bits (ax + (o : K) * dx - dx / 2), bits (ax + (o : K) * dx + ((k - 1 : ℕ) : K) * dx + dx / 2)]
      _ ((select (inside b.2.1 b.2.2) g.y g.mz).map (select (inside b.1.1 b.1.2) g.x)) (pairs g.iob) g.dt rfl rfl sh
      (fun q hq => ⟨hf.ints _ (i3 q hq).1, hf.ints _ (i3 q hq).2⟩)
      (by nlinarith) (by nlinarith) (by have := hf.few; omega) hkl
    have edge : ∀ (a d : K) (o k : ℕ), 0 < k →
        a + (o : K) * d + ((k - 1 : ℕ) : K) * d + d / 2 = a + ((o + k : ℕ) : K) * d - d / 2 := by
      intro a d o k hk
      rw [Nat.cast_sub hk, Nat.cast_one]
      push_cast
      ring
    have x1 := hx o (by omega)
    have x2 := hx (o + k) hok
    have y1 := hy p (by omega)
    have y2 := hy (p + l) hpl
    rw [← edge _ _ _ _ hk] at x2
    rw [← edge _ _ _ _ hl] at y2
    have rz := reshape_flatten k _ sh.2
    rw [sh.1] at rz
    have w' : reduceGrid bits conv g xmin xmax ymin ymax = .ok file := by
      rw [reduceGrid, ← hb, ec, ok_bind]
      exact w
    refine ⟨file, ?_⟩
    rw [readAll, r, ok_bind]
    simp only [List.cons_append, List.nil_append, List.map_cons, List.map_nil, UInt32.ofNat_toNat]
    refine ⟨_, w', rfl, ?_, ?_, ?_, ?_, rfl⟩
    · dsimp only
      rw [ex, ← centres_even _ _ _ hk]
      rw [edges, if_neg]
      · exact centres_near x1 x2 k
      · rintro ⟨-, h2, h3⟩
        rcases hs with hs | hs
        · have hu' : u + dx / 2 ≤ ax + (o : K) * dx + ((k - 1 : ℕ) : K) * dx + dx / 2 := by
            rw [ex] at hu
            obtain ⟨i, hi, rfl⟩ := List.mem_map.1 hu
            have hi := List.mem_range.1 hi
            have : (i : K) ≤ ((k - 1 : ℕ) : K) := by exact_mod_cast (by omega : i ≤ k - 1)
            have := mul_le_mul_of_nonneg_right this h.dx0.le
            linarith
          have := (abs_le.1 x2).1
          dsimp only at h2
          linarith
        · linarith
    · dsimp only
      rw [ey, ← centres_even _ _ _ hl]
      exact centres_near y1 y2 l
    · dsimp only
      rw [rz]
    · dsimp only
      exact i1
  · rcases h0 with h0 | h0
    · rw [h0] at hu; cases hu
    · exact absurd h0 ny

/-! ### ATLAS-compact models -/

open Verif.Combine in
/-- The new grid file of an ATLAS-compact model: its nodes are the centres of the fine cells within the bounds (up to
the error with which edges are stored), and the depth of every one is the depth of the combined model there, rounded to
a word: of the last local solution that has a value in the cell, otherwise interpolated from the global solution. -/
theorem C93_compact_partial [FloorRing K] {num : F4 → K} {bits : K → F4} {conv : K × K → K × K} {g : Combine.Grid K}
    {iob : List ℤ} {dt : F4} {a d c e ε : K} (hf : Fit g.x g.y g.hz) (hgx : EvenAxis g.x a d) (hgy : EvenAxis g.y c e)
    (hm : GoodMask g.x g.y g.mz) (hsol : ∀ s ∈ g.sols, s.patch.OnGlobe)
    (even : iob.length % 2 = 0) (few : 4 * iob.length < 2 ^ 31) (ints : ∀ v ∈ iob, IsInt32 v)
    (hx : Nearly num bits ε (1 / 60) (1 / 30) 10800) (hy : Nearly num bits ε (-90 + 1 / 60) (1 / 30) 5400)
    (hε : ε ≤ 1 / 30) {xmin xmax ymin ymax : K} {b : (K × K) × (K × K)} (hb : b = box conv xmin xmax ymin ymax)
    {i₀ j₀ : ℕ} (hi₀ : i₀ < 10800) (hj₀ : j₀ < 5400) (bi : inside b.1.1 b.1.2 (midLon i₀) = true)
    (bj : inside b.2.1 b.2.2 (midLat j₀) = true) :
    ∃ m file new, reduceCompact bits conv g iob dt xmin xmax ymin ymax = .ok file ∧ readAll num file = .ok new ∧
      List.Forall₂ (fun u v => |u - v| ≤ ε) new.x
        (((List.range 10800).map fun i => midLon i).filter (inside b.1.1 b.1.2)) ∧
      List.Forall₂ (fun u v => |u - v| ≤ ε) new.y
        (((List.range 5400).map fun j => midLat j).filter (inside b.2.1 b.2.2)) ∧
      new.hz = (select (inside b.2.1 b.2.2) ((List.range 5400).map fun j => midLat j) m).map
        (fun r => (select (inside b.1.1 b.1.2) ((List.range 10800).map fun i => midLon i) r).map bits) ∧
      ∀ j i, j < 5400 → i < 10800 → ∃ base v, Base g.x g.y (g.hz.map fun r => r.map fun d => (d, 0)) j i (base, 0) ∧
        CGrid.entry m j i = some v ∧ Patches.Shows (g.sols.map Local.patch) base j i v := by
  obtain ⟨hz, e1, s1, c1⟩ := C83_depths hf g.sols hsol
  obtain ⟨mz, e2, s2, -⟩ := C83_mask hgx hgy hm g.sols hsol
  have ec : compactGrid bits g iob dt = .ok ⟨x30, y30, hz.map fun r => r.map bits, mz, iob, dt⟩ := by
    unfold compactGrid
    rw [e1, ok_bind, e2, ok_bind]
  have ux : (x30 : List K) = uniform (1 / 60) (1 / 30) 10800 := by
    rw [x30_uniform]
    congr 1
    norm_num
  have uy : (y30 : List K) = uniform (-90 + 1 / 60) (1 / 30) 5400 := by
    rw [y30_eq]
    unfold uniform
    refine List.map_congr_left fun i _ => ?_
    ring
  have mx : ((List.range 10800).map fun i => (midLon i : K)) = x30 := by
    rw [x30_eq]
    refine List.map_congr_left fun i _ => ?_
    unfold midLon
    ring
  have my : ((List.range 5400).map fun j => (midLat j : K)) = y30 := by
    rw [y30_eq]
    refine List.map_congr_left fun i _ => ?_
    unfold midLat
    ring
  have reg : Regular ⟨x30, y30, hz.map fun r => r.map bits, mz, iob, dt⟩ (1 / 60 : K) (1 / 30) (-90 + 1 / 60) (1 / 30)
      10800 5400 := by
    refine ⟨ux, uy, by norm_num, by norm_num, by norm_num, by norm_num, ?_, s2⟩
    exact CGrid.shape_map _ _ _ _ s1
  obtain ⟨file, new, w, r, rx, ry, rz, -, -⟩ := C93_near_partial (conv := conv) (num := num) (bits := bits) reg
    ⟨by norm_num, even, few, ints⟩ hx hy hb
    (by
      dsimp only
      rw [← my]
      exact List.ne_nil_of_mem (List.mem_filter.2 ⟨List.mem_map.2 ⟨j₀, List.mem_range.2 hj₀, rfl⟩, bj⟩))
    (u := midLon i₀)
    (by
      dsimp only
      rw [← mx]
      exact List.mem_filter.2 ⟨List.mem_map.2 ⟨i₀, List.mem_range.2 hi₀, rfl⟩, bi⟩)
    (Or.inl (by
      have : (0 : K) ≤ (i₀ : K) := Nat.cast_nonneg _
      unfold midLon
      linarith))
  refine ⟨hz, file, new, ?_, r, ?_, ?_, ?_, c1⟩
  · unfold reduceCompact
    rw [ec, ok_bind]
    exact w
  · rw [mx]; exact rx
  · rw [my]; exact ry
  · rw [rz, mx, my]
    have sel : ∀ {α β : Type} (P : K → Bool) (axis : List K) (f : α → β) (l : List α),
        select P axis (l.map f) = (select P axis l).map f := by
      intro α β P axis f l
      unfold select
      rw [List.zip_map_right, List.filter_map, List.map_map, List.map_map]
      rfl
    dsimp only
    rw [sel, List.map_map]
    refine List.map_congr_left fun r _ => ?_
    rw [Function.comp_apply, sel]

/-! ### A case -/

/-- Numbers in steps of `2⁻¹⁵` from -512 on. -/
def fixed (w : F4) : ℚ := (w.toNat : ℚ) / 2 ^ 15 - 512
/-- The words of these numbers, rounded down. -/
def fixedBits (v : ℚ) : F4 := UInt32.ofNat ⌊(v + 512) * 2 ^ 15⌋.toNat

theorem fixed_near {v : ℚ} (h0 : -512 ≤ v) (h1 : v < 1000) : |fixed (fixedBits v) - v| ≤ 1 / 2 ^ 15 := by
  have p0 : 0 ≤ (v + 512) * 2 ^ 15 := by linarith
  have f0 : (0 : ℤ) ≤ ⌊(v + 512) * 2 ^ 15⌋ := Int.floor_nonneg.2 p0
  have f1 := Int.floor_le ((v + 512) * 2 ^ 15)
  have f2 := Int.lt_floor_add_one ((v + 512) * 2 ^ 15)
  obtain ⟨n, hn⟩ := Int.eq_ofNat_of_zero_le f0
  rw [hn] at f1 f2
  push_cast at f1 f2
  have hlt : n < 2 ^ 32 := by
    have : (n : ℚ) < 2 ^ 32 := by linarith
    exact_mod_cast this
  have e : fixed (fixedBits v) = (n : ℚ) / 2 ^ 15 - 512 := by
    unfold fixed fixedBits
    rw [hn]
    have : (UInt32.ofNat (Int.toNat (n : ℤ))).toNat = n := by
      rw [Int.toNat_natCast, UInt32.toNat_ofNat']
      exact Nat.mod_eq_of_lt hlt
    rw [this]
  rw [e, abs_le]
  constructor <;> linarith

theorem fixed_nearly {a : ℚ} {n : ℕ} (h0 : -512 ≤ a - 1 / 60) (h1 : a - 1 / 60 + n / 30 < 1000) :
    Nearly fixed fixedBits (1 / 2 ^ 15) a (1 / 30) n := by
  intro k hk
  have hk' : (k : ℚ) ≤ n := by exact_mod_cast hk
  have : (0 : ℚ) ≤ k := Nat.cast_nonneg _
  refine fixed_near ?_ ?_ <;> linarith

/-- A global solution with depths and no local solutions. -/
def world : Combine.Grid ℚ where
  x := uniform 45 90 4
  y := uniform (-45) 90 2
  hz := [[100, 200, 300, 400], [500, 600, 700, 800]]
  mz := [[1, 1, 1, 1], [1, 1, 1, 0]]
  sols := []

example : ∃ file new, reduceCompact fixedBits id world [] 0 10 11 20 21 = .ok file ∧ readAll fixed file = .ok new ∧
    new.x ≠ [] ∧ new.y ≠ [] := by
  obtain ⟨m, file, new, h1, h2, h3, h4, -⟩ := C93_compact_partial (num := fixed) (bits := fixedBits) (conv := id)
    (g := world) (iob := []) (dt := 0) (a := 45) (d := 90) (c := -45) (e := 90) (ε := 1 / 2 ^ 15)
    (xmin := 10) (xmax := 11) (ymin := 20) (ymax := 21) (i₀ := 310) (j₀ := 3310) (b := ((10, 11), (20, 21)))
    (by decide +kernel) ⟨by decide, by norm_num, by decide +kernel⟩ ⟨by decide, by norm_num, by decide +kernel⟩
    (by unfold Combine.GoodMask; decide +kernel) (by simp [world]) rfl (by simp) (by simp)
    (fixed_nearly (by norm_num) (by norm_num)) (fixed_nearly (by norm_num) (by norm_num)) (by norm_num)
    (by decide +kernel) (by norm_num) (by norm_num) (by decide +kernel) (by decide +kernel)
  refine ⟨file, new, h1, h2, ?_, ?_⟩
  · intro e
    rw [e] at h3
    have : (Combine.midLon 310 : ℚ) ∈ (((List.range 10800).map fun i => (Combine.midLon i : ℚ)).filter (inside 10 11)) :=
      List.mem_filter.2 ⟨List.mem_map.2 ⟨310, List.mem_range.2 (by norm_num), rfl⟩, by decide +kernel⟩
    rw [List.forall₂_nil_left_iff.1 h3] at this
    cases this
  · intro e
    rw [e] at h4
    have : (Combine.midLat 3310 : ℚ) ∈ (((List.range 5400).map fun i => (Combine.midLat i : ℚ)).filter (inside 20 21)) :=
      List.mem_filter.2 ⟨List.mem_map.2 ⟨3310, List.mem_range.2 (by norm_num), rfl⟩, by decide +kernel⟩
    rw [List.forall₂_nil_left_iff.1 h4] at this
    cases this

end Verif.Regional
