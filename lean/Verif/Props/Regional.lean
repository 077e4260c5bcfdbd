import Mathlib.Tactic.Ring
import Mathlib.Tactic.Linarith
import Mathlib.Tactic.FieldSimp
import Mathlib.Tactic.IntervalCases
import Mathlib.Data.Nat.Digits.Lemmas
import Mathlib.Analysis.SpecialFunctions.Trigonometric.Basic
import Mathlib.Data.List.Perm.Subperm
import Verif.Model.Regional
import Verif.Spec.Grid
import Verif.Props.GridCrop
import Verif.Props.OTISGrid
/-!
C93: regional files made from an OTIS model.
-/
namespace Verif.Regional
open Verif Verif.Bytes Verif.OTIS Verif.Grid Verif.Spec

/-! ### Names -/

theorem digitChar_inj : ∀ a < 10, ∀ b < 10, Nat.digitChar a = Nat.digitChar b → a = b := by decide

theorem map_digits_inj : ∀ (l m : List ℕ), (∀ a ∈ l, a < 10) → (∀ a ∈ m, a < 10) →
    l.map Nat.digitChar = m.map Nat.digitChar → l = m
  | [], [], _, _, _ => rfl
  | [], _ :: _, _, _, h => by simp at h
  | _ :: _, [], _, _, h => by simp at h
  | a :: l, b :: m, hl, hm, h => by
    simp only [List.map_cons, List.cons.injEq] at h
    rw [digitChar_inj a (hl a (by simp)) b (hm b (by simp)) h.1,
      map_digits_inj l m (fun x hx => hl x (List.mem_cons_of_mem _ hx))
        (fun x hx => hm x (List.mem_cons_of_mem _ hx)) h.2]

theorem decimal_inj {a b : ℕ} (ha : a ≠ 0) (hb : b ≠ 0) (h : decimal a = decimal b) : a = b := by
  rw [decimal, decimal, if_neg ha, if_neg hb] at h
  have := map_digits_inj _ _ (fun x hx => Nat.digits_lt_base (by omega) (List.mem_reverse.1 hx))
    (fun x hx => Nat.digits_lt_base (by omega) (List.mem_reverse.1 hx)) h
  exact Nat.digits_inj_iff.1 (List.reverse_injective this)

theorem candidate_inj (name : List Char) : Function.Injective (candidate name) := by
  intro a b h
  cases a with
  | zero =>
    cases b with
    | zero => rfl
    | succ b =>
      simp only [candidate, List.append_assoc] at h
      have := congrArg List.length (List.append_cancel_left h)
      simp only [List.length_append] at this
      have e : ".reduced".toList.length = 8 := by decide
      have e' : ".reduced_".toList.length = 9 := by decide
      omega
  | succ a =>
    cases b with
    | zero =>
      simp only [candidate, List.append_assoc] at h
      have := congrArg List.length (List.append_cancel_left h)
      simp only [List.length_append] at this
      have e : ".reduced".toList.length = 8 := by decide
      have e' : ".reduced_".toList.length = 9 := by decide
      omega
    | succ b =>
      exact decimal_inj (by omega) (by omega) (List.append_cancel_left h)

theorem tryNames_spec (existing : List (List Char)) (name : List Char) (k c : ℕ) :
    (∃ n < k, tryNames existing name k c = some (candidate name (c + n)) ∧
      candidate name (c + n) ∉ existing ∧ ∀ i < n, candidate name (c + i) ∈ existing) ∨
    (tryNames existing name k c = none ∧ ∀ i < k, candidate name (c + i) ∈ existing) := by
  induction k generalizing c with
  | zero => right; exact ⟨rfl, fun i hi => by omega⟩
  | succ k ih =>
    by_cases h : candidate name c ∈ existing
    · have hs : ∀ i, c + 1 + i = c + (i + 1) := fun i => by omega
      rw [tryNames, if_pos h]
      rcases ih (c + 1) with ⟨n, hn, h1, h2, h3⟩ | ⟨h1, h2⟩
      · left
        refine ⟨n + 1, by omega, ?_, ?_, ?_⟩
        · rw [h1, hs]
        · rw [← hs]; exact h2
        · intro i hi
          cases i with
          | zero => exact h
          | succ i => rw [← hs]; exact h3 i (by omega)
      · right
        refine ⟨h1, fun i hi => ?_⟩
        cases i with
        | zero => exact h
        | succ i => rw [← hs]; exact h2 i (by omega)
    · left
      refine ⟨0, by omega, ?_, h, fun i hi => by omega⟩
      rw [tryNames, if_neg h]; rfl

/-- A new name is always found, after at most as many rounds as there are files plus one: it is the
first of the names `….reduced`, `….reduced_1`, `….reduced_2`, … that is not the name of a file, so no
file is overwritten. -/
theorem C93_name (existing : List (List Char)) (name : List Char) :
    ∃ n, tryNames existing name (existing.length + 1) 0 = some (candidate name n) ∧
      candidate name n ∉ existing ∧ ∀ i < n, candidate name i ∈ existing := by
  rcases tryNames_spec existing name (existing.length + 1) 0 with ⟨n, _, h⟩ | ⟨_, h⟩
  · exact ⟨n, by simpa using h⟩
  · exfalso
    have nd : ((List.range (existing.length + 1)).map (candidate name)).Nodup :=
      List.Nodup.map (candidate_inj name) List.nodup_range
    have sub : (List.range (existing.length + 1)).map (candidate name) ⊆ existing := by
      intro w hw
      obtain ⟨i, hi, rfl⟩ := List.mem_map.1 hw
      simpa using h i (List.mem_range.1 hi)
    have := (List.subperm_of_subset nd sub).length_le
    simp at this

example : candidate "grid_CATS.out".toList 0 = "grid_CATS.reduced".toList ∧
    candidate "grid.v1".toList 12 = "grid.v1.reduced_12".toList ∧
    candidate ".out".toList 0 = ".out.reduced".toList := by decide +kernel

/-- What the new names are: the suffixes `.out` and `.oce` are left out, others are kept, and a number follows if the
name is taken. -/
theorem C93_new_name {stem ext : List Char} (hs : stem ≠ []) (he : ext ≠ []) (hp : '.' ∉ ext) (n : ℕ) :
    candidate (stem ++ '.' :: ext) n =
      (if ext = "out".toList ∨ ext = "oce".toList then stem else stem ++ '.' :: ext) ++ ".reduced".toList ++
        (if n = 0 then [] else '_' :: decimal n) := by
  have ha : ((stem ++ '.' :: ext).reverse.takeWhile (· ≠ '.')).reverse = ext := by
    rw [List.reverse_append, List.reverse_cons, List.append_assoc, List.takeWhile_append_of_pos, List.singleton_append,
      List.takeWhile_cons_of_neg (by simp), List.append_nil, List.reverse_reverse]
    intro a ha
    rw [decide_eq_true_eq]
    rintro rfl
    exact hp (List.mem_reverse.1 ha)
  have hk : (stem ++ '.' :: ext).length - ext.length = stem.length + 1 := by
    rw [List.length_append, List.length_cons]
    omega
  have h0 : 0 < stem.length := List.length_pos_iff.2 hs
  have hb : splitName (stem ++ '.' :: ext) = (stem, '.' :: ext) := by
    rw [splitName, ha, hk, if_pos ⟨by simp, by omega, he⟩, Nat.add_sub_cancel, List.take_left, List.drop_left]
  have hbase : base (stem ++ '.' :: ext) =
      if ext = "out".toList ∨ ext = "oce".toList then stem else stem ++ '.' :: ext := by
    rw [base, hb]
    have e1 : ".out".toList = '.' :: "out".toList := by decide
    have e2 : ".oce".toList = '.' :: "oce".toList := by decide
    dsimp only
    rw [e1, e2]
    simp only [List.cons.injEq, true_and]
    split <;> simp
  cases n with
  | zero => rw [candidate, hbase, if_pos rfl, List.append_nil]
  | succ n =>
    have e1 : ".reduced_".toList = ".reduced".toList ++ ['_'] := by decide
    rw [candidate, hbase, if_neg (Nat.succ_ne_zero n), e1]
    simp only [List.append_assoc, List.singleton_append]

example : candidate "grid_h.oce".toList 0 = "grid_h.reduced".toList ∧
    candidate "grid_h.v1".toList 2 = "grid_h.v1.reduced_2".toList := by
  constructor <;> decide +kernel

/-! ### The script -/

/-- The script never writes a file of constituents: as soon as the new grid is written it ends with a
`KeyError`, because the dictionary of the files of the model stays empty.  The files that were there
are kept. -/
theorem C93_constituents_false (elevation current : Except PyErr (List Char))
    (reduced : List Char → Except PyErr (List UInt8))
    (heights transports : List Char → Files → Files × Option PyErr) (fs : Files) :
    (∃ name bytes, name ∉ fs.map Prod.fst ∧
      script elevation current reduced heights transports fs =
        (fs ++ [(name, bytes)], some .keyError)) ∨
    (∃ e, script elevation current reduced heights transports fs = (fs, some e)) := by
  have ans : ∀ grid, gridFile elevation current = .ok grid →
      (∃ g, elevation = .ok g) ∨ ∃ g, current = .ok g := by
    intro grid h
    cases elevation with
    | ok g => exact Or.inl ⟨g, rfl⟩
    | error e => exact Or.inr ⟨grid, h⟩
  rw [script]
  dsimp only
  cases h1 : gridFile elevation current with
  | error e => exact Or.inr ⟨e, rfl⟩
  | ok grid =>
    dsimp only
    cases h2 : reduced grid with
    | error e => exact Or.inr ⟨e, rfl⟩
    | ok bytes =>
      dsimp only
      obtain ⟨n, hn, hf, _⟩ := C93_name (fs.map Prod.fst) grid
      rw [List.length_map] at hn
      rw [hn]
      dsimp only
      left
      refine ⟨_, bytes, hf, ?_⟩
      rcases ans grid h1 with ⟨g, hg⟩ | ⟨g, hg⟩
      · rw [hg]; rfl
      · cases elevation with
        | ok _ => rfl
        | error _ => rw [hg]; rfl

/-! ### Cells within a box -/

variable {K : Type} [Field K] [LinearOrder K]

theorem cells_eq (x y : List K) (b : (K × K) × (K × K)) :
    cells x y b = (flatnonzero y b.2.1 b.2.2).flatMap fun j =>
      (flatnonzero x b.1.1 b.1.2).map fun i => (j, i) := by
  rw [cells, List.filter_flatMap]
  have key : ∀ l : List ℕ, (∀ j ∈ l, j < y.length) →
      l.flatMap (fun j => ((List.range x.length).map fun i => (j, i)).filter fun p =>
        match y[p.1]?, x[p.2]? with
        | some v, some u => decide (b.1.1 ≤ u ∧ u ≤ b.1.2 ∧ b.2.1 ≤ v ∧ v ≤ b.2.2)
        | _, _ => false) =
      (l.filter (fun i =>
        match y[i]? with
        | some a => decide (b.2.1 ≤ a ∧ a ≤ b.2.2)
        | none => false)).flatMap fun j => (flatnonzero x b.1.1 b.1.2).map fun i => (j, i) := by
    intro l
    induction l with
    | nil => intro _; rfl
    | cons j l ih =>
      intro hj
      have hl := hj j (by simp)
      rw [List.flatMap_cons, ih (fun k hk => hj k (List.mem_cons_of_mem _ hk)), List.filter_cons]
      have hy : y[j]? = some y[j] := List.getElem?_eq_getElem hl
      rw [hy]
      dsimp only
      by_cases hin : b.2.1 ≤ y[j] ∧ y[j] ≤ b.2.2
      · rw [if_pos (by simpa using hin), List.flatMap_cons, List.filter_map]
        congr 1
        rw [flatnonzero]
        congr 1
        apply List.filter_congr
        intro i hi
        simp only [Function.comp, hy]
        rw [List.getElem?_eq_getElem (List.mem_range.1 hi)]
        simp only [hin, and_true]
      · rw [if_neg (by simpa using hin), List.filter_map]
        have : (List.range x.length).filter ((fun p : ℕ × ℕ =>
            match y[p.1]?, x[p.2]? with
            | some v, some u => decide (b.1.1 ≤ u ∧ u ≤ b.1.2 ∧ b.2.1 ≤ v ∧ v ≤ b.2.2)
            | _, _ => false) ∘ fun i => (j, i)) = [] := by
          rw [List.filter_eq_nil_iff]
          intro i hi
          simp only [Function.comp, hy]
          rw [List.getElem?_eq_getElem (List.mem_range.1 hi)]
          simp only [decide_eq_true_eq]
          intro h
          exact hin h.2.2
        rw [this]
        rfl
  exact key _ (fun j hj => List.mem_range.1 hj)

theorem map_range'_slice {α β : Type} (l : List α) (d : α) (f : α → β) (a n : ℕ) (h : a + n ≤ l.length) :
    (List.range' a n).map (fun j => f (l.getD j d)) = (sliceNat l (a, a + n)).map f := by
  apply List.ext_getElem?
  intro i
  rw [List.getElem?_map, List.getElem?_map, sliceNat, List.getElem?_take]
  by_cases hi : i < n
  · rw [if_pos (by dsimp only; omega), List.getElem?_drop, List.getElem?_range' hi,
      List.getElem?_eq_getElem (show (a, a + n).1 + i < l.length by dsimp only; omega)]
    simp only [Option.map_some, one_mul, List.getD_eq_getElem?_getD]
    rw [List.getElem?_eq_getElem (by omega)]
    rfl
  · rw [if_neg (by dsimp only; omega), List.getElem?_eq_none (by simpa using hi)]
    rfl

theorem pick_block {α : Type} [Inhabited α] (m : List (List α)) (a n c k w : ℕ)
    (h1 : a + n ≤ m.length) (h2 : ∀ r ∈ m, r.length = w) (h3 : c + k ≤ w) :
    pick m ((List.range' a n).flatMap fun j => (List.range' c k).map fun i => (j, i)) =
      .ok ((sliceNat m (a, a + n)).map fun r => sliceNat r (c, c + k)).flatten := by
  rw [pick, pyMap_ok_of_forall (g := fun p : ℕ × ℕ => (m.getD p.1 []).getD p.2 default)]
  · congr 1
    rw [List.map_flatMap, List.flatMap_def]
    congr 1
    have : ∀ j ∈ List.range' a n, ((List.range' c k).map fun i => (j, i)).map
        (fun p : ℕ × ℕ => (m.getD p.1 []).getD p.2 default) =
        sliceNat (m.getD j []) (c, c + k) := by
      intro j hj
      have hj := List.mem_range'_1.1 hj
      rw [List.map_map]
      have hw : (m.getD j []).length = w := by
        rw [List.getD_eq_getElem?_getD, List.getElem?_eq_getElem (by omega)]
        exact h2 _ (List.getElem_mem _)
      have := map_range'_slice (m.getD j []) default id c k (by omega)
      rw [List.map_id] at this
      exact this
    rw [List.map_congr_left this]
    exact map_range'_slice m [] (fun r => sliceNat r (c, c + k)) a n h1
  · intro p hp
    obtain ⟨j, hj, hp⟩ := List.mem_flatMap.1 hp
    obtain ⟨i, hi, rfl⟩ := List.mem_map.1 hp
    have hj := List.mem_range'_1.1 hj
    have hi := List.mem_range'_1.1 hi
    have hjl : j < m.length := by omega
    have hw : m[j].length = w := h2 _ (List.getElem_mem _)
    simp only [List.getD_eq_getElem?_getD]
    rw [List.getElem?_eq_getElem hjl]
    simp only [Option.getD_some]
    rw [List.getElem?_eq_getElem (by omega)]
    rfl

theorem reshape_flatten {α : Type} (k : ℕ) (rows : List (List α)) (h : ∀ r ∈ rows, r.length = k) :
    reshape k rows.length rows.flatten = rows := by
  induction rows with
  | nil => rfl
  | cons r t ih =>
    have hr := h r (by simp)
    rw [List.length_cons, reshape, List.flatten_cons, ← hr, List.take_left, List.drop_left, hr,
      ih (fun x hx => h x (List.mem_cons_of_mem _ hx))]

variable [IsStrictOrderedRing K]

theorem centres_even (a d : K) (k : ℕ) (hk : 0 < k) :
    centres (a - d / 2) (a + ((k - 1 : ℕ) : K) * d + d / 2) k = uniform a d k := by
  have hk0 : (k : K) ≠ 0 := by exact_mod_cast hk.ne'
  have hc : ((k - 1 : ℕ) : K) = (k : K) - 1 := by
    rw [Nat.cast_sub hk, Nat.cast_one]
  have hd : (a + ((k - 1 : ℕ) : K) * d + d / 2 - (a - d / 2)) / (k : K) = d := by
    rw [hc, div_eq_iff hk0]; ring
  simp only [centres]
  rw [hd, linspace, uniform]
  apply List.map_congr_left
  intro i hi
  have hi := List.mem_range.1 hi
  rcases Nat.lt_or_ge 1 k with h1 | h1
  · have : (k : K) - 1 ≠ 0 := by
      have : (1 : K) < k := by exact_mod_cast h1
      exact ne_of_gt (sub_pos.2 this)
    rw [hc]
    have e : (a + ((k : K) - 1) * d + d / 2 - d / 2 - (a - d / 2 + d / 2)) / ((k : K) - 1) = d := by
      rw [div_eq_iff this]; ring
    rw [e]; ring
  · have : i = 0 := by omega
    subst this
    push_cast; ring

theorem uniform_increasing (a d : K) (hd : 0 < d) (n : ℕ) : Increasing (uniform a d n) := by
  rw [Increasing, uniform, List.pairwise_map]
  refine List.Pairwise.imp ?_ List.pairwise_lt_range
  intro i j hij
  have : (i : K) < j := by exact_mod_cast hij
  nlinarith [mul_lt_mul_of_pos_right this hd]

/-- What is kept of one evenly spaced axis: a run of its values. -/
theorem axis_run (a d : K) (hd : 0 < d) (n : ℕ) (lo hi : K) :
    ∃ o k, o + k ≤ n ∧ flatnonzero (uniform a d n) lo hi = List.range' o k ∧
      (uniform a d n).filter (inside lo hi) = uniform (a + (o : K) * d) d k ∧
      countWithin (uniform a d n) lo hi = k ∧
      ∀ (β : Type) (r : List β), r.length = n →
        select (inside lo hi) (uniform a d n) r = sliceNat r (o, o + k) := by
  obtain ⟨A, B, C, e, hA, hB, hC⟩ := monotonic_blocks lo hi _ (Or.inl (uniform_increasing a d hd n))
  have hl : (uniform a d n).length = n := by simp [uniform]
  have hn : A.length + (B.length + C.length) = n := by
    rw [← hl, e, List.length_append, List.length_append]
  have hf : (uniform a d n).filter (inside lo hi) = B := by
    rw [e]; exact filter_blocks _ A B C hA hB hC
  refine ⟨A.length, B.length, by omega, ?_, ?_, ?_, ?_⟩
  · rw [e]; exact flatnonzero_blocks lo hi A B C hA hB hC
  · rw [hf]
    have hB' : B = ((uniform a d n).drop A.length).take B.length := by
      rw [e, List.drop_left, List.take_left]
    apply List.ext_getElem?
    intro i
    by_cases hi : i < B.length
    · rw [hB', List.getElem?_take, if_pos hi, List.getElem?_drop, uniform, uniform,
        List.getElem?_map, List.getElem?_map, List.getElem?_range (by omega),
        List.getElem?_range (by rw [← uniform, ← hB']; exact hi)]
      simp only [Option.map_some]
      congr 1
      push_cast
      ring
    · rw [List.getElem?_eq_none (by omega), List.getElem?_eq_none]
      simpa [uniform] using hi
  · rw [countWithin, List.countP_eq_length_filter]
    have : (uniform a d n).filter (fun a => decide (lo ≤ a ∧ a ≤ hi)) = B := hf
    rw [this]
  · intro β r hr
    rw [e]
    exact select_blocks _ A B C r hA hB hC (by rw [← e, hl, hr])

theorem limitsOf_run (a d : K) (hd : 0 < d) (n o k : ℕ) (hn : 2 ≤ n) (hk : 0 < k) (h : o + k ≤ n) :
    limitsOf (uniform a d n) o (o + (k - 1)) =
      .ok (a + (o : K) * d - d / 2, a + (o : K) * d + ((k - 1 : ℕ) : K) * d + d / 2) := by
  have g : ∀ i < n, (uniform a d n)[i]? = some (a + (i : K) * d) := by
    intro i hi
    rw [uniform, List.getElem?_map, List.getElem?_range hi]; rfl
  rw [limitsOf, g 0 (by omega), g 1 (by omega), g o (by omega), g (o + (k - 1)) (by omega)]
  dsimp only
  have e : a + ((1 : ℕ) : K) * d - (a + ((0 : ℕ) : K) * d) = d := by push_cast; ring
  rw [e, abs_of_pos hd]
  congr 2
  push_cast
  ring

/-- An evenly spaced grid with depths and mask at every node. -/
structure Regular (g : Grid K) (ax dx ay dy : K) (n m : ℕ) : Prop where
  x : g.x = uniform ax dx n
  y : g.y = uniform ay dy m
  dx0 : 0 < dx
  dy0 : 0 < dy
  n2 : 2 ≤ n
  m2 : 2 ≤ m
  hz : Shaped n m g.hz
  mz : Shaped n m g.mz

/-- The part within a box, when there are nodes in it: sizes, edges, rows and columns. -/
theorem cut_regular {g : Grid K} {ax dx ay dy : K} {n m : ℕ} (h : Regular g ax dx ay dy n m)
    (b : (K × K) × (K × K)) :
    (g.x.filter (inside b.1.1 b.1.2) ≠ [] ∧ g.y.filter (inside b.2.1 b.2.2) ≠ [] ∧
      ∃ o k p l : ℕ, o + k ≤ n ∧ p + l ≤ m ∧ 0 < k ∧ 0 < l ∧
        g.x.filter (inside b.1.1 b.1.2) = uniform (ax + (o : K) * dx) dx k ∧
        g.y.filter (inside b.2.1 b.2.2) = uniform (ay + (p : K) * dy) dy l ∧
        cut g b = .ok ⟨(ax + (o : K) * dx - dx / 2, ax + (o : K) * dx + ((k - 1 : ℕ) : K) * dx + dx / 2),
          (ay + (p : K) * dy - dy / 2, ay + (p : K) * dy + ((l - 1 : ℕ) : K) * dy + dy / 2), k, l,
          (select (inside b.2.1 b.2.2) g.y g.hz).map (select (inside b.1.1 b.1.2) g.x),
          (select (inside b.2.1 b.2.2) g.y g.mz).map (select (inside b.1.1 b.1.2) g.x)⟩ ∧
        Shaped k l ((select (inside b.2.1 b.2.2) g.y g.hz).map (select (inside b.1.1 b.1.2) g.x))) ∨
    ((g.x.filter (inside b.1.1 b.1.2) = [] ∨ g.y.filter (inside b.2.1 b.2.2) = []) ∧
      cut g b = .error .indexError) := by
  obtain ⟨o, k, hok, hfx, hkx, hcx, hsx⟩ := axis_run ax dx h.dx0 n b.1.1 b.1.2
  obtain ⟨p, l, hpl, hfy, hky, hcy, hsy⟩ := axis_run ay dy h.dy0 m b.2.1 b.2.2
  rw [h.x, h.y, hkx, hky]
  have len : ∀ (c d : K) (j : ℕ), uniform c d j = [] ↔ j = 0 := fun c d j => by simp [uniform]
  simp only [cut]
  rw [cells_eq, h.x, h.y, hfx, hfy, hcx, hcy]
  by_cases hk : k = 0
  · right
    refine ⟨Or.inl ((len _ _ _).2 hk), ?_⟩
    subst hk
    have : ((List.range' p l).flatMap fun j => (List.range' o 0).map fun i => (j, i)) = [] := by
      rw [List.flatMap_eq_nil_iff]; intro j _; rfl
    rw [this]
    rfl
  by_cases hl : l = 0
  · right
    refine ⟨Or.inr ((len _ _ _).2 hl), ?_⟩
    subst hl
    simp
  left
  refine ⟨fun e => hk ((len _ _ _).1 e), fun e => hl ((len _ _ _).1 e), o, k, p, l, hok, hpl, by omega,
    by omega, rfl, rfl, ?_, ?_⟩
  · have hh : ((List.range' p l).flatMap fun j => (List.range' o k).map fun i => (j, i)).head? =
        some (p, o) := by
      obtain ⟨l', rfl⟩ : ∃ l', l = l' + 1 := ⟨l - 1, by omega⟩
      obtain ⟨k', rfl⟩ : ∃ k', k = k' + 1 := ⟨k - 1, by omega⟩
      rw [List.range'_succ, List.range'_succ]
      simp
    have hg : ((List.range' p l).flatMap fun j => (List.range' o k).map fun i => (j, i)).getLast? =
        some (p + (l - 1), o + (k - 1)) := by
      obtain ⟨l', rfl⟩ : ∃ l', l = l' + 1 := ⟨l - 1, by omega⟩
      obtain ⟨k', rfl⟩ : ∃ k', k = k' + 1 := ⟨k - 1, by omega⟩
      rw [← List.range'_append_1 (m := l') (n := 1), ← List.range'_append_1 (m := k') (n := 1)]
      simp
    rw [hh, hg]
    dsimp only
    rw [limitsOf_run ax dx h.dx0 n o k h.n2 (by omega) hok, ok_bind,
      limitsOf_run ay dy h.dy0 m p l h.m2 (by omega) hpl, ok_bind,
      pick_block g.hz p l o k n (by rw [h.hz.1]; exact hpl) h.hz.2 hok, ok_bind,
      pick_block g.mz p l o k n (by rw [h.mz.1]; exact hpl) h.mz.2 hok, ok_bind]
    have rows : ∀ {α : Type} (q : List (List α)), Shaped n m q →
        (select (inside b.2.1 b.2.2) (uniform ay dy m) q).map
          (select (inside b.1.1 b.1.2) (uniform ax dx n)) =
        (sliceNat q (p, p + l)).map fun r => sliceNat r (o, o + k) := by
      intro α q hq
      rw [hsy _ q hq.1]
      apply List.map_congr_left
      intro r hr
      exact hsx _ r (hq.2 r (List.mem_of_mem_drop (List.mem_of_mem_take hr)))
    have shape : ∀ {α : Type} (q : List (List α)), Shaped n m q →
        Shaped k l ((sliceNat q (p, p + l)).map fun r => sliceNat r (o, o + k)) := by
      intro α q hq
      refine ⟨?_, ?_⟩
      · rw [List.length_map, sliceNat, List.length_take, List.length_drop, hq.1]; dsimp only; omega
      · intro r hr
        obtain ⟨r', hr', rfl⟩ := List.mem_map.1 hr
        have := hq.2 r' (List.mem_of_mem_drop (List.mem_of_mem_take hr'))
        rw [sliceNat, List.length_take, List.length_drop, this]; dsimp only; omega
    rw [rows g.hz h.hz, rows g.mz h.mz]
    have s1 := shape g.hz h.hz
    have s2 := shape g.mz h.mz
    rw [if_pos ⟨by rw [flatten_length k l _ s1, Nat.mul_comm], by rw [flatten_length k l _ s2, Nat.mul_comm]⟩]
    have r1 := reshape_flatten k _ s1.2
    have r2 := reshape_flatten k _ s2.2
    rw [s1.1] at r1
    rw [s2.1] at r2
    rw [r1, r2]
  · rw [hsy _ g.hz h.hz.1]
    refine ⟨?_, ?_⟩
    · rw [List.length_map, sliceNat, List.length_take, List.length_drop, h.hz.1]; dsimp only; omega
    · intro r hr
      obtain ⟨r', hr', rfl⟩ := List.mem_map.1 hr
      have := h.hz.2 r' (List.mem_of_mem_drop (List.mem_of_mem_take hr'))
      rw [hsx _ r' this, sliceNat, List.length_take, List.length_drop, this]; dsimp only; omega

theorem pairs_flat : ∀ (l : List ℤ), l.length % 2 = 0 → (pairs l).flatMap (fun p => [p.1, p.2]) = l ∧
    2 * (pairs l).length = l.length ∧ ∀ p ∈ pairs l, p.1 ∈ l ∧ p.2 ∈ l
  | [], _ => ⟨rfl, rfl, fun p hp => by cases hp⟩
  | [a], h => by simp at h
  | a :: b :: t, h => by
    obtain ⟨h1, h2, h3⟩ := pairs_flat t (by simp only [List.length_cons] at h; omega)
    refine ⟨?_, ?_, ?_⟩
    · rw [pairs, List.flatMap_cons, h1]; rfl
    · rw [pairs, List.length_cons, List.length_cons, List.length_cons]; omega
    · intro p hp
      rw [pairs, List.mem_cons] at hp
      rcases hp with rfl | hp
      · simp
      · have := h3 p hp
        exact ⟨List.mem_cons_of_mem _ (List.mem_cons_of_mem _ this.1),
          List.mem_cons_of_mem _ (List.mem_cons_of_mem _ this.2)⟩

/-- The edges of the cells of a grid are numbers that can be stored. -/
def Stored (num : F4 → K) (bits : K → F4) (ax dx : K) (n : ℕ) : Prop :=
  ∀ k ≤ n, num (bits (ax + (k : K) * dx - dx / 2)) = ax + (k : K) * dx - dx / 2

theorem stored_run {num : F4 → K} {bits : K → F4} {a d : K} {n : ℕ} (h : Stored num bits a d n) {o k : ℕ}
    (hok : o + k ≤ n) (hk : 0 < k) :
    num (bits (a + (o : K) * d - d / 2)) = a + (o : K) * d - d / 2 ∧
    num (bits (a + (o : K) * d + ((k - 1 : ℕ) : K) * d + d / 2)) =
      a + (o : K) * d + ((k - 1 : ℕ) : K) * d + d / 2 := by
  refine ⟨h o (by omega), ?_⟩
  have hc : ((k - 1 : ℕ) : K) = (k : K) - 1 := by rw [Nat.cast_sub hk, Nat.cast_one]
  have e : a + (o : K) * d + ((k - 1 : ℕ) : K) * d + d / 2 = a + ((o + k : ℕ) : K) * d - d / 2 := by
    rw [hc]; push_cast; ring
  rw [e]
  exact h (o + k) hok

/-- What can be written: the boundary is a list of pairs of 32-bit integers and the sizes fit. -/
structure Fits (g : Grid K) (n m : ℕ) : Prop where
  size : 4 * n * m < 2 ^ 31
  even : g.iob.length % 2 = 0
  few : 4 * g.iob.length < 2 ^ 31
  ints : ∀ v ∈ g.iob, IsInt32 v

/-- The displacement of the x coordinates when the new file is read. -/
theorem reduced_read {num : F4 → K} {bits : K → F4} {conv : K × K → K × K} {g : Grid K}
    {ax dx ay dy : K} {n m : ℕ} (h : Regular g ax dx ay dy n m) (hf : Fits g n m)
    (hx : Stored num bits ax dx n) (hy : Stored num bits ay dy m)
    {xmin xmax ymin ymax : K} {b : (K × K) × (K × K)} (hb : b = box conv xmin xmax ymin ymax)
    (nx : g.x.filter (inside b.1.1 b.1.2) ≠ []) (ny : g.y.filter (inside b.2.1 b.2.2) ≠ []) :
    ∃ file mask, reduceGrid bits conv g xmin xmax ymin ymax = .ok file ∧
      readAll num file = .ok ⟨if (∀ u ∈ g.x.filter (inside b.1.1 b.1.2), u + dx / 2 < 0) ∧ 0 < num g.dt then
          (g.x.filter (inside b.1.1 b.1.2)).map (· + 360) else g.x.filter (inside b.1.1 b.1.2),
        g.y.filter (inside b.2.1 b.2.2),
        (select (inside b.2.1 b.2.2) g.y g.hz).map (select (inside b.1.1 b.1.2) g.x), mask, g.iob, g.dt⟩ := by
  rcases cut_regular h b with ⟨_, _, o, k, p, l, hok, hpl, hk, hl, ex, ey, ec, sh⟩ | ⟨h0, _⟩
  · obtain ⟨i1, i2, i3⟩ := pairs_flat g.iob hf.even
    have hkn : k ≤ n := by omega
    have hlm : l ≤ m := by omega
    have hkl : 4 * k * l < 2 ^ 31 := lt_of_le_of_lt (Nat.mul_le_mul (Nat.mul_le_mul_left 4 hkn) hlm) hf.size
    obtain ⟨file, w, r⟩ := read_output_grid k l
      [bits (ay + (p : K) * dy - dy / 2), bits (ay + (p : K) * dy + ((l - 1 : ℕ) : K) * dy + dy / 2)]
      [bits (ax + (o : K) * dx - dx / 2), bits (ax + (o : K) * dx + ((k - 1 : ℕ) : K) * dx + dx / 2)]
      _ ((select (inside b.2.1 b.2.2) g.y g.mz).map (select (inside b.1.1 b.1.2) g.x)) (pairs g.iob) g.dt rfl rfl sh
      (fun q hq => ⟨hf.ints _ (i3 q hq).1, hf.ints _ (i3 q hq).2⟩)
      (by nlinarith) (by nlinarith) (by have := hf.few; omega) hkl
    obtain ⟨x1, x2⟩ := stored_run hx hok hk
    obtain ⟨y1, y2⟩ := stored_run hy hpl hl
    refine ⟨file, reshape k l ((((((select (inside b.2.1 b.2.2) g.y g.hz).map
      (select (inside b.1.1 b.1.2) g.x)).flatten.map UInt32.toNat) ++ [4 * k * l, 4 * k * l]).drop 2).map toI4),
      ?_, ?_⟩
    · rw [reduceGrid, ← hb, ec, ok_bind]
      exact w
    · rw [readAll, r, ok_bind]
      simp only [List.cons_append, List.nil_append, List.map_cons, List.map_nil, UInt32.ofNat_toNat,
        x1, x2, y1, y2]
      rw [i1, centres_even _ _ _ hl, ← ey]
      have rz := reshape_flatten k _ sh.2
      rw [sh.1] at rz
      rw [rz]
      refine congrArg (fun x => Except.ok (Grid.mk x _ _ _ _ _)) ?_
      have top : (∀ u ∈ g.x.filter (inside b.1.1 b.1.2), u + dx / 2 < 0) ↔
          ax + (o : K) * dx + ((k - 1 : ℕ) : K) * dx + dx / 2 < 0 := by
        rw [ex]
        constructor
        · intro hu
          refine hu _ (List.mem_map.2 ⟨k - 1, List.mem_range.2 (by omega), rfl⟩)
        · intro hu u hm
          obtain ⟨i, hi, rfl⟩ := List.mem_map.1 hm
          have hi := List.mem_range.1 hi
          have : (i : K) ≤ ((k - 1 : ℕ) : K) := by exact_mod_cast (by omega : i ≤ k - 1)
          have := mul_le_mul_of_nonneg_right this h.dx0.le
          linarith
      rw [edges]
      dsimp only
      by_cases hs : ax + (o : K) * dx + ((k - 1 : ℕ) : K) * dx + dx / 2 < 0 ∧ 0 < num g.dt
      · have low : ax + (o : K) * dx - dx / 2 < 0 := by
          have h1 := hs.1
          have h2 := h.dx0
          have h3 : 0 ≤ ((k - 1 : ℕ) : K) * dx := mul_nonneg (Nat.cast_nonneg _) h.dx0.le
          linarith
        rw [if_pos ⟨low, hs.1, hs.2⟩, if_pos ⟨top.2 hs.1, hs.2⟩, ex]
        dsimp only
        have e1 : ax + (o : K) * dx - dx / 2 + 360 = (ax + (o : K) * dx + 360) - dx / 2 := by ring
        have e2 : ax + (o : K) * dx + ((k - 1 : ℕ) : K) * dx + dx / 2 + 360 =
            (ax + (o : K) * dx + 360) + ((k - 1 : ℕ) : K) * dx + dx / 2 := by ring
        rw [e1, e2, centres_even _ _ _ hk, uniform, uniform, List.map_map]
        apply List.map_congr_left
        intro i _
        simp only [Function.comp]
        ring
      · rw [if_neg (fun q => hs ⟨q.2.1, q.2.2⟩), if_neg (fun q => hs ⟨top.1 q.1, q.2⟩), ex]
        dsimp only
        exact centres_even _ _ _ hk
  · rcases h0 with h0 | h0
    · exact absurd h0 nx
    · exact absurd h0 ny

/-- The new grid file, when it is read again, has exactly the nodes of the old grid within the bounds,
with the depths that they have in the old grid, the time step and the open boundary of the old grid, when
the edges of the cells can be stored and the region reaches positive x (or the time step is not positive).
Missing: the mask (`C93_mask_false`), regions at negative x (`C93_negative_false`), the numbers of the
nodes of the open boundary (`C93_boundary_false`), and the bounds of the user, which are only those of the
corners (`C93_pole_false`). -/
theorem C93_region_partial {num : F4 → K} {bits : K → F4} {conv : K × K → K × K} {g : Grid K}
    {ax dx ay dy : K} {n m : ℕ} (h : Regular g ax dx ay dy n m) (hf : Fits g n m)
    (hx : Stored num bits ax dx n) (hy : Stored num bits ay dy m)
    {xmin xmax ymin ymax : K} {b : (K × K) × (K × K)} (hb : b = box conv xmin xmax ymin ymax)
    (ny : g.y.filter (inside b.2.1 b.2.2) ≠ []) {u : K} (hu : u ∈ g.x.filter (inside b.1.1 b.1.2))
    (hs : 0 ≤ u ∨ num g.dt ≤ 0) :
    ∃ file new, reduceGrid bits conv g xmin xmax ymin ymax = .ok file ∧ readAll num file = .ok new ∧
      new.x = g.x.filter (inside b.1.1 b.1.2) ∧ new.y = g.y.filter (inside b.2.1 b.2.2) ∧
      new.hz = (select (inside b.2.1 b.2.2) g.y g.hz).map (select (inside b.1.1 b.1.2) g.x) ∧
      new.iob = g.iob ∧ new.dt = g.dt := by
  obtain ⟨file, mask, w, r⟩ := reduced_read (conv := conv) h hf hx hy hb
    (fun e => by rw [e] at hu; cases hu) ny
  refine ⟨file, _, w, r, ?_, rfl, rfl, rfl, rfl⟩
  dsimp only
  rw [if_neg]
  rintro ⟨h1, h2⟩
  have := h1 u hu
  have := h.dx0
  rcases hs with hs | hs <;> linarith

/-- A region at negative x of a grid with a positive time step is displaced by 360 when it is read: the
same meridians for a grid of longitudes, but another place for a grid in kilometres. -/
theorem C93_negative_false {num : F4 → K} {bits : K → F4} {conv : K × K → K × K} {g : Grid K}
    {ax dx ay dy : K} {n m : ℕ} (h : Regular g ax dx ay dy n m) (hf : Fits g n m)
    (hx : Stored num bits ax dx n) (hy : Stored num bits ay dy m)
    {xmin xmax ymin ymax : K} {b : (K × K) × (K × K)} (hb : b = box conv xmin xmax ymin ymax)
    (nx : g.x.filter (inside b.1.1 b.1.2) ≠ []) (ny : g.y.filter (inside b.2.1 b.2.2) ≠ [])
    (hneg : ∀ u ∈ g.x.filter (inside b.1.1 b.1.2), u + dx / 2 < 0) (hdt : 0 < num g.dt) :
    ∃ file new, reduceGrid bits conv g xmin xmax ymin ymax = .ok file ∧ readAll num file = .ok new ∧
      new.x = (g.x.filter (inside b.1.1 b.1.2)).map (· + 360) := by
  obtain ⟨file, mask, w, r⟩ := reduced_read (conv := conv) h hf hx hy hb nx ny
  refine ⟨file, _, w, r, ?_⟩
  dsimp only
  rw [if_pos ⟨hneg, hdt⟩]

/-- Without nodes within the bounds nothing is written. -/
theorem C93_empty {bits : K → F4} {conv : K × K → K × K} {g : Grid K}
    {ax dx ay dy : K} {n m : ℕ} (h : Regular g ax dx ay dy n m)
    {xmin xmax ymin ymax : K} {b : (K × K) × (K × K)} (hb : b = box conv xmin xmax ymin ymax)
    (he : ∀ u ∈ g.x, ∀ v ∈ g.y, ¬ ((b.1.1 ≤ u ∧ u ≤ b.1.2) ∧ (b.2.1 ≤ v ∧ v ≤ b.2.2))) :
    reduceGrid bits conv g xmin xmax ymin ymax = .error .indexError := by
  rcases cut_regular h b with ⟨h1, h2, _⟩ | ⟨_, h1⟩
  · obtain ⟨u, hu⟩ := List.exists_mem_of_ne_nil _ h1
    obtain ⟨v, hv⟩ := List.exists_mem_of_ne_nil _ h2
    rw [List.mem_filter] at hu hv
    exact absurd ⟨by simpa [inside] using hu.2, by simpa [inside] using hv.2⟩ (he u hu.1 v hv.1)
  · rw [reduceGrid, ← hb, h1, error_bind]

/-- Longitudes of the west of a model whose longitudes are positive: nothing is written, although the
model has nodes there. -/
theorem C93_west_false {bits : K → F4} {g : Grid K}
    {ax dx ay dy : K} {n m : ℕ} (h : Regular g ax dx ay dy n m) (hp : 0 ≤ ax)
    {xmin xmax ymin ymax : K} (h1 : xmin < 0) (h2 : xmax < 0) :
    reduceGrid bits id g xmin xmax ymin ymax = .error .indexError := by
  refine C93_empty h rfl ?_
  intro u hu v _ hc
  rw [h.x] at hu
  obtain ⟨i, _, rfl⟩ := List.mem_map.1 hu
  have : (0 : K) ≤ (i : K) * dx := mul_nonneg (Nat.cast_nonneg _) h.dx0.le
  have h3 : (box id xmin xmax ymin ymax).1.2 < 0 := by
    simp [box, greatest, h1, h2]
  linarith [hc.1.2]

/-- In the coordinates of the model the corners say what the bounds say. -/
theorem C93_box {xmin xmax ymin ymax : K} (hx : xmin ≤ xmax) (hy : ymin ≤ ymax) :
    box id xmin xmax ymin ymax = ((xmin, xmax), (ymin, ymax)) := by
  simp [box, least, greatest, hx, hy]

/-- The box of a region has its four corners, and no smaller box has them. -/
theorem C93_corners (conv : K × K → K × K) (xmin xmax ymin ymax : K) :
    let b := box conv xmin xmax ymin ymax
    let c := [conv (xmin, ymin), conv (xmax, ymin), conv (xmax, ymax), conv (xmin, ymax)]
    (∀ p ∈ c, (b.1.1 ≤ p.1 ∧ p.1 ≤ b.1.2) ∧ b.2.1 ≤ p.2 ∧ p.2 ≤ b.2.2) ∧
    ∀ x0 x1 y0 y1, (∀ p ∈ c, (x0 ≤ p.1 ∧ p.1 ≤ x1) ∧ y0 ≤ p.2 ∧ p.2 ≤ y1) →
      (x0 ≤ b.1.1 ∧ b.1.2 ≤ x1) ∧ y0 ≤ b.2.1 ∧ b.2.2 ≤ y1 := by
  intro b c
  refine ⟨?_, ?_⟩
  · simp [b, c, box, least, greatest]
  · intro x0 x1 y0 y1 h
    simp only [c, List.mem_cons, List.not_mem_nil, or_false, forall_eq_or_imp, forall_eq] at h
    obtain ⟨h1, h2, h3, h4⟩ := h
    simp [b, box, least, greatest, h1, h2, h3, h4]

/-! ### Cases -/

/-- Numbers in steps of one half from -8 on. -/
def half (w : F4) : ℚ := (w.toNat : ℚ) / 2 - 8
/-- The words of these numbers. -/
def halfBits (v : ℚ) : F4 := UInt32.ofNat ((v + 8) * 2).floor.toNat

/-- Four by three nodes at x = -5, -4, -3, -2 or 1, 2, 3, 4, y = 0, 1, 2. -/
def pond (x0 : ℚ) : Grid ℚ where
  x := uniform x0 1 4
  y := uniform 0 1 3
  hz := [[11, 12, 13, 14], [21, 22, 23, 24], [31, 32, 33, 34]]
  mz := [[1, 1, 1, 0], [1, 1, 1, 1], [1, 1, 0, 0]]
  iob := [4, 2, 4, 3]
  dt := 40

theorem pond_regular (x0 : ℚ) : Regular (pond x0) x0 1 0 1 4 3 ∧ Fits (pond x0) 4 3 := by
  refine ⟨⟨rfl, rfl, by norm_num, by norm_num, by norm_num, by norm_num, ?_, ?_⟩, ⟨by norm_num, by simp [pond], ?_, ?_⟩⟩
  · exact ⟨rfl, by intro r hr; simp [pond] at hr; rcases hr with rfl | rfl | rfl <;> rfl⟩
  · exact ⟨rfl, by intro r hr; simp [pond] at hr; rcases hr with rfl | rfl | rfl <;> rfl⟩
  · simp [pond]
  · intro v hv
    simp [pond] at hv
    rcases hv with rfl | rfl | rfl | rfl <;> simp [IsInt32]

theorem pond_stored : Stored half halfBits (1 : ℚ) 1 4 ∧ Stored half halfBits (-5 : ℚ) 1 4 ∧
    Stored half halfBits (0 : ℚ) 1 3 := by
  refine ⟨?_, ?_, ?_⟩ <;> intro k hk <;> interval_cases k <;> decide +kernel

example : ∃ file new, reduceGrid halfBits id (pond 1) 2 3 1 5 = .ok file ∧ readAll half file = .ok new ∧
    new.x = [2, 3] ∧ new.y = [1, 2] ∧ new.hz = [[22, 23], [32, 33]] := by
  obtain ⟨f, new, h1, h2, h3, h4, h5, _⟩ := C93_region_partial (b := ((2, 3), (1, 5))) (conv := id)
    (xmin := 2) (xmax := 3) (ymin := 1) (ymax := 5) (u := 2)
    (pond_regular 1).1 (pond_regular 1).2 pond_stored.1 pond_stored.2.2 (by decide +kernel) (by decide +kernel)
    (by decide +kernel) (Or.inl (by norm_num))
  refine ⟨f, new, h1, h2, h3.trans ?_, h4.trans ?_, h5.trans ?_⟩ <;> decide +kernel

example : ∃ file new, reduceGrid halfBits id (pond (-5)) (-4) (-3) 1 5 = .ok file ∧
    readAll half file = .ok new ∧ new.x = [356, 357] := by
  obtain ⟨f, new, h1, h2, h3⟩ := C93_negative_false (b := ((-4, -3), (1, 5))) (conv := id)
    (xmin := -4) (xmax := -3) (ymin := 1) (ymax := 5)
    (pond_regular (-5)).1 (pond_regular (-5)).2 pond_stored.2.1 pond_stored.2.2 (by decide +kernel)
    (by decide +kernel) (by decide +kernel) (by decide +kernel) (by decide +kernel)
  exact ⟨f, new, h1, h2, h3.trans (by decide +kernel)⟩

/-- The mask of the new file is not the mask of the old one within the bounds: it is made of depths. -/
theorem C93_mask_false :
    ((reduceGrid halfBits id (pond 1) 2 3 1 5).bind (readAll half)).map (fun g => g.mz) =
      .ok [[32, 33], [16, 16]] ∧
    (select (inside 1 5) (pond 1).y (pond 1).mz).map (select (inside 2 3) (pond 1).x) = [[1, 1], [1, 0]] := by
  constructor <;> decide +kernel

/-- The open boundary of the new file refers to nodes that are not in it: its indices, counted in the old
grid, are kept. -/
theorem C93_boundary_false :
    ((reduceGrid halfBits id (pond 1) 3 4 1 2).bind (readAll half)).map
      (fun g => (g.x.length, g.y.length, g.iob)) = .ok (2, 2, [4, 2, 4, 3]) := by
  decide +kernel

/-- A projection about a pole: a distance for every latitude, and the longitude as direction. -/
noncomputable def aboutPole (ρ : ℝ → ℝ) (p : ℝ × ℝ) : ℝ × ℝ :=
  (ρ p.2 * Real.sin (p.1 * Real.pi / 180), ρ p.2 * Real.cos (p.1 * Real.pi / 180))

/-- All longitudes between two latitudes in a model about a pole: the four corners lie on one line, so
a model without nodes on that line gives nothing, whatever the latitudes and the distances are. -/
theorem C93_pole_false (ρ : ℝ → ℝ) (bits : ℝ → F4) {g : Grid ℝ} {ax dx ay dy : ℝ} {n m : ℕ}
    (h : Regular g ax dx ay dy n m) (h0 : ∀ u ∈ g.x, u ≠ 0) (south north : ℝ) :
    reduceGrid bits (aboutPole ρ) g (-180) 180 south north = .error .indexError := by
  have s1 : Real.sin (-180 * Real.pi / 180) = 0 := by
    rw [show -180 * Real.pi / 180 = -Real.pi by ring, Real.sin_neg, Real.sin_pi, neg_zero]
  have s2 : Real.sin (180 * Real.pi / 180) = 0 := by
    rw [show 180 * Real.pi / 180 = Real.pi by ring, Real.sin_pi]
  have hb : (box (aboutPole ρ) (-180) 180 south north).1 = (0, 0) := by
    simp only [box, least, greatest, aboutPole, s1, s2, List.map_cons, List.map_nil, List.foldl_cons,
      List.foldl_nil, mul_zero, min_self, max_self]
  refine C93_empty h rfl ?_
  intro u hu v _ hc
  rw [hb] at hc
  exact h0 u hu (le_antisymm hc.1.2 hc.1.1)

example : Regular (K := ℝ) ⟨uniform 1 1 2, uniform 0 1 2, [[1, 2], [3, 4]], [[1, 1], [1, 1]], [], 1⟩ 1 1 0 1 2 2 ∧
    ∀ u ∈ uniform (1 : ℝ) 1 2, u ≠ 0 := by
  refine ⟨⟨rfl, rfl, by norm_num, by norm_num, by norm_num, by norm_num, ?_, ?_⟩, ?_⟩
  · exact ⟨rfl, by intro r hr; simp at hr; rcases hr with rfl | rfl <;> rfl⟩
  · exact ⟨rfl, by intro r hr; simp at hr; subst hr; rfl⟩
  · intro u hu
    obtain ⟨i, _, rfl⟩ := List.mem_map.1 hu
    have : (0 : ℝ) ≤ i := Nat.cast_nonneg i
    have : (0 : ℝ) < 1 + i * 1 := by linarith
    exact this.ne'

end Verif.Regional
