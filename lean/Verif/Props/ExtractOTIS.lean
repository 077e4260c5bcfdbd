import Verif.Lemmas.Staggered
/-!
C73: the harmonic constants extracted from an OTIS model are the interpolation of the field in the
files at the points of its staggered grid, and velocities are transports divided by the depth.
-/
namespace Verif.Staggered
open Verif Verif.Spec Verif.Extract Verif.Grid

variable {K : Type} [Field K] [LinearOrder K] [IsStrictOrderedRing K]

/-! ## What the files say -/

/-- The sea of a global model whose first column is at longitude `a`: the columns repeat. -/
def world (s : Site K) (a : K) : Sea K where
  lon k := a + k * (360 / (s.x.length : K))
  lat j := s.y.getD j.toNat 0
  cols _ := True
  rows j := 0 ≤ j ∧ j < s.y.length
  depth k j := (s.hz.getD j.toNat []).getD (k % s.x.length).toNat 0
  sea k j := (s.sea.getD j.toNat []).getD (k % s.x.length).toNat false
  west k := k - 1
  south j := max (j - 1) 0
  dx := 360 / (s.x.length : K)
  dy := s.y.getD 1 0 - s.y.getD 0 0

/-- A quantity of a global model by column and row. -/
def worldValue (s : Site K) (hc : List (List (Fld K))) (k j : ℤ) : Option (K × K) :=
  (Extract.entry hc j.toNat (k % s.x.length).toNat).number

/-- The sea of a regional model. -/
def region (s : Site K) : Sea K where
  lon k := s.x.getD k.toNat 0
  lat j := s.y.getD j.toNat 0
  cols k := 0 ≤ k ∧ k < s.x.length
  rows j := 0 ≤ j ∧ j < s.y.length
  depth k j := (s.hz.getD j.toNat []).getD k.toNat 0
  sea k j := (s.sea.getD j.toNat []).getD k.toNat false
  west k := max (k - 1) 0
  south j := max (j - 1) 0
  dx := s.x.getD 1 0 - s.x.getD 0 0
  dy := s.y.getD 1 0 - s.y.getD 0 0

/-- A quantity of a regional model by column and row. -/
def regionValue (hc : List (List (Fld K))) (k j : ℤ) : Option (K × K) :=
  (Extract.entry hc j.toNat k.toNat).number

/-- The grid file of a model: axes in order and matrices of the right shape. -/
structure Rect (s : Site K) : Prop where
  asc : Ascending s.x s.y
  two : 2 ≤ s.x.length
  two' : 2 ≤ s.y.length
  depths : CGrid.Shape s.hz s.y.length s.x.length
  mask : CGrid.Shape s.sea s.y.length s.x.length

/-- The grid file of a global model: columns every `360 / n` degrees. -/
structure Around (s : Site K) (a : K) : Prop extends Rect s where
  three : 3 ≤ s.x.length
  lon : s.x = uniform a (360 / (s.x.length : K)) s.x.length

theorem entry_some {α : Type} {m : List (List α)} {ny nx : ℕ} (h : CGrid.Shape m ny nx) {j i : ℕ}
    (hj : j < ny) (hi : i < nx) (d : α) : CGrid.entry m j i = some ((m.getD j []).getD i d) := by
  have hj' : j < m.length := by have := h.1; omega
  have hl := h.2 m[j] (List.getElem_mem hj')
  unfold CGrid.entry
  simp only [List.getD_eq_getElem?_getD, List.getElem?_eq_getElem hj', Option.bind_some, Option.getD_some]
  rw [List.getElem?_eq_getElem (by omega)]
  rfl

theorem step_getD {x : List K} (h : 2 ≤ x.length) : step x = .ok (x.getD 1 0 - x.getD 0 0) := by
  unfold step
  simp only [List.getD_eq_getElem?_getD]
  rw [List.getElem?_eq_getElem (show 0 < x.length by omega), List.getElem?_eq_getElem (show 1 < x.length by omega)]
  rfl

theorem Around.even {s : Site K} {a : K} (h : Around s a) (hc : List (List (Fld K)))
    (sh : CGrid.Shape hc s.y.length s.x.length) : Even (⟨s.x, s.y, hc⟩ : Layer K) a :=
  ⟨h.three, h.lon, h.asc.2, h.two', sh.1, sh.2⟩

theorem Around.step {s : Site K} {a : K} (h : Around s a) : step s.x = .ok (360 / (s.x.length : K)) := by
  rw [step_getD h.two]
  have h3 := h.three
  conv_lhs => rw [h.lon]
  rw [uniform_getD _ _ _ _ (by omega), uniform_getD _ _ _ _ (by omega)]
  congr 1
  push_cast
  ring

theorem Around.reads {s : Site K} {a : K} (h : Around s a) : Reads s true (world s a) := by
  have h3 := h.three
  have em : ∀ c : ℕ, c < s.x.length → ((c : ℤ) % s.x.length).toNat = c := by
    intro c hc
    rw [Int.emod_eq_of_lt (by omega) (by omega)]
    exact Int.toNat_natCast c
  refine ⟨h.asc, h.two, h.two', h.depths, h.mask, ?_, ?_, fun _ _ => trivial, ?_, ?_, ?_, ?_, ?_, h.step,
    step_getD h.two'⟩
  · intro c hc
    conv_lhs => rw [h.lon]
    rw [uniform_getD _ _ _ _ hc]
    show _ = a + (((c : ℕ) : ℤ) : K) * _
    push_cast
    ring
  · intro r hr
    show _ = s.y.getD ((r : ℤ)).toNat 0
    rw [Int.toNat_natCast]
  · intro r hr
    exact ⟨by omega, by omega⟩
  · intro r c hr hc
    rw [entry_some h.depths hr hc 0]
    simp only [world, Int.toNat_natCast, em c hc]
  · intro r c hr hc
    rw [entry_some h.mask hr hc false]
    simp only [world, Int.toNat_natCast, em c hc]
  · intro r c hr hc
    rw [entry_some h.depths hr (CGrid.west_lt true _ _ hc) 0]
    simp only [world, Int.toNat_natCast]
    congr 2
    unfold CGrid.west
    by_cases h0 : c = 0
    · subst h0
      simp only [if_true]
      have : (((0 : ℕ) : ℤ) - 1) % s.x.length = ((s.x.length - 1 : ℕ) : ℤ) := by
        rw [show ((0 : ℕ) : ℤ) - 1 = ((s.x.length : ℤ) - 1) + s.x.length * (-1) by push_cast; ring,
          Int.add_mul_emod_self_left, Int.emod_eq_of_lt (by omega) (by omega)]
        omega
      rw [this, Int.toNat_natCast]
    · rw [if_neg h0, Int.emod_eq_of_lt (by omega) (by omega)]
      omega
  · intro r c hr hc
    rw [entry_some h.depths (show CGrid.south r < s.y.length by unfold CGrid.south; omega) hc 0]
    simp only [world, em c hc]
    congr 3
    unfold CGrid.south
    omega

theorem Rect.reads {s : Site K} (h : Rect s) : Reads s false (region s) := by
  refine ⟨h.asc, h.two, h.two', h.depths, h.mask, ?_, ?_, ?_, ?_, ?_, ?_, ?_, ?_, step_getD h.two,
    step_getD h.two'⟩
  · intro c hc
    simp only [region, Int.toNat_natCast]
  · intro r hr
    simp only [region, Int.toNat_natCast]
  · intro c hc
    exact ⟨by omega, by omega⟩
  · intro r hr
    exact ⟨by omega, by omega⟩
  · intro r c hr hc
    rw [entry_some h.depths hr hc 0]
    simp only [region, Int.toNat_natCast]
  · intro r c hr hc
    rw [entry_some h.mask hr hc false]
    simp only [region, Int.toNat_natCast]
  · intro r c hr hc
    rw [entry_some h.depths hr (CGrid.west_lt false _ _ hc) 0]
    simp only [region, Int.toNat_natCast]
    congr 2
    unfold CGrid.west
    simp only [Bool.false_eq_true, if_false]
    split_ifs <;> omega
  · intro r c hr hc
    rw [entry_some h.depths (show CGrid.south r < s.y.length by unfold CGrid.south; omega) hc 0]
    simp only [region, Int.toNat_natCast]
    congr 3
    unfold CGrid.south
    omega

theorem world_holds {s : Site K} {hc : List (List (Fld K))} (sh : CGrid.Shape hc s.y.length s.x.length) :
    Holds hc s (worldValue s hc) := by
  refine ⟨sh, fun r c hr hl => ?_⟩
  unfold worldValue
  rw [Int.toNat_natCast, Int.emod_eq_of_lt (by omega) (by omega), Int.toNat_natCast]

theorem region_holds {s : Site K} {hc : List (List (Fld K))} (sh : CGrid.Shape hc s.y.length s.x.length) :
    Holds hc s (regionValue hc) := by
  refine ⟨sh, fun r c hr hl => ?_⟩
  unfold regionValue
  rw [Int.toNat_natCast, Int.toNat_natCast]

theorem world_round {s : Site K} {a : K} (h : Around s a) (p : Points) (value : ℤ → ℤ → Option (K × K))
    (hv : ∀ k j, value (k + s.x.length) j = value k j) : ((world s a).chart p value).Round s.x.length := by
  have h3 := h.three
  have n0 : (0 : K) < (s.x.length : K) := Nat.cast_pos.2 (by omega)
  have turn : (s.x.length : K) * (360 / (s.x.length : K)) = 360 := mul_div_cancel₀ _ n0.ne'
  have dep : ∀ k j, (world s a).depth (k + s.x.length) j = (world s a).depth k j := by
    intro k j
    simp only [world, Int.add_emod_right]
  have se : ∀ k j, (world s a).sea (k + s.x.length) j = (world s a).sea k j := by
    intro k j
    simp only [world, Int.add_emod_right]
  have we : ∀ k, (world s a).west (k + s.x.length) = (world s a).west k + s.x.length := by
    intro k
    simp only [world]
    ring
  have wet : ∀ k j, (world s a).Wet p (k + s.x.length) j ↔ (world s a).Wet p k j := by
    intro k j
    cases p <;> simp only [Sea.Wet, we, dep, se]
  refine ⟨fun _ => trivial, fun k => ?_, fun k j => ?_⟩
  · simp only [Sea.chart, world]
    push_cast
    split_ifs <;> linear_combination turn
  · simp only [Sea.chart, wet, hv]

theorem worldValue_round (s : Site K) (hc : List (List (Fld K))) (k j : ℤ) :
    worldValue s hc (k + s.x.length) j = worldValue s hc k j := by
  unfold worldValue
  rw [Int.add_emod_right]

theorem water_round {s : Site K} {a : K} (p : Points) (k j : ℤ) :
    (some ((world s a).water p (k + s.x.length) j, (0 : K))) = some ((world s a).water p k j, 0) := by
  have dep : ∀ k j, (world s a).depth (k + s.x.length) j = (world s a).depth k j := by
    intro k j
    simp only [world, Int.add_emod_right]
  have we : ∀ k, (world s a).west (k + s.x.length) = (world s a).west k + s.x.length := by
    intro k
    simp only [world]
    ring
  cases p <;> simp only [Sea.water, we, dep]

/-! ## Matrices at the nodes -/

theorem node_even {s : Site K} {a : K} (h : Around s a) (node : Node) {m : List (List (Fld K))}
    (sh : CGrid.Shape m s.y.length s.x.length) :
    Even (⟨nodeX node (360 / (s.x.length : K)) s.x, nodeY node (s.y.getD 1 0 - s.y.getD 0 0) s.y, m⟩ : Layer K)
      (if node = .u then a - 360 / (s.x.length : K) / 2 else a) := by
  have asc := node_ascending node (360 / (s.x.length : K)) (s.y.getD 1 0 - s.y.getD 0 0) h.asc
  refine ⟨by rw [nodeX_length]; exact h.three, ?_, asc.2, by rw [nodeY_length]; exact h.two',
    by rw [nodeY_length]; exact sh.1, by rw [nodeX_length]; exact sh.2⟩
  simp only [nodeX_length]
  have hl := h.lon
  generalize 360 / (s.x.length : K) = d at hl ⊢
  unfold nodeX
  by_cases e : node = .u
  · simp only [if_pos e]
    conv_lhs => rw [hl]
    unfold uniform
    rw [List.map_map]
    refine List.map_congr_left fun i _ => ?_
    simp only [Function.comp]
    ring
  · simp only [if_neg e]
    exact hl

/-- A matrix at the nodes of a global model after its extension. -/
theorem global_shows {s : Site K} {a : K} (h : Around s a) (node : Node) {m : List (List (Fld K))}
    (sh : CGrid.Shape m s.y.length s.x.length) {C : Chart K} (hC : C.Round s.x.length)
    (hs : Shows (nodeX node (360 / (s.x.length : K)) s.x) (nodeY node (s.y.getD 1 0 - s.y.getD 0 0) s.y) m C 0 0) :
    ∃ m', extendIf true m = .ok m' ∧
      Shows (nodeX node (360 / (s.x.length : K)) (uniform (a - 360 / (s.x.length : K)) (360 / (s.x.length : K))
        (s.x.length + 2))) (nodeY node (s.y.getD 1 0 - s.y.getD 0 0) s.y) m' C (-1) 0 := by
  have ev := node_even h node sh
  obtain ⟨g', e, e1, e2, e3⟩ := extended_round ev hs (by rw [nodeX_length]; exact hC) fes
  have hx : nodeX node (360 / (s.x.length : K)) (uniform (a - 360 / (s.x.length : K)) (360 / (s.x.length : K))
      (s.x.length + 2)) = g'.lon := by
    rw [e1]
    simp only [nodeX_length]
    unfold nodeX
    by_cases hu : node = .u
    · simp only [if_pos hu]
      unfold uniform
      rw [List.map_map]
      refine List.map_congr_left fun i _ => ?_
      simp only [Function.comp]
      ring
    · simp only [if_neg hu]
      rfl
  have hy : nodeY node (s.y.getD 1 0 - s.y.getD 0 0) s.y = g'.lat := e2.symm
  refine ⟨g'.hc, ?_, ?_⟩
  · have := e
    unfold extended at this
    rw [ev.first, ev.last] at this
    simp only [nodeX_length] at this
    rw [if_pos (by
      have : (if node = .u then a - 360 / (s.x.length : K) / 2 else a) + 360 - 360 / (s.x.length : K) -
        (if node = .u then a - 360 / (s.x.length : K) / 2 else a) = 360 - 360 / (s.x.length : K) := by ring
      rw [this]
      exact Interp.isclose_self _)] at this
    simp only [fes, Bool.false_eq_true, if_false] at this
    unfold extendIf extendMatrix
    rw [if_pos rfl]
    cases h1 : extendArray (nodeX node (360 / (s.x.length : K)) s.x) (360 / (s.x.length : K)) with
    | error _ => rw [h1] at this; cases this
    | ok l =>
      rw [h1, ok_bind] at this
      cases h2 : pyMap extendRow m with
      | error _ => rw [h2] at this; cases this
      | ok l' =>
        rw [h2, ok_bind] at this
        cases this
        rfl
  · rw [hx, hy]
    exact e3

/-- What is computed from the grid file and the file of a constituent of a global model. -/
theorem global_frame {s : Site K} {a : K} (h : Around s a) (node : Node) (exact : Bool) :
    ∃ f, frame exact true node (360 / (s.x.length : K)) (s.y.getD 1 0 - s.y.getD 0 0) s.x s.y s.hz s.sea = .ok f ∧
      f.x = uniform (a - 360 / (s.x.length : K)) (360 / (s.x.length : K)) (s.x.length + 2) ∧ f.y = s.y ∧
      f.nx = nodeX node (360 / (s.x.length : K)) f.x ∧ f.ny = nodeY node (s.y.getD 1 0 - s.y.getD 0 0) s.y ∧
      Shows f.nx f.ny f.bath ((world s a).depths node.points) (-1) 0 ∧
      ∀ hc, CGrid.Shape hc s.y.length s.x.length → ∃ hc', constituent true none s.x s.y f hc = .ok hc' ∧
        Shows f.nx f.ny hc' ((world s a).chart node.points (worldValue s hc)) (-1) 0 := by
  have h3 := h.three
  have h2' := h.two'
  have rim : Rim s true (world s a) node := fun _ e => by cases e
  have ev := h.even (List.replicate s.y.length (List.replicate s.x.length ⟨0, 0, false⟩))
    ⟨List.length_replicate, fun r hr => by rw [List.eq_of_mem_replicate hr, List.length_replicate]⟩
  have hd := depths_eq node true (show 0 < s.y.length by omega) (show 0 < s.x.length by omega) h.depths h.mask
  obtain ⟨b', eb, sb⟩ := global_shows h node hd.2 (world_round h node.points _ (water_round node.points))
    (bare_shows h.reads rim)
  have first : s.x.head? = some a := ev.first
  have last : s.x.getLast? = some (a + 360 - 360 / (s.x.length : K)) := ev.last
  have ext : extendArray s.x (360 / (s.x.length : K)) =
      .ok (uniform (a - 360 / (s.x.length : K)) (360 / (s.x.length : K)) (s.x.length + 2)) := by
    have := C12_extended_longitudes a (360 / (s.x.length : K)) s.x.length (by omega)
    rwa [← h.lon] at this
  refine ⟨⟨uniform (a - 360 / (s.x.length : K)) (360 / (s.x.length : K)) (s.x.length + 2), s.y,
    nodeX node (360 / (s.x.length : K)) (uniform (a - 360 / (s.x.length : K)) (360 / (s.x.length : K))
      (s.x.length + 2)), nodeY node (s.y.getD 1 0 - s.y.getD 0 0) s.y, b', true⟩, ?_, rfl, rfl, rfl, rfl, sb, ?_⟩
  · unfold frame
    rw [first, last]
    simp only
    have g : (true && (if exact then decide (a + 360 - 360 / (s.x.length : K) - a = 360 - 360 / (s.x.length : K))
        else Interp.isclose (a + 360 - 360 / (s.x.length : K) - a) (360 - 360 / (s.x.length : K)))) = true := by
      have : a + 360 - 360 / (s.x.length : K) - a = 360 - 360 / (s.x.length : K) := by ring
      rw [this, Interp.isclose_self]
      cases exact <;> simp
    rw [g]
    simp only [if_true]
    rw [ext, ok_bind, hd.1, eb, ok_bind]
  · intro hc sh
    obtain ⟨hc', b'', e1, e2, e3⟩ := extendIf_zip
      (fun (c b : Fld K) => (⟨c.re, c.im, c.masked || b.masked⟩ : Fld K)) true (show 0 < s.x.length by omega) sh hd.2
    have le := extendIf_lengths true (show 0 < s.x.length by omega) sh hd.2 e1 e2
    rw [eb] at e2
    cases e2
    obtain ⟨m', em, sm⟩ := global_shows h node (zipMatrix_shape _ sh hd.2)
      (world_round h node.points _ (worldValue_round s hc)) (masked_shows h.reads rim (world_holds sh))
    rw [e3] at em
    cases em
    refine ⟨_, ?_, sm⟩
    unfold constituent cropIf
    simp only
    rw [ok_bind]
    dsimp only
    rw [e1, ok_bind, if_pos le]

theorem number_none {c : Fld K} : c.number = none ↔ c.masked = true := by
  unfold Fld.number
  cases c.masked <;> simp

theorem entry_outside {x y : List K} {hc : List (List (Fld K))} {C : Chart K} {k0 j0 : ℤ}
    (h : Shows x y hc C k0 j0) {r c : ℕ} (out : ¬ (r < y.length ∧ c < x.length)) :
    Extract.entry hc r c = ⟨0, 0, true⟩ := by
  unfold Extract.entry
  simp only [List.getD_eq_getElem?_getD]
  by_cases hr : r < hc.length
  · have w := h.width _ (List.getElem_mem hr)
    rw [List.getElem?_eq_getElem hr, Option.getD_some, List.getElem?_eq_none (by
      have := h.height
      omega)]
    rfl
  · rw [List.getElem?_eq_none (show hc.length ≤ r by omega)]
    rfl

theorem shows_same {x y : List K} {hc bath : List (List (Fld K))} {T H : Chart K} {k0 j0 : ℤ}
    (ht : Shows x y hc T k0 j0) (hb : Shows x y bath H k0 j0)
    (e : ∀ k j, T.value k j = none ↔ H.value k j = none) : SameMask hc bath := by
  intro r c
  by_cases hin : r < y.length ∧ c < x.length
  · have := e (k0 + c) (j0 + r)
    rw [ht.value r c hin.1 hin.2, hb.value r c hin.1 hin.2, number_none, number_none] at this
    exact Bool.eq_iff_iff.2 this
  · rw [entry_outside ht hin, entry_outside hb hin]

theorem shows_nonzero {x y : List K} {hc : List (List (Fld K))} {T : Chart K} {k0 j0 : ℤ}
    (ht : Shows x y hc T k0 j0) (e : ∀ k j, T.value k j ≠ some (0, 0)) : Nonzero hc := by
  intro r c hm
  by_cases hin : r < y.length ∧ c < x.length
  · have := e (k0 + c) (j0 + r)
    rw [ht.value r c hin.1 hin.2] at this
    unfold Fld.number at this
    rw [hm] at this
    rintro ⟨h1, h2⟩
    rw [h1, h2] at this
    exact this rfl
  · rw [entry_outside ht hin] at hm
    cases hm

/-- What the methods need of the file of a constituent.  With `'spline'` nothing; with the others every
point of the sea has a number; with `'bilinear'`, and with `'linear'` for stored models, it is not
zero. -/
structure Complete (m : Method) (stored : Bool) (S : Sea K) (p : Points) (value : ℤ → ℤ → Option (K × K)) :
    Prop where
  gaps : m ≠ .spline ∨ stored = true → ∀ k j, S.Wet p k j → value k j ≠ none
  zeros : m = .bilinear ∨ (m = .linear ∧ stored = true) → ∀ k j, S.Wet p k j → value k j ≠ some (0, 0)

theorem Complete.same {m : Method} {stored : Bool} {S : Sea K} {p : Points} {value : ℤ → ℤ → Option (K × K)}
    (h : Complete m stored S p value) {x y : List K} {hc bath : List (List (Fld K))} {k0 j0 : ℤ}
    (ht : Shows x y hc (S.chart p value) k0 j0) (hb : Shows x y bath (S.depths p) k0 j0) :
    (m = .spline ∧ stored = false) ∨ SameMask hc bath := by
  by_cases hc : m ≠ .spline ∨ stored = true
  · refine Or.inr (shows_same ht hb fun k j => ?_)
    simp only [Sea.depths, Sea.chart]
    by_cases hw : S.Wet p k j
    · rw [if_pos hw, if_pos hw]
      exact ⟨fun e => absurd e (h.gaps hc k j hw), fun e => by cases e⟩
    · rw [if_neg hw, if_neg hw]
  · rw [not_or, not_not, Bool.not_eq_true] at hc
    exact Or.inl hc

theorem Complete.full {m : Method} {stored : Bool} {S : Sea K} {p : Points} {value : ℤ → ℤ → Option (K × K)}
    (h : Complete m stored S p value) {x y : List K} {hc : List (List (Fld K))} {k0 j0 : ℤ}
    (ht : Shows x y hc (S.chart p value) k0 j0) :
    m = .spline ∨ (m = .linear ∧ stored = false) ∨ Nonzero hc := by
  by_cases hc : m = .bilinear ∨ (m = .linear ∧ stored = true)
  · refine Or.inr (Or.inr (shows_nonzero ht fun k j => ?_))
    simp only [Sea.chart]
    by_cases hw : S.Wet p k j
    · rw [if_pos hw]
      exact h.zeros hc k j hw
    · rw [if_neg hw]
      simp
  · cases m with
    | spline => exact Or.inl rfl
    | bilinear => exact absurd (Or.inl rfl) hc
    | linear =>
      cases stored with
      | false => exact Or.inr (Or.inl ⟨rfl, rfl⟩)
      | true => exact absurd (Or.inr ⟨rfl, rfl⟩) hc

theorem water_nonzero (S : Sea K) (p : Points) (k j : ℤ) (h : S.Wet p k j) : S.water p k j ≠ 0 := by
  cases p with
  | elevation => exact h.2
  | zonal =>
    have := h.1
    have := h.2
    unfold Sea.water
    positivity
  | meridional =>
    have := h.1
    have := h.2
    unfold Sea.water
    positivity

theorem depths_complete (m : Method) (stored : Bool) (S : Sea K) (p : Points) :
    Complete m stored S p (fun k j => some (S.water p k j, 0)) := by
  refine ⟨fun _ k j _ e => (by cases e), fun _ k j h e => water_nonzero S p k j h ?_⟩
  exact (Prod.mk.inj (Option.some.inj e)).1

theorem depths_positive (S : Sea K) {node : Node} (h : node ≠ .z) : Positive (S.depths node.points) := by
  intro k j z e
  simp only [Sea.depths, Sea.chart] at e
  by_cases hw : S.Wet node.points k j
  · rw [if_pos hw] at e
    rw [← Option.some.inj e]
    cases node with
    | z => exact absurd rfl h
    | u =>
      have := hw.1
      have := hw.2
      simp only [Node.points, Sea.water]
      positivity
    | v =>
      have := hw.1
      have := hw.2
      simp only [Node.points, Sea.water]
      positivity
  · rw [if_neg hw] at e
    cases e

/-- A place between the first and last nodes. -/
structure Inside (m : Method) (x y : List K) (q : K × K) : Prop where
  west : x.getD 0 0 ≤ q.1
  east : q.1 ≤ x.getD (x.length - 1) 0
  south : y.getD 0 0 ≤ q.2
  north : q.2 ≤ y.getD (y.length - 1) 0
  strict : m = .bilinear → q.1 < x.getD (x.length - 1) 0 ∧ y.getD 0 0 < q.2 ∧ q.2 < y.getD (y.length - 1) 0

theorem inside_false {m : Method} {x y : List K} (asc : Ascending x y) (two : 2 ≤ x.length) (two' : 2 ≤ y.length)
    {q : K × K} (h : q.1 < x.getD 0 0 ∨ x.getD (x.length - 1) 0 < q.1 ∨ q.2 < y.getD 0 0 ∨
      y.getD (y.length - 1) 0 < q.2) : outside x y q = .ok true := by
  unfold outside
  rw [min?_increasing asc.1 two, max?_increasing asc.1 two, min?_increasing asc.2 two', max?_increasing asc.2 two']
  simp only [Except.ok.injEq, decide_eq_true_eq]
  exact h

theorem Inside.outside {m : Method} {x y : List K} (asc : Ascending x y) (two : 2 ≤ x.length) (two' : 2 ≤ y.length)
    {q : K × K} (h : Inside m x y q) : outside x y q = .ok false := by
  unfold Extract.outside
  rw [min?_increasing asc.1 two, max?_increasing asc.1 two, min?_increasing asc.2 two', max?_increasing asc.2 two']
  simp only [Except.ok.injEq, decide_eq_false_iff_not, not_or, not_lt]
  exact ⟨h.west, h.east, h.south, h.north⟩

/-- The depths at places inside. -/
theorem depths_sound {S : Sea K} {p : Points} {x y : List K} {bath : List (List (Fld K))} {k0 j0 : ℤ}
    (hb : Shows x y bath (S.depths p) k0 j0) (m : Method)
    (far : m = .bilinear → ∀ c : ℕ, c < x.length → |x.getD c 0| ≤ 720) {pts : List (K × K)}
    (hp : ∀ q ∈ pts, Inside m x y q) :
    ∃ ds, pyMap (depthAt m x y bath) pts = .ok ds ∧ List.Forall₂ (Sounds m (S.depths p)) pts ds := by
  refine pyMap_rel fun q hq => ?_
  have i := hp q hq
  have c := depths_complete m false S p
  obtain ⟨d, -, e, -, s, -⟩ := point hb hb m false false q i.west i.east i.south i.north far i.strict
    (c.same hb hb) (c.full hb) (fun e => by cases e)
  exact ⟨d, e, s⟩

/-- The constants at places inside. -/
theorem evaluate_agrees {S : Sea K} {p : Points} {value : ℤ → ℤ → Option (K × K)} {x y ax ay : List K}
    {hc bath : List (List (Fld K))} {k0 j0 : ℤ} (ht : Shows x y hc (S.chart p value) k0 j0)
    (hb : Shows x y bath (S.depths p) k0 j0) (m : Method) (near : Near K) (hn : ∀ x y hc q, near x y hc q = none)
    (speed stored : Bool) (c : Complete m stored S p value) (pos : speed = true → Positive (S.depths p))
    (far : m = .bilinear → ∀ c : ℕ, c < x.length → |x.getD c 0| ≤ 720) {pts : List (K × K)}
    (hp : ∀ q ∈ pts, Inside m x y q ∧ outside ax ay q = .ok false) :
    ∃ outs, evaluate m near speed stored ax ay x y bath hc pts = .ok outs ∧
      List.Forall₂ (Agrees m speed (S.chart p value) (S.depths p)) pts outs := by
  unfold evaluate
  refine pyMap_rel fun q hq => ?_
  obtain ⟨i, ho⟩ := hp q hq
  obtain ⟨d, o, e1, e2, -, s⟩ := point ht hb m stored speed q i.west i.east i.south i.north far i.strict
    (c.same ht hb) (c.full ht) pos
  refine ⟨_, ?_, s⟩
  rw [e1, ok_bind, e2, ok_bind, ho, ok_bind]
  cases o with
  | none => simp only [hn]
  | some z => rfl

theorem Agrees.turn {T H : Chart K} {n : ℕ} (hT : T.Round n) (hH : H.Round n) {m : Method} {speed : Bool}
    {x x' y : K} {o : Out K} (s : SameMeridian 360 x x') (a : Agrees m speed T H (x', y) o) :
    Agrees m speed T H (x, y) o := by
  obtain ⟨k, hk⟩ := s
  have e : x = x' + ((-k : ℤ) : K) * 360 := by rw [hk]; push_cast; ring
  rw [e]
  cases m with
  | spline => obtain ⟨v, w, hv, hw, ho⟩ := a; exact ⟨v, w, hv.turn hT (-k), hw.turn hH (-k), ho⟩
  | linear => obtain ⟨v, w, hv, hw, ho⟩ := a; exact ⟨v, w, hv.turn hT (-k), hw.turn hH (-k), ho⟩
  | bilinear =>
    obtain ⟨v, w, hv, hw, ho⟩ := a
    exact ⟨v, w, hv.imp (fun h => h.turn hT (-k)) (fun h => h.turn hT (-k)),
      hw.imp (fun h => h.turn hH (-k)) (fun h => h.turn hH (-k)), ho⟩

theorem Sounds.turn {H : Chart K} {n : ℕ} (hH : H.Round n) {m : Method} {x x' y : K} {d : Option K}
    (s : SameMeridian 360 x x') (a : Sounds m H (x', y) d) : Sounds m H (x, y) d := by
  obtain ⟨k, hk⟩ := s
  have e : x = x' + ((-k : ℤ) : K) * 360 := by rw [hk]; push_cast; ring
  rw [e]
  cases m with
  | spline => obtain ⟨w, hw, ho⟩ := a; exact ⟨w, hw.turn hH (-k), ho⟩
  | linear => obtain ⟨w, hw, ho⟩ := a; exact ⟨w, hw.turn hH (-k), ho⟩
  | bilinear =>
    obtain ⟨w, hw, ho⟩ := a
    exact ⟨w, hw.imp (fun h => h.turn hH (-k)) (fun h => h.turn hH (-k)), ho⟩

/-! ## Longitudes -/

/-- How far east of the last zonal current point a cell of the grid ends. -/
def half (node : Node) (d : K) : K := if node = .u then d / 2 else 0

/-- How far north of the last meridional current point the grid ends. -/
def low (node : Node) (d : K) : K := if node = .v then d / 2 else 0

/-- The adjusted place is the same and lies in the extended grid. -/
structure Lands (m : Method) (node : Node) (a d : K) (p p' : K × K) : Prop where
  same : SameMeridian 360 p.1 p'.1
  lat : p'.2 = p.2
  west : a - d ≤ p'.1
  east : p'.1 ≤ a + 360 - half node d
  strict : m = .bilinear → p'.1 < a + 360 - half node d

/-- Longitudes in one of the two conventions.  With `'bilinear'` the antimeridian is left out. -/
structure Span (m : Method) (p : K × K) : Prop where
  west : -180 ≤ p.1
  east : p.1 ≤ 360
  strict : m = .bilinear → p.1 ≠ 180 ∧ p.1 ≠ -180

theorem zip_lands {R : K → K → Prop} : ∀ {pts : List (K × K)} {l : List K},
    List.Forall₂ R (pts.map Prod.fst) l →
      List.Forall₂ (fun p p' => R p.1 p'.1 ∧ p'.2 = p.2) pts (l.zip (pts.map Prod.snd))
  | [], _, h => by cases h; exact .nil
  | p :: pts, l, h => by
    cases h with
    | cons h t => exact .cons ⟨h, rfl⟩ (zip_lands t)

theorem adjust_zip {x : List K} {lo hi : K} (h1 : x.min? = some lo) (h2 : x.max? = some hi)
    {pts : List (K × K)} (hne : pts ≠ []) {l : List K} (e : adjustOTIS lo hi (pts.map Prod.fst) = .ok l) :
    adjust true false x pts = .ok (l.zip (pts.map Prod.snd)) := by
  unfold adjust
  obtain ⟨mx, h3, -⟩ := exists_max (pts.map Prod.fst) (by simpa using hne)
  rw [h1, h2, h3]
  simp only [Bool.true_eq_false, if_false, Bool.false_eq_true]
  rw [e, ok_bind]

/-- What the adjustment does for a global model. -/
theorem adjust_lands {s : Site K} {a : K} (h : Around s a) {m : Method} {node : Node} {pts : List (K × K)}
    (hne : pts ≠ []) {l : List K}
    (e : adjustOTIS a (a + 360 - 360 / (s.x.length : K)) (pts.map Prod.fst) = .ok l)
    (hl : List.Forall₂ (fun v v' => SameMeridian 360 v v' ∧ a - 360 / (s.x.length : K) ≤ v' ∧
      v' ≤ a + 360 - half node (360 / (s.x.length : K)) ∧
      (m = .bilinear → v' < a + 360 - half node (360 / (s.x.length : K)))) (pts.map Prod.fst) l) :
    ∃ pts', adjust true false s.x pts = .ok pts' ∧
      List.Forall₂ (Lands m node a (360 / (s.x.length : K))) pts pts' := by
  have ev := h.even (List.replicate s.y.length (List.replicate s.x.length ⟨0, 0, false⟩))
    ⟨List.length_replicate, fun r hr => by rw [List.eq_of_mem_replicate hr, List.length_replicate]⟩
  exact ⟨_, adjust_zip ev.min ev.max hne e,
    (zip_lands hl).imp fun p p' h => ⟨h.1.1, h.2, h.1.2.1, h.1.2.2.1, h.1.2.2.2⟩⟩

theorem Around.step0 {s : Site K} {a : K} (h : Around s a) :
    (0 : K) < 360 / (s.x.length : K) ∧ 360 / (s.x.length : K) ≤ 120 := by
  have h3 := h.three
  have c3 : (3 : K) ≤ (s.x.length : K) := by exact_mod_cast h3
  have n0 : (0 : K) < (s.x.length : K) := by linarith
  refine ⟨by positivity, ?_⟩
  rw [div_le_iff₀ n0]
  linarith

theorem half_bounds (node : Node) {d : K} (h : 0 < d) : 0 ≤ half node d ∧ half node d ≤ d / 2 := by
  unfold half
  split_ifs <;> constructor <;> linarith

/-- Longitudes for a model that starts at the Greenwich meridian, none of them beyond the last
column. -/
theorem adjust_positive {s : Site K} {a : K} (h : Around s a) (a0 : 0 ≤ a) (a1 : a ≤ 360 / (s.x.length : K))
    {m : Method} (node : Node) {pts : List (K × K)} (hne : pts ≠ []) (hp : ∀ p ∈ pts, Span m p)
    (hin : ∀ p ∈ pts, toPositive p.1 ≤ a + 360 - 360 / (s.x.length : K)) :
    ∃ pts', adjust true false s.x pts = .ok pts' ∧
      List.Forall₂ (Lands m node a (360 / (s.x.length : K))) pts pts' := by
  obtain ⟨d0, d1⟩ := h.step0
  obtain ⟨b0, b1⟩ := half_bounds node d0
  refine adjust_lands h hne (C15_otis_pointwise_positive_partial a _ a0 (pts.map Prod.fst) (by simpa using hne) ?_) ?_
  · intro v hv
    obtain ⟨p, hp', rfl⟩ := List.mem_map.1 hv
    exact hin p hp'
  · rw [List.forall₂_map_right_iff, List.forall₂_same]
    intro v hv
    obtain ⟨p, hp', rfl⟩ := List.mem_map.1 hv
    have hs := hp p hp'
    have hi := hin p hp'
    have n0 : 0 ≤ toPositive p.1 := by
      unfold toPositive
      have := hs.west
      split_ifs <;> linarith
    exact ⟨toPositive_same p.1, by linarith, by linarith, fun _ => by linarith⟩

/-- One longitude for a model that starts at the Greenwich meridian. -/
theorem adjust_single {s : Site K} {a : K} (h : Around s a) (a0 : 0 ≤ a) (a1 : a ≤ 360 / (s.x.length : K))
    {m : Method} (node : Node) {p : K × K} (hp : Span m p) :
    ∃ pts', adjust true false s.x [p] = .ok pts' ∧
      List.Forall₂ (Lands m node a (360 / (s.x.length : K))) [p] pts' := by
  obtain ⟨d0, d1⟩ := h.step0
  obtain ⟨b0, b1⟩ := half_bounds node d0
  obtain ⟨w, hw⟩ : ∃ w, w = if p.1 < a then toPositive p.1 else p.1 := ⟨_, rfl⟩
  obtain ⟨w', hw'⟩ : ∃ w', w' = if w > a + 360 - 360 / (s.x.length : K) then toSigned w else w := ⟨_, rfl⟩
  have e : adjustOTIS a (a + 360 - 360 / (s.x.length : K)) [p.1] = .ok [w'] := by
    unfold adjustOTIS
    simp only [List.min?_singleton]
    have : (if p.1 < a then [p.1].map (fun v => if v < 0 then v + 360 else v) else [p.1]) = [w] := by
      rw [hw]
      unfold toPositive
      by_cases g : p.1 < a
      · rw [if_pos g, if_pos g]; rfl
      · rw [if_neg g, if_neg g]
    rw [this]
    simp only [List.max?_singleton, hw']
    unfold toSigned
    by_cases g : w > a + 360 - 360 / (s.x.length : K)
    · rw [if_pos g, if_pos g]; rfl
    · rw [if_neg g, if_neg g]
  have s1 : SameMeridian 360 p.1 w := by
    rw [hw]
    split_ifs
    · exact toPositive_same _
    · exact ⟨0, by simp⟩
  have s2 : SameMeridian 360 w w' := by
    rw [hw']
    split_ifs
    · exact toSigned_same _
    · exact ⟨0, by simp⟩
  have w0 : 0 ≤ w ∧ w ≤ 360 := by
    have := hp.west
    have := hp.east
    rw [hw]
    unfold toPositive
    split_ifs <;> constructor <;> linarith
  have r : a - 360 / (s.x.length : K) ≤ w' ∧ w' < a + 360 - half node (360 / (s.x.length : K)) := by
    rw [hw']
    by_cases g : w > a + 360 - 360 / (s.x.length : K)
    · rw [if_pos g]
      unfold toSigned
      rw [if_pos (by linarith)]
      constructor <;> linarith [w0.2]
    · rw [if_neg g]
      constructor <;> linarith [w0.1]
  exact adjust_lands h (by simp) e (.cons ⟨SameMeridian.trans' s1 s2, r.1, r.2.le, fun _ => r.2⟩ .nil)

/-- Longitudes for a model that starts at the antimeridian. -/
theorem adjust_signed {s : Site K} {a : K} (h : Around s a) {node : Node}
    (a0 : -180 + half node (360 / (s.x.length : K)) ≤ a) (a1 : a ≤ -180 + 360 / (s.x.length : K))
    {m : Method} {pts : List (K × K)} (hne : pts ≠ []) (hp : ∀ p ∈ pts, Span m p) :
    ∃ pts', adjust true false s.x pts = .ok pts' ∧
      List.Forall₂ (Lands m node a (360 / (s.x.length : K))) pts pts' := by
  obtain ⟨d0, d1⟩ := h.step0
  obtain ⟨b0, b1⟩ := half_bounds node d0
  -- every result lies between -180 and 180
  have key : ∃ l, adjustOTIS a (a + 360 - 360 / (s.x.length : K)) (pts.map Prod.fst) = .ok l ∧
      List.Forall₂ (fun v v' => SameMeridian 360 v v' ∧ -180 ≤ v' ∧ v' ≤ 180 ∧ (v' = 180 → v = 180 ∨ v = -180))
        (pts.map Prod.fst) l := by
    have hx : pts.map Prod.fst ≠ [] := by simpa using hne
    have hr : ∀ v ∈ pts.map Prod.fst, -180 ≤ v ∧ v ≤ 360 := by
      intro v hv
      obtain ⟨p, hp', rfl⟩ := List.mem_map.1 hv
      exact ⟨(hp p hp').west, (hp p hp').east⟩
    generalize pts.map Prod.fst = x at hx hr
    obtain ⟨mn, h1, hm, hmin⟩ := exists_min x hx
    unfold adjustOTIS
    rw [h1]
    simp only
    by_cases hlo : mn < a
    · rw [if_pos hlo]
      obtain ⟨mx, h2, hmx, hmax⟩ := exists_max (x.map (fun v => if v < 0 then v + 360 else v)) (by simpa using hx)
      rw [h2]
      simp only
      by_cases hhi : mx > a + 360 - 360 / (s.x.length : K)
      · rw [if_pos hhi, List.map_map]
        refine ⟨_, rfl, ?_⟩
        rw [List.forall₂_map_right_iff, List.forall₂_same]
        intro v hv
        obtain ⟨v1, v2⟩ := hr v hv
        refine ⟨SameMeridian.trans' (toPositive_same v) (toSigned_same _), ?_⟩
        simp only [Function.comp]
        by_cases n : v < 0
        · rw [if_pos n]
          by_cases g : v + 360 > 180
          · rw [if_pos g]
            exact ⟨by linarith, by linarith, fun e => by linarith⟩
          · rw [if_neg g]
            exact ⟨by linarith, by linarith, fun e => Or.inr (by linarith)⟩
        · rw [if_neg n]
          by_cases g : v > 180
          · rw [if_pos g]
            exact ⟨by linarith, by linarith, fun e => by linarith⟩
          · rw [if_neg g]
            exact ⟨by linarith, by linarith, fun e => Or.inl e⟩
      · rw [if_neg hhi]
        refine ⟨_, rfl, ?_⟩
        rw [List.forall₂_map_right_iff, List.forall₂_same]
        intro v hv
        obtain ⟨v1, v2⟩ := hr v hv
        refine ⟨toPositive_same v, ?_⟩
        have := hmax _ (List.mem_map_of_mem (f := fun v => if v < 0 then v + 360 else v) hv)
        by_cases n : v < 0
        · rw [if_pos n] at this ⊢
          exact ⟨by linarith, by linarith, fun e => Or.inr (by linarith)⟩
        · rw [if_neg n] at this ⊢
          exact ⟨by linarith, by linarith, fun e => Or.inl e⟩
    · rw [if_neg hlo]
      obtain ⟨mx, h2, hmx, hmax⟩ := exists_max x hx
      rw [h2]
      simp only
      by_cases hhi : mx > a + 360 - 360 / (s.x.length : K)
      · rw [if_pos hhi]
        refine ⟨_, rfl, ?_⟩
        rw [List.forall₂_map_right_iff, List.forall₂_same]
        intro v hv
        obtain ⟨v1, v2⟩ := hr v hv
        refine ⟨toSigned_same v, ?_⟩
        by_cases g : v > 180
        · rw [if_pos g]
          exact ⟨by linarith, by linarith, fun e => by linarith⟩
        · rw [if_neg g]
          exact ⟨by linarith, by linarith, fun e => Or.inl e⟩
      · rw [if_neg hhi]
        refine ⟨_, rfl, ?_⟩
        rw [List.forall₂_same]
        intro v hv
        have := hmax v hv
        exact ⟨⟨0, by simp⟩, (hr v hv).1, by linarith, fun e => Or.inl e⟩
  obtain ⟨l, e, hl⟩ := key
  refine adjust_lands h hne e ((forall₂_mem hl).imp fun v v' hv => ?_)
  obtain ⟨hm, hs, v1, v2, v3⟩ := hv
  refine ⟨hs, by linarith, by linarith, fun hb => ?_⟩
  obtain ⟨p, hp', rfl⟩ := List.mem_map.1 hm
  have := (hp p hp').strict hb
  have : v' ≠ 180 := fun e => (v3 e).elim this.1 this.2
  have : v' < 180 := lt_of_le_of_ne v2 this
  linarith

/-! ## Extraction from a global model -/

/-- Latitudes between the first latitude of the model and the last of the quantity. -/
structure Band (m : Method) (node : Node) (y : List K) (p : K × K) : Prop where
  south : y.getD 0 0 ≤ p.2
  north : p.2 ≤ y.getD (y.length - 1) 0 - low node (y.getD 1 0 - y.getD 0 0)
  strict : m = .bilinear → y.getD 0 0 < p.2 ∧ p.2 < y.getD (y.length - 1) 0 - low node (y.getD 1 0 - y.getD 0 0)

theorem rows_inside {y : List K} (inc : y.Pairwise (· < ·)) (two : 2 ≤ y.length) (node : Node) :
    (nodeY node (y.getD 1 0 - y.getD 0 0) y).getD 0 0 ≤ y.getD 0 0 ∧
      (nodeY node (y.getD 1 0 - y.getD 0 0) y).getD ((nodeY node (y.getD 1 0 - y.getD 0 0) y).length - 1) 0 =
        y.getD (y.length - 1) 0 - low node (y.getD 1 0 - y.getD 0 0) ∧
      0 ≤ low node (y.getD 1 0 - y.getD 0 0) := by
  have d : 0 < y.getD 1 0 - y.getD 0 0 := by
    have := List.pairwise_iff_getElem.1 inc 0 1 (by omega) (by omega) (by omega)
    simp only [List.getD_eq_getElem?_getD]
    rw [List.getElem?_eq_getElem (show 0 < y.length by omega), List.getElem?_eq_getElem (show 1 < y.length by omega)]
    simp only [Option.getD_some]
    linarith
  rw [nodeY_length, nodeY_getD _ _ _ _ (by omega), nodeY_getD _ _ _ _ (by omega)]
  unfold low
  split_ifs <;> refine ⟨by linarith, by linarith, by linarith⟩

theorem cols_range {s : Site K} {a : K} (h : Around s a) (node : Node) {x : List K}
    (hx : x = uniform (a - 360 / (s.x.length : K)) (360 / (s.x.length : K)) (s.x.length + 2)) :
    (nodeX node (360 / (s.x.length : K)) x).getD 0 0 =
        a - 360 / (s.x.length : K) - half node (360 / (s.x.length : K)) ∧
      (nodeX node (360 / (s.x.length : K)) x).getD ((nodeX node (360 / (s.x.length : K)) x).length - 1) 0 =
        a + 360 - half node (360 / (s.x.length : K)) ∧
      x.getD 0 0 = a - 360 / (s.x.length : K) ∧ x.getD (x.length - 1) 0 = a + 360 ∧
      ∀ c : ℕ, c < (nodeX node (360 / (s.x.length : K)) x).length →
        a - 360 / (s.x.length : K) - half node (360 / (s.x.length : K)) ≤
          (nodeX node (360 / (s.x.length : K)) x).getD c 0 ∧
        (nodeX node (360 / (s.x.length : K)) x).getD c 0 ≤ a + 360 - half node (360 / (s.x.length : K)) := by
  have h3 := h.three
  obtain ⟨d0, -⟩ := h.step0
  have n0 : (0 : K) < (s.x.length : K) := Nat.cast_pos.2 (by omega)
  have turn : (s.x.length : K) * (360 / (s.x.length : K)) = 360 := mul_div_cancel₀ _ n0.ne'
  have len : x.length = s.x.length + 2 := by rw [hx]; simp [uniform]
  have val : ∀ c : ℕ, c < s.x.length + 2 →
      x.getD c 0 = a - 360 / (s.x.length : K) + (c : K) * (360 / (s.x.length : K)) := by
    intro c hc
    rw [hx, uniform_getD _ _ _ _ hc]
  have nval : ∀ c : ℕ, c < s.x.length + 2 → (nodeX node (360 / (s.x.length : K)) x).getD c 0 =
      a - 360 / (s.x.length : K) + (c : K) * (360 / (s.x.length : K)) - half node (360 / (s.x.length : K)) := by
    intro c hc
    rw [nodeX_getD _ _ _ _ (by omega), val c hc]
    unfold half
    split_ifs <;> ring
  rw [nodeX_length, len]
  refine ⟨?_, ?_, ?_, ?_, ?_⟩
  · rw [nval 0 (by omega)]; push_cast; ring
  · rw [nval _ (by omega), show s.x.length + 2 - 1 = s.x.length + 1 by omega]
    push_cast
    linear_combination turn
  · rw [val 0 (by omega)]; push_cast; ring
  · rw [val _ (by omega), show s.x.length + 2 - 1 = s.x.length + 1 by omega]
    push_cast
    linear_combination turn
  · intro c hc
    rw [nval c hc]
    have c0 : (0 : K) ≤ (c : K) := Nat.cast_nonneg c
    have c1 : (c : K) ≤ (s.x.length : K) + 1 := by exact_mod_cast (show c ≤ s.x.length + 1 by omega)
    have p1 : 0 ≤ (c : K) * (360 / (s.x.length : K)) := mul_nonneg c0 d0.le
    have p2 : (c : K) * (360 / (s.x.length : K)) ≤ ((s.x.length : K) + 1) * (360 / (s.x.length : K)) :=
      mul_le_mul_of_nonneg_right c1 d0.le
    constructor <;> linarith

theorem lands_inside {s : Site K} {a : K} (h : Around s a) {m : Method} {node : Node} {p p' : K × K} {x : List K}
    (hx : x = uniform (a - 360 / (s.x.length : K)) (360 / (s.x.length : K)) (s.x.length + 2))
    (hl : Lands m node a (360 / (s.x.length : K)) p p') (hb : Band m node s.y p) :
    Inside m (nodeX node (360 / (s.x.length : K)) x) (nodeY node (s.y.getD 1 0 - s.y.getD 0 0) s.y) p' ∧
      outside x s.y p' = .ok false := by
  obtain ⟨x0, x1, y0, y1, -⟩ := cols_range h node hx
  obtain ⟨r0, r1, r2⟩ := rows_inside h.asc.2 h.two' node
  obtain ⟨b0, b1⟩ := half_bounds node h.step0.1
  have inc : x.Pairwise (· < ·) := by rw [hx]; exact uniform_increasing _ _ h.step0.1 _
  have len : 2 ≤ x.length := by rw [hx]; simp [uniform]
  refine ⟨⟨?_, ?_, ?_, ?_, fun e => ⟨?_, ?_, ?_⟩⟩, ?_⟩
  · rw [x0]; linarith [hl.west]
  · rw [x1]; exact hl.east
  · rw [hl.lat]; exact le_trans r0 hb.south
  · rw [hl.lat, r1]; exact hb.north
  · rw [x1]; exact hl.strict e
  · rw [hl.lat]; exact lt_of_le_of_lt r0 (hb.strict e).1
  · rw [hl.lat, r1]; exact (hb.strict e).2
  · refine Inside.outside (m := .spline) ⟨inc, h.asc.2⟩ len h.two' ⟨?_, ?_, ?_, ?_, fun e => by cases e⟩
    · rw [y0]; exact hl.west
    · rw [y1]; linarith [hl.east]
    · rw [hl.lat]; exact hb.south
    · rw [hl.lat]; linarith [hb.north]

/-- Extraction once the longitudes are adjusted. -/
theorem extract_lands {s : Site K} {a : K} (h : Around s a) (r : Ask K) (hg : r.geographic = true)
    (hr : r.crop = false) (hn : ∀ x y hc q, r.near x y hc q = none)
    (hq : r.quantity.speed = true → r.quantity.node ≠ .z) (start : -180 ≤ a ∧ a ≤ 360)
    (fields : List (List (List (Fld K)))) (hf : ∀ hc ∈ fields, CGrid.Shape hc s.y.length s.x.length ∧
      Complete r.method false (world s a) r.quantity.node.points (worldValue s hc))
    {pts pts' : List (K × K)} (hne : pts ≠ []) (ha : adjust true false s.x pts = .ok pts')
    (hl : List.Forall₂ (Lands r.method r.quantity.node a (360 / (s.x.length : K))) pts pts')
    (hb : ∀ p ∈ pts, Band r.method r.quantity.node s.y p) :
    ∃ ds outs, extract r s fields pts = .ok (ds, outs) ∧
      List.Forall₂ (Sounds r.method ((world s a).depths r.quantity.node.points)) pts ds ∧
      List.Forall₂ (fun hc os => List.Forall₂ (Agrees r.method r.quantity.speed
        ((world s a).chart r.quantity.node.points (worldValue s hc))
        ((world s a).depths r.quantity.node.points)) pts os) fields outs := by
  obtain ⟨f, ef, fx, fy, fnx, fny, sb, cons⟩ := global_frame h r.quantity.node false
  obtain ⟨d0, d1⟩ := h.step0
  obtain ⟨b0, b1⟩ := half_bounds r.quantity.node d0
  have rd : ((world s a).depths r.quantity.node.points).Round s.x.length :=
    world_round h r.quantity.node.points _ (water_round r.quantity.node.points)
  have hin : ∀ q ∈ pts', Inside r.method f.nx f.ny q ∧ outside f.x f.y q = .ok false := by
    intro q hq
    obtain ⟨p, hp, l⟩ := forall₂_right hl q hq
    rw [fnx, fny, fy]
    exact lands_inside h fx l (hb p hp)
  have far : r.method = .bilinear → ∀ c : ℕ, c < f.nx.length → |f.nx.getD c 0| ≤ 720 := by
    intro _ c hc
    rw [fnx] at hc ⊢
    obtain ⟨-, -, -, -, rng⟩ := cols_range h r.quantity.node fx
    have := rng c hc
    rw [abs_le]
    constructor <;> linarith [this.1, this.2]
  obtain ⟨ds, ed, sd⟩ := depths_sound sb r.method far fun q hq => (hin q hq).1
  have key : ∀ hc ∈ fields, ∃ os, (do
      let hc ← constituent r.geographic none s.x s.y f hc
      evaluate r.method r.near r.quantity.speed false f.x f.y f.nx f.ny f.bath hc pts') = .ok os ∧
      List.Forall₂ (Agrees r.method r.quantity.speed
        ((world s a).chart r.quantity.node.points (worldValue s hc))
        ((world s a).depths r.quantity.node.points)) pts os := by
    intro hc hm
    obtain ⟨sh, co⟩ := hf hc hm
    obtain ⟨hc', e, st⟩ := cons hc sh
    obtain ⟨os, eo, ao⟩ := evaluate_agrees st sb r.method r.near hn r.quantity.speed false co
      (fun e => depths_positive _ (hq e)) far hin
    refine ⟨os, by rw [hg, e, ok_bind, eo], forall₂_trans hl ao fun p q o l a' => ?_⟩
    have := a'
    rw [show q = (q.1, p.2) from Prod.ext rfl l.lat] at this
    exact this.turn (world_round h _ _ (worldValue_round s hc)) rd l.same
  obtain ⟨outs, eo, ao⟩ := pyMap_rel key
  refine ⟨ds, outs, ?_, forall₂_trans hl sd fun p q o l s' => ?_, ao⟩
  · have hx : pts.map Prod.fst ≠ [] := by simpa using hne
    have hy : pts.map Prod.snd ≠ [] := by simpa using hne
    obtain ⟨m1, e1, -⟩ := exists_min _ hx
    obtain ⟨m2, e2, -⟩ := exists_max _ hx
    obtain ⟨m3, e3, -⟩ := exists_min _ hy
    obtain ⟨m4, e4, -⟩ := exists_max _ hy
    have reg : r.region (360 / (s.x.length : K)) pts = .ok none := by
      unfold Ask.region
      rw [e1, e2, e3, e4]
      simp [hr]
    unfold extract
    rw [h.step, ok_bind, step_getD h.two', ok_bind, reg, ok_bind]
    simp only [cropIf]
    rw [ok_bind]
    dsimp only
    rw [ok_bind]
    dsimp only
    rw [hg] at eo ⊢
    rw [show (none : Region K).isSome = false from rfl, ha, ok_bind, ef, ok_bind, ed, ok_bind]
    simp only [aliased]
    rw [ok_bind, eo, ok_bind]
  · have := s'
    rw [show q = (q.1, p.2) from Prod.ext rfl l.lat] at this
    exact this.turn rd l.same

/-- **C73**, for one place: the constants a global model gives are the interpolation of the field in
its files at the points of the quantity, and the depth is the interpolation of the depths there. -/
theorem C73_place {s : Site K} {a : K} (h : Around s a) (r : Ask K) (hg : r.geographic = true)
    (hr : r.crop = false) (hn : ∀ x y hc q, r.near x y hc q = none)
    (hq : r.quantity.speed = true → r.quantity.node ≠ .z)
    (start : (0 ≤ a ∧ a ≤ 360 / (s.x.length : K)) ∨
      (-180 + half r.quantity.node (360 / (s.x.length : K)) ≤ a ∧ a ≤ -180 + 360 / (s.x.length : K)))
    (fields : List (List (List (Fld K)))) (hf : ∀ hc ∈ fields, CGrid.Shape hc s.y.length s.x.length ∧
      Complete r.method false (world s a) r.quantity.node.points (worldValue s hc))
    (p : K × K) (hs : Span r.method p) (hb : Band r.method r.quantity.node s.y p) :
    ∃ d outs, extract r s fields [p] = .ok ([d], outs) ∧
      Sounds r.method ((world s a).depths r.quantity.node.points) p d ∧
      List.Forall₂ (fun hc os => ∃ o, os = [o] ∧ Agrees r.method r.quantity.speed
        ((world s a).chart r.quantity.node.points (worldValue s hc))
        ((world s a).depths r.quantity.node.points) p o) fields outs := by
  have hb' : ∀ q ∈ [p], Band r.method r.quantity.node s.y q := by simpa using hb
  have hs' : ∀ q ∈ [p], Span r.method q := by simpa using hs
  obtain ⟨d0, d1⟩ := h.step0
  obtain ⟨b0, b1⟩ := half_bounds r.quantity.node d0
  have main : ∃ ds outs, extract r s fields [p] = .ok (ds, outs) ∧
      List.Forall₂ (Sounds r.method ((world s a).depths r.quantity.node.points)) [p] ds ∧
      List.Forall₂ (fun hc os => List.Forall₂ (Agrees r.method r.quantity.speed
        ((world s a).chart r.quantity.node.points (worldValue s hc))
        ((world s a).depths r.quantity.node.points)) [p] os) fields outs := by
    rcases start with ⟨a0, a1⟩ | ⟨a0, a1⟩
    · obtain ⟨pts', e, l⟩ := adjust_single h a0 a1 r.quantity.node hs
      exact extract_lands h r hg hr hn hq ⟨by linarith, by linarith⟩ fields hf (by simp) e l hb'
    · obtain ⟨pts', e, l⟩ := adjust_signed h a0 a1 (by simp) hs'
      exact extract_lands h r hg hr hn hq ⟨by linarith, by linarith⟩ fields hf (by simp) e l hb'
  obtain ⟨ds, outs, e, sd, ao⟩ := main
  cases sd with
  | cons sd t =>
    cases t
    refine ⟨_, outs, e, sd, ao.imp fun hc os h => ?_⟩
    cases h with
    | cons h t => cases t; exact ⟨_, rfl, h⟩

/-- **C73**, for any number of places; for a model that starts at the Greenwich meridian only if none
of them lies beyond its last column (see `C73_batch_false`). -/
theorem C73_places_partial {s : Site K} {a : K} (h : Around s a) (r : Ask K) (hg : r.geographic = true)
    (hr : r.crop = false) (hn : ∀ x y hc q, r.near x y hc q = none)
    (hq : r.quantity.speed = true → r.quantity.node ≠ .z)
    (fields : List (List (List (Fld K)))) (hf : ∀ hc ∈ fields, CGrid.Shape hc s.y.length s.x.length ∧
      Complete r.method false (world s a) r.quantity.node.points (worldValue s hc))
    (pts : List (K × K)) (hne : pts ≠ []) (hs : ∀ p ∈ pts, Span r.method p)
    (hb : ∀ p ∈ pts, Band r.method r.quantity.node s.y p)
    (start : (0 ≤ a ∧ a ≤ 360 / (s.x.length : K) ∧
        ∀ p ∈ pts, toPositive p.1 ≤ a + 360 - 360 / (s.x.length : K)) ∨
      (-180 + half r.quantity.node (360 / (s.x.length : K)) ≤ a ∧ a ≤ -180 + 360 / (s.x.length : K))) :
    ∃ ds outs, extract r s fields pts = .ok (ds, outs) ∧
      List.Forall₂ (Sounds r.method ((world s a).depths r.quantity.node.points)) pts ds ∧
      List.Forall₂ (fun hc os => List.Forall₂ (Agrees r.method r.quantity.speed
        ((world s a).chart r.quantity.node.points (worldValue s hc))
        ((world s a).depths r.quantity.node.points)) pts os) fields outs := by
  obtain ⟨d0, d1⟩ := h.step0
  obtain ⟨b0, b1⟩ := half_bounds r.quantity.node d0
  rcases start with ⟨a0, a1, hin⟩ | ⟨a0, a1⟩
  · obtain ⟨pts', e, l⟩ := adjust_positive h a0 a1 r.quantity.node hne hs hin
    exact extract_lands h r hg hr hn hq ⟨by linarith, by linarith⟩ fields hf hne e l hb
  · obtain ⟨pts', e, l⟩ := adjust_signed h a0 a1 hne hs
    exact extract_lands h r hg hr hn hq ⟨by linarith, by linarith⟩ fields hf hne e l hb

/-! ## Regional models -/

/-- The model is not global. -/
def Partial (s : Site K) (geographic exact : Bool) : Prop :=
  geographic = false ∨ (if exact then s.x.getD (s.x.length - 1) 0 - s.x.getD 0 0 ≠
      360 - (s.x.getD 1 0 - s.x.getD 0 0) else
    Interp.isclose (s.x.getD (s.x.length - 1) 0 - s.x.getD 0 0) (360 - (s.x.getD 1 0 - s.x.getD 0 0)) = false)

/-- What is computed for a model that is not global. -/
theorem regional_frame {s : Site K} (h : Rect s) (node : Node) {geographic exact : Bool}
    (hg : Partial s geographic exact) :
    frame exact geographic node (s.x.getD 1 0 - s.x.getD 0 0) (s.y.getD 1 0 - s.y.getD 0 0) s.x s.y s.hz
      s.sea = .ok ⟨s.x, s.y, nodeX node (s.x.getD 1 0 - s.x.getD 0 0) s.x,
        nodeY node (s.y.getD 1 0 - s.y.getD 0 0) s.y, bare node false s.hz s.sea, false⟩ := by
  have h2 := h.two
  have h2' := h.two'
  have hd := depths_eq node false (show 0 < s.y.length by omega) (show 0 < s.x.length by omega) h.depths h.mask
  have first : s.x.head? = some (s.x.getD 0 0) := by
    rw [List.head?_eq_getElem?, List.getD_eq_getElem?_getD, List.getElem?_eq_getElem (show 0 < s.x.length by omega)]
    rfl
  have last : s.x.getLast? = some (s.x.getD (s.x.length - 1) 0) := by
    rw [List.getLast?_eq_getElem?, List.getD_eq_getElem?_getD,
      List.getElem?_eq_getElem (show s.x.length - 1 < s.x.length by omega)]
    rfl
  unfold frame
  rw [first, last]
  simp only
  have g : (geographic && (if exact then decide (s.x.getD (s.x.length - 1) 0 - s.x.getD 0 0 =
      360 - (s.x.getD 1 0 - s.x.getD 0 0)) else Interp.isclose (s.x.getD (s.x.length - 1) 0 - s.x.getD 0 0)
        (360 - (s.x.getD 1 0 - s.x.getD 0 0)))) = false := by
    rcases hg with rfl | e
    · rfl
    · cases exact with
      | false =>
        simp only [Bool.false_eq_true, if_false] at e ⊢
        rw [e, Bool.and_false]
      | true =>
        simp only [if_true] at e ⊢
        rw [decide_eq_false e, Bool.and_false]
  rw [g]
  simp only [Bool.false_eq_true, if_false]
  rw [ok_bind, hd.1]
  rfl

theorem regional_shows {s : Site K} (h : Rect s) (node : Node) (rim : Rim s false (region s) node)
    {geographic exact : Bool} (hg : Partial s geographic exact) :
    ∃ f, frame exact geographic node (s.x.getD 1 0 - s.x.getD 0 0) (s.y.getD 1 0 - s.y.getD 0 0) s.x s.y s.hz
        s.sea = .ok f ∧ f.x = s.x ∧ f.y = s.y ∧
      f.nx = nodeX node (s.x.getD 1 0 - s.x.getD 0 0) s.x ∧ f.ny = nodeY node (s.y.getD 1 0 - s.y.getD 0 0) s.y ∧
      Shows f.nx f.ny f.bath ((region s).depths node.points) 0 0 ∧
      ∀ hc, CGrid.Shape hc s.y.length s.x.length → ∃ hc', constituent geographic none s.x s.y f hc = .ok hc' ∧
        Shows f.nx f.ny hc' ((region s).chart node.points (regionValue hc)) 0 0 :=
  ⟨_, regional_frame h node hg, rfl, rfl, rfl, rfl, bare_shows h.reads rim, fun _ sh =>
    ⟨_, by
      have hd := depths_eq node false (lt_of_lt_of_le (by decide) h.two') (lt_of_lt_of_le (by decide) h.two) h.depths h.mask
      unfold constituent cropIf extendIf
      simp only [Bool.false_eq_true, if_false]
      rw [ok_bind, ok_bind, if_pos (shape_lengths sh hd.2)]
      rfl, masked_shows h.reads rim (region_holds sh)⟩⟩

/-- A place between the first and last points of a region, for the elevations and for the quantity. -/
structure Within (m : Method) (node : Node) (x : List K) (p : K × K) : Prop where
  west : x.getD 0 0 ≤ p.1
  east : p.1 ≤ x.getD (x.length - 1) 0 - half node (x.getD 1 0 - x.getD 0 0)
  strict : m = .bilinear → p.1 < x.getD (x.length - 1) 0 - half node (x.getD 1 0 - x.getD 0 0)

theorem cols_inside {x : List K} (inc : x.Pairwise (· < ·)) (two : 2 ≤ x.length) (node : Node) :
    (nodeX node (x.getD 1 0 - x.getD 0 0) x).getD 0 0 ≤ x.getD 0 0 ∧
      (nodeX node (x.getD 1 0 - x.getD 0 0) x).getD ((nodeX node (x.getD 1 0 - x.getD 0 0) x).length - 1) 0 =
        x.getD (x.length - 1) 0 - half node (x.getD 1 0 - x.getD 0 0) ∧
      0 ≤ half node (x.getD 1 0 - x.getD 0 0) := by
  have d : 0 < x.getD 1 0 - x.getD 0 0 := by
    have := List.pairwise_iff_getElem.1 inc 0 1 (by omega) (by omega) (by omega)
    simp only [List.getD_eq_getElem?_getD]
    rw [List.getElem?_eq_getElem (show 0 < x.length by omega), List.getElem?_eq_getElem (show 1 < x.length by omega)]
    simp only [Option.getD_some]
    linarith
  rw [nodeX_length, nodeX_getD _ _ _ _ (by omega), nodeX_getD _ _ _ _ (by omega)]
  unfold half
  split_ifs <;> refine ⟨by linarith, by linarith, by linarith⟩

/-- Places between the first and last column are not moved. -/
theorem adjust_within {x : List K} (inc : x.Pairwise (· < ·)) (two : 2 ≤ x.length) (geographic : Bool)
    {pts : List (K × K)} (hne : pts ≠ []) (hp : ∀ p ∈ pts, x.getD 0 0 ≤ p.1 ∧ p.1 ≤ x.getD (x.length - 1) 0) :
    adjust geographic false x pts = .ok pts := by
  have hx : pts.map Prod.fst ≠ [] := by simpa using hne
  obtain ⟨mn, e1, m1, -⟩ := exists_min _ hx
  obtain ⟨mx, e2, m2, -⟩ := exists_max _ hx
  obtain ⟨p1, q1, rfl⟩ := List.mem_map.1 m1
  obtain ⟨p2, q2, rfl⟩ := List.mem_map.1 m2
  unfold adjust
  rw [min?_increasing inc two, max?_increasing inc two, e2]
  simp only
  cases geographic with
  | false => rfl
  | true =>
    have : adjustOTIS (x.getD 0 0) (x.getD (x.length - 1) 0) (pts.map Prod.fst) = .ok (pts.map Prod.fst) := by
      unfold adjustOTIS
      rw [e1]
      simp only
      rw [if_neg (not_lt.2 (hp p1 q1).1), e2]
      simp only
      rw [if_neg (not_lt.2 (hp p2 q2).2)]
    simp only [Bool.true_eq_false, if_false, Bool.false_eq_true]
    rw [this, ok_bind, ← List.unzip_fst, ← List.unzip_snd, List.zip_unzip]

/-- **C73** for a region, in degrees or on a projection: the constants are the interpolation of the
field in the files.  For zonal currents the file must not have a coast in its last column where its
first column is in the sea (see `C73_rim_false`). -/
theorem C73_region_partial {s : Site K} (h : Rect s) (r : Ask K) (hr : r.crop = false)
    (hg : Partial s r.geographic false)
    (hn : ∀ x y hc q, r.near x y hc q = none) (hq : r.quantity.speed = true → r.quantity.node ≠ .z)
    (rim : Rim s false (region s) r.quantity.node)
    (far : r.method = .bilinear → ∀ c : ℕ, c < s.x.length →
      |s.x.getD c 0 - half r.quantity.node (s.x.getD 1 0 - s.x.getD 0 0)| ≤ 720)
    (fields : List (List (List (Fld K)))) (hf : ∀ hc ∈ fields, CGrid.Shape hc s.y.length s.x.length ∧
      Complete r.method false (region s) r.quantity.node.points (regionValue hc))
    (pts : List (K × K)) (hne : pts ≠ []) (hx : ∀ p ∈ pts, Within r.method r.quantity.node s.x p)
    (hb : ∀ p ∈ pts, Band r.method r.quantity.node s.y p) :
    ∃ ds outs, extract r s fields pts = .ok (ds, outs) ∧
      List.Forall₂ (Sounds r.method ((region s).depths r.quantity.node.points)) pts ds ∧
      List.Forall₂ (fun hc os => List.Forall₂ (Agrees r.method r.quantity.speed
        ((region s).chart r.quantity.node.points (regionValue hc))
        ((region s).depths r.quantity.node.points)) pts os) fields outs := by
  obtain ⟨f, ef, fx, fy, fnx, fny, sb, cons⟩ := regional_shows h r.quantity.node rim hg
  obtain ⟨c0, c1, c2⟩ := cols_inside h.asc.1 h.two r.quantity.node
  obtain ⟨r0, r1, r2⟩ := rows_inside h.asc.2 h.two' r.quantity.node
  have hin : ∀ q ∈ pts, Inside r.method f.nx f.ny q ∧ outside f.x f.y q = .ok false := by
    intro q hq
    have w := hx q hq
    have b := hb q hq
    rw [fnx, fny, fx, fy]
    refine ⟨⟨le_trans c0 w.west, by rw [c1]; exact w.east, le_trans r0 b.south, by rw [r1]; exact b.north,
      fun e => ⟨by rw [c1]; exact w.strict e, lt_of_le_of_lt r0 (b.strict e).1, by rw [r1]; exact (b.strict e).2⟩⟩, ?_⟩
    refine Inside.outside (m := .spline) h.asc h.two h.two' ⟨w.west, ?_, b.south, ?_, fun e => by cases e⟩
    · linarith [w.east]
    · linarith [b.north]
  have far' : r.method = .bilinear → ∀ c : ℕ, c < f.nx.length → |f.nx.getD c 0| ≤ 720 := by
    intro hm c hc
    rw [fnx, nodeX_length] at hc
    have := far hm c hc
    rw [fnx, nodeX_getD _ _ _ _ hc]
    unfold half at this
    split_ifs with e
    · rwa [if_pos e] at this
    · rwa [if_neg e, sub_zero] at this
  obtain ⟨ds, ed, sd⟩ := depths_sound sb r.method far' fun q hq => (hin q hq).1
  have key : ∀ hc ∈ fields, ∃ os, (do
      let hc ← constituent r.geographic none s.x s.y f hc
      evaluate r.method r.near r.quantity.speed false f.x f.y f.nx f.ny f.bath hc pts) = .ok os ∧
      List.Forall₂ (Agrees r.method r.quantity.speed
        ((region s).chart r.quantity.node.points (regionValue hc))
        ((region s).depths r.quantity.node.points)) pts os := by
    intro hc hm
    obtain ⟨sh, co⟩ := hf hc hm
    obtain ⟨hc', e, st⟩ := cons hc sh
    obtain ⟨os, eo, ao⟩ := evaluate_agrees st sb r.method r.near hn r.quantity.speed false co
      (fun e => depths_positive _ (hq e)) far' hin
    exact ⟨os, by rw [e, ok_bind, eo], ao⟩
  obtain ⟨outs, eo, ao⟩ := pyMap_rel key
  refine ⟨ds, outs, ?_, sd, ao⟩
  have hx' : pts.map Prod.fst ≠ [] := by simpa using hne
  have hy' : pts.map Prod.snd ≠ [] := by simpa using hne
  obtain ⟨m1, e1, -⟩ := exists_min _ hx'
  obtain ⟨m2, e2, -⟩ := exists_max _ hx'
  obtain ⟨m3, e3, -⟩ := exists_min _ hy'
  obtain ⟨m4, e4, -⟩ := exists_max _ hy'
  have reg : r.region (s.x.getD 1 0 - s.x.getD 0 0) pts = .ok none := by
    unfold Ask.region
    rw [e1, e2, e3, e4]
    simp [hr]
  have ha : adjust r.geographic false s.x pts = .ok pts := adjust_within h.asc.1 h.two r.geographic hne fun p hp =>
    ⟨(hx p hp).west, by linarith [(hx p hp).east]⟩
  unfold extract
  rw [step_getD h.two, ok_bind, step_getD h.two', ok_bind, reg, ok_bind]
  simp only [cropIf]
  rw [ok_bind]
  dsimp only
  rw [ok_bind]
  dsimp only
  rw [show (none : Region K).isSome = false from rfl, ha, ok_bind, ef, ok_bind, ed, ok_bind]
  simp only [aliased]
  rw [ok_bind, eo, ok_bind]

/-- The result for a place outside the axes is masked. -/
theorem evaluate_out {m : Method} {near : Near K} {speed stored : Bool} {ax ay x y : List K}
    {bath hc : List (List (Fld K))} : ∀ {pts : List (K × K)} {outs : List (Out K)},
    evaluate m near speed stored ax ay x y bath hc pts = .ok outs →
      List.Forall₂ (fun q o => outside ax ay q = .ok true → o = .masked) pts outs
  | [], outs, h => by
    unfold evaluate at h
    rw [pyMap] at h
    cases h
    exact .nil
  | q :: pts, outs, h => by
    unfold evaluate at h
    rw [pyMap] at h
    cases e1 : depthAt m x y bath q with
    | error _ => rw [e1] at h; cases h
    | ok d =>
      rw [e1, ok_bind] at h
      cases e2 : constantAt m stored x y hc d q with
      | error _ => rw [e2] at h; cases h
      | ok o =>
        rw [e2, ok_bind] at h
        cases e3 : outside ax ay q with
        | error _ => rw [e3] at h; cases h
        | ok inv =>
          rw [e3, ok_bind] at h
          dsimp only at h
          cases e4 : evaluate m near speed stored ax ay x y bath hc pts with
          | error _ =>
            have e4' := e4
            unfold evaluate at e4'
            rw [e4'] at h
            cases h
          | ok os =>
            have e4' := e4
            unfold evaluate at e4'
            rw [e4'] at h
            cases h
            refine .cons (fun e => ?_) (evaluate_out e4)
            rw [e3] at e
            cases e
            rfl

theorem pyMap_from {α β : Type} {f : α → Except PyErr β} :
    ∀ {l : List α} {r : List β}, pyMap f l = .ok r → ∀ b ∈ r, ∃ a ∈ l, f a = .ok b
  | [], r, h => by
    rw [pyMap] at h
    cases h
    simp
  | a :: l, r, h => by
    rw [pyMap] at h
    cases e : f a with
    | error _ => rw [e] at h; cases h
    | ok b =>
      rw [e] at h
      cases e' : pyMap f l with
      | error _ => rw [e'] at h; cases h
      | ok bs =>
        rw [e'] at h
        cases h
        intro c hc
        rcases List.mem_cons.1 hc with rfl | hc
        · exact ⟨a, by simp, e⟩
        · obtain ⟨a', h1, h2⟩ := pyMap_from e' c hc
          exact ⟨a', by simp [h1], h2⟩

/-- **C73**: a place outside a regional model is masked, whatever the method; with degrees, on no turn
of the globe may it be inside. -/
theorem C73_outside {s : Site K} (h : Rect s) (r : Ask K) (hr : r.crop = false)
    (hg : Partial s r.geographic false)
    (fields : List (List (List (Fld K)))) (pts : List (K × K)) (hne : pts ≠ []) (ds : List (Option K))
    (outs : List (List (Out K))) (he : extract r s fields pts = .ok (ds, outs)) :
    ∀ os ∈ outs, List.Forall₂ (fun p o => (p.2 < s.y.getD 0 0 ∨ s.y.getD (s.y.length - 1) 0 < p.2 ∨
      ∀ x', (x' = p.1 ∨ (r.geographic = true ∧ SameMeridian 360 p.1 x')) →
        x' < s.x.getD 0 0 ∨ s.x.getD (s.x.length - 1) 0 < x') → o = .masked) pts os := by
  obtain ⟨f, ef, fx, fy⟩ : ∃ f, frame false r.geographic r.quantity.node (s.x.getD 1 0 - s.x.getD 0 0)
      (s.y.getD 1 0 - s.y.getD 0 0) s.x s.y s.hz s.sea = .ok f ∧ f.x = s.x ∧ f.y = s.y :=
    ⟨_, regional_frame h r.quantity.node hg, rfl, rfl⟩
  have hx' : pts.map Prod.fst ≠ [] := by simpa using hne
  have hy' : pts.map Prod.snd ≠ [] := by simpa using hne
  obtain ⟨m1, e1, -⟩ := exists_min _ hx'
  obtain ⟨m2, e2, -⟩ := exists_max _ hx'
  obtain ⟨m3, e3, -⟩ := exists_min _ hy'
  obtain ⟨m4, e4, -⟩ := exists_max _ hy'
  have reg : r.region (s.x.getD 1 0 - s.x.getD 0 0) pts = .ok none := by
    unfold Ask.region
    rw [e1, e2, e3, e4]
    simp [hr]
  have ha : ∃ pts', adjust r.geographic false s.x pts = .ok pts' ∧ List.Forall₂ (fun p p' =>
      (p'.1 = p.1 ∨ (r.geographic = true ∧ SameMeridian 360 p.1 p'.1)) ∧ p'.2 = p.2) pts pts' := by
    cases hgeo : r.geographic with
    | false =>
      refine ⟨pts, ?_, List.forall₂_same.2 fun p _ => ⟨Or.inl rfl, rfl⟩⟩
      unfold adjust
      rw [min?_increasing h.asc.1 h.two, max?_increasing h.asc.1 h.two, e2]
      rfl
    | true =>
      obtain ⟨l, el, fl⟩ := C15_otis_same_meridian (s.x.getD 0 0) (s.x.getD (s.x.length - 1) 0) _ hx'
      exact ⟨_, adjust_zip (min?_increasing h.asc.1 h.two) (max?_increasing h.asc.1 h.two) hne el,
        (zip_lands fl).imp fun p p' g => ⟨Or.inr ⟨rfl, g.1⟩, g.2⟩⟩
  obtain ⟨pts', ha, hs⟩ := ha
  unfold extract at he
  rw [step_getD h.two, ok_bind, step_getD h.two', ok_bind, reg, ok_bind] at he
  simp only [cropIf] at he
  rw [ok_bind] at he
  dsimp only at he
  rw [ok_bind] at he
  dsimp only at he
  rw [show (none : Region K).isSome = false from rfl, ha, ok_bind, ef, ok_bind] at he
  cases e5 : pyMap (depthAt r.method f.nx f.ny f.bath) pts' with
  | error _ => rw [e5] at he; cases he
  | ok d =>
    rw [e5, ok_bind] at he
    simp only [aliased] at he
    rw [ok_bind] at he
    cases e6 : pyMap (fun hc => do
        let hc ← constituent r.geographic none s.x s.y f hc
        evaluate r.method r.near r.quantity.speed false f.x f.y f.nx f.ny f.bath hc pts') fields with
    | error _ => rw [e6] at he; cases he
    | ok os' =>
      rw [e6, ok_bind] at he
      cases he
      intro os hos
      obtain ⟨hc, -, e7⟩ := pyMap_from e6 os hos
      cases e8 : constituent r.geographic none s.x s.y f hc with
      | error _ => rw [e8] at e7; cases e7
      | ok hc' =>
        rw [e8, ok_bind] at e7
        refine forall₂_trans hs (evaluate_out e7) fun p q o g1 g2 hout => g2 ?_
        rw [fx, fy]
        refine inside_false (m := .spline) h.asc h.two h.two' ?_
        rcases hout with e | e | e
        · exact Or.inr (Or.inr (Or.inl (by rw [g1.2]; exact e)))
        · exact Or.inr (Or.inr (Or.inr (by rw [g1.2]; exact e)))
        · rcases e q.1 g1.1 with e | e
          · exact Or.inl e
          · exact Or.inr (Or.inl e)

/-! ## Examples and limits -/

/-- A matrix with three rows and twelve columns. -/
def table {α : Type} (f : ℕ → ℕ → α) : List (List α) :=
  (List.range 3).map fun j => (List.range 12).map fun i => f j i

theorem table_shape {α : Type} (f : ℕ → ℕ → α) : CGrid.Shape (table f) 3 12 := by
  refine ⟨by simp [table], fun r hr => ?_⟩
  obtain ⟨j, -, rfl⟩ := List.mem_map.1 hr
  simp

/-- A global ocean with twelve columns, the first at longitude `a`. -/
def ocean (a : ℚ) : Site ℚ :=
  ⟨uniform a 30 12, [-30, 0, 30], table fun j i => (1000 + 100 * i + 10 * j : ℕ), table fun _ _ => true⟩

/-- A field on it. -/
def tide : List (List (Fld ℚ)) := table fun j i => ⟨i + 1, j, false⟩

/-- Ask for elevations or velocities. -/
def ask (node : Node) (m : Method) : Ask ℚ :=
  ⟨⟨node, node ≠ .z⟩, true, m, false, none, none, fun _ _ _ _ => none⟩

theorem ocean_around (a : ℚ) : Around (ocean a) a := by
  have len : (ocean a).x.length = 12 := by simp [ocean, uniform]
  refine ⟨⟨⟨?_, ?_⟩, ?_, ?_, ?_, ?_⟩, ?_, ?_⟩
  · exact uniform_increasing a 30 (by norm_num) 12
  · show List.Pairwise (· < ·) [(-30 : ℚ), 0, 30]
    decide +kernel
  · omega
  · show 2 ≤ 3
    omega
  · rw [len]; exact table_shape _
  · rw [len]; exact table_shape _
  · omega
  · rw [len]
    show uniform a 30 12 = uniform a (360 / ((12 : ℕ) : ℚ)) 12
    norm_num

theorem tide_complete (m : Method) (stored : Bool) (a : ℚ) (p : Points) :
    Complete m stored (world (ocean a) a) p (worldValue (ocean a) tide) := by
  have len : (ocean a).x.length = 12 := by simp [ocean, uniform]
  have val : ∀ j < 3, ∀ i < 12, (Extract.entry tide j i).number = some ((i : ℚ) + 1, (j : ℚ)) := by
    decide +kernel
  have wet : ∀ k j, (world (ocean a) a).Wet p k j → j.toNat < 3 := by
    intro k j h
    by_contra hn
    have d0 : ∀ k, (world (ocean a) a).depth k j = 0 := by
      intro k
      show (((ocean a).hz.getD j.toNat [])).getD _ 0 = 0
      rw [List.getD_eq_getElem?_getD (l := (ocean a).hz), List.getElem?_eq_none (by
        show (table _).length ≤ _
        rw [(table_shape _).1]
        omega)]
      rfl
    cases p with
    | elevation => exact h.2 (d0 k)
    | zonal => exact absurd h.2 (by rw [d0 k]; exact lt_irrefl 0)
    | meridional => exact absurd h.2 (by rw [d0 k]; exact lt_irrefl 0)
  have col : ∀ k : ℤ, (k % (ocean a).x.length).toNat < 12 := by
    intro k
    rw [len]
    omega
  have all : ∀ k j, (world (ocean a) a).Wet p k j → worldValue (ocean a) tide k j =
      some ((((k % (ocean a).x.length).toNat : ℕ) : ℚ) + 1, ((j.toNat : ℕ) : ℚ)) := fun k j h =>
    val _ (wet k j h) _ (col k)
  refine ⟨fun _ k j h => by rw [all k j h]; simp, fun _ k j h e => ?_⟩
  rw [all k j h] at e
  have e1 := (Prod.mk.inj (Option.some.inj e)).1
  have : (0 : ℚ) ≤ (((k % (ocean a).x.length).toNat : ℕ) : ℚ) := Nat.cast_nonneg _
  linarith

/-- The hypotheses of `C73_place` and `C73_places_partial` hold for zonal velocities of the example, with
any method, at longitudes written in both conventions. -/
example (m : Method) :
    (∃ d outs, extract (ask .u m) (ocean 15) [tide] [(-20, 10)] = .ok ([d], outs)) ∧
    ∃ ds outs, extract (ask .u m) (ocean (-165)) [tide] [(-20, 10), (200, 5), (70, -20)] = .ok (ds, outs) := by
  have len : ∀ a, (ocean a).x.length = 12 := by intro a; simp [ocean, uniform]
  have hy : ∀ a, (ocean a).y = [-30, 0, 30] := fun _ => rfl
  constructor
  · obtain ⟨d, outs, e, -⟩ := C73_place (ocean_around 15) (ask .u m) rfl rfl (fun _ _ _ _ => rfl)
      (fun _ => by simp [ask]) (Or.inl (by rw [len]; norm_num)) [tide]
      (by
        intro hc h
        rw [List.mem_singleton.1 h, len]
        exact ⟨table_shape _, tide_complete m false 15 _⟩) (-20, 10)
      ⟨by norm_num, by norm_num, fun _ => by norm_num⟩
      ⟨by rw [hy]; norm_num, by rw [hy]; simp [ask, low]; norm_num, fun _ => by rw [hy]; simp [ask, low]; norm_num⟩
    exact ⟨d, outs, e⟩
  · obtain ⟨d, outs, e, -⟩ := C73_places_partial (ocean_around (-165)) (ask .u m) rfl rfl (fun _ _ _ _ => rfl)
      (fun _ => by simp [ask]) [tide]
      (by
        intro hc h
        rw [List.mem_singleton.1 h, len]
        exact ⟨table_shape _, tide_complete m false (-165) _⟩) [(-20, 10), (200, 5), (70, -20)] (by simp)
      (by
        intro p hp
        simp only [List.mem_cons, List.not_mem_nil, or_false] at hp
        rcases hp with rfl | rfl | rfl <;> exact ⟨by norm_num, by norm_num, fun _ => by norm_num⟩)
      (by
        intro p hp
        simp only [List.mem_cons, List.not_mem_nil, or_false] at hp
        rcases hp with rfl | rfl | rfl <;>
          exact ⟨by rw [hy]; norm_num, by rw [hy]; simp [ask, low]; norm_num,
            fun _ => by rw [hy]; simp [ask, low]; norm_num⟩)
      (Or.inr (by rw [len]; simp only [ask, half]; norm_num))
    exact ⟨d, outs, e⟩

theorem world_ordered {s : Site K} {a : K} (h : Around s a) (p : Points) (value : ℤ → ℤ → Option (K × K)) :
    ((world s a).chart p value).Ordered := by
  have d0 := h.step0.1
  refine ⟨fun k _ _ => ?_, fun j h1 h2 => ?_, fun _ _ _ _ _ _ _ => trivial, ?_⟩
  · simp only [Sea.chart, world]
    push_cast
    split_ifs <;> linarith
  · obtain ⟨h1, h1'⟩ := h1
    obtain ⟨h2, h2'⟩ := h2
    have := (ofList_increasing h.asc.2 h.two').step j.toNat (by show j.toNat + 1 < s.y.length; omega)
    have : s.y.getD j.toNat 0 < s.y.getD (j + 1).toNat 0 := by rwa [show (j + 1).toNat = j.toNat + 1 by omega]
    simp only [Sea.chart, world]
    split_ifs <;> linarith
  · rintro k l m e1 e2 ⟨a1, a2⟩ ⟨b1, b2⟩
    exact ⟨by omega, by omega⟩

/-- With `'spline'` and `'linear'` there is only one answer. -/
theorem Agrees.unique {T H : Chart K} (hT : T.Ordered) (hH : H.Ordered) {m : Method} (hm : m ≠ .bilinear)
    {speed : Bool} {q : K × K} {o o' : Out K} (a : Agrees m speed T H q o) (b : Agrees m speed T H q o') :
    o = o' := by
  cases m with
  | bilinear => exact absurd rfl hm
  | spline =>
    obtain ⟨v, w, hv, hw, rfl⟩ := a
    obtain ⟨v', w', hv', hw', rfl⟩ := b
    rw [hv.unique hT hv', hw.unique hH hw']
  | linear =>
    obtain ⟨v, w, hv, hw, rfl⟩ := a
    obtain ⟨v', w', hv', hw', rfl⟩ := b
    rw [hv.unique hT hv', hw.unique hH hw']

/-- The restriction of `C73_places_partial` is needed: the constant at 200 degrees east is lost if
a place west of Greenwich is in the same batch. -/
theorem C73_batch_false :
    extract (ask .z .spline) (ocean 15) [tide] [(200, 0)] = .ok ([some (4880 / 3)], [[.val (43 / 6) 1 1]]) ∧
      extract (ask .z .spline) (ocean 15) [tide] [(-1, 0), (200, 0)] =
        .ok ([some (4790 / 3), some 2110], [[.val (103 / 15) 1 1, .masked]]) := by
  decide +kernel

/-- The start of a model in the convention -180 to 180 matters for zonal currents: with the first column
at -180 degrees the constants between the last current point at 165 degrees and the antimeridian are those
at 165 degrees.  The field in the file at 170 degrees is another one, and the same field in a file that
starts at Greenwich shows it. -/
theorem C73_antimeridian_false :
    extract (ask .u .spline) (ocean (-180)) [tide] [(170, 0)] = .ok ([some 1560], [[.val 1 1 (5 / 78)]]) ∧
      ¬ Agrees .spline true ((world (ocean (-180)) (-180)).chart .zonal (worldValue (ocean (-180)) tide))
        ((world (ocean (-180)) (-180)).depths .zonal) (170, 0) (.val 1 1 (5 / 78)) := by
  refine ⟨by decide +kernel, fun h => ?_⟩
  obtain ⟨v, w, hv, hw, ho⟩ := h
  have at' : ∀ val, ((world (ocean (-180)) (-180)).chart .zonal val).At (170 : ℚ) 0 12 1 (1 / 6) 0 := by
    intro val
    refine ⟨trivial, trivial, ⟨by norm_num, by decide +kernel⟩, ⟨by norm_num, by decide +kernel⟩, by norm_num, by norm_num,
      by norm_num, by norm_num, ?_, ?_⟩
    · show (170 : ℚ) = (1 - 1 / 6) * ((world (ocean (-180)) (-180)).depths .zonal).lon 12 +
        1 / 6 * ((world (ocean (-180)) (-180)).depths .zonal).lon (12 + 1)
      decide +kernel
    · show (0 : ℚ) = (1 - 0) * ((world (ocean (-180)) (-180)).depths .zonal).lat 1 +
        0 * ((world (ocean (-180)) (-180)).depths .zonal).lat (1 + 1)
      decide +kernel
  have e := hw.unique (world_ordered (ocean_around _) _ _) ⟨12, 1, 1 / 6, 0, at' _, rfl⟩
  have e' := hv.unique (world_ordered (ocean_around _) _ _) ⟨12, 1, 1 / 6, 0, at' _, rfl⟩
  have : v = some (7 / 6, 1) := by
    rw [e']
    decide +kernel
  rw [this] at ho
  cases w with
  | none => cases ho
  | some w =>
    simp only [current, Out.val.injEq] at ho
    norm_num at ho

/-- Meridional currents north of their last row are those of the last row. -/
theorem C73_north_false :
    extract (ask .v .spline) (ocean 15) [tide] [(200, 15)] =
      extract (ask .v .spline) (ocean 15) [tide] [(200, 29)] ∧
    extract (ask .v .spline) (ocean 15) [tide] [(200, 29)] =
      .ok ([some (4895 / 3)], [[.val (43 / 6) 2 (60 / 979)]]) := by
  decide +kernel

/-- With `'bilinear'` a field that is zero gives the number for missing values, unmasked. -/
theorem C73_zero_false :
    extract (ask .z .bilinear) (ocean 15) [table fun _ _ => ⟨0, 0, false⟩] [(200, 20)] =
      .ok ([some (4900 / 3)], [[.val (10 ^ 20) 0 1]]) := by
  decide +kernel

/-- With `'linear'` a missing number at one point of the sea spoils the cells around it, unmasked; with
`'spline'` they are masked. -/
theorem C73_gap_false :
    extract (ask .z .linear) (ocean 15) [table fun j i => if i = 6 ∧ j = 1 then ⟨10 ^ 20, 0, true⟩
        else ⟨i, j, false⟩] [(200, 20)] =
      .ok ([some (4900 / 3)], [[.val (500000000000000000081 / 18) (25 / 18) 1]]) ∧
    extract (ask .z .spline) (ocean 15) [table fun j i => if i = 6 ∧ j = 1 then ⟨10 ^ 20, 0, true⟩
        else ⟨i, j, false⟩] [(200, 20)] = .ok ([some (4900 / 3)], [[.masked]]) := by
  decide +kernel

/-- The first column of zonal currents of a region is masked where the last column is land. -/
theorem C73_rim_false :
    extract (ask .u .spline) { ocean 15 with x := uniform 15 10 12, hz := table fun _ i => if i = 11 then 0 else 1000 }
        [tide] [(15, 0), (20, 0)] = .ok ([none, some 1000], [[.masked, .val 2 1 (1 / 10)]]) ∧
    extract (ask .u .spline) { ocean 15 with x := uniform 15 10 12, hz := table fun _ _ => 1000 }
        [tide] [(15, 0), (20, 0)] = .ok ([some 1000, some 1000], [[.val (3 / 2) 1 (1 / 10), .val 2 1 (1 / 10)]]) := by
  decide +kernel

/-- An extrapolated velocity is a transport: where the depth is masked nothing is divided. -/
theorem C73_extrapolated_false (m : Method) (near : Near K) (speed stored : Bool) (ax ay x y : List K)
    (bath hc : List (List (Fld K))) (q z : K × K) (hd : depthAt m x y bath q = .ok none)
    {o : Option (K × K)} (hc' : constantAt m stored x y hc none q = .ok o)
    (hin : outside ax ay q = .ok false) (hz : near x y hc q = some z) :
    o = none ∧ evaluate m near speed stored ax ay x y bath hc [q] = .ok [.val z.1 z.2 1] := by
  have ho : o = none := by
    unfold constantAt at hc'
    cases m with
    | bilinear =>
      simp only at hc'
      cases e : bilinearC x y (fun j i => nonzeroCell (Extract.entry hc j i)) q.1 q.2 with
      | error _ => rw [e] at hc'; cases hc'
      | ok r => rw [e, ok_bind] at hc'; cases hc'; rfl
    | spline =>
      simp only at hc'
      cases e : splineC x y hc q.1 q.2 with
      | error _ => rw [e] at hc'; cases hc'
      | ok r => rw [e, ok_bind] at hc'; cases hc'; simp
    | linear =>
      simp only at hc'
      cases e : regularC x y (if stored then fillZeros hc else hc) q.1 q.2 with
      | error _ => rw [e] at hc'; cases hc'
      | ok r => rw [e, ok_bind] at hc'; cases hc'; simp
  subst ho
  refine ⟨rfl, ?_⟩
  unfold evaluate
  rw [pyMap, hd, ok_bind, hc', ok_bind, hin, ok_bind]
  simp only [hz, pyMap]
  unfold factor
  cases speed <;> rfl

/-- The hypotheses of `C73_extrapolated_false` occur: a velocity next to land. -/
example : extract { ask .u .spline with near := fun _ _ _ _ => some (7, 8) }
    { ocean 15 with hz := table fun _ i => if i = 6 then 0 else 1000 } [tide] [(200, 0)] =
      .ok ([none], [[.val 7 8 1]]) := by
  decide +kernel

/-- The hypotheses of `C73_region_partial` hold for a region of the example. -/
example : ∃ ds outs, extract (ask .v .spline) { ocean 15 with x := uniform 15 10 12 } [tide] [(20, 3), (33, -7)] =
    .ok (ds, outs) := by
  obtain ⟨s, hs⟩ : ∃ s, s = ({ ocean 15 with x := uniform 15 10 12 } : Site ℚ) := ⟨_, rfl⟩
  have hx : s.x = uniform 15 10 12 := by rw [hs]
  have hy : s.y = [-30, 0, 30] := by rw [hs]; rfl
  have len : s.x.length = 12 := by rw [hx]; simp [uniform]
  have g0 : s.x.getD 0 0 = 15 := by rw [hx, uniform_getD _ _ _ _ (by omega)]; norm_num
  have g1 : s.x.getD 1 0 = 25 := by rw [hx, uniform_getD _ _ _ _ (by omega)]; norm_num
  have g11 : s.x.getD 11 0 = 125 := by rw [hx, uniform_getD _ _ _ _ (by omega)]; norm_num
  have hr : Rect s := by
    refine ⟨⟨by rw [hx]; exact uniform_increasing 15 10 (by norm_num) 12, ?_⟩, by omega, by rw [hy]; simp, ?_, ?_⟩
    · rw [hy]; decide +kernel
    · rw [len, hs]; exact table_shape _
    · rw [len, hs]; exact table_shape _
  rw [← hs]
  obtain ⟨ds, outs, e, -⟩ := C73_region_partial hr (ask .v .spline) rfl
    (Or.inr (by rw [len, g0, g1, show 12 - 1 = 11 from rfl, g11]; simp only [Bool.false_eq_true, if_false]; decide +kernel))
    (fun _ _ _ _ => rfl) (fun _ => by simp [ask]) (fun e => by cases e) (fun e => by cases e) [tide]
    (by
      intro hc h
      rw [List.mem_singleton.1 h, len, hy]
      exact ⟨table_shape _, ⟨fun e => by simp [ask] at e, fun e => by simp [ask] at e⟩⟩)
    [(20, 3), (33, -7)] (by simp)
    (by
      intro p hp
      simp only [List.mem_cons, List.not_mem_nil, or_false] at hp
      rcases hp with rfl | rfl <;>
        exact ⟨by rw [g0]; norm_num, by rw [len, g0, g1, g11]; simp [ask, half]; norm_num, fun e => by cases e⟩)
    (by
      intro p hp
      simp only [List.mem_cons, List.not_mem_nil, or_false] at hp
      rcases hp with rfl | rfl <;>
        exact ⟨by rw [hy]; norm_num, by rw [hy]; simp [ask, low]; norm_num, fun e => by cases e⟩)
  exact ⟨ds, outs, e⟩

end Verif.Staggered
