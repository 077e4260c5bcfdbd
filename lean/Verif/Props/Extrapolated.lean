import Verif.Model.Extrapolated
import Verif.Props.Extrapolate
import Verif.Props.Extract
import Verif.Spec.Nearest
/-!
C112: constants extracted with extrapolation are the interpolation of the field of the model where it has
one, and elsewhere the value at the point of the model that is closest on the Earth.
-/
namespace Verif.Near
open Verif Verif.Spec Verif.Grid Verif.Extract

variable {K : Type} [Field K] [LinearOrder K] [IsStrictOrderedRing K] {n : ℕ}

/-! ## A batch -/

theorem put_map {β P : Type} (pos : K × K → P) (g : P → Option β) : ∀ (pts : List (K × K)) (os : List (Option β)),
    pts.length = os.length →
    put os ((((pts.zip os).filter fun p => p.2.isNone).map fun p => pos p.1).map g) =
      List.zipWith (fun p o => o.or (g (pos p))) pts os
  | [], [], _ => rfl
  | [], _ :: _, h => by simp at h
  | _ :: _, [], h => by simp at h
  | p :: pts, none :: os, h => by
    simp only [List.zip_cons_cons, List.filter_cons, Option.isNone_none, if_true, List.map_cons, put,
      List.zipWith_cons_cons, Option.none_or]
    rw [put_map pos g pts os (by simpa using h)]
  | p :: pts, some b :: os, h => by
    simp only [List.zip_cons_cons, List.filter_cons, Option.isNone_some, Bool.false_eq_true, if_false, put,
      List.zipWith_cons_cons, Option.some_or]
    rw [put_map pos g pts os (by simpa using h)]

/-- `w` is the value of a closest valid cell within the cutoff. -/
def Best (cs : List (Extrap.Node n (K × K))) (cutoff : Option ℝ) (p : Extrap.Pt n) (w : Option (K × K)) : Prop :=
  (∃ c ∈ cs, c.valid = true ∧ c.val = w ∧ Below cutoff (Extrap.dist c.pos p) ∧
    ∀ c' ∈ cs, c'.valid = true → Extrap.dist c.pos p ≤ Extrap.dist c'.pos p) ∨
  (w = none ∧ ∀ c ∈ cs, c.valid = true → ¬ Below cutoff (Extrap.dist c.pos p))

theorem below_iff (cutoff : Option ℝ) (d : ℝ) : Extrap.Within cutoff d ↔ Below cutoff d := by
  cases cutoff with
  | none => simp [Extrap.Within, Below]
  | some r => simp [Extrap.Within, Below]

/-- Every masked point gets the value of a closest cell, the others stay as they are. -/
theorem fillIn_eq {β : Type} (t : Tree K n) (hq : Extrap.KDSpec t.query) (cs : List (Extrap.Node n (K × K)))
    (make : K × K → β) (pts : List (K × K)) (os : List (Option β)) (hl : pts.length = os.length) :
    ∃ g : Extrap.Pt n → Option (K × K),
      fillIn t cs make pts os = List.zipWith (fun p o => o.or ((g (t.pos p)).map make)) pts os ∧
      ∀ p o, (p, o) ∈ pts.zip os → o = none → Best cs t.cutoff (t.pos p) (g (t.pos p)) := by
  unfold fillIn
  simp only
  set inv := ((pts.zip os).filter fun p => p.2.isNone).map fun p => t.pos p.1 with hinv
  by_cases hb : inv = []
  · have e : Extrap.extrapolate t.query cs none t.cutoff inv = none := by
      unfold Extrap.extrapolate
      rw [if_pos hb]
    rw [e]
    have all : ∀ p o, (p, o) ∈ pts.zip os → o ≠ none := by
      intro p o hm ho
      have : t.pos p ∈ inv := List.mem_map.2 ⟨(p, o), List.mem_filter.2 ⟨hm, by simp [ho]⟩, rfl⟩
      rw [hb] at this
      simp at this
    refine ⟨fun _ => none, ?_, fun p o hm ho => absurd ho (all p o hm)⟩
    simp only [Option.map_none, Option.or_none]
    clear_value inv
    clear hinv hb e all
    induction pts generalizing os with
    | nil => cases os with
      | nil => rfl
      | cons _ _ => simp at hl
    | cons p pts ih => cases os with
      | nil => simp at hl
      | cons o os => rw [List.zipWith_cons_cons, ← ih os (by simpa using hl)]
  · obtain ⟨g, e, hg⟩ := Extrap.C11_extrapolate_nearest t.query hq cs none t.cutoff inv hb
    rw [e]
    refine ⟨fun P => if (g P).masked then none else (g P).val, ?_, ?_⟩
    · simp only
      rw [List.map_map]
      have := put_map t.pos (fun P => if (g P).masked then none else (g P).val.map make) pts os hl
      rw [← hinv] at this
      rw [show ((fun o : Extrap.Out (K × K) => if o.masked then none else o.val.map make) ∘ g) =
        fun P => if (g P).masked then none else (g P).val.map make from rfl, this]
      congr 1
      funext p o
      congr 1
      split_ifs <;> rfl
    · intro p o hm ho
      have hp : t.pos p ∈ inv := List.mem_map.2 ⟨(p, o), List.mem_filter.2 ⟨hm, by simp [ho]⟩, rfl⟩
      rcases hg _ hp with ⟨h1, c, hc, hv, hval, hw, hmin⟩ | ⟨h1, -, h3⟩
      · left
        refine ⟨c, hc, hv, ?_, (below_iff _ _).1 hw, hmin⟩
        simp only
        rw [h1]
        simpa using hval.symm
      · right
        refine ⟨?_, fun c hc hv hb => h3 c hc hv ((below_iff _ _).2 hb)⟩
        simp only
        rw [h1]
        rfl

/-! ## Cells and charts -/

theorem mem_cells {pos : K × K → Extrap.Pt n} {value : Fld K → Option (K × K) × Bool} {x y : List K}
    {hc : List (List (Fld K))} (height : hc.length = y.length) (width : ∀ r ∈ hc, r.length = x.length)
    (c : Extrap.Node n (K × K)) :
    c ∈ cells pos value x y hc ↔ ∃ r i : ℕ, r < y.length ∧ i < x.length ∧
      c = ⟨pos (x.getD i 0, y.getD r 0), (value (entry hc r i)).1, (value (entry hc r i)).2⟩ := by
  unfold cells
  rw [List.mem_flatMap]
  constructor
  · rintro ⟨⟨b, row⟩, hr, hcm⟩
    obtain ⟨⟨a, z⟩, hi, rfl⟩ := List.mem_map.1 hcm
    obtain ⟨r, hr1, hr2⟩ := List.getElem_of_mem hr
    obtain ⟨i, hi1, hi2⟩ := List.getElem_of_mem hi
    rw [List.length_zip] at hr1 hi1
    rw [List.getElem_zip] at hr2 hi2
    simp only [Prod.mk.injEq] at hr2 hi2
    refine ⟨r, i, by omega, by omega, ?_⟩
    unfold entry
    simp only [List.getD_eq_getElem?_getD]
    rw [List.getElem?_eq_getElem (by omega : r < y.length), List.getElem?_eq_getElem (by omega : i < x.length),
      List.getElem?_eq_getElem (by omega : r < hc.length)]
    simp only [Option.getD_some, hr2.2, hi2.1, hr2.1]
    rw [List.getElem?_eq_getElem (by simp only at hi1; omega : i < row.length)]
    simp only [Option.getD_some, hi2.2]
  · rintro ⟨r, i, hr, hi, rfl⟩
    have hr' : r < hc.length := by omega
    have hw := width hc[r] (List.getElem_mem hr')
    have hi' : i < hc[r].length := by omega
    refine ⟨(y[r], hc[r]), ?_, ?_⟩
    · rw [List.mem_iff_getElem]
      exact ⟨r, by rw [List.length_zip]; omega, by rw [List.getElem_zip]⟩
    · rw [List.mem_map]
      refine ⟨(x[i], hc[r][i]), ?_, ?_⟩
      · rw [List.mem_iff_getElem]
        exact ⟨i, by rw [List.length_zip]; show i < min x.length hc[r].length; omega, by rw [List.getElem_zip]⟩
      · unfold entry
        simp [List.getD_eq_getElem?_getD, List.getElem?_eq_getElem hr, List.getElem?_eq_getElem hi,
          List.getElem?_eq_getElem hr', List.getElem?_eq_getElem hi']

/-- The matrix has, at the same position, every point of the chart that has a value. -/
def Covers (pos : K × K → Extrap.Pt n) (x y : List K) (C : Chart K) (k0 j0 : ℤ) : Prop :=
  ∀ k j, C.cols k → C.rows j → C.value k j ≠ none → ∃ i r : ℕ, i < x.length ∧ r < y.length ∧
    C.value (k0 + i) (j0 + r) = C.value k j ∧
    pos (C.lon (k0 + i), C.lat (j0 + r)) = pos (C.lon k, C.lat j)

/-- The closest cell of a matrix that shows a chart. -/
theorem nearest_shows {pos : K × K → Extrap.Pt n} {x y : List K} {hc : List (List (Fld K))} {C : Chart K}
    {k0 j0 : ℤ} (h : Shows x y hc C k0 j0) (cover : Covers pos x y C k0 j0) {cutoff : Option ℝ} {q : K × K}
    {w : Option (K × K)} (hb : Best (cells pos nanCell x y hc) cutoff (pos q) w) :
    Nearest C (fun a b => Extrap.dist (pos a) (pos b)) cutoff q w := by
  have valid : ∀ r i : ℕ, r < y.length → i < x.length → C.value (k0 + i) (j0 + r) ≠ none →
      (⟨pos (C.lon (k0 + i), C.lat (j0 + r)), C.value (k0 + i) (j0 + r), false⟩ : Extrap.Node n (K × K)) ∈
        cells pos nanCell x y hc := by
    intro r i hr hi hv
    rw [mem_cells h.height h.width]
    refine ⟨r, i, hr, hi, ?_⟩
    rw [h.lon i hi, h.lat r hr, nanCell_eq, ← h.value r i hr hi]
    simp only [Extrap.Node.mk.injEq, true_and]
    cases e : C.value (k0 + i) (j0 + r) with
    | none => exact absurd e hv
    | some z => rfl
  have close : ∀ k j, C.cols k → C.rows j → C.value k j ≠ none →
      ∃ c ∈ cells pos nanCell x y hc, c.valid = true ∧ c.pos = pos (C.lon k, C.lat j) := by
    intro k j hk hj hv
    obtain ⟨i, r, hi, hr, e1, e2⟩ := cover k j hk hj hv
    refine ⟨_, valid r i hr hi (by rw [e1]; exact hv), ?_, e2⟩
    unfold Extrap.Node.valid
    simp only [Bool.not_false, Bool.true_and]
    rw [e1]
    exact Option.isSome_iff_ne_none.2 hv
  rcases hb with ⟨c, hc, hv, hw, hbel, hmin⟩ | ⟨hw, hnone⟩
  · left
    obtain ⟨r, i, hr, hi, rfl⟩ := (mem_cells h.height h.width c).1 hc
    rw [h.lon i hi, h.lat r hr, nanCell_eq, ← h.value r i hr hi] at hw hv hbel hmin
    unfold Extrap.Node.valid at hv
    simp only at hv hw hbel hmin
    cases e : C.value (k0 + i) (j0 + r) with
    | none => rw [e] at hv; simp at hv
    | some z =>
      refine ⟨k0 + i, j0 + r, z, h.col i hi, h.row r hr, e, by rw [← hw, e], hbel, ?_⟩
      intro k' j' hk' hj' hv'
      obtain ⟨c', hc', hval, hp⟩ := close k' j' hk' hj' hv'
      have := hmin c' hc' hval
      rwa [hp] at this
  · right
    refine ⟨hw, fun k j hk hj hv hbel => ?_⟩
    obtain ⟨c', hc', hval, hp⟩ := close k j hk hj hv
    exact hnone c' hc' hval (by rw [hp]; exact hbel)

/-- A place has the same coordinates after a turn around the Earth. -/
def Turns (pos : K × K → Extrap.Pt n) : Prop := ∀ (x y : K) (m : ℤ), pos (x + m * 360, y) = pos (x, y)

/-- A matrix that shows at least one turn of a chart around the globe. -/
theorem covers_round {pos : K × K → Extrap.Pt n} (hp : Turns pos) {x y : List K} {C : Chart K} {k0 j0 : ℤ}
    {N : ℕ} (hN : 0 < N) (hx : N ≤ x.length) (hC : C.Round N)
    (rows : ∀ j, C.rows j → j0 ≤ j ∧ j < j0 + y.length) : Covers pos x y C k0 j0 := by
  intro k j _ hj _
  obtain ⟨j1, j2⟩ := rows j hj
  have p := Int.emod_nonneg (k - k0) (b := (N : ℤ)) (by omega)
  have q := Int.emod_lt_of_pos (k - k0) (b := (N : ℤ)) (by omega)
  have e := Int.emod_add_mul_ediv (k - k0) (N : ℤ)
  refine ⟨((k - k0) % N).toNat, (j - j0).toNat, by omega, by omega, ?_, ?_⟩
  · have e2 : k = k0 + ((k - k0) % N).toNat + ((k - k0) / N) * N := by
      rw [Int.toNat_of_nonneg p, mul_comm]; linarith
    have e3 : j0 + ((j - j0).toNat : ℤ) = j := by rw [Int.toNat_of_nonneg (by omega)]; ring
    rw [e3]
    conv_rhs => rw [e2]
    rw [(hC.turn _ _).2]
  · have e2 : k = k0 + ((k - k0) % N).toNat + ((k - k0) / N) * N := by
      rw [Int.toNat_of_nonneg p, mul_comm]; linarith
    have e3 : j0 + ((j - j0).toNat : ℤ) = j := by rw [Int.toNat_of_nonneg (by omega)]; ring
    rw [e3]
    conv_rhs => rw [e2]
    rw [(hC.turn _ _).1, hp]

/-- A global grid after its extension has all points of the model. -/
theorem covers_globe {pos : K × K → Extrap.Pt n} (hp : Turns pos) {g g' : Layer K} {a : K} (h : Even g a)
    (f : Fmt) (hl : g'.lon = uniform (a - 360 / (g.lon.length : K)) (360 / (g.lon.length : K))
      (g.lon.length + f.extra)) (ht : g'.lat = g.lat) :
    Covers pos g'.lon g'.lat (globe g a) (-1) 0 := by
  have h3 := h.three
  refine covers_round hp (N := g.lon.length) (by omega) ?_ (globe_round h) ?_
  · rw [hl, uniform_length]; omega
  · intro j hj
    rw [ht]
    exact ⟨hj.1, by have := hj.2; omega⟩

/-! ## GOT and FES -/

/-- What a user expects of a constant with extrapolation: what is `told` at the place, and where that is
nothing the value at the closest point with a value. -/
def Answers (told : K × K → Out K → Prop) (C : Chart K) (scale : K) (d : K × K → K × K → ℝ) (cutoff : Option ℝ)
    (q : K × K) (o : Out K) : Prop :=
  ∃ o', told q o' ∧ (o' ≠ .masked → o = o') ∧
    (o' = .masked → ∃ w, Nearest C d cutoff q w ∧ o = returned scale w)

theorem Answers.turn {pos : K × K → Extrap.Pt n} (hp : Turns pos) {C : Chart K} {told : K × K → Out K → Prop}
    (h : ∀ {x x' y : K} {o : Out K}, SameMeridian 360 x x' → told (x', y) o → told (x, y) o)
    {scale : K} {cutoff : Option ℝ} {p q : K × K} (hs : SameMeridian 360 p.1 q.1) (he : p.2 = q.2)
    {o : Out K} (ho : Answers told C scale (fun a b => Extrap.dist (pos a) (pos b)) cutoff q o) :
    Answers told C scale (fun a b => Extrap.dist (pos a) (pos b)) cutoff p o := by
  obtain ⟨p1, p2⟩ := p
  obtain ⟨q1, q2⟩ := q
  simp only at hs he
  subst he
  obtain ⟨o', h1, h2, h3⟩ := ho
  have e : pos (q1, p2) = pos (p1, p2) := by
    obtain ⟨k, rfl⟩ := hs
    exact hp _ _ _
  refine ⟨o', h hs h1, h2, fun hm => ?_⟩
  obtain ⟨w, hw, ho⟩ := h3 hm
  refine ⟨w, ?_, ho⟩
  unfold Nearest at hw ⊢
  simp only [e] at hw
  exact hw

theorem pyMap_forall₂ {α β : Type} {f : α → Except PyErr β} : ∀ {l : List α} {bs : List β},
    pyMap f l = .ok bs → List.Forall₂ (fun a b => f a = .ok b) l bs
  | [], bs, h => by cases h; exact .nil
  | a :: l, bs, h => by
    rw [pyMap] at h
    cases e : f a with
    | error x => rw [e] at h; cases h
    | ok b =>
      rw [e] at h
      cases e2 : pyMap f l with
      | error x => rw [e2] at h; cases h
      | ok t =>
        rw [e2] at h
        cases h
        exact .cons e (pyMap_forall₂ e2)

/-- From elements that fit their points to the elements after extrapolation. -/
theorem zipWith_rel {α β γ : Type} {R : α → β → Prop} {S : α → γ → Prop} (F : α → β → γ) :
    ∀ {l : List α} {bs : List β}, List.Forall₂ R l bs → (∀ a b, (a, b) ∈ l.zip bs → R a b → S a (F a b)) →
      List.Forall₂ S l (List.zipWith F l bs)
  | _, _, .nil, _ => .nil
  | _, _, .cons r t, h => .cons (h _ _ (by simp) r)
      (zipWith_rel F t fun a b hm hr => h a b (by simp [hm]) hr)

theorem zipWith_false {α β : Type} (F : α → Bool → β) (ws : List α) :
    List.zipWith F ws (List.replicate ws.length false) = ws.map fun w => F w false := by
  induction ws with
  | nil => rfl
  | cons w ws ih => simp [List.replicate_succ, ih]

/-- Interpolation with extrapolation at a batch of places inside a matrix that shows a chart. -/
theorem evaluate_inside {x y : List K} {hc : List (List (Fld K))} {C : Chart K} {k0 j0 : ℤ}
    (h : Shows x y hc C k0 j0) (f : Fmt) (r : Request K) (t : Tree K n) (hq : Extrap.KDSpec t.query)
    (cover : Covers t.pos x y C k0 j0)
    (stored : Bool) (far : ∀ c : ℕ, c < x.length → |x.getD c 0| ≤ 720) (pts : List (K × K))
    (hp : ∀ p ∈ pts, x.getD 0 0 ≤ p.1 ∧ p.1 ≤ x.getD (x.length - 1) 0 ∧ y.getD 0 0 ≤ p.2 ∧
      p.2 ≤ y.getD (y.length - 1) 0 ∧ (r.method = .bilinear → p.1 < x.getD (x.length - 1) 0 ∧
        y.getD 0 0 < p.2 ∧ p.2 < y.getD (y.length - 1) 0)) :
    ∃ outs, evaluate f r t stored x y hc pts = .ok outs ∧
      List.Forall₂ (Answers (Meets r.method C r.scale) C r.scale (fun a b => Extrap.dist (t.pos a) (t.pos b)) t.cutoff) pts outs := by
  have hin : pyMap (fun q => if f.bounded then outside x y q else .ok false) pts =
      .ok (pts.map fun _ => false) := by
    refine pyMap_ok_of_forall fun p hpm => ?_
    obtain ⟨p1, p2, p3, p4, p5⟩ := hp p hpm
    cases f.bounded
    · rfl
    · simp only [if_true]
      unfold outside
      rw [min?_increasing h.asc.1 h.two, max?_increasing h.asc.1 h.two,
        min?_increasing h.asc.2 h.two', max?_increasing h.asc.2 h.two']
      simp only [Except.ok.injEq, decide_eq_false_iff_not, not_or, not_lt]
      exact ⟨p1, p2, p3, p4⟩
  obtain ⟨os, eo, ho⟩ := pyMap_rel (f := atPoint r.method stored x y hc r.scale)
    (R := Meets r.method C r.scale) (l := pts) (fun p hpm => by
      obtain ⟨p1, p2, p3, p4, p5⟩ := hp p hpm
      exact atPoint_meets h r.method stored r.scale p p1 p2 p3 p4 far p5)
  have hlen : pts.length = os.length := ho.length_eq
  obtain ⟨G, eG, hG⟩ := fillIn_eq t hq (cells t.pos nanCell x y hc)
    (fun z => Out.val z.1 z.2 r.scale) pts (os.map unmasked) (by simpa using hlen)
  refine ⟨List.zipWith (fun p o => ((unmasked o).or ((G (t.pos p)).map fun z => Out.val z.1 z.2 r.scale)).getD .masked)
    pts os, ?_, ?_⟩
  · unfold evaluate
    rw [hin, ok_bind, eo, ok_bind]
    simp only
    rw [eG]
    congr 1
    rw [show pts.map (fun _ => false) = List.replicate (List.zipWith (fun p o => Option.or o ((G (t.pos p)).map fun z => Out.val z.1 z.2 r.scale)) pts (os.map unmasked)).length false by
      rw [List.length_zipWith, List.length_map, ← hlen, min_self, List.map_const']]
    rw [zipWith_false, List.zipWith_map_right, List.map_zipWith]
    simp only [Bool.false_eq_true, if_false]
  · refine zipWith_rel _ ho fun p o hm hmeets => ?_
    refine ⟨o, hmeets, fun hne => ?_, fun he => ?_⟩
    · cases o with
      | masked => exact absurd rfl hne
      | nan => rfl
      | val a b c => rfl
    · subst he
      have := hG p none (by
        rw [List.zip_map_right, List.mem_map]
        exact ⟨(p, .masked), hm, rfl⟩) rfl
      refine ⟨_, nearest_shows h cover this, ?_⟩
      show (Option.or none _).getD Out.masked = _
      rw [Option.none_or]
      cases G (t.pos p) <;> rfl

/-- One file. -/
theorem extractFile_answers {g : Layer K} {a : K} (h : Global g a) (f : Fmt) (r : Request K)
    (hr : r.crop = false) (t : Tree K n) (hq : Extrap.KDSpec t.query) (ht : Turns t.pos) (box : Box K)
    (pts : List (K × K)) (hne : pts ≠ []) (hp : ∀ p ∈ pts, Place r.method g p) :
    ∃ outs, extractFile f r t box g pts = .ok (outs, pts.map (suit a)) ∧
      List.Forall₂ (Answers (Meets r.method (globe g a) r.scale) (globe g a) r.scale (fun a b => Extrap.dist (t.pos a) (t.pos b)) t.cutoff)
        pts outs := by
  obtain ⟨g', e, hl, hla, hs⟩ := extended_shows h.toEven f
  obtain ⟨x0, x1, -, far⟩ := extended_range h f
  rw [← hl] at x0 x1 far
  obtain ⟨outs, eo, ho⟩ := evaluate_inside hs f r t hq (covers_globe ht h.toEven f hl hla) false far
    (pts.map (suit a)) (by
      intro q hq
      obtain ⟨p, hpm, rfl⟩ := List.mem_map.1 hq
      obtain ⟨pl, p1, p2, p3⟩ := suit_range h (hp p hpm)
      exact ⟨by rw [x0]; exact p1, le_trans p2 x1, by rw [hla]; exact pl.south, by rw [hla]; exact pl.north,
        fun e => ⟨lt_of_lt_of_le (p3 e) x1, by rw [hla]; exact (pl.strict e).2.2.2.1,
          by rw [hla]; exact (pl.strict e).2.2.2.2⟩⟩)
  refine ⟨outs, ?_, ?_⟩
  · unfold extractFile
    rw [h.step, ok_bind, place_suit h r hr box _ pts hne, ok_bind]
    simp only
    rw [e, ok_bind, eo, ok_bind]
  · rw [List.forall₂_map_left_iff] at ho
    exact ho.imp fun p o hm => Answers.turn ht (Meets.turn (globe_round h.toEven)) (suit_same a p) rfl hm

/-- Global GOT and FES models, for any way to measure distances that does not change after a turn. -/
theorem extract_answers (f : Fmt) (r : Request K) (hr : r.crop = false) (t : Tree K n)
    (hq : Extrap.KDSpec t.query) (ht : Turns t.pos) (files : List (Layer K × K))
    (hg : ∀ g ∈ files, Global g.1 g.2) (pts : List (K × K)) (hne : pts ≠ [])
    (hp : ∀ g ∈ files, ∀ p ∈ pts, Place r.method g.1 p) :
    ∃ outs, extract f r t (files.map Prod.fst) pts = .ok outs ∧
      List.Forall₂ (fun (g : Layer K × K) row => List.Forall₂ (Answers (Meets r.method (globe g.1 g.2) r.scale) (globe g.1 g.2) r.scale
        (fun a b => Extrap.dist (t.pos a) (t.pos b)) t.cutoff) pts row) files outs := by
  have loop : ∀ (fs : List (Layer K × K)) (box : Box K) (ps : List (K × K)),
      (∀ g ∈ fs, Global g.1 g.2) → (∀ g ∈ fs, ∀ p ∈ ps, Place r.method g.1 p) → ps ≠ [] →
      List.Forall₂ (fun p q : K × K => SameMeridian 360 p.1 q.1 ∧ p.2 = q.2) pts ps →
      ∃ outs, extractFiles f r t box (fs.map Prod.fst) ps = .ok outs ∧
        List.Forall₂ (fun (g : Layer K × K) row => List.Forall₂ (Answers (Meets r.method (globe g.1 g.2) r.scale) (globe g.1 g.2) r.scale
          (fun a b => Extrap.dist (t.pos a) (t.pos b)) t.cutoff) pts row) fs outs := by
    intro fs box
    induction fs with
    | nil => intro ps _ _ _ _; exact ⟨[], rfl, .nil⟩
    | cons g fs ih =>
      intro ps hG hP hN hS
      have gg := hG g (by simp)
      obtain ⟨row, e1, m1⟩ := extractFile_answers gg f r hr t hq ht box ps hN (hP g (by simp))
      obtain ⟨rest, e2, m2⟩ := ih (ps.map (suit g.2)) (fun g' hg' => hG g' (by simp [hg']))
        (by
          intro g' hg' q hq
          obtain ⟨p, hpm, rfl⟩ := List.mem_map.1 hq
          exact (suit_place (hP g' (by simp [hg']) p hpm)).1)
        (by simpa using hN)
        (by
          rw [List.forall₂_map_right_iff]
          exact hS.imp fun p q hpq => ⟨SameMeridian.trans' hpq.1 (suit_same g.2 q), hpq.2⟩)
      refine ⟨row :: rest, ?_, .cons ?_ m2⟩
      · rw [List.map_cons, extractFiles, e1, ok_bind]
        simp only
        rw [e2, ok_bind]
      · exact forall₂_trans hS m1 fun p q o hpq hm =>
          Answers.turn ht (Meets.turn (globe_round gg.toEven)) hpq.1 hpq.2 hm
  obtain ⟨mn, h1, -⟩ := exists_min (pts.map Prod.fst) (by simpa using hne)
  obtain ⟨mx, h2, -⟩ := exists_max (pts.map Prod.fst) (by simpa using hne)
  obtain ⟨nn, h3, -⟩ := exists_min (pts.map Prod.snd) (by simpa using hne)
  obtain ⟨nx, h4, -⟩ := exists_max (pts.map Prod.snd) (by simpa using hne)
  unfold extract Request.boundsOr
  rw [h1, h2, h3, h4]
  simp only
  rw [ok_bind]
  exact loop files _ pts hg hp hne (List.forall₂_same.2 fun p _ => ⟨⟨0, by simp⟩, rfl⟩)

/-! ## Distances on the Earth -/

theorem onEarth_turns : Turns onEarth := by
  intro x y m
  have key : ∀ z : ℝ, Real.cos ((if z < 0 then z + 360 else z) * (Real.pi / 180)) = Real.cos (z * (Real.pi / 180)) ∧
      Real.sin ((if z < 0 then z + 360 else z) * (Real.pi / 180)) = Real.sin (z * (Real.pi / 180)) := by
    intro z
    split_ifs
    · rw [show (z + 360) * (Real.pi / 180) = z * (Real.pi / 180) + 2 * Real.pi by ring]
      exact ⟨Real.cos_add_two_pi _, Real.sin_add_two_pi _⟩
    · exact ⟨rfl, rfl⟩
  have e : (x + m * 360) * (Real.pi / 180) = x * (Real.pi / 180) + m * (2 * Real.pi) := by ring
  unfold onEarth Spatial.toCartesian
  simp only [(key _).1, (key _).2, e, Real.cos_add_int_mul_two_pi, Real.sin_add_int_mul_two_pi]

theorem onEarth_eq (p : ℝ × ℝ) : onEarth p =
    ![(onEllipsoid p).1, (onEllipsoid p).2.1, (onEllipsoid p).2.2] := by
  have key : ∀ z : ℝ, Real.cos ((if z < 0 then z + 360 else z) * (Real.pi / 180)) = Real.cos (z * Real.pi / 180) ∧
      Real.sin ((if z < 0 then z + 360 else z) * (Real.pi / 180)) = Real.sin (z * Real.pi / 180) := by
    intro z
    split_ifs
    · rw [show (z + 360) * (Real.pi / 180) = z * Real.pi / 180 + 2 * Real.pi by ring]
      exact ⟨Real.cos_add_two_pi _, Real.sin_add_two_pi _⟩
    · rw [mul_div_assoc]
      exact ⟨rfl, rfl⟩
  have ecc : Spatial.ecc1 (6378137 / 1000) (1 / (298257223563 / 10 ^ 9)) ^ 2 = eccentric := by
    unfold Spatial.ecc1 eccentric
    rw [div_pow, Real.sq_sqrt (by norm_num)]
    norm_num
  have cur : Spatial.primeVertical (6378137 / 1000) (1 / (298257223563 / 10 ^ 9)) (p.2 * (Real.pi / 180)) =
      curvature p.2 := by
    unfold Spatial.primeVertical curvature
    rw [ecc, mul_div_assoc]
    norm_num
  unfold onEarth Spatial.toCartesian onEllipsoid
  simp only [(key _).1, (key _).2, cur, ecc, add_zero, mul_div_assoc]

theorem dist_chord (p q : ℝ × ℝ) : Extrap.dist (onEarth p) (onEarth q) = chord p q := by
  unfold Extrap.dist chord
  rw [onEarth_eq, onEarth_eq, Fin.sum_univ_three]
  rfl

/-- C112: harmonic constants of global GOT and FES models with extrapolation.  Whatever the number of files,
their conventions of longitude and the batch of points, every point gets from every file what the field in
the file says there, and where the field says nothing (on land, and next to land for `'spline'` and
`'linear'`) the value at the point of the model that is closest to it in space, among all points of the
model that have a value, also across the meridian where the file begins; it stays masked exactly if none is
within the cutoff. -/
theorem C112_got_fes (f : Fmt) (r : Request ℝ) (hr : r.crop = false) (query : Extrap.Query 3)
    (hq : Extrap.KDSpec query) (cutoff : Option ℝ) (files : List (Layer ℝ × ℝ))
    (hg : ∀ g ∈ files, Global g.1 g.2) (pts : List (ℝ × ℝ)) (hne : pts ≠ [])
    (hp : ∀ g ∈ files, ∀ p ∈ pts, Place r.method g.1 p) :
    ∃ outs, extract f r ⟨query, cutoff, onEarth⟩ (files.map Prod.fst) pts = .ok outs ∧
      List.Forall₂ (fun (g : Layer ℝ × ℝ) row =>
        List.Forall₂ (Answers (Meets r.method (globe g.1 g.2) r.scale) (globe g.1 g.2) r.scale chord cutoff) pts row) files outs := by
  have := extract_answers f r hr ⟨query, cutoff, onEarth⟩ hq onEarth_turns files hg pts hne hp
  simp only [dist_chord] at this
  exact this

/-- Stored GOT and FES models, for batches of longitudes that suit the stored model (see `C71_west_false`,
`C71_east_false` for the others), for any such way to measure distances. -/
theorem interpolate_answers (f : Fmt) (r : Request K) (t : Tree K n)
    (hq : Extrap.KDSpec t.query) (ht : Turns t.pos)
    (files : List (Layer K)) (g : Layer K) (a : K) (hmem : g ∈ files)
    (hax : SameAxes files g.lon g.lat) (hg : ∀ g ∈ files, Global g a) (pts : List (K × K))
    (hne : pts ≠ []) (hp : ∀ p ∈ pts, Place r.method g p) (hf : Fits f g a pts) :
    ∃ s outs, read f none files = .ok (some s) ∧ interpolate f r t s pts = .ok outs ∧
      List.Forall₂ (fun g row => List.Forall₂ (Answers (Meets r.method (globe g a) r.scale) (globe g a) r.scale
        (fun a b => Extrap.dist (t.pos a) (t.pos b)) t.cutoff) pts row) files outs := by
  obtain ⟨s, es, s1, s2, s3⟩ := read_shows f files g a hmem hax hg
  have G := hg g hmem
  have inc : s.lon.Pairwise (· < ·) := by rw [s1]; exact uniform_increasing _ _ G.step0 _
  have two : 2 ≤ s.lon.length := by
    rw [s1, uniform_length]; have := G.three; omega
  obtain ⟨x0, x1, x2, far⟩ := extended_range G f
  rw [← s1] at x0 x1 x2 far
  have zipped : ((pts.map (suit a)).map Prod.fst).zip (pts.map Prod.snd) = pts.map (suit a) := by
    rw [List.map_map, List.zip_map']
    exact List.map_congr_left fun p _ => rfl
  have rows : ∃ outs, pyMap (fun hc => evaluate f r t true s.lon s.lat hc (pts.map (suit a))) s.fields = .ok outs ∧
      List.Forall₂ (fun g row => List.Forall₂ (Answers (Meets r.method (globe g a) r.scale) (globe g a) r.scale
        (fun a b => Extrap.dist (t.pos a) (t.pos b)) t.cutoff) pts row) files outs := by
    have each : ∀ hc ∈ s.fields, ∃ row, evaluate f r t true s.lon s.lat hc (pts.map (suit a)) = .ok row ∧
        ∀ g₁ ∈ files, Shows s.lon s.lat hc (globe g₁ a) (-1) 0 →
          List.Forall₂ (Answers (Meets r.method (globe g₁ a) r.scale) (globe g₁ a) r.scale
            (fun a b => Extrap.dist (t.pos a) (t.pos b)) t.cutoff) pts row := by
      intro hc hmem'
      obtain ⟨g₁, hg₁, hs⟩ := forall₂_right s3 hc hmem'
      have ev : ∀ g₂ ∈ files, Shows s.lon s.lat hc (globe g₂ a) (-1) 0 →
          ∃ row, evaluate f r t true s.lon s.lat hc (pts.map (suit a)) = .ok row ∧
            List.Forall₂ (Answers (Meets r.method (globe g₂ a) r.scale) (globe g₂ a) r.scale
              (fun a b => Extrap.dist (t.pos a) (t.pos b)) t.cutoff) pts row := by
        intro g₂ hg₂ hs₂
        obtain ⟨a1, a2⟩ := hax g₂ hg₂
        have G₂ := hg g₂ hg₂
        obtain ⟨row, e, hrow⟩ := evaluate_inside hs₂ f r t hq
          (covers_globe ht G₂.toEven (g' := ⟨s.lon, s.lat, hc⟩) f (by rw [a1]; exact s1) (by rw [a2]; exact s2))
          true far (pts.map (suit a)) (by
            intro q hq
            obtain ⟨p, hpm, rfl⟩ := List.mem_map.1 hq
            obtain ⟨pl, p1, p2, p3⟩ := suit_range G (hp p hpm)
            exact ⟨by rw [x0]; exact p1, le_trans p2 x1, by rw [s2]; exact pl.south, by rw [s2]; exact pl.north,
              fun e => ⟨lt_of_lt_of_le (p3 e) x1, by rw [s2]; exact (pl.strict e).2.2.2.1,
                by rw [s2]; exact (pl.strict e).2.2.2.2⟩⟩)
        refine ⟨row, e, ?_⟩
        rw [List.forall₂_map_left_iff] at hrow
        exact hrow.imp fun p o hm => Answers.turn ht (Meets.turn (globe_round G₂.toEven)) (suit_same a p) rfl hm
      obtain ⟨row, e, -⟩ := ev g₁ hg₁ hs
      refine ⟨row, e, fun g₂ hg₂ hs₂ => ?_⟩
      obtain ⟨row', e', hr'⟩ := ev g₂ hg₂ hs₂
      rw [e] at e'
      cases e'
      exact hr'
    obtain ⟨outs, e, ho⟩ := pyMap_rel each
    refine ⟨outs, e, ?_⟩
    have s3' : List.Forall₂ (fun g₁ hc => g₁ ∈ files ∧ Shows s.lon s.lat hc (globe g₁ a) (-1) 0)
        files s.fields := forall₂_mem s3
    exact forall₂_trans s3' ho fun g₁ hc row h1 h2 => h2 g₁ h1.1 h1.2
  obtain ⟨outs, eo, ho⟩ := rows
  refine ⟨s, outs, es, ?_, ho⟩
  unfold interpolate
  rw [min?_increasing inc two, max?_increasing inc two]
  simp only
  rw [x0, stored_adjust G f pts hne hf _ x1 x2, ok_bind, zipped, eo]

/-- C112 for GOT and FES models that are read first and interpolated later, for batches of longitudes that
suit the stored model.  Missing for the full claim: the other batches, see `C71_west_false`,
`C71_east_false`. -/
theorem C112_stored_partial (f : Fmt) (r : Request ℝ) (query : Extrap.Query 3)
    (hq : Extrap.KDSpec query) (cutoff : Option ℝ)
    (files : List (Layer ℝ)) (g : Layer ℝ) (a : ℝ) (hmem : g ∈ files)
    (hax : SameAxes files g.lon g.lat) (hg : ∀ g ∈ files, Global g a) (pts : List (ℝ × ℝ))
    (hne : pts ≠ []) (hp : ∀ p ∈ pts, Place r.method g p) (hf : Fits f g a pts) :
    ∃ s outs, read f none files = .ok (some s) ∧ interpolate f r ⟨query, cutoff, onEarth⟩ s pts = .ok outs ∧
      List.Forall₂ (fun g row => List.Forall₂
        (Answers (Meets r.method (globe g a) r.scale) (globe g a) r.scale chord cutoff) pts row) files outs := by
  have := interpolate_answers f r ⟨query, cutoff, onEarth⟩ hq onEarth_turns files g a hmem hax hg pts hne hp hf
  simp only [dist_chord] at this
  exact this

end Verif.Near
