import Verif.Model.ExtractOTIS
import Verif.Spec.Staggered
import Verif.Props.CGrid
import Verif.Props.Extract
/-! The matrices of an OTIS model at the nodes of a quantity show a chart. -/
namespace Verif.Staggered
open Verif Verif.Spec Verif.Extract

variable {K : Type} [Field K] [LinearOrder K] [IsStrictOrderedRing K]
variable {α β γ : Type}

/-! ## Matrices -/

theorem zipMatrix_entry (f : α → β → γ) (a : List (List α)) (b : List (List β)) (j i : ℕ) :
    CGrid.entry (zipMatrix f a b) j i =
      (CGrid.entry a j i).bind fun x => (CGrid.entry b j i).map (f x) := by
  unfold CGrid.entry zipMatrix
  rw [CGrid.zipWith_getElem?']
  cases a[j]? with
  | none => rfl
  | some r =>
    cases b[j]? with
    | none =>
      simp only [Option.bind_some, Option.map_none, Option.bind_none]
      cases r[i]? <;> rfl
    | some r' =>
      simp only [Option.bind_some, Option.map_some]
      rw [CGrid.zipWith_getElem?']

theorem zipMatrix_shape (f : α → β → γ) {a : List (List α)} {b : List (List β)} {ny nx : ℕ}
    (ha : CGrid.Shape a ny nx) (hb : CGrid.Shape b ny nx) : CGrid.Shape (zipMatrix f a b) ny nx := by
  refine ⟨by simp [zipMatrix, ha.1, hb.1], fun r hr => ?_⟩
  obtain ⟨i, hi, rfl⟩ := List.getElem_of_mem hr
  unfold zipMatrix at hi ⊢
  rw [List.getElem_zipWith, List.length_zipWith, ha.2 _ (List.getElem_mem _), hb.2 _ (List.getElem_mem _),
    Nat.min_self]

theorem entry_getD (m : List (List (Fld K))) (j i : ℕ) :
    Extract.entry m j i = (CGrid.entry m j i).getD ⟨0, 0, true⟩ := by
  unfold Extract.entry CGrid.entry
  rw [List.getD_eq_getElem?_getD, List.getD_eq_getElem?_getD]
  cases m[j]? <;> rfl

theorem extendRow_zip (f : α → β → γ) (a : List α) (b : List β) (h : a.length = b.length)
    (h0 : 0 < a.length) :
    ∃ a' b', Grid.extendRow a = .ok a' ∧ Grid.extendRow b = .ok b' ∧ a'.length = a.length + 2 ∧
      b'.length = b.length + 2 ∧
      Grid.extendRow (List.zipWith f a b) = .ok (List.zipWith f a' b') := by
  have ha : a ≠ [] := by rintro rfl; simp at h0
  have hb : b ≠ [] := by rintro rfl; simp at h; exact ha h
  have hz : List.zipWith f a b ≠ [] := by
    intro e
    have := congrArg List.length e
    simp only [List.length_zipWith, List.length_nil] at this
    omega
  have e1 : (List.zipWith f a b).head hz = f (a.head ha) (b.head hb) := by
    cases a with
    | nil => exact absurd rfl ha
    | cons x a =>
      cases b with
      | nil => exact absurd rfl hb
      | cons y b => rfl
  have e2 : (List.zipWith f a b).getLast hz = f (a.getLast ha) (b.getLast hb) := by
    rw [List.getLast_eq_getElem, List.getLast_eq_getElem, List.getLast_eq_getElem, List.getElem_zipWith]
    have : (List.zipWith f a b).length = a.length := by rw [List.length_zipWith]; omega
    congr 1
    · congr 1; omega
    · congr 1; omega
  refine ⟨[a.getLast ha] ++ a ++ [a.head ha], [b.getLast hb] ++ b ++ [b.head hb], ?_, ?_, by simp,
    by simp, ?_⟩
  · simp only [Grid.extendRow, List.head?_eq_some_head ha, List.getLast?_eq_some_getLast ha]
  · simp only [Grid.extendRow, List.head?_eq_some_head hb, List.getLast?_eq_some_getLast hb]
  · simp only [Grid.extendRow, List.head?_eq_some_head hz, List.getLast?_eq_some_getLast hz, e1, e2]
    rw [List.zipWith_append (by simp [h]), List.zipWith_append (by simp)]
    rfl

theorem extendMatrix_zip (f : α → β → γ) {nx : ℕ} (h0 : 0 < nx) :
    ∀ (a : List (List α)) (b : List (List β)), (∀ r ∈ a, r.length = nx) → (∀ r ∈ b, r.length = nx) →
    ∃ a' b', extendMatrix a = .ok a' ∧ extendMatrix b = .ok b' ∧
      (∀ r ∈ a', r.length = nx + 2) ∧ (∀ r ∈ b', r.length = nx + 2) ∧ a'.length = a.length ∧
      b'.length = b.length ∧
      extendMatrix (zipMatrix f a b) = .ok (zipMatrix f a' b')
  | [], [], _, _ => ⟨[], [], rfl, rfl, by simp, by simp, rfl, rfl, rfl⟩
  | [], s :: b, ha, hb => by
    obtain ⟨a', b', e1, e2, l1, l2, l3, l4, e3⟩ := extendMatrix_zip f h0 [] b ha fun r hr => hb r (by simp [hr])
    cases e1
    have hs := hb s (by simp)
    obtain ⟨s', _, es, _, ls, _⟩ := extendRow_zip (fun x _ => x) s s rfl (by omega)
    refine ⟨[], s' :: b', rfl, ?_, by simp, ?_, rfl, by simp [l4], rfl⟩
    · unfold extendMatrix at e2 ⊢
      rw [pyMap, es, e2]
    · intro r hr
      rcases List.mem_cons.1 hr with rfl | hr
      · rw [ls, hs]
      · exact l2 r hr
  | r :: a, [], ha, hb => by
    obtain ⟨a', b', e1, e2, l1, l2, l3, l4, e3⟩ := extendMatrix_zip f h0 a [] (fun r hr => ha r (by simp [hr])) hb
    cases e2
    have hs := ha r (by simp)
    obtain ⟨s', _, es, _, ls, _⟩ := extendRow_zip (fun x _ => x) r r rfl (by omega)
    refine ⟨s' :: a', [], ?_, rfl, ?_, by simp, by simp [l3], rfl, rfl⟩
    · unfold extendMatrix at e1 ⊢
      rw [pyMap, es, e1]
    · intro r hr
      rcases List.mem_cons.1 hr with rfl | hr
      · rw [ls, hs]
      · exact l1 r hr
  | r :: a, s :: b, ha, hb => by
    obtain ⟨a', b', e1, e2, l1, l2, l3, l4, e3⟩ := extendMatrix_zip f h0 a b (fun r hr => ha r (by simp [hr]))
      fun r hr => hb r (by simp [hr])
    have hr := ha r (by simp)
    have hs := hb s (by simp)
    obtain ⟨r', s', er, es, lr, ls, ez⟩ := extendRow_zip f r s (by omega) (by omega)
    refine ⟨r' :: a', s' :: b', ?_, ?_, ?_, ?_, by simp [l3], by simp [l4], ?_⟩
    · unfold extendMatrix at e1 ⊢
      rw [pyMap, er, e1]
    · unfold extendMatrix at e2 ⊢
      rw [pyMap, es, e2]
    · intro t ht
      rcases List.mem_cons.1 ht with rfl | ht
      · rw [lr, hr]
      · exact l1 t ht
    · intro t ht
      rcases List.mem_cons.1 ht with rfl | ht
      · rw [ls, hs]
      · exact l2 t ht
    · unfold extendMatrix zipMatrix at e3 ⊢
      rw [List.zipWith_cons_cons, List.zipWith_cons_cons, pyMap, ez, e3]

/-- Extending two matrices and combining them is the same as extending their combination. -/
theorem extendIf_zip (f : α → β → γ) (glob : Bool) {a : List (List α)} {b : List (List β)} {ny nx : ℕ}
    (h0 : 0 < nx) (ha : CGrid.Shape a ny nx) (hb : CGrid.Shape b ny nx) :
    ∃ a' b', extendIf glob a = .ok a' ∧ extendIf glob b = .ok b' ∧
      extendIf glob (zipMatrix f a b) = .ok (zipMatrix f a' b') := by
  cases glob with
  | false => exact ⟨a, b, rfl, rfl, rfl⟩
  | true =>
    obtain ⟨a', b', e1, e2, -, -, -, -, e3⟩ := extendMatrix_zip f h0 a b ha.2 hb.2
    exact ⟨a', b', e1, e2, e3⟩

theorem shape_lengths {a : List (List α)} {b : List (List β)} {ny nx : ℕ} (ha : CGrid.Shape a ny nx)
    (hb : CGrid.Shape b ny nx) : a.map List.length = b.map List.length := by
  rw [List.map_eq_replicate_iff.2 ha.2, List.map_eq_replicate_iff.2 hb.2, ha.1, hb.1]

theorem extendIf_lengths (glob : Bool) {a a' : List (List α)} {b b' : List (List β)} {ny nx : ℕ}
    (h0 : 0 < nx) (ha : CGrid.Shape a ny nx) (hb : CGrid.Shape b ny nx) (e1 : extendIf glob a = .ok a')
    (e2 : extendIf glob b = .ok b') : a'.map List.length = b'.map List.length := by
  cases glob with
  | false => cases e1; cases e2; exact shape_lengths ha hb
  | true =>
    obtain ⟨a'', b'', g1, g2, l1, l2, l3, l4, -⟩ := extendMatrix_zip (fun x _ => x) h0 a b ha.2 hb.2
    change extendMatrix a = _ at e1
    change extendMatrix b = _ at e2
    rw [g1] at e1
    rw [g2] at e2
    cases e1
    cases e2
    exact shape_lengths ⟨l3.trans ha.1, l1⟩ ⟨l4.trans hb.1, l2⟩

/-! ## Depths at the nodes -/

theorem adjacentX_shape (op : α → α → α) (wrap : Bool) {m : List (List α)} {ny nx : ℕ} (h0 : 0 < nx)
    (h : CGrid.Shape m ny nx) : CGrid.Shape (CGrid.adjacentX op wrap m) ny nx := by
  refine ⟨by simp [CGrid.adjacentX, h.1], fun r hr => ?_⟩
  obtain ⟨row, hrow, rfl⟩ := List.mem_map.1 hr
  have hl := h.2 row hrow
  have hne : row ≠ [] := by rintro rfl; simp at hl; omega
  obtain ⟨a, ha, -⟩ := CGrid.padLeft_eq wrap row hne
  rw [ha]
  simp [hl]

theorem adjacentY_shape (op : α → α → α) {m : List (List α)} {ny nx : ℕ} (h0 : 0 < ny)
    (h : CGrid.Shape m ny nx) : CGrid.Shape (CGrid.adjacentY op m) ny nx := by
  have hne : m ≠ [] := by rintro rfl; have := h.1; simp at this; omega
  obtain ⟨a, ha, hw⟩ := CGrid.padLeft_eq false m hne
  unfold CGrid.adjacentY
  rw [ha]
  have hall : ∀ r ∈ a :: m, r.length = nx := by
    intro r hr
    rcases List.mem_cons.1 hr with rfl | hr
    · exact h.2 _ (List.mem_of_getElem? hw)
    · exact h.2 r hr
  refine ⟨by simp [h.1], fun r hr => ?_⟩
  obtain ⟨i, hi, rfl⟩ := List.getElem_of_mem hr
  rw [List.getElem_zipWith, List.length_zipWith,
    hall _ ((List.dropLast_sublist _).subset (List.getElem_mem _)),
    hall _ (List.mem_of_mem_tail (List.getElem_mem _)), Nat.min_self]

theorem maskNodes_shape {hz : List (List K)} {ny nx : ℕ} (hy : 0 < ny) (hx : 0 < nx)
    (h : CGrid.Shape hz ny nx) (glob : Bool) :
    CGrid.Shape (CGrid.maskNodes hz glob).1 ny nx ∧ CGrid.Shape (CGrid.maskNodes hz glob).2 ny nx := by
  unfold CGrid.maskNodes CGrid.interpolateMask
  exact ⟨adjacentX_shape _ _ hx (CGrid.shape_map _ _ _ _ h), adjacentY_shape _ hy (CGrid.shape_map _ _ _ _ h)⟩

theorem interpolateZeta_shape {hz : List (List K)} {ny nx : ℕ} (hy : 0 < ny) (hx : 0 < nx)
    (h : CGrid.Shape hz ny nx) (glob : Bool) :
    CGrid.Shape (CGrid.interpolateZeta hz glob).1 ny nx ∧
      CGrid.Shape (CGrid.interpolateZeta hz glob).2 ny nx := by
  have hm := maskNodes_shape hy hx h true
  unfold CGrid.interpolateZeta
  exact ⟨zipMatrix_shape _ hm.1 (adjacentX_shape _ _ hx h), zipMatrix_shape _ hm.2 (adjacentY_shape _ hy h)⟩

/-- The depths at the nodes before the extension. -/
def bare (node : Node) (glob : Bool) (hz : List (List K)) (sea : List (List Bool)) : List (List (Fld K)) :=
  match node with
  | .z => zipMatrix (fun a b => ⟨a, 0, decide (a = 0) || !b⟩) hz sea
  | .u => zipMatrix (fun a b => ⟨a, 0, decide (a = 0) || decide (b = 0)⟩)
      (CGrid.interpolateZeta hz glob).1 (CGrid.maskNodes hz glob).1
  | .v => zipMatrix (fun a b => ⟨a, 0, decide (a = 0) || decide (b = 0)⟩)
      (CGrid.interpolateZeta hz glob).2 (CGrid.maskNodes hz glob).2

theorem depths_eq (node : Node) (glob : Bool) {hz : List (List K)} {sea : List (List Bool)} {ny nx : ℕ}
    (hy : 0 < ny) (hx : 0 < nx) (h : CGrid.Shape hz ny nx) (h' : CGrid.Shape sea ny nx) :
    depths node glob hz sea = extendIf glob (bare node glob hz sea) ∧
      CGrid.Shape (bare node glob hz sea) ny nx := by
  cases node with
  | z =>
    obtain ⟨a', b', e1, e2, e3⟩ := extendIf_zip (fun a b => (⟨a, 0, decide (a = 0) || !b⟩ : Fld K)) glob hx h h'
    refine ⟨?_, zipMatrix_shape _ h h'⟩
    unfold depths bare
    simp only
    rw [e1, ok_bind, e2, ok_bind, e3]
  | u =>
    have s1 := (interpolateZeta_shape hy hx h glob).1
    have s2 := (maskNodes_shape hy hx h glob).1
    obtain ⟨a', b', e1, e2, e3⟩ := extendIf_zip
      (fun (a : K) (b : ℤ) => (⟨a, 0, decide (a = 0) || decide (b = 0)⟩ : Fld K)) glob hx s1 s2
    refine ⟨?_, zipMatrix_shape _ s1 s2⟩
    unfold depths bare
    simp only
    rw [e1, ok_bind, e2, ok_bind, e3]
  | v =>
    have s1 := (interpolateZeta_shape hy hx h glob).2
    have s2 := (maskNodes_shape hy hx h glob).2
    obtain ⟨a', b', e1, e2, e3⟩ := extendIf_zip
      (fun (a : K) (b : ℤ) => (⟨a, 0, decide (a = 0) || decide (b = 0)⟩ : Fld K)) glob hx s1 s2
    refine ⟨?_, zipMatrix_shape _ s1 s2⟩
    unfold depths bare
    simp only
    rw [e1, ok_bind, e2, ok_bind, e3]

/-- The points of the chart a node stands for. -/
def Node.points : Node → Points
  | .z => .elevation
  | .u => .zonal
  | .v => .meridional

/-- The grid file says what is in the sea `S`. -/
structure Reads (s : Site K) (glob : Bool) (S : Sea K) : Prop where
  asc : Ascending s.x s.y
  two : 2 ≤ s.x.length
  two' : 2 ≤ s.y.length
  depths : CGrid.Shape s.hz s.y.length s.x.length
  mask : CGrid.Shape s.sea s.y.length s.x.length
  lon : ∀ c : ℕ, c < s.x.length → s.x.getD c 0 = S.lon c
  lat : ∀ r : ℕ, r < s.y.length → s.y.getD r 0 = S.lat r
  col : ∀ c : ℕ, c < s.x.length → S.cols c
  row : ∀ r : ℕ, r < s.y.length → S.rows r
  depth : ∀ r c : ℕ, r < s.y.length → c < s.x.length → CGrid.entry s.hz r c = some (S.depth c r)
  sea : ∀ r c : ℕ, r < s.y.length → c < s.x.length → CGrid.entry s.sea r c = some (S.sea c r)
  west : ∀ r c : ℕ, r < s.y.length → c < s.x.length →
    CGrid.entry s.hz r (CGrid.west glob s.x.length c) = some (S.depth (S.west c) r)
  south : ∀ r c : ℕ, r < s.y.length → c < s.x.length →
    CGrid.entry s.hz (CGrid.south r) c = some (S.depth c (S.south r))
  dx : step s.x = .ok S.dx
  dy : step s.y = .ok S.dy

/-- The first column of zonal currents of a region: the code takes the last column for its western
neighbour when it masks the depths. -/
def Rim (s : Site K) (glob : Bool) (S : Sea K) (node : Node) : Prop :=
  node = .u → glob = false → ∀ r : ℕ, r < s.y.length → 0 < S.depth 0 r →
    0 < S.depth ((s.x.length - 1 : ℕ) : ℤ) r

theorem bare_entry {s : Site K} {glob : Bool} {S : Sea K} (h : Reads s glob S) {node : Node}
    (rim : Rim s glob S node) {r c : ℕ} (hr : r < s.y.length) (hc : c < s.x.length) :
    CGrid.entry (bare node glob s.hz s.sea) r c = some (if S.Wet node.points c r then
        ⟨S.water node.points c r, 0, false⟩ else
        ⟨(if node = .z then S.depth c r else 0), 0, true⟩) := by
  have e1 := h.depth r c hr hc
  cases node with
  | z =>
    unfold bare
    simp only
    rw [zipMatrix_entry, e1, h.sea r c hr hc]
    simp only [Option.bind_some, Option.map_some, Node.points, Sea.Wet, Sea.water, if_true]
    by_cases h0 : S.depth c r = 0 <;> cases hs : S.sea c r <;> simp [h0]
  | u =>
    have e2 := h.west r c hr hc
    have m := CGrid.C48_u_mask s.hz glob _ _ r c h.depths hr hc _ _ e1 e2
    have d : CGrid.entry (CGrid.interpolateZeta s.hz glob).1 r c = some
        (if 0 < S.depth (S.west c) r ∧ 0 < S.depth c r then (S.depth (S.west c) r + S.depth c r) / 2 else 0) := by
      by_cases hcol : glob = true ∨ c ≠ 0
      · exact CGrid.C48_u_depth_partial s.hz glob _ _ r c h.depths hr hc hcol _ _ e1 e2
      · obtain ⟨hg, rfl⟩ : glob = false ∧ c = 0 := by
          rw [not_or, not_not] at hcol
          exact ⟨by simpa using hcol.1, hcol.2⟩
        subst hg
        have e3 := h.depth r (s.x.length - 1) hr (by omega)
        rw [CGrid.C48_u_depth_first_column s.hz _ _ r h.depths hr hc _ _ e1 e3]
        have e4 : S.depth (S.west ((0 : ℕ) : ℤ)) r = S.depth ((0 : ℕ) : ℤ) r := by
          rw [show CGrid.west false s.x.length 0 = 0 from rfl, e1] at e2
          exact (Option.some.inj e2).symm
        rw [e4]
        by_cases hp : 0 < S.depth ((0 : ℕ) : ℤ) r
        · rw [if_pos ⟨rim rfl rfl r hr hp, hp⟩, if_pos ⟨hp, hp⟩]
          congr 1
          ring
        · rw [if_neg (fun e => hp e.2), if_neg (fun e => hp e.2)]
    unfold bare
    simp only
    rw [zipMatrix_entry, d, m]
    simp only [Option.bind_some, Option.map_some, Node.points, Sea.Wet, Sea.water]
    by_cases hw : 0 < S.depth (S.west c) r ∧ 0 < S.depth c r
    · have : (S.depth (S.west c) r + S.depth c r) / 2 ≠ 0 := by
        have := hw.1
        have := hw.2
        positivity
      simp [hw, this]
    · simp [hw]
  | v =>
    have e2 := h.south r c hr hc
    have m := CGrid.C48_v_mask s.hz glob _ _ r c h.depths hr _ _ e1 e2
    have d := CGrid.C48_v_depth s.hz glob _ _ r c h.depths hr _ _ e1 e2
    unfold bare
    simp only
    rw [zipMatrix_entry, d, m]
    simp only [Option.bind_some, Option.map_some, Node.points, Sea.Wet, Sea.water]
    by_cases hw : 0 < S.depth c (S.south r) ∧ 0 < S.depth c r
    · have : (S.depth c (S.south r) + S.depth c r) / 2 ≠ 0 := by
        have := hw.1
        have := hw.2
        positivity
      simp [hw, this]
    · simp [hw]

/-! ## Charts -/

theorem map_sub_pairwise {l : List K} (t : K) (h : l.Pairwise (· < ·)) :
    (l.map (· - t)).Pairwise (· < ·) := by
  rw [List.pairwise_map]
  exact h.imp fun h => by linarith

theorem nodeX_getD (node : Node) (d : K) (x : List K) (c : ℕ) (h : c < x.length) :
    (nodeX node d x).getD c 0 = (if node = .u then x.getD c 0 - d / 2 else x.getD c 0) := by
  unfold nodeX
  by_cases e : node = .u
  · rw [if_pos e, if_pos e, getD_map_lt _ _ _ 0 _ h]
  · rw [if_neg e, if_neg e]

theorem nodeY_getD (node : Node) (d : K) (y : List K) (c : ℕ) (h : c < y.length) :
    (nodeY node d y).getD c 0 = (if node = .v then y.getD c 0 - d / 2 else y.getD c 0) := by
  unfold nodeY
  by_cases e : node = .v
  · rw [if_pos e, if_pos e, getD_map_lt _ _ _ 0 _ h]
  · rw [if_neg e, if_neg e]

theorem nodeX_length (node : Node) (d : K) (x : List K) : (nodeX node d x).length = x.length := by
  unfold nodeX; split_ifs <;> simp

theorem nodeY_length (node : Node) (d : K) (x : List K) : (nodeY node d x).length = x.length := by
  unfold nodeY; split_ifs <;> simp

theorem node_ascending (node : Node) (dx dy : K) {x y : List K} (h : Ascending x y) :
    Ascending (nodeX node dx x) (nodeY node dy y) := by
  unfold nodeX nodeY
  refine ⟨?_, ?_⟩
  · split_ifs
    · exact map_sub_pairwise _ h.1
    · exact h.1
  · split_ifs
    · exact map_sub_pairwise _ h.2
    · exact h.2

/-- Elements with the mask of the depths. -/
def masked (hc bath : List (List (Fld K))) : List (List (Fld K)) :=
  zipMatrix (fun c b => ⟨c.re, c.im, c.masked || b.masked⟩) hc bath

/-- The matrix of a constituent in its file, by column and row. -/
structure Holds (hc : List (List (Fld K))) (s : Site K) (value : ℤ → ℤ → Option (K × K)) : Prop where
  shape : CGrid.Shape hc s.y.length s.x.length
  value : ∀ r c : ℕ, r < s.y.length → c < s.x.length → (Extract.entry hc r c).number = value c r

theorem bare_shows {s : Site K} {glob : Bool} {S : Sea K} (h : Reads s glob S) {node : Node}
    (rim : Rim s glob S node) :
    Shows (nodeX node S.dx s.x) (nodeY node S.dy s.y) (bare node glob s.hz s.sea) (S.depths node.points) 0 0 := by
  have h2 := h.two
  have h2' := h.two'
  have sh := (depths_eq node glob (by omega) (by omega) h.depths h.mask).2
  refine ⟨node_ascending _ _ _ h.asc, by rwa [nodeX_length], by rwa [nodeY_length],
    by rw [nodeY_length]; exact sh.1, by rw [nodeX_length]; exact sh.2, ?_, ?_, ?_, ?_, ?_⟩
  · intro c hc
    rw [nodeX_length] at hc
    rw [nodeX_getD _ _ _ _ hc, h.lon c hc, zero_add]
    cases node <;> simp [Sea.depths, Sea.chart, Node.points]
  · intro r hr
    rw [nodeY_length] at hr
    rw [nodeY_getD _ _ _ _ hr, h.lat r hr, zero_add]
    cases node <;> simp [Sea.depths, Sea.chart, Node.points]
  · intro c hc
    rw [nodeX_length] at hc
    rw [zero_add]
    exact h.col c hc
  · intro r hr
    rw [nodeY_length] at hr
    rw [zero_add]
    exact h.row r hr
  · intro r c hr hc
    rw [nodeX_length] at hc
    rw [nodeY_length] at hr
    rw [entry_getD, bare_entry h rim hr hc, zero_add, zero_add]
    simp only [Sea.depths, Sea.chart, Option.getD_some]
    by_cases hw : S.Wet node.points c r
    · rw [if_pos hw, if_pos hw]; rfl
    · rw [if_neg hw, if_neg hw]; rfl

theorem masked_shows {s : Site K} {glob : Bool} {S : Sea K} (h : Reads s glob S) {node : Node}
    (rim : Rim s glob S node) {hc : List (List (Fld K))} {value : ℤ → ℤ → Option (K × K)}
    (hv : Holds hc s value) :
    Shows (nodeX node S.dx s.x) (nodeY node S.dy s.y) (masked hc (bare node glob s.hz s.sea))
      (S.chart node.points value) 0 0 := by
  have b := bare_shows h rim
  have h2 := h.two
  have h2' := h.two'
  have sh := (depths_eq node glob (by omega) (by omega) h.depths h.mask).2
  have ms := zipMatrix_shape (fun (c b : Fld K) => (⟨c.re, c.im, c.masked || b.masked⟩ : Fld K)) hv.shape sh
  refine ⟨b.asc, b.two, b.two', by rw [nodeY_length]; exact ms.1, by rw [nodeX_length]; exact ms.2,
    b.lon, b.lat, b.col, b.row, ?_⟩
  intro r c hr hl
  rw [nodeX_length] at hl
  rw [nodeY_length] at hr
  obtain ⟨e, he⟩ := CGrid.entry_of_lt hc _ _ r c hv.shape hr hl
  have hn := hv.value r c hr hl
  rw [entry_getD, he, Option.getD_some] at hn
  unfold masked
  rw [entry_getD, zipMatrix_entry, he, bare_entry h rim hr hl, zero_add, zero_add]
  simp only [Sea.chart, Option.bind_some, Option.map_some, Option.getD_some]
  by_cases hw : S.Wet node.points c r
  · rw [if_pos hw, if_pos hw, ← hn, Bool.or_false]
  · rw [if_neg hw, if_neg hw, Bool.or_true]
    rfl

/-! ## Interpolation at one point -/

theorem mask_congr (ax ay : Interp.Axis K) (d d' : ℕ → ℕ → Interp.Cell K) (f f' : Option K) (lon lat : K)
    (hm : ∀ j i, (d j i).masked = (d' j i).masked) (hv : ∀ j i, (d j i).valid = (d' j i).valid)
    {o o' : Interp.Cell K} (e : Interp.bilinear ax ay d f lon lat = .ok o)
    (e' : Interp.bilinear ax ay d' f' lon lat = .ok o') : o.masked = o'.masked := by
  have key : ∀ ix iy, (Interp.cell ax ay d f lon lat ix iy).masked = (Interp.cell ax ay d' f' lon lat ix iy).masked := by
    intro ix iy
    unfold Interp.cell
    have ha : ∀ a b c e : K, ([(a, d iy ix), (b, d iy (ix + 1)), (c, d (iy + 1) ix),
        (e, d (iy + 1) (ix + 1))].any fun p => p.2.valid) = ([(a, d' iy ix), (b, d' iy (ix + 1)),
        (c, d' (iy + 1) ix), (e, d' (iy + 1) (ix + 1))].any fun p => p.2.valid) := by
      intro a b c e
      simp only [List.any_cons, List.any_nil, hv]
    dsimp only
    rw [ha]
    simp only [apply_ite Interp.Cell.masked, hm]
  unfold Interp.bilinear at e e'
  split at e
  · rename_i x0 x1 y0 y1 h1 h2 h3 h4
    rw [h1, h2, h3, h4] at e'
    simp only at e'
    by_cases hin : x0 ≤ lon ∧ lon ≤ x1 ∧ y0 < lat ∧ lat < y1
    · rw [if_pos hin] at e e'
      split at e
      · rename_i g1 g2
        rw [g1, g2] at e'
        cases e
        cases e'
        exact key _ _
      · cases e
    · rw [if_neg hin] at e e'
      cases e
      cases e'
      rfl
  · cases e


/-- The constant a user expects, given the interpolated number and the interpolated depth: for a
velocity in centimetres per second a transport is divided by the depth. -/
def current (speed : Bool) : Option (K × K) → Option (K × K) → Out K
  | some z, some d => .val z.1 z.2 (if speed then 100 / d.1 else 1)
  | _, _ => .masked

/-- What a user expects at a place, given the chart `T` of the quantity in the files and the chart `H`
of depths.  `'spline'`: bilinear interpolation, masked next to land; `'linear'`: the same, unless the
number is the one that marks missing values; `'bilinear'`: the mean of the surrounding points in the
sea, or the value of a point next to the place. -/
def Agrees (m : Method) (speed : Bool) (T H : Chart K) (q : K × K) (o : Out K) : Prop :=
  match m with
  | .spline => ∃ v w, T.Value q.1 q.2 v ∧ H.Value q.1 q.2 w ∧ o = current speed v w
  | .linear => ∃ v w, T.Value q.1 q.2 v ∧ H.Value q.1 q.2 w ∧
      o = current speed (if v = some (10 ^ 20, 0) then none else v) w
  | .bilinear => ∃ v w, (T.Mean q.1 q.2 v ∨ Close T q.1 q.2 v) ∧ (H.Mean q.1 q.2 w ∨ Close H q.1 q.2 w) ∧
      o = current speed v w

/-- The depth a user expects. -/
def Sounds (m : Method) (H : Chart K) (q : K × K) (d : Option K) : Prop :=
  match m with
  | .bilinear => ∃ w, (H.Mean q.1 q.2 w ∨ Close H q.1 q.2 w) ∧ d = w.map Prod.fst
  | _ => ∃ w, H.Value q.1 q.2 w ∧ d = w.map Prod.fst

/-- All depths are positive. -/
def Positive (H : Chart K) : Prop := ∀ k j z, H.value k j = some z → 0 < z.1

theorem corners_positive {H : Chart K} (hp : Positive H) (k j : ℤ) {t s : K} (t0 : 0 ≤ t) (t1 : t ≤ 1)
    (s0 : 0 ≤ s) (s1 : s ≤ 1) : ∀ p ∈ H.corners k j t s, 0 ≤ p.1 ∧ (p.2 ≠ none → 0 < (p.2.getD (0, 0)).1) := by
  have n1 : 0 ≤ 1 - t := by linarith
  have n2 : 0 ≤ 1 - s := by linarith
  have g : ∀ k j, H.value k j ≠ none → 0 < ((H.value k j).getD (0, 0)).1 := by
    intro k j h
    cases e : H.value k j with
    | none => exact absurd e h
    | some z => exact hp k j z e
  intro p hm
  unfold Chart.corners at hm
  simp only [List.mem_cons, List.not_mem_nil, or_false] at hm
  rcases hm with rfl | rfl | rfl | rfl
  · exact ⟨mul_nonneg n1 n2, g _ _⟩
  · exact ⟨mul_nonneg t0 n2, g _ _⟩
  · exact ⟨mul_nonneg n1 s0, g _ _⟩
  · exact ⟨mul_nonneg t0 s0, g _ _⟩

theorem sum_pos {ι : Type} (l : List ι) (f : ι → K) (h : ∀ a ∈ l, 0 ≤ f a) (b : ι) (hb : b ∈ l)
    (h1 : 0 < f b) : 0 < (l.map f).sum := by
  induction l with
  | nil => simp at hb
  | cons a l ih =>
    rw [List.map_cons, List.sum_cons]
    have n : 0 ≤ (l.map f).sum := List.sum_nonneg fun x hx => by
      obtain ⟨a, ha, rfl⟩ := List.mem_map.1 hx
      exact h a (by simp [ha])
    rcases List.mem_cons.1 hb with rfl | hb
    · linarith
    · have := ih (fun a ha => h a (by simp [ha])) hb
      have := h a (by simp)
      linarith

theorem Positive.value {H : Chart K} (hp : Positive H) {x y : K} {w : K × K}
    (h : H.Value x y (some w)) : 0 < w.1 := by
  obtain ⟨k, j, t, s, at', e⟩ := h
  have cp := corners_positive hp k j at'.t0 at'.t1 at'.s0 at'.s1
  unfold Chart.blend at e
  by_cases hc : ∀ p ∈ H.corners k j t s, p.1 ≠ 0 → p.2 ≠ none
  · rw [if_pos hc] at e
    rw [Option.some.inj e]
    have one : ((H.corners k j t s).map Prod.fst).sum = 1 := by
      simp only [Chart.corners, List.map_cons, List.map_nil, List.sum_cons, List.sum_nil]
      ring
    obtain ⟨p, hpm, hp0⟩ : ∃ p ∈ H.corners k j t s, p.1 ≠ 0 := by
      by_contra hn
      push Not at hn
      have : ((H.corners k j t s).map Prod.fst).sum = 0 := List.sum_eq_zero fun x hx => by
        obtain ⟨p, h1, rfl⟩ := List.mem_map.1 hx
        exact hn p h1
      rw [one] at this
      exact one_ne_zero this
    refine sum_pos _ _ (fun a ha => ?_) p hpm ?_
    · by_cases h0 : a.1 = 0
      · rw [h0, zero_mul]
      · exact mul_nonneg (cp a ha).1 ((cp a ha).2 (hc a ha h0)).le
    · exact mul_pos (lt_of_le_of_ne (cp p hpm).1 (Ne.symm hp0)) ((cp p hpm).2 (hc p hpm hp0))
  · rw [if_neg hc] at e
    cases e

theorem Positive.mean {H : Chart K} (hp : Positive H) {x y : K} {w : K × K}
    (h : H.Mean x y (some w)) : 0 < w.1 := by
  obtain ⟨k, j, t, s, at', e⟩ := h
  have cp := corners_positive hp k j at'.t0 at'.t1 at'.s0 at'.s1
  have sh : ∀ p ∈ H.corners k j t s, 0 ≤ Chart.share p ∧ (Chart.share p ≠ 0 → p.2 ≠ none) := by
    intro p hm
    unfold Chart.share
    by_cases h0 : p.2 = none
    · rw [if_pos h0]; exact ⟨le_rfl, fun e => absurd rfl e⟩
    · rw [if_neg h0]; exact ⟨(cp p hm).1, fun _ => h0⟩
  unfold Chart.mean at e
  by_cases hc : ((H.corners k j t s).map Chart.share).sum = 0
  · rw [if_pos hc] at e
    cases e
  · rw [if_neg hc] at e
    rw [Option.some.inj e]
    obtain ⟨p, hpm, hp0⟩ : ∃ p ∈ H.corners k j t s, Chart.share p ≠ 0 := by
      by_contra hn
      push Not at hn
      exact hc (List.sum_eq_zero fun x hx => by
        obtain ⟨p, h1, rfl⟩ := List.mem_map.1 hx
        exact hn p h1)
    refine div_pos (sum_pos _ _ (fun a ha => ?_) p hpm ?_) (sum_pos _ _ (fun a ha => (sh a ha).1) p hpm ?_)
    · by_cases h0 : Chart.share a = 0
      · rw [h0, zero_mul]
      · exact mul_nonneg (sh a ha).1 ((cp a ha).2 ((sh a ha).2 h0)).le
    · exact mul_pos (lt_of_le_of_ne (sh p hpm).1 (Ne.symm hp0)) ((cp p hpm).2 ((sh p hpm).2 hp0))
    · exact lt_of_le_of_ne (sh p hpm).1 (Ne.symm hp0)

theorem Positive.close {H : Chart K} (hp : Positive H) {x y : K} {w : K × K}
    (h : Close H x y (some w)) : 0 < w.1 := by
  obtain ⟨k, j, -, -, -, -, e⟩ := h
  exact hp k j w e.symm

theorem factor_eq {speed : Bool} {H : Chart K} (hp : speed = true → Positive H) {d : K × K}
    (h : Positive H → 0 < d.1) : factor speed (some d.1) = if speed then 100 / d.1 else 1 := by
  unfold factor
  cases speed with
  | false => rfl
  | true => simp only [if_true]; rw [if_neg (h (hp rfl)).ne']

/-- The masks of two matrices are the same. -/
def SameMask (hc bath : List (List (Fld K))) : Prop :=
  ∀ j i, (Extract.entry hc j i).masked = (Extract.entry bath j i).masked

/-- No element that is not masked is zero. -/
def Nonzero (hc : List (List (Fld K))) : Prop :=
  ∀ j i, (Extract.entry hc j i).masked = false → ¬ ((Extract.entry hc j i).re = 0 ∧ (Extract.entry hc j i).im = 0)

theorem maskRows_same {x y : List K} {hc bath : List (List (Fld K))} {T H : Chart K} {k0 j0 : ℤ}
    (ht : Shows x y hc T k0 j0) (hb : Shows x y bath H k0 j0) (h : SameMask hc bath) :
    maskRows hc = maskRows bath := by
  unfold maskRows
  refine List.ext_getElem (by simp [ht.height, hb.height]) fun j h1 h2 => ?_
  rw [List.length_map] at h1 h2
  rw [List.getElem_map, List.getElem_map]
  have w1 := ht.width _ (List.getElem_mem h1)
  have w2 := hb.width _ (List.getElem_mem h2)
  refine List.ext_getElem (by simp only [List.length_map]; rw [w1, w2]) fun i g1 g2 => ?_
  rw [List.length_map] at g1 g2
  rw [List.getElem_map, List.getElem_map]
  have := h j i
  unfold Extract.entry at this
  simp only [List.getD_eq_getElem?_getD, List.getElem?_eq_getElem h1, List.getElem?_eq_getElem h2,
    Option.getD_some, List.getElem?_eq_getElem g1, List.getElem?_eq_getElem g2] at this
  rw [this]

theorem fillZeros_eq {hc : List (List (Fld K))} (h : Nonzero hc) : fillZeros hc = fillMasked hc := by
  unfold fillZeros fillMasked
  refine List.ext_getElem (by simp) fun j h1 h2 => ?_
  rw [List.length_map] at h1
  rw [List.getElem_map, List.getElem_map]
  refine List.ext_getElem (by simp) fun i g1 g2 => ?_
  rw [List.length_map] at g1
  rw [List.getElem_map, List.getElem_map]
  have := h j i
  unfold Extract.entry at this
  simp only [List.getD_eq_getElem?_getD, List.getElem?_eq_getElem h1, Option.getD_some,
    List.getElem?_eq_getElem g1] at this
  cases hm : (hc[j][i]).masked
  · simp [this hm]
  · simp

theorem fillMasked_same {hc bath : List (List (Fld K))} (h : SameMask hc bath) :
    SameMask (fillMasked hc) bath := by
  intro j i
  rw [← h j i]
  unfold Extract.entry fillMasked
  simp only [List.getD_eq_getElem?_getD, List.getElem?_map]
  cases hc[j]? with
  | none => rfl
  | some r =>
    simp only [Option.map_some, Option.getD_some, List.getElem?_map]
    cases r[i]? with
    | none => rfl
    | some c =>
      simp only [Option.map_some, Option.getD_some]
      cases hm : c.masked <;> simp [hm]

theorem splines_mask {x y : List K} {hc bath : List (List (Fld K))} (e : maskRows hc = maskRows bath)
    {a b : K} {z z' : K × K} {m m' : Bool} (h : splineC x y hc a b = .ok (z, m))
    (h' : splineC x y bath a b = .ok (z', m')) : m = m' := by
  unfold splineC at h h'
  rw [e] at h
  by_cases hs : Spans x y
  · rw [if_pos hs] at h h'
    cases h
    cases h'
    rfl
  · rw [if_neg hs] at h
    cases h

/-- The first number if there is a second one. -/
def both : Option (K × K) → Option (K × K) → Option (K × K)
  | some z, some _ => some z
  | _, _ => none

/-- The depth and a constant at a place inside matrices that show the charts. -/
theorem point {x y : List K} {hc bath : List (List (Fld K))} {T H : Chart K} {k0 j0 : ℤ}
    (ht : Shows x y hc T k0 j0) (hb : Shows x y bath H k0 j0) (m : Method) (stored speed : Bool)
    (q : K × K) (a1 : x.getD 0 0 ≤ q.1) (a2 : q.1 ≤ x.getD (x.length - 1) 0)
    (b1 : y.getD 0 0 ≤ q.2) (b2 : q.2 ≤ y.getD (y.length - 1) 0)
    (far : m = .bilinear → ∀ c : ℕ, c < x.length → |x.getD c 0| ≤ 720)
    (strict : m = .bilinear → q.1 < x.getD (x.length - 1) 0 ∧ y.getD 0 0 < q.2 ∧
      q.2 < y.getD (y.length - 1) 0)
    (same : (m = .spline ∧ stored = false) ∨ SameMask hc bath)
    (full : m = .spline ∨ (m = .linear ∧ stored = false) ∨ Nonzero hc)
    (pos : speed = true → Positive H) :
    ∃ d o, depthAt m x y bath q = .ok d ∧ constantAt m stored x y hc d q = .ok o ∧ Sounds m H q d ∧
      Agrees m speed T H q (match o with
        | some z => .val z.1 z.2 (factor speed d)
        | none => .masked) := by
  cases m with
  | spline =>
    obtain ⟨w, hw, z', m', e', -, em', ez'⟩ := splines_value hb q.1 q.2 a1 a2 b1 b2
    obtain ⟨v, hv, z, k, e, -, em, ez⟩ := splines_value ht q.1 q.2 a1 a2 b1 b2
    have hd : depthAt .spline x y bath q = .ok (w.map Prod.fst) := by
      unfold depthAt
      simp only
      rw [e', ok_bind]
      subst em'
      cases w with
      | none => rfl
      | some w => rw [ez' w rfl]; rfl
    have imp : stored = true → v = none → w = none := by
      intro hs hn
      rcases same with g | g
      · rw [g.2] at hs; cases hs
      · have := splines_mask (maskRows_same ht hb g) e e'
        rw [em, em', hn] at this
        exact Option.isNone_iff_eq_none.1 this.symm
    refine ⟨w.map Prod.fst, both v w, hd, ?_,
      ⟨w, hw, rfl⟩, v, w, hv, hw, ?_⟩
    · unfold constantAt
      simp only
      rw [e, ok_bind]
      subst em
      cases w with
      | none => cases v <;> cases stored <;> rfl
      | some w =>
        cases v with
        | some v => rw [ez v rfl]; rfl
        | none =>
          cases stored with
          | false => rfl
          | true => exact absurd (imp rfl rfl) (by simp)
    · cases v with
      | none => cases w <;> rfl
      | some v =>
        cases w with
        | none => rfl
        | some w =>
          simp only [current, both, Option.map_some]
          rw [factor_eq pos fun hp => hp.value hw]
  | linear =>
    have same' : SameMask hc bath := same.resolve_left fun e => by cases e.1
    obtain ⟨hc', hh, hs, hm⟩ : ∃ hc', (if stored then fillZeros hc else hc) = hc' ∧
        Shows x y hc' T k0 j0 ∧ SameMask hc' bath := by
      cases stored with
      | false => exact ⟨hc, rfl, ht, same'⟩
      | true =>
        have nz : Nonzero hc := (full.resolve_left (by simp)).resolve_left fun e => by cases e.2
        exact ⟨_, rfl, by simp only [if_true]; rw [fillZeros_eq nz]; exact ht.filled,
          by simp only [if_true]; rw [fillZeros_eq nz]; exact fillMasked_same same'⟩
    obtain ⟨w, hw, z', m', es', e', em', ez'⟩ := splines_value hb q.1 q.2 a1 a2 b1 b2
    obtain ⟨v, hv, z, k, es, e, em, ez⟩ := splines_value hs q.1 q.2 a1 a2 b1 b2
    have mm := splines_mask (maskRows_same hs hb hm) es es'
    have hd : depthAt .linear x y bath q = .ok (w.map Prod.fst) := by
      unfold depthAt
      simp only
      rw [e', ok_bind]
      subst em'
      cases w with
      | none => rfl
      | some w => rw [ez' w rfl]; rfl
    refine ⟨w.map Prod.fst, both (if v = some (10 ^ 20, 0) then none else v) w, hd, ?_, ⟨w, hw, rfl⟩, v, w, hv, hw, ?_⟩
    · unfold constantAt
      simp only
      rw [hh, e, ok_bind]
      rw [em, em'] at mm
      cases w with
      | none =>
        rw [show v = none from Option.isNone_iff_eq_none.1 mm]
        simp [both]
      | some w =>
        cases v with
        | none => cases mm
        | some v =>
          rw [ez v rfl]
          by_cases hf : v = (10 ^ 20, 0)
          · simp [hf, fillRe, both]
          · simp [hf, fillRe, both]
    · obtain ⟨v', hv'⟩ : ∃ v', v' = (if v = some (10 ^ 20, 0) then none else v) := ⟨_, rfl⟩
      rw [← hv']
      cases v' with
      | none => cases w <;> rfl
      | some v =>
        cases w with
        | none => rfl
        | some w =>
          simp only [current, both, Option.map_some]
          rw [factor_eq pos fun hp => hp.value hw]
  | bilinear =>
    have same' : SameMask hc bath := same.resolve_left fun e => by cases e.1
    have nz : Nonzero hc := (full.resolve_left (by simp)).resolve_left fun e => by cases e.1
    obtain ⟨s1, s2, s3⟩ := strict rfl
    have cells : (fun j i => nonzeroCell (Extract.entry hc j i)) = fun j i => nanCell (Extract.entry hc j i) := by
      funext j i
      unfold nonzeroCell nanCell
      have := nz j i
      cases hm : (Extract.entry hc j i).masked
      · simp [this hm]
      · simp
    obtain ⟨v, k, e, hv⟩ := bilinearC_value ht q.1 q.2 a1 s1 s2 s3
    obtain ⟨w, k', e', hw⟩ := bilinearC_value hb q.1 q.2 a1 s1 s2 s3
    have kk : k = k' := by
      unfold bilinearC at e e'
      cases g1 : Interp.bilinear (ofList x) (ofList y)
          (fun j i => ⟨(nanCell (Extract.entry hc j i)).1.map Prod.fst, (nanCell (Extract.entry hc j i)).2⟩)
          (some fillRe) q.1 q.2 with
      | error _ => rw [g1] at e; cases e
      | ok o =>
        cases g2 : Interp.bilinear (ofList x) (ofList y)
            (fun j i => ⟨(nanCell (Extract.entry bath j i)).1.map Prod.fst, (nanCell (Extract.entry bath j i)).2⟩)
            (some fillRe) q.1 q.2 with
        | error _ => rw [g2] at e'; cases e'
        | ok o' =>
          have := mask_congr _ _ _ _ _ _ _ _ (fun j i => same' j i) (fun j i => by
            have := same' j i
            unfold Interp.Cell.valid nanCell
            simp only
            rw [this]
            cases (Extract.entry bath j i).masked <;> rfl) g1 g2
          rw [g1, ok_bind] at e
          rw [g2, ok_bind] at e'
          cases g3 : Interp.bilinear (ofList x) (ofList y)
              (fun j i => ⟨(nanCell (Extract.entry hc j i)).1.map Prod.snd, (nanCell (Extract.entry hc j i)).2⟩)
              (some 0) q.1 q.2 with
          | error _ => rw [g3] at e; cases e
          | ok p =>
            cases g4 : Interp.bilinear (ofList x) (ofList y)
                (fun j i => ⟨(nanCell (Extract.entry bath j i)).1.map Prod.snd, (nanCell (Extract.entry bath j i)).2⟩)
                (some 0) q.1 q.2 with
            | error _ => rw [g4] at e'; cases e'
            | ok p' =>
              rw [g3, ok_bind] at e
              rw [g4, ok_bind] at e'
              have e1 := congrArg Prod.snd (Except.ok.inj e)
              have e2 := congrArg Prod.snd (Except.ok.inj e')
              simp only at e1 e2
              rw [← e1, ← e2, this]
    subst kk
    have near : ∀ {C : Chart K} {mat : List (List (Fld K))} (hs : Shows x y mat C k0 j0) (o : Option (K × K)),
        (C.Mean q.1 q.2 o ∨ ∃ c r : ℕ, c < x.length ∧ r < y.length ∧
          Interp.isclose q.1 (x.getD c 0) = true ∧ Interp.isclose q.2 (y.getD r 0) = true ∧
          o = C.value (k0 + c) (j0 + r)) → (C.Mean q.1 q.2 o ∨ Close C q.1 q.2 o) := by
      intro C mat hs o h
      rcases h with h | ⟨c, r, c1, r1, n1, n2, h⟩
      · exact Or.inl h
      · refine Or.inr ⟨k0 + c, j0 + r, hs.col c c1, hs.row r r1, ?_, ?_, h⟩
        · rw [← hs.lon c c1]
          unfold Interp.isclose at n1
          have := of_decide_eq_true n1
          have := far rfl c c1
          linarith
        · rw [← hs.lat r r1]
          unfold Interp.isclose at n2
          have := of_decide_eq_true n2
          linarith
    have hv := near ht _ hv
    have hw := near hb _ hw
    obtain ⟨v', hv'⟩ : ∃ v', v' = (if k = true then none else v) := ⟨_, rfl⟩
    obtain ⟨w', hw'⟩ : ∃ w', w' = (if k = true then none else w) := ⟨_, rfl⟩
    rw [← hv'] at hv
    rw [← hw'] at hw
    refine ⟨w'.map Prod.fst, both v' w', ?_, ?_,
      ⟨w', hw, rfl⟩, v', w', hv, hw, ?_⟩
    · unfold depthAt
      simp only
      rw [e', ok_bind, hw']
      cases k <;> rfl
    · unfold constantAt
      simp only
      rw [cells, e, ok_bind, hv', hw']
      cases k with
      | true => rfl
      | false => cases v <;> cases w <;> rfl
    · cases v' with
      | none => cases w' <;> rfl
      | some v =>
        cases w' with
        | none => rfl
        | some w =>
          simp only [current, both, Option.map_some]
          rw [factor_eq pos fun hp => hw.elim hp.mean hp.close]

end Verif.Staggered
