import Verif.Lemmas.Atlas
/-!
C20: ATLAS-compact files.  For every file made of a global solution and any sequence of local
solutions (`Verif.Spec.Atlas`), the readers return the global field and exactly the local
solutions which contain the constituent, in order, each with its own values.
-/
namespace Verif.OTIS
open Verif Verif.Bytes Verif.Spec.Atlas

theorem lookup_split {α β : Type} [BEq α] [LawfulBEq α] (l : List (α × β)) (c : α) (v : β)
    (h : l.lookup c = some v) : ∃ pre post, l = pre ++ (c, v) :: post := by
  induction l with
  | nil => simp at h
  | cons p t ih =>
    rw [List.lookup_cons] at h
    by_cases hc : c = p.1
    · subst hc
      simp only [beq_self_eq_true, Option.some.injEq] at h
      subst h
      exact ⟨[], t, rfl⟩
    · rw [beq_eq_false_iff_ne.mpr hc] at h
      obtain ⟨pre, post, rfl⟩ := ih h
      exact ⟨p :: pre, post, rfl⟩

theorem lookup_none_not_mem {α β : Type} [BEq α] [LawfulBEq α] (l : List (α × β)) (c : α)
    (h : l.lookup c = none) : c ∉ l.map Prod.fst := by
  rw [List.lookup_eq_none_iff] at h
  intro hm
  obtain ⟨p, hp, rfl⟩ := List.mem_map.mp hm
  have := h p hp
  simp at this

theorem record_split (p : List UInt8) : ∃ m : List UInt8, m.length = 4 ∧
    (∀ t', ∃ v, readI (m ++ t') = .ok (v, t')) ∧ record p = m ++ p ++ m :=
  ⟨be p.length, be_length _, readI_be_any _, rfl⟩

theorem fromfile_floats (l : List F4) (t : List UInt8) (k : ℕ) (hk : l.length = k) :
    fromfile k (floats l ++ t) = (l.map UInt32.toNat, t) := fromfile_tofileF l t k hk

theorem fromfile_ints (l : List ℕ) (h : ∀ n ∈ l, n < 2 ^ 32) (t : List UInt8) (k : ℕ)
    (hk : l.length = k) : fromfile k (ints l ++ t) = (l, t) := fromfile_append l h t k hk

theorem readBytes_left (n : ℕ) (a t : List UInt8) (h : a.length = n) :
    readBytes n (a ++ t) = (a, t) := by
  rw [readBytes, List.take_left' h, List.drop_left' h]

theorem goodNames_length (names : List (List UInt8)) (h : GoodNames names) :
    (names.flatMap (pad 4)).length = names.length * 4 :=
  flatMap_length_const _ 4 _ (fun c hc => pad_length 4 c (h.1 c hc).2.2)

theorem goodCells_lt (nx ny : ℕ) (cells : List (ℕ × ℕ)) (hc : GoodCells nx ny cells)
    (hx : Fits nx) (hy : Fits ny) :
    (∀ n ∈ cells.map Prod.fst, n < 2 ^ 32) ∧ ∀ n ∈ cells.map Prod.snd, n < 2 ^ 32 := by
  simp only [Fits] at hx hy
  constructor <;>
  · intro n hn
    obtain ⟨p, hp, rfl⟩ := List.mem_map.mp hn
    have := hc.2 p hp
    omega

/-! ### Elevations -/

/-- What the reader should return for a local solution: nothing without the constituent. -/
def expectedZ (c : Name) (s : SolutionZ) : Option LocalZ :=
  (s.cons.lookup c).map (fun vals =>
    LocalZ.mk s.title (s.lon.map UInt32.toNat) (s.lat.map UInt32.toNat)
      (gridOf s.nx s.ny s.cells vals))

/-- The bytes of a local solution after the constituent names. -/
theorem encodeZ_split (s : SolutionZ) (t : List UInt8) :
    ∃ m1 m2 : List UInt8, m1.length = 4 ∧ m2.length = 4 ∧
    s.encode ++ t = m1 ++ (be s.nx ++ (be s.ny ++ (be s.cons.length ++ (be s.cells.length ++
      (floats s.lat ++ (floats s.lon ++ ((s.cons.map Prod.fst).flatMap (pad 4) ++
      (pad 20 s.title ++ ((m1 ++ m2) ++ (ints (s.cells.map Prod.fst) ++
      (ints (s.cells.map Prod.snd) ++ (m2 ++
        (s.cons.flatMap (fun p => record (complexes p.2)) ++ t))))))))))))) := by
  rw [SolutionZ.encode]
  obtain ⟨m1, hm1, -, e1⟩ := record_split (ints [s.nx, s.ny, s.cons.length, s.cells.length]
    ++ floats s.lat ++ floats s.lon ++ (s.cons.map Prod.fst).flatMap (pad 4) ++ pad 20 s.title)
  obtain ⟨m2, hm2, -, e2⟩ :=
    record_split (ints (s.cells.map Prod.fst) ++ ints (s.cells.map Prod.snd))
  refine ⟨m1, m2, hm1, hm2, ?_⟩
  rw [e1, e2]
  simp only [ints, List.flatMap_cons, List.flatMap_nil, List.append_assoc, List.append_nil,
    List.nil_append]

theorem readLocalZ_encode (c : Name) (s : SolutionZ) (hs : s.Valid) (t : List UInt8) :
    readLocalZ c (s.encode ++ t) = .ok (expectedZ c s, t) := by
  obtain ⟨hx, hy, hnc, hnz, hlat, hlon, htitle, hnames, hcells, hvals⟩ := hs
  obtain ⟨m1, m2, hm1, hm2, he⟩ := encodeZ_split s t
  have hrec : ∀ p ∈ s.cons, (record (complexes p.2)).length = 8 * s.cells.length + 8 := by
    intro p hp
    rw [record_length, complexes_length, hvals p hp]
  rw [he, readLocalZ]
  dsimp only
  rw [seek_left 4 _ _ (by rw [hm1]; rfl), readI_be_nat _ hx, ok_bind]
  dsimp only
  rw [readI_be_nat _ hy, ok_bind]
  dsimp only
  rw [readI_be_nat _ hnc, ok_bind]
  dsimp only
  rw [readI_be_nat _ hnz, ok_bind]
  dsimp only
  rw [fromfile_floats _ _ 2 hlat]
  dsimp only
  rw [fromfile_floats _ _ 2 hlon]
  dsimp only
  rw [readBytes_left _ _ _ (by rw [goodNames_length _ hnames, List.length_map]; omega)]
  dsimp only
  rw [splitWords_good _ hnames]
  cases hl : s.cons.lookup c with
  | none =>
    rw [if_neg (lookup_none_not_mem _ _ hl)]
    have e : pad 20 s.title ++ ((m1 ++ m2) ++ (ints (s.cells.map Prod.fst) ++
      (ints (s.cells.map Prod.snd) ++ (m2 ++
        (s.cons.flatMap (fun p => record (complexes p.2)) ++ t)))))
      = (pad 20 s.title ++ (m1 ++ m2) ++ ints (s.cells.map Prod.fst) ++
      ints (s.cells.map Prod.snd) ++ m2 ++
        s.cons.flatMap (fun p => record (complexes p.2))) ++ t := by
      simp only [List.append_assoc]
    rw [e, seek_left]
    · rw [expectedZ, hl]; rfl
    · simp only [List.length_append, pad_length 20 _ htitle.1, hm1, hm2, ints_length,
        List.length_map, flatMap_length_const _ _ _ hrec]
      push_cast
      ring
  | some vals =>
    obtain ⟨pre, post, hsplit⟩ := lookup_split _ _ _ hl
    have hmem : c ∈ s.cons.map Prod.fst := by
      rw [hsplit]; simp
    rw [if_pos hmem, uniqueIndex_nodup _ hnames.2.2 pre.length c (by rw [hsplit]; simp), ok_bind]
    rw [readBytes_left 20 _ _ (pad_length 20 _ htitle.1)]
    dsimp only
    rw [seek_left 8 _ _ (by rw [List.length_append, hm1, hm2]; rfl)]
    have hlt := goodCells_lt _ _ _ hcells hx hy
    rw [Int.toNat_natCast, fromfile_ints _ hlt.1 _ _ (by rw [List.length_map])]
    dsimp only
    rw [fromfile_ints _ hlt.2 _ _ (by rw [List.length_map])]
    dsimp only
    have hpre : ∀ p ∈ pre, (record (complexes p.2)).length = 8 * s.cells.length + 8 :=
      fun p hp => hrec p (by rw [hsplit]; simp [hp])
    have hpost : ∀ p ∈ post, (record (complexes p.2)).length = 8 * s.cells.length + 8 :=
      fun p hp => hrec p (by rw [hsplit]; simp [hp])
    have hv : vals.length = s.cells.length := hvals (c, vals) (by rw [hsplit]; simp)
    have e : m2 ++ (s.cons.flatMap (fun p => record (complexes p.2)) ++ t)
      = (m2 ++ pre.flatMap (fun p => record (complexes p.2)) ++ be (complexes vals).length) ++
        (complexes vals ++ ((be (complexes vals).length ++
          post.flatMap (fun p => record (complexes p.2))) ++ t)) := by
      rw [hsplit]
      simp only [List.flatMap_append, List.flatMap_cons, record, List.append_assoc]
    rw [e, seek_left]
    · rw [readCells_good _ _ _ hcells hx hy vals hv, ok_bind]
      dsimp only
      rw [Int.toNat_natCast, Int.toNat_natCast, scatter_good _ _ _ hcells _ hv, ok_bind,
        strip_pad _ htitle, seek_left]
      · rw [expectedZ, hl]; rfl
      · rw [List.length_append, be_length, flatMap_length_const _ _ _ hpost]
        have : s.cons.length = pre.length + (post.length + 1) := by rw [hsplit]; simp
        rw [this]
        push_cast
        ring
    · simp only [List.length_append, be_length, hm2, flatMap_length_const _ _ _ hpre]
      push_cast
      ring

theorem encodeZ_ne_nil (s : SolutionZ) (t : List UInt8) : s.encode ++ t ≠ [] := by
  intro h
  have := congrArg List.length h
  rw [SolutionZ.encode, record] at this
  simp only [List.length_append, be_length, List.length_nil] at this
  omega

theorem readLocalsZ_encode (c : Name) (sols : List SolutionZ) (hs : ∀ s ∈ sols, s.Valid) (n : ℕ)
    (hn : (sols.flatMap SolutionZ.encode).length ≤ n) :
    readLocalsZ c n (sols.flatMap SolutionZ.encode) = .ok (sols.filterMap (expectedZ c)) := by
  induction sols generalizing n with
  | nil => cases n <;> rfl
  | cons s t ih =>
    rw [List.flatMap_cons] at hn ⊢
    have hne := encodeZ_ne_nil s (t.flatMap SolutionZ.encode)
    have hr := readLocalZ_encode c s (hs s (by simp)) (t.flatMap SolutionZ.encode)
    have hpos : 0 < s.encode.length := by
      have := encodeZ_ne_nil s []
      rw [List.append_nil] at this
      exact List.length_pos_iff.mpr this
    rw [List.length_append] at hn
    obtain ⟨m, rfl⟩ : ∃ m, n = m + 1 := ⟨n - 1, by omega⟩
    generalize s.encode ++ t.flatMap SolutionZ.encode = bs at hne hr
    cases bs with
    | nil => exact absurd rfl hne
    | cons b u =>
      rw [readLocalsZ, hr, ok_bind]
      dsimp only
      rw [ih (fun x hx => hs x (List.mem_cons_of_mem _ hx)) m (by omega), ok_bind]
      cases h : expectedZ c s <;> simp [h]

/-- The header record and the record of constituent `ic` of the global solution. -/
theorem global_read {α : Type} (w : ℕ) (enc : α → List F4) (henc : ∀ a, (enc a).length = w)
    (nx ny : ℕ) (ylim xlim : List F4) (cons : List (Name × List (List α)))
    (hyl : ylim.length = 2) (hxl : xlim.length = 2) (hx : Fits nx) (hy : Fits ny)
    (hc : Fits cons.length) (hnames : ∀ p ∈ cons, p.1.length ≤ 4)
    (hshape : ∀ p ∈ cons, Shaped nx ny p.2)
    (ic : ℕ) (p : Name × List (List α)) (hp : cons[ic]? = some p) (t : List UInt8) (B : ℤ)
    (hB : B = (4 * w : ℕ)) :
    ∃ ll bs bs', readHeader (encodeGlobal enc nx ny ylim xlim cons ++ t)
        = .ok ((ll, nx, ny, (cons.length : ℤ)), bs) ∧
      readRows (w * nx) ny (seek (8 + (cons.length : ℤ) * 4 + ic * ((nx : ℤ) * ny * B + 8)) bs)
        = .ok (p.2.map (fun row => row.flatMap enc), bs') ∧
      seek (((cons.length : ℤ) - ic - 1) * ((nx : ℤ) * ny * B + 8) + 4) bs' = t := by
  have hic : ic < cons.length := (List.getElem?_eq_some_iff.mp hp).1
  have hsplit : cons = cons.take ic ++ p :: cons.drop (ic + 1) := by
    have h := (List.getElem?_eq_some_iff.mp hp).2
    conv_lhs => rw [← List.take_append_drop ic cons, List.drop_eq_getElem_cons hic, h]
  have hrow : ∀ row : List α, row.length = nx → (row.flatMap enc).length = w * nx := by
    intro row hr
    rw [← hr]
    clear hr
    induction row with
    | nil => rfl
    | cons a u ih => rw [List.flatMap_cons, List.length_append, ih, henc, List.length_cons]; ring
  have hpay : ∀ q ∈ cons, (q.2.flatMap (fun row => floats (row.flatMap enc))).length
      = 4 * w * nx * ny := by
    intro q hq
    obtain ⟨h1, h2⟩ := hshape q hq
    rw [flatMap_length_const _ (4 * (w * nx)) _
      (fun r hr => by rw [floats_length, hrow r (h2 r hr)]), h1]
    ring
  have hrec : ∀ q ∈ cons, (record (q.2.flatMap (fun row => floats (row.flatMap enc)))).length
      = 4 * w * nx * ny + 8 := by
    intro q hq
    rw [record_length, hpay q hq]
  have hpm : p ∈ cons := List.mem_of_getElem? hp
  have hnl : ((cons.map Prod.fst).flatMap (pad 4)).length = cons.length * 4 := by
    rw [flatMap_length_const _ 4, List.length_map]
    intro c hc'
    obtain ⟨q, hq, rfl⟩ := List.mem_map.mp hc'
    exact pad_length 4 _ (hnames q hq)
  generalize hf : (fun q : Name × List (List α) =>
    record (q.2.flatMap (fun row => floats (row.flatMap enc)))) = f
  have hrec' : ∀ q ∈ cons, (f q).length = 4 * w * nx * ny + 8 := by
    intro q hq; rw [← hf]; exact hrec q hq
  have hfp : f p = be (p.2.flatMap (fun row => floats (row.flatMap enc))).length ++
      (p.2.flatMap (fun row => floats (row.flatMap enc))) ++
      be (p.2.flatMap (fun row => floats (row.flatMap enc))).length := by
    rw [← hf]; rfl
  -- the file as a sequence of fields
  have hfile : ∃ m1 : List UInt8, m1.length = 4 ∧ (∀ t', ∃ v, readI (m1 ++ t') = .ok (v, t')) ∧
      encodeGlobal enc nx ny ylim xlim cons ++ t
      = m1 ++ (be nx ++ (be ny ++ (be cons.length ++ (floats ylim ++ (floats xlim ++
        ((cons.map Prod.fst).flatMap (pad 4) ++ (m1 ++ (cons.flatMap f ++ t)))))))) := by
    rw [encodeGlobal, hf]
    obtain ⟨m1, hm1, hr, e1⟩ := record_split (ints [nx, ny, cons.length] ++ floats ylim
      ++ floats xlim ++ (cons.map Prod.fst).flatMap (pad 4))
    refine ⟨m1, hm1, hr, ?_⟩
    rw [e1]
    simp only [ints, List.flatMap_cons, List.flatMap_nil, List.append_assoc, List.append_nil,
      List.nil_append]
  obtain ⟨m1, hm1, hm1r, hfile⟩ := hfile
  rw [hfile]
  obtain ⟨ll, hll⟩ := hm1r (be nx ++ (be ny ++ (be cons.length ++ (floats ylim ++ (floats xlim ++
        ((cons.map Prod.fst).flatMap (pad 4) ++ (m1 ++ (cons.flatMap f ++ t))))))))
  refine ⟨ll, (cons.map Prod.fst).flatMap (pad 4) ++ (m1 ++ (cons.flatMap f ++ t)), 
    be (p.2.flatMap (fun row => floats (row.flatMap enc))).length ++
      ((cons.drop (ic + 1)).flatMap f ++ t), ?_, ?_, ?_⟩
  · rw [readHeader, hll, ok_bind]
    dsimp only
    rw [readI_be_nat _ hx, ok_bind]
    dsimp only
    rw [readI_be_nat _ hy, ok_bind]
    dsimp only
    rw [readI_be_nat _ hc, ok_bind]
    dsimp only
    rw [fromfile_floats _ _ 2 hyl]
    dsimp only
    rw [fromfile_floats _ _ 2 hxl]
    dsimp only
    rw [if_neg (by omega), Int.toNat_natCast, Int.toNat_natCast]
  · have e : (cons.map Prod.fst).flatMap (pad 4) ++ (m1 ++ (cons.flatMap f ++ t))
        = ((cons.map Prod.fst).flatMap (pad 4) ++ m1 ++ (cons.take ic).flatMap f ++
          be (p.2.flatMap (fun row => floats (row.flatMap enc))).length) ++
          (p.2.flatMap (fun row => floats (row.flatMap enc)) ++
          (be (p.2.flatMap (fun row => floats (row.flatMap enc))).length ++
          ((cons.drop (ic + 1)).flatMap f ++ t))) := by
      have : cons.flatMap f = (cons.take ic).flatMap f ++ (f p ++ (cons.drop (ic + 1)).flatMap f) := by
        conv_lhs => rw [hsplit, List.flatMap_append, List.flatMap_cons]
      rw [this, hfp]
      simp only [List.append_assoc]
    rw [e, seek_left]
    · obtain ⟨h1, h2⟩ := hshape p hpm
      have := readRows_append (w * nx) (fun row : List α => row.flatMap enc) p.2
        (fun r hr => hrow r (h2 r hr))
        (be (p.2.flatMap (fun row => floats (row.flatMap enc))).length ++
          ((cons.drop (ic + 1)).flatMap f ++ t))
      rw [h1] at this
      exact this
    · rw [List.length_append, List.length_append, List.length_append, hnl, hm1, be_length,
        flatMap_length_const f _ _ (fun q hq => hrec' q (List.mem_of_mem_take hq)),
        List.length_take, Nat.min_eq_left (by omega), hB]
      push_cast
      ring
  · rw [← List.append_assoc, seek_left]
    rw [List.length_append, be_length,
      flatMap_length_const f _ _ (fun q hq => hrec' q (List.mem_of_mem_drop hq)),
      List.length_drop, hB]
    have : ((cons.length - (ic + 1) : ℕ) : ℤ) = (cons.length : ℤ) - ic - 1 := by omega
    push_cast
    rw [this]
    ring

/-- Reading elevations from an ATLAS-compact file returns the global field of constituent number
`ic` and, for the constituent named `c`, exactly the local solutions that contain it, in the order
of the file, each with its own title, limits and values at its own wet cells, whatever the local
solutions before and after it. -/
theorem C20_elevation (nx ny : ℕ) (ylim xlim : List F4) (cons : List (Name × List (List C8)))
    (hyl : ylim.length = 2) (hxl : xlim.length = 2) (hx : Fits nx) (hy : Fits ny)
    (hc : Fits cons.length) (hnames : ∀ p ∈ cons, p.1.length ≤ 4)
    (hshape : ∀ p ∈ cons, Shaped nx ny p.2) (sols : List SolutionZ) (hs : ∀ s ∈ sols, s.Valid)
    (ic : ℕ) (p : Name × List (List C8)) (hp : cons[ic]? = some p) (c : Name) :
    readAtlasElevation (encodeGlobal (fun z : C8 => [z.1, z.2]) nx ny ylim xlim cons
        ++ sols.flatMap SolutionZ.encode) ic c
      = .ok (p.2, sols.filterMap (expectedZ c)) := by
  obtain ⟨ll, bs, bs', h1, h2, h3⟩ := global_read 2 (fun z : C8 => [z.1, z.2]) (fun _ => rfl) nx ny
    ylim xlim cons hyl hxl hx hy hc hnames hshape ic p hp (sols.flatMap SolutionZ.encode) 8
    (by norm_num)
  rw [readAtlasElevation, h1, ok_bind]
  dsimp only
  rw [h2, ok_bind]
  dsimp only
  rw [h3, readLocalsZ_encode c sols hs _ le_rfl, ok_bind]
  refine congrArg Except.ok (Prod.ext ?_ rfl)
  dsimp only
  rw [List.map_map]
  conv_rhs => rw [← List.map_id p.2]
  refine List.map_congr_left ?_
  intro row _
  simp only [Function.comp, id]
  rw [splitZ, stride_flatMap 0 2 (by norm_num) (fun z : C8 => [z.1, z.2]) (fun z => z.1)
      (fun _ => rfl) (fun _ => rfl) row,
    stride_flatMap 1 2 (by norm_num) (fun z : C8 => [z.1, z.2]) (fun z => z.2)
      (fun _ => rfl) (fun _ => rfl) row, List.zip_map']
  simp

/-! ### Transports -/

/-- What the reader should return for a local transport solution. -/
def expectedUV (c : Name) (s : SolutionUV) : Option LocalUV :=
  (s.cons.lookup c).map (fun vals =>
    LocalUV.mk s.title (s.lon.map UInt32.toNat) (s.lat.map UInt32.toNat)
      (gridOf s.nx s.ny s.cellsU vals.1) (gridOf s.nx s.ny s.cellsV vals.2))

/-- The two records of a constituent. -/
def pairRecord (p : Name × (List C8 × List C8)) : List UInt8 :=
  record (complexes p.2.1) ++ record (complexes p.2.2)

theorem encodeUV_split (s : SolutionUV) (t : List UInt8) :
    ∃ m1 m2 m3 : List UInt8, m1.length = 4 ∧ m2.length = 4 ∧ m3.length = 4 ∧
    s.encode ++ t = m1 ++ (be s.nx ++ (be s.ny ++ (be s.cons.length ++ (be s.cellsU.length ++
      (be s.cellsV.length ++
      (floats s.lat ++ (floats s.lon ++ ((s.cons.map Prod.fst).flatMap (pad 4) ++
      (pad 20 s.title ++ ((m1 ++ m2) ++ (ints (s.cellsU.map Prod.fst) ++
      (ints (s.cellsU.map Prod.snd) ++ ((m2 ++ m3) ++ (ints (s.cellsV.map Prod.fst) ++
      (ints (s.cellsV.map Prod.snd) ++ (m3 ++
        (s.cons.flatMap pairRecord ++ t))))))))))))))))) := by
  rw [SolutionUV.encode]
  obtain ⟨m1, hm1, -, e1⟩ := record_split (ints [s.nx, s.ny, s.cons.length, s.cellsU.length,
    s.cellsV.length]
    ++ floats s.lat ++ floats s.lon ++ (s.cons.map Prod.fst).flatMap (pad 4) ++ pad 20 s.title)
  obtain ⟨m2, hm2, -, e2⟩ :=
    record_split (ints (s.cellsU.map Prod.fst) ++ ints (s.cellsU.map Prod.snd))
  obtain ⟨m3, hm3, -, e3⟩ :=
    record_split (ints (s.cellsV.map Prod.fst) ++ ints (s.cellsV.map Prod.snd))
  refine ⟨m1, m2, m3, hm1, hm2, hm3, ?_⟩
  rw [e1, e2, e3]
  simp only [ints, List.flatMap_cons, List.flatMap_nil, List.append_assoc, List.append_nil,
    List.nil_append]
  rfl

theorem readLocalUV_encode (c : Name) (s : SolutionUV) (hs : s.Valid) (t : List UInt8) :
    readLocalUV c (s.encode ++ t) = .ok (expectedUV c s, t) := by
  obtain ⟨hx, hy, hnc, hnu, hnv, hlat, hlon, htitle, hnames, hcu, hcv, hvals⟩ := hs
  obtain ⟨m1, m2, m3, hm1, hm2, hm3, he⟩ := encodeUV_split s t
  have hrec : ∀ p ∈ s.cons, (pairRecord p).length
      = 8 * s.cellsU.length + 8 * s.cellsV.length + 16 := by
    intro p hp
    rw [pairRecord, List.length_append, record_length, record_length, complexes_length,
      complexes_length, (hvals p hp).1, (hvals p hp).2]
    ring
  rw [he, readLocalUV]
  dsimp only
  rw [seek_left 4 _ _ (by rw [hm1]; rfl), readI_be_nat _ hx, ok_bind]
  dsimp only
  rw [readI_be_nat _ hy, ok_bind]
  dsimp only
  rw [readI_be_nat _ hnc, ok_bind]
  dsimp only
  rw [readI_be_nat _ hnu, ok_bind]
  dsimp only
  rw [readI_be_nat _ hnv, ok_bind]
  dsimp only
  rw [fromfile_floats _ _ 2 hlat]
  dsimp only
  rw [fromfile_floats _ _ 2 hlon]
  dsimp only
  rw [readBytes_left _ _ _ (by rw [goodNames_length _ hnames, List.length_map]; omega)]
  dsimp only
  rw [splitWords_good _ hnames]
  cases hl : s.cons.lookup c with
  | none =>
    rw [if_neg (lookup_none_not_mem _ _ hl)]
    have e : pad 20 s.title ++ ((m1 ++ m2) ++ (ints (s.cellsU.map Prod.fst) ++
      (ints (s.cellsU.map Prod.snd) ++ ((m2 ++ m3) ++ (ints (s.cellsV.map Prod.fst) ++
      (ints (s.cellsV.map Prod.snd) ++ (m3 ++ (s.cons.flatMap pairRecord ++ t))))))))
      = (pad 20 s.title ++ (m1 ++ m2) ++ ints (s.cellsU.map Prod.fst) ++
      ints (s.cellsU.map Prod.snd) ++ (m2 ++ m3) ++ ints (s.cellsV.map Prod.fst) ++
      ints (s.cellsV.map Prod.snd) ++ m3 ++ s.cons.flatMap pairRecord) ++ t := by
      simp only [List.append_assoc]
    rw [e, seek_left]
    · rw [expectedUV, hl]; rfl
    · simp only [List.length_append, pad_length 20 _ htitle.1, hm1, hm2, hm3, ints_length,
        List.length_map, flatMap_length_const _ _ _ hrec]
      push_cast
      ring
  | some vals =>
    obtain ⟨pre, post, hsplit⟩ := lookup_split _ _ _ hl
    have hmem : c ∈ s.cons.map Prod.fst := by
      rw [hsplit]; simp
    rw [if_pos hmem, uniqueIndex_nodup _ hnames.2.2 pre.length c (by rw [hsplit]; simp), ok_bind]
    rw [readBytes_left 20 _ _ (pad_length 20 _ htitle.1)]
    dsimp only
    rw [seek_left 8 _ _ (by rw [List.length_append, hm1, hm2]; rfl)]
    have hlu := goodCells_lt _ _ _ hcu hx hy
    have hlv := goodCells_lt _ _ _ hcv hx hy
    simp only [Int.toNat_natCast]
    rw [fromfile_ints _ hlu.1 _ _ (by rw [List.length_map])]
    dsimp only
    rw [fromfile_ints _ hlu.2 _ _ (by rw [List.length_map])]
    dsimp only
    rw [seek_left 8 _ _ (by rw [List.length_append, hm2, hm3]; rfl)]
    rw [fromfile_ints _ hlv.1 _ _ (by rw [List.length_map])]
    dsimp only
    rw [fromfile_ints _ hlv.2 _ _ (by rw [List.length_map])]
    dsimp only
    have hpre : ∀ p ∈ pre, (pairRecord p).length
        = 8 * s.cellsU.length + 8 * s.cellsV.length + 16 :=
      fun p hp => hrec p (by rw [hsplit]; simp [hp])
    have hpost : ∀ p ∈ post, (pairRecord p).length
        = 8 * s.cellsU.length + 8 * s.cellsV.length + 16 :=
      fun p hp => hrec p (by rw [hsplit]; simp [hp])
    have hv := hvals (c, vals) (by rw [hsplit]; simp)
    have e : m3 ++ (s.cons.flatMap pairRecord ++ t)
      = (m3 ++ pre.flatMap pairRecord ++ be (complexes vals.1).length) ++
        (complexes vals.1 ++ ((be (complexes vals.1).length ++ be (complexes vals.2).length) ++
        (complexes vals.2 ++ ((be (complexes vals.2).length ++ post.flatMap pairRecord) ++ t)))) := by
      rw [hsplit, List.flatMap_append, List.flatMap_cons, pairRecord, record, record]
      simp only [List.append_assoc]
    rw [e, seek_left]
    · rw [readCells_good _ _ _ hcu hx hy vals.1 hv.1, ok_bind]
      dsimp only
      rw [scatter_good _ _ _ hcu _ hv.1, ok_bind,
        seek_left 8 _ _ (by rw [List.length_append, be_length, be_length]; rfl),
        readCells_good _ _ _ hcv hx hy vals.2 hv.2, ok_bind]
      dsimp only
      rw [scatter_good _ _ _ hcv _ hv.2, ok_bind, strip_pad _ htitle, seek_left]
      · rw [expectedUV, hl]; rfl
      · rw [List.length_append, be_length, flatMap_length_const _ _ _ hpost]
        have : s.cons.length = pre.length + (post.length + 1) := by rw [hsplit]; simp
        rw [this]
        push_cast
        ring
    · simp only [List.length_append, be_length, hm3, flatMap_length_const _ _ _ hpre]
      push_cast
      ring

theorem encodeUV_ne_nil (s : SolutionUV) (t : List UInt8) : s.encode ++ t ≠ [] := by
  intro h
  have := congrArg List.length h
  rw [SolutionUV.encode, record] at this
  simp only [List.length_append, be_length, List.length_nil] at this
  omega

theorem readLocalsUV_encode (c : Name) (sols : List SolutionUV) (hs : ∀ s ∈ sols, s.Valid) (n : ℕ)
    (hn : (sols.flatMap SolutionUV.encode).length ≤ n) :
    readLocalsUV c n (sols.flatMap SolutionUV.encode) = .ok (sols.filterMap (expectedUV c)) := by
  induction sols generalizing n with
  | nil => cases n <;> rfl
  | cons s t ih =>
    rw [List.flatMap_cons] at hn ⊢
    have hne := encodeUV_ne_nil s (t.flatMap SolutionUV.encode)
    have hr := readLocalUV_encode c s (hs s (by simp)) (t.flatMap SolutionUV.encode)
    have hpos : 0 < s.encode.length := by
      have := encodeUV_ne_nil s []
      rw [List.append_nil] at this
      exact List.length_pos_iff.mpr this
    rw [List.length_append] at hn
    obtain ⟨m, rfl⟩ : ∃ m, n = m + 1 := ⟨n - 1, by omega⟩
    generalize s.encode ++ t.flatMap SolutionUV.encode = bs at hne hr
    cases bs with
    | nil => exact absurd rfl hne
    | cons b u =>
      rw [readLocalsUV, hr, ok_bind]
      dsimp only
      rw [ih (fun x hx => hs x (List.mem_cons_of_mem _ hx)) m (by omega), ok_bind]
      cases h : expectedUV c s <;> simp [h]

/-- The same for transports. -/
theorem C20_transport (nx ny : ℕ) (ylim xlim : List F4)
    (cons : List (Name × List (List (C8 × C8))))
    (hyl : ylim.length = 2) (hxl : xlim.length = 2) (hx : Fits nx) (hy : Fits ny)
    (hc : Fits cons.length) (hnames : ∀ p ∈ cons, p.1.length ≤ 4)
    (hshape : ∀ p ∈ cons, Shaped nx ny p.2) (sols : List SolutionUV) (hs : ∀ s ∈ sols, s.Valid)
    (ic : ℕ) (p : Name × List (List (C8 × C8))) (hp : cons[ic]? = some p) (c : Name) :
    readAtlasTransport (encodeGlobal (fun q : C8 × C8 => [q.1.1, q.1.2, q.2.1, q.2.2]) nx ny
        ylim xlim cons ++ sols.flatMap SolutionUV.encode) ic c
      = .ok (p.2, sols.filterMap (expectedUV c)) := by
  obtain ⟨ll, bs, bs', h1, h2, h3⟩ := global_read 4
    (fun q : C8 × C8 => [q.1.1, q.1.2, q.2.1, q.2.2]) (fun _ => rfl) nx ny
    ylim xlim cons hyl hxl hx hy hc hnames hshape ic p hp (sols.flatMap SolutionUV.encode) 16
    (by norm_num)
  rw [readAtlasTransport, h1, ok_bind]
  dsimp only
  rw [h2, ok_bind]
  dsimp only
  rw [h3, readLocalsUV_encode c sols hs _ le_rfl, ok_bind]
  refine congrArg Except.ok (Prod.ext ?_ rfl)
  dsimp only
  rw [List.map_map]
  conv_rhs => rw [← List.map_id p.2]
  refine List.map_congr_left ?_
  intro row _
  simp only [Function.comp, id, splitUV]
  have st := fun (j : ℕ) (g : C8 × C8 → F4) (hj : j < 4)
      (hg : ∀ p : C8 × C8, [p.1.1, p.1.2, p.2.1, p.2.2][j]? = some (g p)) =>
    stride_flatMap j 4 hj (fun p : C8 × C8 => [p.1.1, p.1.2, p.2.1, p.2.2]) g (fun _ => rfl) hg row
  rw [st 0 (fun p => p.1.1) (by norm_num) (fun _ => rfl),
    st 1 (fun p => p.1.2) (by norm_num) (fun _ => rfl),
    st 2 (fun p => p.2.1) (by norm_num) (fun _ => rfl),
    st 3 (fun p => p.2.2) (by norm_num) (fun _ => rfl), List.zip_map', List.zip_map', List.zip_map']
  simp

/-! ### A file that meets the hypotheses -/

/-- Two constituents, two wet cells of a two by one grid. -/
def sampleZ : SolutionZ where
  nx := 2
  ny := 1
  lat := [1, 2]
  lon := [3, 4]
  title := "Ross Sea".toUTF8.toList
  cells := [(2, 1), (1, 1)]
  cons := [("m2".toUTF8.toList, [(1, 2), (3, 4)]), ("2n2".toUTF8.toList, [(5, 6), (7, 8)])]

theorem sampleZ_valid : sampleZ.Valid := by
  refine ⟨by unfold Fits; decide +kernel, by unfold Fits; decide +kernel,
    by unfold Fits; decide +kernel, by unfold Fits; decide +kernel, rfl, rfl,
    ⟨by decide +kernel, ?_, ?_⟩, ⟨?_, by decide +kernel, by decide +kernel⟩,
    ⟨by decide +kernel, by decide +kernel⟩, by decide +kernel⟩
  · simp only [Visible]; decide +kernel
  · simp only [Visible]; decide +kernel
  · simp only [Visible]; decide +kernel

/-- The constituent `2n2` is found in the first and third solutions; the second lacks it. -/
example : [sampleZ, { sampleZ with cons := [("s2".toUTF8.toList, [(9, 9), (9, 9)])] }, sampleZ].filterMap
    (fun s => (expectedZ "2n2".toUTF8.toList s).map (fun l => l.z))
    = [[[some (7, 8), some (5, 6)]], [[some (7, 8), some (5, 6)]]] := by decide +kernel

end Verif.OTIS
