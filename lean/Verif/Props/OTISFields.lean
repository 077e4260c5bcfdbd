import Verif.Model.OTIS
import Verif.Lemmas.Bytes
import Verif.Lemmas.Py
/-!
C16 and C17: elevation and transport files in OTIS format, write then read.
-/
namespace Verif.OTIS
open Verif Verif.Bytes

/-- A field with `ny` rows of `nx` values. -/
def Shaped {α : Type} (nx ny : ℕ) (f : List (List α)) : Prop :=
  f.length = ny ∧ ∀ r ∈ f, r.length = nx

/-- What a user expects to read: the value itself, masked if it is NaN. -/
def expected (z : C8) : Option C8 := if isNaN z.1 = true ∨ isNaN z.2 = true then none else some z

theorem maskNaN_eq (z : C8) : maskNaN z = expected z := by
  simp [maskNaN, expected]

theorem readRows_append {α : Type} (k : ℕ) (enc : α → List F4) (rows : List α)
    (h : ∀ r ∈ rows, (enc r).length = k) (t : List UInt8) :
    readRows k rows.length (rows.flatMap (fun r => tofileF (enc r)) ++ t)
      = .ok (rows.map enc, t) := by
  induction rows with
  | nil => rfl
  | cons r rs ih =>
    have hr := h r (by simp)
    have ih' := ih (fun x hx => h x (List.mem_cons_of_mem _ hx))
    simp only [List.length_cons, readRows, List.flatMap_cons, List.append_assoc]
    rw [fromfile_tofileF (enc r) _ k hr]
    simp only [List.length_map, hr, if_true, ih', ok_bind, error_bind, map_ofNat_toNat, List.map_cons]

theorem ljust4_length (c : Name) (h : c.length ≤ 4) : (ljust4 c).length = 4 := by
  simp only [ljust4, List.length_append, List.length_replicate]; omega

theorem names_length (names : List Name) (h : ∀ c ∈ names, c.length ≤ 4) :
    (names.flatMap ljust4).length = 4 * names.length := by
  induction names with
  | nil => rfl
  | cons c t ih =>
    rw [List.flatMap_cons, List.length_append, ljust4_length c (h c (by simp)),
      ih (fun x hx => h x (List.mem_cons_of_mem _ hx)), List.length_cons]
    ring

/-- The header written is read back. -/
theorem header_roundtrip (nx ny nc : ℕ) (ylim xlim : List UInt8) (names : List Name)
    (hx : nx < 2 ^ 31) (hy : ny < 2 ^ 31) (hc : 4 * (7 + nc) < 2 ^ 31)
    (hyl : ylim.length = 8) (hxl : xlim.length = 8) :
    ∃ hl : List UInt8, hl.length = 4 ∧ ∃ hdr, header nx ny nc ylim xlim names = .ok hdr ∧
      ∀ t, readHeader (hdr ++ t) = .ok ((4 * (7 + (nc : ℤ)), nx, ny, (nc : ℤ)),
        names.flatMap ljust4 ++ (hl ++ t)) := by
  have p1 : (-2 ^ 31 : ℤ) ≤ 4 * (7 + (nc : ℤ)) ∧ 4 * (7 + (nc : ℤ)) < 2 ^ 31 := by omega
  have p2 : (-2 ^ 31 : ℤ) ≤ (nx : ℤ) ∧ (nx : ℤ) < 2 ^ 31 := by omega
  have p3 : (-2 ^ 31 : ℤ) ≤ (ny : ℤ) ∧ (ny : ℤ) < 2 ^ 31 := by omega
  have p4 : (-2 ^ 31 : ℤ) ≤ (nc : ℤ) ∧ (nc : ℤ) < 2 ^ 31 := by omega
  refine ⟨be (ofI4 (4 * (7 + (nc : ℤ)))), be_length _, ?_⟩
  refine Exists.intro ?hdr (And.intro ?a ?b)
  case a => 
    simp only [header, packI_ok _ p1, packI_ok _ p2, packI_ok _ p3, packI_ok _ p4, ok_bind, error_bind]
    rfl
  case b =>
    intro t
    simp only [readHeader, List.append_assoc, readI_be _ p1, readI_be _ p2, readI_be _ p3,
      readI_be _ p4, ok_bind, error_bind, fromfile]
    rw [List.drop_left' (by omega), List.drop_left' (by omega)]
    rw [if_neg (by omega)]
    simp

/-- Skipping a prefix, some records of equal length, and the start of the next one. -/
theorem drop_records (recs : List (List UInt8)) (R i c : ℕ) (pre : List UInt8)
    (hR : ∀ r ∈ recs, r.length = R) (r : List UInt8) (hr : recs[i]? = some r) :
    (pre ++ recs.flatten).drop (pre.length + i * R + c)
      = (r ++ (recs.drop (i + 1)).flatten).drop c := by
  rw [Nat.add_assoc, ← List.drop_drop, List.drop_left, ← List.drop_drop]
  congr 1
  induction recs generalizing i with
  | nil => simp at hr
  | cons a t ih =>
    cases i with
    | zero => simp at hr; subst hr; simp
    | succ i =>
      rw [List.flatten_cons, show (i + 1) * R = a.length + i * R by
        rw [hR a (by simp)]; ring, ← List.drop_drop, List.drop_left]
      rw [ih i (fun x hx => hR x (List.mem_cons_of_mem _ hx)) (by simpa using hr)]
      simp

theorem pyMap_getElem? {α β : Type} (f : α → Except PyErr β) (g : α → β) (l : List α)
    (h : ∀ a ∈ l, f a = .ok (g a)) : pyMap f l = .ok (l.map g) := pyMap_ok_of_forall h

/-- Reading the rows of record `i` of a file made of a header and records of equal length. -/
theorem read_record {α : Type} (nx ny nc w : ℕ) (enc : List α → List F4) (hdr : List UInt8)
    (hl : List UInt8) (hhl : hl.length = 4) (names : List Name) (hn : names.length = nc)
    (hlen : ∀ c ∈ names, c.length ≤ 4)
    (m : List UInt8) (hm : m.length = 4) (fields : List (List (List α)))
    (hshape : ∀ f ∈ fields, Shaped nx ny f)
    (henc : ∀ r : List α, r.length = nx → (enc r).length = w * nx)
    (hread : ∀ t, readHeader (hdr ++ t) = .ok ((4 * (7 + (nc : ℤ)), nx, ny, (nc : ℤ)),
        names.flatMap ljust4 ++ (hl ++ t)))
    (i : ℕ) (field : List (List α)) (hi : fields[i]? = some field) (B : ℤ)
    (hB : B = (4 * w : ℕ)) :
    ∃ bs rest, readHeader (hdr ++ (fields.map (fun f => m ++ f.flatMap (fun r => tofileF (enc r)) ++ m)).flatten)
        = .ok ((4 * (7 + (nc : ℤ)), nx, ny, (nc : ℤ)), bs) ∧
      readRows (w * nx) ny
        (seek (i * ((nx : ℤ) * ny * B + 8) + 8 + 4 * (7 + (nc : ℤ)) - 28) bs)
        = .ok (field.map enc, rest) := by
  suffices h : ∃ rest, readRows (w * nx) ny
      (seek (i * ((nx : ℤ) * ny * B + 8) + 8 + 4 * (7 + (nc : ℤ)) - 28)
        (names.flatMap ljust4 ++ (hl ++ (fields.map (fun f =>
          m ++ f.flatMap (fun r => tofileF (enc r)) ++ m)).flatten))) = .ok (field.map enc, rest) by
    obtain ⟨rest, h⟩ := h
    exact ⟨_, rest, hread _, h⟩
  have hfl : ∀ f ∈ fields, (f.flatMap (fun r => tofileF (enc r))).length = 4 * w * nx * ny := by
    intro f hf
    obtain ⟨h1, h2⟩ := hshape f hf
    rw [← h1]
    clear h1 hf hi
    induction f with
    | nil => rfl
    | cons r rs ih =>
      rw [List.flatMap_cons, List.length_append, tofileF_length, henc r (h2 r (by simp)),
        ih (fun x hx => h2 x (List.mem_cons_of_mem _ hx)), List.length_cons]
      ring
  have hpre : (names.flatMap ljust4 ++ hl).length = 4 * nc + 4 := by
    rw [List.length_append, names_length names hlen, hn, hhl]
  have hskip : (i * ((nx : ℤ) * ny * B + 8) + 8 + 4 * (7 + (nc : ℤ)) - 28).toNat
      = (names.flatMap ljust4 ++ hl).length + i * (4 * w * nx * ny + 8) + 4 := by
    rw [hpre]
    have : (i * ((nx : ℤ) * ny * B + 8) + 8 + 4 * (7 + (nc : ℤ)) - 28)
        = ((4 * nc + 4 + i * (4 * w * nx * ny + 8) + 4 : ℕ) : ℤ) := by
      rw [hB]; push_cast; ring
    rw [this, Int.toNat_natCast]
  have hmem := List.mem_of_getElem? hi
  simp only [seek, hskip]
  rw [← List.append_assoc, drop_records _ (4 * w * nx * ny + 8) i 4 _ ?_
    (m ++ field.flatMap (fun r => tofileF (enc r)) ++ m) (by rw [List.getElem?_map, hi]; rfl)]
  · rw [List.append_assoc, List.append_assoc, List.drop_left' hm]
    obtain ⟨h1, h2⟩ := hshape field hmem
    rw [← h1]
    exact ⟨_, readRows_append (w * nx) enc field (fun r hr => henc r (h2 r hr)) _⟩
  · intro r hr
    obtain ⟨f, hf, rfl⟩ := List.mem_map.mp hr
    rw [List.length_append, List.length_append, hfl f hf, hm]
    ring

/-- Writing elevations and reading constituent number `i` returns the `i`-th field, with NaN cells
masked.  `ylim` and `xlim` are the bytes of two-element `>f4` arrays. -/
theorem C16_elevation_roundtrip (nx ny : ℕ) (fields : List (List (List C8)))
    (ylim xlim : List F4) (names : List Name)
    (hshape : ∀ f ∈ fields, Shaped nx ny f)
    (hyl : ylim.length = 2) (hxl : xlim.length = 2)
    (hn : names.length = fields.length) (hlen : ∀ c ∈ names, c.length ≤ 4)
    (hx : nx < 2 ^ 31) (hy : ny < 2 ^ 31) (hc : 4 * (7 + fields.length) < 2 ^ 31)
    (hrec : 8 * nx * ny < 2 ^ 31) :
    ∃ file, outputElevation nx ny fields (tofileF ylim) (tofileF xlim) names = .ok file ∧
      ∀ i field, fields[i]? = some field →
        readElevation file i = .ok (field.map (fun row => row.map expected)) := by
  obtain ⟨hl, hhl, hdr, hhdr, hread⟩ := header_roundtrip nx ny fields.length (tofileF ylim)
    (tofileF xlim) names hx hy hc (by rw [tofileF_length, hyl]) (by rw [tofileF_length, hxl])
  have pm : (-2 ^ 31 : ℤ) ≤ 8 * (nx : ℤ) * ny ∧ 8 * (nx : ℤ) * ny < 2 ^ 31 := by
    constructor
    · have : (0 : ℤ) ≤ 8 * (nx : ℤ) * ny := by positivity
      linarith
    · exact_mod_cast hrec
  have hmap : pyMap (recordZ nx ny) fields = .ok (fields.map (fun f =>
      be (ofI4 (8 * (nx : ℤ) * ny)) ++ f.flatMap (fun r =>
        tofileF (r.flatMap (fun z : C8 => [z.1, z.2]))) ++ be (ofI4 (8 * (nx : ℤ) * ny)))) := by
    refine pyMap_ok_of_forall ?_
    intro f hf
    simp only [recordZ, packI_ok _ pm, ok_bind, error_bind]
    rfl
  simp only [outputElevation, hhdr, hmap, ok_bind, error_bind]
  refine ⟨_, rfl, ?_⟩
  intro i field hi
  have henc : ∀ r : List C8, r.length = nx →
      (r.flatMap (fun z : C8 => [z.1, z.2])).length = 2 * nx := by
    intro r hr
    rw [← hr]
    clear hr
    induction r with
    | nil => rfl
    | cons a t ih => rw [List.flatMap_cons, List.length_append, ih, List.length_cons]; simp; ring
  obtain ⟨bs, rest, h1, h2⟩ := read_record nx ny fields.length 2
    (fun r : List C8 => r.flatMap (fun z : C8 => [z.1, z.2])) hdr hl hhl names hn hlen
    (be (ofI4 (8 * (nx : ℤ) * ny))) (be_length _) fields hshape henc hread i field hi 8 (by norm_num)
  rw [readElevation, h1, ok_bind]
  dsimp only
  rw [h2, ok_bind]
  refine congrArg Except.ok ?_
  dsimp only
  rw [List.map_map]
  refine List.map_congr_left ?_
  intro r hr
  simp only [Function.comp, splitZ]
  rw [stride_flatMap 0 2 (by norm_num) (fun z : C8 => [z.1, z.2]) (fun z => z.1)
      (fun _ => rfl) (fun _ => rfl) r,
    stride_flatMap 1 2 (by norm_num) (fun z : C8 => [z.1, z.2]) (fun z => z.2)
      (fun _ => rfl) (fun _ => rfl) r, List.zip_map']
  rw [List.map_map]
  refine List.map_congr_left ?_
  intro z _
  exact maskNaN_eq z

/-- Writing transports and reading constituent number `i` returns the `i`-th pair of fields. -/
theorem C17_transport_roundtrip (nx ny : ℕ) (fields : List (List (List (C8 × C8))))
    (ylim xlim : List F4) (names : List Name)
    (hshape : ∀ f ∈ fields, Shaped nx ny f)
    (hyl : ylim.length = 2) (hxl : xlim.length = 2)
    (hn : names.length = fields.length) (hlen : ∀ c ∈ names, c.length ≤ 4)
    (hx : nx < 2 ^ 31) (hy : ny < 2 ^ 31) (hc : 4 * (7 + fields.length) < 2 ^ 31)
    (hrec : 2 * 8 * nx * ny < 2 ^ 31) :
    ∃ file, outputTransport nx ny fields (tofileF ylim) (tofileF xlim) names = .ok file ∧
      ∀ i field, fields[i]? = some field →
        readTransport file i
          = .ok (field.map (fun row => row.map (fun p => (expected p.1, expected p.2)))) := by
  obtain ⟨hl, hhl, hdr, hhdr, hread⟩ := header_roundtrip nx ny fields.length (tofileF ylim)
    (tofileF xlim) names hx hy hc (by rw [tofileF_length, hyl]) (by rw [tofileF_length, hxl])
  have pm : (-2 ^ 31 : ℤ) ≤ 2 * 8 * (nx : ℤ) * ny ∧ 2 * 8 * (nx : ℤ) * ny < 2 ^ 31 := by
    constructor
    · have : (0 : ℤ) ≤ 2 * 8 * (nx : ℤ) * ny := by positivity
      linarith
    · exact_mod_cast hrec
  have hmap : pyMap (recordUV nx ny) fields = .ok (fields.map (fun f =>
      be (ofI4 (2 * 8 * (nx : ℤ) * ny)) ++ f.flatMap (fun r =>
        tofileF (r.flatMap (fun p : C8 × C8 => [p.1.1, p.1.2, p.2.1, p.2.2])))
        ++ be (ofI4 (2 * 8 * (nx : ℤ) * ny)))) := by
    refine pyMap_ok_of_forall ?_
    intro f hf
    simp only [recordUV, packI_ok _ pm, ok_bind, error_bind]
    rfl
  simp only [outputTransport, hhdr, hmap, ok_bind, error_bind]
  refine ⟨_, rfl, ?_⟩
  intro i field hi
  have henc : ∀ r : List (C8 × C8), r.length = nx →
      (r.flatMap (fun p : C8 × C8 => [p.1.1, p.1.2, p.2.1, p.2.2])).length = 4 * nx := by
    intro r hr
    rw [← hr]
    clear hr
    induction r with
    | nil => rfl
    | cons a t ih => rw [List.flatMap_cons, List.length_append, ih, List.length_cons]; simp; ring
  obtain ⟨bs, rest, h1, h2⟩ := read_record nx ny fields.length 4
    (fun r : List (C8 × C8) => r.flatMap (fun p => [p.1.1, p.1.2, p.2.1, p.2.2])) hdr hl hhl
    names hn hlen (be (ofI4 (2 * 8 * (nx : ℤ) * ny))) (be_length _) fields hshape henc hread i field hi 16
    (by norm_num)
  rw [readTransport, h1, ok_bind]
  dsimp only
  rw [h2, ok_bind]
  refine congrArg Except.ok ?_
  dsimp only
  rw [List.map_map]
  refine List.map_congr_left ?_
  intro r hr
  simp only [Function.comp, splitUV]
  have st := fun (j : ℕ) (g : C8 × C8 → F4) (hj : j < 4)
      (hg : ∀ p : C8 × C8, [p.1.1, p.1.2, p.2.1, p.2.2][j]? = some (g p)) =>
    stride_flatMap j 4 hj (fun p : C8 × C8 => [p.1.1, p.1.2, p.2.1, p.2.2]) g (fun _ => rfl) hg r
  rw [st 0 (fun p => p.1.1) (by norm_num) (fun _ => rfl),
    st 1 (fun p => p.1.2) (by norm_num) (fun _ => rfl),
    st 2 (fun p => p.2.1) (by norm_num) (fun _ => rfl),
    st 3 (fun p => p.2.2) (by norm_num) (fun _ => rfl), List.zip_map', List.zip_map', List.zip_map']
  rw [List.map_map]
  refine List.map_congr_left ?_
  intro p _
  simp only [Function.comp, maskNaN_eq]

/-- Records too long for a 32-bit length marker cannot be written. -/
theorem C16_too_large (nx ny : ℕ) (fields : List (List (List C8))) (ylim xlim : List UInt8)
    (names : List Name) (hf : fields ≠ []) (hx : nx < 2 ^ 31) (hy : ny < 2 ^ 31)
    (hc : 4 * (7 + fields.length) < 2 ^ 31) (hrec : 2 ^ 31 ≤ 8 * nx * ny) :
    outputElevation nx ny fields ylim xlim names = .error .structError := by
  have p1 : (-2 ^ 31 : ℤ) ≤ 4 * (7 + (fields.length : ℤ)) ∧ 4 * (7 + (fields.length : ℤ)) < 2 ^ 31 := by
    omega
  have p2 : (-2 ^ 31 : ℤ) ≤ (nx : ℤ) ∧ (nx : ℤ) < 2 ^ 31 := by omega
  have p3 : (-2 ^ 31 : ℤ) ≤ (ny : ℤ) ∧ (ny : ℤ) < 2 ^ 31 := by omega
  have p4 : (-2 ^ 31 : ℤ) ≤ (fields.length : ℤ) ∧ (fields.length : ℤ) < 2 ^ 31 := by omega
  have pm : ¬ ((-2 ^ 31 : ℤ) ≤ 8 * (nx : ℤ) * ny ∧ 8 * (nx : ℤ) * ny < 2 ^ 31) := by
    rintro ⟨_, h⟩
    have : (8 * (nx : ℤ) * ny) = ((8 * nx * ny : ℕ) : ℤ) := by push_cast; ring
    omega
  cases fields with
  | nil => exact absurd rfl hf
  | cons f t =>
    have hp : packI (8 * (nx : ℤ) * ny) = .error .structError := by rw [packI, if_neg pm]
    rw [outputElevation, header, packI_ok _ p1, packI_ok _ p2, packI_ok _ p3, packI_ok _ p4]
    rw [ok_bind, ok_bind, ok_bind, ok_bind, ok_bind, pyMap, recordZ, hp, error_bind, error_bind]

/-- A grid of one row and two columns with two constituents; the second cell of the second
constituent is NaN. -/
example : (outputElevation 2 1 [[[(1, 2), (3, 4)]], [[(5, 6), (0x7fc00000, 8)]]]
      (tofileF [9, 10]) (tofileF [11, 12]) ["m2".toUTF8.toList, "s2".toUTF8.toList]).bind
      (fun f => readElevation f 1) = .ok [[some (5, 6), none]] := by decide +kernel

/-- The limits must be arrays of dtype `>f4`: `tofile` writes the bytes of the array as they are,
so limits given as double precision arrays corrupt the file, and reading it back does not return
the field written. -/
theorem C16_double_limits_false :
    (outputElevation 1 1 [[[(1, 2)]]] (List.replicate 16 0) (List.replicate 16 0)
      ["m2".toUTF8.toList]).bind (fun f => readElevation f 0) ≠ .ok [[some (1, 2)]] := by
  decide +kernel

end Verif.OTIS
