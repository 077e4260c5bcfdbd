import Verif.Props.OTISFields
/-!
C18 and C19: OTIS grid files, and the constituent names of OTIS files, write then read.
-/
namespace Verif.OTIS
open Verif Verif.Bytes

/-! ### Constituent names -/

theorem splitWords_word (w cur t : List UInt8) (h : ∀ b ∈ w, isSpace b = false) :
    splitWords cur (w ++ t) = splitWords (w.reverse ++ cur) t := by
  induction w generalizing cur with
  | nil => rfl
  | cons a u ih =>
    simp only [List.cons_append, splitWords, h a (by simp), Bool.false_eq_true, if_false]
    rw [ih _ (fun b hb => h b (List.mem_cons_of_mem _ hb))]
    simp

theorem splitWords_spaces (k : ℕ) (t : List UInt8) :
    splitWords [] (List.replicate k 32 ++ t) = splitWords [] t := by
  induction k with
  | zero => rfl
  | succ k ih =>
    rw [List.replicate_succ, List.cons_append]
    simp only [splitWords, show isSpace 32 = true from rfl, if_true, ih]

theorem splitWords_pad (cur : List UInt8) (hc : cur ≠ []) (k : ℕ) (hk : 0 < k) (t : List UInt8) :
    splitWords cur (List.replicate k 32 ++ t) = cur.reverse :: splitWords [] t := by
  obtain ⟨k, rfl⟩ : ∃ j, k = j + 1 := ⟨k - 1, by omega⟩
  rw [List.replicate_succ, List.cons_append]
  simp only [splitWords, show isSpace 32 = true from rfl, if_true, hc, if_false,
    splitWords_spaces]

/-- A name that can be stored: not empty, no whitespace, at most four bytes. -/
def Storable (c : Name) : Prop := c ≠ [] ∧ (∀ b ∈ c, isSpace b = false) ∧ c.length ≤ 4

theorem splitWords_names (names : List Name) (h : ∀ c ∈ names, Storable c)
    (h3 : ∀ c ∈ names.dropLast, c.length ≤ 3) : splitWords [] (names.flatMap ljust4) = names := by
  induction names with
  | nil => rfl
  | cons c t ih =>
    obtain ⟨hne, hsp, hle⟩ := h c (by simp)
    rw [List.flatMap_cons, ljust4, List.append_assoc, splitWords_word c [] _ hsp, List.append_nil]
    cases t with
    | nil =>
      have hr : c.reverse ≠ [] := by simpa using hne
      by_cases hk : 0 < 4 - c.length
      · rw [splitWords_pad _ hr _ hk]
        simp [splitWords]
      · have : 4 - c.length = 0 := by omega
        simp [this, splitWords, hne]
    | cons d u =>
      have hc3 : c.length ≤ 3 := h3 c (by simp)
      rw [splitWords_pad _ (by simpa using hne) _ (by omega), List.reverse_reverse,
        ih (fun x hx => h x (List.mem_cons_of_mem _ hx)) ?_]
      intro x hx
      exact h3 x (by rw [List.dropLast_cons_cons]; exact List.mem_cons_of_mem _ hx)

/-- Number of words read: never more than the names, whether or not a word is open. -/
theorem splitWords_count (names : List Name) (h : ∀ c ∈ names, Storable c) :
    (splitWords [] (names.flatMap ljust4)).length ≤ names.length ∧
    ∀ cur, cur ≠ [] → names ≠ [] → (splitWords cur (names.flatMap ljust4)).length ≤ names.length := by
  induction names with
  | nil => exact ⟨Nat.le_refl _, fun _ _ h => absurd rfl h⟩
  | cons c t ih =>
    obtain ⟨hne, hsp, hle⟩ := h c (by simp)
    obtain ⟨ih1, ih2⟩ := ih (fun x hx => h x (List.mem_cons_of_mem _ hx))
    have key : ∀ cur, (splitWords cur ((c :: t).flatMap ljust4)).length ≤ (c :: t).length := by
      intro cur
      rw [List.flatMap_cons, ljust4, List.append_assoc, splitWords_word c cur _ hsp]
      have hr : c.reverse ++ cur ≠ [] := by simp [hne]
      by_cases hk : 0 < 4 - c.length
      · rw [splitWords_pad _ hr _ hk, List.length_cons, List.length_cons]
        omega
      · rw [show 4 - c.length = 0 by omega, List.replicate_zero, List.nil_append]
        cases t with
        | nil => simp [splitWords, hne]
        | cons d u =>
          have := ih2 _ hr (by simp)
          rw [List.length_cons]
          omega
    exact ⟨key [], fun cur _ _ => key cur⟩

theorem splitWords_merge (names : List Name) (h : ∀ c ∈ names, Storable c)
    (h4 : ∃ c ∈ names.dropLast, c.length = 4) :
    (splitWords [] (names.flatMap ljust4)).length < names.length := by
  induction names with
  | nil => obtain ⟨c, hc, _⟩ := h4; simp at hc
  | cons c t ih =>
    obtain ⟨hne, hsp, hle⟩ := h c (by simp)
    have ht := fun x hx => h x (List.mem_cons_of_mem c hx)
    rw [List.flatMap_cons, ljust4, List.append_assoc, splitWords_word c [] _ hsp, List.append_nil]
    have hr : c.reverse ≠ [] := by simpa using hne
    cases t with
    | nil => obtain ⟨x, hx, _⟩ := h4; simp at hx
    | cons d u =>
      by_cases hk : 0 < 4 - c.length
      · rw [splitWords_pad _ hr _ hk, List.length_cons, List.length_cons]
        have : ∃ x ∈ (d :: u).dropLast, x.length = 4 := by
          obtain ⟨x, hx, hx4⟩ := h4
          rw [List.dropLast_cons_cons, List.mem_cons] at hx
          rcases hx with rfl | hx
          · omega
          · exact ⟨x, hx, hx4⟩
        have := ih ht this
        omega
      · rw [show 4 - c.length = 0 by omega, List.replicate_zero, List.nil_append]
        have := (splitWords_count (d :: u) ht).2 _ hr (by simp)
        rw [List.length_cons (a := c)]
        omega

theorem readConstituents_header (nx ny nc : ℕ) (ylim xlim : List UInt8) (names : List Name)
    (hx : nx < 2 ^ 31) (hy : ny < 2 ^ 31) (hc : 4 * (7 + nc) < 2 ^ 31)
    (hyl : ylim.length = 8) (hxl : xlim.length = 8) (hn : names.length = nc)
    (hlen : ∀ c ∈ names, c.length ≤ 4) (hdr t : List UInt8)
    (hh : header nx ny nc ylim xlim names = .ok hdr) :
    readConstituents (hdr ++ t) = .ok (splitWords [] (names.flatMap ljust4), (nc : ℤ)) := by
  have p1 : (-2 ^ 31 : ℤ) ≤ 4 * (7 + (nc : ℤ)) ∧ 4 * (7 + (nc : ℤ)) < 2 ^ 31 := by omega
  have p2 : (-2 ^ 31 : ℤ) ≤ (nx : ℤ) ∧ (nx : ℤ) < 2 ^ 31 := by omega
  have p3 : (-2 ^ 31 : ℤ) ≤ (ny : ℤ) ∧ (ny : ℤ) < 2 ^ 31 := by omega
  have p4 : (-2 ^ 31 : ℤ) ≤ (nc : ℤ) ∧ (nc : ℤ) < 2 ^ 31 := by omega
  rw [header, packI_ok _ p1, packI_ok _ p2, packI_ok _ p3, packI_ok _ p4, ok_bind, ok_bind,
    ok_bind, ok_bind] at hh
  have hh' := Except.ok.inj hh
  subst hh'
  rw [readConstituents]
  simp only [List.append_assoc]
  rw [readI_be _ p1, ok_bind, readI_be _ p2, ok_bind, readI_be _ p3, ok_bind, readI_be _ p4,
    ok_bind]
  refine congrArg Except.ok (Prod.ext ?_ rfl)
  dsimp only
  rw [← List.append_assoc ylim, seek, List.drop_left' (by rw [List.length_append, hyl, hxl]; rfl),
    List.take_left' (by rw [names_length names hlen, hn]; omega)]

/-- The names written with elevations are read back exactly, in order, if and only if every name
but the last has at most three characters. -/
theorem C19_elevation_names (nx ny : ℕ) (fields : List (List (List C8)))
    (ylim xlim : List F4) (names : List Name)
    (hyl : ylim.length = 2) (hxl : xlim.length = 2)
    (hn : names.length = fields.length) (hst : ∀ c ∈ names, Storable c)
    (hx : nx < 2 ^ 31) (hy : ny < 2 ^ 31) (hc : 4 * (7 + fields.length) < 2 ^ 31)
    (file : List UInt8)
    (hfile : outputElevation nx ny fields (tofileF ylim) (tofileF xlim) names = .ok file) :
    readConstituents file = .ok (names, (names.length : ℤ)) ↔
      ∀ c ∈ names.dropLast, c.length ≤ 3 := by
  obtain ⟨hl, hhl, hdr, hhdr, hread⟩ := header_roundtrip nx ny fields.length (tofileF ylim)
    (tofileF xlim) names hx hy hc (by rw [tofileF_length, hyl]) (by rw [tofileF_length, hxl])
  rw [outputElevation, hhdr, ok_bind] at hfile
  cases hrs : pyMap (recordZ nx ny) fields with
  | error e => rw [hrs, error_bind] at hfile; cases hfile
  | ok rs =>
    rw [hrs, ok_bind] at hfile
    have hf := Except.ok.inj hfile
    rw [← hf, readConstituents_header nx ny fields.length _ _ names hx hy hc
      (by rw [tofileF_length, hyl]) (by rw [tofileF_length, hxl]) hn (fun c hc => (hst c hc).2.2)
      hdr _ hhdr, hn]
    constructor
    · intro h c hcm
      by_contra hlt
      have hm : c ∈ names := (List.dropLast_sublist names).subset hcm
      have h4 : c.length = 4 := by have := (hst c hm).2.2; omega
      have h1 := splitWords_merge names hst ⟨c, hcm, h4⟩
      have h2 := congrArg Prod.fst (Except.ok.inj h)
      dsimp only at h2
      rw [h2] at h1
      exact lt_irrefl _ h1
    · intro h
      rw [splitWords_names names hst h]

/-- The same for transports. -/
theorem C19_transport_names (nx ny : ℕ) (fields : List (List (List (C8 × C8))))
    (ylim xlim : List F4) (names : List Name)
    (hyl : ylim.length = 2) (hxl : xlim.length = 2)
    (hn : names.length = fields.length) (hst : ∀ c ∈ names, Storable c)
    (hx : nx < 2 ^ 31) (hy : ny < 2 ^ 31) (hc : 4 * (7 + fields.length) < 2 ^ 31)
    (file : List UInt8)
    (hfile : outputTransport nx ny fields (tofileF ylim) (tofileF xlim) names = .ok file) :
    readConstituents file = .ok (names, (names.length : ℤ)) ↔
      ∀ c ∈ names.dropLast, c.length ≤ 3 := by
  obtain ⟨hl, hhl, hdr, hhdr, hread⟩ := header_roundtrip nx ny fields.length (tofileF ylim)
    (tofileF xlim) names hx hy hc (by rw [tofileF_length, hyl]) (by rw [tofileF_length, hxl])
  rw [outputTransport, hhdr, ok_bind] at hfile
  cases hrs : pyMap (recordUV nx ny) fields with
  | error e => rw [hrs, error_bind] at hfile; cases hfile
  | ok rs =>
    rw [hrs, ok_bind] at hfile
    have hf := Except.ok.inj hfile
    rw [← hf, readConstituents_header nx ny fields.length _ _ names hx hy hc
      (by rw [tofileF_length, hyl]) (by rw [tofileF_length, hxl]) hn (fun c hc => (hst c hc).2.2)
      hdr _ hhdr, hn]
    constructor
    · intro h c hcm
      by_contra hlt
      have hm : c ∈ names := (List.dropLast_sublist names).subset hcm
      have h4 : c.length = 4 := by have := (hst c hm).2.2; omega
      have h1 := splitWords_merge names hst ⟨c, hcm, h4⟩
      have h2 := congrArg Prod.fst (Except.ok.inj h)
      dsimp only at h2
      rw [h2] at h1
      exact lt_irrefl _ h1
    · intro h
      rw [splitWords_names names hst h]

/-- Two names that satisfy the hypotheses. -/
example : Storable "m2".toUTF8.toList ∧ Storable "2sm2".toUTF8.toList ∧
    ∀ c ∈ ["m2".toUTF8.toList, "2sm2".toUTF8.toList].dropLast, c.length ≤ 3 := by
  refine ⟨⟨?_, ?_, ?_⟩, ⟨?_, ?_, ?_⟩, ?_⟩ <;> decide +kernel

/-- "whatever their lengths (up to four characters)" is false: two names are written, one is
read. -/
theorem C19_four_characters_false :
    (outputElevation 1 1 [[[(1, 2)]], [[(3, 4)]]] (tofileF [9, 10]) (tofileF [11, 12])
      ["mns2".toUTF8.toList, "2sm2".toUTF8.toList]).bind readConstituents
      = .ok (["mns22sm2".toUTF8.toList], 2) := by decide +kernel

/-! ### Grids -/

/-- A signed 32-bit integer. -/
def IsInt32 (v : ℤ) : Prop := -2 ^ 31 ≤ v ∧ v < 2 ^ 31

theorem flatMap_pairs (iob : List (ℤ × ℤ)) :
    iob.flatMap (fun p => be (ofI4 p.1) ++ be (ofI4 p.2))
      = ((iob.flatMap (fun p => [p.1, p.2])).map ofI4).flatMap be := by
  induction iob with
  | nil => rfl
  | cons p t ih => simp [ih]

theorem pairs_length (iob : List (ℤ × ℤ)) :
    (iob.flatMap (fun p => [p.1, p.2])).length = 2 * iob.length := by
  induction iob with
  | nil => rfl
  | cons p t ih => rw [List.flatMap_cons, List.length_append, ih, List.length_cons]; simp; ring

theorem map_toI4_ofI4 (l : List ℤ) (h : ∀ v ∈ l, IsInt32 v) : (l.map ofI4).map toI4 = l := by
  induction l with
  | nil => rfl
  | cons a t ih =>
    rw [List.map_cons, List.map_cons, toI4_ofI4 a (h a (by simp)),
      ih (fun x hx => h x (List.mem_cons_of_mem _ hx))]

theorem seek_left (n : ℤ) (a t : List UInt8) (h : (a.length : ℤ) = n) : seek n (a ++ t) = t := by
  rw [seek, ← h, Int.toNat_natCast, List.drop_left]

theorem hz_flatMap (hz : List (List F4)) : hz.flatMap tofileF = tofileF hz.flatten := by
  induction hz with
  | nil => rfl
  | cons r t ih => rw [List.flatMap_cons, ih, List.flatten_cons, tofileF, tofileF, tofileF,
      List.flatMap_append]

theorem flatten_length {α : Type} (nx ny : ℕ) (f : List (List α)) (h : Shaped nx ny f) :
    f.flatten.length = nx * ny := by
  obtain ⟨h1, h2⟩ := h
  subst h1
  induction f with
  | nil => rfl
  | cons r t ih =>
    rw [List.flatten_cons, List.length_append, h2 r (by simp),
      ih (fun x hx => h2 x (List.mem_cons_of_mem _ hx)), List.length_cons]
    ring

/-- Everything that `read_otis_grid` returns for a file written by `output_otis_grid`: the sizes,
the limits, the time step, the depths and the open boundary are those written, while the mask is
made of the depths from the third on (as integers) and of two record lengths. -/
theorem read_output_grid (nx ny : ℕ) (ylim xlim : List F4) (hz : List (List F4))
    (mz : List (List ℤ)) (iob : List (ℤ × ℤ)) (dt : F4)
    (hyl : ylim.length = 2) (hxl : xlim.length = 2) (hhz : Shaped nx ny hz)
    (hio : ∀ p ∈ iob, IsInt32 p.1 ∧ IsInt32 p.2)
    (hx : nx < 2 ^ 31) (hy : ny < 2 ^ 31) (ho : 8 * iob.length < 2 ^ 31)
    (hr : 4 * nx * ny < 2 ^ 31) :
    ∃ file, outputGrid nx ny (tofileF ylim) (tofileF xlim) hz mz iob dt = .ok file ∧
      readGrid file = .ok {
        nx := nx, ny := ny, limits := (ylim ++ xlim).map UInt32.toNat,
        hz := hz.flatten,
        mz := (((hz.flatten.map UInt32.toNat) ++ [4 * nx * ny, 4 * nx * ny]).drop 2).map toI4,
        iob := iob.flatMap (fun p => [p.1, p.2]), dt := dt } := by
  have p2 : (-2 ^ 31 : ℤ) ≤ (nx : ℤ) ∧ (nx : ℤ) < 2 ^ 31 := by omega
  have p3 : (-2 ^ 31 : ℤ) ≤ (ny : ℤ) ∧ (ny : ℤ) < 2 ^ 31 := by omega
  have p4 : (-2 ^ 31 : ℤ) ≤ (iob.length : ℤ) ∧ (iob.length : ℤ) < 2 ^ 31 := by omega
  have p5 : (-2 ^ 31 : ℤ) ≤ 8 * (iob.length : ℤ) ∧ 8 * (iob.length : ℤ) < 2 ^ 31 := by omega
  have p6 : (-2 ^ 31 : ℤ) ≤ 4 * (nx : ℤ) * ny ∧ 4 * (nx : ℤ) * ny < 2 ^ 31 := by
    constructor
    · have : (0 : ℤ) ≤ 4 * (nx : ℤ) * ny := by positivity
      linarith
    · exact_mod_cast hr
  have p7 : (-2 ^ 31 : ℤ) ≤ 32 ∧ (32 : ℤ) < 2 ^ 31 := by omega
  have p8 : (-2 ^ 31 : ℤ) ≤ 4 ∧ (4 : ℤ) < 2 ^ 31 := by omega
  have p9 : (-2 ^ 31 : ℤ) ≤ 0 ∧ (0 : ℤ) < 2 ^ 31 := by omega
  have hfl := flatten_length nx ny hz hhz
  have hnn : ((nx : ℤ) * (ny : ℤ)).toNat = nx * ny := by
    rw [← Nat.cast_mul, Int.toNat_natCast]
  have hofr : ofI4 (4 * (nx : ℤ) * ny) = 4 * nx * ny := by
    simp only [ofI4]
    have : 4 * (nx : ℤ) * ny = ((4 * nx * ny : ℕ) : ℤ) := by push_cast; ring
    rw [this]
    omega
  -- the part of the file from the first depth on
  have tail : ∀ bnd : List ℤ, bnd.length = 2 * iob.length →
      ∀ (t : List UInt8) (lim : List ℕ),
      readDepthMask nx ny iob.length lim dt bnd (tofileF hz.flatten ++ (tofileF hz.flatten
          ++ (be (ofI4 (4 * (nx : ℤ) * ny)) ++ (be (ofI4 (4 * (nx : ℤ) * ny)) ++ t))))
      = Except.ok (GridData.mk nx ny lim hz.flatten
          ((((hz.flatten.map UInt32.toNat) ++ [4 * nx * ny, 4 * nx * ny]).drop 2).map toI4)
          bnd dt) := by
    intro bnd hb t lim
    rw [readDepthMask, hnn, fromfile_tofileF _ _ _ hfl]
    dsimp only
    have e : tofileF hz.flatten ++ (be (ofI4 (4 * (nx : ℤ) * ny)) ++ (be (ofI4 (4 * (nx : ℤ) * ny)) ++ t))
        = ((hz.flatten.map UInt32.toNat) ++ [4 * nx * ny, 4 * nx * ny]).flatMap be ++ t := by
      rw [tofileF_eq, hofr]; simp
    have hlt : ∀ n ∈ (hz.flatten.map UInt32.toNat) ++ [4 * nx * ny, 4 * nx * ny], n < 2 ^ 32 := by
      intro n hn
      rw [List.mem_append] at hn
      rcases hn with hn | hn
      · obtain ⟨x, _, rfl⟩ := List.mem_map.mp hn
        exact UInt32.toNat_lt x
      · simp only [List.mem_cons, List.not_mem_nil, or_false, or_self] at hn
        omega
    have hlen : (hz.flatten.map UInt32.toNat ++ [4 * nx * ny, 4 * nx * ny]).length = nx * ny + 2 := by
      simp only [List.length_append, List.length_map, hfl, List.length_cons, List.length_nil]
    generalize hz.flatten.map UInt32.toNat ++ [4 * nx * ny, 4 * nx * ny] = W at *
    have hsplit : W.flatMap be ++ t = (W.take 2).flatMap be ++ ((W.drop 2).flatMap be ++ t) := by
      rw [← List.append_assoc, ← List.flatMap_append, List.take_append_drop]
    rw [e, hsplit, seek_left 8 _ _ (by rw [flatMap_be_length, List.length_take, hlen]; omega)]
    rw [fromfile_append (W.drop 2) (fun n hn => hlt n (List.mem_of_mem_drop hn)) t (nx * ny)
      (by rw [List.length_drop, hlen]; omega)]
    dsimp only
    rw [if_neg (by omega), if_pos ?_, map_ofNat_toNat, Int.toNat_natCast, Int.toNat_natCast]
    refine ⟨?_, ?_, ?_⟩
    · rw [List.length_map, hfl]; push_cast; rfl
    · rw [List.length_drop, hlen]; push_cast; omega
    · rw [hb]; push_cast; rfl
  rw [outputGrid]
  dsimp only
  rw [packI_ok _ p7, packI_ok _ p2, packI_ok _ p3, packI_ok _ p4, packI_ok _ p6, ok_bind,
    ok_bind, ok_bind, ok_bind]
  have limits : ∀ t, fromfile 2 (tofileF ylim ++ t) = (ylim.map UInt32.toNat, t) ∧
      fromfile 2 (tofileF xlim ++ t) = (xlim.map UInt32.toNat, t) := fun t =>
    ⟨fromfile_tofileF _ t 2 hyl, fromfile_tofileF _ t 2 hxl⟩
  have hdt : ∀ t, fromfile 1 (be dt.toNat ++ t) = ([dt.toNat], t) := fun t => by
    have := fromfile_tofileF [dt] t 1 rfl
    simpa [tofileF] using this
  by_cases hnob : iob.length = 0
  · have hnil : iob = [] := List.length_eq_zero_iff.mp hnob
    rw [if_pos hnob, packI_ok _ p8, packI_ok _ p9, ok_bind, ok_bind, ok_bind, ok_bind]
    refine ⟨_, rfl, ?_⟩
    rw [readGrid]
    simp only [List.append_assoc]
    rw [seek_left 4 _ _ (by rw [be_length]; rfl), readI_be _ p2, ok_bind]
    dsimp only
    rw [readI_be _ p3, ok_bind]
    dsimp only
    rw [(limits _).1]
    dsimp only
    rw [(limits _).2]
    dsimp only
    rw [hdt]
    dsimp only
    rw [ok_bind, readI_be _ p4, ok_bind]
    dsimp only
    rw [if_pos (by omega)]
    dsimp only
    rw [← List.append_assoc (be (ofI4 4)), ← List.append_assoc _ (be (ofI4 4)),
      ← List.append_assoc _ (be (ofI4 (4 * (nx : ℤ) * ny))), ← List.append_assoc (be (ofI4 32)),
      seek_left 20 _ _ (by simp only [List.length_append, be_length]; rfl), hz_flatMap]
    rw [hnil, List.flatMap_nil]
    have := tail [] (by rw [hnob]; rfl)
    rw [hnil] at this
    rw [UInt32.ofNat_toNat]
    rw [List.map_append]
    exact this _ _
  · rw [if_neg hnob, packI_ok _ p5, ok_bind, ok_bind, ok_bind]
    refine ⟨_, rfl, ?_⟩
    rw [readGrid]
    simp only [List.append_assoc]
    rw [seek_left 4 _ _ (by rw [be_length]; rfl), readI_be _ p2, ok_bind]
    dsimp only
    rw [readI_be _ p3, ok_bind]
    dsimp only
    rw [(limits _).1]
    dsimp only
    rw [(limits _).2]
    dsimp only
    rw [hdt]
    dsimp only
    rw [ok_bind, readI_be _ p4, ok_bind]
    dsimp only
    rw [if_neg (by omega)]
    rw [← List.append_assoc (be (ofI4 32)),
      seek_left 8 _ _ (by simp only [List.length_append, be_length]; rfl), flatMap_pairs,
      fromfile_append _ ?_ _ (2 * (iob.length : ℤ)).toNat
        (by rw [List.length_map, pairs_length]; omega)]
    · dsimp only
      rw [map_toI4_ofI4 _ ?_, ← List.append_assoc (be (ofI4 (8 * (iob.length : ℤ)))),
        seek_left 8 _ _ (by simp only [List.length_append, be_length]; rfl), hz_flatMap]
      · rw [UInt32.ofNat_toNat]
        rw [List.map_append]
        exact tail _ (pairs_length iob) _ _
      · intro v hv
        obtain ⟨p, hp, hv⟩ := List.mem_flatMap.mp hv
        have := hio p hp
        simp only [List.mem_cons, List.not_mem_nil, or_false] at hv
        rcases hv with rfl | rfl
        · exact this.1
        · exact this.2
    · intro n hn
      obtain ⟨v, _, rfl⟩ := List.mem_map.mp hn
      exact ofI4_lt v

/-- Sizes, limits, time step, depths and open boundary of a grid file survive writing and reading.
Missing: the mask, which is not returned (see `C18_mask_lost`). -/
theorem C18_grid_roundtrip_partial (nx ny : ℕ) (ylim xlim : List F4) (hz : List (List F4))
    (mz : List (List ℤ)) (iob : List (ℤ × ℤ)) (dt : F4)
    (hyl : ylim.length = 2) (hxl : xlim.length = 2) (hhz : Shaped nx ny hz)
    (hio : ∀ p ∈ iob, IsInt32 p.1 ∧ IsInt32 p.2)
    (hx : nx < 2 ^ 31) (hy : ny < 2 ^ 31) (ho : 8 * iob.length < 2 ^ 31)
    (hr : 4 * nx * ny < 2 ^ 31) :
    ∃ file g, outputGrid nx ny (tofileF ylim) (tofileF xlim) hz mz iob dt = .ok file ∧
      readGrid file = .ok g ∧ g.nx = nx ∧ g.ny = ny ∧
      g.limits.map UInt32.ofNat = ylim ++ xlim ∧ g.hz = hz.flatten ∧ g.dt = dt ∧
      g.iob = iob.flatMap (fun p => [p.1, p.2]) := by
  obtain ⟨file, h1, h2⟩ := read_output_grid nx ny ylim xlim hz mz iob dt hyl hxl hhz hio hx hy ho hr
  exact ⟨file, _, h1, h2, rfl, rfl, map_ofNat_toNat _, rfl, rfl, rfl⟩

/-- The mask read is the same whatever mask was written. -/
theorem C18_mask_lost (nx ny : ℕ) (ylim xlim : List F4) (hz : List (List F4))
    (mz mz' : List (List ℤ)) (iob : List (ℤ × ℤ)) (dt : F4)
    (hyl : ylim.length = 2) (hxl : xlim.length = 2) (hhz : Shaped nx ny hz)
    (hio : ∀ p ∈ iob, IsInt32 p.1 ∧ IsInt32 p.2)
    (hx : nx < 2 ^ 31) (hy : ny < 2 ^ 31) (ho : 8 * iob.length < 2 ^ 31)
    (hr : 4 * nx * ny < 2 ^ 31) :
    (outputGrid nx ny (tofileF ylim) (tofileF xlim) hz mz iob dt).bind readGrid
      = (outputGrid nx ny (tofileF ylim) (tofileF xlim) hz mz' iob dt).bind readGrid := by
  obtain ⟨file, h1, h2⟩ := read_output_grid nx ny ylim xlim hz mz iob dt hyl hxl hhz hio hx hy ho hr
  obtain ⟨file', h1', h2'⟩ :=
    read_output_grid nx ny ylim xlim hz mz' iob dt hyl hxl hhz hio hx hy ho hr
  rw [h1, h1']
  exact h2.trans h2'.symm

/-- A one by two grid with an open boundary that meets the hypotheses. -/
example : Shaped 2 1 [[(1 : F4), 2]] ∧ (∀ p ∈ [((3 : ℤ), (-4 : ℤ))], IsInt32 p.1 ∧ IsInt32 p.2) := by
  refine ⟨⟨rfl, ?_⟩, ?_⟩
  · intro r hr; simp at hr; subst hr; rfl
  · intro p hp; simp at hp; subst hp; simp [IsInt32]

/-- "returns the same mask" is false: a mask of ones is read as other numbers. -/
theorem C18_mask_false :
    ((outputGrid 2 1 (tofileF [5, 6]) (tofileF [7, 8]) [[1, 2]] [[1, 1]] [] 9).bind readGrid).map
      (fun g => g.mz) = .ok [8, 8] := by decide +kernel

end Verif.OTIS
