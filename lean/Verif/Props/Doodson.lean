import Verif.Model.Doodson
import Verif.Lemmas.Doodson
/-!
Properties C01, C02 and C03: the Doodson-number codecs.
-/
namespace Verif.Doodson
open Verif

/-- Six Cartwright numbers that have Doodson digits: the species digit is `0..11`, the
other five are `0..11` after adding 5.  Written independently of the encoder. -/
def Encodable (a b c d e f : Int) : Prop :=
  (0 ≤ a ∧ a ≤ 11) ∧ (-5 ≤ b ∧ b ≤ 6) ∧ (-5 ≤ c ∧ c ≤ 6) ∧ (-5 ≤ d ∧ d ≤ 6) ∧
  (-5 ≤ e ∧ e ≤ 6) ∧ (-5 ≤ f ∧ f ≤ 6)

/-- Some digit is 10 or 11, so the number is returned as text. -/
def Lettered (a b c d e f : Int) : Prop :=
  10 ≤ a ∨ 5 ≤ b ∨ 5 ≤ c ∨ 5 ≤ d ∨ 5 ≤ e ∨ 5 ≤ f

/-- C01, exact characterisation: an encodable tuple survives the round trip if and only if
one of its digits needs a letter, or its last digit is not zero, or all digits are zero.
This is the strongest true form of C01. -/
theorem C01_doodson_roundtrip_partial (a b c d e f : Int) (h : Encodable a b c d e f) :
    (∃ x, toDoodson true [a, b, c, d, e, f] = .ok (some x) ∧
      fromDoodson x = .ok [a, b, c, d, e, f]) ↔
    (Lettered a b c d e f ∨ f ≠ -5 ∨ (a = 0 ∧ b = -5 ∧ c = -5 ∧ d = -5 ∧ e = -5)) := by
  obtain ⟨⟨ha0, ha1⟩, ⟨hb0, hb1⟩, ⟨hc0, hc1⟩, ⟨hd0, hd1⟩, ⟨he0, he1⟩, hf0, hf1⟩ := h
  have hacc : outOfRange (shifted [a, b, c, d, e, f]) = false := by
    simp [shifted, outOfRange]; omega
  by_cases hl : Lettered a b c d e f
  · simp only [hl, true_or, iff_true]
    have hany : ((shifted [a, b, c, d, e, f]).any (fun v => v == 10) ||
        (shifted [a, b, c, d, e, f]).any (fun v => v == 11)) = true := by
      unfold Lettered at hl
      simp [shifted]; omega
    refine ⟨.txt [symbol a, symbol (b+5), symbol (c+5), '.', symbol (d+5), symbol (e+5),
      symbol (f+5)], ?_, ?_⟩
    · simp only [toDoodson, hacc, hany]; simp [shifted]
    · rw [fromDoodson_txt _ _ _ _ _ _ (by omega) (by omega) (by omega) (by omega) (by omega)
        (by omega) (by omega) (by omega) (by omega) (by omega) (by omega) (by omega)]
      simp
  · have hl' := hl
    unfold Lettered at hl'
    have hany : ((shifted [a, b, c, d, e, f]).any (fun v => v == 10) ||
        (shifted [a, b, c, d, e, f]).any (fun v => v == 11)) = false := by
      simp [shifted]; omega
    have hto : toDoodson true [a, b, c, d, e, f] =
        .ok (some (.num (thousandths (shifted [a, b, c, d, e, f])))) := by
      simp only [toDoodson, hacc, hany]; simp
    simp only [hl, false_or]
    rw [hto]
    obtain ⟨a', rfl⟩ := Int.eq_ofNat_of_zero_le ha0
    obtain ⟨b', hb'⟩ := Int.eq_ofNat_of_zero_le (show 0 ≤ b + 5 by omega)
    obtain ⟨c', hc'⟩ := Int.eq_ofNat_of_zero_le (show 0 ≤ c + 5 by omega)
    obtain ⟨d', hd'⟩ := Int.eq_ofNat_of_zero_le (show 0 ≤ d + 5 by omega)
    obtain ⟨e', he'⟩ := Int.eq_ofNat_of_zero_le (show 0 ≤ e + 5 by omega)
    obtain ⟨f', hf'⟩ := Int.eq_ofNat_of_zero_le (show 0 ≤ f + 5 by omega)
    have hth : thousandths (shifted [(a' : Int), b, c, d, e, f]) =
        a' * 100000 + b' * 10000 + c' * 1000 + d' * 100 + e' * 10 + f' := by
      simp [thousandths, shifted, hb', hc', hd', he', hf', List.zipIdx]; omega
    rw [hth]
    have key := fromDoodson_num a' b' c' d' e' f' (by omega) (by omega) (by omega) (by omega)
      (by omega) (by omega)
    constructor
    · rintro ⟨x, hx, hfx⟩
      injection hx with hx; injection hx with hx; subst hx
      rw [key] at hfx
      by_cases h0 : f' = 0
      · by_cases h1 : e' = 0
        · by_cases h2 : d' = 0
          · simp [h0, h1, h2] at hfx; omega
          · simp [h0, h1] at hfx; omega
        · simp [h0, h1] at hfx; omega
      · left; omega
    · intro h
      refine ⟨_, rfl, ?_⟩
      rw [key]
      by_cases h0 : f' = 0
      · have : (a':Int) = 0 ∧ b = -5 ∧ c = -5 ∧ d = -5 ∧ e = -5 := by
          rcases h with h | h
          · omega
          · exact h
        obtain ⟨h1, h2, h3, h4, h5⟩ := this
        have : a' = 0 ∧ b' = 0 ∧ c' = 0 ∧ d' = 0 ∧ e' = 0 := by omega
        obtain ⟨rfl, rfl, rfl, rfl, rfl⟩ := this
        simp [h0]; omega
      · simp [h0]; omega

/-- C01 is false as stated: the tuple `(2,0,0,0,0,-5)` is accepted but decodes to other
numbers, because the float `255.55` loses its final zero. -/
theorem C01_doodson_roundtrip_false :
    Encodable 2 0 0 0 0 (-5) ∧
    toDoodson true [2, 0, 0, 0, 0, -5] = .ok (some (.num 255550)) ∧
    fromDoodson (.num 255550) = .ok [0, -3, 0, 0, 0, 0] := by
  refine ⟨by unfold Encodable; decide, by decide, by decide +kernel⟩

/-- M2 is in the scope of the theorem, and so is a lettered number. -/
example : Encodable 2 0 0 0 0 0 ∧ (0 : Int) ≠ -5 := by unfold Encodable; decide
example : Encodable 2 (-2) 5 0 6 (-5) ∧ Lettered 2 (-2) 5 0 6 (-5) := by
  unfold Encodable Lettered; decide

/-- C02, acceptance: the encoder succeeds exactly on the encodable tuples, raises
`ValueError` on the others, and returns `None` on them when errors are disabled. -/
theorem C02_doodson_accepts_iff (a b c d e f : Int) :
    ((∃ x, toDoodson true [a, b, c, d, e, f] = .ok (some x)) ↔ Encodable a b c d e f) ∧
    (¬ Encodable a b c d e f →
      toDoodson true [a, b, c, d, e, f] = .error .valueError ∧
      toDoodson false [a, b, c, d, e, f] = .ok none) ∧
    (Encodable a b c d e f →
      toDoodson false [a, b, c, d, e, f] = toDoodson true [a, b, c, d, e, f]) := by
  have hiff : outOfRange (shifted [a, b, c, d, e, f]) = false ↔ Encodable a b c d e f := by
    simp [shifted, outOfRange, Encodable]; omega
  by_cases h : Encodable a b c d e f
  · have hr := hiff.mpr h
    refine ⟨⟨fun _ => h, fun _ => ?_⟩, fun hn => absurd h hn, fun _ => ?_⟩
    · simp only [toDoodson, hr]
      simp [shifted]
      split <;> simp
    · simp only [toDoodson, hr]; simp
  · have hr : outOfRange (shifted [a, b, c, d, e, f]) = true := by
      cases hx : outOfRange (shifted [a, b, c, d, e, f])
      · exact absurd (hiff.mp hx) h
      · rfl
    refine ⟨⟨?_, fun hh => absurd hh h⟩, fun _ => ⟨?_, ?_⟩, fun hh => absurd hh h⟩
    · simp [toDoodson, hr]
    · simp [toDoodson, hr]
    · simp [toDoodson, hr]

/-- C02, injectivity: two tuples with the same Doodson number are the same tuple. -/
theorem C02_doodson_injective (a b c d e f a' b' c' d' e' f' : Int) (x : DO)
    (h : toDoodson true [a, b, c, d, e, f] = .ok (some x))
    (h' : toDoodson true [a', b', c', d', e', f'] = .ok (some x)) :
    [a, b, c, d, e, f] = [a', b', c', d', e', f'] := by
  have hE := ((C02_doodson_accepts_iff a b c d e f).1).mp ⟨x, h⟩
  have hE' := ((C02_doodson_accepts_iff a' b' c' d' e' f').1).mp ⟨x, h'⟩
  unfold Encodable at hE hE'
  have hr : outOfRange (shifted [a, b, c, d, e, f]) = false := by
    simp [shifted, outOfRange]; omega
  have hr' : outOfRange (shifted [a', b', c', d', e', f']) = false := by
    simp [shifted, outOfRange]; omega
  simp only [toDoodson, hr, Bool.false_and, Bool.false_eq_true, if_false] at h
  simp only [toDoodson, hr', Bool.false_and, Bool.false_eq_true, if_false] at h'
  by_cases hs : ((shifted [a, b, c, d, e, f]).any (fun v => v == 10) ||
        (shifted [a, b, c, d, e, f]).any (fun v => v == 11)) = true <;>
  by_cases hs' : ((shifted [a', b', c', d', e', f']).any (fun v => v == 10) ||
        (shifted [a', b', c', d', e', f']).any (fun v => v == 11)) = true
  · rw [if_pos hs] at h; rw [if_pos hs'] at h'
    simp [shifted] at h h'
    rw [← h'] at h
    simp only [DO.txt.injEq, List.cons.injEq, and_true, true_and] at h
    obtain ⟨h0, h1, h2, h3, h4, h5⟩ := h
    have := symbol_inj _ _ (by omega) (by omega) (by omega) (by omega) h0
    have := symbol_inj _ _ (by omega) (by omega) (by omega) (by omega) h1
    have := symbol_inj _ _ (by omega) (by omega) (by omega) (by omega) h2
    have := symbol_inj _ _ (by omega) (by omega) (by omega) (by omega) h3
    have := symbol_inj _ _ (by omega) (by omega) (by omega) (by omega) h4
    have := symbol_inj _ _ (by omega) (by omega) (by omega) (by omega) h5
    simp; omega
  · rw [if_pos hs] at h; rw [if_neg hs'] at h'
    simp [shifted] at h h'
    rw [← h'] at h; simp at h
  · rw [if_neg hs] at h; rw [if_pos hs'] at h'
    simp [shifted] at h h'
    rw [← h'] at h; simp at h
  · rw [if_neg hs] at h; rw [if_neg hs'] at h'
    simp only [Except.ok.injEq, Option.some.injEq] at h h'
    rw [← h'] at h
    simp only [DO.num.injEq] at h
    have hb : a ≤ 9 ∧ b ≤ 4 ∧ c ≤ 4 ∧ d ≤ 4 ∧ e ≤ 4 ∧ f ≤ 4 := by
      clear h h'; simp [shifted] at hs; omega
    have hb' : a' ≤ 9 ∧ b' ≤ 4 ∧ c' ≤ 4 ∧ d' ≤ 4 ∧ e' ≤ 4 ∧ f' ≤ 4 := by
      clear h h' hs; simp [shifted] at hs'; omega
    clear hs hs' h' hr hr'
    simp [thousandths, shifted, List.zipIdx] at h
    have hn : ∀ x : Int, x ≤ 9 → x.toNat < 10 := fun x hx => by clear h; omega
    have hn5 : ∀ x : Int, x ≤ 4 → (x + 5).toNat < 10 := fun x hx => by clear h; omega
    have := digits_inj a.toNat (b + 5).toNat (c + 5).toNat (d + 5).toNat (e + 5).toNat
      (f + 5).toNat a'.toNat (b' + 5).toNat (c' + 5).toNat (d' + 5).toNat (e' + 5).toNat
      (f' + 5).toNat (hn _ hb.1) (hn5 _ hb.2.1) (hn5 _ hb.2.2.1) (hn5 _ hb.2.2.2.1)
      (hn5 _ hb.2.2.2.2.1) (hn5 _ hb.2.2.2.2.2) (hn _ hb'.1) (hn5 _ hb'.2.1)
      (hn5 _ hb'.2.2.1) (hn5 _ hb'.2.2.2.1) (hn5 _ hb'.2.2.2.2.1) (hn5 _ hb'.2.2.2.2.2) h
    clear h
    obtain ⟨h0, h1, h2, h3, h4, h5⟩ := this
    simp only [List.cons.injEq, and_true]
    exact ⟨by omega, by omega, by omega, by omega, by omega, by omega⟩

example : ∃ x, toDoodson true [1, -1, 0, 0, 0, 0] = .ok (some x) := ⟨_, rfl⟩

/-- C03, round trip: every list of coefficients that have a letter of their own
(`-8 ≤ v ≤ 16`) is recovered from its extended Doodson number. -/
theorem C03_extended_roundtrip_partial (l : List Int) (h : ∀ v ∈ l, -8 ≤ v ∧ v ≤ 16) :
    ∃ s, toExtended l = .ok s ∧ s.length = l.length ∧ fromExtended s = .ok l := by
  have h1 : ∀ v ∈ l, pyIndex extDigits (v + 8) = .ok (extDigits[(v + 8).toNat]!) :=
    fun v hv => (ext_digit v (h v hv).1 (h v hv).2).1
  refine ⟨l.map (fun v => extDigits[(v + 8).toNat]!), pyMap_ok_of_forall h1, by simp, ?_⟩
  unfold fromExtended
  induction l with
  | nil => rfl
  | cons v t ih =>
    have hv := (ext_digit v (h v (by simp)).1 (h v (by simp)).2).2
    have iht := ih (fun w hw => h w (by simp [hw])) (fun w hw => h1 w (by simp [hw]))
    simp only [List.map_cons, pyMap, hv, iht]

/-- C03, refusal: encoding fails with `IndexError` exactly when some coefficient is
outside `-33..16`; the nine-to-thirty-three below zero are *not* refused. -/
theorem C03_extended_refuses_iff_partial (l : List Int) :
    (∃ s, toExtended l = .ok s) ↔ ∀ v ∈ l, -33 ≤ v ∧ v ≤ 16 := by
  unfold toExtended
  rw [pyMap_ok_iff]
  constructor
  · intro h v hv
    obtain ⟨b, hb⟩ := h v hv
    exact (pyIndex_ext_ok_iff v).mp ⟨b, hb⟩
  · intro h v hv
    exact (pyIndex_ext_ok_iff v).mpr (h v hv)

/-- C03 is false as stated: every coefficient from -33 to -9 is silently encoded with the
letter of the coefficient 25 above it, so decoding returns another number. -/
theorem C03_extended_refusal_false (v : Int) (h0 : -33 ≤ v) (h1 : v ≤ -9) :
    toExtended [v] = toExtended [v + 25] ∧
    ∃ s, toExtended [v] = .ok s ∧ fromExtended s = .ok [v + 25] := by
  have hmem : ∀ w ∈ [v + 25], -8 ≤ w ∧ w ≤ 16 := by
    intro w hw
    rw [List.mem_singleton] at hw
    omega
  have hk : pyIndex extDigits (v + 8) = pyIndex extDigits (v + 25 + 8) := by
    have hl : (extDigits.length : Int) = 25 := by decide
    have h1 : ¬ (v + 25 + 8 < 0) := by omega
    have h2 : v + 8 < 0 := by omega
    have h4 : v + 8 + 25 = v + 25 + 8 := by omega
    simp only [pyIndex, hl, h1, h2, h4, if_true, if_false]
  have heq : toExtended [v] = toExtended [v + 25] := by simp [toExtended, pyMap, hk]
  refine ⟨heq, ?_⟩
  obtain ⟨s, hs, _, hf⟩ := C03_extended_roundtrip_partial [v + 25] hmem
  exact ⟨s, by rw [heq]; exact hs, hf⟩

example : ∀ v ∈ ([2, -1, 16, -8, 0] : List Int), -8 ≤ v ∧ v ≤ 16 := by decide

end Verif.Doodson
