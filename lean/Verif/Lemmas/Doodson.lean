import Verif.Model.Doodson
import Verif.Lemmas.Py
/-! Helper lemmas for the Doodson codecs. -/
namespace Verif.Doodson
open Verif

theorem symbolValue_symbol (v : Int) (h0 : 0 ≤ v) (h1 : v ≤ 11) :
    symbolValue (symbol v) = .ok v ∧ ((symbol v).isAlphanum || symbol v == '_') = true := by
  obtain ⟨n, rfl⟩ := Int.eq_ofNat_of_zero_le h0
  have hn : n ≤ 11 := by omega
  have : ∀ n : Fin 12, symbolValue (symbol (n.val : Int)) = .ok (n.val : Int) ∧
      ((symbol (n.val : Int)).isAlphanum || symbol (n.val : Int) == '_') = true := by decide +kernel
  exact this ⟨n, by omega⟩

theorem symbol_inj (v w : Int) (h0 : 0 ≤ v) (h1 : v ≤ 11) (h2 : 0 ≤ w) (h3 : w ≤ 11)
    (h : symbol v = symbol w) : v = w := by
  have a := (symbolValue_symbol v h0 h1).1
  have b := (symbolValue_symbol w h2 h3).1
  rw [h] at a
  rw [a] at b
  injection b

theorem fromDoodson_txt (a b c d e f : Int)
    (ha : 0 ≤ a) (ha' : a ≤ 11) (hb : 0 ≤ b) (hb' : b ≤ 11) (hc : 0 ≤ c) (hc' : c ≤ 11)
    (hd : 0 ≤ d) (hd' : d ≤ 11) (he : 0 ≤ e) (he' : e ≤ 11) (hf : 0 ≤ f) (hf' : f ≤ 11) :
    fromDoodson (.txt [symbol a, symbol b, symbol c, '.', symbol d, symbol e, symbol f]) =
      .ok [a, b - 5, c - 5, d - 5, e - 5, f - 5] := by
  have A := symbolValue_symbol a ha ha'
  have B := symbolValue_symbol b hb hb'
  have C := symbolValue_symbol c hc hc'
  have D := symbolValue_symbol d hd hd'
  have E := symbolValue_symbol e he he'
  have F := symbolValue_symbol f hf hf'
  have hdot : ('.'.isAlphanum || '.' == '_') = false := by decide
  have hw : wordChars (zfill 7 (text (.txt [symbol a, symbol b, symbol c, '.', symbol d,
      symbol e, symbol f]))) = [symbol a, symbol b, symbol c, symbol d, symbol e, symbol f] := by
    show wordChars (List.replicate 0 '0' ++ [symbol a, symbol b, symbol c, '.', symbol d,
      symbol e, symbol f]) = _
    simp only [wordChars, List.replicate, List.nil_append, List.filter, A.2, B.2, C.2, D.2, E.2, F.2, hdot]
  unfold fromDoodson
  rw [hw]
  simp [pyMap, A.1, B.1, C.1, D.1, E.1, F.1]

/-- Left-padding the integer part to `k+3` digits gives `k` zeros and its three digits. -/
theorem toDigits_pad (n : Nat) (hn : n < 1000) :
    (Nat.toDigits 10 n).length ≤ 3 ∧
    List.replicate (3 - (Nat.toDigits 10 n).length) '0' ++ Nat.toDigits 10 n = pad3 n := by
  have : ∀ n : Fin 1000, (Nat.toDigits 10 n.val).length ≤ 3 ∧
      List.replicate (3 - (Nat.toDigits 10 n.val).length) '0' ++ Nat.toDigits 10 n.val
        = pad3 n.val := by decide +kernel
  exact this ⟨n, hn⟩

/-- The fraction text, by number of trailing zeros. -/
theorem stripZeros_pad3 (d e f : Nat) (hd : d < 10) (he : e < 10) (hf : f < 10) :
    stripZeros (pad3 (d * 100 + e * 10 + f)) =
      if f ≠ 0 then [Nat.digitChar d, Nat.digitChar e, Nat.digitChar f]
      else if e ≠ 0 then [Nat.digitChar d, Nat.digitChar e]
      else [Nat.digitChar d] := by
  have : ∀ d e f : Fin 10, stripZeros (pad3 (d.val * 100 + e.val * 10 + f.val)) =
      if f.val ≠ 0 then [Nat.digitChar d.val, Nat.digitChar e.val, Nat.digitChar f.val]
      else if e.val ≠ 0 then [Nat.digitChar d.val, Nat.digitChar e.val]
      else [Nat.digitChar d.val] := by decide +kernel
  exact this ⟨d, hd⟩ ⟨e, he⟩ ⟨f, hf⟩

theorem digitChar_word (n : Nat) (hn : n < 10) :
    symbolValue (Nat.digitChar n) = .ok (n : Int) ∧
    ((Nat.digitChar n).isAlphanum || Nat.digitChar n == '_') = true := by
  have : ∀ n : Fin 10, symbolValue (Nat.digitChar n.val) = .ok (n.val : Int) ∧
    ((Nat.digitChar n.val).isAlphanum || Nat.digitChar n.val == '_') = true := by decide +kernel
  exact this ⟨n, hn⟩

/-- What the decoder reads from a float Doodson number, by number of trailing zeros. -/
theorem fromDoodson_num (a b c d e f : Nat) (ha : a < 10) (hb : b < 10) (hc : c < 10)
    (hd : d < 10) (he : e < 10) (hf : f < 10) :
    fromDoodson (.num (a * 100000 + b * 10000 + c * 1000 + d * 100 + e * 10 + f)) =
      if f ≠ 0 then .ok [(a : Int), (b : Int) - 5, (c : Int) - 5, (d : Int) - 5, (e : Int) - 5, (f : Int) - 5]
      else if e ≠ 0 then .ok [0, (a : Int) - 5, (b : Int) - 5, (c : Int) - 5, (d : Int) - 5, (e : Int) - 5]
      else .ok [0, -5, (a : Int) - 5, (b : Int) - 5, (c : Int) - 5, (d : Int) - 5] := by
  have hq : (a * 100000 + b * 10000 + c * 1000 + d * 100 + e * 10 + f) / 1000
      = a * 100 + b * 10 + c := by omega
  have hr : (a * 100000 + b * 10000 + c * 1000 + d * 100 + e * 10 + f) % 1000
      = d * 100 + e * 10 + f := by omega
  have htxt : text (.num (a * 100000 + b * 10000 + c * 1000 + d * 100 + e * 10 + f)) =
      Nat.toDigits 10 (a * 100 + b * 10 + c) ++ '.' :: stripZeros (pad3 (d * 100 + e * 10 + f)) := by
    simp only [text, floatText, hq, hr]
  obtain ⟨hlen, hpad⟩ := toDigits_pad (a * 100 + b * 10 + c) (by omega)
  have hp3 : pad3 (a * 100 + b * 10 + c) = [Nat.digitChar a, Nat.digitChar b, Nat.digitChar c] := by
    have h1 : (a * 100 + b * 10 + c) / 100 % 10 = a := by omega
    have h2 : (a * 100 + b * 10 + c) / 10 % 10 = b := by omega
    have h3 : (a * 100 + b * 10 + c) % 10 = c := by omega
    simp only [pad3, h1, h2, h3]
  rw [hp3] at hpad
  have A := digitChar_word a ha
  have B := digitChar_word b hb
  have C := digitChar_word c hc
  have D := digitChar_word d hd
  have E := digitChar_word e he
  have F := digitChar_word f hf
  have Z : symbolValue '0' = .ok (0 : Int) := by decide +kernel
  have Zw : ('0'.isAlphanum || '0' == '_') = true := by decide
  have hdot : ('.'.isAlphanum || '.' == '_') = false := by decide
  have hz : ∀ (k : Nat) (F' : List Char), k + F'.length = 3 → 1 ≤ F'.length →
      zfill 7 (Nat.toDigits 10 (a * 100 + b * 10 + c) ++ '.' :: F') =
      List.replicate k '0' ++ ([Nat.digitChar a, Nat.digitChar b, Nat.digitChar c] ++ '.' :: F') := by
    intro k F' hk hk1
    rw [← hpad]
    simp only [zfill, List.length_append, List.length_cons]
    have : 7 - ((Nat.toDigits 10 (a * 100 + b * 10 + c)).length + (F'.length + 1)) =
        k + (3 - (Nat.toDigits 10 (a * 100 + b * 10 + c)).length) := by omega
    rw [this, ← List.replicate_append_replicate]
    simp only [List.append_assoc]
  unfold fromDoodson
  rw [htxt, stripZeros_pad3 d e f hd he hf]
  by_cases h0 : f = 0
  · by_cases h1 : e = 0
    · simp only [h0, h1, ne_eq, not_true_eq_false, if_false]
      rw [hz 2 _ (by simp) (by simp)]
      simp only [wordChars, List.replicate, List.cons_append, List.nil_append, List.filter,
        A.2, B.2, C.2, D.2, Zw, hdot, pyMap, A.1, B.1, C.1, D.1, Z]
      simp
    · simp only [h0, h1, ne_eq, not_true_eq_false, if_false, not_false_eq_true, if_true]
      rw [hz 1 _ (by simp) (by simp)]
      simp only [wordChars, List.replicate, List.cons_append, List.nil_append, List.filter,
        A.2, B.2, C.2, D.2, E.2, Zw, hdot, pyMap, A.1, B.1, C.1, D.1, E.1, Z]
      simp
  · simp only [h0, ne_eq, not_false_eq_true, if_true]
    rw [hz 0 _ (by simp) (by simp)]
    simp only [wordChars, List.replicate, List.cons_append, List.nil_append, List.filter,
        A.2, B.2, C.2, D.2, E.2, F.2, hdot, pyMap, A.1, B.1, C.1, D.1, E.1, F.1]
    simp

/-- Six decimal digits are determined by the number they write. -/
theorem digits_inj (a b c d e f a' b' c' d' e' f' : Nat)
    (ha : a < 10) (hb : b < 10) (hc : c < 10) (hd : d < 10) (he : e < 10) (hf : f < 10)
    (ha' : a' < 10) (hb' : b' < 10) (hc' : c' < 10) (hd' : d' < 10) (he' : e' < 10)
    (hf' : f' < 10)
    (h : a * 100000 + (b * 10000 + (c * 1000 + (d * 100 + (e * 10 + f)))) =
      a' * 100000 + (b' * 10000 + (c' * 1000 + (d' * 100 + (e' * 10 + f'))))) :
    a = a' ∧ b = b' ∧ c = c' ∧ d = d' ∧ e = e' ∧ f = f' := by
  have h5 : f = f' := by omega
  subst h5
  have h4 : e = e' := by omega
  subst h4
  have h3 : d = d' := by omega
  subst h3
  have h2 : c = c' := by omega
  subst h2
  have h1 : b = b' := by omega
  subst h1
  exact ⟨by omega, rfl, rfl, rfl, rfl, rfl⟩

theorem ext_digit (v : Int) (h0 : -8 ≤ v) (h1 : v ≤ 16) :
    pyIndex extDigits (v + 8) = .ok (extDigits[(v + 8).toNat]!) ∧
    strIndex extDigits (extDigits[(v + 8).toNat]!) = .ok (v + 8) ∧ v + 8 - 8 = v := by
  obtain ⟨n, hn⟩ := Int.eq_ofNat_of_zero_le (show 0 ≤ v + 8 by omega)
  have : ∀ n : Fin 25, pyIndex extDigits (n.val : Int) = .ok (extDigits[n.val]!) ∧
      strIndex extDigits (extDigits[n.val]!) = .ok (n.val : Int) := by decide +kernel
  have h := this ⟨n, by omega⟩
  rw [hn]
  exact ⟨h.1, h.2, by omega⟩

theorem pyIndex_ext_ok_iff (v : Int) :
    (∃ b, pyIndex extDigits (v + 8) = .ok b) ↔ (-33 ≤ v ∧ v ≤ 16) := by
  have hl : (extDigits.length : Int) = 25 := by decide
  simp only [pyIndex, hl]
  by_cases h : v + 8 < 0
  · simp only [h, if_true]
    by_cases h2 : v + 8 + 25 < 0
    · simp [h2]; omega
    · have hlt : (v + 8 + 25).toNat < extDigits.length := by
        have : extDigits.length = 25 := by decide
        omega
      simp only [h2, if_false, List.getElem?_eq_getElem hlt]
      simp; omega
  · simp only [h, if_false]
    by_cases h2 : v ≤ 16
    · have hlt : (v + 8).toNat < extDigits.length := by
        have : extDigits.length = 25 := by decide
        omega
      simp only [List.getElem?_eq_getElem hlt]
      simp; omega
    · have hge : extDigits.length ≤ (v + 8).toNat := by
        have : extDigits.length = 25 := by decide
        omega
      simp only [List.getElem?_eq_none hge]
      simp; omega

end Verif.Doodson
