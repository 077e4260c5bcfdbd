import Mathlib.Tactic.IntervalCases
/-! Upper and lower case. -/
namespace Verif

theorem upper_lower_char (c : Char) : c.toLower.toUpper = c.toUpper := by
  by_cases h : c.val ≥ 'A'.val ∧ c.val ≤ 'Z'.val
  · have h1 : 65 ≤ c.toNat := h.1
    have h2 : c.toNat ≤ 90 := h.2
    rw [← Char.ofNat_toNat c]
    generalize c.toNat = n at h1 h2
    interval_cases n <;> decide +kernel
  · have : c.toLower = c := dif_neg h
    rw [this]

theorem upper_lower (s : String) : s.toLower.toUpper = s.toUpper := by
  unfold String.toLower String.toUpper
  rw [← String.toList_inj, String.toList_map, String.toList_map, String.toList_map, List.map_map]
  exact List.map_congr_left fun c _ => upper_lower_char c

theorem lower_upper_char (c : Char) : c.toUpper.toLower = c.toLower := by
  by_cases h : 'a'.val ≤ c.val ∧ c.val ≤ 'z'.val
  · have h1 : 97 ≤ c.toNat := h.1
    have h2 : c.toNat ≤ 122 := h.2
    rw [← Char.ofNat_toNat c]
    generalize c.toNat = n at h1 h2
    interval_cases n <;> decide +kernel
  · have : c.toUpper = c := dif_neg h
    rw [this]

theorem lower_upper (s : String) : s.toUpper.toLower = s.toLower := by
  unfold String.toLower String.toUpper
  rw [← String.toList_inj, String.toList_map, String.toList_map, String.toList_map, List.map_map]
  exact List.map_congr_left fun c _ => lower_upper_char c

/-- Strings that agree in lower case agree in upper case. -/
theorem upper_eq_iff (s t : String) : s.toUpper = t.toUpper ↔ s.toLower = t.toLower :=
  ⟨fun h => by rw [← lower_upper, h, lower_upper], fun h => by rw [← upper_lower, h, upper_lower]⟩

end Verif
