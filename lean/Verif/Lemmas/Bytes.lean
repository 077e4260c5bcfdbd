import Verif.Model.Bytes
import Mathlib.Tactic.Ring
import Mathlib.Tactic.Linarith
import Mathlib.Data.List.Basic
/-! Lemmas about big-endian words and strided slices. -/
namespace Verif.Bytes
open Verif

theorem be_length (n : ℕ) : (be n).length = 4 := rfl

theorem words_be_append (n : ℕ) (h : n < 2 ^ 32) (t : List UInt8) :
    words (be n ++ t) = n :: words t := by
  simp only [be, List.cons_append, List.nil_append, words]
  congr 1
  simp only [UInt8.toNat_ofNat']
  omega

theorem words_flatMap (l : List ℕ) (h : ∀ n ∈ l, n < 2 ^ 32) : words (l.flatMap be) = l := by
  induction l with
  | nil => rfl
  | cons a t ih =>
    rw [List.flatMap_cons, words_be_append a (h a (by simp)),
      ih (fun n hn => h n (List.mem_cons_of_mem _ hn))]

theorem flatMap_be_length (l : List ℕ) : (l.flatMap be).length = 4 * l.length := by
  induction l with
  | nil => rfl
  | cons a t ih => rw [List.flatMap_cons, List.length_append, ih, be_length, List.length_cons]; ring

theorem fromfile_append (l : List ℕ) (h : ∀ n ∈ l, n < 2 ^ 32) (t : List UInt8) (k : ℕ)
    (hk : l.length = k) : fromfile k (l.flatMap be ++ t) = (l, t) := by
  subst hk
  simp only [fromfile]
  rw [List.take_left' (flatMap_be_length l), List.drop_left' (flatMap_be_length l),
    words_flatMap l h]

theorem ofI4_lt (v : ℤ) : ofI4 v < 2 ^ 32 := by
  simp only [ofI4]
  omega

theorem toI4_ofI4 (v : ℤ) (h : -2 ^ 31 ≤ v ∧ v < 2 ^ 31) : toI4 (ofI4 v) = v := by
  simp only [toI4, ofI4]
  split_ifs <;> omega

theorem packI_ok (v : ℤ) (h : -2 ^ 31 ≤ v ∧ v < 2 ^ 31) : packI v = .ok (be (ofI4 v)) := by
  simp only [packI, if_pos h]

theorem readI_be (v : ℤ) (h : -2 ^ 31 ≤ v ∧ v < 2 ^ 31) (t : List UInt8) :
    readI (be (ofI4 v) ++ t) = .ok (v, t) := by
  have e : be (ofI4 v) ++ t = [ofI4 v].flatMap be ++ t := by simp
  rw [e]
  simp only [readI, fromfile_append [ofI4 v] (by simpa using ofI4_lt v) t 1 rfl, toI4_ofI4 v h]

theorem tofileF_eq (l : List F4) : tofileF l = (l.map UInt32.toNat).flatMap be := by
  simp [tofileF, List.flatMap_map]

theorem tofileF_length (l : List F4) : (tofileF l).length = 4 * l.length := by
  rw [tofileF_eq, flatMap_be_length, List.length_map]

theorem fromfile_tofileF (l : List F4) (t : List UInt8) (k : ℕ) (hk : l.length = k) :
    fromfile k (tofileF l ++ t) = (l.map UInt32.toNat, t) := by
  rw [tofileF_eq]
  refine fromfile_append _ ?_ t k (by simpa using hk)
  intro n hn
  obtain ⟨x, _, rfl⟩ := List.mem_map.mp hn
  exact x.toNat_lt

theorem map_ofNat_toNat (l : List F4) : (l.map UInt32.toNat).map UInt32.ofNat = l := by
  rw [List.map_map]
  conv_rhs => rw [← List.map_id l]
  refine List.map_congr_left ?_
  intro x _
  simp

/-- One block of a strided slice. -/
theorem stride_block {α : Type} (j k : ℕ) (hj : j < k) (b rest : List α) (hb : b.length = k) (v : α)
    (hv : b[j]? = some v) : stride j k (b ++ rest) = v :: stride j k rest := by
  simp only [stride, List.length_append, hb]
  rw [List.range_add, List.filterMap_append, List.filterMap_map]
  have h1 : (List.range k).filterMap (fun i =>
      if j ≤ i ∧ (i - j) % k = 0 then (b ++ rest)[i]? else none) = [v] := by
    have e : List.range k = List.range j ++ (j :: (List.range (k - j - 1)).map (fun i => j + 1 + i)) := by
      have : k = j + (1 + (k - j - 1)) := by omega
      conv_lhs => rw [this]
      rw [List.range_add, List.range_add]
      simp [List.range_succ, List.map_map, Function.comp_def, Nat.add_assoc]
    rw [e, List.filterMap_append, List.filterMap_cons]
    have n1 : (List.range j).filterMap (fun i =>
        if j ≤ i ∧ (i - j) % k = 0 then (b ++ rest)[i]? else none) = [] := by
      rw [List.filterMap_eq_nil_iff]
      intro i hi
      rw [List.mem_range] at hi
      rw [if_neg (by omega)]
    have n2 : ((List.range (k - j - 1)).map (fun i => j + 1 + i)).filterMap (fun i =>
        if j ≤ i ∧ (i - j) % k = 0 then (b ++ rest)[i]? else none) = [] := by
      rw [List.filterMap_eq_nil_iff]
      intro i hi
      obtain ⟨x, hx, rfl⟩ := List.mem_map.mp hi
      rw [List.mem_range] at hx
      rw [if_neg]
      rintro ⟨_, h⟩
      rw [Nat.mod_eq_of_lt (by omega)] at h
      omega
    rw [n1, n2, if_pos ⟨le_rfl, by simp⟩, List.getElem?_append_left (by omega), hv]
    rfl
  rw [h1, List.singleton_append]
  congr 1
  refine List.filterMap_congr ?_
  intro i hi
  simp only [Function.comp]
  have hd : (b ++ rest)[k + i]? = rest[i]? := by
    rw [List.getElem?_append_right (by omega), hb]
    congr 1
    omega
  rw [hd]
  by_cases hji : j ≤ i
  · have : (k + i - j) % k = (i - j) % k := by
      rw [show k + i - j = (i - j) + k by omega, Nat.add_mod_right]
    rw [this]
    simp [hji, show j ≤ k + i by omega]
  · rw [if_neg (by
      rintro ⟨_, h⟩
      rw [Nat.mod_eq_of_lt (by omega)] at h
      omega), if_neg (by omega)]

/-- A strided slice of interleaved data selects one component. -/
theorem stride_flatMap {α β : Type} (j k : ℕ) (hj : j < k) (f : β → List α) (g : β → α)
    (hf : ∀ b, (f b).length = k) (hg : ∀ b, (f b)[j]? = some (g b)) (l : List β) :
    stride j k (l.flatMap f) = l.map g := by
  induction l with
  | nil => simp [stride]
  | cons b t ih =>
    rw [List.flatMap_cons, stride_block j k hj (f b) _ (hf b) (g b) (hg b), ih, List.map_cons]

end Verif.Bytes
