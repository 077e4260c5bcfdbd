import Verif.Model.Crs
import Verif.Lemmas.Py
import Verif.Lemmas.Case
/-!
C94: conversions between coordinate reference systems.
-/
namespace Verif.Crs
open Verif

variable {C D P : Type} (j : Pyproj C D P) (int : String → Option Int)

/-- What was done before with an object has no influence on a conversion. -/
theorem C94_history (l : List (Use D P)) (q : P) (p : Input D) (bf : String) (epsg : Input D) :
    (convert j int (history j int l) q p bf epsg).2 = (convert j int new q p bf epsg).2 := by
  generalize history j int l = o
  rw [convert, convert, get, get]
  cases fromInput j int p with
  | error e => rfl
  | ok c =>
    dsimp only
    cases bf.toList with
    | nil => rfl
    | cons a t => rfl

/-- The specification of a conversion: systems `s` (of the user) and `m` (of the model), forward from the
first to the second, backward from the second to the first. -/
inductive Converts (s m : C) (q : P) : Char → P → Prop
  | forward (c : Char) (h : c = 'F' ∨ c = 'f') : Converts s m q c (j.forward s m q)
  | backward (c : Char) (h : c = 'B' ∨ c = 'b') : Converts s m q c (j.inverse s m q)

theorem upper_upper (c : Char) : c.toUpper.toUpper = c.toUpper := by
  rw [← upper_lower_char c.toUpper, lower_upper_char, upper_lower_char]

theorem upper_f (c : Char) : c.toUpper = 'F' ↔ c = 'F' ∨ c = 'f' := by
  by_cases h : 'a'.val ≤ c.val ∧ c.val ≤ 'z'.val
  · have h1 : 97 ≤ c.toNat := h.1
    have h2 : c.toNat ≤ 122 := h.2
    rw [← Char.ofNat_toNat c]
    generalize c.toNat = n at h1 h2
    interval_cases n <;> decide +kernel
  · have e : c.toUpper = c := dif_neg h
    rw [e]
    refine ⟨Or.inl, fun q => q.elim id fun q => ?_⟩
    subst q
    exact absurd (by decide) h

theorem upper_b (c : Char) : c.toUpper = 'B' ↔ c = 'B' ∨ c = 'b' := by
  by_cases h : 'a'.val ≤ c.val ∧ c.val ≤ 'z'.val
  · have h1 : 97 ≤ c.toNat := h.1
    have h2 : c.toNat ≤ 122 := h.2
    rw [← Char.ofNat_toNat c]
    generalize c.toNat = n at h1 h2
    interval_cases n <;> decide +kernel
  · have e : c.toUpper = c := dif_neg h
    rw [e]
    refine ⟨Or.inl, fun q => q.elim id fun q => ?_⟩
    subst q
    exact absurd (by decide) h

theorem convert_known (o : Obj C) {q : P} {p epsg : Input D} {s m : C}
    (hs : fromInput j int epsg = .ok s) (hm : fromInput j int p = .ok m) {bf : String} {c : Char} {t : List Char}
    (hb : bf.toList = c :: t) : (convert j int o q p bf epsg).2 =
      if c = 'F' ∨ c = 'f' then .ok (j.forward s m q)
      else if c = 'B' ∨ c = 'b' then .ok (j.inverse s m q) else .error .valueError := by
  rw [convert, get, hm]
  dsimp only
  rw [hb]
  dsimp only
  rw [transform, hs, ok_bind]
  dsimp only [dirOf]
  rw [upper_upper]
  simp only [upper_f, upper_b]
  by_cases h1 : c = 'F' ∨ c = 'f'
  · rw [if_pos h1, if_pos h1]
  · rw [if_neg h1, if_neg h1]
    by_cases h2 : c = 'B' ∨ c = 'b'
    · rw [if_pos h2, if_pos h2]
    · rw [if_neg h2, if_neg h2]

/-- A conversion with known systems, by an object with any history, follows the specification: the first
letter of the direction decides, upper or lower case, and other letters are refused. -/
theorem C94_convert (l : List (Use D P)) {q : P} {p epsg : Input D} {s m : C}
    (hs : fromInput j int epsg = .ok s) (hm : fromInput j int p = .ok m) {bf : String} {c : Char} {t : List Char}
    (hb : bf.toList = c :: t) :
    (∀ r, (convert j int (history j int l) q p bf epsg).2 = .ok r ↔ Converts j s m q c r) ∧
    (c ∉ ['F', 'f', 'B', 'b'] → (convert j int (history j int l) q p bf epsg).2 = .error .valueError) := by
  rw [convert_known j int _ hs hm hb]
  refine ⟨fun r => ?_, fun h => ?_⟩
  · constructor
    · intro h
      split at h
      · next hc => cases h; exact .forward c hc
      · split at h
        · next hc => cases h; exact .backward c hc
        · cases h
    · intro h
      cases h with
      | forward hc => rw [if_pos hc]
      | backward hc =>
        rw [if_neg ?_, if_pos hc]
        rcases hc with rfl | rfl <;> decide
  · simp only [List.mem_cons, List.not_mem_nil, or_false, not_or] at h
    rw [if_neg (fun q => q.elim h.1 h.2.1), if_neg (fun q => q.elim h.2.2.1 h.2.2.2)]

/-- Forward and then backward, with one object or with two, gives the points that were passed, when the
transformation of `pyproj` has this property. -/
theorem C94_inverse (l k : List (Use D P)) {q r : P} {p epsg : Input D}
    (hinv : ∀ s m, j.inverse s m (j.forward s m q) = q) {f b : String} {t u : List Char}
    (hf : f.toList = 'F' :: t) (hb : b.toList = 'B' :: u)
    (h : (convert j int (history j int l) q p f epsg).2 = .ok r) :
    (convert j int (history j int k) r p b epsg).2 = .ok q := by
  cases hm : fromInput j int p with
  | error e => rw [convert, get, hm] at h; cases h
  | ok m =>
    cases hs : fromInput j int epsg with
    | error e =>
      rw [convert, get, hm] at h
      dsimp only at h
      rw [hf] at h
      dsimp only at h
      rw [transform, hs] at h
      cases h
    | ok s =>
      rw [convert_known j int _ hs hm hf, if_pos (Or.inl rfl)] at h
      cases h
      rw [convert_known j int _ hs hm hb, if_neg (by decide), if_pos (Or.inl rfl), hinv]

/-- The methods `get` and `transform` do depend on what was done before: after a conversion backward the
object stays backward, although a new one goes forward. -/
theorem C94_reuse_false {q r : P} {p epsg : Input D} {s m : C}
    (hs : fromInput j int epsg = .ok s) (hm : fromInput j int p = .ok m) :
    transform j int (history j int [.get p]) q epsg = .ok (j.forward s m q) ∧
    transform j int (history j int [.convert r p "B" epsg, .get p]) q epsg = .ok (j.inverse s m q) := by
  constructor
  · have : history j int [.get p] = (⟨some m, none⟩ : Obj C) := by
      simp only [history, List.foldl_cons, List.foldl_nil, after, get, hm, new]
    rw [this, transform, hs]
    rfl
  · have : history j int [.convert r p "B" epsg, .get p] = (⟨some m, some 'B'⟩ : Obj C) := by
      have hb : "B".toList = ['B'] := by decide
      simp only [history, List.foldl_cons, List.foldl_nil, after, get, convert, hm, new, hb]
      rfl
    rw [this, transform, hs]
    rfl

/-- Which system a text, a number or a dictionary names: the text as `pyproj` takes it, otherwise its number
as an EPSG code, otherwise the text as a string. -/
def named : Input D → Option C
  | .text s => (j.fromText s).or (((int s).bind j.fromEpsg).or (j.fromString s))
  | .number n => j.fromEpsg n
  | .dict d => j.fromDict d

/-- The system that is named is taken; everything else is a `CRSError` and changes nothing, whatever
`pyproj` raises. -/
theorem C94_named (p : Input D) (o : Obj C) :
    get j int o p = match named j int p with
      | some c => (⟨some c, o.direction⟩, .ok ())
      | none => (o, .error .exception) := by
  cases p with
  | text s =>
    rw [get, fromInput, userInput, toInt, fromText, named]
    cases h1 : j.fromText s with
    | some c => rfl
    | none =>
      cases h2 : (int s).bind j.fromEpsg with
      | some c =>
        dsimp only
        rw [ok_bind, h2]
        rfl
      | none =>
        dsimp only
        rw [ok_bind, h2]
        cases h3 : j.fromString s with
        | some c => rfl
        | none => rfl
  | number n =>
    rw [get, fromInput, userInput, toInt, named]
    cases h1 : j.fromEpsg n with
    | some c => rfl
    | none =>
      dsimp only
      rw [ok_bind]
      simp only [Option.bind_some, h1]
      rfl
  | dict d =>
    rw [get, fromInput, userInput, toInt, named]
    cases h1 : j.fromDict d with
    | some c => rfl
    | none => rfl

/-- A text that names no system, as the system of the points, is a `CRSError`, whatever was done before. -/
theorem C94_unknown (l : List (Use D P)) (q : P) (p : Input D) {bf : String} {c : Char} {t : List Char}
    (hb : bf.toList = c :: t) {s : String} (hn : named j int (.text s) = none) :
    (convert j int (history j int l) q p bf (.text s)).2 = .error .exception := by
  rw [named, Option.or_eq_none_iff, Option.or_eq_none_iff] at hn
  rw [convert, get]
  cases fromInput j int p with
  | error e => rfl
  | ok m =>
    dsimp only
    rw [hb]
    dsimp only
    rw [transform, fromInput, userInput, hn.1]
    dsimp only
    rw [toInt, ok_bind, hn.2.1]
    dsimp only
    rw [fromText, hn.2.2]
    rfl

/-- So is a number that is no EPSG code. -/
theorem C94_number (l : List (Use D P)) (q : P) (p : Input D) {bf : String} {c : Char} {t : List Char}
    (hb : bf.toList = c :: t) {n : Int} (hn : j.fromEpsg n = none) :
    (convert j int (history j int l) q p bf (.number n)).2 = .error .exception := by
  rw [convert, get]
  cases fromInput j int p with
  | error e => rfl
  | ok m =>
    dsimp only
    rw [hb]
    dsimp only
    rw [transform, fromInput, userInput, hn]
    dsimp only
    rw [toInt, ok_bind]
    simp only [Option.bind_some, hn]
    rfl

/-- A dictionary that is no system, as the system of the points: a `TypeError`, not a `CRSError`. -/
theorem C94_error_false (d : D) (hd : j.fromDict d = none) (p : Input D) {m : C} (hm : fromInput j int p = .ok m)
    (l : List (Use D P)) (q : P) :
    (convert j int (history j int l) q p "F" (.dict d)).2 = .error .typeError := by
  rw [convert, get, hm]
  dsimp only
  have hb : "F".toList = ['F'] := by decide
  rw [hb]
  dsimp only
  rw [transform, fromInput, userInput, hd]
  rfl

/-- Kilometres and metres as an example of two systems. -/
def scales : Pyproj Nat Unit Int where
  fromText s := if s = "m" then some 1 else if s = "km" then some 1000 else none
  fromDict _ := none
  fromEpsg n := if n = 4326 then some 1 else none
  fromString _ := none
  forward s m q := q * (m : Int) * (s : Int)
  inverse s m q := q / ((m : Int) * (s : Int))

/-- `int` of one text. -/
def int4326 (s : String) : Option Int := if s = "4326" then some 4326 else none

example : (convert scales int4326 (new) 7 (.text "km") "Forward" (.text "4326")).2.toOption = some 7000 ∧
    (convert scales int4326 (history scales int4326 [.get (.text "m")]) 7000 (.text "km") "b"
      (.number 4326)).2.toOption = some 7 := by decide +kernel

example (q : Int) : scales.inverse 1 1000 (scales.forward 1 1000 q) = q := by
  simp only [scales]; omega

end Verif.Crs
