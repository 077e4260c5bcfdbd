import Verif.Model.Numbers
import Verif.Spec.Numbers
import Verif.Props.Arguments
import Verif.Props.Doodson
import Verif.Props.Parse
import Verif.Lemmas.Case
/-!
# C81: numbers of constituents
-/
namespace Verif.Numbers
open Verif Verif.Spec Verif.Astro

/-! ## The names of the formalisms -/

theorem lower_lower_char (c : Char) : c.toLower.toLower = c.toLower := by
  rw [← lower_upper_char c.toLower, upper_lower_char, lower_upper_char]

theorem titleFrom_lower : ∀ (b : Bool) (l : List Char), (titleFrom b l).map Char.toLower = l.map Char.toLower
  | _, [] => rfl
  | b, c :: t => by
    rw [titleFrom, List.map_cons, List.map_cons, titleFrom_lower]
    cases b
    · simp only [Bool.false_eq_true, if_false]; rw [lower_upper_char]
    · simp only [if_true]; rw [lower_lower_char]

theorem alpha_lower (c : Char) (h : c.toLower.isAlpha = true) : c.isAlpha = true := by
  by_cases hc : c.val ≥ 'A'.val ∧ c.val ≤ 'Z'.val
  · have h1 : 65 ≤ c.toNat := hc.1
    have h2 : c.toNat ≤ 90 := hc.2
    unfold Char.isAlpha Char.isUpper
    rw [decide_eq_true hc]; rfl
  · have : c.toLower = c := dif_neg hc
    rwa [this] at h

theorem titleFrom_inside : ∀ (l : List Char), (∀ c ∈ l, c.isAlpha = true) → titleFrom true l = l.map Char.toLower
  | [], _ => rfl
  | c :: t, h => by
    rw [titleFrom, h c (by simp), titleFrom_inside t fun d hd => h d (by simp [hd])]
    rfl

theorem titleFrom_word (c : Char) (t : List Char) (h : ∀ d ∈ c :: t, d.isAlpha = true) :
    titleFrom false (c :: t) = c.toUpper :: t.map Char.toLower := by
  rw [titleFrom, h c (by simp), titleFrom_inside t fun d hd => h d (by simp [hd])]
  rfl

/-- A name equals a word of letters in title case exactly if it does in small letters. -/
theorem title_iff (s : String) (a : Char) (w : List Char) (ha : a.toUpper = a) (hw : w.map Char.toLower = w)
    (hal : ∀ d ∈ (a :: w).map Char.toLower, d.isAlpha = true) :
    title s = String.ofList (a :: w) ↔ s.toLower = (String.ofList (a :: w)).toLower := by
  have e1 : title s = String.ofList (a :: w) ↔ titleFrom false s.toList = a :: w := by
    unfold title
    rw [String.ofList_inj]
  have e2 : s.toLower = (String.ofList (a :: w)).toLower ↔ s.toList.map Char.toLower = (a :: w).map Char.toLower := by
    unfold String.toLower
    rw [← String.toList_inj, String.toList_map, String.toList_map, String.toList_ofList]
  rw [e1, e2]
  constructor
  · intro h
    rw [← titleFrom_lower false, h]
  · intro h
    match hs : s.toList with
    | [] => rw [hs] at h; simp at h
    | c :: t =>
      rw [hs] at h
      have hd : ∀ d ∈ c :: t, d.isAlpha = true := by
        intro d hd
        refine alpha_lower d (hal _ ?_)
        rw [← h]
        exact List.mem_map_of_mem hd
      rw [titleFrom_word c t hd]
      rw [List.map_cons, List.map_cons, List.cons.injEq, hw] at h
      rw [h.2, ← upper_lower_char, h.1, upper_lower_char, ha]

/-- **C81**: the names of the formalisms are known in any case, and no others are. -/
theorem C81_formalism (name : String) :
    (formalism name = .ok .cartwright ↔ name.toLower = "cartwright") ∧
    (formalism name = .ok .doodson ↔ name.toLower = "doodson") ∧
    (formalism name = .ok .extended ↔ name.toLower = "extended") ∧
    (formalism name = .error .assertionError ↔ name.toLower ∉ ["cartwright", "doodson", "extended"]) := by
  have h1 := title_iff name 'C' "artwright".toList rfl (by decide +kernel) (by decide +kernel)
  have h2 := title_iff name 'D' "oodson".toList rfl (by decide +kernel) (by decide +kernel)
  have h3 := title_iff name 'E' "xtended".toList rfl (by decide +kernel) (by decide +kernel)
  rw [show String.ofList ('C' :: "artwright".toList) = "Cartwright" by decide +kernel,
    show "Cartwright".toLower = "cartwright" by decide +kernel] at h1
  rw [show String.ofList ('D' :: "oodson".toList) = "Doodson" by decide +kernel,
    show "Doodson".toLower = "doodson" by decide +kernel] at h2
  rw [show String.ofList ('E' :: "xtended".toList) = "Extended" by decide +kernel,
    show "Extended".toLower = "extended" by decide +kernel] at h3
  unfold formalism
  simp only [h1, h2, h3]
  by_cases a1 : name.toLower = "cartwright"
  · rw [a1]; simp
  by_cases a2 : name.toLower = "doodson"
  · rw [a2]; simp
  by_cases a3 : name.toLower = "extended"
  · rw [a3]; simp
  simp [a1, a2, a3]

/-! ## Single constituents -/

/-- **C81**: constituents are known in any case. -/
theorem C81_case (name corrections c c' : String) (raise : Bool) (h : c.toLower = c'.toLower) :
    single name raise corrections c = single name raise corrections c' := by
  unfold single entry
  rw [h]

/-- **C81**: a constituent that is not in the table is refused, or has no number if errors are not asked for. -/
theorem C81_unknown (name corrections c : String) (hf : ∃ f, formalism name = .ok f)
    (hc : row corrections c.toLower = .error .valueError) :
    single name true corrections c = .error .valueError ∧ single name false corrections c = .ok none := by
  obtain ⟨f, hf⟩ := hf
  unfold single entry
  rw [hf, ok_bind, ok_bind, hc]
  exact ⟨rfl, rfl⟩

theorem single_row {name corrections c : String} {raise : Bool} {f : Formalism} {r : List ℤ}
    (hf : formalism name = .ok f) (hr : row corrections c.toLower = .ok r) :
    single name raise corrections c = identify f raise r := by
  unfold single entry
  rw [hf, ok_bind, hr]

/-- **C81**: the Cartwright numbers are the first six multiples of the table. -/
theorem C81_cartwright (name corrections c : String) (raise : Bool) (r : List ℤ)
    (hn : name.toLower = "cartwright") (hr : row corrections c.toLower = .ok r) :
    single name raise corrections c = .ok (some (.cartwright (r.take 6))) :=
  single_row ((C81_formalism name).1.2 hn) hr

/-- All rows: the table and S1 of OTIS models. -/
def rows : List (String × List ℤ) := ("s1", [1, 1, -1, 0, 0, 0, 1]) :: Coef.table

theorem row_rows {corrections c : String} {r : List ℤ} (h : row corrections c = .ok r) : (c, r) ∈ rows := by
  rcases row_mem h with h | ⟨h1, h2⟩
  · exact List.mem_cons_of_mem _ h
  · rw [h1, h2]; exact List.mem_cons_self

/-- The constituents with a multiple that has no digit. -/
def unnumbered : List String :=
  ["2qj1", "2snu2", "3(sm)n2", "3s2m2", "2t4", "3sm4", "2sp5", "t5", "o6", "2t6", "t6", "s6", "4sm6", "2t7",
    "3sp7", "t7", "s7", "r7", "3sk7", "2r7", "3r7", "4r7", "k7", "s8", "k8", "s9", "k9", "s10", "s11", "5mn12",
    "m12", "4msn12", "4mns12", "5ms12", "4msl12", "4m2s12", "s12", "m14", "5msn14", "6ms14", "5m2s14"]

/-- What a Doodson number says. -/
def Says (c : List ℤ) : Doodson.DO → Prop
  | .num n => Decimal c n
  | .txt s => Signed c s

instance (c : List ℤ) (d : Doodson.DO) : Decidable (Says c d) := by
  cases d <;> unfold Says <;> infer_instance

def good (c : List ℤ) : Except PyErr (Option Doodson.DO) → Prop
  | .ok (some d) => Says c d
  | _ => False

instance (c : List ℤ) (x : Except PyErr (Option Doodson.DO)) : Decidable (good c x) := by
  unfold good; split <;> infer_instance

theorem doodson_check : ∀ q ∈ rows, q.1 ∉ unnumbered →
    good (q.2.take 6) (Doodson.toDoodson true q.2) ∧ good (q.2.take 6) (Doodson.toDoodson false q.2) := by
  decide +kernel

theorem unnumbered_check : ∀ q ∈ rows, q.1 ∈ unnumbered →
    Doodson.toDoodson true q.2 = .error .valueError ∧ Doodson.toDoodson false q.2 = .ok none := by
  decide +kernel

theorem unnumbered_known : ∀ c ∈ unnumbered, (Coef.table.lookup c).isSome = true ∧ c ≠ "s1" := by decide +kernel

/-- **C81** (partial: the claim is for all constituents of the table): the Doodson number has the digits of the
multiples of the constituent. -/
theorem C81_doodson_partial (name corrections c : String) (raise : Bool) (r : List ℤ)
    (hn : name.toLower = "doodson") (hr : row corrections c.toLower = .ok r) (hc : c.toLower ∉ unnumbered) :
    ∃ d, single name raise corrections c = .ok (some (.doodson d)) ∧ Says (r.take 6) d := by
  rw [single_row ((C81_formalism name).2.1.2 hn) hr]
  have h := doodson_check _ (row_rows hr) hc
  have h' : good (r.take 6) (Doodson.toDoodson raise r) := by cases raise; exact h.2; exact h.1
  unfold identify
  match hx : Doodson.toDoodson raise r with
  | .ok (some d) => rw [hx] at h'; exact ⟨d, by rw [ok_bind]; rfl, h'⟩
  | .ok none => rw [hx] at h'; exact h'.elim
  | .error e => rw [hx] at h'; exact h'.elim

/-- **C81** is false for 41 constituents of the table, among them S6, S8 and M12: they are called unsupported. -/
theorem C81_doodson_false (name corrections c : String) (hn : name.toLower = "doodson")
    (hc : c.toLower ∈ unnumbered) :
    (∃ r, row corrections c.toLower = .ok r) ∧ single name true corrections c = .error .valueError ∧
      single name false corrections c = .ok none := by
  obtain ⟨h1, h2⟩ := unnumbered_known _ hc
  obtain ⟨r, hr⟩ := Option.isSome_iff_exists.1 h1
  have hr' : row corrections c.toLower = .ok r := by
    unfold row Coef.lookup
    rw [if_neg (by simp [h2]), hr]
  obtain ⟨k1, k2⟩ := unnumbered_check _ (row_rows hr') hc
  have hf := (C81_formalism name).2.1.2 hn
  refine ⟨⟨r, hr'⟩, ?_, ?_⟩
  · rw [single_row hf hr']; unfold identify; rw [k1, error_bind]
  · rw [single_row hf hr']; unfold identify; rw [k2, ok_bind]; rfl

example : "S6".toLower ∈ unnumbered := by decide +kernel
example : row "OTIS" "m2" = .ok [2, 0, 0, 0, 0, 0, 0] ∧ "m2" ∉ unnumbered ∧ Says [2, 0, 0, 0, 0, 0] (.num 255555) := by
  decide +kernel

/-- The constituents with a multiple that has no letter. -/
def unlettered : List String := ["2t7", "s9", "s10", "s11", "s12"]

/-- The multiple that is read from the letter that is written. -/
def wrapped (r : List ℤ) : List ℤ := r.map fun v => if v < -8 then v + 25 else v

theorem wrapped_range : ∀ q ∈ rows, (∀ v ∈ q.2, -33 ≤ v ∧ v ≤ 16) ∧
    (q.1 ∉ unlettered → wrapped q.2 = q.2) ∧ (q.1 ∈ unlettered → wrapped q.2 ≠ q.2) := by decide +kernel

theorem letter_digit : ∀ v ∈ (List.range 25).map (fun n : ℕ => (n : ℤ) - 8),
    pyIndex Doodson.extDigits (v + 8) = .ok (letter v) := by decide +kernel

theorem digit_letter (v : ℤ) (h : -33 ≤ v ∧ v ≤ 16) :
    pyIndex Doodson.extDigits (v + 8) = .ok (letter (if v < -8 then v + 25 else v)) := by
  have hl : ∀ w : ℤ, -8 ≤ w → w ≤ 16 → pyIndex Doodson.extDigits (w + 8) = .ok (letter w) := by
    intro w h1 h2
    refine letter_digit w (List.mem_map.2 ⟨(w + 8).toNat, List.mem_range.2 (by omega), ?_⟩)
    omega
  by_cases hv : v < -8
  · rw [if_pos hv, ← hl (v + 25) (by omega) (by omega)]
    unfold pyIndex
    have hlen : (Doodson.extDigits.length : ℤ) = 25 := by decide +kernel
    rw [if_pos (show v + 8 < 0 by omega), if_neg (show ¬ v + 25 + 8 < 0 by omega), hlen,
      show v + 8 + 25 = v + 25 + 8 by ring]
  · rw [if_neg hv]
    exact hl v (by omega) h.2

theorem extended_wrapped (r : List ℤ) (h : ∀ v ∈ r, -33 ≤ v ∧ v ≤ 16) :
    Doodson.toExtended r = .ok ((wrapped r).map letter) := by
  unfold Doodson.toExtended wrapped
  rw [List.map_map]
  exact pyMap_ok_of_forall fun v hv => digit_letter v (h v hv)

theorem wrapped_mem {r : List ℤ} (h : ∀ v ∈ r, -33 ≤ v ∧ v ≤ 16) : ∀ v ∈ wrapped r, -8 ≤ v ∧ v ≤ 16 := by
  intro v hv
  obtain ⟨w, hw, rfl⟩ := List.mem_map.1 hv
  have := h w hw
  split <;> omega

theorem letter_injective {v w : ℤ} (hv : -8 ≤ v ∧ v ≤ 16) (hw : -8 ≤ w ∧ w ≤ 16) (h : letter v = letter w) :
    v = w := by
  have a : ∀ v ∈ (List.range 25).map (fun n : ℕ => (n : ℤ) - 8), ∀ w ∈ (List.range 25).map (fun n : ℕ => (n : ℤ) - 8),
      letter v = letter w → v = w := by decide +kernel
  refine a v (List.mem_map.2 ⟨(v + 8).toNat, List.mem_range.2 (by omega), by omega⟩) w
    (List.mem_map.2 ⟨(w + 8).toNat, List.mem_range.2 (by omega), by omega⟩) h

theorem letters_injective : ∀ {r s : List ℤ}, (∀ v ∈ r, -8 ≤ v ∧ v ≤ 16) → (∀ v ∈ s, -8 ≤ v ∧ v ≤ 16) →
    r.map letter = s.map letter → r = s
  | [], [], _, _, _ => rfl
  | [], _ :: _, _, _, h => by simp at h
  | _ :: _, [], _, _, h => by simp at h
  | v :: r, w :: s, hr, hs, h => by
    rw [List.map_cons, List.map_cons, List.cons.injEq] at h
    rw [letter_injective (hr v (by simp)) (hs w (by simp)) h.1,
      letters_injective (fun x hx => hr x (by simp [hx])) (fun x hx => hs x (by simp [hx])) h.2]

/-- **C81** (partial: the claim is for all constituents of the table): the extended Doodson number has the letters
of the seven multiples. -/
theorem C81_extended_partial (name corrections c : String) (raise : Bool) (r : List ℤ)
    (hn : name.toLower = "extended") (hr : row corrections c.toLower = .ok r) (hc : c.toLower ∉ unlettered) :
    ∃ s, single name raise corrections c = .ok (some (.extended s)) ∧ Extended r s := by
  obtain ⟨h1, h2, -⟩ := wrapped_range _ (row_rows hr)
  have hw : wrapped r = r := h2 hc
  refine ⟨r.map letter, ?_, ?_, rfl⟩
  · rw [single_row ((C81_formalism name).2.2.1.2 hn) hr]
    unfold identify
    rw [extended_wrapped r h1, ok_bind, hw]
  · have := wrapped_mem h1
    rwa [hw] at this

/-- **C81** is false for five constituents, S9 to S12 and 2T7: their extended Doodson number is the right one of
another constituent. -/
theorem C81_extended_false (name corrections c : String) (raise : Bool) (hn : name.toLower = "extended")
    (hc : c.toLower ∈ unlettered) :
    ∃ r r' s, row corrections c.toLower = .ok r ∧ single name raise corrections c = .ok (some (.extended s)) ∧
      Extended r' s ∧ r' ≠ r := by
  have h0 : ∀ c ∈ unlettered, (Coef.table.lookup c).isSome = true ∧ c ≠ "s1" := by decide +kernel
  obtain ⟨h1, h2⟩ := h0 _ hc
  obtain ⟨r, hr⟩ := Option.isSome_iff_exists.1 h1
  have hr' : row corrections c.toLower = .ok r := by
    unfold row Coef.lookup
    rw [if_neg (by simp [h2]), hr]
  obtain ⟨k1, -, k3⟩ := wrapped_range _ (row_rows hr')
  refine ⟨r, wrapped r, (wrapped r).map letter, hr', ?_, ⟨wrapped_mem k1, rfl⟩, k3 hc⟩
  rw [single_row ((C81_formalism name).2.2.1.2 hn) hr']
  unfold identify
  rw [extended_wrapped r k1, ok_bind]

example : "S9".toLower ∈ unlettered := by decide +kernel

/-! ## Lists of constituents -/

theorem lookup_insert (d : List (String × Option Number)) (c k : String) (n : Option Number) :
    (insert d c n).lookup k = if k = c then some n else d.lookup k := by
  unfold insert
  split
  · rename_i h
    rw [List.contains_iff_mem] at h
    induction d with
    | nil => simp at h
    | cons p d ih =>
      rw [List.map_cons, List.mem_cons] at h
      rw [List.map_cons]
      by_cases hp : p.1 = c
      · rw [if_pos hp]
        by_cases hk : k = c
        · rw [if_pos hk, hk]; simp
        · rw [if_neg hk, List.lookup_cons, List.lookup_cons]
          have e1 : (k == c) = false := by simpa using hk
          have e2 : (k == p.1) = false := by rw [hp]; exact e1
          rw [e1, e2]
          by_cases hm : c ∈ d.map (·.1)
          · rw [ih hm, if_neg hk]
          · have : (d.map fun p => if p.1 = c then (c, n) else p) = d := by
              conv_rhs => rw [← List.map_id d]
              refine List.map_congr_left fun q hq => ?_
              rw [if_neg]; rfl
              rintro rfl
              exact hm (List.mem_map_of_mem hq)
            rw [this]
      · rw [if_neg hp]
        rw [List.lookup_cons, List.lookup_cons]
        by_cases hk : k = p.1
        · have e1 : (k == p.1) = true := by simpa using hk
          rw [e1, if_neg (hk ▸ hp)]
        · have e1 : (k == p.1) = false := by simpa using hk
          rw [e1]
          exact ih (h.resolve_left fun e => hp e.symm)
  · rename_i h
    rw [List.contains_iff_mem] at h
    induction d with
    | nil =>
      rw [List.nil_append, List.lookup_cons]
      by_cases hk : k = c
      · rw [if_pos hk, hk]; simp
      · have e1 : (k == c) = false := by simpa using hk
        rw [e1, if_neg hk]
    | cons p d ih =>
      rw [List.map_cons, List.mem_cons, not_or] at h
      rw [List.cons_append, List.lookup_cons, List.lookup_cons]
      by_cases hk : k = p.1
      · have e1 : (k == p.1) = true := by simpa using hk
        rw [e1, if_neg (by rw [hk]; exact fun e => h.1 e.symm)]
      · have e1 : (k == p.1) = false := by simpa using hk
        rw [e1]
        exact ih h.2

theorem loop_lookup (f : Formalism) (raise : Bool) (corrections : String) :
    ∀ (cs : List String) (d e : List (String × Option Number)), loop f raise corrections cs d = .ok e →
      ∀ k, (k ∈ cs → ∃ n, entry f raise corrections k = .ok n ∧ e.lookup k = some n) ∧
        (k ∉ cs → e.lookup k = d.lookup k)
  | [], d, e, h, k => by cases h; exact ⟨fun h => by simp at h, fun _ => rfl⟩
  | c :: cs, d, e, h, k => by
    rw [loop] at h
    cases hn : entry f raise corrections c with
    | error x => rw [hn, error_bind] at h; cases h
    | ok n =>
      rw [hn, ok_bind] at h
      obtain ⟨i1, i2⟩ := loop_lookup f raise corrections cs _ _ h k
      by_cases hk : k ∈ cs
      · exact ⟨fun _ => i1 hk, fun h => absurd (List.mem_cons_of_mem _ hk) h⟩
      · have h2 := i2 hk
        rw [lookup_insert] at h2
        constructor
        · intro hm
          rcases List.mem_cons.1 hm with rfl | hm
          · rw [if_pos rfl] at h2
            exact ⟨n, hn, h2⟩
          · exact absurd hm hk
        · intro hm
          rw [h2, if_neg]
          rintro rfl
          exact hm List.mem_cons_self

theorem loop_ok (f : Formalism) (raise : Bool) (corrections : String) :
    ∀ (cs : List String) (d : List (String × Option Number)), (∃ e, loop f raise corrections cs d = .ok e) ↔
      ∀ c ∈ cs, ∃ n, entry f raise corrections c = .ok n
  | [], d => by simp [loop]
  | c :: cs, d => by
    rw [loop]
    cases hn : entry f raise corrections c with
    | error x =>
      rw [error_bind]
      constructor
      · rintro ⟨e, he⟩; cases he
      · intro h
        obtain ⟨n, hn'⟩ := h c List.mem_cons_self
        rw [hn] at hn'; cases hn'
    | ok n =>
      rw [ok_bind, loop_ok f raise corrections cs]
      constructor
      · intro h k hk
        rcases List.mem_cons.1 hk with rfl | hk
        · exact ⟨n, hn⟩
        · exact h k hk
      · exact fun h k hk => h k (List.mem_cons_of_mem _ hk)

/-- **C81**: for a list of constituents the dictionary has for each of them the number of the constituent alone, and
nothing else; there is an error exactly if there is one for a constituent alone (or the formalism is not known). -/
theorem C81_dictionary (name corrections : String) (raise : Bool) (cs : List String) :
    (∀ d, several name raise corrections cs = .ok d →
      ∀ c, (c ∈ cs → ∃ n, single name raise corrections c = .ok n ∧ d.lookup c = some n) ∧
        (c ∉ cs → d.lookup c = none)) ∧
    ((∃ f, formalism name = .ok f) → ((∃ d, several name raise corrections cs = .ok d) ↔
      ∀ c ∈ cs, ∃ n, single name raise corrections c = .ok n)) := by
  unfold several single
  cases hf : formalism name with
  | error e =>
    refine ⟨fun d h => ?_, fun h => ?_⟩
    · rw [error_bind] at h; cases h
    · obtain ⟨f, h⟩ := h; cases h
  | ok f =>
    simp only [ok_bind]
    exact ⟨fun d h c => loop_lookup f raise corrections cs [] d h c, fun _ => loop_ok f raise corrections cs []⟩

/-- **C81**: without errors a list always gets an answer. -/
theorem C81_always (name corrections : String) (cs : List String) (hf : ∃ f, formalism name = .ok f) :
    ∃ d, several name false corrections cs = .ok d := by
  refine ((C81_dictionary name corrections false cs).2 hf).2 fun c _ => ?_
  cases hr : row corrections c.toLower with
  | error e =>
    have he : e = .valueError := by
      unfold row at hr
      split at hr <;> cases hr
      rfl
    rw [he] at hr
    exact ⟨_, (C81_unknown name corrections c hf hr).2⟩
  | ok r =>
    obtain ⟨f, hf⟩ := hf
    rw [single_row hf hr]
    obtain ⟨k1, -, -⟩ := wrapped_range _ (row_rows hr)
    cases f with
    | cartwright => exact ⟨_, rfl⟩
    | doodson =>
      unfold identify
      by_cases hc : c.toLower ∈ unnumbered
      · rw [(unnumbered_check _ (row_rows hr) hc).2, ok_bind]; exact ⟨_, rfl⟩
      · have h := (doodson_check _ (row_rows hr) hc).2
        match hx : Doodson.toDoodson false r with
        | .ok (some d) => exact ⟨_, by rw [ok_bind]⟩
        | .ok none => rw [hx] at h; exact h.elim
        | .error e => rw [hx] at h; exact h.elim
    | extended =>
      unfold identify
      rw [extended_wrapped r k1, ok_bind]; exact ⟨_, rfl⟩

/-- **C81**: the lists of a set of constituents have for each of them, in order, the number that is returned without
errors. -/
theorem C81_fields (name : String) (fields : List String) (hf : ∃ f, formalism name = .ok f) :
    ∃ l, ofFields name fields = .ok l ∧
      List.Forall₂ (fun c n => single name false "OTIS" c = .ok n) fields l := by
  have key : ∀ c ∈ fields, ∃ n, caught (single name true "OTIS" c) = .ok n ∧ single name false "OTIS" c = .ok n := by
    intro c _
    cases hr : row "OTIS" c.toLower with
    | error e =>
      have he : e = .valueError := by
        unfold row at hr
        split at hr <;> cases hr
        rfl
      rw [he] at hr
      obtain ⟨h1, h2⟩ := C81_unknown name "OTIS" c hf hr
      exact ⟨none, by rw [h1]; rfl, h2⟩
    | ok r =>
      obtain ⟨f, hf⟩ := hf
      rw [single_row hf hr, single_row hf hr]
      obtain ⟨k1, -, -⟩ := wrapped_range _ (row_rows hr)
      cases f with
      | cartwright => exact ⟨_, rfl, rfl⟩
      | doodson =>
        by_cases hc : c.toLower ∈ unnumbered
        · obtain ⟨a, b⟩ := unnumbered_check _ (row_rows hr) hc
          unfold identify
          exact ⟨none, by rw [a, error_bind]; rfl, by rw [b, ok_bind]; rfl⟩
        · have hl := Astro.table_length
          have hin : Doodson.outOfRange (Doodson.shifted r) = false := by
            cases ho : Doodson.outOfRange (Doodson.shifted r)
            · rfl
            · have h := (doodson_check _ (row_rows hr) hc).2
              unfold Doodson.toDoodson at h
              simp only [ho, Bool.and_false, Bool.false_eq_true, if_false, if_true] at h
              exact h.elim
          have e : Doodson.toDoodson true r = Doodson.toDoodson false r := by
            unfold Doodson.toDoodson
            simp only [hin, Bool.false_and]
          have h := (doodson_check _ (row_rows hr) hc).2
          unfold identify
          rw [e]
          match hx : Doodson.toDoodson false r with
          | .ok (some d) => exact ⟨some (.doodson d), by rw [ok_bind]; rfl, by rw [ok_bind]; rfl⟩
          | .ok none => rw [hx] at h; exact h.elim
          | .error e => rw [hx] at h; exact h.elim
      | extended =>
        unfold identify
        rw [extended_wrapped r k1]
        exact ⟨some (.extended ((wrapped r).map letter)), by rw [ok_bind]; rfl, by rw [ok_bind]⟩
  unfold ofFields
  clear hf
  induction fields with
  | nil => exact ⟨[], rfl, .nil⟩
  | cons c cs ih =>
    obtain ⟨n, h1, h2⟩ := key c List.mem_cons_self
    obtain ⟨l, i1, i2⟩ := ih fun k hk => key k (List.mem_cons_of_mem _ hk)
    exact ⟨n :: l, by simp only [pyMap, h1, i1], .cons h2 i2⟩

/-! ## Numbers and frequencies -/

theorem rows_length : ∀ q ∈ rows, q.2.length = 7 := by
  intro q hq
  rcases List.mem_cons.1 hq with rfl | hq
  · rfl
  · exact table_length q hq

theorem wrapped_check : ∀ q ∈ rows, q.1 ∈ unlettered → ∀ p ∈ rows, wrapped q.2 = wrapped p.2 → q.2 = p.2 := by
  decide +kernel

theorem sign_injective {v w : ℤ} (hv : 0 ≤ v ∧ v ≤ 11) (hw : 0 ≤ w ∧ w ≤ 11) (h : sign v = sign w) : v = w := by
  have a : ∀ v ∈ (List.range 12).map (fun n : ℕ => (n : ℤ)), ∀ w ∈ (List.range 12).map (fun n : ℕ => (n : ℤ)),
      sign v = sign w → v = w := by decide +kernel
  exact a v (List.mem_map.2 ⟨v.toNat, List.mem_range.2 (by omega), by omega⟩) w
    (List.mem_map.2 ⟨w.toNat, List.mem_range.2 (by omega), by omega⟩) h

theorem six {c : List ℤ} (h : c.length = 6) : ∃ x0 x1 x2 x3 x4 x5, c = [x0, x1, x2, x3, x4, x5] := by
  match c, h with
  | [x0, x1, x2, x3, x4, x5], _ => exact ⟨x0, x1, x2, x3, x4, x5, rfl⟩

/-- The same Doodson number has the same multiples. -/
theorem says_unique {c c' : List ℤ} {d : Doodson.DO} (h : Says c d) (h' : Says c' d) : c = c' := by
  cases d with
  | num n =>
    obtain ⟨h1, h2, h3⟩ := h
    obtain ⟨h1', h2', h3'⟩ := h'
    obtain ⟨x0, x1, x2, x3, x4, x5, rfl⟩ := six h2
    obtain ⟨y0, y1, y2, y3, y4, y5, rfl⟩ := six h2'
    simp only [digits, List.mem_cons, List.not_mem_nil, or_false, forall_eq_or_imp, forall_eq, List.foldl_cons,
      List.foldl_nil] at h1 h3 h1' h3'
    simp only [List.cons.injEq, and_true]
    omega
  | txt s =>
    obtain ⟨h1, h2, -, h3⟩ := h
    obtain ⟨h1', h2', -, h3'⟩ := h'
    obtain ⟨x0, x1, x2, x3, x4, x5, rfl⟩ := six h2
    obtain ⟨y0, y1, y2, y3, y4, y5, rfl⟩ := six h2'
    rw [h3] at h3'
    simp only [digits, List.mem_cons, List.not_mem_nil, or_false, forall_eq_or_imp, forall_eq] at h1 h1'
    simp only [digits, List.take_succ_cons, List.take_zero, List.drop_succ_cons, List.drop_zero, List.map_cons,
      List.map_nil, List.cons_append, List.nil_append, List.cons.injEq, true_and, and_true] at h3'
    obtain ⟨a0, a1, a2, a3, a4, a5⟩ := h1
    obtain ⟨b0, b1, b2, b3, b4, b5⟩ := h1'
    obtain ⟨e0, e1, e2, e3, e4, e5⟩ := h3'
    have g0 := sign_injective a0 b0 e0
    have g1 := sign_injective a1 b1 e1
    have g2 := sign_injective a2 b2 e2
    have g3 := sign_injective a3 b3 e3
    have g4 := sign_injective a4 b4 e4
    have g5 := sign_injective a5 b5 e5
    simp only [List.cons.injEq, and_true]
    omega

theorem single_some {name corrections c : String} {n : Number} (h : single name true corrections c = .ok (some n)) :
    ∃ f r, formalism name = .ok f ∧ row corrections c.toLower = .ok r ∧ identify f true r = .ok (some n) := by
  unfold single at h
  cases hf : formalism name with
  | error e => rw [hf, error_bind] at h; cases h
  | ok f =>
    rw [hf, ok_bind] at h
    unfold entry at h
    cases hr : row corrections c.toLower with
    | error e => rw [hr] at h; cases h
    | ok r => rw [hr] at h; exact ⟨f, r, rfl, rfl, h⟩

/-- The same number has the same multiples. -/
theorem number_multiples {name corrections c c' : String} {n : Number}
    (h : single name true corrections c = .ok (some n)) (h' : single name true corrections c' = .ok (some n)) :
    ∃ r r', row corrections c.toLower = .ok r ∧ row corrections c'.toLower = .ok r' ∧ r.take 6 = r'.take 6 := by
  obtain ⟨f, r, hf, hr, hi⟩ := single_some h
  obtain ⟨f', r', hf', hr', hi'⟩ := single_some h'
  rw [hf] at hf'
  cases hf'
  refine ⟨r, r', hr, hr', ?_⟩
  cases f with
  | cartwright =>
    unfold identify at hi hi'
    rw [← hi'] at hi
    simpa using hi
  | doodson =>
    have get : ∀ {c r}, row corrections c = .ok r → identify .doodson true r = .ok (some n) →
        ∃ d, n = .doodson d ∧ Says (r.take 6) d := by
      intro c r hr hi
      unfold identify at hi
      by_cases hc : c ∈ unnumbered
      · rw [(unnumbered_check _ (row_rows hr) hc).1, error_bind] at hi; cases hi
      · have hg := (doodson_check _ (row_rows hr) hc).1
        match hx : Doodson.toDoodson true r with
        | .ok (some d) =>
          rw [hx] at hg hi
          rw [ok_bind] at hi
          cases hi
          exact ⟨d, rfl, hg⟩
        | .ok none => rw [hx] at hg; exact hg.elim
        | .error e => rw [hx] at hg; exact hg.elim
    obtain ⟨d, e, hd⟩ := get hr hi
    obtain ⟨d', e', hd'⟩ := get hr' hi'
    rw [e] at e'
    cases e'
    exact says_unique hd hd'
  | extended =>
    obtain ⟨k1, k2, -⟩ := wrapped_range _ (row_rows hr)
    obtain ⟨k1', k2', -⟩ := wrapped_range _ (row_rows hr')
    unfold identify at hi hi'
    rw [extended_wrapped r k1, ok_bind] at hi
    rw [extended_wrapped r' k1', ok_bind, ← hi] at hi'
    have e : wrapped r' = wrapped r := by
      refine letters_injective (wrapped_mem k1') (wrapped_mem k1) ?_
      simpa using hi'
    have : r = r' := by
      by_cases hc : c.toLower ∈ unlettered
      · exact wrapped_check _ (row_rows hr) hc _ (row_rows hr') e.symm
      · by_cases hc' : c'.toLower ∈ unlettered
        · exact (wrapped_check _ (row_rows hr') hc' _ (row_rows hr) e).symm
        · exact (k2 hc).symm.trans (e.symm.trans (k2' hc'))
    rw [this]

/-- Frequencies of two constituents. -/
theorem frequency_pair {corrections c c' : String} {r r' : List ℤ} (h : row corrections c = .ok r)
    (h' : row corrections c' = .ok r') :
    frequency corrections [c, c'] = .ok [2 * Real.pi * ((dotQ (ratesQ corrections) r : ℝ) / 360) / 86400,
      2 * Real.pi * ((dotQ (ratesQ corrections) r' : ℝ) / 360) / 86400] := by
  have hc : coefficients corrections [c, c'] = .ok [r, r'] := by simp only [coefficients, pyMap, h, h']
  obtain ⟨w, hw⟩ : ∃ w, frequency corrections [c, c'] = .ok w := by
    unfold frequency
    simp only [hc, ok_bind]
    exact ⟨_, rfl⟩
  obtain ⟨s, hs, e0⟩ := frequency_row hw 0 (c := c) rfl
  obtain ⟨s', hs', e1⟩ := frequency_row hw 1 (c := c') rfl
  rw [h] at hs
  rw [h'] at hs'
  cases hs
  cases hs'
  have hl : w.length = 2 := by
    obtain ⟨rows, hr, e⟩ := frequency_ok hw
    rw [e, List.length_map, pyMap_length hr]
    rfl
  match w, hl with
  | [a, b], _ =>
    simp only [List.getElem?_cons_zero, List.getElem?_cons_succ, Option.some.injEq] at e0 e1
    rw [hw, e0, e1]

theorem seven {c : List ℤ} (h : c.length = 7) : ∃ x0 x1 x2 x3 x4 x5 x6, c = [x0, x1, x2, x3, x4, x5, x6] := by
  match c, h with
  | [x0, x1, x2, x3, x4, x5, x6], _ => exact ⟨x0, x1, x2, x3, x4, x5, x6, rfl⟩

theorem dotQ_seven (corrections : String) (x0 x1 x2 x3 x4 x5 x6 : ℤ) :
    dotQ (ratesQ corrections) [x0, x1, x2, x3, x4, x5, x6] = dotQ (ratesQ corrections) [x0, x1, x2, x3, x4, x5, 0] := by
  rcases ratesQ_cases corrections with h | h <;> rw [h] <;> simp [ratesOtis, ratesAstro5, dotQ]

/-- **C81**: constituents with the same number have the same frequency, in each formalism. -/
theorem C81_frequency (name corrections c c' : String) (n : Number)
    (h : single name true corrections c = .ok (some n)) (h' : single name true corrections c' = .ok (some n)) :
    ∃ w, frequency corrections [c.toLower, c'.toLower] = .ok [w, w] := by
  obtain ⟨r, r', hr, hr', e⟩ := number_multiples h h'
  rw [frequency_pair hr hr']
  obtain ⟨x0, x1, x2, x3, x4, x5, x6, rfl⟩ := seven (rows_length _ (row_rows hr))
  obtain ⟨y0, y1, y2, y3, y4, y5, y6, rfl⟩ := seven (rows_length _ (row_rows hr'))
  simp only [List.take_succ_cons, List.take_zero, List.cons.injEq, and_true] at e
  obtain ⟨rfl, rfl, rfl, rfl, rfl, rfl⟩ := e
  refine ⟨2 * Real.pi * ((dotQ (ratesQ corrections) [x0, x1, x2, x3, x4, x5, 0] : ℝ) / 360) / 86400, ?_⟩
  rw [dotQ_seven corrections x0 x1 x2 x3 x4 x5 y6, dotQ_seven corrections x0 x1 x2 x3 x4 x5 x6]

/-- Two names of a constituent. -/
example : single "Doodson" true "OTIS" "mu2" = single "Doodson" true "OTIS" "2MS2" ∧
    single "Doodson" true "OTIS" "mu2" = .ok (some (.doodson (.num 237555))) := by decide +kernel

/-! ## Frequencies tell constituents apart -/

/-- The rates in whole numbers. -/
def scaledOtis : List ℤ := [34780925088, 1317639648, 98564736, 11140353, -5295377, 0, 0]

def scaledAstro5 : List ℤ :=
  [49521297428894073563618411367605338445, 1876063523892758558290399556874521612,
    140337084075582121908810924479860057, 15861703081098603601483747985400000,
    -7539589968459322386016766682900000, 6701732103969000000000000000000, 0]

def dotZ (a c : List ℤ) : ℤ := (List.zipWith (· * ·) a c).sum

def keys (rates : List ℤ) (k : ℕ) : List (ℤ × List ℤ) := rows.map fun p => (dotZ rates p.2, p.2.take k)

def find (k : ℤ) : List (ℤ × List ℤ) → List ℤ
  | [] => []
  | (a, r) :: t => if a = k then r else find k t

theorem find_otis : ∀ q ∈ rows, find (dotZ scaledOtis q.2) (keys scaledOtis 5) = q.2.take 5 := by decide +kernel

theorem find_astro5 : ∀ q ∈ rows, find (dotZ scaledAstro5 q.2) (keys scaledAstro5 6) = q.2.take 6 := by
  decide +kernel

theorem scaled_otis : ratesOtis = scaledOtis.map fun n : ℤ => (n : ℚ) / 100000000 := by decide +kernel

theorem scaled_astro5 : ratesAstro5 = scaledAstro5.map fun n : ℤ => (n : ℚ) / 142380621857531250000000000000000000 := by
  decide +kernel

theorem dotQ_scaled (D : ℚ) : ∀ (a c : List ℤ), dotQ (a.map fun n : ℤ => (n : ℚ) / D) c = (dotZ a c : ℚ) / D
  | [], c => by simp [dotQ, dotZ]
  | x :: a, [] => by simp [dotQ, dotZ]
  | x :: a, y :: c => by
    have h := dotQ_scaled D a c
    simp only [dotQ, dotZ, List.map_cons, List.zipWith_cons_cons, List.sum_cons] at h ⊢
    rw [h]; push_cast; ring

/-- **C81**: constituents with the same frequency have the same number, but that the rate of the solar perigee is
zero for OTIS models. -/
theorem C81_separates (corrections c c' : String) (w : ℝ)
    (h : frequency corrections [c.toLower, c'.toLower] = .ok [w, w]) :
    ∃ r r', row corrections c.toLower = .ok r ∧ row corrections c'.toLower = .ok r' ∧ r.take 5 = r'.take 5 ∧
      (otisType corrections = false → r.take 6 = r'.take 6 ∧
        single "Doodson" true corrections c = single "Doodson" true corrections c' ∧
        single "Cartwright" true corrections c = single "Cartwright" true corrections c') := by
  obtain ⟨r, hr, e0⟩ := frequency_row h 0 (c := c.toLower) rfl
  obtain ⟨r', hr', e1⟩ := frequency_row h 1 (c := c'.toLower) rfl
  simp only [List.getElem?_cons_zero, List.getElem?_cons_succ, Option.some.injEq] at e0 e1
  have e : dotQ (ratesQ corrections) r = dotQ (ratesQ corrections) r' := by
    rw [e0] at e1
    have hp := Real.pi_pos.ne'
    have : (dotQ (ratesQ corrections) r : ℝ) = dotQ (ratesQ corrections) r' := by
      field_simp at e1
      exact e1
    exact_mod_cast this
  refine ⟨r, r', hr, hr', ?_⟩
  cases ho : otisType corrections with
  | true =>
    unfold ratesQ at e
    rw [ho, if_pos rfl, scaled_otis, dotQ_scaled, dotQ_scaled, div_left_inj' (by norm_num)] at e
    have e' : dotZ scaledOtis r = dotZ scaledOtis r' := by exact_mod_cast e
    have f1 := find_otis _ (row_rows hr)
    have f2 := find_otis _ (row_rows hr')
    simp only [e'] at f1
    exact ⟨f1.symm.trans f2, fun h => by cases h⟩
  | false =>
    unfold ratesQ at e
    rw [ho, if_neg (by simp), scaled_astro5, dotQ_scaled, dotQ_scaled, div_left_inj' (by norm_num)] at e
    have e' : dotZ scaledAstro5 r = dotZ scaledAstro5 r' := by exact_mod_cast e
    have f1 := find_astro5 _ (row_rows hr)
    have f2 := find_astro5 _ (row_rows hr')
    simp only [e'] at f1
    have e6 : r.take 6 = r'.take 6 := f1.symm.trans f2
    have e5 : r.take 5 = r'.take 5 := by
      have := congrArg (List.take 5) e6
      simpa [List.take_take] using this
    have hf : formalism "Doodson" = .ok .doodson := by decide +kernel
    have hc : formalism "Cartwright" = .ok .cartwright := by decide +kernel
    refine ⟨e5, fun _ => ⟨e6, ?_, ?_⟩⟩
    · rw [single_row hf hr, single_row hf hr']
      unfold identify Doodson.toDoodson Doodson.shifted
      rw [e6]
    · rw [single_row hc hr, single_row hc hr']
      unfold identify
      rw [e6]

example : frequency "FES" ["mu2", "2ms2"] = frequency "FES" ["mu2", "mu2"] := by
  have h1 : row "FES" "mu2" = .ok [2, -2, 2, 0, 0, 0, 0] := by decide +kernel
  have h2 : row "FES" "2ms2" = .ok [2, -2, 2, 0, 0, 0, 0] := by decide +kernel
  rw [frequency_pair h1 h2, frequency_pair h1 h1]

/-- With OTIS corrections T2 and a line of S2 have the same frequency and different numbers. -/
theorem C81_separates_false : ∃ w, frequency "OTIS" ["t2", "s2-1"] = .ok [w, w] ∧
    single "Doodson" true "OTIS" "t2" ≠ single "Doodson" true "OTIS" "s2-1" := by
  have h1 : row "OTIS" "t2" = .ok [2, 2, -3, 0, 0, 1, 0] := by decide +kernel
  have h2 : row "OTIS" "s2-1" = .ok [2, 2, -3, 0, 0, 0, 0] := by decide +kernel
  refine ⟨2 * Real.pi * ((dotQ (ratesQ "OTIS") [2, 2, -3, 0, 0, 0, 0] : ℝ) / 360) / 86400, ?_, by decide +kernel⟩
  rw [frequency_pair h1 h2]
  have e : dotQ (ratesQ "OTIS") [2, 2, -3, 0, 0, 1, 0] = dotQ (ratesQ "OTIS") [2, 2, -3, 0, 0, 0, 0] := by
    decide +kernel
  rw [e]

end Verif.Numbers
