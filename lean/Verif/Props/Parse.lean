import Verif.Model.Parse
import Verif.Lemmas.Case
import Verif.Model.Coef
/-!
C60: recognition of constituent names.
-/
namespace Verif.Parse
open Verif

/-- The names that are recognised. -/
def names : List String := alts.map Alt.name

/-- A character that separates words: no letter, no digit and no prime. -/
def Separator (c : Char) : Prop := c.isAlphanum = false ∧ c ≠ '\''

instance (c : Char) : Decidable (Separator c) := by unfold Separator; infer_instance

/-! ### Lists -/

/-- A word does not run over a separator. -/
theorem prefix_sep (w n : List Char) (c : Char) (s : List Char) (hw : ∀ x ∈ w, x ≠ c) :
    w.isPrefixOf (n ++ c :: s) = w.isPrefixOf n := by
  induction n generalizing w with
  | nil =>
    cases w with
    | nil => rfl
    | cons x w =>
      have : x ≠ c := hw x (by simp)
      simp [List.isPrefixOf, this]
  | cons y n ih =>
    cases w with
    | nil => rfl
    | cons x w =>
      simp only [List.cons_append, List.isPrefixOf]
      rw [ih w fun z hz => hw z (by simp [hz])]

/-- The same after a part of the text is dropped. -/
theorem prefix_drop_sep (w n : List Char) (c : Char) (s : List Char) (k : ℕ) (hk : k ≤ n.length)
    (hw : ∀ x ∈ w, x ≠ c) :
    w.isPrefixOf ((n ++ c :: s).drop k) = w.isPrefixOf (n.drop k) := by
  rw [List.drop_append_of_le_length hk]
  exact prefix_sep w _ c s hw

theorem prefix_length (w n : List Char) (h : w.isPrefixOf n = true) : w.length ≤ n.length :=
  (List.isPrefixOf_iff_prefix.mp h).length_le

/-- The words of the alternatives consist of letters and digits. -/
def Alt.words (a : Alt) : List String := a.name :: (a.behind ++ a.ahead)

theorem words_alnum : ∀ a ∈ alts, ∀ w ∈ a.words, ∀ x ∈ w.toList, x.isAlphanum = true := by
  decide +kernel

theorem word_sep {a : Alt} (ha : a ∈ alts) {w : String} (hw : w ∈ a.words) {c : Char}
    (hc : c.isAlphanum = false) : ∀ x ∈ w.toList, x ≠ c := by
  rintro x hx rfl
  rw [words_alnum a ha w hw x hx] at hc
  exact absurd hc (by simp)

theorem all_congr {α : Type} {l : List α} {p q : α → Bool} (h : ∀ a ∈ l, p a = q a) :
    l.all p = l.all q := by
  rw [Bool.eq_iff_iff, List.all_eq_true, List.all_eq_true]
  exact ⟨fun k a ha => h a ha ▸ k a ha, fun k a ha => (h a ha).symm ▸ k a ha⟩

/-- What follows a separator does not matter to a match before it. -/
theorem matches_suffix {a : Alt} (ha : a ∈ alts) (before n : List Char) (c : Char)
    (s : List Char) (hc : c.isAlphanum = false) :
    a.matches before (n ++ c :: s) = a.matches before n := by
  unfold Alt.matches
  rw [prefix_sep _ n c s (word_sep ha (by simp [Alt.words]) hc)]
  by_cases hp : a.name.toList.isPrefixOf n = true
  · rw [all_congr (l := a.ahead) fun b hb => by
      rw [prefix_drop_sep b.toList n c s _ (prefix_length _ _ hp)
        (word_sep ha (by simp [Alt.words, hb]) hc)]]
  · rw [Bool.not_eq_true] at hp
    rw [hp]
    simp

/-- What comes before a separator does not matter to a match after it. -/
theorem matches_prefix {a : Alt} (ha : a ∈ alts) (before rest : List Char) (c : Char)
    (hc : c.isAlphanum = false) : a.matches (c :: before) rest = a.matches [] rest := by
  unfold Alt.matches
  have e : a.behind.all (fun b => !(b.toList.reverse.isPrefixOf (c :: before)))
      = a.behind.all (fun b => !(b.toList.reverse.isPrefixOf [])) := by
    refine all_congr fun b hb => ?_
    have h1 := prefix_sep b.toList.reverse [] c before fun x hx =>
      word_sep (w := b) ha (by simp [Alt.words, hb]) hc x (by simpa using hx)
    rw [List.nil_append] at h1
    rw [h1]
  rw [e]

theorem find_congr {α : Type} {l : List α} {p q : α → Bool} (h : ∀ a ∈ l, p a = q a) :
    l.find? p = l.find? q := by
  induction l with
  | nil => rfl
  | cons a l ih =>
    rw [List.find?_cons, List.find?_cons, h a (by simp), ih fun b hb => h b (by simp [hb])]

/-- No alternative matches the empty text or at a separator. -/
theorem find_sep (before : List Char) (c : Char) (s : List Char) (hc : c.isAlphanum = false) :
    alts.find? (fun a => a.matches before (c :: s)) = none := by
  rw [List.find?_eq_none]
  intro a ha
  have h := matches_suffix ha before [] c s hc
  rw [List.nil_append] at h
  rw [h]
  have hne : ∀ a ∈ alts, a.name.toList ≠ [] := by decide +kernel
  have := hne a ha
  unfold Alt.matches
  cases hn : a.name.toList with
  | nil => exact absurd hn this
  | cons x t => simp [List.isPrefixOf]

/-- A part that ends in a separator and has no match is passed over. -/
theorem search_skip (p : List Char) (c : Char) (hc : c.isAlphanum = false) (before rest : List Char)
    (h : search before p = none) :
    search before (p ++ c :: rest) = search (c :: (p.reverse ++ before)) rest := by
  induction p generalizing before with
  | nil =>
    rw [List.nil_append, search, find_sep before c rest hc]
    rfl
  | cons x p ih =>
    rw [search] at h
    have e : alts.find? (fun a => a.matches before (x :: p ++ c :: rest))
        = alts.find? (fun a => a.matches before (x :: p)) :=
      find_congr fun a ha => matches_suffix ha before (x :: p) c rest hc
    rw [List.cons_append, search]
    rw [List.cons_append] at e
    rw [e]
    split at h
    · cases h
    · rw [ih (x :: before) h, List.reverse_cons, List.append_assoc]
      rfl

/-- A name in front of a separator. -/
theorem search_name (n : List Char) (hn : n ≠ []) (a : Alt)
    (h : alts.find? (fun a => a.matches [] n) = some a) (before : List Char)
    (hb : before = [] ∨ ∃ c t, before = c :: t ∧ c.isAlphanum = false)
    (s : List Char) (hs : s = [] ∨ ∃ c t, s = c :: t ∧ c.isAlphanum = false) :
    search before (n ++ s) = some (a, (n ++ s).drop a.name.toList.length) := by
  have e : alts.find? (fun a => a.matches before (n ++ s)) = some a := by
    rw [← h]
    refine find_congr fun a ha => ?_
    have h1 : a.matches before (n ++ s) = a.matches before n := by
      rcases hs with rfl | ⟨c, t, rfl, hc⟩
      · rw [List.append_nil]
      · exact matches_suffix ha before n c t hc
    rw [h1]
    rcases hb with rfl | ⟨c, t, rfl, hc⟩
    · rfl
    · exact matches_prefix ha t n c hc
  cases n with
  | nil => exact absurd rfl hn
  | cons x n =>
    rw [List.cons_append] at e ⊢
    rw [search, e]

theorem find_names : ∀ n ∈ names, ∃ a, alts.find? (fun a => a.matches [] n.toList) = some a ∧
    a.name = n := by
  have : names.all (fun n => match alts.find? (fun a => a.matches [] n.toList) with
    | some a => a.name == n
    | none => false) = true := by decide +kernel
  intro n hn
  have h := List.all_eq_true.mp this n hn
  split at h
  · rename_i a ha
    exact ⟨a, ha, by simpa using h⟩
  · cases h

theorem names_nonempty : ∀ n ∈ names, n.toList ≠ [] := by decide +kernel

theorem lower_append (s t : String) : (s ++ t).toLower = s.toLower ++ t.toLower := by
  unfold String.toLower
  rw [← String.toList_inj, String.toList_map, String.toList_append, String.toList_append,
    String.toList_map, String.toList_map, List.map_append]

theorem lower_sep (c : Char) (h : c.isAlphanum = false) : c.toLower = c := by
  refine dif_neg ?_
  intro k
  have : c.isUpper = true := by
    unfold Char.isUpper
    simpa using k
  simp [Char.isAlphanum, Char.isAlpha, this] at h

theorem lower_idem (s : String) : s.toLower.toLower = s.toLower := by
  rw [← lower_upper, upper_lower, lower_upper]

/-! ### C60 -/

/-- The text has no name in it. -/
def NoName (p : String) : Prop := search [] p.toLower.toList = none

instance (p : String) : Decidable (NoName p) := by unfold NoName; infer_instance

/-- The first match in a text with a name as a word in it. -/
theorem search_word (n : String) (hn : n.toLower ∈ names) (p s : String)
    (hp : p = "" ∨ ∃ (q : String) (c : Char), p = q ++ c.toString ∧ c.isAlphanum = false ∧ NoName q)
    (hs : s.toLower.toList = [] ∨ ∃ c t, s.toLower.toList = c :: t ∧ c.isAlphanum = false) :
    ∃ a, a.name = n.toLower ∧
      search [] (p ++ n ++ s).toLower.toList = some (a, s.toLower.toList) := by
  obtain ⟨a, ha, hname⟩ := find_names _ hn
  refine ⟨a, hname, ?_⟩
  have h : search [] (p ++ n ++ s).toLower.toList
      = some (a, (n.toLower.toList ++ s.toLower.toList).drop a.name.toList.length) := by
    rw [lower_append, lower_append, String.toList_append, String.toList_append, List.append_assoc]
    rcases hp with rfl | ⟨q, c, rfl, hc, hq⟩
    · have : "".toLower.toList = [] := by decide +kernel
      rw [this, List.nil_append]
      exact search_name _ (names_nonempty _ hn) a ha [] (Or.inl rfl) _ hs
    · have hqc : (q ++ c.toString).toLower.toList = q.toLower.toList ++ [c] := by
        rw [lower_append, String.toList_append]
        simp [String.toLower, String.toList_map, lower_sep c hc, Char.toString]
      rw [hqc, List.append_assoc, List.singleton_append, search_skip _ c hc [] _ hq]
      exact search_name _ (names_nonempty _ hn) a ha _ (Or.inr ⟨c, _, rfl, hc⟩) _ hs
  rw [h, hname, List.drop_left]

theorem lower_cons (c : Char) (t : String) (hc : c.isAlphanum = false) :
    (c.toString ++ t).toLower.toList = c :: t.toLower.toList := by
  rw [lower_append, String.toList_append]
  simp [String.toLower, String.toList_map, lower_sep c hc, Char.toString]

/-- C60: a recognised name, in any case, is found wherever it stands as a word: after any text that
has no name in it and ends in a separator, and before any text that begins with one. -/
theorem C60_word (n : String) (hn : n.toLower ∈ names) (p s : String)
    (hp : p = "" ∨ ∃ (q : String) (c : Char), p = q ++ c.toString ∧ c.isAlphanum = false ∧ NoName q)
    (hs : s = "" ∨ ∃ (c : Char) (t : String), s = c.toString ++ t ∧ Separator c) :
    parse (p ++ n ++ s) = .ok n.toLower := by
  have hs' : s.toLower.toList = [] ∨ ∃ c t, s.toLower.toList = c :: t ∧ c.isAlphanum = false ∧
      c ≠ '\'' := by
    rcases hs with rfl | ⟨c, t, rfl, hc⟩
    · left; decide +kernel
    · exact Or.inr ⟨c, t.toLower.toList, lower_cons c t hc.1, hc⟩
  obtain ⟨a, hname, hsearch⟩ := search_word n hn p s hp
    (hs'.imp_right fun ⟨c, t, h1, h2, _⟩ => ⟨c, t, h1, h2⟩)
  rw [parse, hsearch]
  dsimp only
  rw [hname, if_neg]
  intro h
  rcases hs' with h' | ⟨c, t, h', _, hc⟩
  · rw [h'] at h; simp at h
  · rw [h'] at h
    simp [List.isPrefixOf] at h
    exact hc h.symm

/-- C60: a prime after the name (a constituent of the third degree) is kept, whatever follows. -/
theorem C60_prime (n : String) (hn : n.toLower ∈ names) (p s : String)
    (hp : p = "" ∨ ∃ (q : String) (c : Char), p = q ++ c.toString ∧ c.isAlphanum = false ∧ NoName q) :
    parse (p ++ n ++ ("'" ++ s)) = .ok (n.toLower ++ "'") := by
  have hl := lower_cons '\'' s (by decide)
  obtain ⟨a, hname, hsearch⟩ := search_word n hn p ("'" ++ s) hp
    (Or.inr ⟨'\'', _, hl, by decide⟩)
  have hl' : ("'" ++ s).toLower.toList = '\'' :: s.toLower.toList := hl
  rw [parse, hsearch]
  dsimp only
  rw [hname, hl', if_pos (by simp [List.isPrefixOf])]

/-- C60: the remapped spellings by themselves stand for what they are listed with. -/
theorem C60_remapped : ∀ m ∈ remapped, parse m.1 = .ok m.2 := by decide +kernel

/-- C60: case plays no part. -/
theorem C60_case (s t : String) (h : s.toLower = t.toLower) : parse s = parse t := by
  rw [parse, parse, h]

theorem occurs_iff (k t : List Char) : occurs k t = true ↔ ∃ u v, t = u ++ k ++ v := by
  induction t with
  | nil =>
    rw [occurs, List.isEmpty_iff]
    constructor
    · rintro rfl; exact ⟨[], [], rfl⟩
    · rintro ⟨u, v, h⟩
      have := congrArg List.length h
      simp at this
      exact List.length_eq_zero_iff.mp (by omega)
  | cons c t ih =>
    rw [occurs, Bool.or_eq_true, ih, List.isPrefixOf_iff_prefix]
    constructor
    · rintro (⟨v, h⟩ | ⟨u, v, h⟩)
      · exact ⟨[], v, by simpa using h.symm⟩
      · exact ⟨c :: u, v, by rw [h]; simp⟩
    · rintro ⟨u, v, h⟩
      cases u with
      | nil => exact Or.inl ⟨v, by simpa using h.symm⟩
      | cons d u =>
        simp only [List.cons_append, List.cons.injEq] at h
        exact Or.inr ⟨u, v, by rw [h.2]⟩

theorem search_occurs (before t : List Char) (a : Alt) (rest : List Char)
    (h : search before t = some (a, rest)) :
    a ∈ alts ∧ ∃ u, t = u ++ a.name.toList ++ rest := by
  induction t generalizing before with
  | nil => cases h
  | cons c t ih =>
    rw [search] at h
    split at h
    · rename_i b hb
      have e := Option.some.inj h
      have e1 : b = a := congrArg Prod.fst e
      have e2 : (c :: t).drop b.name.toList.length = rest := congrArg Prod.snd e
      subst e1
      refine ⟨List.mem_of_find?_eq_some hb, [], ?_⟩
      have hm := List.find?_some hb
      unfold Alt.matches at hm
      simp only [Bool.and_eq_true] at hm
      obtain ⟨v, hv⟩ := List.isPrefixOf_iff_prefix.mp hm.1.2
      rw [List.nil_append, ← e2, ← hv, List.drop_left]
    · obtain ⟨h1, u, h2⟩ := ih _ h
      exact ⟨h1, c :: u, by rw [h2]; simp⟩

/-- C60: whatever is returned is a recognised name that occurs in the text, with its prime if it
has one there, or the name that a remapped spelling in the text stands for. -/
theorem C60_sound (text r : String) (h : parse text = .ok r) :
    (∃ n ∈ names, (r = n ∨ r = n ++ "'") ∧
      ∃ u v, text.toLower.toList = u ++ r.toList ++ v) ∨
    ∃ k, (k, r) ∈ remapped ∧ ∃ u v, text.toLower.toList = u ++ k.toList ++ v := by
  unfold parse at h
  split at h
  · rename_i a rest hs
    obtain ⟨h1, u, h2⟩ := search_occurs _ _ _ _ hs
    left
    refine ⟨a.name, List.mem_map.mpr ⟨a, h1, rfl⟩, ?_⟩
    have e := Except.ok.inj h
    split at e
    · rename_i hp
      obtain ⟨v, hv⟩ := List.isPrefixOf_iff_prefix.mp hp
      subst e
      refine ⟨Or.inr rfl, u, v, ?_⟩
      rw [h2, ← hv, String.toList_append]
      simp
    · subst e
      exact ⟨Or.inl rfl, u, rest, h2⟩
  · right
    split at h
    · rename_i m hm
      have e := Except.ok.inj h
      subst e
      have ho : occurs m.1.toList text.toLower.toList = true :=
        List.find?_some (p := fun m : String × String => occurs m.1.toList text.toLower.toList) hm
      exact ⟨m.1, List.mem_of_find?_eq_some hm, (occurs_iff _ _).mp ho⟩
    · cases h

/-- C60: a text that contains neither a recognised nor a remapped name is refused. -/
theorem C60_refused (text : String)
    (h1 : ∀ n ∈ names, ¬ ∃ u v, text.toLower.toList = u ++ n.toList ++ v)
    (h2 : ∀ m ∈ remapped, ¬ ∃ u v, text.toLower.toList = u ++ m.1.toList ++ v) :
    parse text = .error .valueError := by
  cases h : parse text with
  | ok r =>
    exfalso
    rcases C60_sound text r h with ⟨n, hn, hr, u, v, e⟩ | ⟨k, hk, e⟩
    · rcases hr with rfl | rfl
      · exact h1 _ hn ⟨u, v, e⟩
      · refine h1 n hn ⟨u, '\'' :: v, ?_⟩
        rw [e, String.toList_append]
        simp
    · exact h2 _ hk e
  | error e =>
    unfold parse at h
    split at h
    · cases h
    · split at h
      · cases h
      · exact h ▸ rfl

/-- Names in the middle of file names meet the hypotheses. -/
example : parse "FES2014_load_M2.nc" = .ok "m2" ∧ NoName "FES2014_load" ∧ Separator '_' ∧
    "LAMBDA2".toLower ∈ names ∧ parse "h_lambda2_x.nc.gz" = .ok "lambda2" := by decide +kernel

/-- Refuted: not every constituent of the table of Doodson coefficients is recognised; some are
refused. -/
theorem C60_refused_false : ∀ n ∈ ["sta", "mst", "msm", "mo3", "mq"],
    (n ∈ Coef.table.map Prod.fst) ∧ parse n = .error .valueError := by decide +kernel

/-- Refuted: others are taken for another constituent of the table. -/
theorem C60_confused_false : ∀ m ∈ [("m10", "m1"), ("m12", "m1"), ("2mk3", "mk3"), ("m1a", "m1"),
      ("l2a", "l2"), ("no1", "o1"), ("zeta2", "eta2"), ("s10", "s1"), ("msn2", "n2")],
    (m.1 ∈ Coef.table.map Prod.fst) ∧ (m.2 ∈ Coef.table.map Prod.fst) ∧
      parse m.1 = .ok m.2 := by decide +kernel

/-- What `parse_file` gives for a file name. -/
theorem C60_file (name c : String) : (∃ r, parseFile name r = .ok (some c)) ↔ parse name = .ok c := by
  unfold parseFile
  cases parse name with
  | ok d => simp
  | error e => simp

end Verif.Parse
