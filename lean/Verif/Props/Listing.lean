import Verif.Model.Listing
import Verif.Spec.Listing
import Verif.Lemmas.Py
import Mathlib.Tactic.Tauto
import Mathlib.Data.List.Induction
/-!
C87: the models that can be selected by name and the lists of models.
-/
namespace Verif.Listing
open Verif Verif.Spec

variable {E V : Type}

/-- An object has each key once. -/
def Distinct (d : Dict V) : Prop := (d.map Prod.fst).Nodup

theorem keys_put (k : String) (v : V) (d : Dict V) (q : String) :
    q ∈ (put k v d).map Prod.fst ↔ q = k ∨ q ∈ d.map Prod.fst := by
  induction d with
  | nil => simp [put]
  | cons p d ih =>
    rw [put]
    split
    · next h => simp [h]
    · rw [List.map_cons, List.mem_cons, ih, List.map_cons, List.mem_cons]
      tauto

theorem distinct_put (k : String) (v : V) (d : Dict V) (h : Distinct d) : Distinct (put k v d) := by
  induction d with
  | nil => simp [put, Distinct]
  | cons p d ih =>
    rw [Distinct, List.map_cons, List.nodup_cons] at h
    rw [put]
    split
    · next e => rw [Distinct, List.map_cons, List.nodup_cons, ← e]; exact h
    · next e =>
      rw [Distinct, List.map_cons, List.nodup_cons, keys_put]
      exact ⟨fun c => c.elim e h.1, ih h.2⟩

theorem lookup_put (k : String) (v : V) (d : Dict V) (q : String) :
    (put k v d).lookup q = if q = k then some v else d.lookup q := by
  induction d with
  | nil =>
    by_cases hq : q = k
    · simp [put, List.lookup, hq]
    · simp [put, List.lookup, hq, beq_false_of_ne hq]
  | cons p d ih =>
    obtain ⟨a, b⟩ := p
    rw [put]
    by_cases e : a = k
    · subst e
      by_cases hq : q = a
      · simp [List.lookup, hq]
      · simp [List.lookup, hq, beq_false_of_ne hq]
    · rw [if_neg e]
      by_cases hq : q = a
      · subst hq
        simp [List.lookup, e]
      · simp [List.lookup, beq_false_of_ne hq, ih]

theorem lookup_mem {d : Dict V} {k : String} {v : V} (h : d.lookup k = some v) : (k, v) ∈ d := by
  induction d with
  | nil => simp at h
  | cons p d ih =>
    obtain ⟨a, b⟩ := p
    by_cases e : k = a
    · subst e
      simp at h
      simp [h]
    · rw [List.lookup, beq_false_of_ne e] at h
      exact List.mem_cons_of_mem _ (ih h)

theorem lookup_of_mem {d : Dict V} (hd : Distinct d) {k : String} {v : V} (h : (k, v) ∈ d) :
    d.lookup k = some v := by
  induction d with
  | nil => simp at h
  | cons p d ih =>
    obtain ⟨a, b⟩ := p
    rw [Distinct, List.map_cons, List.nodup_cons] at hd
    rcases List.mem_cons.1 h with e | e
    · obtain ⟨rfl, rfl⟩ := Prod.mk.inj e
      simp
    · have : k ≠ a := fun c => hd.1 (c ▸ List.mem_map.2 ⟨_, e, rfl⟩)
      rw [List.lookup, beq_false_of_ne this]
      exact ih hd.2 e

theorem lookup_none {d : Dict V} {k : String} : d.lookup k = none ↔ ∀ v, (k, v) ∉ d := by
  constructor
  · intro h v hv
    induction d with
    | nil => simp at hv
    | cons p d ih =>
      obtain ⟨a, b⟩ := p
      by_cases e : k = a
      · subst e; simp at h
      · rw [List.lookup, beq_false_of_ne e] at h
        rcases List.mem_cons.1 hv with c | c
        · exact e (Prod.mk.inj c).1
        · exact ih h c
  · intro h
    cases e : d.lookup k with
    | none => rfl
    | some v => exact absurd (lookup_mem e) (h v)

theorem lookup_update (other d : Dict V) (ho : Distinct other) (q : String) :
    (update d other).lookup q = (other.lookup q).or (d.lookup q) := by
  induction other generalizing d with
  | nil => simp [update]
  | cons p other ih =>
    obtain ⟨a, b⟩ := p
    rw [Distinct, List.map_cons, List.nodup_cons] at ho
    have h := ih (put a b d) ho.2
    rw [update, List.foldl_cons]
    rw [update] at h
    rw [h, lookup_put]
    by_cases e : q = a
    · subst e
      have hn : other.lookup q = none := lookup_none.2 fun v hv => ho.1 (List.mem_map.2 ⟨_, hv, rfl⟩)
      simp [hn]
    · rw [if_neg e]
      simp only [List.lookup, beq_false_of_ne e]

theorem keys_update (other d : Dict V) (q : String) :
    q ∈ (update d other).map Prod.fst ↔ q ∈ other.map Prod.fst ∨ q ∈ d.map Prod.fst := by
  induction other generalizing d with
  | nil => simp [update]
  | cons p other ih =>
    have h := ih (put p.1 p.2 d)
    rw [update, List.foldl_cons]
    rw [update] at h
    rw [h, keys_put, List.map_cons, List.mem_cons]
    tauto

theorem keys_foldl (extra : List (Dict (Dict E))) (package : Dict (Dict E)) (q : String) :
    q ∈ (extra.foldl update package).map Prod.fst ↔
      q ∈ package.map Prod.fst ∨ ∃ f ∈ extra, q ∈ f.map Prod.fst := by
  induction extra generalizing package with
  | nil => simp
  | cons f extra ih =>
    rw [List.foldl_cons, ih, keys_update]
    simp only [List.mem_cons, exists_eq_or_imp]
    tauto

/-- What the files say about a section. -/
theorem lookup_foldl (extra : List (Dict (Dict E))) (package : Dict (Dict E))
    (hp : Distinct package) (he : ∀ f ∈ extra, Distinct f) (q : String) (m : Dict E) :
    (extra.foldl update package).lookup q = some m ↔ LastSection (package :: extra) q m := by
  induction extra using List.reverseRecOn with
  | nil =>
    rw [List.foldl_nil]
    constructor
    · intro h
      exact ⟨[], package, [], rfl, lookup_mem h, by simp⟩
    · rintro ⟨b, f, a, e, hf, -⟩
      rcases List.cons_eq_append_iff.1 e with ⟨rfl, e⟩ | ⟨as, rfl, e⟩
      · obtain ⟨rfl, rfl⟩ := List.cons.inj e
        exact lookup_of_mem hp hf
      · simp at e
  | append_singleton extra g ih =>
    have ih := ih fun f hf => he f (List.mem_append_left _ hf)
    have hg := he g (by simp)
    rw [List.foldl_append, List.foldl_cons, List.foldl_nil, lookup_update _ _ hg]
    cases e : g.lookup q with
    | some w =>
      rw [Option.some_or]
      constructor
      · intro h
        obtain rfl := Option.some.inj h
        exact ⟨package :: extra, g, [], by simp, lookup_mem e, by simp⟩
      · rintro ⟨b, f, a, h, hf, ha⟩
        rcases List.eq_nil_or_concat a with rfl | ⟨a', x, rfl⟩
        · have := List.append_inj_right' (s₁ := package :: extra) (t₁ := [g]) (s₂ := b) (t₂ := [f])
            (by simpa using h) rfl
          obtain rfl := (List.cons.inj this).1
          rw [← e]
          exact lookup_of_mem hg hf
        · have h' : (package :: extra) ++ [g] = (b ++ f :: a') ++ [x] := by simpa using h
          have := List.append_inj_right' h' rfl
          obtain rfl := (List.cons.inj this).1
          exact absurd (lookup_mem e) (ha g (by simp) w)
    | none =>
      rw [Option.none_or, ih]
      constructor
      · rintro ⟨b, f, a, h, hf, ha⟩
        refine ⟨b, f, a ++ [g], ?_, hf, ?_⟩
        · rw [← List.cons_append, h]; simp
        · intro x hx
          rcases List.mem_append.1 hx with hx | hx
          · exact ha x hx
          · rw [List.mem_singleton] at hx
            subst hx
            exact lookup_none.1 e
      · rintro ⟨b, f, a, h, hf, ha⟩
        rcases List.eq_nil_or_concat a with rfl | ⟨a', x, rfl⟩
        · have := List.append_inj_right' (s₁ := package :: extra) (t₁ := [g]) (s₂ := b) (t₂ := [f])
            (by simpa using h) rfl
          obtain rfl := (List.cons.inj this).1
          exact absurd hf (lookup_none.1 e m)
        · have h' : (package :: extra) ++ [g] = (b ++ f :: a') ++ [x] := by simpa using h
          exact ⟨b, f, a', List.append_inj_left' h' rfl, hf, fun y hy => ha y (by simp [hy])⟩

/-- The two sections of a database. -/
def sectionOf (currents : Bool) : String := if currents then "current" else "elevation"

/-- Files with the two sections only, each once, each with every model once; the file of the package
has both. -/
structure Files (package : Dict (Dict E)) (extra : List (Dict (Dict E))) : Prop where
  distinct : ∀ f ∈ package :: extra, Distinct f
  models : ∀ f ∈ package :: extra, ∀ s d, (s, d) ∈ f → Distinct d
  sections : ∀ f ∈ package :: extra, ∀ s d, (s, d) ∈ f → s = "current" ∨ s = "elevation"
  both : ∀ c, ∃ d, (sectionOf c, d) ∈ package

theorem load_files {package : Dict (Dict E)} {extra : List (Dict (Dict E))}
    (h : Files package extra) : ∃ c e, LastSection (package :: extra) "current" c ∧
      LastSection (package :: extra) "elevation" e ∧ load package extra = .ok ⟨c, e⟩ := by
  have hp := h.distinct package (by simp)
  have he : ∀ f ∈ extra, Distinct f := fun f hf => h.distinct f (by simp [hf])
  have some_of : ∀ c, ∃ d, (extra.foldl update package).lookup (sectionOf c) = some d := by
    intro c
    cases e : (extra.foldl update package).lookup (sectionOf c) with
    | some d => exact ⟨d, rfl⟩
    | none =>
      obtain ⟨d, hd⟩ := h.both c
      have : sectionOf c ∈ (extra.foldl update package).map Prod.fst :=
        (keys_foldl _ _ _).2 (Or.inl (List.mem_map_of_mem hd))
      obtain ⟨⟨s, d'⟩, hm, rfl⟩ := List.mem_map.1 this
      exact absurd hm (lookup_none.1 e d')
  obtain ⟨c, hc⟩ := some_of true
  obtain ⟨e, hel⟩ := some_of false
  have hc : (extra.foldl update package).lookup "current" = some c := hc
  have hel : (extra.foldl update package).lookup "elevation" = some e := hel
  refine ⟨c, e, (lookup_foldl _ _ hp he _ _).1 hc, (lookup_foldl _ _ hp he _ _).1 hel, ?_⟩
  have hall : (extra.foldl update package).all
      (fun p => decide (p.1 = "current" ∨ p.1 = "elevation")) = true := by
    rw [List.all_eq_true]
    rintro ⟨s, d⟩ hm
    have hs : s ∈ (extra.foldl update package).map Prod.fst := List.mem_map_of_mem hm
    have : ∃ f ∈ package :: extra, s ∈ f.map Prod.fst := by
      rcases (keys_foldl _ _ _).1 hs with k | ⟨f, hf, k⟩
      · exact ⟨package, by simp, k⟩
      · exact ⟨f, by simp [hf], k⟩
    obtain ⟨f, hf, k⟩ := this
    obtain ⟨⟨s', d'⟩, hm', rfl⟩ := List.mem_map.1 k
    exact decide_eq_true (h.sections f hf _ _ hm')
  rw [load, build, if_pos hall, hc, hel]

theorem last_unique {files : List (Dict (Dict E))} (hd : ∀ f ∈ files, Distinct f) {s : String}
    {m n : Dict E} (hm : LastSection files s m) (hn : LastSection files s n) : m = n := by
  cases files with
  | nil => obtain ⟨b, f, a, e, -⟩ := hm; simp at e
  | cons p extra =>
    have hp := hd p (by simp)
    have he : ∀ f ∈ extra, Distinct f := fun f hf => hd f (by simp [hf])
    have h1 := (lookup_foldl _ _ hp he _ _).2 hm
    have h2 := (lookup_foldl _ _ hp he _ _).2 hn
    exact Option.some.inj (h1.symm.trans h2)

/-- C87: a model is found by its name, for elevations or for currents, exactly when the last of the
files that have that section has it, and then its entry there is what is used; any other name is a
`ValueError`. -/
theorem C87_select {package : Dict (Dict E)} {extra : List (Dict (Dict E))}
    (h : Files package extra) (currents : Bool) (models : Dict E)
    (hl : LastSection (package :: extra) (sectionOf currents) models) (m : String) :
    (∀ e, select package extra currents m = .ok e ↔ (m, e) ∈ models) ∧
    ((∀ e, (m, e) ∉ models) → select package extra currents m = .error .valueError) := by
  obtain ⟨c, el, hc, he, hload⟩ := load_files h
  have hm : (if currents then (⟨c, el⟩ : DataBase E).current else (⟨c, el⟩ : DataBase E).elevation) =
      models := by
    cases currents with
    | true => exact last_unique h.distinct hc hl
    | false => exact last_unique h.distinct he hl
  have hs : select package extra currents m =
      match models.lookup m with | some e => .ok e | none => .error .valueError := by
    rw [select, hload, ← hm]
    rfl
  have hdm : Distinct models := by
    obtain ⟨b, f, a, e, hf, -⟩ := hl
    exact h.models f (by rw [e]; simp) _ _ hf
  constructor
  · intro e
    rw [hs]
    constructor
    · intro k
      split at k
      · next x hx => exact (Except.ok.inj k) ▸ lookup_mem hx
      · cases k
    · intro k
      rw [lookup_of_mem hdm k]
  · intro k
    rw [hs, lookup_none.2 k]

/-- C87: a section that no additional database has stays that of the package. -/
theorem C87_kept {package : Dict (Dict E)} {extra : List (Dict (Dict E))}
    (h : Files package extra) (currents : Bool) (models : Dict E)
    (hp : (sectionOf currents, models) ∈ package)
    (hn : ∀ f ∈ extra, ∀ d, (sectionOf currents, d) ∉ f) (m : String) (e : E) :
    select package extra currents m = .ok e ↔ (m, e) ∈ models :=
  (C87_select h currents models ⟨[], package, extra, rfl, hp, hn⟩ m).1 e

/-- The models of a section that some file has. -/
def Listed (files : List (Dict (Dict E))) (s m : String) : Prop :=
  ∃ f ∈ files, ∃ d, (s, d) ∈ f ∧ ∃ e, (m, e) ∈ d

/-- C87 in full would have every model of every file available.  It holds when the last file with
the section has all of them. -/
theorem C87_available_partial {package : Dict (Dict E)} {extra : List (Dict (Dict E))}
    (h : Files package extra) (currents : Bool) (models : Dict E)
    (hl : LastSection (package :: extra) (sectionOf currents) models)
    (hall : ∀ m, Listed (package :: extra) (sectionOf currents) m → ∃ e, (m, e) ∈ models)
    (m : String) :
    (∃ e, select package extra currents m = .ok e) ↔
      Listed (package :: extra) (sectionOf currents) m := by
  obtain ⟨h1, -⟩ := C87_select h currents models hl m
  constructor
  · rintro ⟨e, he⟩
    obtain ⟨b, f, a, ef, hf, -⟩ := hl
    exact ⟨f, by rw [ef]; simp, models, hf, e, (h1 e).1 he⟩
  · intro k
    obtain ⟨e, he⟩ := hall m k
    exact ⟨e, (h1 e).2 he⟩

/-- `database.json` as a file. -/
def packageFile : Dict (Dict Info) :=
  [("current", shipped.current), ("elevation", shipped.elevation)]

theorem package_files : Files packageFile [] where
  distinct := by
    intro f hf
    rw [List.mem_singleton] at hf
    subst hf
    unfold Distinct packageFile
    simp
  models := by
    intro f hf s d hd
    rw [List.mem_singleton] at hf
    subst hf
    have : Distinct shipped.current ∧ Distinct shipped.elevation := by
      unfold Distinct; decide +kernel
    simp only [packageFile, List.mem_cons, Prod.mk.injEq, List.not_mem_nil, or_false] at hd
    rcases hd with ⟨-, rfl⟩ | ⟨-, rfl⟩
    · exact this.1
    · exact this.2
  sections := by
    intro f hf s d hd
    rw [List.mem_singleton] at hf
    subst hf
    simp only [packageFile, List.mem_cons, Prod.mk.injEq, List.not_mem_nil, or_false] at hd
    tauto
  both := by
    intro c
    cases c with
    | true => exact ⟨_, List.mem_cons_self ..⟩
    | false => exact ⟨_, List.mem_cons_of_mem _ (List.mem_cons_self ..)⟩

/-- A database with one elevation model of a user. -/
def oneMore : Dict (Dict Info) := [("elevation", [("mine", ⟨"OTIS", true, some "tide_ocean"⟩)])]

theorem oneMore_files : Files packageFile [oneMore] where
  distinct := by
    intro f hf
    rcases List.mem_cons.1 hf with rfl | hf
    · exact package_files.distinct _ (by simp)
    · rw [List.mem_singleton] at hf
      subst hf
      simp [Distinct, oneMore]
  models := by
    intro f hf s d hd
    rcases List.mem_cons.1 hf with rfl | hf
    · exact package_files.models _ (by simp) s d hd
    · rw [List.mem_singleton] at hf
      subst hf
      simp only [oneMore, List.mem_singleton, Prod.mk.injEq] at hd
      rw [hd.2]
      simp [Distinct]
  sections := by
    intro f hf s d hd
    rcases List.mem_cons.1 hf with rfl | hf
    · exact package_files.sections _ (by simp) s d hd
    · rw [List.mem_singleton] at hf
      subst hf
      simp only [oneMore, List.mem_singleton, Prod.mk.injEq] at hd
      exact Or.inr hd.1
  both := package_files.both

/-- C87 is false in general: an additional database with one elevation model takes away all those
of the package. -/
theorem C87_available_false :
    (∃ e, select packageFile [] false "GOT4.10" = .ok e) ∧
    (∃ e, select packageFile [oneMore] false "mine" = .ok e) ∧
    ∀ m, m ≠ "mine" → select packageFile [oneMore] false m = .error .valueError := by
  refine ⟨?_, ⟨_, rfl⟩, ?_⟩
  · obtain ⟨h1, -⟩ := C87_select package_files false shipped.elevation
      ⟨[], packageFile, [], rfl, by simp [packageFile, valueOf, sectionOf], by simp⟩ "GOT4.10"
    have : ∃ e, ("GOT4.10", e) ∈ shipped.elevation := by
      have : "GOT4.10" ∈ shipped.elevation.map Prod.fst := by decide +kernel
      obtain ⟨⟨a, b⟩, hm, rfl⟩ := List.mem_map.1 this
      exact ⟨b, hm⟩
    obtain ⟨e, he⟩ := this
    exact ⟨e, (h1 e).2 he⟩
  · intro m hm
    refine (C87_select oneMore_files false [("mine", ⟨"OTIS", true, some "tide_ocean"⟩)]
      ⟨[packageFile], oneMore, [], rfl, by simp [oneMore, valueOf, sectionOf], by simp⟩ m).2 ?_
    intro e he
    simp only [List.mem_singleton, Prod.mk.injEq] at he
    exact hm he.1

/-- C87: a file with any other section raises `TypeError`, whatever is asked for. -/
theorem C87_sections {package : Dict (Dict E)} {extra : List (Dict (Dict E))}
    (h : ∃ f ∈ package :: extra, ∃ s d, (s, d) ∈ f ∧ s ≠ "current" ∧ s ≠ "elevation")
    (currents : Bool) (m : String) : select package extra currents m = .error .typeError := by
  obtain ⟨f, hf, s, d, hd, h1, h2⟩ := h
  have hk : s ∈ (extra.foldl update package).map Prod.fst := by
    rw [keys_foldl]
    rcases List.mem_cons.1 hf with rfl | hf
    · exact Or.inl (List.mem_map_of_mem hd)
    · exact Or.inr ⟨f, hf, List.mem_map_of_mem hd⟩
  obtain ⟨⟨s', d'⟩, hm, rfl⟩ := List.mem_map.1 hk
  have hall : ¬ (extra.foldl update package).all
      (fun p => decide (p.1 = "current" ∨ p.1 = "elevation")) = true := by
    rw [List.all_eq_true]
    intro k
    have := of_decide_eq_true (k _ hm)
    tauto
  rw [select, load, build, if_neg hall]
  rfl

/-! ### Lists -/

theorem lt_of_not_lt {a b : String} (h : ¬ b < a) (hne : a ≠ b) : a < b := by
  have h1 := String.not_lt.1 h
  by_contra c
  exact hne (String.le_antisymm h1 (String.not_lt.1 c))

theorem sortedSet_spec (l : List String) : ListOf (· ∈ l) (sortedSet l) := by
  induction l with
  | nil => exact ⟨List.Pairwise.nil, fun _ => Iff.rfl⟩
  | cons a l ih =>
    obtain ⟨hs, hm⟩ := ih
    rw [sortedSet, List.foldr_cons]
    change ListOf (fun m => m ∈ a :: l) (if a ∈ sortedSet l then sortedSet l else
      (sortedSet l).takeWhile (fun b => b < a) ++ a :: (sortedSet l).dropWhile (fun b => b < a))
    change ∀ m, m ∈ sortedSet l ↔ m ∈ l at hm
    generalize sortedSet l = acc at hs hm
    split
    · next h =>
      refine ⟨hs, fun m => ?_⟩
      change m ∈ acc ↔ m ∈ a :: l
      rw [hm, List.mem_cons]
      constructor
      · exact Or.inr
      · rintro (rfl | k)
        · exact (hm m).1 h
        · exact k
    · next h =>
      have key : ∀ acc : List String, acc.Pairwise (· < ·) → a ∉ acc →
          (acc.takeWhile (fun b => b < a) ++ a :: acc.dropWhile (fun b => b < a)).Pairwise
            (· < ·) ∧
          ∀ m, m ∈ acc.takeWhile (fun b => b < a) ++ a :: acc.dropWhile (fun b => b < a) ↔
            m = a ∨ m ∈ acc := by
        intro acc
        induction acc with
        | nil => intro _ _; simp
        | cons b acc ih =>
          intro hs hn
          rw [List.pairwise_cons] at hs
          obtain ⟨i1, i2⟩ := ih hs.2 fun c => hn (List.mem_cons_of_mem _ c)
          by_cases hb : b < a
          · rw [List.takeWhile_cons_of_pos (by simpa using hb),
              List.dropWhile_cons_of_pos (by simpa using hb), List.cons_append]
            constructor
            · rw [List.pairwise_cons]
              refine ⟨fun m k => ?_, i1⟩
              rcases (i2 m).1 k with rfl | k
              · exact hb
              · exact hs.1 m k
            · intro m
              rw [List.mem_cons, i2, List.mem_cons]
              tauto
          · rw [List.takeWhile_cons_of_neg (by simpa using hb),
              List.dropWhile_cons_of_neg (by simpa using hb), List.nil_append]
            have hab : a < b := lt_of_not_lt hb fun c => hn (c ▸ List.mem_cons_self ..)
            constructor
            · rw [List.pairwise_cons, List.pairwise_cons]
              refine ⟨fun m k => ?_, hs⟩
              rcases List.mem_cons.1 k with rfl | k
              · exact hab
              · exact String.lt_trans hab (hs.1 m k)
            · intro m; simp
      obtain ⟨k1, k2⟩ := key acc hs h
      refine ⟨k1, fun m => ?_⟩
      change _ ↔ m ∈ a :: l
      rw [k2, hm, List.mem_cons]

/-- C87: the lists by format are in order and have exactly the elevation models with that format,
whatever the database. -/
theorem C87_formats (fs : List String) (d : DataBase Info) :
    ListOf (fun m => ∃ i, (m, i) ∈ d.elevation ∧ i.format ∈ fs) (byFormat fs d) := by
  obtain ⟨h1, h2⟩ := sortedSet_spec ((d.elevation.filter (fun p => p.2.format ∈ fs)).map Prod.fst)
  refine ⟨h1, fun m => (h2 m).trans ?_⟩
  simp only [List.mem_map, List.mem_filter, decide_eq_true_eq, Prod.exists, exists_and_right,
    exists_eq_right]

/-- C87: the list of formats has exactly the formats of the models of elevations and of currents. -/
theorem C87_all_formats (d : DataBase Info) :
    ListOf (fun s => ∃ m i, ((m, i) ∈ d.elevation ∨ (m, i) ∈ d.current) ∧ i.format = s) (formats d) := by
  obtain ⟨h1, h2⟩ := sortedSet_spec ((d.current ++ d.elevation).map (fun p => p.2.format))
  refine ⟨h1, fun s => (h2 s).trans ?_⟩
  simp only [List.mem_map, List.mem_append, Prod.exists]
  constructor
  · rintro ⟨m, i, h | h, rfl⟩
    · exact ⟨m, i, .inr h, rfl⟩
    · exact ⟨m, i, .inl h, rfl⟩
  · rintro ⟨m, i, h | h, rfl⟩
    · exact ⟨m, i, .inr h, rfl⟩
    · exact ⟨m, i, .inl h, rfl⟩

/-- C87: the list of currents has every model of currents. -/
theorem C87_currents (d : DataBase Info) :
    ListOf (fun m => ∃ i, (m, i) ∈ d.current) (oceanCurrent d) := by
  obtain ⟨h1, h2⟩ := sortedSet_spec (d.current.map Prod.fst)
  refine ⟨h1, fun m => (h2 m).trans ?_⟩
  simp only [List.mem_map, Prod.exists, exists_and_right, exists_eq_right]

theorem keepNames_spec (test : Info → Except PyErr Bool) (P : Info → Prop) (d : Dict Info)
    (ht : ∀ m i, (m, i) ∈ d → ∃ b, test i = .ok b ∧ (b = true ↔ P i)) :
    ∃ l, keepNames test d = .ok l ∧ ∀ m, m ∈ l ↔ ∃ i, (m, i) ∈ d ∧ P i := by
  induction d with
  | nil => exact ⟨[], rfl, by simp⟩
  | cons p d ih =>
    obtain ⟨a, j⟩ := p
    obtain ⟨l, hl, hm⟩ := ih fun m i h => ht m i (List.mem_cons_of_mem _ h)
    obtain ⟨b, hb, hP⟩ := ht a j (List.mem_cons_self ..)
    refine ⟨_, by rw [keepNames, hb, ok_bind, hl, ok_bind], fun m => ?_⟩
    cases b with
    | true =>
      have hj := hP.1 rfl
      simp only [if_true, List.mem_cons, hm, Prod.mk.injEq]
      constructor
      · rintro (rfl | ⟨i, hi, hp⟩)
        · exact ⟨j, Or.inl ⟨rfl, rfl⟩, hj⟩
        · exact ⟨i, Or.inr hi, hp⟩
      · rintro ⟨i, ⟨rfl, rfl⟩ | hi, hp⟩
        · exact Or.inl rfl
        · exact Or.inr ⟨i, hi, hp⟩
    | false =>
      have hj : ¬ P j := fun c => by simpa using hP.2 c
      simp only [Bool.false_eq_true, if_false, hm, List.mem_cons, Prod.mk.injEq]
      constructor
      · rintro ⟨i, hi, hp⟩
        exact ⟨i, Or.inr hi, hp⟩
      · rintro ⟨i, ⟨rfl, rfl⟩ | hi, hp⟩
        · exact absurd hp hj
        · exact ⟨i, hi, hp⟩

/-- Every elevation model has the type of elevations and a variable. -/
def Complete (d : DataBase Info) : Prop :=
  ∀ m i, (m, i) ∈ d.elevation → i.z = true ∧ ∃ v, i.var = some v

theorem hasVariable_ok {i : Info} {w : String} (hz : i.z = true) (hv : i.var = some w)
    (v : String) : hasVariable v i = .ok (decide (w = v)) := by
  rw [hasVariable, if_pos hz, hv]

/-- C87: in a database where every elevation model has a variable, the list of ocean tides has those
of ocean tides and long-period equilibrium tides, and the list of load tides those of load tides. -/
theorem C87_variables (d : DataBase Info) (h : Complete d) :
    (∃ l, oceanElevation d = .ok l ∧ ListOf (fun m => ∃ i, (m, i) ∈ d.elevation ∧
      (i.var = some "tide_ocean" ∨ i.var = some "tide_lpe")) l) ∧
    ∃ l, loadElevation d = .ok l ∧ ListOf (fun m => ∃ i, (m, i) ∈ d.elevation ∧
      i.var = some "tide_load") l := by
  constructor
  · obtain ⟨l, hl, hm⟩ := keepNames_spec (fun i => do
        if (← hasVariable "tide_ocean" i) then .ok true else hasVariable "tide_lpe" i)
      (fun i => i.var = some "tide_ocean" ∨ i.var = some "tide_lpe") d.elevation (by
        intro m i hi
        obtain ⟨hz, w, hw⟩ := h m i hi
        refine ⟨decide (w = "tide_ocean") || decide (w = "tide_lpe"), ?_, ?_⟩
        · rw [hasVariable_ok hz hw, hasVariable_ok hz hw, ok_bind]
          by_cases e : w = "tide_ocean" <;> simp [e]
        · rw [hw]; simp)
    obtain ⟨s1, s2⟩ := sortedSet_spec l
    exact ⟨_, by rw [oceanElevation, hl, ok_bind], s1, fun m => (s2 m).trans (hm m)⟩
  · obtain ⟨l, hl, hm⟩ := keepNames_spec (hasVariable "tide_load")
      (fun i => i.var = some "tide_load") d.elevation (by
        intro m i hi
        obtain ⟨hz, w, hw⟩ := h m i hi
        refine ⟨_, hasVariable_ok hz hw _, ?_⟩
        rw [hw]; simp)
    obtain ⟨s1, s2⟩ := sortedSet_spec l
    exact ⟨_, by rw [loadElevation, hl, ok_bind], s1, fun m => (s2 m).trans (hm m)⟩

/-- The database of the package: every elevation model has one of the three variables and one of the
seven formats. -/
theorem shipped_complete : Complete shipped ∧ ∀ m i, (m, i) ∈ shipped.elevation →
    (i.var = some "tide_ocean" ∨ i.var = some "tide_lpe" ∨ i.var = some "tide_load") ∧
    (i.format ∈ ["OTIS", "ATLAS-compact", "TMD3", "ATLAS-netcdf", "GOT-ascii", "GOT-netcdf",
      "FES-netcdf"]) := by
  have h : ∀ p ∈ shipped.elevation, p.2.z = true ∧
      (p.2.var = some "tide_ocean" ∨ p.2.var = some "tide_lpe" ∨ p.2.var = some "tide_load") ∧
      (p.2.format ∈ ["OTIS", "ATLAS-compact", "TMD3", "ATLAS-netcdf", "GOT-ascii", "GOT-netcdf",
        "FES-netcdf"]) := by decide +kernel
  refine ⟨fun m i hi => ⟨(h _ hi).1, ?_⟩, fun m i hi => (h _ hi).2⟩
  rcases (h _ hi).2.1 with e | e | e <;> exact ⟨_, e⟩

/-- C87: of the models of the package every elevation model is in exactly one of the lists of ocean
and load tides and in exactly one of the six lists by format, and can be selected. -/
theorem C87_package : ∃ ocean load, oceanElevation shipped = .ok ocean ∧
    loadElevation shipped = .ok load ∧
    (∀ m, m ∈ ocean ++ load ↔ ∃ e, select packageFile [] false m = .ok e) ∧
    (∀ m ∈ ocean, m ∉ load) ∧
    (∀ m, m ∈ oceanCurrent shipped ↔ ∃ e, select packageFile [] true m = .ok e) ∧
    ∀ m, m ∈ ocean ++ load →
      ([listOTIS, listATLASCompact, listTMD3, listATLAS, listGOT, listFES].filter
        (fun l => m ∈ l shipped)).length = 1 := by
  obtain ⟨hc, hv⟩ := shipped_complete
  obtain ⟨⟨o, ho, o1, o2⟩, l, hl, l1, l2⟩ := C87_variables shipped hc
  have sel := fun c models hl m => (C87_select package_files c models hl m).1
  have se := sel false shipped.elevation
    ⟨[], packageFile, [], rfl, by simp [packageFile, valueOf, sectionOf], by simp⟩
  have sc := sel true shipped.current
    ⟨[], packageFile, [], rfl, by simp [packageFile, valueOf, sectionOf], by simp⟩
  have hd : Distinct shipped.elevation :=
    package_files.models packageFile (by simp) "elevation" _ (by simp [packageFile])
  have uniq : ∀ m i j, (m, i) ∈ shipped.elevation → (m, j) ∈ shipped.elevation → i = j := by
    intro m i j hi hj
    exact Option.some.inj ((lookup_of_mem hd hi).symm.trans (lookup_of_mem hd hj))
  have all : ∀ m, m ∈ o ++ l ↔ ∃ i, (m, i) ∈ shipped.elevation := by
    intro m
    rw [List.mem_append, o2, l2]
    constructor
    · rintro (⟨i, hi, -⟩ | ⟨i, hi, -⟩) <;> exact ⟨i, hi⟩
    · rintro ⟨i, hi⟩
      rcases (hv m i hi).1 with e | e | e
      · exact Or.inl ⟨i, hi, Or.inl e⟩
      · exact Or.inl ⟨i, hi, Or.inr e⟩
      · exact Or.inr ⟨i, hi, e⟩
  refine ⟨o, l, ho, hl, ?_, ?_, ?_, ?_⟩
  · intro m
    rw [all]
    exact exists_congr fun e => (se m e).symm
  · intro m hm hm'
    obtain ⟨i, hi, e⟩ := (o2 m).1 hm
    obtain ⟨j, hj, e'⟩ := (l2 m).1 hm'
    rw [uniq m i j hi hj, e'] at e
    simp at e
  · intro m
    rw [(C87_currents shipped).2 m]
    exact exists_congr fun e => (sc m e).symm
  · intro m hm
    obtain ⟨i, hi⟩ := (all m).1 hm
    have mem : ∀ fs, m ∈ byFormat fs shipped ↔ i.format ∈ fs := by
      intro fs
      rw [(C87_formats fs shipped).2 m]
      constructor
      · rintro ⟨j, hj, k⟩
        rwa [uniq m i j hi hj]
      · exact fun k => ⟨i, hi, k⟩
    have hf := (hv m i hi).2
    simp only [listOTIS, listATLASCompact, listTMD3, listATLAS, listGOT, listFES, mem,
      List.filter_cons, List.filter_nil]
    simp only [List.mem_cons, List.not_mem_nil, or_false] at hf ⊢
    rcases hf with e | e | e | e | e | e | e <;> rw [e] <;> decide

/-- Files that meet the hypotheses: one more database, with all the elevation models of the package
and one of a user. -/
example : Files ([("current", []), ("elevation", [("a", 1)])] : Dict (Dict ℕ))
    [[("elevation", [("a", 2), ("b", 3)])]] ∧
    LastSection ([("current", []), ("elevation", [("a", 1)])] ::
      [[("elevation", [("a", 2), ("b", 3)])]] : List (Dict (Dict ℕ))) (sectionOf false)
      [("a", 2), ("b", 3)] := by
  refine ⟨⟨?_, ?_, ?_, ?_⟩, [_], _, [], rfl, by simp [valueOf, sectionOf], by simp⟩
  · unfold Distinct; decide
  · intro f hf s d hd
    simp only [List.mem_cons, List.not_mem_nil, or_false] at hf
    rcases hf with rfl | rfl
    · simp only [List.mem_cons, Prod.mk.injEq, List.not_mem_nil, or_false] at hd
      rcases hd with ⟨-, rfl⟩ | ⟨-, rfl⟩ <;> simp [Distinct]
    · simp only [List.mem_cons, Prod.mk.injEq, List.not_mem_nil, or_false] at hd
      obtain ⟨-, rfl⟩ := hd
      simp [Distinct]
  · intro f hf s d hd
    simp only [List.mem_cons, List.not_mem_nil, or_false] at hf
    rcases hf with rfl | rfl
    · simp only [List.mem_cons, Prod.mk.injEq, List.not_mem_nil, or_false] at hd
      tauto
    · simp only [List.mem_cons, Prod.mk.injEq, List.not_mem_nil, or_false] at hd
      tauto
  · intro c
    cases c with
    | true => exact ⟨_, List.mem_cons_self ..⟩
    | false => exact ⟨_, List.mem_cons_of_mem _ (List.mem_cons_self ..)⟩

end Verif.Listing
