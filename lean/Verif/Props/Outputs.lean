import Verif.Model.Outputs
import Verif.Lemmas.Py
/-!
C123: where the programs write their results if no output file is named.  C124: the coordinate reference
system that the programs use for the points of a file.
-/
namespace Verif.Outputs
open Verif

/-! ### Names of files -/

theorem split_name (n : List Char) : (split n).1 ++ (split n).2 = n := by
  have h := List.takeWhile_append_dropWhile (p := fun c : Char => decide (c ≠ '.')) (l := n.reverse)
  have key : ∀ r, n.reverse.dropWhile (fun c : Char => decide (c ≠ '.')) = r →
      (split n).1 ++ (split n).2 = n := by
    intro r hr
    cases r with
    | nil => simp only [split, hr, List.append_nil]
    | cons a b =>
      have ha : a = '.' := by
        have := List.head?_dropWhile_not (fun c : Char => decide (c ≠ '.')) n.reverse
        rw [hr] at this
        simpa using this
      simp only [split, hr]
      split
      · exact List.append_nil _
      · rw [hr, ha] at h
        have := congrArg List.reverse h
        simpa using this
  exact key _ rfl

/-- A name is cut at its last dot or not at all; it is not if it has no dot, or only one, at its
beginning, or one at its end. -/
theorem split_cases (n : List Char) :
    (split n = (n, []) ∧ ('.' ∉ n ∨ (∃ a, n = '.' :: a ∧ '.' ∉ a) ∨ n.getLast? = some '.')) ∨
      ∃ b a, b ≠ [] ∧ a ≠ [] ∧ '.' ∉ a ∧ n = b ++ '.' :: a ∧ split n = (b, '.' :: a) := by
  have h := List.takeWhile_append_dropWhile (p := fun c : Char => decide (c ≠ '.')) (l := n.reverse)
  have hn : '.' ∉ n.reverse.takeWhile (fun c : Char => decide (c ≠ '.')) := by
    intro hm
    have := List.all_takeWhile (p := fun c : Char => decide (c ≠ '.')) (l := n.reverse)
    have := List.all_eq_true.1 this _ hm
    simp at this
  have key : ∀ t r, n.reverse.takeWhile (fun c : Char => decide (c ≠ '.')) = t →
      n.reverse.dropWhile (fun c : Char => decide (c ≠ '.')) = r →
      (split n = (n, []) ∧ ('.' ∉ n ∨ (∃ a, n = '.' :: a ∧ '.' ∉ a) ∨ n.getLast? = some '.')) ∨
      ∃ b a, b ≠ [] ∧ a ≠ [] ∧ '.' ∉ a ∧ n = b ++ '.' :: a ∧ split n = (b, '.' :: a) := by
    intro t r ht hr
    rw [ht, hr] at h
    rw [ht] at hn
    cases r with
    | nil =>
      left
      refine ⟨by simp only [split, hr], Or.inl ?_⟩
      intro hm
      rw [List.append_nil] at h
      rw [h] at hn
      exact hn (List.mem_reverse.2 hm)
    | cons c b =>
      have hc : c = '.' := by
        have := List.head?_dropWhile_not (fun c : Char => decide (c ≠ '.')) n.reverse
        rw [hr] at this
        simpa using this
      subst hc
      have e : n = b.reverse ++ '.' :: t.reverse := by
        have := congrArg List.reverse h
        simpa using this.symm
      by_cases hb : b = []
      · left
        refine ⟨by simp only [split, hr, hb, true_or, if_true], Or.inr (Or.inl ⟨t.reverse, ?_, ?_⟩)⟩
        · rw [e, hb]; rfl
        · simpa using hn
      · by_cases ha : t = []
        · left
          refine ⟨by simp only [split, hr, ht, ha, or_true, if_true], Or.inr (Or.inr ?_)⟩
          rw [e, ha]; simp
        · right
          refine ⟨b.reverse, t.reverse, by simpa using hb, by simpa using ha, by simpa using hn, e, ?_⟩
          simp only [split, hr, ht, hb, ha, or_self, if_false]
  exact key _ _ rfl rfl

theorem last_dot {b b' a a' : List Char} (h : b ++ '.' :: a = b' ++ '.' :: a') (ha : '.' ∉ a) (ha' : '.' ∉ a') :
    b = b' ∧ a = a' := by
  rcases List.append_eq_append_iff.1 h with ⟨c, e, f⟩ | ⟨c, e, f⟩
  · cases c with
    | nil => simp_all
    | cons x c =>
      simp only [List.cons_append, List.cons.injEq] at f
      exact absurd (f.2 ▸ List.mem_append_right _ (List.mem_cons_self ..)) ha
  · cases c with
    | nil => simp_all
    | cons x c =>
      simp only [List.cons_append, List.cons.injEq] at f
      exact absurd (f.2 ▸ List.mem_append_right _ (List.mem_cons_self ..)) ha'

/-- Texts with different ends, none an end of the other. -/
theorem ends {x y t u : List Char} (h : x ++ t = y ++ u) : t <:+ u ∨ u <:+ t :=
  List.suffix_or_suffix_of_suffix ⟨x, rfl⟩ ⟨y, h.symm⟩

/-! ### The runs with the models of the database -/

/-- What a run is about: a program, with the name of a model and the choice of flexure where it has
them. -/
inductive Run where
  | lpet | lpt | opt | set
  | currents (model : String)
  | elevations (model : String) (flexure : Bool)
deriving DecidableEq

/-- The run of a program with a model. -/
def runOf (p : Program) (model : String) (flexure : Bool) : Run :=
  match p with
  | .lpet => .lpet
  | .lpt => .lpt
  | .opt => .opt
  | .set => .set
  | .currents => .currents model
  | .elevations => .elevations model flexure

def Run.tag : Run → List Char
  | .lpet => Outputs.tag .lpet "" false
  | .lpt => Outputs.tag .lpt "" false
  | .opt => Outputs.tag .opt "" false
  | .set => Outputs.tag .set "" false
  | .currents m => Outputs.tag .currents m false
  | .elevations m f => Outputs.tag .elevations m f

theorem runOf_tag (p : Program) (m : String) (f : Bool) : (runOf p m f).tag = tag p m f := by
  cases p <;> rfl

/-- All runs with models of the database. -/
def runs : List Run :=
  [.lpet, .lpt, .opt, .set] ++ (Database.current.map fun e => .currents e.name) ++
    (Database.elevation.map fun e => .elevations e.name false) ++
    Database.elevation.map fun e => .elevations e.name true

/-- Whether one list is an end of another. -/
def isEnd (t u : List Char) : Bool := t.reverse.isPrefixOf u.reverse

theorem isEnd_iff (t u : List Char) : isEnd t u = true ↔ t <:+ u := by
  rw [isEnd, List.isPrefixOf_iff_prefix, List.reverse_prefix]

/-- The two runs of different programs of which one has a name that ends like that of the other. -/
def poles (r s : Run) : Bool := (r = .lpt && s = .opt) || (r = .opt && s = .lpt)

/-- What comes before the last dot of a text. -/
def beforeDot (t : List Char) : List Char := (t.reverse.dropWhile (· ≠ '.')).tail.reverse

set_option maxRecDepth 20000 in
theorem tags_apart : (runs.all fun r => runs.all fun s =>
    decide (r = s) || poles r s || !(isEnd r.tag s.tag)) = true := by decide +kernel

set_option maxRecDepth 20000 in
theorem tags_cut : (runs.all fun r => runs.all fun s =>
    !(r.tag.contains '.') || (!(isEnd (beforeDot r.tag) s.tag) && !(isEnd s.tag (beforeDot r.tag)))) = true := by
  decide +kernel

set_option maxRecDepth 20000 in
theorem tags_nonempty : (runs.all fun r => decide (r.tag ≠ [])) = true := by decide +kernel

theorem apart {r s : Run} (hr : r ∈ runs) (hs : s ∈ runs) (h : r ≠ s) (hp : poles r s = false) :
    ¬ r.tag <:+ s.tag := by
  have := List.all_eq_true.1 (List.all_eq_true.1 tags_apart r hr) s hs
  rw [← isEnd_iff]
  simpa [h, hp] using this

theorem beforeDot_eq {b a : List Char} (ha : '.' ∉ a) : beforeDot (b ++ '.' :: a) = b := by
  have h1 : (b ++ '.' :: a).reverse.dropWhile (· ≠ '.') = '.' :: b.reverse := by
    rw [List.reverse_append, List.reverse_cons, List.append_assoc,
      List.dropWhile_append_of_pos (fun x hx => by
        have : x ≠ '.' := fun e => ha (e ▸ List.mem_reverse.1 hx)
        simpa using this)]
    simp
  rw [beforeDot, h1]
  simp

theorem exists_last_dot {t : List Char} (h : '.' ∈ t) : ∃ b a, t = b ++ '.' :: a ∧ '.' ∉ a := by
  induction t with
  | nil => cases h
  | cons c t ih =>
    by_cases ht : '.' ∈ t
    · obtain ⟨b, a, e, ha⟩ := ih ht
      exact ⟨c :: b, a, by rw [e]; rfl, ha⟩
    · have : c = '.' := by
        rcases List.mem_cons.1 h with e | e
        · exact e.symm
        · exact absurd e ht
      exact ⟨[], t, by rw [this]; rfl, ht⟩

theorem poles_symm (r s : Run) : poles r s = poles s r := by
  simp only [poles, Bool.or_comm, Bool.and_comm]

/-- The case of an input without and another with a suffix. -/
theorem mixed {r s : Run} (hr : r ∈ runs) (hs : s ∈ runs) {n b a : List Char}
    (hn : '.' ∉ n ∨ ∃ c, n = '.' :: c ∧ '.' ∉ c) (ha : '.' ∉ a)
    (h : n ++ r.tag = b ++ s.tag ++ '.' :: a) : False := by
  by_cases hd : '.' ∈ r.tag
  · obtain ⟨c, d, e, hd'⟩ := exists_last_dot hd
    have hc := List.all_eq_true.1 (List.all_eq_true.1 tags_cut r hr) s hs
    rw [e, ← List.append_assoc] at h
    have h1 := (last_dot h hd' ha).1
    have hcon : r.tag.contains '.' = true := by simpa using hd
    rw [hcon, e, beforeDot_eq hd'] at hc
    have hc' : isEnd c s.tag = false ∧ isEnd s.tag c = false := by simpa using hc
    rcases ends h1 with g | g
    · rw [← isEnd_iff, hc'.1] at g; cases g
    · rw [← isEnd_iff, hc'.2] at g; cases g
  · rcases hn with hn | ⟨c, rfl, hc⟩
    · have : '.' ∈ n ++ r.tag := by rw [h]; simp
      rcases List.mem_append.1 this with g | g
      · exact hn g
      · exact hd g
    · have h' : [] ++ '.' :: (c ++ r.tag) = (b ++ s.tag) ++ '.' :: a := h
      have h1 := (last_dot h' (fun g => (List.mem_append.1 g).elim hc hd) ha).1
      have ht : s.tag ≠ [] := by simpa using List.all_eq_true.1 tags_nonempty s hs
      exact ht (List.append_eq_nil_iff.1 h1.symm).2

theorem stems {r s : Run} (hr : r ∈ runs) (hs : s ∈ runs) (hp : poles r s = false) {x y : List Char}
    (h : x ++ r.tag = y ++ s.tag) : x = y ∧ r = s := by
  by_cases e : r = s
  · subst e
    exact ⟨List.append_cancel_right h, rfl⟩
  · rcases ends h with g | g
    · exact absurd g (apart hr hs e hp)
    · exact absurd g (apart hs hr (Ne.symm e) (poles_symm r s ▸ hp))

/-! ### C123 -/

theorem main_ok {p : Program} {a : Args} {compute : Option Path → Path → Except PyErr Unit} {e : Ended}
    (h : main p a compute = .ok e) :
    a.verbose < 3 ∧ (∃ m, modelName p a = .ok m ∧ outfile p a m = .ok e.outfile) ∧ e.infile = a.infile ∧
      (e.logged = none ↔ compute a.infile e.outfile = .ok ()) := by
  unfold main at h
  split at h
  · cases h
  · rename_i hv
    refine ⟨by omega, ?_⟩
    cases hm : modelName p a with
    | error x => rw [hm, error_bind] at h; cases h
    | ok m =>
      rw [hm, ok_bind] at h
      cases hf : outfile p a m with
      | error x => simp only [hf, error_bind] at h; cases h
      | ok f =>
        simp only [hf, ok_bind] at h
        cases hc : compute a.infile f with
        | ok u =>
          simp only [hc] at h
          cases h
          exact ⟨⟨m, rfl, hf⟩, rfl, by simp [hc]⟩
        | error x =>
          simp only [hc] at h
          cases h
          exact ⟨⟨m, rfl, hf⟩, rfl, by simp [hc]⟩

theorem outfile_none {p : Program} {a : Args} {m : String} {f : Path} (ha : a.outfile = none)
    (h : outfile p a m = .ok f) : ∃ i, a.infile = some i ∧ f = beside i (tag p m a.flexure) := by
  unfold outfile at h
  rw [ha] at h
  cases hi : a.infile with
  | none => rw [hi] at h; cases h
  | some i =>
    rw [hi] at h
    dsimp only at h
    cases h
    exact ⟨i, rfl, rfl⟩

theorem tag_pos (p : Program) (m : String) (f : Bool) : 0 < (tag p m f).length := by
  cases p <;> exact Nat.succ_pos _

/-- **C123.** For every program, input file, model (also of a definition file) and option, if the program
gets to its calculation: the calculation gets the input file that is named and the output file that is
named; if none is named it gets one in the directory of the input, and that is not the input file: its
name is longer. -/
theorem C123_beside (p : Program) (a : Args) (compute : Option Path → Path → Except PyErr Unit) (e : Ended)
    (h : main p a compute = .ok e) :
    e.infile = a.infile ∧ (∀ f, a.outfile = some f → e.outfile = f) ∧
      (a.outfile = none → ∃ f, a.infile = some f ∧ e.outfile.parent = f.parent ∧ e.outfile ≠ f ∧
        f.name.length < e.outfile.name.length) := by
  obtain ⟨-, ⟨m, hm, hf⟩, hi, -⟩ := main_ok h
  refine ⟨hi, ?_, ?_⟩
  · intro f ha
    unfold outfile at hf
    rw [ha] at hf
    dsimp only at hf
    cases hf
    rfl
  · intro ha
    obtain ⟨i, hi, hb⟩ := outfile_none ha hf
    have hl : i.name.length < e.outfile.name.length := by
      have h1 := congrArg List.length (split_name i.name)
      have h2 := tag_pos p m a.flexure
      rw [hb]
      simp only [beside, List.length_append] at h1 ⊢
      omega
    refine ⟨i, hi, by rw [hb]; rfl, ?_, hl⟩
    intro h'
    rw [h'] at hl
    exact Nat.lt_irrefl _ hl

theorem nameOf_mem {l : List Database.Entry} {t m : String} (h : nameOf l t = .ok m) : ∃ e ∈ l, e.name = m := by
  unfold nameOf at h
  cases hf : l.find? (fun e => e.key = t) with
  | none => rw [hf] at h; cases h
  | some e =>
    rw [hf] at h
    dsimp only at h
    cases h
    exact ⟨e, List.mem_of_find?_eq_some hf, rfl⟩

theorem run_mem {p : Program} {a : Args} {m : String} (hd : a.definition = none) (h : modelName p a = .ok m) :
    runOf p m a.flexure ∈ runs := by
  unfold runs
  cases p with
  | lpet => exact List.mem_append_left _ (List.mem_append_left _ (List.mem_append_left _ (by simp [runOf])))
  | lpt => exact List.mem_append_left _ (List.mem_append_left _ (List.mem_append_left _ (by simp [runOf])))
  | opt => exact List.mem_append_left _ (List.mem_append_left _ (List.mem_append_left _ (by simp [runOf])))
  | set => exact List.mem_append_left _ (List.mem_append_left _ (List.mem_append_left _ (by simp [runOf])))
  | currents =>
    simp only [modelName, hd] at h
    obtain ⟨e, he, rfl⟩ := nameOf_mem h
    exact List.mem_append_left _ (List.mem_append_left _ (List.mem_append_right _ (List.mem_map.2 ⟨e, he, rfl⟩)))
  | elevations =>
    simp only [modelName, hd] at h
    obtain ⟨e, he, rfl⟩ := nameOf_mem h
    cases hf : a.flexure with
    | false => exact List.mem_append_left _ (List.mem_append_right _ (List.mem_map.2 ⟨e, he, rfl⟩))
    | true => exact List.mem_append_right _ (List.mem_map.2 ⟨e, he, rfl⟩)

theorem runOf_inj {p q : Program} {m n : String} {f g : Bool} (h : runOf p m f = runOf q n g) :
    p = q ∧ (p = .currents ∨ p = .elevations → m = n) ∧ (p = .elevations → f = g) := by
  cases p <;> cases q <;> simp_all [runOf]

theorem run_same {p q : Program} {a b : Args} {m n : String} (hm : modelName p a = .ok m)
    (hn : modelName q b = .ok n) (h : runOf p m a.flexure = runOf q n b.flexure) :
    p = q ∧ modelName p a = modelName q b ∧ (p = .elevations → a.flexure = b.flexure) := by
  obtain ⟨rfl, h1, h2⟩ := runOf_inj h
  refine ⟨rfl, ?_, h2⟩
  cases p <;> first | rfl | (rw [hm, hn, h1 (by simp)])

/-- **C123 (partial).** Two runs on the command line, of the same or different programs, with models of
the database and without a named output file, write to the same file only if they are runs of the
same program on the same file, with models of the same name and the same choice of flexure.

The names of the input files must not end in a dot, and the two programs must not be those for the
load pole tide and the ocean pole tide (`C123_pole_false`).  Models of the same name are not the same
model (`C123_extrapolated_false`). -/
theorem C123_distinct_partial (p q : Program) (a b : Args)
    (compute compute' : Option Path → Path → Except PyErr Unit) (e e' : Ended)
    (h : main p a compute = .ok e) (h' : main q b compute' = .ok e')
    (ha : a.outfile = none) (hb : b.outfile = none) (da : a.definition = none) (db : b.definition = none)
    (na : ∀ f, a.infile = some f → f.name.getLast? ≠ some '.')
    (nb : ∀ f, b.infile = some f → f.name.getLast? ≠ some '.')
    (hp : ¬ (p = .lpt ∧ q = .opt)) (hq : ¬ (p = .opt ∧ q = .lpt))
    (same : e.outfile = e'.outfile) :
    a.infile = b.infile ∧ p = q ∧ modelName p a = modelName q b ∧ (p = .elevations → a.flexure = b.flexure) := by
  obtain ⟨-, ⟨m, hm, hf⟩, -, -⟩ := main_ok h
  obtain ⟨-, ⟨n, hn, hg⟩, -, -⟩ := main_ok h'
  obtain ⟨i, hi, hf⟩ := outfile_none ha hf
  obtain ⟨k, hk, hg⟩ := outfile_none hb hg
  have hr := run_mem da hm
  have hs := run_mem db hn
  have hpo : poles (runOf p m a.flexure) (runOf q n b.flexure) = false := by
    cases p <;> cases q <;> simp_all [poles, runOf]
  rw [hf, hg] at same
  have h1 : (beside i (tag p m a.flexure)).parent = (beside k (tag q n b.flexure)).parent := by rw [same]
  have h1 : i.parent = k.parent := h1
  have h2 : (split i.name).1 ++ (runOf p m a.flexure).tag ++ (split i.name).2 =
      (split k.name).1 ++ (runOf q n b.flexure).tag ++ (split k.name).2 := by
    rw [runOf_tag, runOf_tag]
    exact congrArg Path.name same
  have fin : i.name = k.name → runOf p m a.flexure = runOf q n b.flexure →
      a.infile = b.infile ∧ p = q ∧ modelName p a = modelName q b ∧
        (p = .elevations → a.flexure = b.flexure) := by
    intro e1 e2
    refine ⟨?_, run_same hm hn e2⟩
    rw [hi, hk]
    cases i; cases k
    simp_all
  rcases split_cases i.name with ⟨ei, ci⟩ | ⟨x, y, -, -, hy, en, ei⟩ <;>
    rcases split_cases k.name with ⟨ek, ck⟩ | ⟨z, w, -, -, hw, en', ek⟩
  · rw [ei, ek] at h2
    simp only [List.append_nil] at h2
    obtain ⟨e1, e2⟩ := stems hr hs hpo h2
    exact fin e1 e2
  · rw [ei, ek] at h2
    simp only [List.append_nil] at h2
    refine (mixed hr hs ?_ hw h2).elim
    rcases ci with c | c | c
    · exact Or.inl c
    · exact Or.inr c
    · exact absurd c (na i hi)
  · rw [ei, ek] at h2
    simp only [List.append_nil] at h2
    refine (mixed hs hr ?_ hy h2.symm).elim
    rcases ck with c | c | c
    · exact Or.inl c
    · exact Or.inr c
    · exact absurd c (nb k hk)
  · rw [ei, ek] at h2
    dsimp only at h2
    obtain ⟨e1, e2⟩ := last_dot h2 hy hw
    obtain ⟨e3, e4⟩ := stems hr hs hpo e1
    exact fin (by rw [en, en', e3, e2]) e4

set_option maxRecDepth 20000 in
theorem tags_distinct : (runs.all fun r => runs.all fun s => decide (r = s) || !(r.tag == s.tag)) = true := by
  decide +kernel

/-- **C123.** Runs on the same file never write to the same file if they are of different programs, with
models of different names, or with and without flexure: for every input file. -/
theorem C123_same_input (p q : Program) (a b : Args)
    (compute compute' : Option Path → Path → Except PyErr Unit) (e e' : Ended)
    (h : main p a compute = .ok e) (h' : main q b compute' = .ok e')
    (ha : a.outfile = none) (hb : b.outfile = none) (da : a.definition = none) (db : b.definition = none)
    (hab : a.infile = b.infile) (same : e.outfile = e'.outfile) :
    p = q ∧ modelName p a = modelName q b ∧ (p = .elevations → a.flexure = b.flexure) := by
  obtain ⟨-, ⟨m, hm, hf⟩, -, -⟩ := main_ok h
  obtain ⟨-, ⟨n, hn, hg⟩, -, -⟩ := main_ok h'
  obtain ⟨i, hi, hf⟩ := outfile_none ha hf
  obtain ⟨k, hk, hg⟩ := outfile_none hb hg
  have hik : i = k := by rw [hi, hk] at hab; exact Option.some.inj hab
  subst hik
  have hr := run_mem da hm
  have hs := run_mem db hn
  rw [hf, hg] at same
  have h2 : (split i.name).1 ++ (runOf p m a.flexure).tag ++ (split i.name).2 =
      (split i.name).1 ++ (runOf q n b.flexure).tag ++ (split i.name).2 := by
    rw [runOf_tag, runOf_tag]
    exact congrArg Path.name same
  have h3 := List.append_cancel_left (List.append_cancel_right h2)
  have h4 := List.all_eq_true.1 (List.all_eq_true.1 tags_distinct _ hr) _ hs
  rw [h3] at h4
  exact run_same hm hn (by simpa using h4)

/-- A run of the command line without output file. -/
def line (f : Path) (tide : String) (flexure : Bool) : Args := ⟨some f, none, tide, none, flexure, 0⟩

theorem main_line (p : Program) (f : Path) (tide : String) (flexure : Bool) (m : String)
    (compute : Option Path → Path → Except PyErr Unit)
    (hm : modelName p (line f tide flexure) = .ok m) :
    ∃ e, main p (line f tide flexure) compute = .ok e ∧ e.outfile = beside f (tag p m flexure) := by
  have hv : ¬ 3 ≤ (line f tide flexure).verbose := by simp [line]
  have ho : outfile p (line f tide flexure) m = .ok (beside f (tag p m flexure)) := rfl
  unfold main
  rw [if_neg hv, hm, ok_bind]
  rw [ho, ok_bind]
  cases compute (line f tide flexure).infile (beside f (tag p m flexure)) with
  | ok u => exact ⟨_, rfl, rfl⟩
  | error x => exact ⟨_, rfl, rfl⟩

set_option maxRecDepth 20000 in
theorem name_fes : nameOf Database.elevation "FES2014" = .ok "FES2014" ∧
    nameOf Database.elevation "FES2014_extrapolated" = .ok "FES2014" := ⟨rfl, rfl⟩

/-- The elevations with the model FES2014 of the file `points.csv` are written to the file
`points_FES2014.csv`: the hypotheses of the theorems above are met. -/
example : ∃ e, main .elevations (line ⟨["data".toList], "points.csv".toList⟩ "FES2014" false)
      (fun _ _ => .ok ()) = .ok e ∧
    e.outfile = ⟨["data".toList], "points_FES2014.csv".toList⟩ := by
  obtain ⟨e, h, h'⟩ := main_line .elevations ⟨["data".toList], "points.csv".toList⟩ "FES2014" false "FES2014"
    (fun _ _ => .ok ()) name_fes.1
  exact ⟨e, h, h'.trans (by decide +kernel)⟩

/-- **C123 (refuted for models of the same name).** For every input file: the results with the model
FES2014 and with its extrapolated grids are written to the same file, so that the second run overwrites
the results of the first. -/
theorem C123_extrapolated_false (f : Path) (flexure : Bool)
    (compute compute' : Option Path → Path → Except PyErr Unit) :
    ∃ e e', main .elevations (line f "FES2014" flexure) compute = .ok e ∧
      main .elevations (line f "FES2014_extrapolated" flexure) compute' = .ok e' ∧ e.outfile = e'.outfile := by
  obtain ⟨e, h, g⟩ := main_line .elevations f "FES2014" flexure "FES2014" compute name_fes.1
  obtain ⟨e', h', g'⟩ := main_line .elevations f "FES2014_extrapolated" flexure "FES2014" compute' name_fes.2
  exact ⟨e, e', h, h', g.trans g'.symm⟩

/-- **C123 (refuted for different inputs).** The load pole tides at the points of `a_ocean.csv` and the
ocean pole tides at the points of `a.csv` are written to the same file. -/
theorem C123_pole_false (compute compute' : Option Path → Path → Except PyErr Unit) (d : List (List Char)) :
    ∃ e e', main .lpt (line ⟨d, "a_ocean.csv".toList⟩ "" false) compute = .ok e ∧
      main .opt (line ⟨d, "a.csv".toList⟩ "" false) compute' = .ok e' ∧ e.outfile = e'.outfile := by
  obtain ⟨e, h, g⟩ := main_line .lpt ⟨d, "a_ocean.csv".toList⟩ "" false "" compute rfl
  obtain ⟨e', h', g'⟩ := main_line .opt ⟨d, "a.csv".toList⟩ "" false "" compute' rfl
  have key : (split "a_ocean.csv".toList).1 ++ tag .lpt "" false ++ (split "a_ocean.csv".toList).2 =
      (split "a.csv".toList).1 ++ tag .opt "" false ++ (split "a.csv".toList).2 := by decide +kernel
  refine ⟨e, e', h, h', g.trans (Eq.trans ?_ g'.symm)⟩
  exact congrArg (Path.mk d) key

/-- **C123 (refuted for failures).** A program whose calculation fails with an exception ends like one
whose calculation succeeds: for all programs, files and models. -/
theorem C123_failure_false (p : Program) (a : Args) (x : PyErr)
    (compute : Option Path → Path → Except PyErr Unit) (e : Ended) (h : main p a compute = .ok e) :
    ∃ e', main p a (fun _ _ => .error x) = .ok e' ∧ e'.infile = e.infile ∧ e'.outfile = e.outfile ∧
      e'.logged = some x := by
  obtain ⟨hv, ⟨m, hm, hf⟩, hi, -⟩ := main_ok h
  refine ⟨⟨a.infile, e.outfile, some x⟩, ?_, hi.symm, rfl, rfl⟩
  unfold main
  rw [if_neg (by omega), hm, ok_bind]
  dsimp only
  rw [hf, ok_bind]

/-- **C123 (refuted for the option `--verbose`).** With the option given three times or more no program
computes anything: it stops with an `IndexError`. -/
theorem C123_verbose_false (p : Program) (a : Args) (compute : Option Path → Path → Except PyErr Unit)
    (h : 3 ≤ a.verbose) : main p a compute = .error .indexError := by
  unfold main
  rw [if_pos h]

/-! ### C124 -/

/-- The coordinate reference system that a text names: as `pyproj` understands it, else as the number of
an EPSG code, else as a string. -/
def system {C D P : Type} (j : Crs.Pyproj C D P) (int : String → Option Int) (s : String) : Option C :=
  (j.fromText s).or (((int s).bind j.fromEpsg).or (j.fromString s))

theorem fromInput_text {C D P : Type} (j : Crs.Pyproj C D P) (int : String → Option Int) (s : String) :
    Crs.fromInput j int (.text s) = match system j int s with
      | some c => .ok c
      | none => .error .exception := by
  unfold Crs.fromInput system
  simp only [Crs.userInput, Crs.toInt, Crs.fromText]
  cases j.fromText s with
  | some c => rfl
  | none =>
    simp only [ok_bind, Option.none_or]
    cases (int s).bind j.fromEpsg with
    | some c => rfl
    | none =>
      simp only [Option.none_or]
      cases j.fromString s <;> rfl

/-- **C124.** For every file and every text of the option `--projection`: the coordinates are taken to be in
the system named in the file if it names one that is known, else in that of the option; if neither
names a system the program fails. -/
theorem C124_projection {C D P : Type} (j : Crs.Pyproj C D P) (int : String → Option Int) (file : Option String)
    (option : String) (c : C) :
    getProjection j int (file.map .text) (.text option) = .ok c ↔
      (∃ s, file = some s ∧ system j int s = some c) ∨
        ((∀ s, file = some s → system j int s = none) ∧ system j int option = some c) := by
  unfold getProjection
  cases file with
  | none =>
    simp only [Option.map_none, fromInput_text]
    cases system j int option <;> simp
  | some s =>
    simp only [Option.map_some, fromInput_text]
    cases h : system j int s with
    | some d => simp [h]
    | none =>
      simp only [h]
      cases system j int option <;> simp [h]

/-- **C124 (refuted for the option).** The system of the option `--projection` is not used for a file that
names another. -/
theorem C124_option_false {C D P : Type} (j : Crs.Pyproj C D P) (int : String → Option Int) (s option : String)
    (c d : C) (hs : system j int s = some c) (_ : system j int option = some d) (hcd : c ≠ d) :
    getProjection j int (some (.text s)) (.text option) ≠ .ok d := by
  intro h
  have h' := (C124_projection j int (some s) option d).1 h
  rcases h' with ⟨t, e, ht⟩ | ⟨hn, -⟩
  · cases e
    rw [hs] at ht
    exact hcd (Option.some.inj ht)
  · rw [hn s rfl] at hs
    cases hs

/-- A `pyproj` that knows two systems: a file in polar stereographic coordinates and the option
`--projection 4326`. -/
def two : Crs.Pyproj Nat Unit Unit :=
  ⟨fun s => if s = "EPSG:3031" then some 3031 else none, fun _ => none, fun n => some n.toNat, fun _ => none,
    fun _ _ q => q, fun _ _ q => q⟩

example : getProjection two (fun s => if s = "4326" then some 4326 else none) none (.text "4326") = .ok 4326 ∧
    getProjection two (fun s => if s = "4326" then some 4326 else none) (some (.text "EPSG:3031")) (.text "4326") =
      .ok 3031 ∧
    getProjection two (fun s => if s = "4326" then some 4326 else none) (some (.text "unknown")) (.text "4326") =
      .ok 4326 := ⟨rfl, rfl, rfl⟩

end Verif.Outputs
