import Verif.Model.Database
import Verif.Model.Definition
import Verif.Model.Coef
import Verif.Props.Parse
/-!
C61: the models of the database.
-/
namespace Verif.Database
open Verif Verif.Definition

/-- All models. -/
def entries : List Entry := elevation ++ current

/-- `formats` (model.py 454-466), as a list with repetitions. -/
def formats : List String := entries.map Entry.format

/-- The formats of the database. -/
def seven : List String :=
  ["OTIS", "ATLAS-compact", "TMD3", "ATLAS-netcdf", "GOT-ascii", "GOT-netcdf", "FES-netcdf"]

/-- The short names that stand for formats. -/
def short : List (String × String) :=
  [("ATLAS", "ATLAS-compact"), ("netcdf", "ATLAS-netcdf"), ("FES", "FES-netcdf"),
    ("GOT", "GOT-ascii")]

theorem formats_iff (f : String) : f ∈ formats ↔ f ∈ seven := by
  have h1 : ∀ f ∈ formats, f ∈ seven := by decide +kernel
  have h2 : ∀ f ∈ seven, f ∈ formats := by decide +kernel
  exact ⟨h1 f, h2 f⟩

/-- C61: the formats that are accepted are those of the database and the four short names, and what
they are taken for is a format of the database. -/
theorem C61_formats (P : Type) (f g : String) :
    validateFormat (P := P) formats (.str f) = .ok g ↔
      (f ∈ seven ∧ g = f) ∨ (f, g) ∈ short := by
  unfold validateFormat
  dsimp only
  simp only [List.foldl_cons, List.foldl_nil]
  by_cases h1 : f = "ATLAS"
  · subst h1
    have e : "ATLAS-compact" ∈ formats := by decide +kernel
    simp [e, seven, short, eq_comm]
  by_cases h2 : f = "netcdf"
  · subst h2
    have e : "ATLAS-netcdf" ∈ formats := by decide +kernel
    simp [e, seven, short, eq_comm]
  by_cases h3 : f = "FES"
  · subst h3
    have e : "FES-netcdf" ∈ formats := by decide +kernel
    simp [e, seven, short, eq_comm]
  by_cases h4 : f = "GOT"
  · subst h4
    have e : "GOT-ascii" ∈ formats := by decide +kernel
    simp [e, seven, short, eq_comm]
  rw [if_neg h1, if_neg h2, if_neg h3, if_neg h4]
  by_cases hf : f ∈ formats
  · rw [if_pos hf]
    simp only [(formats_iff f).mp hf, short, List.mem_cons, Prod.mk.injEq, h1, h2, h3, h4]
    simp [eq_comm]
  · rw [if_neg hf]
    have hs : f ∉ seven := fun h => hf ((formats_iff f).mpr h)
    simp [hs, short, h1, h2, h3, h4]

/-- C61, refuted: `FES-ascii`, one of the documented formats, is refused. -/
theorem C61_fes_ascii_false (P : Type) :
    validateFormat (P := P) formats (.str "FES-ascii") = .error .assertionError := by
  have h : "FES-ascii" ∉ formats := by decide +kernel
  unfold validateFormat
  dsimp only
  simp only [List.foldl_cons, List.foldl_nil]
  simp [h]

/-- C61: the kind of file and the kind of nodal corrections of every format. -/
theorem C61_kinds : seven.map (fun f => (f, fileFormat f, corrections f)) =
    [("OTIS", "OTIS", "OTIS"), ("ATLAS-compact", "ATLAS", "ATLAS"), ("TMD3", "TMD3", "TMD3"),
      ("ATLAS-netcdf", "netcdf", "ATLAS"), ("GOT-ascii", "ascii", "perth3"),
      ("GOT-netcdf", "netcdf", "GOT"), ("FES-netcdf", "netcdf", "FES")] := by decide +kernel

/-- The versions that the FES reader knows. -/
def fesVersions : List String := ["FES2012", "FES2014", "FES2022", "EOT20", "HAMTIDE11"]

/-- C61: every model has what its format needs: the files of its types; a grid for OTIS and ATLAS
models and only for these; a projection for OTIS models; a scale for the others; and a version that
the reader knows for FES models. -/
theorem C61_entries : ∀ e ∈ entries,
    (e.grid.isSome ↔ e.format ∈ ["OTIS", "ATLAS-compact", "TMD3", "ATLAS-netcdf"]) ∧
    (e.format ∈ ["OTIS", "ATLAS-compact", "TMD3"] → e.projection.isSome) ∧
    (e.format ∉ ["OTIS", "ATLAS-compact", "TMD3"] → e.scale.isSome) ∧
    (e.format = "FES-netcdf" → ∃ v ∈ fesVersions, e.version = some v) ∧
    (∀ f ∈ e.files, f.1 ∈ e.types ∧ f.2 ≠ []) ∧
    (e.types = ["z"] ∨ e.types = ["u", "v"]) ∧
    (e.format ∉ ["OTIS", "ATLAS-compact", "TMD3"] → e.files.map Prod.fst = e.types) ∧
    (e.types = ["u", "v"] → e.files.head?.map Prod.fst = some "u") := by decide +kernel

/-- C61: no name is listed twice. -/
theorem C61_names : (elevation.map Entry.key).Nodup ∧ (current.map Entry.key).Nodup := by
  decide +kernel

/-- The part of a path after the last slash. -/
def base (p : String) : String := String.ofList (p.toList.reverse.takeWhile (· ≠ '/')).reverse

/-- The constituents of a list of files. -/
def constituentsOf (l : List String) : List (Except PyErr String) := l.map fun p => Parse.parse (base p)

/-- The constituents of the FES models, in the order of their files. -/
def expected : List (List String × List String) := [
  (["FES2014", "FES2014_extrapolated", "FES2014_load", "FES2022", "FES2022_extrapolated",
    "FES2022_load"],
    ["2n2", "eps2", "j1", "k1", "k2", "l2", "lambda2", "m2", "m3", "m4", "m6", "m8", "mf",
    "mks2", "mm", "mn4", "ms4", "msf", "msqm", "mtm", "mu2", "n2", "n4", "nu2", "o1",
    "p1", "q1", "r2", "s1", "s2", "s4", "sa", "ssa", "t2"]),
  (["HAMTIDE11"],
    ["2n2", "k1", "k2", "m2", "n2", "o1", "p1", "q1", "s2"]),
  (["EOT20", "EOT20_load"],
    ["2n2", "j1", "k1", "k2", "m2", "m4", "mf", "mm", "n2", "o1", "p1", "q1", "s1", "s2",
    "sa", "ssa", "t2"]),
  (["FES2012"],
    ["t2", "msf", "mtm", "l2", "mm", "q1", "2n2", "n4", "o1", "m3", "n2", "k1", "s1",
    "ms4", "r2", "mu2", "eps2", "s4", "ssa", "lambda2", "mn4", "m2", "j1", "m6", "mf",
    "m4", "p1", "k2", "mks2", "s2", "m8", "nu2"])]


/-- The constituents listed for a model. -/
def listed (key : String) : List String :=
  match expected.find? (fun x => x.1.contains key) with
  | some x => x.2
  | none => []

/-- A file name that begins with the name of the constituent, as a word. -/
def isWord (p c : String) : Bool :=
  let t := (p.toList.reverse.takeWhile (· ≠ '/')).reverse
  let n := t.takeWhile Char.isAlphanum
  decide (n.map Char.toLower = c.toList) && decide ((t.drop n.length).head? ≠ some '\'')

theorem takeWhile_drop_head (l : List Char) (x : Char)
    (h : (l.drop (l.takeWhile Char.isAlphanum).length).head? = some x) : x.isAlphanum = false := by
  induction l with
  | nil => cases h
  | cons a l ih =>
    rw [List.takeWhile_cons] at h
    split at h
    · exact ih h
    · rename_i ha
      have : a = x := by simpa using h
      rw [← this]
      simpa using ha

theorem parse_isWord (p c : String) (hc : c ∈ Parse.names) (h : isWord p c = true) :
    Parse.parse (base p) = .ok c := by
  have ht : (p.toList.reverse.takeWhile (· ≠ '/')).reverse = (base p).toList := by
    rw [base, String.toList_ofList]
  unfold isWord at h
  rw [ht, Bool.and_eq_true] at h
  have h1 := of_decide_eq_true h.1
  have h2 := of_decide_eq_true h.2
  clear h
  have hb : base p = "" ++ String.ofList ((base p).toList.takeWhile Char.isAlphanum) ++
      String.ofList ((base p).toList.drop ((base p).toList.takeWhile Char.isAlphanum).length) := by
    rw [← String.toList_inj]
    simp only [String.toList_append, String.toList_ofList]
    have : ∀ l : List Char, l.takeWhile Char.isAlphanum
        ++ l.drop (l.takeWhile Char.isAlphanum).length = l := by
      intro l
      induction l with
      | nil => rfl
      | cons a l ih =>
        rw [List.takeWhile_cons]
        split
        · rw [List.cons_append, List.length_cons, List.drop_succ_cons, ih]
        · rfl
    rw [List.append_assoc, this]
    simp
  have hl : (String.ofList ((base p).toList.takeWhile Char.isAlphanum)).toLower = c := by
    rw [← String.toList_inj, String.toLower, String.toList_map, String.toList_ofList]
    exact h1
  rw [hb]
  refine (Parse.C60_word _ (by rw [hl]; exact hc) "" _ (Or.inl rfl) ?_).trans (by rw [hl])
  cases hd : (base p).toList.drop ((base p).toList.takeWhile Char.isAlphanum).length with
  | nil => exact Or.inl rfl
  | cons x t =>
    have hx : ((base p).toList.drop ((base p).toList.takeWhile Char.isAlphanum).length).head?
        = some x := by rw [hd]; rfl
    refine Or.inr ⟨x, String.ofList t, ?_, takeWhile_drop_head _ x hx, ?_⟩
    · rw [← String.toList_inj]
      simp [Char.toString]
    · rintro rfl
      exact h2 hx

/-- Files and constituents, one by one. -/
def checkFiles : List String → List String → Bool
  | [], [] => true
  | p :: ps, c :: cs => (isWord p c || decide (Parse.parse (base p) = .ok c)) && checkFiles ps cs
  | _, _ => false

theorem checkFiles_eq (ps cs : List String) (hc : ∀ c ∈ cs, c ∈ Parse.names)
    (h : checkFiles ps cs = true) : constituentsOf ps = cs.map Except.ok := by
  induction ps generalizing cs with
  | nil =>
    cases cs with
    | nil => rfl
    | cons c cs => cases h
  | cons p ps ih =>
    cases cs with
    | nil => cases h
    | cons c cs =>
      rw [checkFiles, Bool.and_eq_true] at h
      have e : Parse.parse (base p) = .ok c := by
        rcases Bool.or_eq_true _ _ |>.mp h.1 with h1 | h1
        · exact parse_isWord p c (hc c (by simp)) h1
        · exact of_decide_eq_true h1
      have := ih cs (fun c h => hc c (by simp [h])) h.2
      rw [constituentsOf] at this ⊢
      rw [List.map_cons, List.map_cons, e, this]

/-- The names of the files of an FES model give the constituents listed for it. -/
def check (e : Entry) : Bool :=
  decide (e.format ≠ "FES-netcdf") || e.files.all fun f => checkFiles f.2 (listed e.key)

theorem check0 : elevation0.all check = true := by decide +kernel
theorem check1 : elevation1.all check = true := by decide +kernel
theorem check2 : elevation2.all check = true := by decide +kernel
theorem check3 : elevation3.all check = true := by decide +kernel
theorem check4 : current0.all check = true := by decide +kernel
theorem check5 : current1.all check = true := by decide +kernel

theorem listed_mem (key : String) : listed key = [] ∨ ∃ x ∈ expected, listed key = x.2 := by
  unfold listed
  split
  · rename_i x hx
    exact Or.inr ⟨x, List.mem_of_find?_eq_some hx, rfl⟩
  · exact Or.inl rfl

theorem expected_nodup : ∀ x ∈ expected, x.2.Nodup := by decide +kernel

/-- All constituents that occur. -/
def union : List String :=
  ["2n2", "eps2", "j1", "k1", "k2", "l2", "lambda2", "m2", "m3", "m4", "m6", "m8", "mf", "mks2", "mm",
    "mn4", "ms4", "msf", "msqm", "mtm", "mu2", "n2", "n4", "nu2", "o1", "p1", "q1", "r2", "s1", "s2",
    "s4", "sa", "ssa", "t2"]

theorem union_table : ∀ c ∈ union, c ∈ Coef.table.map Prod.fst := by decide +kernel

theorem expected_union : ∀ x ∈ expected, ∀ c ∈ x.2, c ∈ union := by decide +kernel

theorem union_names : ∀ c ∈ union, c ∈ Parse.names := by decide +kernel

theorem constituents_listed (e : Entry) (he : e ∈ entries) (hf : e.format = "FES-netcdf")
    (f : String × List String) (h : f ∈ e.files) :
    constituentsOf f.2 = (listed e.key).map Except.ok := by
  have hc : check e = true := by
    rw [entries, elevation, current] at he
    simp only [List.mem_append] at he
    rcases he with (((he | he) | he) | he) | (he | he)
    · exact List.all_eq_true.mp check0 e he
    · exact List.all_eq_true.mp check1 e he
    · exact List.all_eq_true.mp check2 e he
    · exact List.all_eq_true.mp check3 e he
    · exact List.all_eq_true.mp check4 e he
    · exact List.all_eq_true.mp check5 e he
  simp only [check, hf, ne_eq, not_true, decide_false, Bool.false_or] at hc
  refine checkFiles_eq _ _ (fun c hl => ?_) (List.all_eq_true.mp hc f h)
  rcases listed_mem e.key with h0 | ⟨x, hx, h0⟩
  · rw [h0] at hl
    cases hl
  · exact union_names c (expected_union x hx c (h0 ▸ hl))

/-- C61: the file names of an FES model give distinct constituents that the program has the Doodson
coefficients of, and those of the components of a current model give the same constituents in the
same order. -/
theorem C61_constituents (e : Entry) (he : e ∈ entries) (hf : e.format = "FES-netcdf") :
    (∀ f ∈ e.files, (∀ c ∈ constituentsOf f.2, ∃ n ∈ Coef.table.map Prod.fst, c = .ok n) ∧
      (constituentsOf f.2).Nodup) ∧
    ∀ f ∈ e.files, ∀ g ∈ e.files, constituentsOf f.2 = constituentsOf g.2 := by
  refine ⟨fun f h => ?_, fun f h g h' => ?_⟩
  · rw [constituents_listed e he hf f h]
    rcases listed_mem e.key with h0 | ⟨x, hx, h0⟩
    · rw [h0]
      exact ⟨fun c hc => absurd hc (by simp), List.nodup_nil⟩
    · rw [h0]
      constructor
      · intro c hc
        obtain ⟨n, hn, rfl⟩ := List.mem_map.mp hc
        exact ⟨n, union_table n (expected_union x hx n hn), rfl⟩
      · exact List.Pairwise.map _ (fun a b hab h => hab (Except.ok.inj h)) (expected_nodup x hx)
  · rw [constituents_listed e he hf f h, constituents_listed e he hf g h']

/-- There are such models. -/
example : ∃ e ∈ entries, e.format = "FES-netcdf" ∧ e.types = ["u", "v"] ∧
    ∃ f ∈ e.files, f.2.length = 34 := by decide +kernel

end Verif.Database
