import Verif.Model.FileNames
import Verif.Props.Listing
/-!
C92: input files and variables are found.
-/
namespace Verif.FileNames
open Verif Verif.Listing Verif.Store

/-- Names that differ at most in small and capital letters. -/
def SameName (a b : List Char) : Prop := a.map Char.toLower = b.map Char.toLower

/-- Names that begin alike, with any character for a full stop of the first. -/
def BeginsAlike (a b : List Char) : Prop :=
  a.length ≤ b.length ∧ ∀ (i : Nat) (p c : Char), a[i]? = some p → b[i]? = some c →
    (p = '.' ∧ c ≠ '\n') ∨ p.toLower = c.toLower

theorem looksLike_iff (a b : List Char) : looksLike a b = true ↔ BeginsAlike a b := by
  induction a generalizing b with
  | nil => simp [looksLike, BeginsAlike]
  | cons p a ih =>
    cases b with
    | nil => simp [looksLike, BeginsAlike]
    | cons c b =>
      rw [looksLike, Bool.and_eq_true, ih b, BeginsAlike, BeginsAlike]
      simp only [List.length_cons]
      have e : ((decide (p = '.') && decide (c ≠ '\n')) || decide (lower p = lower c)) = true ↔
          (p = '.' ∧ c ≠ '\n') ∨ p.toLower = c.toLower := by
        rw [Bool.or_eq_true, Bool.and_eq_true, decide_eq_true_eq, decide_eq_true_eq,
          decide_eq_true_eq]
        rfl
      rw [e]
      constructor
      · rintro ⟨h1, h2, h3⟩
        refine ⟨by omega, fun i q d hq hd => ?_⟩
        cases i with
        | zero =>
          rw [List.getElem?_cons_zero] at hq hd
          cases hq
          cases hd
          exact h1
        | succ i =>
          rw [List.getElem?_cons_succ] at hq hd
          exact h3 i q d hq hd
      · rintro ⟨h1, h2⟩
        refine ⟨h2 0 p c rfl rfl, by omega, fun i q d hq hd => ?_⟩
        exact h2 (i + 1) q d (by rw [List.getElem?_cons_succ]; exact hq)
          (by rw [List.getElem?_cons_succ]; exact hd)

theorem same_begins {a b : List Char} (h : SameName a b) : BeginsAlike a b := by
  have hl : a.length = b.length := by
    have := congrArg List.length h
    simpa using this
  refine ⟨Nat.le_of_eq hl, fun i p c hp hc => Or.inr ?_⟩
  have := congrArg (fun l => l[i]?) h
  simpa [List.getElem?_map, hp, hc] using this

/-- C92: a file that exists under its name is used. -/
theorem C92_exact (directory : List (List Char)) (name : List Char) (h : name ∈ directory) :
    find directory name = .ok name := if_pos h

/-- C92: what is used is a file of the directory, and there is an error exactly when no file begins
like the name. -/
theorem C92_found (directory : List (List Char)) (name : List Char) :
    (∀ f, find directory name = .ok f → f ∈ directory ∧ BeginsAlike name f) ∧
      (find directory name = .error .fileNotFound ↔ ∀ f ∈ directory, ¬ BeginsAlike name f) := by
  have refl : BeginsAlike name name := same_begins rfl
  rw [find]
  by_cases hn : name ∈ directory
  · rw [if_pos hn]
    refine ⟨fun f hf => ?_, ?_⟩
    · cases hf
      exact ⟨hn, refl⟩
    · constructor
      · intro h; cases h
      · intro h; exact absurd refl (h _ hn)
  · rw [if_neg hn]
    cases hl : (directory.filter (looksLike name)).getLast? with
    | none =>
      rw [List.getLast?_eq_none_iff, List.filter_eq_nil_iff] at hl
      refine ⟨(fun f hf => by cases hf), ⟨fun _ f hf => ?_, fun _ => rfl⟩⟩
      exact fun k => hl f hf ((looksLike_iff _ _).2 k)
    | some g =>
      have hg := List.mem_of_getLast? hl
      rw [List.mem_filter, looksLike_iff] at hg
      refine ⟨(fun f hf => by cases hf; exact hg), ?_⟩
      constructor
      · intro h; cases h
      · intro h; exact absurd hg.2 (h g hg.1)

/-- C92: when the directory has only files with the name in other letters among those that begin
like it, such a file is used.  Missing: directories with other files that begin alike. -/
theorem C92_case_partial (directory : List (List Char)) (name : List Char)
    (h : ∃ f ∈ directory, SameName name f)
    (hclear : ∀ f ∈ directory, BeginsAlike name f → SameName name f) :
    ∃ f ∈ directory, find directory name = .ok f ∧ SameName name f := by
  obtain ⟨h1, h2⟩ := C92_found directory name
  cases hf : find directory name with
  | ok f =>
    obtain ⟨k1, k2⟩ := h1 f hf
    exact ⟨f, k1, rfl, hclear f k1 k2⟩
  | error e =>
    obtain ⟨f, k1, k2⟩ := h
    have ne : ¬ find directory name = .error .fileNotFound :=
      fun k => (h2.1 k) f k1 (same_begins k2)
    rw [find] at hf ne
    split at hf
    · cases hf
    · next hn =>
      rw [if_neg hn] at ne
      split at hf
      · next hl => rw [hl] at ne; exact absurd rfl ne
      · cases hf

/-- C92 is false of other files that begin alike: a longer name listed later is used, although the
file is there in capital letters, and a full stop matches another character. -/
theorem C92_other_false :
    find ["TIDE.NC".toList, "TIDE.NC.BAK".toList] "tide.nc".toList = .ok "TIDE.NC.BAK".toList ∧
      find ["tide_nc".toList] "tide.nc".toList = .ok "tide_nc".toList := by
  decide +kernel

/-- C92: the fields are assigned to the variables in the order time, y, x, data. -/
theorem C92_fields (names : List String) :
    (defaultMapping names).lookup "time" = names[0]? ∧
      (defaultMapping names).lookup "y" = names[1]? ∧
      (defaultMapping names).lookup "x" = names[2]? ∧
      (defaultMapping names).lookup "data" = names[3]? := by
  rw [defaultMapping, fieldNames]
  match names with
  | [] => exact ⟨rfl, rfl, rfl, rfl⟩
  | [a] => exact ⟨rfl, rfl, rfl, rfl⟩
  | [a, b] => exact ⟨rfl, rfl, rfl, rfl⟩
  | [a, b, c] => exact ⟨rfl, rfl, rfl, rfl⟩
  | a :: b :: c :: d :: l => exact ⟨rfl, rfl, rfl, rfl⟩

/-- C92: the inverse mapping leads back, for different names of variables. -/
theorem C92_inverse (mapping : Dict String) (hk : Distinct mapping)
    (hv : (mapping.map Prod.snd).Nodup) (field name : String) :
    mapping.lookup field = some name ↔ (inverse mapping).lookup name = some field := by
  have hd : Distinct (mapping.map fun p => (p.2, p.1)) := by
    rw [Distinct, List.map_map]
    exact hv
  have hl := lookup_update (mapping.map fun p => (p.2, p.1)) [] hd name
  rw [inverse, hl]
  constructor
  · intro h
    rw [lookup_of_mem hd (List.mem_map.2 ⟨_, lookup_mem h, rfl⟩)]
    rfl
  · intro h
    cases hq : (mapping.map fun p => (p.2, p.1)).lookup name with
    | none => rw [hq] at h; simp at h
    | some f =>
      rw [hq] at h
      have hf : f = field := by simpa using h
      subst hf
      obtain ⟨p, hp, e⟩ := List.mem_map.1 (lookup_mem hq)
      cases e
      exact lookup_of_mem hk hp

/-- C92: without a mapping the names that are given are used. -/
theorem C92_names (xname yname : String) (varname timename : Option String) :
    (readWith [] xname yname varname timename).1.lookup "x" = some xname ∧
      (readWith [] xname yname varname timename).1.lookup "y" = some yname ∧
      (readWith [] xname yname varname timename).1.lookup "data" = varname ∧
      (readWith [] xname yname varname timename).1.lookup "time" = timename := by
  cases varname <;> cases timename <;> exact ⟨rfl, rfl, rfl, rfl⟩

/-- C92 is false of a second file read with the same empty dictionary: whatever names are given,
those of the first file are used. -/
theorem C92_again_false (x y x' y' : String) (v t v' t' : Option String) :
    (readWith (readWith [] x y v t).2 x' y' v' t').1 = (readWith [] x y v t).1 := by
  cases v <;> cases t <;> rfl

example : ∃ f ∈ ["TIDE.NC".toList], SameName "tide.nc".toList f :=
  ⟨_, List.mem_singleton.2 rfl, by rw [SameName]; decide⟩

example : Distinct (defaultMapping ["t", "lat", "lon", "tide"]) ∧
    ((defaultMapping ["t", "lat", "lon", "tide"]).map Prod.snd).Nodup := by
  unfold Distinct
  decide

end Verif.FileNames
