import Verif.Spec.Renamed
/-!
C107: functions kept under old names.
-/
namespace Verif.Modules
open Verif Spec.Renamed

/-- The names after `import pyTMD`, in the program of a user. -/
def session (w : World) : Except PyErr World := do
  let w ← importPackage (outside w)
  runModule w ["user"] program

variable {A R S : Type}

/-- A call in the program of a user. -/
def use (v : World) (given : Value → A → S → Except PyErr R × S) (choice : A → String) (rest : A → A) (none : R)
    (path : List String) (a : A) (s : S) : Except PyErr R × S :=
  match resolve v ["user"] path with
  | .ok f => call v given choice rest none f a s
  | .error e => (.error e, s)

/-- What a list of names stands for, in the program or in a module. -/
def meanings : List (List String × List String × Except PyErr Value) :=
  (time.map fun f => (["user"], ["pyTMD", "time", f], .ok (.function ["pyTMD", "time"] f))) ++
  (time.map fun f => (["user"], ["timescale", "time", f], .ok (.function ["timescale", "time"] f))) ++
  (time.map fun f => (["pyTMD", "time"], ["timescale", "time", f], .error .attributeError)) ++
  ((eop ++ updates).map fun f => (["user"], ["pyTMD", "eop", f], .ok (.function ["pyTMD", "eop"] f))) ++
  ((eop ++ updates).map fun f => (["user"], ["timescale", "eop", f], .ok (.function ["timescale", "eop"] f))) ++
  ((eop ++ updates).map fun f => (["pyTMD", "eop"], ["timescale", "eop", f],
    .ok (.function ["timescale", "eop"] f))) ++
  [(["user"], ["pyTMD", "check_points"], .ok (.function ["pyTMD", "check_points"] "check_points")),
    (["user"], ["pyTMD", "compute_corrections"],
      .ok (.function ["pyTMD", "compute_tide_corrections"] "compute_corrections"))] ++
  (computed.tail.map fun f => (["user"], ["pyTMD", f.1],
    .ok (.function ["pyTMD", "compute_tide_corrections"] f.1))) ++
  (computed.map fun f => (["user"], ["pyTMD", "compute", f.2], .ok (.function ["pyTMD", "compute"] f.2))) ++
  [(["pyTMD", "check_points"], ["pyTMD", "compute", "tide_masks"], .ok (.function ["pyTMD", "compute"] "tide_masks")),
   (["user"], ["pyTMD", "check_points", "check_points"], .error .attributeError),
   (["user"], ["pyTMD", "compute_tide_corrections", "compute_corrections"], .error .attributeError)] ++
  (corrections.map fun f => (["pyTMD", "compute_tide_corrections"], ["pyTMD", "compute", f.2],
    .ok (.function ["pyTMD", "compute"] f.2)))

set_option maxRecDepth 10000 in
theorem meanings_eq (w : World) : ∃ v, session w = .ok v ∧
    meanings.map (fun q => resolve v q.1 q.2.1) = meanings.map (fun q => q.2.2) := by
  exact ⟨_, rfl, rfl⟩

theorem meaning {w v : World} (h : session w = .ok v) {m path : List String} {x : Except PyErr Value}
    (hq : (m, path, x) ∈ meanings) : resolve v m path = x := by
  obtain ⟨v', h', e⟩ := meanings_eq w
  rw [h] at h'
  cases h'
  exact List.map_inj_left.1 e _ hq

/-- **C107**: pyTMD can be imported. -/
theorem C107_import (w : World) : ∃ v, session w = .ok v :=
  let ⟨v, h, _⟩ := meanings_eq w
  ⟨v, h⟩

/-- The bodies of the functions of `timescale` and `pyTMD.compute` are not those of this model. -/
theorem body_given : (∀ f ∈ time, body ["timescale", "time"] f = none) ∧
    (∀ f ∈ eop ++ updates, body ["timescale", "eop"] f = none) ∧
    (∀ f ∈ computed ++ corrections, body ["pyTMD", "compute"] f.2 = none) := by
  refine ⟨?_, ?_, ?_⟩ <;> decide

/-- **C107** (earth orientation): a function with a result gives what its replacement gives, with the same effects. -/
theorem C107_eop {w v : World} (h : session w = .ok v) (given : Value → A → S → Except PyErr R × S)
    (choice : A → String) (rest : A → A) (none : R) (f : String) (hf : f ∈ eop) (a : A) (s : S) :
    use v given choice rest none ["pyTMD", "eop", f] a s =
      use v given choice rest none ["timescale", "eop", f] a s := by
  have h1 : resolve v ["user"] ["pyTMD", "eop", f] = .ok (.function ["pyTMD", "eop"] f) :=
    meaning h (by simp only [eop, List.mem_cons, List.not_mem_nil, or_false] at hf; rcases hf with rfl | rfl | rfl <;> decide)
  have h2 : resolve v ["user"] ["timescale", "eop", f] = .ok (.function ["timescale", "eop"] f) :=
    meaning h (by simp only [eop, List.mem_cons, List.not_mem_nil, or_false] at hf; rcases hf with rfl | rfl | rfl <;> decide)
  have h3 : resolve v ["pyTMD", "eop"] ["timescale", "eop", f] = .ok (.function ["timescale", "eop"] f) :=
    meaning h (by simp only [eop, List.mem_cons, List.not_mem_nil, or_false] at hf; rcases hf with rfl | rfl | rfl <;> decide)
  have h4 : body ["timescale", "eop"] f = Option.none := body_given.2.1 f (List.mem_append_left _ hf)
  have h5 : body ["pyTMD", "eop"] f = some (.returns ["timescale", "eop", f]) := by
    simp only [eop, List.mem_cons, List.not_mem_nil, or_false] at hf
    rcases hf with rfl | rfl | rfl <;> rfl
  rw [use, use, h1, h2]
  dsimp only [call]
  rw [h5, h4]
  dsimp only
  rw [h3]

/-- **C107** (updates): a function that brings files up to date does what its replacement does, but returns
nothing. -/
theorem C107_updates {w v : World} (h : session w = .ok v) (given : Value → A → S → Except PyErr R × S)
    (choice : A → String) (rest : A → A) (none : R) (f : String) (hf : f ∈ updates) (a : A) (s : S) :
    use v given choice rest none ["pyTMD", "eop", f] a s =
      ((use v given choice rest none ["timescale", "eop", f] a s).1.map fun _ => none,
        (use v given choice rest none ["timescale", "eop", f] a s).2) := by
  have h1 : resolve v ["user"] ["pyTMD", "eop", f] = .ok (.function ["pyTMD", "eop"] f) :=
    meaning h ((by decide : ∀ f ∈ updates, (["user"], ["pyTMD", "eop", f], (.ok (.function ["pyTMD", "eop"] f) : Except PyErr Value)) ∈ meanings) f hf)
  have h2 : resolve v ["user"] ["timescale", "eop", f] = .ok (.function ["timescale", "eop"] f) :=
    meaning h ((by decide : ∀ f ∈ updates, (["user"], ["timescale", "eop", f], (.ok (.function ["timescale", "eop"] f) : Except PyErr Value)) ∈ meanings) f hf)
  have h3 : resolve v ["pyTMD", "eop"] ["timescale", "eop", f] = .ok (.function ["timescale", "eop"] f) :=
    meaning h ((by decide : ∀ f ∈ updates, (["pyTMD", "eop"], ["timescale", "eop", f], (.ok (.function ["timescale", "eop"] f) : Except PyErr Value)) ∈ meanings) f hf)
  have h4 : body ["timescale", "eop"] f = Option.none := body_given.2.1 f (List.mem_append_right _ hf)
  have h5 : body ["pyTMD", "eop"] f = some (.calls ["timescale", "eop", f]) := by
    simp only [updates, List.mem_cons, List.not_mem_nil, or_false] at hf
    rcases hf with rfl | rfl | rfl | rfl <;> rfl
  rw [use, use, h1, h2]
  dsimp only [call]
  rw [h5, h4]
  dsimp only
  rw [h3]
  dsimp only
  cases hg : given (.function ["timescale", "eop"] f) a s with
  | mk r s' => cases r <;> rfl

/-- **C107** (corrections): the functions of pyTMD are those of `pyTMD.compute`. -/
theorem C107_compute {w v : World} (h : session w = .ok v) (given : Value → A → S → Except PyErr R × S)
    (choice : A → String) (rest : A → A) (none : R) (f g : String) (hf : (f, g) ∈ computed) (a : A) (s : S) :
    use v given choice rest none ["pyTMD", f] a s =
      use v given choice rest none ["pyTMD", "compute", g] a s := by
  have h2 : resolve v ["user"] ["pyTMD", "compute", g] = .ok (.function ["pyTMD", "compute"] g) :=
    meaning h ((by decide : ∀ q ∈ computed, (["user"], ["pyTMD", "compute", q.2],
      (.ok (.function ["pyTMD", "compute"] q.2) : Except PyErr Value)) ∈ meanings) _ hf)
  have h4 : body ["pyTMD", "compute"] g = Option.none := body_given.2.2 _ (List.mem_append_left _ hf)
  obtain ⟨home, h1, h3, h5⟩ : ∃ home, resolve v ["user"] ["pyTMD", f] = .ok (.function home f) ∧
      resolve v home ["pyTMD", "compute", g] = .ok (.function ["pyTMD", "compute"] g) ∧
      body home f = some (.returns ["pyTMD", "compute", g]) := by
    simp only [computed, List.mem_cons, List.not_mem_nil, or_false, Prod.mk.injEq] at hf
    rcases hf with ⟨rfl, rfl⟩ | ⟨rfl, rfl⟩ | ⟨rfl, rfl⟩ | ⟨rfl, rfl⟩ | ⟨rfl, rfl⟩ | ⟨rfl, rfl⟩
    · exact ⟨["pyTMD", "check_points"], meaning h (by decide), meaning h (by decide), rfl⟩
    all_goals exact ⟨["pyTMD", "compute_tide_corrections"], meaning h (by decide), meaning h (by decide), rfl⟩
  rw [use, use, h1, h2]
  dsimp only [call]
  rw [h5, h4]
  dsimp only
  rw [h3]

/-- **C107** (corrections by kind): `compute_corrections` calls the function of `pyTMD.compute` for the kind, with
the other arguments, in whatever letters; it refuses any other kind. -/
theorem C107_kind {w v : World} (h : session w = .ok v) (given : Value → A → S → Except PyErr R × S)
    (choice : A → String) (rest : A → A) (none : R) (a : A) (s : S) :
    (∀ kind g, (kind, g) ∈ corrections → (choice a).toUpper = kind.toUpper → (choice a).toLower = kind.toLower →
      use v given choice rest none ["pyTMD", "compute_corrections"] a s =
        use v given choice rest none ["pyTMD", "compute", g] (rest a) s) ∧
    ((∀ kind g, (kind, g) ∈ corrections → (choice a).toLower ≠ kind.toLower ∧ (choice a).toUpper ≠ kind.toUpper) →
      use v given choice rest none ["pyTMD", "compute_corrections"] a s = (.error .valueError, s)) := by
  have h1 : resolve v ["user"] ["pyTMD", "compute_corrections"] =
      .ok (.function ["pyTMD", "compute_tide_corrections"] "compute_corrections") := meaning h (by decide)
  have h5 : body ["pyTMD", "compute_tide_corrections"] "compute_corrections" = some (.chooses fun c =>
      if c.toLower ∈ ["ocean", "load"] then some ["pyTMD", "compute", "tide_elevations"]
      else if c.toUpper = "LPET" then some ["pyTMD", "compute", "LPET_elevations"]
      else if c.toUpper = "LPT" then some ["pyTMD", "compute", "LPT_displacements"]
      else if c.toUpper = "OPT" then some ["pyTMD", "compute", "OPT_displacements"]
      else if c.toUpper = "SET" then some ["pyTMD", "compute", "SET_displacements"]
      else Option.none) := rfl
  refine ⟨fun kind g hk hu hl => ?_, fun hn => ?_⟩
  · have h2 : resolve v ["user"] ["pyTMD", "compute", g] = .ok (.function ["pyTMD", "compute"] g) :=
      meaning h ((by decide : ∀ q ∈ corrections, (["user"], ["pyTMD", "compute", q.2],
        (.ok (.function ["pyTMD", "compute"] q.2) : Except PyErr Value)) ∈ meanings) _ hk)
    have h3 : resolve v ["pyTMD", "compute_tide_corrections"] ["pyTMD", "compute", g] =
        .ok (.function ["pyTMD", "compute"] g) := meaning h ((by decide : ∀ q ∈ corrections,
          (["pyTMD", "compute_tide_corrections"], ["pyTMD", "compute", q.2],
        (.ok (.function ["pyTMD", "compute"] q.2) : Except PyErr Value)) ∈ meanings) _ hk)
    have h4 : body ["pyTMD", "compute"] g = Option.none := body_given.2.2 _ (List.mem_append_right _ hk)
    rw [use, use, h1, h2]
    dsimp only [call]
    rw [h5, h4]
    dsimp only
    have hc : (if (choice a).toLower ∈ ["ocean", "load"] then some ["pyTMD", "compute", "tide_elevations"]
      else if (choice a).toUpper = "LPET" then some ["pyTMD", "compute", "LPET_elevations"]
      else if (choice a).toUpper = "LPT" then some ["pyTMD", "compute", "LPT_displacements"]
      else if (choice a).toUpper = "OPT" then some ["pyTMD", "compute", "OPT_displacements"]
      else if (choice a).toUpper = "SET" then some ["pyTMD", "compute", "SET_displacements"]
      else Option.none) = some ["pyTMD", "compute", g] := by
      rw [hu, hl]
      simp only [corrections, List.mem_cons, List.not_mem_nil, or_false, Prod.mk.injEq] at hk
      rcases hk with ⟨rfl, rfl⟩ | ⟨rfl, rfl⟩ | ⟨rfl, rfl⟩ | ⟨rfl, rfl⟩ | ⟨rfl, rfl⟩ | ⟨rfl, rfl⟩ <;> decide +kernel
    rw [hc]
    dsimp only
    rw [h3]
  · rw [use, h1]
    dsimp only [call]
    rw [h5]
    dsimp only
    have e1 : "ocean".toLower = "ocean" := by decide +kernel
    have e2 : "load".toLower = "load" := by decide +kernel
    have e3 : ∀ k ∈ ["LPET", "LPT", "OPT", "SET"], k.toUpper = k := by decide +kernel
    rw [if_neg, if_neg, if_neg, if_neg, if_neg]
    · rw [← e3 "SET" (by decide)]; exact (hn "SET" "SET_displacements" (by decide)).2
    · rw [← e3 "OPT" (by decide)]; exact (hn "OPT" "OPT_displacements" (by decide)).2
    · rw [← e3 "LPT" (by decide)]; exact (hn "LPT" "LPT_displacements" (by decide)).2
    · rw [← e3 "LPET" (by decide)]; exact (hn "LPET" "LPET_elevations" (by decide)).2
    · simp only [List.mem_cons, List.not_mem_nil, or_false, not_or]
      exact ⟨by rw [← e1]; exact (hn "ocean" "tide_elevations" (by decide)).1,
        by rw [← e2]; exact (hn "load" "tide_elevations" (by decide)).1⟩

/-- **C107** (refuted: times).  Every function of `pyTMD.time` raises an `AttributeError`, whatever the arguments and
whatever its replacement would give: the class `timescale` that the module defines at its end takes the name
of the package, and has no attribute `time`. -/
theorem C107_time_false {w v : World} (h : session w = .ok v) (given : Value → A → S → Except PyErr R × S)
    (choice : A → String) (rest : A → A) (none : R) (f : String) (hf : f ∈ time) (a : A) (s : S) :
    use v given choice rest none ["pyTMD", "time", f] a s = (.error .attributeError, s) ∧
    use v given choice rest none ["timescale", "time", f] a s = given (.function ["timescale", "time"] f) a s := by
  have h1 : resolve v ["user"] ["pyTMD", "time", f] = .ok (.function ["pyTMD", "time"] f) :=
    meaning h ((by decide : ∀ f ∈ time, (["user"], ["pyTMD", "time", f], (.ok (.function ["pyTMD", "time"] f) : Except PyErr Value)) ∈ meanings) f hf)
  have h2 : resolve v ["user"] ["timescale", "time", f] = .ok (.function ["timescale", "time"] f) :=
    meaning h ((by decide : ∀ f ∈ time, (["user"], ["timescale", "time", f], (.ok (.function ["timescale", "time"] f) : Except PyErr Value)) ∈ meanings) f hf)
  have h3 : resolve v ["pyTMD", "time"] ["timescale", "time", f] = .error .attributeError :=
    meaning h ((by decide : ∀ f ∈ time, (["pyTMD", "time"], ["timescale", "time", f], (.error .attributeError : Except PyErr Value)) ∈ meanings) f hf)
  have h4 : body ["timescale", "time"] f = Option.none := body_given.1 f hf
  have h5 : body ["pyTMD", "time"] f = some (.returns ["timescale", "time", f]) := by
    simp only [time, List.mem_cons, List.not_mem_nil, or_false] at hf
    rcases hf with rfl | rfl | rfl | rfl | rfl | rfl | rfl | rfl | rfl | rfl <;> rfl
  rw [use, use, h1, h2]
  dsimp only [call]
  rw [h5, h4]
  dsimp only
  rw [h3]
  exact ⟨rfl, rfl⟩

/-- **C107** (refuted: modules hidden by functions).  After `import pyTMD` the names of the modules `pyTMD.check_points` and
`pyTMD.compute_tide_corrections` are those of functions: what the modules define cannot be reached by them. -/
theorem C107_hidden_false {w v : World} (h : session w = .ok v) (given : Value → A → S → Except PyErr R × S)
    (choice : A → String) (rest : A → A) (none : R) (a : A) (s : S) :
    use v given choice rest none ["pyTMD", "check_points", "check_points"] a s = (.error .attributeError, s) ∧
    use v given choice rest none ["pyTMD", "compute_tide_corrections", "compute_corrections"] a s =
      (.error .attributeError, s) := by
  have h1 : resolve v ["user"] ["pyTMD", "check_points", "check_points"] = .error .attributeError :=
    meaning h (by decide)
  have h2 : resolve v ["user"] ["pyTMD", "compute_tide_corrections", "compute_corrections"] =
    .error .attributeError := meaning h (by decide)
  rw [use, use, h1, h2]
  exact ⟨rfl, rfl⟩

end Verif.Modules
