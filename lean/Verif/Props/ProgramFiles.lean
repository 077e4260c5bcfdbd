import Verif.Model.ProgramFiles
import Verif.Props.Store
import Verif.Props.Compute
/-!
C96: the programs for netCDF4 and HDF5 files.
-/
namespace Verif.Program
open Verif Verif.Listing Verif.Store Verif.Compute Verif.Spec.Store

theorem ended {α β : Type} {x : Except PyErr α} {f : α → Except PyErr β} {b : β}
    (h : (x >>= f) = .ok b) : ∃ a, x = .ok a ∧ f a = .ok b := by
  cases x with
  | error e => rw [error_bind] at h; cases h
  | ok a => exact ⟨a, rfl, by rwa [ok_bind] at h⟩

/-! ### What the files hold -/

/-- Reading a variable of a netCDF4 file shows these values. -/
def Finds (standard : ℝ) (file : Dict (Var ℝ)) (name : String) (shape : List Nat)
    (values : List (Option ℝ)) : Prop := by
  classical exact ∃ arr attrs, fromNetCDF standard [("data", name)] file = .ok [("data", arr, attrs)] ∧
    arr.shape = shape ∧ seen arr = values

theorem finds_of_back (standard : ℝ) (output : Dict (Arr ℝ)) (atts : Atts ℝ) (hd : Distinct output)
    (file : Dict (Var ℝ)) (after : Atts ℝ) (w : Except PyErr (Dict (Var ℝ) × Atts ℝ))
    (e : w = .ok (file, after)) (h : by classical exact Back standard output atts w)
    (name : String) (v : Arr ℝ) (hv : (name, v) ∈ output) :
    Finds standard file name v.shape (seen v) := by
  classical
  obtain ⟨file', after', e', r⟩ := h
  rw [e] at e'
  cases e'
  obtain ⟨read, h1, h2⟩ := r [("data", name)] (by
    intro m hm
    rw [List.mem_singleton] at hm
    subst hm
    exact List.mem_map.2 ⟨_, hv, rfl⟩)
  cases h2 with
  | cons g g' =>
    cases g'
    obtain ⟨g1, val, g2, g3, -⟩ := g
    have : val = v := by
      have a := lookup_of_mem hd g2
      have b := lookup_of_mem hd hv
      rw [a] at b
      exact Option.some.inj b
    subst this
    rename_i x
    obtain ⟨k, arr, attrs⟩ := x
    cases g1
    exact ⟨arr, attrs, h1, g3.1, g3.2⟩

/-- The file has the coordinates and the times under the names of the program, all with one axis. -/
structure Asked (s : FileSetup) (file : Dict (Var ℝ)) (x y t : List ℝ) (d : Input ℝ) : Prop where
  read : by classical exact fromNetCDF s.standard (FileNames.defaultMapping s.names) file = .ok d
  xs : ∃ n v, s.names[2]? = some n ∧ file.lookup n = some v ∧ v.vals = x
  ys : ∃ n v, s.names[1]? = some n ∧ file.lookup n = some v ∧ v.vals = y
  ts : ∃ n v, s.names[0]? = some n ∧ file.lookup n = some v ∧ v.vals = t

theorem fst_pairs {A B : Type} (l : List A) (g : A → B) : (l.map fun x => (x, g x)).map Prod.fst = l := by
  rw [List.map_map]
  exact List.map_id _

theorem entry_of (standard : ℝ) (mapping : Dict String) (file : Dict (Var ℝ)) (d : Input ℝ)
    (h : by classical exact fromNetCDF standard mapping file = .ok d) (key name : String) (v : Var ℝ)
    (hk : mapping.lookup key = some name) (hv : file.lookup name = some v) :
    entry d key = .ok v.vals := by
  classical
  rw [fromNetCDF] at h
  induction mapping generalizing d with
  | nil => cases hk
  | cons p mapping ih =>
    simp only [pyMap] at h
    split at h
    · cases h
    next b hb =>
      split at h
      · cases h
      next bs hbs =>
        cases h
        split at hb
        · cases hb
        next w hw =>
          cases hm : mask p.1 (fetch standard w) (foundNetCDF w.attrs) with
          | error e => rw [hm, error_bind] at hb; cases hb
          | ok a =>
            rw [hm, ok_bind] at hb
            cases hb
            have ha : a.vals.map Prod.fst = w.vals := by
              rw [mask] at hm
              split at hm
              · split at hm
                · cases hm; exact fst_pairs _ _
                · cases hm; rw [fetch]; dsimp only; rw [List.map_map]; exact fst_pairs _ _
                · cases hm
              · cases hm; exact fst_pairs _ _
            rw [entry]
            by_cases e : key = p.1
            · subst e
              rw [List.lookup_cons_self] at hk ⊢
              cases hk
              rw [hw] at hv
              cases hv
              dsimp only
              rw [ha]
            · have hb : (key == p.1) = false := by simpa using e
              rw [List.lookup_cons, hb] at hk ⊢
              have := ih bs hbs hk
              rw [entry] at this
              exact this

/-- The attributes of the values are clear to the reader. -/
structure Labelled (s : FileSetup) : Prop where
  name : s.variableName ∉ reserved
  distinct : (s.attrs.map Prod.fst).Nodup
  clear : Clear s.attrs
  free : "_FillValue" ∉ s.attrs.map Prod.fst

/-- The four arrays of an output. -/
def four (s : FileSetup) (lon lat v t : Arr ℝ) : Dict (Arr ℝ) :=
  [("lon", lon), ("lat", lat), (s.variableName, v), ("time", t)]

theorem not_reserved {s : FileSetup} (h : Labelled s) :
    s.variableName ≠ "lon" ∧ s.variableName ≠ "lat" ∧ s.variableName ≠ "time" := by
  refine ⟨fun e => h.name ?_, fun e => h.name ?_, fun e => h.name ?_⟩ <;> rw [e] <;> decide

theorem four_distinct {s : FileSetup} (h : Labelled s) (lon lat v t : Arr ℝ) :
    Distinct (four s lon lat v t) := by
  obtain ⟨h1, h2, h3⟩ := not_reserved h
  simp only [Distinct, four, List.map_cons, List.map_nil, List.nodup_cons, List.mem_cons,
    List.not_mem_nil, or_false, not_or, not_false_eq_true, List.nodup_nil, and_true]
  exact ⟨⟨by decide, fun e => h1 e.symm, by decide⟩, ⟨fun e => h2 e.symm, by decide⟩, h3⟩

theorem attributes_lookup {s : FileSetup} (h : Labelled s) :
    (attributes s).lookup "lon" = some [("long_name", .text "Longitude"), ("units", .text "Degrees_East")] ∧
    (attributes s).lookup "lat" = some [("long_name", .text "Latitude"), ("units", .text "Degrees_North")] ∧
    (attributes s).lookup s.variableName =
      some (s.attrs ++ if s.hasFill then [("_FillValue", .num s.fill)] else []) ∧
    (attributes s).lookup "time" = some [("long_name", .text "Time"), ("calendar", .text "standard"),
      ("units", .text "days since 1992-01-01T00:00:00")] := by
  obtain ⟨h1, h2, h3⟩ := not_reserved h
  have e1 : ("time" == s.variableName) = false := by simpa using fun e => h3 e.symm
  have e2 : (s.variableName == "lon") = false := by simpa using h1
  have e3 : (s.variableName == "lat") = false := by simpa using h2
  refine ⟨rfl, rfl, ?_, ?_⟩
  · simp only [attributes, List.lookup_cons, e2, e3, beq_self_eq_true]
  · rw [attributes, List.lookup_cons, show ("time" == "lat") = false by decide, List.lookup_cons,
      show ("time" == "lon") = false by decide, List.lookup_cons, e1]
    rfl

theorem lookup_none' {V : Type} {d : Dict V} {k : String} (h : k ∉ d.map Prod.fst) : d.lookup k = none := by
  induction d with
  | nil => rfl
  | cons p d ih =>
    rw [List.map_cons, List.mem_cons, not_or] at h
    have : (k == p.1) = false := by simpa using h.1
    rw [List.lookup_cons, this]
    exact ih h.2

theorem lookup_append' {V : Type} {d e : Dict V} {k : String} (h : d.lookup k = none) :
    (d ++ e).lookup k = e.lookup k := by
  induction d with
  | nil => rfl
  | cons p d ih =>
    rw [List.lookup_cons] at h
    rw [List.cons_append, List.lookup_cons]
    split at h
    · cases h
    · next hb => exact ih h

theorem value_fill {s : FileSetup} (h : Labelled s) :
    (s.attrs ++ if s.hasFill then [("_FillValue", Value.num s.fill)] else []).lookup "_FillValue" =
      if s.hasFill then some (.num s.fill) else none := by
  rw [lookup_append' (lookup_none' h.free)]
  split <;> rfl

/-- No value in sight is what stands for nothing. -/
structure Told (s : FileSetup) (lon lat v t : Arr ℝ) : Prop where
  lon : ∀ p ∈ lon.vals, p.1 ≠ s.standard
  lat : ∀ p ∈ lat.vals, p.1 ≠ s.standard
  time : ∀ p ∈ t.vals, p.1 ≠ s.standard
  value : ∀ p ∈ v.vals, p.2 = false → p.1 ≠ if s.hasFill then s.fill else s.standard

theorem fill_clear : ∀ attr ∈ kept, begins attr "_FillValue" = true → "_FillValue" = attr := by decide +kernel

theorem four_sound {s : FileSetup} (h : Labelled s) (lon lat v t : Arr ℝ) (ht : Told s lon lat v t) :
    Sound s.standard (four s lon lat v t) (attributes s) := by
  refine ⟨four_distinct h lon lat v t, ?_⟩
  obtain ⟨a1, a2, a3, a4⟩ := attributes_lookup h
  intro k w hk
  simp only [four, List.mem_cons, List.not_mem_nil, or_false, Prod.mk.injEq] at hk
  rcases hk with ⟨rfl, rfl⟩ | ⟨rfl, rfl⟩ | ⟨rfl, rfl⟩ | ⟨rfl, rfl⟩
  · exact ⟨_, a1, by unfold Distinct; decide, by unfold Clear; decide +kernel,
      Or.inl ⟨rfl, fun p hp _ => ht.lon p hp⟩⟩
  · exact ⟨_, a2, by unfold Distinct; decide, by unfold Clear; decide +kernel,
      Or.inl ⟨rfl, fun p hp _ => ht.lat p hp⟩⟩
  · refine ⟨_, a3, ?_, ?_, ?_⟩
    · rw [Distinct, List.map_append, List.nodup_append]
      refine ⟨h.distinct, by split <;> simp, ?_⟩
      intro x hx y hy e
      subst e
      split at hy
      · rw [List.map_cons, List.map_nil, List.mem_singleton] at hy
        subst hy
        exact h.free hx
      · cases hy
    · intro attr ha n hn hb
      rw [List.map_append, List.mem_append] at hn
      rcases hn with hn | hn
      · exact h.clear attr ha n hn hb
      · split at hn
        · rw [List.map_cons, List.map_nil, List.mem_singleton] at hn
          subst hn
          exact fill_clear attr ha hb
        · cases hn
    · rw [value_fill h]
      have hv := ht.value
      by_cases hf : s.hasFill = true
      · rw [if_pos hf] at hv ⊢
        exact Or.inr ⟨_, rfl, hv⟩
      · rw [if_neg hf] at hv ⊢
        exact Or.inl ⟨rfl, hv⟩
  · exact ⟨_, a4, by unfold Distinct; decide, by unfold Clear; decide +kernel,
      Or.inl ⟨rfl, fun p hp _ => ht.time p hp⟩⟩

theorem four_filled {s : FileSetup} (h : Labelled s) :
    Store.filled (attributes s) "lon" = false ∧ Store.filled (attributes s) "lat" = false ∧
    Store.filled (attributes s) "time" = false := by
  obtain ⟨a1, a2, _, a4⟩ := attributes_lookup h
  refine ⟨?_, ?_, ?_⟩
  · rw [Store.filled, a1]; rfl
  · rw [Store.filled, a2]; rfl
  · rw [Store.filled, a4]; rfl

/-- The arrays have the shapes for the type. -/
inductive Formed (s : FileSetup) (lon lat v t : Arr ℝ) : Prop
  | drift (n : Nat) (h : s.type = "drift") (h1 : lon.shape = [n]) (h2 : lat.shape = [n]) (h3 : v.shape = [n])
      (h4 : t.shape = [n])
  | grid (ny nx nt : Nat) (h : s.type = "grid") (h1 : lon.shape = [ny, nx]) (h2 : lat.shape = [ny, nx])
      (h3 : v.shape = [ny, nx, nt]) (h4 : t.shape = [nt])
  | series (ns nt : Nat) (h : s.type = "time series") (h1 : lon.shape = [ns]) (h2 : lat.shape = [ns])
      (h3 : v.shape = [ns, nt]) (h4 : t.shape = [nt])

open Classical in
theorem four_back {s : FileSetup} (h : Labelled s) (lon lat v t : Arr ℝ) (ht : Told s lon lat v t)
    (hf : Formed s lon lat v t) :
    Back s.standard (four s lon lat v t) (attributes s)
      (toNetCDF s.standard s.type (four s lon lat v t) (attributes s)) := by
  classical
  have hs := four_sound h lon lat v t ht
  obtain ⟨f1, f2, f3⟩ := four_filled h
  have mem : ∀ k w, (k, w) ∈ four s lon lat v t → (k = "lon" ∧ w = lon) ∨ (k = "lat" ∧ w = lat) ∨
      (k = s.variableName ∧ w = v) ∨ (k = "time" ∧ w = t) := by
    intro k w hk
    simpa only [four, List.mem_cons, List.not_mem_nil, or_false, Prod.mk.injEq] using hk
  have hv : (s.variableName, v) ∈ four s lon lat v t := by simp [four]
  have hti : ("time", t) ∈ four s lon lat v t := by simp [four]
  cases hf with
  | drift n e h1 h2 h3 h4 =>
    rw [e]
    refine C89_drift s.standard _ _ n hs ⟨⟨t, lookup_of_mem hs.names hti, h4⟩, ?_⟩
    intro k w hk
    rcases mem k w hk with ⟨rfl, rfl⟩ | ⟨rfl, rfl⟩ | ⟨rfl, rfl⟩ | ⟨rfl, rfl⟩
    · exact Or.inl h1
    · exact Or.inl h2
    · exact Or.inl h3
    · exact Or.inl h4
  | grid ny nx nt e h1 h2 h3 h4 =>
    rw [e]
    refine C89_grid s.standard _ _ ny nx nt hs ⟨⟨_, _, hv, by rw [h3]; rfl, h.name⟩, ?_⟩
    intro k w hk
    rcases mem k w hk with ⟨rfl, rfl⟩ | ⟨rfl, rfl⟩ | ⟨rfl, rfl⟩ | ⟨rfl, rfl⟩
    · exact Or.inr ⟨by rw [h1]; simp, f1⟩
    · exact Or.inr ⟨by rw [h2]; simp, f2⟩
    · exact Or.inl h3
    · exact Or.inr ⟨by rw [h4]; simp, f3⟩
  | series ns nt e h1 h2 h3 h4 =>
    rw [e]
    refine C89_series s.standard _ _ ns nt hs ⟨⟨_, _, hv, by rw [h3]; rfl, h.name⟩, ?_⟩
    intro k w hk
    rcases mem k w hk with ⟨rfl, rfl⟩ | ⟨rfl, rfl⟩ | ⟨rfl, rfl⟩ | ⟨rfl, rfl⟩
    · exact Or.inr ⟨by rw [h1]; simp, f1⟩
    · exact Or.inr ⟨by rw [h2]; simp, f2⟩
    · exact Or.inl h3
    · exact Or.inr ⟨by rw [h4]; simp, f3⟩

theorem asked_entries {s : FileSetup} {file : Dict (Var ℝ)} {x y t : List ℝ} {d : Input ℝ}
    (h : Asked s file x y t d) :
    entry d "x" = .ok x ∧ entry d "y" = .ok y ∧ entry d "time" = .ok t := by
  classical
  obtain ⟨n2, v2, a2, b2, c2⟩ := h.xs
  obtain ⟨n1, v1, a1, b1, c1⟩ := h.ys
  obtain ⟨n0, v0, a0, b0, c0⟩ := h.ts
  obtain ⟨rest, hr⟩ : ∃ rest, s.names = n0 :: n1 :: n2 :: rest := by
    match hn : s.names with
    | [] => rw [hn] at a0; simp at a0
    | [_] => rw [hn] at a1; simp at a1
    | [_, _] => rw [hn] at a2; simp at a2
    | p :: q :: r :: rest =>
      rw [hn] at a0 a1 a2
      simp only [List.getElem?_cons_zero, List.getElem?_cons_succ, Option.some.injEq] at a0 a1 a2
      subst a0 a1 a2
      exact ⟨rest, rfl⟩
  have m : FileNames.defaultMapping s.names =
      ("time", n0) :: ("y", n1) :: ("x", n2) :: ["data"].zip rest := by
    rw [hr]; rfl
  have hrd := h.read
  rw [m] at hrd
  refine ⟨?_, ?_, ?_⟩
  · rw [← c2]; exact entry_of _ _ _ _ hrd "x" n2 v2 rfl b2
  · rw [← c1]; exact entry_of _ _ _ _ hrd "y" n1 v1 rfl b1
  · rw [← c0]; exact entry_of _ _ _ _ hrd "time" n0 v0 rfl b0

/-- What the program writes, once the arrays have the shapes for the type. -/
theorem program_writes {s : FileSetup} (h : Labelled s) {file : Dict (Var ℝ)} {d : Input ℝ} (lon lat v t : Arr ℝ)
    (hr : by classical exact fromNetCDF s.standard (FileNames.defaultMapping s.names) file = .ok d)
    (ho : outputOf s d = .ok (four s lon lat v t)) (ht : Told s lon lat v t) (hf : Formed s lon lat v t) :
    ∃ out, programNetCDF s file = .ok out ∧ Finds s.standard out "lon" lon.shape (seen lon) ∧
      Finds s.standard out "lat" lat.shape (seen lat) ∧
      Finds s.standard out s.variableName v.shape (seen v) ∧
      Finds s.standard out "time" t.shape (seen t) := by
  classical
  have hb := four_back h lon lat v t ht hf
  obtain ⟨out, after, e, -⟩ := id hb
  refine ⟨out, ?_, ?_, ?_, ?_, ?_⟩
  · rw [programNetCDF, hr, ok_bind, ho, ok_bind, e, ok_bind]
  all_goals refine finds_of_back s.standard _ _ (four_distinct h lon lat v t) out after _ e hb _ _ ?_
  all_goals simp [four]

/-! ### The programs for netCDF4 files -/

/-- The points of a request: all pairs of a grid, row by row, or the pairs of the lists. -/
def pointsOf (s : FileSetup) (x y : List ℝ) : List (ℝ × ℝ) :=
  if s.type = "grid" then (y.flatMap fun v => x.map fun u => (u, v)).map s.lonLat
  else (x.zip y).map s.lonLat

/-- The times of a request in the units of the file. -/
def timesOf (s : FileSetup) (d : Input ℝ) (t : List ℝ) : List (ℝ × ℝ) := t.map (s.scale (units d))

theorem output_eq {s : FileSetup} {x y t : List ℝ} {d : Input ℝ}
    (h : entry d "x" = .ok x ∧ entry d "y" = .ok y ∧ entry d "time" = .ok t) (h0 : s.time = none) (ht : s.type ∈ ["grid", "drift", "time series"]) (out : Out)
    (hc : s.compute y.length x.length (pointsOf s x y) (timesOf s d t) = .ok out) :
    let shape := if s.type = "grid" then [y.length, x.length] else [(pointsOf s x y).length]
    outputOf s d = .ok (four s ⟨shape, (pointsOf s x y).map fun p => (p.1, false)⟩
      ⟨shape, (pointsOf s x y).map fun p => (p.2, false)⟩
      (arrayOf s.fill y.length x.length t.length out)
      ⟨[t.length], (timesOf s d t).map fun p => (p.1, false)⟩) := by
  obtain ⟨hx, hy, htm⟩ := h
  have low : s.type.toLower ∈ ["grid", "drift", "time series"] := by
    simp only [List.mem_cons, List.not_mem_nil, or_false] at ht
    rcases ht with e | e | e <;> rw [e] <;> decide +kernel
  intro shape
  rw [outputOf, if_neg (not_not.2 low), if_neg (not_not.2 ht), hy, ok_bind, hx, ok_bind, h0]
  dsimp only
  rw [htm, ok_bind]
  refine (congrArg (fun e => e >>= _) hc).trans ?_
  rw [ok_bind]
  simp only [List.length_map, four, pointsOf, timesOf, shape]

theorem seen_plain (shape : List Nat) (l : List (ℝ × ℝ)) (f : ℝ × ℝ → ℝ) :
    seen ⟨shape, l.map fun p => (f p, false)⟩ = l.map fun p => some (f p) := by
  rw [seen, List.map_map]
  rfl

theorem seen_cell (fill : ℝ) (v : Option ℝ) : (if (cell fill v).2 then none else some (cell fill v).1) = v := by
  cases v <;> rfl

/-- Values that can be told from what stands for nothing. -/
def Legible (s : FileSetup) (points ts : List (ℝ × ℝ)) (values : List (Option ℝ)) : Prop :=
  (∀ p ∈ points, p.1 ≠ s.standard ∧ p.2 ≠ s.standard) ∧ (∀ p ∈ ts, p.1 ≠ s.standard) ∧
    ∀ v, some v ∈ values → v ≠ if s.hasFill then s.fill else s.standard

theorem told_of {s : FileSetup} {points ts : List (ℝ × ℝ)} {values : List (Option ℝ)} (v : Arr ℝ)
    (h : Legible s points ts values) (hv : seen v = values) (shape shape' : List Nat) :
    Told s ⟨shape, points.map fun p => (p.1, false)⟩ ⟨shape, points.map fun p => (p.2, false)⟩ v
      ⟨shape', ts.map fun p => (p.1, false)⟩ := by
  obtain ⟨h1, h2, h3⟩ := h
  refine ⟨?_, ?_, ?_, ?_⟩
  · intro p hp
    obtain ⟨q, hq, rfl⟩ := List.mem_map.1 hp
    exact (h1 q hq).1
  · intro p hp
    obtain ⟨q, hq, rfl⟩ := List.mem_map.1 hp
    exact (h1 q hq).2
  · intro p hp
    obtain ⟨q, hq, rfl⟩ := List.mem_map.1 hp
    exact h2 q hq
  · intro p hp hm
    refine h3 p.1 ?_
    rw [← hv]
    exact List.mem_map.2 ⟨p, hp, by rw [hm]; rfl⟩

/-- What a file holds for a request: the places, the times and the values, each under its name. -/
def Holds (s : FileSetup) (out : Dict (Var ℝ)) (shape vshape : List Nat) (points ts : List (ℝ × ℝ))
    (values : List (Option ℝ)) : Prop :=
  Finds s.standard out "lon" shape (points.map fun p => some p.1) ∧
    Finds s.standard out "lat" shape (points.map fun p => some p.2) ∧
    Finds s.standard out "time" [ts.length] (ts.map fun p => some p.1) ∧
    Finds s.standard out s.variableName vshape values

/-- Tracks: reading the file that the program writes gives the places, the times and the value for each. -/
theorem C96_drift (s : FileSetup) (h : Labelled s) (file : Dict (Var ℝ)) (x y t : List ℝ) (d : Input ℝ)
    (ha : Asked s file x y t d) (h0 : s.time = none) (ht : s.type = "drift") (hx : x.length = t.length)
    (hy : y.length = t.length) (l : List (Option ℝ))
    (hc : s.compute y.length x.length (pointsOf s x y) (timesOf s d t) = .ok (.drift l)) (hl : l.length = t.length)
    (hv : Legible s (pointsOf s x y) (timesOf s d t) l) :
    ∃ out, programNetCDF s file = .ok out ∧
      Holds s out [t.length] [t.length] (pointsOf s x y) (timesOf s d t) l := by
  have ng : ¬ s.type = "grid" := by rw [ht]; decide
  have hp : (pointsOf s x y).length = t.length := by
    rw [pointsOf, if_neg ng, List.length_map, List.length_zip, hx, hy, Nat.min_self]
  have ho := output_eq (asked_entries ha) h0 (by rw [ht]; simp) _ hc
  dsimp only at ho
  rw [if_neg ng, hp] at ho
  have sv : seen (arrayOf s.fill y.length x.length t.length (.drift l)) = l := by
    rw [arrayOf, seen, List.map_map]
    exact (List.map_congr_left fun v _ => seen_cell s.fill v).trans (List.map_id _)
  obtain ⟨out, e, f1, f2, f3, f4⟩ := program_writes h _ _ _ _ ha.read ho (told_of _ hv sv _ _)
    (.drift t.length ht rfl rfl (by rw [arrayOf, hl]) rfl)
  refine ⟨out, e, ?_, ?_, ?_, ?_⟩
  · rw [seen_plain] at f1; exact f1
  · rw [seen_plain] at f2; exact f2
  · rw [seen_plain] at f4; rw [timesOf, List.length_map]; exact f4
  · rw [sv] at f3
    simpa only [arrayOf, hl] using f3

/-- The values of a grid as they lie in the file: point by point, row by row, and for each all times. -/
def byPoint (n : Nat) (l : List (List (Option ℝ))) : List (Option ℝ) :=
  (List.range n).flatMap fun p => l.map fun row => row.getD p none

/-- Grids: reading the file that the program writes gives the places, the times and the values of every point at
every time. -/
theorem C96_grid (s : FileSetup) (h : Labelled s) (file : Dict (Var ℝ)) (x y t : List ℝ) (d : Input ℝ)
    (ha : Asked s file x y t d) (h0 : s.time = none) (ht : s.type = "grid") (l : List (List (Option ℝ)))
    (hc : s.compute y.length x.length (pointsOf s x y) (timesOf s d t) = .ok (.grid l))
    (hv : Legible s (pointsOf s x y) (timesOf s d t) (byPoint (y.length * x.length) l)) :
    ∃ out, programNetCDF s file = .ok out ∧
      Holds s out [y.length, x.length] [y.length, x.length, t.length] (pointsOf s x y) (timesOf s d t)
        (byPoint (y.length * x.length) l) := by
  have ho := output_eq (asked_entries ha) h0 (by rw [ht]; simp) _ hc
  dsimp only at ho
  rw [if_pos ht] at ho
  have sv : seen (arrayOf s.fill y.length x.length t.length (.grid l)) = byPoint (y.length * x.length) l := by
    rw [arrayOf, seen, byPoint, List.map_flatMap]
    refine List.flatMap_congr fun p _ => ?_
    rw [List.map_map]
    exact List.map_congr_left fun row _ => seen_cell s.fill _
  obtain ⟨out, e, f1, f2, f3, f4⟩ := program_writes h _ _ _ _ ha.read ho (told_of _ hv sv _ _)
    (.grid y.length x.length t.length ht rfl rfl rfl rfl)
  refine ⟨out, e, ?_, ?_, ?_, ?_⟩
  · rw [seen_plain] at f1; exact f1
  · rw [seen_plain] at f2; exact f2
  · rw [seen_plain] at f4; rw [timesOf, List.length_map]; exact f4
  · rw [sv] at f3
    exact f3

/-- Time series: reading the file that the program writes gives the places, the times and the values of every
station at every time. -/
theorem C96_series (s : FileSetup) (h : Labelled s) (file : Dict (Var ℝ)) (x y t : List ℝ) (d : Input ℝ)
    (ha : Asked s file x y t d) (h0 : s.time = none) (ht : s.type = "time series") (hx : x.length = y.length)
    (l : List (List (Option ℝ)))
    (hc : s.compute y.length x.length (pointsOf s x y) (timesOf s d t) = .ok (.series l)) (hl : l.length = x.length)
    (hv : Legible s (pointsOf s x y) (timesOf s d t) l.flatten) :
    ∃ out, programNetCDF s file = .ok out ∧
      Holds s out [x.length] [x.length, t.length] (pointsOf s x y) (timesOf s d t) l.flatten := by
  have ng : ¬ s.type = "grid" := by rw [ht]; decide
  have hp : (pointsOf s x y).length = x.length := by
    rw [pointsOf, if_neg ng, List.length_map, List.length_zip, hx, Nat.min_self]
  have ho := output_eq (asked_entries ha) h0 (by rw [ht]; simp) _ hc
  dsimp only at ho
  rw [if_neg ng, hp] at ho
  have sv : seen (arrayOf s.fill y.length x.length t.length (.series l)) = l.flatten := by
    rw [arrayOf, seen, List.map_flatMap, ← List.flatMap_id]
    refine List.flatMap_congr fun row _ => ?_
    rw [List.map_map]
    exact (List.map_congr_left fun v _ => seen_cell s.fill v).trans (List.map_id _)
  obtain ⟨out, e, f1, f2, f3, f4⟩ := program_writes h _ _ _ _ ha.read ho (told_of _ hv sv _ _)
    (.series x.length t.length ht rfl rfl (by rw [arrayOf, hl]) rfl)
  refine ⟨out, e, ?_, ?_, ?_, ?_⟩
  · rw [seen_plain] at f1; exact f1
  · rw [seen_plain] at f2; exact f2
  · rw [seen_plain] at f4; rw [timesOf, List.length_map]; exact f4
  · rw [sv] at f3
    simpa only [arrayOf, hl] using f3

/-! ### Tidal elevations -/

theorem byPoint_eq {A : Type} (Q : List A) (ts : List (ℝ × ℝ)) (f : A → ℝ × ℝ → Option ℝ) :
    byPoint Q.length (ts.map fun t => Q.map fun q => f q t) = Q.flatMap fun q => ts.map (f q) := by
  rw [byPoint, List.flatMap, List.flatMap]
  congr 1
  refine List.ext_getElem (by simp) fun i h1 h2 => ?_
  have hi : i < Q.length := by simpa using h2
  simp only [List.getElem_map, List.getElem_range, List.map_map]
  refine List.map_congr_left fun t _ => ?_
  simp [hi]

theorem mesh_length (x y : List ℝ) : (y.flatMap fun v => x.map fun u => (u, v)).length = y.length * x.length := by
  induction y with
  | nil => simp
  | cons v y ih => rw [List.flatMap_cons, List.length_append, ih, List.length_map, List.length_cons]; ring

/-- The program for tidal elevations. -/
structure Elevations (P : Predict.Env) (I : Infer.Env) (s : FileSetup) (o : Options)
    (extract : List (ℝ × ℝ) → Except PyErr Extracted) : Prop where
  compute : s.compute = tides P I o extract
  type : s.type = o.type

/-- Elevations of grids: the file holds for every point of the grid, row by row, and every time the elevation that
`tide_elevations` gives for the constants of that point. -/
theorem C96_tide_grid (P : Predict.Env) (I : Infer.Env) (s : FileSetup) (o : Options)
    (extract : List (ℝ × ℝ) → Except PyErr Extracted) (hs : Elevations P I s o extract) (h : Labelled s)
    (file : Dict (Var ℝ)) (x y t : List ℝ) (d : Input ℝ) (ha : Asked s file x y t d) (h0 : s.time = none)
    (ht : s.type = "grid") (m : Extracted) (hm : extract (pointsOf s x y) = .ok m) (hc : Complete P I o m)
    (hn : m.amp.length = (pointsOf s x y).length)
    (hv : Legible s (pointsOf s x y) (timesOf s d t)
      ((m.amp.zip m.ph).flatMap fun q => (timesOf s d t).map (answer P I o m q))) :
    ∃ out, programNetCDF s file = .ok out ∧
      Holds s out [y.length, x.length] [y.length, x.length, t.length] (pointsOf s x y) (timesOf s d t)
        ((m.amp.zip m.ph).flatMap fun q => (timesOf s d t).map (answer P I o m q)) := by
  have hlen : m.amp.length = y.length * x.length := by
    rw [hn, pointsOf, if_pos ht, List.length_map, mesh_length]
  have hq : (m.amp.zip m.ph).length = y.length * x.length := by
    rw [List.length_zip, ← hc.points, hlen, Nat.min_self]
  have low : o.type.toLower = "grid" := by rw [← hs.type, ht]; decide +kernel
  have e : s.compute y.length x.length (pointsOf s x y) (timesOf s d t) =
      .ok (.grid ((timesOf s d t).map fun t => (m.amp.zip m.ph).map fun q => answer P I o m q t)) := by
    rw [hs.compute, tides, hm, ok_bind, C59_grid P I o _ _ m _ hc low hlen]
  have b := byPoint_eq (m.amp.zip m.ph) (timesOf s d t) (answer P I o m)
  rw [hq] at b
  rw [← b] at hv ⊢
  exact C96_grid s h file x y t d ha h0 ht _ e hv

/-- Elevations of tracks: the file holds for every point the elevation at its time. -/
theorem C96_tide_drift (P : Predict.Env) (I : Infer.Env) (s : FileSetup) (o : Options)
    (extract : List (ℝ × ℝ) → Except PyErr Extracted) (hs : Elevations P I s o extract) (h : Labelled s)
    (file : Dict (Var ℝ)) (x y t : List ℝ) (d : Input ℝ) (ha : Asked s file x y t d) (h0 : s.time = none)
    (ht : s.type = "drift") (hx : x.length = t.length) (hy : y.length = t.length)
    (m : Extracted) (hm : extract (pointsOf s x y) = .ok m) (hc : Complete P I o m)
    (hn : m.amp.length = (pointsOf s x y).length)
    (hv : Legible s (pointsOf s x y) (timesOf s d t)
      (List.zipWith (answer P I o m) (m.amp.zip m.ph) (timesOf s d t))) :
    ∃ out, programNetCDF s file = .ok out ∧
      Holds s out [t.length] [t.length] (pointsOf s x y) (timesOf s d t)
        (List.zipWith (answer P I o m) (m.amp.zip m.ph) (timesOf s d t)) := by
  have hlen : m.amp.length = (timesOf s d t).length := by
    rw [hn, pointsOf, if_neg (by rw [ht]; decide), List.length_map, List.length_zip, hx, hy, Nat.min_self,
      timesOf, List.length_map]
  have low : o.type.toLower = "drift" := by rw [← hs.type, ht]; decide +kernel
  have e : s.compute y.length x.length (pointsOf s x y) (timesOf s d t) =
      .ok (.drift (List.zipWith (answer P I o m) (m.amp.zip m.ph) (timesOf s d t))) := by
    rw [hs.compute, tides, hm, ok_bind, C59_drift P I o _ _ m _ hc low hlen]
  refine C96_drift s h file x y t d ha h0 ht hx hy _ e ?_ hv
  rw [List.length_zipWith, List.length_zip, ← hc.points, hlen, Nat.min_self, Nat.min_self, timesOf, List.length_map]

/-- Elevations of time series: the file holds for every station and every time the elevation. -/
theorem C96_tide_series (P : Predict.Env) (I : Infer.Env) (s : FileSetup) (o : Options)
    (extract : List (ℝ × ℝ) → Except PyErr Extracted) (hs : Elevations P I s o extract) (h : Labelled s)
    (file : Dict (Var ℝ)) (x y t : List ℝ) (d : Input ℝ) (ha : Asked s file x y t d) (h0 : s.time = none)
    (ht : s.type = "time series") (hx : x.length = y.length) (ht0 : t ≠ [])
    (m : Extracted) (hm : extract (pointsOf s x y) = .ok m) (hc : Complete P I o m)
    (hn : m.amp.length = (pointsOf s x y).length)
    (hv : Legible s (pointsOf s x y) (timesOf s d t)
      ((m.amp.zip m.ph).flatMap fun q => (timesOf s d t).map (answer P I o m q))) :
    ∃ out, programNetCDF s file = .ok out ∧
      Holds s out [x.length] [x.length, t.length] (pointsOf s x y) (timesOf s d t)
        ((m.amp.zip m.ph).flatMap fun q => (timesOf s d t).map (answer P I o m q)) := by
  have low : o.type.toLower = "time series" := by rw [← hs.type, ht]; decide +kernel
  have e : s.compute y.length x.length (pointsOf s x y) (timesOf s d t) =
      .ok (.series ((m.amp.zip m.ph).map fun q => (timesOf s d t).map fun t => answer P I o m q t)) := by
    rw [hs.compute, tides, hm, ok_bind, C59_series P I o _ _ m _ hc low (by simpa [timesOf] using ht0)]
  refine C96_series s h file x y t d ha h0 ht hx _ e ?_ hv
  rw [List.length_map, List.length_zip, ← hc.points, Nat.min_self, hn, pointsOf, if_neg (by rw [ht]; decide),
    List.length_map, List.length_zip, hx, Nat.min_self]

/-! ### What fails -/

/-- A type in other letters passes the check and gives no file. -/
theorem C96_case_false (s : FileSetup) (ht : s.type ∉ ["grid", "drift", "time series"]) (file : Dict (Var ℝ)) :
    (∀ out, programNetCDF s file ≠ .ok out) ∧ ∀ out, programHDF5 s file ≠ .ok out := by
  have no : ∀ d r, outputOf s d ≠ .ok r := by
    intro d r h
    rw [outputOf] at h
    split at h
    · cases h
    · first
        | cases h
        | (rw [if_pos ht] at h; cases h)
  constructor
  · intro out h
    rw [programNetCDF] at h
    obtain ⟨d, -, h⟩ := ended h
    obtain ⟨r, hr, -⟩ := ended h
    exact no d r hr
  · intro out h
    rw [programHDF5] at h
    obtain ⟨d, -, h⟩ := ended h
    obtain ⟨r, hr, -⟩ := ended h
    exact no d r hr

/-- The program for solid Earth tides gives no file for any grid of more than one point. -/
theorem C96_solid_false (s : FileSetup)
    (values : Nat → Nat → List (ℝ × ℝ) → List (ℝ × ℝ) → Except PyErr Out)
    (hs : s.compute = rotated s.type values) (ht : s.type = "grid") (h0 : s.time = none)
    (file : Dict (Var ℝ)) (x y t : List ℝ) (d : Input ℝ) (ha : Asked s file x y t d)
    (h1 : ¬ (y.length = 1 ∧ x.length = 1)) : programNetCDF s file = .error .valueError := by
  obtain ⟨hx, hy, htm⟩ := asked_entries ha
  have e : ∀ ps ts, s.compute y.length x.length ps ts = .error .valueError := by
    intro ps ts
    rw [hs, rotated, if_pos ht, if_neg]
    simp [assignable]
    intro hh
    rcases hh with hh | hh <;> omega
  have ho : outputOf s d = .error .valueError := by
    rw [outputOf, if_neg (by rw [ht]; decide +kernel), if_neg (by rw [ht]; decide), hy, ok_bind, hx, ok_bind, h0]
    dsimp only
    rw [htm, ok_bind, e, error_bind]
  rw [programNetCDF, ha.read, ok_bind, ho, error_bind]

/-- Reading a dataset of a HDF5 file shows these values. -/
def FindsHDF5 (file : Dict (Var ℝ)) (name : String) (shape : List Nat) (values : List (Option ℝ)) : Prop := by
  classical exact ∃ arr attrs, fromHDF5 [("data", name)] file = .ok [("data", arr, attrs)] ∧
    arr.shape = shape ∧ seen arr = values

/-- HDF5 files do not tell what is masked: where there is no value, the file that the program writes for a track
gives back the number that stands for nothing. -/
theorem C96_hdf5_false (s : FileSetup) (h : Labelled s) (file : Dict (Var ℝ)) (x y t : List ℝ) (d : Input ℝ)
    (hr : by classical exact fromHDF5 (FileNames.defaultMapping s.names) file = .ok d)
    (hd : entry d "x" = .ok x ∧ entry d "y" = .ok y ∧ entry d "time" = .ok t) (h0 : s.time = none)
    (ht : s.type = "drift") (l : List (Option ℝ))
    (hc : s.compute y.length x.length (pointsOf s x y) (timesOf s d t) = .ok (.drift l)) :
    ∃ out, programHDF5 s file = .ok out ∧
      FindsHDF5 out s.variableName [l.length] (l.map fun v => some (v.getD s.fill)) := by
  classical
  have ho := output_eq hd h0 (by rw [ht]; simp) _ hc
  dsimp only at ho
  rw [if_neg (by rw [ht]; decide)] at ho
  obtain ⟨a1, a2, a3, a4⟩ := attributes_lookup h
  have hp : Plain (four s ⟨[(pointsOf s x y).length], (pointsOf s x y).map fun p => (p.1, false)⟩
      ⟨[(pointsOf s x y).length], (pointsOf s x y).map fun p => (p.2, false)⟩
      (arrayOf s.fill y.length x.length t.length (.drift l))
      ⟨[t.length], (timesOf s d t).map fun p => (p.1, false)⟩) (attributes s) := by
    refine ⟨four_distinct h _ _ _ _, ?_⟩
    intro k w hk
    simp only [four, List.mem_cons, List.not_mem_nil, or_false, Prod.mk.injEq] at hk
    rcases hk with ⟨rfl, rfl⟩ | ⟨rfl, rfl⟩ | ⟨rfl, rfl⟩ | ⟨rfl, rfl⟩
    · exact ⟨_, a1, Or.inl rfl⟩
    · exact ⟨_, a2, Or.inl rfl⟩
    · refine ⟨_, a3, ?_⟩
      rw [value_fill h]
      split
      · exact Or.inr ⟨_, rfl, by simp [arrayOf]⟩
      · exact Or.inl rfl
    · exact ⟨_, a4, Or.inl rfl⟩
  obtain ⟨out, after, e, r⟩ := C90_file 0 _ _ hp
  refine ⟨out, by rw [programHDF5, hr, ok_bind, ho, ok_bind, e, ok_bind], ?_⟩
  have hv : (s.variableName, arrayOf s.fill y.length x.length t.length (.drift l)) ∈
      four s ⟨[(pointsOf s x y).length], (pointsOf s x y).map fun p => (p.1, false)⟩
      ⟨[(pointsOf s x y).length], (pointsOf s x y).map fun p => (p.2, false)⟩
      (arrayOf s.fill y.length x.length t.length (.drift l))
      ⟨[t.length], (timesOf s d t).map fun p => (p.1, false)⟩ := by simp [four]
  obtain ⟨read, h1, h2⟩ := r [("data", s.variableName)] (by
    intro m hm
    rw [List.mem_singleton] at hm
    subst hm
    exact ⟨_, hv, by simp [arrayOf]⟩)
  cases h2 with
  | cons g g' =>
    cases g'
    obtain ⟨g1, val, g2, g3, -⟩ := g
    obtain ⟨⟨k, w⟩, hw, hk⟩ := List.mem_map.1 g2
    cases hk
    have : w = arrayOf s.fill y.length x.length t.length (.drift l) := by
      have a := lookup_of_mem hp.names hw
      have b := lookup_of_mem hp.names hv
      rw [a] at b
      exact Option.some.inj b
    subst this
    rename_i z
    obtain ⟨k, arr, attrs⟩ := z
    cases g1
    refine ⟨arr, attrs, h1, g3.1, g3.2.trans ?_⟩
    rw [bare, seen, arrayOf]
    dsimp only
    rw [List.map_map, List.map_map]
    refine List.map_congr_left fun v _ => ?_
    cases v <;> rfl

/-! ### The hypotheses can be met -/

/-- A track of two points of which the second one has no value. -/
noncomputable def walk : FileSetup where
  standard := 1000
  names := ["time", "lat", "lon"]
  time := none
  lonLat := id
  scale _ t := (t, 0)
  type := "drift"
  fill := -9999
  variableName := "tide_ocean"
  attrs := [("units", .text "meters")]
  hasFill := true
  compute _ _ _ _ := .ok (.drift [some 1, none])

noncomputable def walkFile : Dict (Var ℝ) :=
  [("time", ⟨["time"], [2], [0, 1], []⟩), ("lat", ⟨["time"], [2], [60, 61], []⟩),
    ("lon", ⟨["time"], [2], [10, 11], []⟩)]

example : Labelled walk := by
  refine ⟨by decide, by decide, ?_, by decide⟩
  intro attr h1 n h2 h3
  simp only [walk, List.map_cons, List.map_nil, List.mem_singleton] at h2
  subst h2
  revert attr
  decide

example : ∃ d, Asked walk walkFile [10, 11] [60, 61] [0, 1] d ∧
    Legible walk (pointsOf walk [10, 11] [60, 61]) (timesOf walk d [0, 1]) [some 1, none] := by
  refine ⟨_, ⟨rfl, ⟨"lon", _, rfl, rfl, rfl⟩, ⟨"lat", _, rfl, rfl, rfl⟩, ⟨"time", _, rfl, rfl, rfl⟩⟩, ?_, ?_, ?_⟩
  · intro p hp
    rw [pointsOf, if_neg (by decide)] at hp
    simp only [walk, List.zip_cons_cons, List.zip_nil_right, List.map_cons, List.map_nil, List.mem_cons,
      List.not_mem_nil, or_false, id] at hp
    rcases hp with rfl | rfl <;> constructor <;> simp [walk]
  · intro p hp
    simp only [timesOf, walk, List.map_cons, List.map_nil, List.mem_cons, List.not_mem_nil, or_false] at hp
    rcases hp with rfl | rfl <;> simp [walk]
  · intro v hv
    simp only [List.mem_cons, Option.some.injEq, List.not_mem_nil, or_false, reduceCtorEq] at hv
    subst hv
    simp [walk]
    norm_num

end Verif.Program
