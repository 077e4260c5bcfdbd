import Verif.Model.Currents
import Verif.Props.Pipeline
import Verif.Props.TideModel
/-!
C127: currents predicted with a model object have every component of the model, each from the
constants of that component in its own files.
-/
namespace Verif.Flow
open Verif Verif.Compute Verif.Pipeline Verif.TideModel

/-- The files a definition gives for a component: the only files, those of the entry of the component, or,
for the formats with one file for both, those of the only entry. -/
inductive FilesOf (s : State) (t : String) (p : Paths) : Prop where
  | only (h : s.file = .paths p)
  | entry (d : List (String × Paths)) (h : s.file = .dict d) (hf : s.format = "ATLAS-netcdf")
      (hn : (d.map Prod.fst).Nodup) (hm : (t, p) ∈ d)
  | single (h : s.file = .dict [("u", p)]) (hf : s.format ∈ ["OTIS", "ATLAS-compact", "TMD3"])

/-- What the reader of the format finds in files for a component: constituents with their columns. -/
def Holds (W : World Column) (s : State) (p : Paths) (t : String) (l : List (String × Column)) : Prop :=
  (s.format ∈ ["OTIS", "ATLAS-compact", "TMD3"] ∧ W.otis p t = .ok l) ∨
  (s.format = "ATLAS-netcdf" ∧ W.atlas p t = .ok l)

/-- The constants of a point, one for each constituent; `none` for those that are missing. -/
noncomputable def constantsAt (l : List (String × Column)) (i : ℕ) : List (Option ℂ) :=
  l.map fun c => number (c.2.getD i .masked)

theorem extract_held {W : World Column} {s : State} {t : String} {p : Paths} {l : List (String × Column)}
    (ht : t.toLower = t) (hp : FilesOf s t p) (hl : Holds W s p t l) :
    TideModel.extract W s t false = .ok (⟨l.map Prod.snd, some (l.map Prod.fst)⟩, s) := by
  rcases hl with ⟨hf, e⟩ | ⟨hf, e⟩
  · have hi : isOtis s.format = true := by simpa [isOtis] using hf
    have hx : otisFiles s = .ok p := by
      cases hp with
      | only h => rw [otisFiles, h]
      | entry d h hf' _ _ => rw [hf'] at hf; simp at hf
      | single h _ => rw [otisFiles, h]; rfl
    rw [TideModel.extract, if_pos hi, hx, ok_bind, e, ok_bind]
    rfl
  · have hx : componentFiles s t = .ok p := by
      cases hp with
      | only h => rw [componentFiles, h]
      | entry d h _ hn hm => exact componentFiles_listed s d h t p hn (by rw [ht]; exact hm)
      | single h hf' => rw [hf] at hf'; simp at hf'
    rw [TideModel.extract, if_neg (by rw [hf]; simp [isOtis]), if_pos hf, hx, ok_bind, e, ok_bind]
    rfl

/-- C127, every format but FES: currents have every component of the model in its order, and a component
is the tide of the constants that the files of this component hold for it, at every place and time of the
request.  Missing from the full claim: FES, `C127_fes_false`, and OTIS definitions with two files,
`C45_otis_false`. -/
theorem C127_components_partial (P : Predict.Env) (I : Infer.Env) (o : Options) (ny nx n : ℕ)
    (W : World Column) (s : State) (types : List String) (corrections : String)
    (minor : Option (List String)) (times : List (ℝ × ℝ)) (files : String → Paths)
    (held : String → List (String × Column))
    (ht : ∀ t ∈ types, t ∈ ["u", "v"]) (hf : ∀ t ∈ types, FilesOf s t (files t))
    (hh : ∀ t ∈ types, Holds W s (files t) t (held t))
    (hk : o.type.toLower ∈ ["grid", "drift", "time series"])
    (hs : ∀ t ∈ types, Suits P I o ⟨(held t).map Prod.fst, corrections, minor⟩ n ny nx times) :
    tideCurrents P I o ny nx n W s types corrections minor times
      = .ok (types.map fun t => (t, laid o.type
          (expected P I o ⟨(held t).map Prod.fst, corrections, minor⟩)
          ((List.range n).map (constantsAt (held t))) times)) := by
  rw [tideCurrents, if_neg (not_not.mpr hk)]
  induction types with
  | nil => rfl
  | cons t ts ih =>
    have low : t.toLower = t := by
      have := ht t (by simp)
      simp only [List.mem_cons, List.not_mem_nil, or_false] at this
      rcases this with rfl | rfl <;> decide +kernel
    have h := elevations_laid (hs t (by simp)) ((held t).map Prod.snd) (by simp)
    rw [components, extract_held low (hf t (by simp)) (hh t (by simp)), ok_bind]
    dsimp only [named]
    rw [ok_bind]
    have hcol : (fun i => (column ((held t).map Prod.snd) i).map number) = constantsAt (held t) := by
      funext i
      simp [column, constantsAt]
    dsimp only at h
    rw [hcol] at h
    rw [h, ok_bind, ih (fun u hu => ht u (by simp [hu])) (fun u hu => hf u (by simp [hu]))
      (fun u hu => hh u (by simp [hu])) (fun u hu => hs u (by simp [hu])), ok_bind]
    rfl

/-- C127, failures: currents are not predicted from a part of the components.  If the constants of one
cannot be extracted, there is no answer at all. -/
theorem C127_all_or_nothing (P : Predict.Env) (I : Infer.Env) (o : Options) (ny nx n : ℕ)
    (W : World Column) (s : State) (hs : isFes s.format = false) (types : List String)
    (corrections : String) (minor : Option (List String)) (times : List (ℝ × ℝ)) (t : String)
    (ht : t ∈ types) (e : PyErr) (he : TideModel.extract W s t false = .error e) :
    ∃ e', tideCurrents P I o ny nx n W s types corrections minor times = .error e' := by
  rw [tideCurrents]
  split
  · exact ⟨_, rfl⟩
  · induction types with
    | nil => simp at ht
    | cons u us ih =>
      rw [components]
      cases h : TideModel.extract W s u false with
      | error e' => exact ⟨e', rfl⟩
      | ok r =>
        have st : r.2 = s := (extract_other W s hs u false r.1 r.2 h).1
        rw [ok_bind, st]
        cases named r.1.names with
        | error e' => exact ⟨e', rfl⟩
        | ok c =>
          rw [ok_bind]
          cases tideElevations P I o ny nx (table n r.1.columns c corrections minor) times with
          | error e' => exact ⟨e', rfl⟩
          | ok out =>
            rw [ok_bind]
            rcases List.mem_cons.mp ht with rfl | ht
            · rw [he] at h; cases h
            · obtain ⟨e', k⟩ := ih ht
              exact ⟨e', by rw [k]; rfl⟩

/-- Refuted for FES: no currents are predicted with a model of this format that has files for both
components, whatever the files hold, for any request: the names of the components are taken for files. -/
theorem C127_fes_false (P : Predict.Env) (I : Infer.Env) (o : Options) (ny nx n : ℕ)
    (W : World Column) (s : State) (hs : isFes s.format = true) (u v : Paths)
    (hd : s.file = .dict [("u", u), ("v", v)]) (hW : W.present "u" = false) (corrections : String)
    (minor : Option (List String)) (times : List (ℝ × ℝ))
    (hk : o.type.toLower ∈ ["grid", "drift", "time series"]) :
    tideCurrents P I o ny nx n W s ["u", "v"] corrections minor times = .error .fileNotFound := by
  rw [tideCurrents, if_neg (not_not.mpr hk), components,
    (C45_fes_false W s hs u v hd hW "u" (Or.inl rfl) false).2, error_bind]

/-- A model with different files for both components, and a place with a masked constant of `v`. -/
example (P : Predict.Env) (hP : ∀ c, P.known c = true) (I : Infer.Env) :
    ∃ (W : World Column) (s : State) (o : Options) (files : String → Paths)
      (held : String → List (String × Column)),
      (∀ t ∈ ["u", "v"], FilesOf s t (files t)) ∧ (∀ t ∈ ["u", "v"], Holds W s (files t) t (held t)) ∧
      files "u" ≠ files "v" ∧ held "u" ≠ held "v" ∧
      (∀ t ∈ ["u", "v"], Suits P I o ⟨(held t).map Prod.fst, "OTIS", none⟩ 1 1 1 [(0, 0)]) := by
  refine ⟨⟨fun _ => true, fun _ _ => .error .keyError,
      fun p _ => if p = .one "u.nc" then .ok [("m2", [.val 1 2 1])] else .ok [("m2", [.masked])],
      fun _ _ => .error .keyError, fun _ _ => .error .keyError, []⟩,
    ⟨"ATLAS-netcdf", .dict [("u", .one "u.nc"), ("v", .one "v.nc")], none⟩, ⟨"drift", none, false, none⟩,
    fun t => if t = "u" then .one "u.nc" else .one "v.nc",
    fun t => if t = "u" then [("m2", [.val 1 2 1])] else [("m2", [.masked])], ?_, ?_, by simp, by simp, ?_⟩
  · intro t ht
    simp only [List.mem_cons, List.not_mem_nil, or_false] at ht
    rcases ht with rfl | rfl <;> exact .entry _ rfl rfl (by decide) (by simp)
  · intro t ht
    simp only [List.mem_cons, List.not_mem_nil, or_false] at ht
    rcases ht with rfl | rfl <;> exact .inr ⟨rfl, by simp⟩
  · intro t _
    refine ⟨Or.inr (Or.inl ⟨by decide +kernel, rfl⟩), fun c _ => hP c, ?_, by simp⟩
    dsimp only
    split <;> simp

/-- A FES model whose files are there and can be read meets the hypotheses of `C127_fes_false`. -/
example : ∃ (W : World Column) (s : State), isFes s.format = true ∧ W.present "u" = false ∧
    s.file = .dict [("u", .one "u/m2.nc"), ("v", .one "v/m2.nc")] ∧
    (∀ p ∈ ["u/m2.nc", "v/m2.nc"], W.present p = true ∧ ∃ c, W.fes p "u" = .ok c) :=
  ⟨⟨fun p => decide (p ∈ ["u/m2.nc", "v/m2.nc"]), fun _ _ => .error .keyError, fun _ _ => .error .keyError,
      fun _ _ => .error .keyError, fun _ _ => .ok [.val 1 2 1], []⟩,
    ⟨"FES-netcdf", .dict [("u", .one "u/m2.nc"), ("v", .one "v/m2.nc")], some ["m2"]⟩,
    by decide +kernel, by decide +kernel, rfl,
    fun p hp => ⟨by simpa using hp, _, rfl⟩⟩

end Verif.Flow
