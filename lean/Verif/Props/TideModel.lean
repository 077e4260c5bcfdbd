import Verif.Model.TideModel
import Verif.Lemmas.Py
/-!
C44 and C45: extraction of constants from a model object.
-/
namespace Verif.TideModel
open Verif

variable {C : Type}

/-- Every column has its name. -/
def Labelled (r : Result C) : Prop := ∃ c, r.names = some c ∧ c.length = r.columns.length

/-- Outcomes that are labelled, if there is a result. -/
def AllLabelled (l : List (Except PyErr (Result C))) : Prop :=
  ∀ r, Except.ok r ∈ l → Labelled r

theorem appendNode_labelled (W : World C) (append : Bool) (columns : List C)
    (names : Option (List String)) (h : ∃ c, names = some c ∧ c.length = columns.length)
    (r : Result C) (hr : appendNode W append columns names = .ok r) : Labelled r := by
  obtain ⟨c, rfl, hc⟩ := h
  unfold appendNode at hr
  split at hr
  · dsimp only at hr
    split at hr
    · have := Except.ok.inj hr
      subst this
      exact ⟨c, rfl, hc⟩
    · have := Except.ok.inj hr
      subst this
      exact ⟨_, rfl, by simp [hc]⟩
  · have := Except.ok.inj hr
    subst this
    exact ⟨c, rfl, hc⟩

theorem bind_ok {α β : Type} {x : Except PyErr α} {f : α → Except PyErr β} {b : β}
    (h : (x >>= f) = .ok b) : ∃ a, x = .ok a ∧ f a = .ok b := by
  cases x with
  | error e => rw [error_bind] at h; cases h
  | ok a => exact ⟨a, rfl, by rwa [ok_bind] at h⟩

/-- Extraction from a model of a format other than FES: labelled, and the object is unchanged. -/
theorem extract_other (W : World C) (s : State) (hs : isFes s.format = false) (type : String)
    (append : Bool) (r : Result C) (s' : State) (h : extract W s type append = .ok (r, s')) :
    s' = s ∧ Labelled r := by
  unfold extract at h
  have key : ∀ l : List (String × C),
      (do let r ← appendNode W append (l.map Prod.snd) (some (l.map Prod.fst))
          Except.ok (r, s)) = Except.ok (r, s') → s' = s ∧ Labelled r := by
    intro l h
    obtain ⟨q, h1, h2⟩ := bind_ok h
    have := Except.ok.inj h2
    have e1 : q = r := congrArg Prod.fst this
    have e2 : s = s' := congrArg Prod.snd this
    exact ⟨e2.symm, e1 ▸ appendNode_labelled W append _ _ ⟨_, rfl, by simp⟩ q h1⟩
  split at h
  · obtain ⟨f, _, h⟩ := bind_ok h
    obtain ⟨l, _, h⟩ := bind_ok h
    exact key l h
  · split at h
    · obtain ⟨f, _, h⟩ := bind_ok h
      obtain ⟨l, _, h⟩ := bind_ok h
      exact key l h
    · split at h
      · obtain ⟨l, _, h⟩ := bind_ok h
        exact key l h
      · rw [hs] at h
        exact absurd h (by simp)

/-- C44 for OTIS, ATLAS, TMD3 and GOT: however often the object is used, every result is labelled
and the object does not change. -/
theorem C44_other_formats (W : World C) (s : State) (hs : isFes s.format = false)
    (calls : List Call) : AllLabelled (run W s calls).1 ∧ (run W s calls).2 = s := by
  induction calls with
  | nil => exact ⟨fun r h => absurd h (by simp [run]), rfl⟩
  | cons c cs ih =>
    cases he : extract W s c.type c.append with
    | error e =>
      rw [run, he]
      refine ⟨fun r h => ?_, ih.2⟩
      exact ih.1 r (by simpa using h)
    | ok p =>
      obtain ⟨r, s'⟩ := p
      obtain ⟨rfl, hr⟩ := extract_other W s hs c.type c.append r s' he
      rw [run, he]
      refine ⟨fun q h => ?_, ih.2⟩
      rcases List.mem_cons.mp h with h | h
      · exact Except.ok.inj h ▸ hr
      · exact ih.1 q h

/-- The number of files FES constants are read from. -/
def fileCount (s : State) : Nat := (iterated s.file).length

theorem pyMap_length {α β : Type} {f : α → Except PyErr β} {l : List α} {r : List β}
    (h : pyMap f l = .ok r) : r.length = l.length := by
  induction l generalizing r with
  | nil => exact (Except.ok.inj h) ▸ rfl
  | cons a l ih =>
    unfold pyMap at h
    split at h
    · cases h
    · split at h
      · cases h
      · rename_i hl
        exact (Except.ok.inj h) ▸ by simp [ih hl]

/-- One extraction from a FES model whose names fit its files. -/
theorem extract_fes (W : World C) (s : State) (hs : isFes s.format = true) (c : List String)
    (hc : s.constituents = some c) (hl : c.length = fileCount s) (type : String) (append : Bool)
    (r : Result C) (s' : State) (h : extract W s type append = .ok (r, s')) :
    Labelled r ∧ s' = { s with constituents := r.names } ∧
      (append = false ∨ "node" ∈ c → s' = s) := by
  have h1 : isOtis s.format = false := by
    unfold isFes at hs; unfold isOtis
    simp only [List.mem_cons, List.not_mem_nil, or_false, decide_eq_true_eq] at hs
    rcases hs with hs | hs <;> rw [hs] <;> decide
  have h2 : s.format ≠ "ATLAS-netcdf" := by
    unfold isFes at hs
    simp only [List.mem_cons, List.not_mem_nil, or_false, decide_eq_true_eq] at hs
    rcases hs with hs | hs <;> rw [hs] <;> decide
  have h3 : isGot s.format = false := by
    unfold isFes at hs; unfold isGot
    simp only [List.mem_cons, List.not_mem_nil, or_false, decide_eq_true_eq] at hs
    rcases hs with hs | hs <;> rw [hs] <;> decide
  rw [extract, h1, if_neg (by simp), if_neg h2, h3, if_neg (by simp), if_pos hs] at h
  obtain ⟨_, _, h⟩ := bind_ok h
  obtain ⟨l, hl', h⟩ := bind_ok h
  obtain ⟨q, hq, h⟩ := bind_ok h
  have e := Except.ok.inj h
  have e1 : q = r := congrArg Prod.fst e
  have e2 : { s with constituents := q.names } = s' := congrArg Prod.snd e
  subst e1
  have hlen : c.length = l.length := by rw [hl, pyMap_length hl', fileCount]
  refine ⟨appendNode_labelled W append l s.constituents ⟨c, hc, hlen⟩ q hq, e2.symm, ?_⟩
  intro ha
  rw [hc] at hq
  have hn : q.names = some c := by
    unfold appendNode at hq
    rcases ha with ha | ha
    · rw [ha, if_neg (by simp)] at hq
      exact (Except.ok.inj hq) ▸ rfl
    · split at hq
      · dsimp only at hq
        rw [if_pos ha] at hq
        exact (Except.ok.inj hq) ▸ rfl
      · exact (Except.ok.inj hq) ▸ rfl
  rw [← e2, hn, ← hc]

/-- C44 for FES, as long as the node tide has not been appended before: in every sequence of calls
whose first appending call is the last one, or whose model has a node tide of its own, every result
is labelled.  Missing from the full claim: a call after an appending one, `C44_fes_false`. -/
theorem C44_fes_partial (W : World C) (s : State) (hs : isFes s.format = true) (c : List String)
    (hc : s.constituents = some c) (hl : c.length = fileCount s) (calls : List Call) (last : Call)
    (ha : ∀ k ∈ calls, k.append = false ∨ "node" ∈ c) :
    AllLabelled (run W s (calls ++ [last])).1 ∧ (run W s calls).2 = s := by
  induction calls with
  | nil =>
    refine ⟨?_, rfl⟩
    intro r h
    simp only [List.nil_append, run] at h
    cases he : extract W s last.type last.append with
    | error e => rw [he] at h; simp at h
    | ok p =>
      obtain ⟨q, s'⟩ := p
      rw [he] at h
      simp only [List.mem_cons, List.not_mem_nil, or_false] at h
      rw [Except.ok.inj h]
      exact (extract_fes W s hs c hc hl _ _ q s' he).1
  | cons k calls ih =>
    have ih := ih fun k' hk => ha k' (by simp [hk])
    cases he : extract W s k.type k.append with
    | error e =>
      rw [List.cons_append, run, he, run, he]
      refine ⟨fun r h => ?_, ih.2⟩
      exact ih.1 r (by simpa using h)
    | ok p =>
      obtain ⟨q, s'⟩ := p
      obtain ⟨h1, -, h3⟩ := extract_fes W s hs c hc hl _ _ q s' he
      have := h3 (ha k (by simp))
      subst this
      rw [List.cons_append, run, he, run, he]
      refine ⟨fun r h => ?_, ih.2⟩
      rcases List.mem_cons.mp h with h | h
      · rw [Except.ok.inj h]; exact h1
      · exact ih.1 r h

/-- Refuted: two calls on one FES model, both asking for the node tide.  The first result is
labelled; the second has one name more than it has columns. -/
theorem C44_fes_false (W : World C) (hp : ∀ p, W.present p = true)
    (hf : ∀ p t, ∃ col, W.fes p t = .ok col) :
    let s : State := ⟨"FES-netcdf", .paths (.many ["m2.nc", "s2.nc"]), some ["m2", "s2"]⟩
    ∃ r1 r2 : Result C, (run W s [⟨"z", true⟩, ⟨"z", true⟩]).1 = [.ok r1, .ok r2] ∧
      r1.columns.length = 3 ∧ r1.names = some ["m2", "s2", "node"] ∧
      r2.columns.length = 2 ∧ r2.names = some ["m2", "s2", "node"] := by
  obtain ⟨a, ha⟩ := hf "m2.nc" "z"
  obtain ⟨b, hb⟩ := hf "s2.nc" "z"
  have hx : ∀ cs, fesExtract W (.paths (.many ["m2.nc", "s2.nc"])) "z" = .ok cs → cs = [a, b] := by
    intro cs h
    simp only [fesExtract, iterated, pyMap, hp, if_true, ha, hb] at h
    exact (Except.ok.inj h).symm
  have hx' : fesExtract W (.paths (.many ["m2.nc", "s2.nc"])) "z" = .ok [a, b] := by
    simp only [fesExtract, iterated, pyMap, hp, if_true, ha, hb]
  refine ⟨⟨[a, b, W.node], some ["m2", "s2", "node"]⟩, ⟨[a, b], some ["m2", "s2", "node"]⟩, ?_,
    rfl, rfl, rfl, rfl⟩
  have e1 : ∀ names, extract W ⟨"FES-netcdf", .paths (.many ["m2.nc", "s2.nc"]), names⟩ "z" true
      = (appendNode W true [a, b] names).bind fun r =>
        .ok (r, ⟨"FES-netcdf", .paths (.many ["m2.nc", "s2.nc"]), r.names⟩) := by
    intro names
    rw [extract, if_neg (by simp [isOtis]), if_neg (by simp), if_neg (by simp [isGot]),
      if_pos (by simp [isFes])]
    simp only [componentFiles]
    rw [ok_bind, hx', ok_bind]
    rfl
  rw [run, e1]
  simp only [appendNode, if_true]
  rw [if_neg (by simp)]
  dsimp only [Except.bind]
  rw [run]
  rw [show ["m2", "s2"] ++ ["node"] = ["m2", "s2", "node"] from rfl, e1]
  simp only [appendNode, if_true]
  rw [if_pos (by simp)]
  rfl

/-! ### C45: files of components -/

/-- The formats with files for each component. -/
theorem componentFiles_listed (s : State) (d : List (String × Paths)) (hd : s.file = .dict d)
    (t : String) (p : Paths) (hn : (d.map Prod.fst).Nodup) (h : (t.toLower, p) ∈ d) :
    componentFiles s t = .ok p := by
  have : d.lookup t.toLower = some p := by
    clear hd
    induction d with
    | nil => simp at h
    | cons a d ih =>
      rw [List.map_cons, List.nodup_cons] at hn
      rcases List.mem_cons.mp h with h | h
      · rw [← h]; simp [List.lookup]
      · rw [List.lookup_cons, beq_eq_false_iff_ne.mpr (fun e =>
          hn.1 (List.mem_map.mpr ⟨_, h, e⟩))]
        exact ih hn.2 h
  rw [componentFiles, hd]
  dsimp only
  rw [item, this]

/-- C45, reading: the files of the requested component are read, for the formats with one entry
for each component (ATLAS-netcdf, FES) and for the formats with a single entry for both. -/
theorem C45_read (s : State) (d : List (String × Paths)) (hd : s.file = .dict d)
    (hn : (d.map Prod.fst).Nodup) (t : String) (p : Paths) :
    (s.format = "ATLAS-netcdf" ∨ isFes s.format = true → (t.toLower, p) ∈ d →
      readFiles s t = .ok (.paths p)) ∧
    (isOtis s.format = true → d = [("u", p)] → readFiles s t = .ok (.paths p)) := by
  constructor
  · intro hf hm
    have hc := componentFiles_listed s d hd t p hn hm
    unfold readFiles
    rcases hf with hf | hf
    · rw [hf, if_neg (by simp [isOtis]), if_pos rfl, hc]; rfl
    · have hf' := hf
      unfold isFes at hf
      simp only [List.mem_cons, List.not_mem_nil, or_false, decide_eq_true_eq] at hf
      rcases hf with hf | hf <;>
        rw [hf, if_neg (by simp [isOtis]), if_neg (by simp), if_neg (by simp [isGot]),
          if_pos (by simp [isFes]), hc] <;> rfl
  · rintro hf rfl
    rw [readFiles, if_pos hf, otisFiles, hd]
    rfl

/-- C45, extraction: the same, but for FES.  Missing from the full claim: FES,
`C45_fes_false`. -/
theorem C45_extract_partial (s : State) (d : List (String × Paths)) (hd : s.file = .dict d)
    (hn : (d.map Prod.fst).Nodup) (t : String) (p : Paths) :
    (s.format = "ATLAS-netcdf" → (t.toLower, p) ∈ d → extractFiles s t = .ok (.paths p)) ∧
    (isOtis s.format = true → d = [("u", p)] → extractFiles s t = .ok (.paths p)) := by
  constructor
  · intro hf hm
    have hc := componentFiles_listed s d hd t p hn hm
    rw [extractFiles, hf, if_neg (by simp [isOtis]), if_pos rfl, hc]; rfl
  · rintro hf rfl
    rw [extractFiles, if_pos hf, otisFiles, hd]
    rfl

/-- Elevation files are handed over as they are. -/
theorem C45_elevation (s : State) (p : Paths) (hp : s.file = .paths p) (t : String)
    (hf : isOtis s.format = true ∨ s.format = "ATLAS-netcdf" ∨ isGot s.format = true ∨
      isFes s.format = true) :
    extractFiles s t = .ok (.paths p) ∧ readFiles s t = .ok (.paths p) := by
  simp only [extractFiles, readFiles, otisFiles, componentFiles, hp]
  constructor
  · repeat' split
    all_goals first
      | rfl
      | (rename_i h1 h2 h3 h4
         rcases hf with h | h | h | h
         · exact absurd h h1
         · exact absurd h h2
         · exact absurd h h3
         · exact absurd h h4)
  · repeat' split
    all_goals first
      | rfl
      | (rename_i h1 h2 h3 h4
         rcases hf with h | h | h | h
         · exact absurd h h1
         · exact absurd h h2
         · exact absurd h h3
         · exact absurd h h4)

/-- Refuted: a FES current model with any files.  The reader is handed the whole dictionary, takes
the names of the components for files, and finds none, unless files with those names happen to
exist. -/
theorem C45_fes_false (W : World C) (s : State) (hs : isFes s.format = true) (u v : Paths)
    (hd : s.file = .dict [("u", u), ("v", v)]) (hW : W.present "u" = false) (t : String)
    (ht : t = "u" ∨ t = "v") (append : Bool) :
    extractFiles s t = .ok s.file ∧ extract W s t append = .error .fileNotFound := by
  have hlow : t.toLower = t := by rcases ht with rfl | rfl <;> decide +kernel
  have hc : ∃ p, componentFiles s t = .ok p := by
    rw [componentFiles, hd]
    dsimp only
    rw [hlow]
    rcases ht with rfl | rfl
    · exact ⟨u, rfl⟩
    · exact ⟨v, rfl⟩
  obtain ⟨p, hc⟩ := hc
  have hx : fesExtract W s.file t = .error .fileNotFound := by
    rw [hd, fesExtract, iterated, List.map_cons, pyMap, hW]
    rfl
  unfold isFes at hs
  simp only [List.mem_cons, List.not_mem_nil, or_false, decide_eq_true_eq] at hs
  constructor
  · unfold extractFiles
    rcases hs with hs | hs <;>
      rw [hs, if_neg (by simp [isOtis]), if_neg (by simp), if_neg (by simp [isGot]),
        if_pos (by simp [isFes]), hc] <;> rfl
  · unfold extract
    rcases hs with hs | hs <;>
      rw [hs, if_neg (by simp [isOtis]), if_neg (by simp), if_neg (by simp [isGot]),
        if_pos (by simp [isFes]), hc, ok_bind, hx, error_bind]

/-- Refuted: an OTIS definition with different files for the components reads those of `u` for
`v`. -/
theorem C45_otis_false :
    extractFiles ⟨"OTIS", .dict [("u", .one "u.out"), ("v", .one "v.out")], none⟩ "v"
      = .ok (.paths (.one "u.out")) := by decide +kernel

/-- A model object with two constituents meets the hypotheses of `C44_fes_partial`, and one with
files for each component those of `C45_read`. -/
example : (∃ s : State, isFes s.format = true ∧ s.constituents = some ["m2", "s2"] ∧
      2 = fileCount s) ∧
    (∃ s : State, s.format = "ATLAS-netcdf" ∧
      readFiles s "V" = .ok (.paths (.many ["v_m2.nc", "v_s2.nc"]))) :=
  ⟨⟨⟨"FES-netcdf", .paths (.many ["m2.nc", "s2.nc"]), some ["m2", "s2"]⟩, by decide, rfl, rfl⟩,
    ⟨⟨"ATLAS-netcdf", .dict [("u", .many ["u_m2.nc", "u_s2.nc"]),
      ("v", .many ["v_m2.nc", "v_s2.nc"])], none⟩, rfl, by decide +kernel⟩⟩

end Verif.TideModel
