import Mathlib.Data.List.Forall2
import Verif.Model.Program
import Verif.Props.Csv
import Verif.Props.Compute
/-!
C95: the program for tidal elevations, from a table to a table.
-/
namespace Verif.Program
open Verif Verif.Csv Verif.Compute

theorem ran {α β : Type} {x : Except PyErr α} {f : α → Except PyErr β} {b : β}
    (h : (x >>= f) = .ok b) : ∃ a, x = .ok a ∧ f a = .ok b := by
  cases x with
  | error e => rw [error_bind] at h; cases h
  | ok a => exact ⟨a, rfl, by rwa [ok_bind] at h⟩

/-! ### Reading -/

/-- What a line of the input says: a time, an x and a y, in the columns with these names. -/
structure Says (s : Setup) (line : Text) (r : ℝ × ℝ × ℝ) : Prop where
  ex : ∃ v, readRow s.codec s.delimiter s.names line = .ok v ∧
    (s.names.zip v).lookup "time".toList = some r.1 ∧ (s.names.zip v).lookup "x".toList = some r.2.1 ∧
    (s.names.zip v).lookup "y".toList = some r.2.2

theorem lookup_column {rows : List (List ℝ)} {vals : List ℝ} {name : Text} :
    ∀ (names : List Text) (k : Nat), name ∈ names →
      List.Forall₂ (fun v u => (names.zip (v.drop k)).lookup name = some u) rows vals →
      ((names.zipIdx k).map fun p => (p.1, rows.filterMap fun r => r[p.2]?)).lookup name = some vals := by
  intro names
  induction names with
  | nil => intro k h; cases h
  | cons c names ih =>
    intro k hm hf
    rw [List.zipIdx_cons, List.map_cons]
    by_cases e : name = c
    · subst e
      rw [List.lookup_cons_self]
      congr 1
      clear ih hm
      induction hf with
      | nil => rfl
      | @cons v u rows vals h1 _ ih2 =>
        cases hd : v.drop k with
        | nil => rw [hd] at h1; simp at h1
        | cons a t =>
          rw [hd, List.zip_cons_cons, List.lookup_cons_self] at h1
          have ha : v[k]? = some u := by
            have : (v.drop k)[0]? = some u := by rw [hd]; simpa using h1
            simpa using this
          rw [List.filterMap_cons, ha]
          exact congrArg _ ih2
    · have hb : (name == c) = false := by simpa using e
      rw [List.lookup_cons, hb]
      refine ih (k + 1) (by simpa [e] using hm) ?_
      refine hf.imp ?_
      intro v u h
      cases hd : v.drop k with
      | nil => rw [hd] at h; simp at h
      | cons a t =>
        rw [hd, List.zip_cons_cons, List.lookup_cons, hb] at h
        have : v.drop (k + 1) = t := by rw [← List.tail_drop, hd]; rfl
        rw [this]
        exact h

theorem pyMap_forall {α β γ : Type} {f : α → Except PyErr β} {R : β → γ → Prop} {l : List α} {cs : List γ}
    (h : List.Forall₂ (fun a c => ∃ b, f a = .ok b ∧ R b c) l cs) :
    ∃ bs, pyMap f l = .ok bs ∧ List.Forall₂ R bs cs := by
  induction h with
  | nil => exact ⟨[], rfl, .nil⟩
  | cons h1 _ ih =>
    obtain ⟨b, hb, hr⟩ := h1
    obtain ⟨bs, hbs, hrs⟩ := ih
    exact ⟨b :: bs, by simp only [pyMap, hb, hbs], .cons hr hrs⟩

/-- A file: lines that are passed over and lines of the table. -/
def fileText (head body : List Text) : Text := (head ++ body).flatMap fun l => l ++ ['\n']

/-- The names that the program needs are there. -/
def Named (s : Setup) : Prop := "time".toList ∈ s.names ∧ "x".toList ∈ s.names ∧ "y".toList ∈ s.names

theorem input_read (s : Setup) (hn : Named s) (head body : List Text) (recs : List (ℝ × ℝ × ℝ))
    (hh : head.length = s.header) (hl : ∀ l ∈ head ++ body, OneLine l) (hr : List.Forall₂ (Says s) body recs) :
    ∃ d, fromAscii s.codec s.yaml s.delimiter (.lines s.header) s.names (fileText head body) = .ok d ∧
      field d "time".toList = .ok (recs.map fun r => r.1) ∧
      field d "x".toList = .ok (recs.map fun r => r.2.1) ∧
      field d "y".toList = .ok (recs.map fun r => r.2.2) := by
  obtain ⟨rows, h1, h2⟩ := pyMap_forall (f := readRow s.codec s.delimiter s.names)
    (R := fun v r => (s.names.zip v).lookup "time".toList = some r.1 ∧
      (s.names.zip v).lookup "x".toList = some r.2.1 ∧
      (s.names.zip v).lookup "y".toList = some r.2.2) (hr.imp fun _ _ h => h.ex)
  refine ⟨s.names.zipIdx.map fun p => (p.1, rows.filterMap fun r => r[p.2]?), ?_, ?_, ?_, ?_⟩
  · rw [fromAscii, ok_bind, fileText, splitLines_lines _ hl]
    dsimp only
    rw [← hh, List.drop_left, h1, ok_bind, lookup_names s.names (fun _ => [])]
    by_cases e : "data".toList ∈ s.names
    · rw [if_pos e]
      rfl
    · rw [if_neg e]
  all_goals rw [field, lookup_column (vals := _) s.names 0 _ _]
  any_goals exact hn.1
  any_goals exact hn.2.1
  any_goals exact hn.2.2
  · rw [List.forall₂_map_right_iff]; exact h2.imp fun _ _ h => by simpa using h.1
  · rw [List.forall₂_map_right_iff]; exact h2.imp fun _ _ h => by simpa using h.2.1
  · rw [List.forall₂_map_right_iff]; exact h2.imp fun _ _ h => by simpa using h.2.2

/-! ### Writing -/

theorem rows_map {α : Type} (d : Text) (C : Codec ℝ) (L : List α) (f1 f2 f3 f4 : α → ℝ) :
    (List.range L.length).map (fun i =>
      join d ((row [L.map f1, L.map f2, L.map f3, L.map f4] i).map C.put)) =
    L.map fun a => join d [C.put (f1 a), C.put (f2 a), C.put (f3 a), C.put (f4 a)] := by
  apply List.ext_getElem?
  intro i
  by_cases hi : i < L.length
  · rw [List.getElem?_map, List.getElem?_map, List.getElem?_range hi, List.getElem?_eq_getElem hi]
    simp [row, hi]
  · rw [List.getElem?_eq_none (by simpa using hi), List.getElem?_eq_none (by simpa using hi)]

theorem stacked {α : Type} (s : Setup) (L : List α) (f1 f2 f3 f4 : α → ℝ)
    (hv : s.variableName ∉ ["time".toList, "lat".toList, "lon".toList]) :
    toAscii s.codec (fun _ => []) [] s.delimiter false
      [("lon".toList, L.map f3), ("lat".toList, L.map f2), (s.variableName, L.map f4), ("time".toList, L.map f1)]
      (fun _ => []) ["time".toList, "lat".toList, "lon".toList, s.variableName] =
    .ok ((L.map fun a => join s.delimiter
      [s.codec.put (f1 a), s.codec.put (f2 a), s.codec.put (f3 a), s.codec.put (f4 a)]).flatMap
        fun l => l ++ ['\n']) := by
  simp only [List.mem_cons, List.not_mem_nil, or_false, not_or] at hv
  obtain ⟨h1, h2, h3⟩ := hv
  have e1 : (s.variableName == "lon".toList) = false := by simpa using h3
  have e2 : (s.variableName == "lat".toList) = false := by simpa using h2
  have e3 : ("time".toList == s.variableName) = false := by simpa using fun e => h1 e.symm
  have st : stack [("lon".toList, L.map f3), ("lat".toList, L.map f2), (s.variableName, L.map f4),
      ("time".toList, L.map f1)] ["time".toList, "lat".toList, "lon".toList, s.variableName] =
      .ok [L.map f1, L.map f2, L.map f3, L.map f4] := by
    have a1 : ("time".toList == "lon".toList) = false := by decide
    have a2 : ("time".toList == "lat".toList) = false := by decide
    have a3 : ("lat".toList == "lon".toList) = false := by decide
    simp only [stack, pyMap, List.lookup_cons, a1, a2, a3, e1, e2, e3, beq_self_eq_true]
  rw [toAscii, st, ok_bind, rowsOf, if_pos (by simp), ok_bind]
  simp only [Bool.false_eq_true, if_false, List.nil_append, List.length_map]
  rw [rows_map]

/-! ### The program -/

/-- The line that is written for a record: its time, latitude and longitude and the elevation that
`tide_elevations` gives for the constants `q` at this place, or the fill value. -/
noncomputable def written (P : Predict.Env) (I : Infer.Env) (s : Setup) (m : Extracted)
    (a : (List Predict.MR × List Predict.MR) × (ℝ × ℝ × ℝ)) : Text :=
  let place := s.lonLat (a.2.2.1, a.2.2.2)
  join s.delimiter [s.codec.put (s.scale a.2.1).1, s.codec.put place.2, s.codec.put place.1,
    s.codec.put ((answer P I s.options m a.1 (s.scale a.2.1)).getD s.fill)]

theorem drift_lower : "drift".toLower = "drift" := by decide +kernel

/-- Every record of a table gives one line of the output, in the same order: the time, the place and the
elevation for that time and place. -/
theorem C95_lines (P : Predict.Env) (I : Infer.Env) (s : Setup) (hn : Named s)
    (ht : s.options.type = "drift") (h0 : s.time = none)
    (hv : s.variableName ∉ ["time".toList, "lat".toList, "lon".toList])
    (head body : List Text) (recs : List (ℝ × ℝ × ℝ))
    (hh : head.length = s.header) (hl : ∀ l ∈ head ++ body, OneLine l) (hr : List.Forall₂ (Says s) body recs)
    (m : Extracted) (hm : s.extract (recs.map fun r => s.lonLat (r.2.1, r.2.2)) = .ok m)
    (hc : Complete P I s.options m) (hs : m.amp.length = recs.length) :
    program P I s (fileText head body) =
      .ok ((((m.amp.zip m.ph).zip recs).map (written P I s m)).flatMap fun l => l ++ ['\n']) := by
  obtain ⟨d, h1, ht', hx, hy⟩ := input_read s hn head body recs hh hl hr
  have low : s.options.type.toLower = "drift" := by rw [ht]; exact drift_lower
  have hpl : place s d = .ok (some (0, 0, recs.map fun r => s.lonLat (r.2.1, r.2.2))) := by
    rw [place, if_neg (by rw [ht]; decide), if_pos ht, hx, ok_bind, hy, ok_bind, List.zip_map',
      List.map_map]
    rfl
  have hti : times s d = .ok (recs.map fun r => r.1) := by rw [times, h0]; exact ht'
  rw [program, h1, ok_bind, if_neg (by rw [low]; decide), hpl, ok_bind, hti, ok_bind]
  dsimp only
  rw [hm, ok_bind, C59_drift P I s.options 0 0 m _ hc low (by rw [hs, List.length_map, List.length_map]), ok_bind]
  dsimp only
  have hq : (m.amp.zip m.ph).length = recs.length := by
    rw [List.length_zip, ← hc.points, hs, Nat.min_self]
  generalize hQ : m.amp.zip m.ph = Q at hq
  have back : recs = (Q.zip recs).map Prod.snd := by rw [List.map_snd_zip (by omega)]
  have c1 : (recs.map fun r => s.lonLat (r.2.1, r.2.2)).map Prod.fst =
      (Q.zip recs).map fun a => (s.lonLat (a.2.2.1, a.2.2.2)).1 := by
    conv_lhs => rw [back]
    rw [List.map_map, List.map_map]; rfl
  have c2 : (recs.map fun r => s.lonLat (r.2.1, r.2.2)).map Prod.snd =
      (Q.zip recs).map fun a => (s.lonLat (a.2.2.1, a.2.2.2)).2 := by
    conv_lhs => rw [back]
    rw [List.map_map, List.map_map]; rfl
  have c3 : (recs.map fun r => r.1).map (fun u => (s.scale u).1) =
      (Q.zip recs).map fun a => (s.scale a.2.1).1 := by
    conv_lhs => rw [back]
    rw [List.map_map, List.map_map]; rfl
  have c4 : (List.zipWith (answer P I s.options m) Q ((recs.map fun r => r.1).map s.scale)).map
      (fun v => v.getD s.fill) =
      (Q.zip recs).map fun a => (answer P I s.options m a.1 (s.scale a.2.1)).getD s.fill := by
    rw [List.map_map, List.zipWith_map_right, List.zip, List.map_zipWith, List.map_zipWith]
    rfl
  rw [c1, c2, c3, c4]
  exact stacked s (Q.zip recs) _ _ _ _ hv

/-- A tide model that is asked point by point: the constants of a place do not depend on the other
places that are asked for. -/
structure Pointwise (P : Predict.Env) (I : Infer.Env) (s : Setup) where
  amp : ℝ × ℝ → List Predict.MR
  ph : ℝ × ℝ → List Predict.MR
  names : List String
  corrections : String
  minor : Option (List String)
  given : ∀ ps, s.extract ps = .ok ⟨ps.map amp, ps.map ph, names, corrections, minor⟩
  complete : ∀ ps : List (ℝ × ℝ), Complete P I s.options ⟨ps.map amp, ps.map ph, names, corrections, minor⟩

/-- With a tide model that is asked point by point the program is a map of lines: there is one function
of a record, and the output has its line for every record of the input, whatever else the table holds. -/
theorem C95_map (P : Predict.Env) (I : Infer.Env) (s : Setup) (hn : Named s)
    (ht : s.options.type = "drift") (h0 : s.time = none)
    (hv : s.variableName ∉ ["time".toList, "lat".toList, "lon".toList]) (w : Pointwise P I s) :
    ∃ F : ℝ × ℝ × ℝ → Text, ∀ (head body : List Text) (recs : List (ℝ × ℝ × ℝ)),
      head.length = s.header → (∀ l ∈ head ++ body, OneLine l) → List.Forall₂ (Says s) body recs →
      program P I s (fileText head body) = .ok ((recs.map F).flatMap fun l => l ++ ['\n']) := by
  let m0 : Extracted := ⟨[], [], w.names, w.corrections, w.minor⟩
  refine ⟨fun r => written P I s m0 ((w.amp (s.lonLat (r.2.1, r.2.2)), w.ph (s.lonLat (r.2.1, r.2.2))), r), ?_⟩
  intro head body recs hh hl hr
  rw [C95_lines P I s hn ht h0 hv head body recs hh hl hr _ (w.given _) (w.complete _) (by simp)]
  congr 2
  have step : ∀ (g : ℝ × ℝ × ℝ → List Predict.MR × List Predict.MR),
      (recs.map g).zip recs = recs.map fun r => (g r, r) := by
    intro g
    conv_lhs => rw [← List.map_id recs, List.map_map]
    exact List.zip_map'
  refine (congrArg (List.map _) (?_ : _ = recs.map fun r =>
    ((w.amp (s.lonLat (r.2.1, r.2.2)), w.ph (s.lonLat (r.2.1, r.2.2))), r))).trans ?_
  · rw [List.zip_map', List.map_map]
    exact step _
  · rw [List.map_map]
    rfl

/-- Parts: the output for a table in two parts is the output for the first followed by the output for
the second (each with the lines passed over). -/
theorem C95_parts (P : Predict.Env) (I : Infer.Env) (s : Setup) (hn : Named s)
    (ht : s.options.type = "drift") (h0 : s.time = none)
    (hv : s.variableName ∉ ["time".toList, "lat".toList, "lon".toList]) (w : Pointwise P I s)
    (head a b : List Text) (ra rb : List (ℝ × ℝ × ℝ)) (hh : head.length = s.header)
    (hl : ∀ l ∈ head ++ a ++ b, OneLine l) (ha : List.Forall₂ (Says s) a ra) (hb : List.Forall₂ (Says s) b rb) :
    ∃ ta tb, program P I s (fileText head a) = .ok ta ∧ program P I s (fileText head b) = .ok tb ∧
      program P I s (fileText head (a ++ b)) = .ok (ta ++ tb) := by
  obtain ⟨F, hF⟩ := C95_map P I s hn ht h0 hv w
  have m1 : ∀ l ∈ head ++ a, OneLine l := fun l h => hl l (by simp at h ⊢; tauto)
  have m2 : ∀ l ∈ head ++ b, OneLine l := fun l h => hl l (by simp at h ⊢; tauto)
  have m3 : ∀ l ∈ head ++ (a ++ b), OneLine l := fun l h => hl l (by simp at h ⊢; tauto)
  refine ⟨_, _, hF head a ra hh m1 ha, hF head b rb hh m2 hb, ?_⟩
  rw [hF head (a ++ b) (ra ++ rb) hh m3 (List.rel_append ha hb), List.map_append, List.flatMap_append]

/-- The names that the program takes by default (`time lat lon data`) are not the ones that it looks up:
no table can be processed without naming the columns. -/
theorem C95_default_false (P : Predict.Env) (I : Infer.Env) (s : Setup)
    (hn : s.names = ["time".toList, "lat".toList, "lon".toList, "data".toList])
    (ht : s.options.type ∈ ["grid", "drift", "time series"]) (file : Text) (d : List (Text × List ℝ))
    (hd : fromAscii s.codec s.yaml s.delimiter (.lines s.header) s.names file = .ok d) :
    program P I s file = .error .keyError := by
  obtain ⟨rows, hr⟩ : ∃ rows : List (List ℝ), d = s.names.zipIdx.map fun p => (p.1, rows.filterMap fun r => r[p.2]?) := by
    rw [fromAscii, ok_bind] at hd
    dsimp only at hd
    cases h1 : pyMap (readRow s.codec s.delimiter s.names) ((splitLines file).drop s.header) with
    | error e => rw [h1, error_bind] at hd; cases hd
    | ok rows =>
      rw [h1, ok_bind] at hd
      refine ⟨rows, ?_⟩
      split at hd
      · split at hd
        · cases hd
        · exact (Except.ok.inj hd).symm
      · exact (Except.ok.inj hd).symm
  have kx : field d "x".toList = .error .keyError := by
    rw [hr, hn, field]; rfl
  have ky : field d "y".toList = .error .keyError := by
    rw [hr, hn, field]; rfl
  have low : s.options.type.toLower ∈ ["grid", "drift", "time series"] := by
    simp only [List.mem_cons, List.not_mem_nil, or_false] at ht
    rcases ht with e | e | e <;> rw [e] <;> decide +kernel
  have hp : place s d = .error .keyError := by
    simp only [List.mem_cons, List.not_mem_nil, or_false] at ht
    rw [place, kx, ky]
    rcases ht with e | e | e <;> rw [e] <;> rfl
  rw [program, hd, ok_bind, if_neg (not_not.2 low), hp, error_bind]

/-- A grid or time series that comes as a table never gives a file: whatever the table, the elevations
cannot be put beside the times. -/
theorem C95_types_false (P : Predict.Env) (I : Infer.Env) (s : Setup)
    (ht : s.options.type = "grid" ∨ s.options.type = "time series") (file : Text) (out : Text) :
    program P I s file ≠ .ok out := by
  have low : s.options.type.toLower = "grid" ∨ s.options.type.toLower = "time series" := by
    rcases ht with e | e <;> rw [e] <;> decide +kernel
  have nd : ∀ ny nx m ts l, tideElevations P I s.options ny nx m ts ≠ .ok (.drift l) := by
    intro ny nx m ts l h
    rw [tideElevations] at h
    split at h
    · cases h
    · rw [predict] at h
      rcases low with e | e
      · rw [if_pos e] at h
        obtain ⟨_, _, h⟩ := ran h
        cases h
      · rw [if_neg (by rw [e]; decide), if_neg (by rw [e]; decide), if_pos e] at h
        obtain ⟨_, _, h⟩ := ran h
        cases h
  intro h
  rw [program] at h
  obtain ⟨d, _, h⟩ := ran h
  split at h
  · cases h
  · obtain ⟨w, _, h⟩ := ran h
    obtain ⟨t, _, h⟩ := ran h
    split at h
    · cases h
    · obtain ⟨m, _, h⟩ := ran h
      obtain ⟨o, ho, h⟩ := ran h
      split at h
      · exact nd _ _ _ _ _ ho
      · cases h

/-- A type in other letters passes the check of the program and never gives a file, although
`tide_elevations` takes it. -/
theorem C95_case_false (P : Predict.Env) (I : Infer.Env) (s : Setup)
    (ht : s.options.type ∉ ["grid", "drift", "time series"]) :
    (∀ file out, program P I s file ≠ .ok out) ∧
    (s.options.type.toLower = "drift" → ∀ m times, Complete P I s.options m → m.amp.length = times.length →
      ∃ out, tideElevations P I s.options 0 0 m times = .ok out) := by
  constructor
  · intro file out h
    rw [program] at h
    obtain ⟨d, _, h⟩ := ran h
    split at h
    · cases h
    · obtain ⟨w, hw, h⟩ := ran h
      obtain ⟨t, _, h⟩ := ran h
      simp only [List.mem_cons, List.not_mem_nil, or_false, not_or] at ht
      rw [place, if_neg ht.1, if_neg ht.2.1, if_neg ht.2.2] at hw
      cases Except.ok.inj hw
      cases h
  · intro e m times hc hs
    exact ⟨_, C59_drift P I s.options 0 0 m times hc e hs⟩

/-! ### A case that meets the hypotheses -/

/-- A text is read as the number of its characters. -/
noncomputable def tally : Codec ℝ where
  put _ := ['1']
  read t := some t.length

/-- A track of a tide model with the same eight constituents everywhere. -/
noncomputable def voyage : Setup where
  codec := tally
  yaml := fun _ => .error .exception
  delimiter := [',']
  header := 1
  names := ["time".toList, "y".toList, "x".toList]
  time := none
  lonLat := id
  scale := fun t => (t, 0)
  extract := fun ps => .ok ⟨ps.map fun _ => List.replicate 8 (1, false),
    ps.map fun _ => List.replicate 8 (30, false), Infer.eight, "OTIS", none⟩
  options := ⟨"drift", none, false, none⟩
  fill := -9999
  variableName := "tide".toList

example (P : Predict.Env) (I : Infer.Env) (hP : ∀ c, P.known c = true) :
    Named voyage ∧ voyage.options.type = "drift" ∧ voyage.time = none ∧
    voyage.variableName ∉ ["time".toList, "lat".toList, "lon".toList] ∧ Nonempty (Pointwise P I voyage) ∧
    (∀ l ∈ ["t,y,x".toList] ++ ["1,11,111".toList, "11,,1".toList], OneLine l) ∧
    List.Forall₂ (Says voyage) ["1,11,111".toList, "11,,1".toList] [(1, 3, 2), (2, 1, 0)] := by
  have hd : (Infer.eight.map String.toLower).Nodup := by decide +kernel
  refine ⟨⟨by decide, by decide, by decide⟩, rfl, rfl, by decide, ⟨⟨_, _, _, _, _, fun ps => rfl, fun ps => ?_⟩⟩,
    by unfold OneLine; decide, ?_⟩
  · refine ⟨by simp, fun q hq => ?_, fun c _ => hP c, hd, fun h => by cases h⟩
    have h1 := (List.of_mem_zip hq).1
    have h2 := (List.of_mem_zip hq).2
    simp only [List.mem_map] at h1 h2
    obtain ⟨_, _, h1⟩ := h1
    obtain ⟨_, _, h2⟩ := h2
    rw [← h1, ← h2]
    exact ⟨rfl, rfl⟩
  · refine .cons ⟨[1, 2, 3], ?_, rfl, rfl, rfl⟩ (.cons ⟨[2, 0, 1], ?_, rfl, rfl, rfl⟩ .nil)
    · have : splitAt [','] 0 "1,11,111".toList = ["1".toList, "11".toList, "111".toList] := by decide +kernel
      simp only [readRow, voyage, this]
      simp [exponent, tally, pyMap, List.lookup]
    · have : splitAt [','] 0 "11,,1".toList = ["11".toList, [], "1".toList] := by decide +kernel
      simp only [readRow, voyage, this]
      simp [exponent, tally, pyMap, List.lookup]

end Verif.Program
