import Verif.Model.ProgramCurrents
import Verif.Props.Program
/-!
C110: the program for tidal currents, from a table to a table.
-/
namespace Verif.Program
open Verif Verif.Csv Verif.Compute

theorem rows_map5 {α : Type} (d : Text) (C : Codec ℝ) (L : List α) (f1 f2 f3 f4 f5 : α → ℝ) :
    (List.range L.length).map (fun i =>
      join d ((row [L.map f1, L.map f2, L.map f3, L.map f4, L.map f5] i).map C.put)) =
    L.map fun a => join d [C.put (f1 a), C.put (f2 a), C.put (f3 a), C.put (f4 a), C.put (f5 a)] := by
  apply List.ext_getElem?
  intro i
  by_cases hi : i < L.length
  · rw [List.getElem?_map, List.getElem?_map, List.getElem?_range hi, List.getElem?_eq_getElem hi]
    simp [row, hi]
  · rw [List.getElem?_eq_none (by simpa using hi), List.getElem?_eq_none (by simpa using hi)]

theorem stacked5 {α : Type} (s : Setup) (L : List α) (f1 f2 f3 f4 f5 : α → ℝ) :
    toAscii s.codec (fun _ => []) [] s.delimiter false
      [("lon".toList, L.map f3), ("lat".toList, L.map f2), ("u".toList, L.map f4), ("v".toList, L.map f5),
        ("time".toList, L.map f1)]
      (fun _ => []) ["time".toList, "lat".toList, "lon".toList, "u".toList, "v".toList] =
    .ok ((L.map fun a => join s.delimiter
      [s.codec.put (f1 a), s.codec.put (f2 a), s.codec.put (f3 a), s.codec.put (f4 a), s.codec.put (f5 a)]).flatMap
        fun l => l ++ ['\n']) := by
  have st : stack [("lon".toList, L.map f3), ("lat".toList, L.map f2), ("u".toList, L.map f4), ("v".toList, L.map f5),
      ("time".toList, L.map f1)] ["time".toList, "lat".toList, "lon".toList, "u".toList, "v".toList] =
      .ok [L.map f1, L.map f2, L.map f3, L.map f4, L.map f5] := by
    rfl
  rw [toAscii, st, ok_bind, rowsOf, if_pos (by simp), ok_bind]
  simp only [Bool.false_eq_true, if_false, List.nil_append, List.length_map]
  rw [rows_map5]

/-- The current of a component at the place and time of a record: what `tide_currents` gives for the
constants `q` at this place, or the fill value. -/
noncomputable def flowing (P : Predict.Env) (I : Infer.Env) (s : Setup) (m : Extracted)
    (q : List Predict.MR × List Predict.MR) (r : ℝ × ℝ × ℝ) : ℝ :=
  (answer P I s.options m q (s.scale r.1)).getD s.fill

/-- The line that is written for a record: its time, latitude and longitude, and the eastward and the
northward current. -/
noncomputable def writtenUV (P : Predict.Env) (I : Infer.Env) (s : Setup) (mu mv : Extracted)
    (a : (List Predict.MR × List Predict.MR) × (List Predict.MR × List Predict.MR) × (ℝ × ℝ × ℝ)) : Text :=
  let place := s.lonLat (a.2.2.2.1, a.2.2.2.2)
  join s.delimiter [s.codec.put (s.scale a.2.2.1).1, s.codec.put place.2, s.codec.put place.1,
    s.codec.put (flowing P I s mu a.1 a.2.2), s.codec.put (flowing P I s mv a.2.1 a.2.2)]

/-- The selected model is one of currents. -/
def Flows (s : Currents) : Prop := s.isList = true ∧ s.types = ["u", "v"]

theorem zipWith_zip3 {α β γ δ : Type} (f : α → γ → δ) : ∀ (A : List α) (B : List β) (C : List γ),
    A.length = C.length → B.length = C.length →
    List.zipWith f A C = (A.zip (B.zip C)).map fun a => f a.1 a.2.2
  | [], _, _, _, _ => by simp
  | a :: A, [], C, h1, h2 => by simp at h1 h2; omega
  | a :: A, b :: B, [], h1, h2 => by simp at h1
  | a :: A, b :: B, c :: C, h1, h2 => by
    simp only [List.zipWith_cons_cons, List.zip_cons_cons, List.map_cons]
    rw [zipWith_zip3 f A B C (by simpa using h1) (by simpa using h2)]

theorem zipWith_zip3' {α β γ δ : Type} (f : β → γ → δ) : ∀ (A : List α) (B : List β) (C : List γ),
    A.length = C.length → B.length = C.length →
    List.zipWith f B C = (A.zip (B.zip C)).map fun a => f a.2.1 a.2.2
  | [], _, [], _, _ => by simp
  | [], _, _ :: _, h1, _ => by simp at h1
  | a :: A, [], C, h1, h2 => by simp
  | a :: A, b :: B, [], h1, h2 => by simp at h1
  | a :: A, b :: B, c :: C, h1, h2 => by
    simp only [List.zipWith_cons_cons, List.zip_cons_cons, List.map_cons]
    rw [zipWith_zip3' f A B C (by simpa using h1) (by simpa using h2)]

/-- **C110**: every record of a table gives one line of the output, in the same order: the time, the place,
and the two components of the current for that time and place. -/
theorem C110_lines (P : Predict.Env) (I : Infer.Env) (s : Currents) (hf : Flows s) (hn : Named s.base)
    (ht : s.base.options.type = "drift") (h0 : s.base.time = none)
    (head body : List Text) (recs : List (ℝ × ℝ × ℝ))
    (hh : head.length = s.base.header) (hl : ∀ l ∈ head ++ body, OneLine l)
    (hr : List.Forall₂ (Says s.base) body recs) (mu mv : Extracted)
    (eu : s.extract "u" (recs.map fun r => s.base.lonLat (r.2.1, r.2.2)) = .ok mu)
    (ev : s.extract "v" (recs.map fun r => s.base.lonLat (r.2.1, r.2.2)) = .ok mv)
    (cu : Complete P I s.base.options mu) (cv : Complete P I s.base.options mv)
    (su : mu.amp.length = recs.length) (sv : mv.amp.length = recs.length) :
    currents P I s (fileText head body) =
      .ok ((((mu.amp.zip mu.ph).zip ((mv.amp.zip mv.ph).zip recs)).map (writtenUV P I s.base mu mv)).flatMap
        fun l => l ++ ['\n']) := by
  obtain ⟨d, h1, ht', hx, hy⟩ := input_read s.base hn head body recs hh hl hr
  have low : s.base.options.type.toLower = "drift" := by rw [ht]; exact drift_lower
  have hpl : place s.base d = .ok (some (0, 0, recs.map fun r => s.base.lonLat (r.2.1, r.2.2))) := by
    rw [place, if_neg (by rw [ht]; decide), if_pos ht, hx, ok_bind, hy, ok_bind, List.zip_map',
      List.map_map]
    rfl
  have hti : times s.base d = .ok (recs.map fun r => r.1) := by rw [times, h0]; exact ht'
  have comp : ∀ (t : String) (m : Extracted), s.extract t (recs.map fun r => s.base.lonLat (r.2.1, r.2.2)) = .ok m →
      Complete P I s.base.options m → m.amp.length = recs.length →
      component P I s 0 0 (recs.map fun r => s.base.lonLat (r.2.1, r.2.2)) (recs.map fun r => r.1) t =
        .ok (t, .drift (List.zipWith (answer P I s.base.options m) (m.amp.zip m.ph)
          ((recs.map fun r => r.1).map s.base.scale))) := by
    intro t m e c l
    rw [component, e, ok_bind, C59_drift P I s.base.options 0 0 m _ c low (by rw [l, List.length_map, List.length_map]),
      ok_bind]
  rw [currents, h1, ok_bind, if_neg (by rw [low]; decide), hpl, ok_bind, hti, ok_bind]
  dsimp only
  rw [hf.2]
  simp only [pyMap]
  rw [comp "u" mu eu cu su, comp "v" mv ev cv sv]
  simp only
  rw [ok_bind, described, if_pos (show s.isList = true ∧ s.types = ["u", "v"] from hf), ok_bind]
  simp only [pyMap, flat]
  rw [ok_bind]
  have hqu : (mu.amp.zip mu.ph).length = recs.length := by rw [List.length_zip, ← cu.points, su, Nat.min_self]
  have hqv : (mv.amp.zip mv.ph).length = recs.length := by rw [List.length_zip, ← cv.points, sv, Nat.min_self]
  generalize mu.amp.zip mu.ph = A at hqu
  generalize mv.amp.zip mv.ph = B at hqv
  have back : recs = (A.zip (B.zip recs)).map fun a => a.2.2 := by
    have e1 : (A.zip (B.zip recs)).map Prod.snd = B.zip recs := List.map_snd_zip (by rw [List.length_zip]; omega)
    have e2 : (B.zip recs).map Prod.snd = recs := List.map_snd_zip (by omega)
    conv_lhs => rw [← e2, ← e1, List.map_map]
    rfl
  have c1 : (recs.map fun r => s.base.lonLat (r.2.1, r.2.2)).map Prod.fst =
      (A.zip (B.zip recs)).map fun a => (s.base.lonLat (a.2.2.2.1, a.2.2.2.2)).1 := by
    conv_lhs => rw [back]
    rw [List.map_map, List.map_map]; rfl
  have c2 : (recs.map fun r => s.base.lonLat (r.2.1, r.2.2)).map Prod.snd =
      (A.zip (B.zip recs)).map fun a => (s.base.lonLat (a.2.2.2.1, a.2.2.2.2)).2 := by
    conv_lhs => rw [back]
    rw [List.map_map, List.map_map]; rfl
  have c3 : (recs.map fun r => r.1).map (fun u => (s.base.scale u).1) =
      (A.zip (B.zip recs)).map fun a => (s.base.scale a.2.2.1).1 := by
    conv_lhs => rw [back]
    rw [List.map_map, List.map_map]; rfl
  have c4 : (List.zipWith (answer P I s.base.options mu) A ((recs.map fun r => r.1).map s.base.scale)).map
      (fun v => v.getD s.base.fill) = (A.zip (B.zip recs)).map fun a => flowing P I s.base mu a.1 a.2.2 := by
    rw [List.map_map, List.zipWith_map_right, List.map_zipWith]
    exact zipWith_zip3 (fun q r => flowing P I s.base mu q r) A B recs hqu hqv
  have c5 : (List.zipWith (answer P I s.base.options mv) B ((recs.map fun r => r.1).map s.base.scale)).map
      (fun v => v.getD s.base.fill) = (A.zip (B.zip recs)).map fun a => flowing P I s.base mv a.2.1 a.2.2 := by
    rw [List.map_map, List.zipWith_map_right, List.map_zipWith]
    exact zipWith_zip3' (fun q r => flowing P I s.base mv q r) A B recs hqu hqv
  rw [c1, c2, c3, c4, c5]
  exact stacked5 s.base (A.zip (B.zip recs)) _ _ _ _ _

/-- A component of a tide model that is asked point by point. -/
structure Steady (P : Predict.Env) (I : Infer.Env) (s : Currents) (type : String) where
  amp : ℝ × ℝ → List Predict.MR
  ph : ℝ × ℝ → List Predict.MR
  names : List String
  corrections : String
  minor : Option (List String)
  given : ∀ ps, s.extract type ps = .ok ⟨ps.map amp, ps.map ph, names, corrections, minor⟩
  complete : ∀ ps : List (ℝ × ℝ), Complete P I s.base.options ⟨ps.map amp, ps.map ph, names, corrections, minor⟩

/-- **C110**: with a tide model that is asked point by point the program is a map of lines: there is one
function of a record, and the output has its line for every record of the input, whatever else the table
holds.  The eastward current does not depend on the northward constants, nor the other way around. -/
theorem C110_map (P : Predict.Env) (I : Infer.Env) (s : Currents) (hf : Flows s) (hn : Named s.base)
    (ht : s.base.options.type = "drift") (h0 : s.base.time = none) (wu : Steady P I s "u") (wv : Steady P I s "v") :
    ∃ U V : ℝ × ℝ × ℝ → ℝ, ∀ (head body : List Text) (recs : List (ℝ × ℝ × ℝ)),
      head.length = s.base.header → (∀ l ∈ head ++ body, OneLine l) → List.Forall₂ (Says s.base) body recs →
      currents P I s (fileText head body) = .ok ((recs.map fun r =>
        join s.base.delimiter [s.base.codec.put (s.base.scale r.1).1,
          s.base.codec.put (s.base.lonLat (r.2.1, r.2.2)).2, s.base.codec.put (s.base.lonLat (r.2.1, r.2.2)).1,
          s.base.codec.put (U r), s.base.codec.put (V r)]).flatMap fun l => l ++ ['\n']) := by
  let mu : Extracted := ⟨[], [], wu.names, wu.corrections, wu.minor⟩
  let mv : Extracted := ⟨[], [], wv.names, wv.corrections, wv.minor⟩
  refine ⟨fun r => flowing P I s.base mu (wu.amp (s.base.lonLat (r.2.1, r.2.2)), wu.ph (s.base.lonLat (r.2.1, r.2.2))) r,
    fun r => flowing P I s.base mv (wv.amp (s.base.lonLat (r.2.1, r.2.2)), wv.ph (s.base.lonLat (r.2.1, r.2.2))) r, ?_⟩
  intro head body recs hh hl hr
  rw [C110_lines P I s hf hn ht h0 head body recs hh hl hr _ _ (wu.given _) (wv.given _) (wu.complete _) (wv.complete _)
    (by simp) (by simp)]
  congr 2
  have step : ∀ {α : Type} (g : ℝ × ℝ × ℝ → α) (k : ℝ × ℝ × ℝ → α × (ℝ × ℝ × ℝ)), (∀ r, k r = (g r, r)) →
      (recs.map g).zip recs = recs.map k := by
    intro α g k hk
    conv_lhs => rw [← List.map_id recs, List.map_map]
    rw [List.zip_map']
    exact List.map_congr_left fun r _ => (hk r).symm
  have e1 : ∀ (a p : ℝ × ℝ → List Predict.MR),
      ((recs.map fun r => s.base.lonLat (r.2.1, r.2.2)).map a).zip ((recs.map fun r => s.base.lonLat (r.2.1, r.2.2)).map p) =
      recs.map fun r => (a (s.base.lonLat (r.2.1, r.2.2)), p (s.base.lonLat (r.2.1, r.2.2))) := by
    intro a p
    rw [List.zip_map', List.map_map]
    rfl
  simp only
  rw [e1, e1, step _ (fun r => ((wv.amp (s.base.lonLat (r.2.1, r.2.2)), wv.ph (s.base.lonLat (r.2.1, r.2.2))), r))
    (fun _ => rfl), List.zip_map', List.map_map]
  rfl

/-- **C110**: the output for a table in two parts is the output for the first followed by the output for
the second (each with the lines passed over). -/
theorem C110_parts (P : Predict.Env) (I : Infer.Env) (s : Currents) (hf : Flows s) (hn : Named s.base)
    (ht : s.base.options.type = "drift") (h0 : s.base.time = none) (wu : Steady P I s "u") (wv : Steady P I s "v")
    (head a b : List Text) (ra rb : List (ℝ × ℝ × ℝ)) (hh : head.length = s.base.header)
    (hl : ∀ l ∈ head ++ a ++ b, OneLine l) (ha : List.Forall₂ (Says s.base) a ra)
    (hb : List.Forall₂ (Says s.base) b rb) :
    ∃ ta tb, currents P I s (fileText head a) = .ok ta ∧ currents P I s (fileText head b) = .ok tb ∧
      currents P I s (fileText head (a ++ b)) = .ok (ta ++ tb) := by
  obtain ⟨U, V, hF⟩ := C110_map P I s hf hn ht h0 wu wv
  have m1 : ∀ l ∈ head ++ a, OneLine l := fun l h => hl l (by simp at h ⊢; tauto)
  have m2 : ∀ l ∈ head ++ b, OneLine l := fun l h => hl l (by simp at h ⊢; tauto)
  have m3 : ∀ l ∈ head ++ (a ++ b), OneLine l := fun l h => hl l (by simp at h ⊢; tauto)
  refine ⟨_, _, hF head a ra hh m1 ha, hF head b rb hh m2 hb, ?_⟩
  rw [hF head (a ++ b) (ra ++ rb) hh m3 (List.rel_append ha hb), List.map_append, List.flatMap_append]

/-- A definition file that names the components in another order, or one of them, or elevations, is
accepted when the model is selected, but the program then fails whatever the table. -/
theorem C110_definition_false (P : Predict.Env) (I : Infer.Env) (s : Currents) (hf : ¬ Flows s)
    (file out : Text) : currents P I s file ≠ .ok out := by
  intro h
  rw [currents] at h
  obtain ⟨d, _, h⟩ := ran h
  split at h
  · cases h
  · obtain ⟨w, _, h⟩ := ran h
    obtain ⟨t, _, h⟩ := ran h
    split at h
    · cases h
    · obtain ⟨m, _, h⟩ := ran h
      obtain ⟨o, ho, _⟩ := ran h
      rw [described, if_neg (show ¬ (s.isList = true ∧ s.types = ["u", "v"]) from hf)] at ho
      cases ho

/-- A grid or time series that comes as a table never gives a file. -/
theorem C110_types_false (P : Predict.Env) (I : Infer.Env) (s : Currents)
    (ht : s.base.options.type = "grid" ∨ s.base.options.type = "time series") (file out : Text) :
    currents P I s file ≠ .ok out := by
  have low : s.base.options.type.toLower = "grid" ∨ s.base.options.type.toLower = "time series" := by
    rcases ht with e | e <;> rw [e] <;> decide +kernel
  have nd : ∀ ny nx m ts l, tideElevations P I s.base.options ny nx m ts ≠ .ok (.drift l) := by
    intro ny nx m ts l h
    rw [tideElevations] at h
    split at h
    · cases h
    · rw [predict] at h
      rcases low with e | e
      · rw [if_pos e] at h
        obtain ⟨_, _, h⟩ := ran h
        cases h
      · rw [if_neg (by rw [e]; decide), if_neg (by rw [e]; decide), if_pos e] at h
        obtain ⟨_, _, h⟩ := ran h
        cases h
  by_cases hf : Flows s
  · intro h
    rw [currents] at h
    obtain ⟨d, _, h⟩ := ran h
    split at h
    · cases h
    · obtain ⟨w, _, h⟩ := ran h
      obtain ⟨t, _, h⟩ := ran h
      split at h
      · cases h
      · obtain ⟨tides, h1, h⟩ := ran h
        obtain ⟨_, _, h⟩ := ran h
        obtain ⟨cols, h2, _⟩ := ran h
        rw [hf.2] at h1
        simp only [pyMap] at h1
        split at h1
        · cases h1
        · rename_i b hb
          rw [component] at hb
          obtain ⟨m, _, hb⟩ := ran hb
          obtain ⟨o, ho, hb⟩ := ran hb
          cases hb
          split at h1
          · cases h1
          · cases h1
            simp only [pyMap] at h2
            split at h2
            · cases h2
            · rename_i c hc
              cases o with
              | drift l => exact nd _ _ _ _ _ ho
              | grid l => cases hc
              | series l => cases hc
  · exact C110_definition_false P I s hf file out

/-! ### A case that meets the hypotheses -/

/-- Currents with the same constants everywhere, along the track of `voyage`. -/
noncomputable def crossing : Currents where
  base := voyage
  isList := true
  types := ["u", "v"]
  extract := fun _ => voyage.extract

example (P : Predict.Env) (I : Infer.Env) (hP : ∀ c, P.known c = true) :
    Flows crossing ∧ Named crossing.base ∧ Nonempty (Steady P I crossing "u") ∧ Nonempty (Steady P I crossing "v") := by
  have hd : (Infer.eight.map String.toLower).Nodup := by decide +kernel
  have st : ∀ t, Nonempty (Steady P I crossing t) := by
    intro t
    refine ⟨⟨_, _, _, _, _, fun ps => rfl, fun ps => ?_⟩⟩
    refine ⟨by simp, fun q hq => ?_, fun c _ => hP c, hd, fun h => by cases h⟩
    have h1 := (List.of_mem_zip hq).1
    have h2 := (List.of_mem_zip hq).2
    simp only [List.mem_map] at h1 h2
    obtain ⟨_, _, h1⟩ := h1
    obtain ⟨_, _, h2⟩ := h2
    rw [← h1, ← h2]
    exact ⟨rfl, rfl⟩
  exact ⟨⟨rfl, rfl⟩, ⟨by decide, by decide, by decide⟩, st "u", st "v"⟩

end Verif.Program
