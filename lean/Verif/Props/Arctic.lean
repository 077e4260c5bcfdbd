import Verif.Spec.Arctic
import Verif.Props.Mirror
import Verif.Model.Database
/-!
C118: the files of Arctic tide models are fetched to where the models are looked up, whatever was there
before, and a run repairs what an earlier one that was cut off has left.
-/
namespace Verif.Arctic
open Verif Verif.Posix Verif.Mirror Verif.Spec.Arctic

/-! ### Which members -/

theorem search_iff (p s : Name) : search p s = true ↔ p <:+: s := by
  induction s with
  | nil =>
    rw [search, List.isEmpty_iff, List.infix_nil]
  | cons c s ih =>
    rw [search, Bool.or_eq_true, ih, List.isPrefixOf_iff_prefix, List.infix_cons_iff]

/-- **C118** (which members).  A member is extracted exactly if one of the strings is in its name, which
includes the names of its directories. -/
theorem C118_chosen (m : Zipped) : chosen m = true ↔ Wanted m.name := by
  rw [chosen, List.any_eq_true]
  constructor
  · rintro ⟨p, hp, h⟩
    rw [search_iff] at h
    simp only [stems, ext, List.mem_cons, List.not_mem_nil, or_false] at hp
    rcases hp with rfl | rfl | rfl | rfl | rfl | rfl | rfl <;> exact ⟨_, by simp, h⟩
  · rintro ⟨s, hs, h⟩
    refine ⟨s.toList, ?_, (search_iff _ _).2 h⟩
    simp only [List.mem_cons, List.not_mem_nil, or_false] at hs
    rcases hs with rfl | rfl | rfl | rfl | rfl | rfl | rfl <;> simp [stems, ext]

theorem leaf_basename (p : Name) : Leaf p (basename p) := by
  refine ⟨basename_slash p, ?_⟩
  by_cases h : '/' ∈ p
  · right
    have hb := before_basename p
    have hne : before p ≠ [] := by
      intro e
      rw [e, List.nil_append] at hb
      exact basename_slash p (by rw [hb]; exact h)
    obtain ⟨s, c, e⟩ : ∃ s c, before p = s ++ [c] := by
      rcases List.eq_nil_or_concat (before p) with h | ⟨s, c, e⟩
      · exact absurd h hne
      · exact ⟨s, c, by simpa using e⟩
    have hc : c = '/' := by
      have e' := congrArg List.reverse e
      rw [before, List.reverse_reverse, List.reverse_append, List.reverse_singleton,
        List.singleton_append] at e'
      have := List.head?_dropWhile_not (fun x : Char => decide (x ≠ '/')) p.reverse
      rw [e'] at this
      simpa using this
    refine ⟨s, ?_⟩
    conv_lhs => rw [← hb, e, hc]
    simp
  · left
    rw [basename_self h]

theorem leaf_eq {p n : Name} (h : Leaf p n) : basename p = n := by
  obtain ⟨hn, rfl | ⟨s, rfl⟩⟩ := h
  · exact basename_self hn
  · exact basename_eq hn

theorem leaf_iff (p n : Name) : Leaf p n ↔ basename p = n :=
  ⟨leaf_eq, fun h => h ▸ leaf_basename p⟩

/-! ### Steps on the disk -/

/-- The bytes at a place after a file has been written. -/
def after (q : Place) (o : Option (List UInt8)) (w : Place × List UInt8) : Option (List UInt8) :=
  if w.1 = q then some w.2 else o

theorem exec_pieces_all (now : ℕ → ℚ) (p : Place) (l : List (List UInt8)) (k : ℕ) (d : Disk Place) (f : File)
    (h : d p = some f) :
    ∀ q, (exec d (pieceOps now p k l) q).map File.content =
      if p = q then some (f.content ++ l.flatten) else (d q).map File.content := by
  intro q
  obtain ⟨t, _, _, e⟩ := exec_pieces now p l l.length k d f h
  rw [List.take_of_length_le (by rw [length_pieces]), List.take_length] at e
  rw [e]
  by_cases hq : p = q
  · rw [if_pos hq, ← hq, Function.update_self]
    rfl
  · rw [if_neg hq, Function.update_of_ne (Ne.symm hq)]

theorem exec_steps (e : Env) (now : ℕ → ℚ) (l : List (Place × List UInt8)) :
    ∀ (k : ℕ) (d : Disk Place) (q : Place),
      (exec d (steps e now k l) q).map File.content = l.foldl (after q) ((d q).map File.content) := by
  induction l with
  | nil => intro k d q; rfl
  | cons w l ih =>
    intro k d q
    have hs : exec d (steps e now k (w :: l)) =
        exec (exec (step d (.truncate w.1 (now k))) (pieceOps now w.1 (k + 1) (e.chunks w.2)))
          (steps e now (k + 1 + (e.chunks w.2).length) l) := by
      rw [steps, exec, List.foldl_cons, ← exec, exec_append]
    rw [hs, ih, List.foldl_cons, exec_pieces_all now w.1 _ _ _ ⟨[], now k⟩ (by
      rw [step, Function.update_self])]
    congr 1
    rw [after, List.nil_append, e.flatten_chunks]
    split
    · rfl
    · next h => rw [step, Function.update_of_ne (Ne.symm h)]

/-- The place of a step. -/
def place : Op Place → Place
  | .truncate p _ => p
  | .append p _ _ => p
  | .utime p _ => p
  | .unlink p => p

theorem exec_other (ops : List (Op Place)) (q : Place) : ∀ (d : Disk Place), (∀ o ∈ ops, place o ≠ q) →
    exec d ops q = d q := by
  induction ops with
  | nil => intros; rfl
  | cons o l ih =>
    intro d h
    rw [exec, List.foldl_cons, ← exec, ih _ fun o' ho => h o' (List.mem_cons_of_mem _ ho)]
    have := h o List.mem_cons_self
    cases o <;> exact Function.update_of_ne (Ne.symm this) _ _

theorem place_pieces (now : ℕ → ℚ) (p : Place) (l : List (List UInt8)) :
    ∀ k, ∀ o ∈ pieceOps now p k l, place o = p := by
  induction l with
  | nil => intro k o h; simp [pieceOps] at h
  | cons b l ih =>
    intro k o h
    rw [pieceOps, List.mem_cons] at h
    rcases h with rfl | h
    · rfl
    · exact ih _ o h

theorem place_steps (e : Env) (now : ℕ → ℚ) (l : List (Place × List UInt8)) :
    ∀ k, ∀ o ∈ steps e now k l, ∃ w ∈ l, place o = w.1 := by
  induction l with
  | nil => intro k o h; simp [steps] at h
  | cons w l ih =>
    intro k o h
    rw [steps, List.mem_cons, List.mem_append] at h
    rcases h with rfl | h | h
    · exact ⟨w, by simp, rfl⟩
    · exact ⟨w, by simp, place_pieces _ _ _ _ o h⟩
    · obtain ⟨w', hw, e'⟩ := ih _ o h
      exact ⟨w', by simp [hw], e'⟩

theorem fold_start (q : Place) (l : List (Place × List UInt8)) (h : ∃ w ∈ l, w.1 = q) :
    ∀ o o' : Option (List UInt8), l.foldl (after q) o = l.foldl (after q) o' := by
  induction l with
  | nil => simp at h
  | cons w l ih =>
    intro o o'
    rw [List.foldl_cons, List.foldl_cons]
    by_cases hw : w.1 = q
    · rw [after, after, if_pos hw, if_pos hw]
    · rw [after, after, if_neg hw, if_neg hw]
      obtain ⟨v, hv, e⟩ := h
      rcases List.mem_cons.1 hv with rfl | hv
      · exact absurd e hw
      · exact ih ⟨v, hv, e⟩ o o'

theorem fold_none (q : Place) (l : List (Place × List UInt8)) (h : ∀ w ∈ l, w.1 ≠ q) :
    ∀ o : Option (List UInt8), l.foldl (after q) o = o := by
  induction l with
  | nil => intro o; rfl
  | cons w l ih =>
    intro o
    rw [List.foldl_cons, after, if_neg (h w (by simp)), ih fun v hv => h v (by simp [hv])]

/-- **C118** (interruptions).  Wherever runs are cut off, one run that is not leaves the same files as a single
run on the disk as it was at first: what a run that was cut off left is repaired.  This holds whatever models
are asked for and whatever the archives are, also when a run ends with an exception. -/
theorem C118_crash (e : Env) (archive : String → List Zipped) (parent : Place) (models : List String)
    (d : Disk Place) (cuts : List ((ℕ → ℚ) × ℕ)) (now now' : ℕ → ℚ) :
    SameFiles
      (run e now (cuts.foldl (fun d c => crash e c.1 c.2 d (main archive parent models)) d)
        (main archive parent models))
      (run e now' d (main archive parent models)) := by
  generalize main archive parent models = p
  intro q
  rw [run, run, exec_steps, exec_steps]
  by_cases h : ∃ w ∈ p.1, w.1 = q
  · exact fold_start q p.1 h _ _
  · have h' : ∀ w ∈ p.1, w.1 ≠ q := fun w hw e => h ⟨w, hw, e⟩
    rw [fold_none q p.1 h', fold_none q p.1 h']
    congr 1
    induction cuts generalizing d with
    | nil => rfl
    | cons c cuts ih =>
      rw [List.foldl_cons, ih, crash, exec_other]
      intro o ho
      obtain ⟨w, hw, e'⟩ := place_steps e c.1 p.1 0 o (List.mem_of_mem_take ho)
      rw [e']
      exact h' w hw

/-! ### Where -/

theorem extract_inside (dir : Place) (l : List Zipped) :
    ∀ w ∈ (extract dir l).1, ∃ n, '/' ∉ n ∧ Proper n ∧ w.1 = dir ++ [n] := by
  induction l with
  | nil => intro w h; simp [extract] at h
  | cons m l ih =>
    intro w h
    rw [extract, target] at h
    split_ifs at h with hn
    · simp at h
    · rcases List.mem_cons.1 h with rfl | h
      · refine ⟨basename m.name, basename_slash _, ?_, rfl⟩
        simpa [Proper, not_or] using hn
      · exact ih w h

theorem lookup_subdirectories {t s : String} (h : subdirectories.lookup t = some s) :
    (t, s) ∈ subdirectories := by
  revert h
  generalize subdirectories = l
  induction l with
  | nil => simp
  | cons x l ih =>
    obtain ⟨a, b⟩ := x
    rw [List.lookup_cons]
    by_cases hx : t = a
    · subst hx
      simp only [beq_self_eq_true]
      intro h
      rw [Option.some.inj h]
      simp
    · rw [beq_eq_false_iff_ne.2 hx]
      exact fun h => List.mem_cons_of_mem _ (ih h)

theorem main_inside (archive : String → List Zipped) (parent : Place) (models : List String) :
    ∀ w ∈ (main archive parent models).1, ∃ t ∈ models, ∃ s n, (t, s) ∈ subdirectories ∧ '/' ∉ n ∧
      Proper n ∧ w.1 = parent ++ [s.toList, n] := by
  have one : ∀ t, ∀ w ∈ (arcticdata archive parent t).1, ∃ s n, (t, s) ∈ subdirectories ∧ '/' ∉ n ∧
      Proper n ∧ w.1 = parent ++ [s.toList, n] := by
    intro t w hw
    rw [arcticdata] at hw
    split at hw
    · simp at hw
    · next s hs =>
      obtain ⟨n, h1, h2, h3⟩ := extract_inside _ _ w hw
      exact ⟨s, n, lookup_subdirectories hs, h1, h2, by rw [h3]; simp⟩
  induction models with
  | nil => intro w h; simp [main] at h
  | cons t l ih =>
    intro w hw
    rw [main] at hw
    have h1 := one t w
    revert hw h1
    generalize arcticdata archive parent t = r
    obtain ⟨a, x | _⟩ := r
    · intro hw h1
      rcases List.mem_append.1 hw with hw | hw
      · obtain ⟨s, n, h⟩ := h1 hw
        exact ⟨t, by simp, s, n, h⟩
      · obtain ⟨t', ht, h⟩ := ih w hw
        exact ⟨t', by simp [ht], h⟩
    · intro hw h1
      obtain ⟨s, n, h⟩ := h1 hw
      exact ⟨t, by simp, s, n, h⟩

/-- **C118** (places).  Whatever the names in the archives are, files are only written, with a name without a
slash that is not a dot or two, in the subdirectories of the models that are asked for; at all times all other
files are as they were. -/
theorem C118_inside (e : Env) (archive : String → List Zipped) (parent : Place) (models : List String)
    (d : Disk Place) (now : ℕ → ℚ) (n : ℕ) (q : Place)
    (h : ∀ t ∈ models, ∀ s, (t, s) ∈ [("AODTM-5", "aodtm5_tmd"), ("AOTIM-5", "aotim5_tmd"),
      ("AOTIM-5-2018", "Arc5km2018"), ("Arc2kmTM", "Arc2kmTM"), ("Gr1kmTM", "Gr1kmTM")] →
      ∀ leaf, '/' ∉ leaf → Proper leaf → q ≠ parent ++ [s.toList, leaf]) :
    crash e now n d (main archive parent models) q = d q := by
  refine exec_other _ _ _ fun o ho e' => ?_
  obtain ⟨w, hw, ew⟩ := place_steps e now _ 0 o (List.mem_of_mem_take ho)
  obtain ⟨t, ht, s, leaf, h1, h2, h3, h4⟩ := main_inside archive parent models w hw
  exact h t ht s h1 leaf h2 h3 (by rw [← e', ew, h4])

/-! ### All files -/

theorem extract_ok (dir : Place) (l : List Zipped) (h : ∀ m ∈ l, Proper (basename m.name)) :
    extract dir l = (l.map fun m => (dir ++ [basename m.name], m.content), none) := by
  induction l with
  | nil => rfl
  | cons m l ih =>
    have hm := h m (by simp)
    rw [extract, target, if_neg (by simpa [Proper, not_or] using hm),
      ih fun m' hm' => h m' (by simp [hm'])]
    rfl

theorem arcticdata_ok (archive : String → List Zipped) (parent : Place) {t s : String}
    (ht : subdirectories.lookup t = some s) (h : Sound (archive t)) :
    arcticdata archive parent t =
      (((archive t).filter chosen).map fun m => (parent ++ [s.toList] ++ [basename m.name], m.content), none) := by
  rw [arcticdata, ht]
  refine extract_ok _ _ fun m hm => ?_
  obtain ⟨hm, hc⟩ := List.mem_filter.1 hm
  exact h m hm ((C118_chosen m).1 hc) _ (leaf_basename _)

theorem main_cons (archive : String → List Zipped) (parent : Place) {t s : String} (l : List String)
    (ht : subdirectories.lookup t = some s) (h : Sound (archive t)) :
    main archive parent (t :: l) =
      ((((archive t).filter chosen).map fun m => (parent ++ [s.toList] ++ [basename m.name], m.content)) ++
        (main archive parent l).1, (main archive parent l).2) := by
  rw [main, arcticdata_ok archive parent ht h]

theorem lookup_of_entry {t s : String} (h : (t, s) ∈ subdirectories) : subdirectories.lookup t = some s := by
  have key : ∀ x ∈ subdirectories, subdirectories.lookup x.1 = some x.2 := by decide +kernel
  exact key _ h

theorem entry_unique {t t' s : String} (h : (t, s) ∈ subdirectories) (h' : (t', s) ∈ subdirectories) :
    t = t' := by
  have key : ∀ x ∈ subdirectories, ∀ y ∈ subdirectories, x.2 = y.2 → x.1 = y.1 := by decide +kernel
  exact key _ h _ h' rfl

/-- **C118** (a run).  If the archives have only files among the members that are wanted, then after a run for
models the program knows every wanted member is in the subdirectory of its model under the last part of its
name, with its bytes, unless a later wanted member has the same last part; and the run ends without an
exception.  Missing: archives with directories or with several members of one name; see
`C118_directory_false` and `C118_names_false`. -/
theorem C118_run_partial (e : Env) (archive : String → List Zipped) (parent : Place) (models : List String)
    (d : Disk Place) (now : ℕ → ℚ) (hm : ∀ t ∈ models, ∃ s, (t, s) ∈ subdirectories)
    (hs : ∀ t ∈ models, Sound (archive t)) :
    (main archive parent models).2 = none ∧
    ∀ t ∈ models, ∀ s, (t, s) ∈ subdirectories → ∀ m leaf, Wanted m.name → Leaf m.name leaf →
      LastNamed (archive t) m leaf →
      HasFile (run e now d (main archive parent models)) (parent ++ [s.toList, leaf]) m.content := by
  constructor
  · induction models with
    | nil => rfl
    | cons t l ih =>
      obtain ⟨s, h⟩ := hm t (by simp)
      rw [main_cons archive parent l (lookup_of_entry h) (hs t (by simp))]
      exact ih (fun t' ht => hm t' (by simp [ht])) fun t' ht => hs t' (by simp [ht])
  · intro t ht s hts m leaf hw hl hlast
    suffices h : ((main archive parent models).1).foldl (after (parent ++ [s.toList, leaf]))
        ((d (parent ++ [s.toList, leaf])).map File.content) = some m.content by
      have h' := exec_steps e now (main archive parent models).1 0 d (parent ++ [s.toList, leaf])
      rw [h] at h'
      obtain ⟨f, hf, hc⟩ := Option.map_eq_some_iff.1 h'
      exact ⟨f, hf, hc⟩
    -- one model
    have one : ∀ o, (((archive t).filter chosen).map fun m =>
        (parent ++ [s.toList] ++ [basename m.name], m.content)).foldl
          (after (parent ++ [s.toList, leaf])) o = some m.content := by
      intro o
      obtain ⟨a, b, e', hb⟩ := hlast
      rw [e', List.filter_append, List.filter_cons_of_pos ((C118_chosen m).2 hw), List.map_append,
        List.foldl_append, List.map_cons, List.foldl_cons, fold_none]
      · rw [after, if_pos (by rw [leaf_eq hl]; simp)]
      · intro w hw' e''
        obtain ⟨m', hm', rfl⟩ := List.mem_map.1 hw'
        obtain ⟨hm', hc⟩ := List.mem_filter.1 hm'
        refine hb m' hm' ((C118_chosen m').1 hc) ((leaf_iff _ _).2 ?_)
        simpa using e''
    generalize (d (parent ++ [s.toList, leaf])).map File.content = o
    have stay : ∀ l : List String, (∀ t ∈ l, ∃ s, (t, s) ∈ subdirectories) → (∀ t ∈ l, Sound (archive t)) →
        ((main archive parent l).1).foldl (after (parent ++ [s.toList, leaf])) (some m.content) =
          some m.content := by
      intro l
      induction l with
      | nil => intros; rfl
      | cons t' l ih =>
        intro hm hs
        obtain ⟨s', h⟩ := hm t' (by simp)
        have hl := ih (fun t' ht => hm t' (by simp [ht])) fun t' ht => hs t' (by simp [ht])
        rw [main_cons archive parent l (lookup_of_entry h) (hs t' (by simp)), List.foldl_append]
        by_cases hss : s' = s
        · subst hss
          have := entry_unique hts h
          subst this
          rw [one, hl]
        · have hz : ∀ w ∈ ((archive t').filter chosen).map fun m =>
              (parent ++ [s'.toList] ++ [basename m.name], m.content), w.1 ≠ parent ++ [s.toList, leaf] := by
            intro w hw' e''
            obtain ⟨m', _, rfl⟩ := List.mem_map.1 hw'
            refine hss (String.toList_inj.1 ?_)
            have : parent ++ ([s'.toList] ++ [basename m'.name]) = parent ++ [s.toList, leaf] := by
              rw [← e'']; simp
            have := List.append_cancel_left this
            exact (List.cons.inj this).1
          rw [fold_none _ _ hz, hl]
    clear hlast
    induction models generalizing o with
    | nil => simp at ht
    | cons t' l ih =>
      obtain ⟨s', h⟩ := hm t' (by simp)
      have hm' : ∀ t ∈ l, ∃ s, (t, s) ∈ subdirectories := fun t' ht => hm t' (by simp [ht])
      have hs' : ∀ t ∈ l, Sound (archive t) := fun t' ht => hs t' (by simp [ht])
      rw [main_cons archive parent l (lookup_of_entry h) (hs t' (by simp)), List.foldl_append]
      rcases List.mem_cons.1 ht with rfl | ht
      · have := (lookup_of_entry h).symm.trans (lookup_of_entry hts)
        rw [Option.some.inj this, one, stay l hm' hs']
      · exact ih hm' hs' ht _

/-! ### Where the models are looked up -/

/-- The files of a model in the database. -/
def filesOf (x : Database.Entry) : List String := x.grid.toList ++ x.files.flatMap (·.2)

/-- What is checked for a file of the database. -/
def checked (s f : String) : Bool :=
  stems.any (fun p => search p (basename f.toList)) && decide (f.toList.head? ≠ some '/') &&
    decide (parts f.toList = [s.toList, basename f.toList]) && decide (s.toList ≠ ['.', '.']) &&
    decide (basename f.toList ≠ ['.', '.'])

theorem table : (Database.elevation ++ Database.current).all (fun x => subdirectories.all fun y =>
    x.key ≠ y.1 || (filesOf x).all (checked y.2)) = true := by
  decide +kernel

theorem wanted_leaf {name leaf : Name} (h : Leaf name leaf) (hw : Wanted leaf) : Wanted name := by
  obtain ⟨s, hs, hi⟩ := hw
  refine ⟨s, hs, hi.trans ?_⟩
  rcases h.2 with rfl | ⟨a, rfl⟩
  · exact List.infix_rfl
  · exact ⟨a ++ ['/'], [], by simp⟩

/-- **C118** (where models are looked up).  For every file the database names for a model that the program
knows (its grid, elevations and currents): if the archive has a file of that name, in whatever directory, then
after a run for the model the file is, with the bytes of the last such one, where the model is looked up when
it is given the same directory. -/
theorem C118_lookup_partial (e : Env) (archive : String → List Zipped) (parent : Place) (models : List String)
    (d : Disk Place) (now : ℕ → ℚ) (hm : ∀ t ∈ models, ∃ s, (t, s) ∈ subdirectories)
    (hs : ∀ t ∈ models, Sound (archive t)) (x : Database.Entry)
    (hx : x ∈ Database.elevation ++ Database.current) (ht : x.key ∈ models) (f : String) (hf : f ∈ filesOf x) :
    ∃ leaf, Leaf f.toList leaf ∧ ∀ m, Leaf m.name leaf → LastNamed (archive x.key) m leaf →
      HasFile (run e now d (main archive parent models)) (joinpath parent f.toList) m.content := by
  obtain ⟨s, hts⟩ := hm _ ht
  have hc := List.all_eq_true.1 (List.all_eq_true.1 table x hx) _ hts
  simp only [ne_eq, not_true_eq_false, decide_false, Bool.false_or] at hc
  have hc := List.all_eq_true.1 hc f hf
  simp only [checked, Bool.and_eq_true, decide_eq_true_eq] at hc
  obtain ⟨⟨⟨⟨h1, h2⟩, h3⟩, h4⟩, h5⟩ := hc
  refine ⟨basename f.toList, leaf_basename _, fun m hl hlast => ?_⟩
  have hw : Wanted (basename f.toList) := (C118_chosen ⟨basename f.toList, []⟩).1 h1
  have hp : joinpath parent f.toList = parent ++ [s.toList, basename f.toList] := by
    rw [joinpath, if_neg h2, h3, walk, List.foldl_cons, List.foldl_cons, List.foldl_nil, if_neg h4,
      if_neg h5, List.append_assoc]
    rfl
  rw [hp]
  exact (C118_run_partial e archive parent models d now hm hs).2 _ ht s hts m _ (wanted_leaf hl hw) hl hlast

/-- An archive as `arcticdata.io` sends it: a directory with the files of the model and others. -/
def sample : List Zipped :=
  [⟨ext "data/manifest.txt", [1]⟩, ⟨ext "data/grid_Gr1kmTM_v1", [2, 3]⟩, ⟨ext "data/h_Gr1kmTM_v1", [4]⟩,
    ⟨ext "data/UV_Gr1kmTM_v1", [5]⟩, ⟨ext "data/Model_Gr1kmTM_v1", [6]⟩]

example : Sound sample ∧ LastNamed sample ⟨ext "data/h_Gr1kmTM_v1", [4]⟩ (ext "h_Gr1kmTM_v1") ∧
    Wanted (ext "data/h_Gr1kmTM_v1") ∧ ¬ Wanted (ext "data/manifest.txt") ∧
    ("Gr1kmTM", "Gr1kmTM") ∈ subdirectories ∧
    ∃ x ∈ Database.elevation, x.key = "Gr1kmTM" ∧ "Gr1kmTM/h_Gr1kmTM_v1" ∈ filesOf x := by
  refine ⟨?_, ⟨sample.take 2, sample.drop 3, rfl, ?_⟩, ?_, ?_, ?_, ?_⟩
  · intro m hm _ n hn
    rw [leaf_iff] at hn
    subst hn
    have key : ∀ b ∈ sample.map fun m => basename m.name, b ≠ [] ∧ b ≠ ['.'] ∧ b ≠ ['.', '.'] := by
      decide +kernel
    exact key _ (List.mem_map_of_mem hm)
  · intro m hm _ hn
    rw [leaf_iff] at hn
    have key : ∀ b ∈ (sample.drop 3).map fun m => basename m.name, b ≠ ext "h_Gr1kmTM_v1" := by
      decide +kernel
    exact key _ (List.mem_map_of_mem hm) hn
  · exact (C118_chosen ⟨_, []⟩).1 (by decide +kernel)
  · exact fun h => absurd ((C118_chosen ⟨_, []⟩).2 h) (by decide +kernel)
  · decide +kernel
  · decide +kernel

/-- **C118** (refuted: directories).  A member for a directory with one of the strings in its name ends the
run with an exception, and no member after it is written. -/
theorem C118_directory_false (e : Env) (archive : String → List Zipped) (parent : Place) (l : List Zipped)
    (h : archive "Gr1kmTM" = ⟨ext "data/Model_Gr1kmTM/", []⟩ :: l) (d : Disk Place) (now : ℕ → ℚ)
    (more : List String) :
    (main archive parent ("Gr1kmTM" :: more)).2 = some .ioError ∧
      run e now d (main archive parent ("Gr1kmTM" :: more)) = d := by
  have hl : subdirectories.lookup "Gr1kmTM" = some "Gr1kmTM" := by decide +kernel
  have hc : chosen ⟨ext "data/Model_Gr1kmTM/", []⟩ = true := by decide +kernel
  have hb : basename (ext "data/Model_Gr1kmTM/") = [] := by decide +kernel
  have hm : main archive parent ("Gr1kmTM" :: more) = ([], some .ioError) := by
    rw [main, arcticdata, hl]
    dsimp only
    rw [h, List.filter_cons_of_pos hc, extract]
    dsimp only
    rw [hb, target, if_pos (Or.inl rfl)]
  rw [hm]
  exact ⟨rfl, rfl⟩

/-- **C118** (refuted: one name in several directories).  Of two wanted members with the same last part the
first is lost. -/
theorem C118_names_false (e : Env) (archive : String → List Zipped) (parent : Place) (a b : List UInt8)
    (h : archive "Gr1kmTM" = [⟨ext "v1/h_Gr1kmTM", a⟩, ⟨ext "v2/h_Gr1kmTM", b⟩]) (d : Disk Place) (now : ℕ → ℚ) :
    ∀ q, HasFile (run e now d (main archive parent ["Gr1kmTM"])) q a →
      a = b ∨ HasFile d q a := by
  have hl : subdirectories.lookup "Gr1kmTM" = some "Gr1kmTM" := by decide +kernel
  have e1 : basename (ext "v1/h_Gr1kmTM") = ext "h_Gr1kmTM" := by decide +kernel
  have e2 : basename (ext "v2/h_Gr1kmTM") = ext "h_Gr1kmTM" := by decide +kernel
  have hs : Sound (archive "Gr1kmTM") := by
    rw [h]
    intro m hm _ n hn
    rw [leaf_iff] at hn
    subst hn
    simp only [List.mem_cons, List.not_mem_nil, or_false] at hm
    have key : Proper (ext "h_Gr1kmTM") := ⟨by decide +kernel, by decide +kernel, by decide +kernel⟩
    rcases hm with rfl | rfl
    · exact e1 ▸ key
    · exact e2 ▸ key
  have hc : ∀ c, chosen ⟨ext "v1/h_Gr1kmTM", c⟩ = true ∧ chosen ⟨ext "v2/h_Gr1kmTM", c⟩ = true := by
    intro c
    exact ⟨(C118_chosen _).2 ((C118_chosen ⟨ext "v1/h_Gr1kmTM", []⟩).1 (by decide +kernel)),
      (C118_chosen _).2 ((C118_chosen ⟨ext "v2/h_Gr1kmTM", []⟩).1 (by decide +kernel))⟩
  intro q ⟨f, hf, hfc⟩
  have h' := exec_steps e now (main archive parent ["Gr1kmTM"]).1 0 d q
  have hr : (run e now d (main archive parent ["Gr1kmTM"]) q).map File.content = some a := by
    rw [hf, Option.map_some, hfc]
  rw [run, h', main_cons archive parent [] hl hs, h, List.filter_cons_of_pos (hc a).1,
    List.filter_cons_of_pos (hc b).2] at hr
  simp only [List.filter_nil, List.map_cons, List.map_nil, main, List.append_nil, List.foldl_cons,
    List.foldl_nil, e1, e2, after] at hr
  by_cases hq : parent ++ ["Gr1kmTM".toList] ++ [ext "h_Gr1kmTM"] = q
  · rw [if_pos hq] at hr
    exact Or.inl (Option.some.inj hr).symm
  · rw [if_neg hq, if_neg hq] at hr
    obtain ⟨g, hg, hgc⟩ := Option.map_eq_some_iff.1 hr
    exact Or.inr ⟨g, hg, hgc⟩

/-- **C118** (other models).  A model that the program does not know is refused and nothing is written. -/
theorem C118_unknown (e : Env) (archive : String → List Zipped) (parent : Place) (t : String)
    (h : t ∉ ["AODTM-5", "AOTIM-5", "AOTIM-5-2018", "Arc2kmTM", "Gr1kmTM"]) (l : List String) (d : Disk Place)
    (now : ℕ → ℚ) :
    (main archive parent (t :: l)).2 = some .keyError ∧ run e now d (main archive parent (t :: l)) = d := by
  have hl : subdirectories.lookup t = none := by
    cases hx : subdirectories.lookup t with
    | none => rfl
    | some s =>
      have hm := lookup_subdirectories hx
      refine absurd ?_ h
      have : t ∈ subdirectories.map (·.1) := List.mem_map.2 ⟨_, hm, rfl⟩
      exact this
  have hm : main archive parent (t :: l) = ([], some .keyError) := by rw [main, arcticdata, hl]
  rw [hm]
  exact ⟨rfl, rfl⟩

end Verif.Arctic
