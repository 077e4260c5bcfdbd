import Verif.Model.Csv
import Verif.Lemmas.Py
import Mathlib.Data.List.Induction
import Mathlib.Data.List.Nodup
import Mathlib.Tactic.SplitIfs
/-!
C88: tables written as text files read back.
-/
namespace Verif.Csv
open Verif

variable {K : Type}

/-- A text without line breaks. -/
def OneLine (t : Text) : Prop := ∀ c ∈ t, isBreak c = false

theorem splitLines_line (l : Text) (h : OneLine l) (s : Text) :
    splitLines (l ++ '\n' :: s) = l :: splitLines s := by
  induction l with
  | nil =>
    rw [List.nil_append, splitLines]
    · rfl
    · intro s' e
      simp at e
  | cons c l ih =>
    have hc : isBreak c = false := h c (by simp)
    have hr : c ≠ '\r' := by
      rintro rfl
      revert hc
      decide
    have ih := ih fun x hx => h x (by simp [hx])
    rw [List.cons_append, splitLines, hc, ih]
    · rfl
    · intro s' e
      exact absurd e hr

theorem splitLines_lines (ls : List Text) (h : ∀ l ∈ ls, OneLine l) :
    splitLines (ls.flatMap (fun l => l ++ ['\n'])) = ls := by
  induction ls with
  | nil => rfl
  | cons l ls ih =>
    rw [List.flatMap_cons, List.append_assoc, List.singleton_append,
      splitLines_line l (h l (by simp)), ih fun x hx => h x (by simp [hx])]

/-- A text that shares no character with another. -/
def Apart (d t : Text) : Prop := ∀ c ∈ t, c ∉ d

theorem splitAt_skip (d t s : Text) : splitAt d t.length (t ++ s) = splitAt d 0 s := by
  induction t with
  | nil => rfl
  | cons c t ih => rw [List.length_cons, List.cons_append, splitAt, ih]

theorem prefix_head {d : Text} (hd : d ≠ []) {c : Char} {s : Text} (hc : c ∉ d) :
    d.isPrefixOf (c :: s) = false := by
  cases d with
  | nil => exact absurd rfl hd
  | cons a d =>
    have : a ≠ c := fun e => hc (by simp [e])
    simp [List.isPrefixOf, this]

theorem splitAt_last (d : Text) (hd : d ≠ []) (t : Text) (ht : Apart d t) :
    splitAt d 0 t = [t] := by
  induction t with
  | nil => rfl
  | cons c t ih =>
    rw [splitAt, prefix_head hd (ht c (by simp)), ih fun x hx => ht x (by simp [hx])]
    rfl

theorem splitAt_first (d : Text) (hd : d ≠ []) (t : Text) (ht : Apart d t) (s : Text) :
    splitAt d 0 (t ++ d ++ s) = t :: splitAt d 0 s := by
  induction t with
  | nil =>
    cases d with
    | nil => exact absurd rfl hd
    | cons a d =>
      have hp : (a :: d).isPrefixOf (a :: (d ++ s)) = true := by
        rw [List.isPrefixOf_iff_prefix]
        exact ⟨s, rfl⟩
      rw [List.nil_append, List.cons_append, splitAt, hp, if_pos rfl]
      have := splitAt_skip (a :: d) d s
      rw [List.length_cons, Nat.add_sub_cancel, this]
  | cons c t ih =>
    rw [List.cons_append, List.cons_append, splitAt, prefix_head hd (ht c (by simp)),
      ih fun x hx => ht x (by simp [hx])]
    rfl

theorem splitAt_join (d : Text) (hd : d ≠ []) (ts : List Text) (hne : ts ≠ [])
    (h : ∀ t ∈ ts, Apart d t) : splitAt d 0 (join d ts) = ts := by
  induction ts with
  | nil => exact absurd rfl hne
  | cons t ts ih =>
    cases ts with
    | nil => rw [join]; exact splitAt_last d hd t (h t (by simp))
    | cons u us =>
      rw [join, splitAt_first d hd t (h t (by simp)), ih (by simp) fun x hx => h x (by simp [hx])]
      simp

/-- Numbers are written in one line, without `D`, with no character of the delimiter, and read back
as they were. -/
structure Faithful (C : Codec K) (delimiter : Text) : Prop where
  read : ∀ x, C.read (C.put x) = some x
  line : ∀ x, OneLine (C.put x)
  apart : ∀ x, Apart delimiter (C.put x)
  plain : ∀ x, 'D' ∉ C.put x

theorem exponent_plain {t : Text} (h : 'D' ∉ t) : exponent t = t := by
  induction t with
  | nil => rfl
  | cons c t ih =>
    rw [List.mem_cons, not_or] at h
    rw [exponent, List.map_cons, if_neg (fun e => h.1 e.symm)]
    exact congrArg _ (ih h.2)

theorem lookup_zip_reverse {V : Type} (names : List Text) (hn : names.Nodup) (vals : List V)
    (h : names.length ≤ vals.length) (j : Nat) (n : Text) (hj : names[j]? = some n) :
    ((names.zip vals).reverse).lookup n = vals[j]? := by
  have hlt : j < names.length := (List.getElem?_eq_some_iff.1 hj).1
  have hv : vals[j]? = some (vals[j]'(by omega)) := List.getElem?_eq_getElem (by omega)
  have hmem : (n, vals[j]'(by omega)) ∈ (names.zip vals).reverse := by
    rw [List.mem_reverse]
    refine List.mem_of_getElem? (i := j) ?_
    rw [List.getElem?_zip_eq_some]
    exact ⟨hj, hv⟩
  have hnd : ((names.zip vals).reverse.map Prod.fst).Nodup := by
    rw [List.map_reverse, List.nodup_reverse, List.map_fst_zip h]
    exact hn
  rw [hv]
  generalize (names.zip vals).reverse = l at hmem hnd
  induction l with
  | nil => simp at hmem
  | cons p l ih =>
    obtain ⟨a, b⟩ := p
    rw [List.map_cons, List.nodup_cons] at hnd
    rcases List.mem_cons.1 hmem with e | e
    · obtain ⟨rfl, rfl⟩ := Prod.mk.inj e
      simp
    · have : n ≠ a := fun c => hnd.1 (c ▸ List.mem_map.2 ⟨_, e, rfl⟩)
      rw [List.lookup, beq_false_of_ne this]
      exact ih e hnd.2

/-- One row is read back, for the first columns. -/
theorem readRow_put (C : Codec K) (d : Text) (hd : d ≠ []) (hC : Faithful C d)
    (columns : List Text) (hn : columns.Nodup) (vals : List K) (hne : vals ≠ [])
    (h : columns.length ≤ vals.length) :
    readRow C d columns (join d (vals.map C.put)) = .ok (vals.take columns.length) := by
  have hs : (splitAt d 0 (join d (vals.map C.put))).map exponent = vals.map C.put := by
    rw [splitAt_join d hd _ (by simpa using hne)]
    · rw [List.map_map]
      refine List.map_congr_left fun x _ => exponent_plain (hC.plain x)
    · intro t ht
      obtain ⟨x, -, rfl⟩ := List.mem_map.1 ht
      exact hC.apart x
  rw [readRow]
  simp only [hs]
  have key : ∀ c ∈ columns, (match ((columns.zip (vals.map C.put)).reverse).lookup c with
      | none => (.error .keyError : Except PyErr K)
      | some t => match C.read t with
        | none => .error .valueError
        | some x => .ok x) = .ok ((vals[columns.idxOf c]?).getD (vals.head hne)) := by
    intro c hc
    have hi : columns.idxOf c < columns.length := List.idxOf_lt_length_of_mem hc
    have hj : columns[columns.idxOf c]? = some c := by
      rw [List.getElem?_eq_getElem hi, List.getElem_idxOf]
    rw [lookup_zip_reverse columns hn (vals.map C.put) (by simpa using h) _ c hj,
      List.getElem?_map, List.getElem?_eq_getElem (by omega), Option.map_some]
    simp only [hC.read, Option.getD_some]
  refine (pyMap_ok_of_forall key).trans ?_
  congr 1
  refine List.ext_getElem? fun i => ?_
  rw [List.getElem?_map]
  by_cases hi : i < columns.length
  · rw [List.getElem?_eq_getElem hi, Option.map_some, List.getElem?_take_of_lt hi]
    have : columns.idxOf (columns[i]) = i := hn.idxOf_getElem i hi
    rw [this, List.getElem?_eq_getElem (by omega)]
    rfl
  · rw [List.getElem?_eq_none (by omega), List.getElem?_take_eq_none (by omega)]
    rfl

/-- A table: columns of one length under distinct names. -/
structure Table (output : List (Text × List K)) (columns : List Text) (data : List (List K))
    (nrow : Nat) : Prop where
  stack : ∀ (j : Nat) c, columns[j]? = some c → output.lookup c = data[j]?
  size : data.length = columns.length
  some : columns ≠ []
  rows : ∀ v ∈ data, v.length = nrow

theorem Table.stack_ok {output : List (Text × List K)} {columns : List Text}
    {data : List (List K)} {nrow : Nat} (h : Table output columns data nrow) :
    Csv.stack output columns = .ok data := by
  obtain ⟨hs, hl, -, -⟩ := h
  rw [Csv.stack]
  induction columns generalizing data with
  | nil =>
    have : data = [] := List.length_eq_zero_iff.1 hl
    rw [this, pyMap]
  | cons c columns ih =>
    cases data with
    | nil => simp at hl
    | cons v data =>
      have h0 := hs 0 c rfl
      rw [List.getElem?_cons_zero] at h0
      have := ih (data := data) (fun j c' hj => by
        have := hs (j + 1) c' (by simpa using hj)
        simpa using this) (by simpa using hl)
      simp only [pyMap, h0, this]

theorem Table.rowsOf_ok {output : List (Text × List K)} {columns : List Text}
    {data : List (List K)} {nrow : Nat} (h : Table output columns data nrow) :
    rowsOf data = .ok nrow := by
  cases data with
  | nil => exact absurd (List.length_eq_zero_iff.1 h.size.symm) h.some
  | cons v data =>
    have hv := h.rows v (by simp)
    rw [rowsOf, if_pos, hv]
    rw [List.all_eq_true]
    intro w hw
    have := h.rows w (by simp [hw])
    simp [this, hv]

theorem row_length {data : List (List K)} {nrow : Nat} (h : ∀ v ∈ data, v.length = nrow) {i : Nat}
    (hi : i < nrow) : (row data i).length = data.length ∧
      ∀ (j : Nat) (v : List K), data[j]? = some v → (row data i)[j]? = v[i]? := by
  induction data with
  | nil => simp [row]
  | cons w data ih =>
    obtain ⟨i1, i2⟩ := ih fun v hv => h v (by simp [hv])
    have hw : w[i]? = some (w[i]'(by rw [h w (by simp)]; exact hi)) :=
      List.getElem?_eq_getElem _
    have e : row (w :: data) i = w[i]'(by rw [h w (by simp)]; exact hi) :: row data i := by
      rw [row, List.filterMap_cons, hw]; rfl
    rw [e]
    refine ⟨by simp [i1], fun j v hj => ?_⟩
    cases j with
    | zero =>
      rw [List.getElem?_cons_zero] at hj ⊢
      rw [← Option.some.inj hj, hw]
    | succ j =>
      rw [List.getElem?_cons_succ] at hj ⊢
      exact i2 j v hj

theorem range_get (v : List K) : ((List.range v.length).filterMap fun i => v[i]?) = v := by
  induction v using List.reverseRecOn with
  | nil => rfl
  | append_singleton w x ih =>
    rw [List.length_append, List.length_singleton, List.range_succ, List.filterMap_append]
    have h1 : ((List.range w.length).filterMap fun i => (w ++ [x])[i]?) = w := by
      refine Eq.trans (List.filterMap_congr fun i hi => ?_) ih
      rw [List.getElem?_append_left (List.mem_range.1 hi)]
    rw [h1]
    simp

/-- The values of a column in the rows. -/
theorem column_rows {data : List (List K)} {nrow : Nat} (h : ∀ v ∈ data, v.length = nrow) (n : Nat)
    (j : Nat) (hj : j < n) (v : List K) (hv : data[j]? = some v) :
    (((List.range nrow).map fun i => (row data i).take n).filterMap fun r => r[j]?) = v := by
  have hl := h v (List.mem_of_getElem? hv)
  rw [List.filterMap_map, ← hl]
  refine Eq.trans (List.filterMap_congr fun i hi => ?_) (range_get v)
  rw [List.mem_range, hl] at hi
  rw [Function.comp_apply, List.getElem?_take_of_lt hj]
  exact (row_length h hi).2 j v hv

/-- The lines of a file: those of a header and those of the table. -/
def fileOf (C : Codec K) (d : Text) (head : List Text) (data : List (List K)) (nrow : Nat) : Text :=
  (head ++ (List.range nrow).map (fun i => join d ((row data i).map C.put))).flatMap
    (fun l => l ++ ['\n'])

theorem oneLine_join (d : Text) (hd : OneLine d) (ts : List Text) (h : ∀ t ∈ ts, OneLine t) :
    OneLine (join d ts) := by
  induction ts with
  | nil => intro c hc; simp [join] at hc
  | cons t ts ih =>
    cases ts with
    | nil => rw [join]; exact h t (by simp)
    | cons u us =>
      rw [join]
      intro c hc
      rcases List.mem_append.1 hc with hc | hc
      · rcases List.mem_append.1 hc with hc | hc
        · exact h t (by simp) c hc
        · exact hd c hc
      · exact ih (fun x hx => h x (by simp [hx])) c hc
      · simp

theorem lines_file (C : Codec K) (d : Text) (hC : Faithful C d) (hd : OneLine d)
    (head : List Text) (hh : ∀ l ∈ head, OneLine l) (data : List (List K)) (nrow : Nat) :
    splitLines (fileOf C d head data nrow) =
      head ++ (List.range nrow).map (fun i => join d ((row data i).map C.put)) := by
  refine splitLines_lines _ fun l hl => ?_
  rcases List.mem_append.1 hl with hl | hl
  · exact hh l hl
  · obtain ⟨i, -, rfl⟩ := List.mem_map.1 hl
    refine oneLine_join d hd _ fun t ht => ?_
    obtain ⟨x, -, rfl⟩ := List.mem_map.1 ht
    exact hC.line x

/-- The rows of a table are read back. -/
theorem rows_read (C : Codec K) (d : Text) (hne : d ≠ []) (hC : Faithful C d)
    {output : List (Text × List K)} {columns : List Text} {data : List (List K)} {nrow : Nat}
    (h : Table output columns data nrow) (first : List Text) (hf : first.Nodup)
    (hl : first.length ≤ columns.length) :
    pyMap (readRow C d first) ((List.range nrow).map (fun i => join d ((row data i).map C.put))) =
      .ok ((List.range nrow).map fun i => (row data i).take first.length) := by
  have key : ∀ i ∈ List.range nrow, readRow C d first (join d ((row data i).map C.put)) =
      .ok ((row data i).take first.length) := by
    intro i hi
    obtain ⟨hr, -⟩ := row_length h.rows (List.mem_range.1 hi)
    refine readRow_put C d hne hC first hf _ ?_ (by rw [hr, h.size]; exact hl)
    intro e
    rw [e, h.size] at hr
    exact h.some (List.length_eq_zero_iff.1 hr.symm)
  generalize List.range nrow = l at key
  induction l with
  | nil => rfl
  | cons i l ih =>
    have h1 := key i (by simp)
    have h2 := ih fun k hk => key k (by simp [hk])
    simp only [List.map_cons, pyMap, h1, h2]

/-- The columns of a table under their names. -/
theorem columns_read {output : List (Text × List K)} {columns : List Text} {data : List (List K)}
    {nrow : Nat} (h : Table output columns data nrow) (first rest : List Text)
    (hc : columns = first ++ rest) :
    (first.zipIdx.map fun (c, j) => (c, ((List.range nrow).map fun i =>
      (row data i).take first.length).filterMap fun r => r[j]?)) = first.zip data := by
  refine List.ext_getElem? fun j => ?_
  by_cases hj : j < first.length
  · have hd : j < data.length := by rw [h.size, hc, List.length_append]; omega
    have e : data[j]? = some data[j] := List.getElem?_eq_getElem hd
    rw [List.getElem?_map, List.getElem?_zipIdx, List.getElem?_eq_getElem hj, Option.map_some,
      Option.map_some, Nat.zero_add]
    dsimp only
    rw [column_rows h.rows first.length j hj _ e, eq_comm, List.getElem?_zip_eq_some]
    exact ⟨List.getElem?_eq_getElem hj, e⟩
  · rw [List.getElem?_eq_none (by simp; omega), List.getElem?_eq_none (by simp; omega)]

/-- A table read back: the columns asked for, in that order, with all their values. -/
def ReadsBack (output : List (Text × List K)) (first : List Text)
    (result : Except PyErr (List (Text × List K))) : Prop :=
  ∃ r, result = .ok r ∧ r.map Prod.fst = first ∧ ∀ c v, (c, v) ∈ r → output.lookup c = some v

theorem reads_zip {output : List (Text × List K)} {columns : List Text} {data : List (List K)}
    {nrow : Nat} (h : Table output columns data nrow) (first rest : List Text)
    (hc : columns = first ++ rest) : (first.zip data).map Prod.fst = first ∧
      ∀ c v, (c, v) ∈ first.zip data → output.lookup c = some v := by
  constructor
  · rw [List.map_fst_zip]
    rw [h.size, hc, List.length_append]
    omega
  · intro c v hm
    obtain ⟨j, hj⟩ := List.mem_iff_getElem?.1 hm
    rw [List.getElem?_zip_eq_some] at hj
    have hj' : columns[j]? = some c := by
      rw [hc, List.getElem?_append_left (List.getElem?_eq_some_iff.1 hj.1).1]
      exact hj.1
    rw [h.stack j c hj', hj.2]

theorem lookup_names {V : Type} (names : List Text) (f : Text → V) (q : Text) :
    (names.map fun c => (c, f c)).lookup q = if q ∈ names then some (f q) else none := by
  induction names with
  | nil => simp
  | cons c cs ih =>
    rw [List.map_cons, List.lookup]
    by_cases e : q = c
    · subst e; simp
    · rw [beq_false_of_ne e]
      dsimp only
      rw [ih]
      simp [e]

/-- C88: a table after any lines of text reads back when as many lines are passed over: all columns
or the first ones, for every delimiter that has no character of the numbers. -/
theorem C88_lines (C : Codec K) (d : Text) (yaml : Yaml) (hne : d ≠ []) (hd : OneLine d)
    (hC : Faithful C d) (output : List (Text × List K)) (columns : List Text)
    (data : List (List K)) (nrow : Nat) (h : Table output columns data nrow)
    (first rest : List Text) (hc : columns = first ++ rest) (hf : first.Nodup)
    (head : List Text) (hh : ∀ l ∈ head, OneLine l) :
    ReadsBack output first
      (fromAscii C yaml d (.lines head.length) first (fileOf C d head data nrow)) := by
  obtain ⟨r1, r2⟩ := reads_zip h first rest hc
  refine ⟨_, ?_, r1, r2⟩
  have hrows := rows_read C d hne hC h first hf (by rw [hc, List.length_append]; omega)
  rw [fromAscii, ok_bind, lines_file C d hC hd head hh]
  dsimp only
  rw [List.drop_left, hrows, ok_bind, lookup_names first (fun _ => []), columns_read h first rest hc]
  by_cases e : "data".toList ∈ first
  · rw [if_pos e]
    rfl
  · rw [if_neg e]

/-- C88: a table written without a header reads back. -/
theorem C88_table (C : Codec K) (size : Nat → Text) (today d : Text) (yaml : Yaml)
    (hne : d ≠ []) (hd : OneLine d) (hC : Faithful C d) (output : List (Text × List K))
    (attributes : Text → List (Text × Text)) (columns : List Text) (data : List (List K))
    (nrow : Nat) (h : Table output columns data nrow) (first rest : List Text)
    (hc : columns = first ++ rest) (hf : first.Nodup) :
    ∃ file, toAscii C size today d false output attributes columns = .ok file ∧
      ReadsBack output first (fromAscii C yaml d (.lines 0) first file) := by
  refine ⟨fileOf C d [] data nrow, ?_, C88_lines C d yaml hne hd hC output columns data nrow h
    first rest hc hf [] (by simp)⟩
  rw [toAscii, h.stack_ok, ok_bind, h.rowsOf_ok, ok_bind]
  rfl

/-- Texts for a header: in one line and without the character that starts its end. -/
def Quiet (t : Text) : Prop := OneLine t ∧ '#' ∉ t

theorem Quiet.append {s t : Text} (hs : Quiet s) (ht : Quiet t) : Quiet (s ++ t) := by
  refine ⟨fun c hc => ?_, fun hc => ?_⟩
  · rcases List.mem_append.1 hc with k | k
    · exact hs.1 c k
    · exact ht.1 c k
  · rcases List.mem_append.1 hc with k | k
    · exact hs.2 k
    · exact ht.2 k

theorem quiet_blanks (n : Nat) : Quiet (List.replicate n ' ') := by
  refine ⟨fun c hc => ?_, fun hc => ?_⟩
  · rw [(List.mem_replicate.1 hc).2]; decide
  · exact absurd (List.mem_replicate.1 hc).2 (by decide)

theorem Quiet.pad {t : Text} (h : Quiet t) (n : Nat) : Quiet (Csv.pad n t) :=
  h.append (quiet_blanks _)

theorem quiet_iff (t : Text) : Quiet t ↔ t.all (fun c => !isBreak c && c != '#') = true := by
  rw [List.all_eq_true, Quiet]
  constructor
  · rintro ⟨h1, h2⟩ c hc
    have := h1 c hc
    have h3 : c ≠ '#' := fun e => h2 (e ▸ hc)
    simp [this, h3]
  · intro h
    refine ⟨fun c hc => ?_, fun hc => ?_⟩
    · have := h c hc
      simp at this
      exact this.1
    · have := h _ hc
      simp at this

/-- The header written is quiet apart from its last line. -/
theorem header_lines (size : Nat → Text) (today : Text) (columns : List Text)
    (attributes : Text → List (Text × Text)) (nrow : Nat) (hs : ∀ n, Quiet (size n))
    (ht : Quiet today) (hcol : ∀ c ∈ columns, Quiet c)
    (hat : ∀ c ∈ columns, ∀ p ∈ attributes c, Quiet p.1 ∧ Quiet p.2) :
    ∃ body, headerLines size today columns attributes nrow =
      body ++ ["# End of YAML header".toList] ∧ ∀ l ∈ body, Quiet l := by
  have colon : ∀ (i w : Nat) (n v : Text), Quiet n → Quiet v →
      Quiet (List.replicate i ' ' ++ pad w n ++ ": ".toList ++ v) := fun i w n v hn hv =>
    (((quiet_blanks i).append (hn.pad w)).append ((quiet_iff _).2 (by decide))).append hv
  have lit : ∀ t : Text, t.all (fun c => !isBreak c && c != '#') = true → Quiet t :=
    fun t h => (quiet_iff t).2 h
  have title : ∀ (i : Nat) (t : Text), Quiet t → Quiet (List.replicate i ' ' ++ t ++ [':']) :=
    fun i t h => ((quiet_blanks i).append h).append (lit _ (by decide))
  have key : ∀ (A B : List Text) (E : Text), A ++ B ++ [[], [], E] = (A ++ B ++ [[], []]) ++ [E] :=
    fun A B E => by rw [List.append_assoc (A ++ B)]; rfl
  rw [headerLines]
  refine ⟨_, key _ _ _, ?_⟩
  intro l hl
  rcases List.mem_append.1 hl with hl | hl
  · rcases List.mem_append.1 hl with hl | hl
    · simp only [List.mem_cons, List.not_mem_nil, or_false] at hl
      rcases hl with rfl | rfl | rfl | rfl | rfl | rfl | rfl | rfl | rfl | rfl | rfl | rfl
      · refine title 0 _ (lit _ ?_); decide
      · exact lit _ (by decide)
      · refine title 2 _ (lit _ ?_); decide
      · refine colon 4 22 _ _ (lit _ ?_) (hs _); decide
      · refine title 2 _ (lit _ ?_); decide
      · refine colon 4 22 _ _ (lit _ ?_) (((lit _ ?_).append (hs _)).append (lit _ ?_)) <;> decide
      · exact lit _ (by decide)
      · exact lit _ (by decide)
      · refine title 2 _ (lit _ ?_); decide
      · refine colon 4 22 _ _ (lit _ ?_) ht; decide
      · exact lit _ (by decide)
      · refine title 2 _ (lit _ ?_); decide
    · obtain ⟨⟨v, i⟩, hv, hl⟩ := List.mem_flatMap.1 hl
      have hv : v ∈ columns := by
        obtain ⟨_, hlt, e⟩ := List.mem_zipIdx hv
        rw [e]
        exact List.getElem_mem _
      rcases List.mem_append.1 hl with hl | hl
      · rcases List.mem_append.1 hl with hl | hl
        · rw [List.mem_singleton] at hl
          rw [hl]
          exact title 4 _ ((hcol v hv).pad 22)
        · obtain ⟨p, hp, rfl⟩ := List.mem_map.1 hl
          obtain ⟨h1, h2⟩ := hat v hv p hp
          exact colon 6 20 _ _ h1 h2
      · simp only [List.mem_cons, List.not_mem_nil, or_false] at hl
        rcases hl with rfl | rfl
        · refine colon 6 20 _ _ (lit _ ?_) (lit _ ?_) <;> decide
        · refine colon 6 20 _ _ (lit _ ?_) ((lit _ ?_).append (hs _)) <;> decide
  · simp only [List.mem_cons, List.not_mem_nil, or_false] at hl
    rcases hl with rfl | rfl <;> exact lit _ (by decide)

theorem marks_quiet {l : Text} (h : Quiet l) : marks l = false := by
  rw [marks, List.any_eq_false]
  intro i _ hp
  rw [List.isPrefixOf_iff_prefix] at hp
  have : '#' ∈ l.drop i := hp.subset (by decide)
  exact h.2 (List.mem_of_mem_drop this)

theorem count_header (body rest : List Text) (h : ∀ l ∈ body, Quiet l) :
    countHeader (body ++ ["# End of YAML header".toList] ++ rest) = body.length + 1 := by
  induction body with
  | nil =>
    have : marks "# End of YAML header".toList = true := by decide
    rw [List.nil_append, List.singleton_append, countHeader, if_pos this]
    rfl
  | cons l body ih =>
    rw [List.cons_append, List.cons_append, countHeader, marks_quiet (h l (by simp)),
      ih fun x hx => h x (by simp [hx])]
    rfl

/-- A header that the YAML library reads as it was written: under each column its attributes. -/
def Read (yaml : Yaml) (size : Nat → Text) (today : Text) (columns : List Text)
    (attributes : Text → List (Text × Text)) (nrow : Nat)
    (vars : List (Text × List (Text × Text))) : Prop :=
  yaml (headerLines size today columns attributes nrow) = .ok vars ∧
  ∀ c ∈ columns, ∃ a, vars.lookup c = some a ∧ ∀ n, n ≠ "precision".toList → n ≠ "comment".toList →
    a.lookup n = (attributes c).lookup n

/-- What reading a file with a header comes to: the table unless the data have a fill value. -/
theorem yaml_read (C : Codec K) (size : Nat → Text) (today d : Text) (yaml : Yaml)
    (hne : d ≠ []) (hd : OneLine d) (hC : Faithful C d) (output : List (Text × List K))
    (attributes : Text → List (Text × Text)) (columns : List Text) (data : List (List K))
    (nrow : Nat) (h : Table output columns data nrow) (first rest : List Text)
    (hc : columns = first ++ rest) (hf : first.Nodup)
    (hs : ∀ n, Quiet (size n)) (ht : Quiet today) (hcol : ∀ c ∈ columns, Quiet c)
    (hat : ∀ c ∈ columns, ∀ p ∈ attributes c, Quiet p.1 ∧ Quiet p.2)
    (vars : List (Text × List (Text × Text)))
    (hy : Read yaml size today columns attributes nrow vars) :
    toAscii C size today d true output attributes columns =
      .ok (fileOf C d (headerLines size today columns attributes nrow) data nrow) ∧
    fromAscii C yaml d .yaml first
        (fileOf C d (headerLines size today columns attributes nrow) data nrow) =
      if "data".toList ∈ first ∧
          ((attributes "data".toList).lookup "_FillValue".toList).isSome then .error .typeError
      else .ok (first.zip data) := by
  obtain ⟨body, hb, hq⟩ := header_lines size today columns attributes nrow hs ht hcol hat
  have hone : ∀ l ∈ headerLines size today columns attributes nrow, OneLine l := by
    intro l hl
    rw [hb] at hl
    rcases List.mem_append.1 hl with hl | hl
    · exact (hq l hl).1
    · rw [List.mem_singleton] at hl
      rw [hl]
      intro c
      revert c
      decide
  constructor
  · rw [toAscii, h.stack_ok, ok_bind, h.rowsOf_ok, ok_bind]
    rfl
  have hrows := rows_read C d hne hC h first hf (by rw [hc, List.length_append]; omega)
  obtain ⟨y1, y2⟩ := hy
  have hcount : ∀ rows, countHeader (headerLines size today columns attributes nrow ++ rows) =
      (headerLines size today columns attributes nrow).length := by
    intro rows
    rw [hb, count_header body rows hq, List.length_append]
    rfl
  have hsub : ∀ c ∈ first, c ∈ columns := fun c k => by rw [hc]; simp [k]
  have hatts : pyMap (pick vars) first =
      .ok (first.map fun c => (c, (vars.lookup c).getD [])) := by
    refine pyMap_ok_of_forall fun c k => ?_
    obtain ⟨a, ha, -⟩ := y2 c (hsub c k)
    rw [pick, ha]
    rfl
  rw [fromAscii, lines_file C d hC hd _ hone]
  simp only [hcount, List.take_left]
  rw [y1, ok_bind, hatts, ok_bind, ok_bind]
  dsimp only
  rw [List.drop_left, hrows, ok_bind, lookup_names first (fun c => (vars.lookup c).getD []),
    columns_read h first rest hc]
  by_cases e : "data".toList ∈ first
  · obtain ⟨a, ha, hl⟩ := y2 _ (hsub _ e)
    have hl := hl "_FillValue".toList (by decide) (by decide)
    rw [if_pos e]
    dsimp only
    rw [ha, Option.getD_some, hl]
    simp only [e, true_and]
  · rw [if_neg e, if_neg fun k => e k.1]

/-- C88: with a header that the YAML library reads as it was written, a table reads back when the
column `data` has no fill value among its attributes.  Missing: data with a fill value. -/
theorem C88_header_partial (C : Codec K) (size : Nat → Text) (today d : Text) (yaml : Yaml)
    (hne : d ≠ []) (hd : OneLine d) (hC : Faithful C d) (output : List (Text × List K))
    (attributes : Text → List (Text × Text)) (columns : List Text) (data : List (List K))
    (nrow : Nat) (h : Table output columns data nrow) (first rest : List Text)
    (hc : columns = first ++ rest) (hf : first.Nodup)
    (hs : ∀ n, Quiet (size n)) (ht : Quiet today) (hcol : ∀ c ∈ columns, Quiet c)
    (hat : ∀ c ∈ columns, ∀ p ∈ attributes c, Quiet p.1 ∧ Quiet p.2)
    (vars : List (Text × List (Text × Text)))
    (hy : Read yaml size today columns attributes nrow vars)
    (hfill : "data".toList ∉ first ∨
      (attributes "data".toList).lookup "_FillValue".toList = none) :
    ∃ file, toAscii C size today d true output attributes columns = .ok file ∧
      ReadsBack output first (fromAscii C yaml d .yaml first file) := by
  obtain ⟨w, r⟩ := yaml_read C size today d yaml hne hd hC output attributes columns data nrow h
    first rest hc hf hs ht hcol hat vars hy
  obtain ⟨r1, r2⟩ := reads_zip h first rest hc
  refine ⟨_, w, _, ?_, r1, r2⟩
  rw [r, if_neg]
  rintro ⟨h1, h2⟩
  rcases hfill with k | k
  · exact k h1
  · rw [k] at h2
    cases h2

/-- C88 is false of data with a fill value: whatever the table, the file that is written cannot be
read back. -/
theorem C88_fill_false (C : Codec K) (size : Nat → Text) (today d : Text) (yaml : Yaml)
    (hne : d ≠ []) (hd : OneLine d) (hC : Faithful C d) (output : List (Text × List K))
    (attributes : Text → List (Text × Text)) (columns : List Text) (data : List (List K))
    (nrow : Nat) (h : Table output columns data nrow) (first rest : List Text)
    (hc : columns = first ++ rest) (hf : first.Nodup)
    (hs : ∀ n, Quiet (size n)) (ht : Quiet today) (hcol : ∀ c ∈ columns, Quiet c)
    (hat : ∀ c ∈ columns, ∀ p ∈ attributes c, Quiet p.1 ∧ Quiet p.2)
    (vars : List (Text × List (Text × Text)))
    (hy : Read yaml size today columns attributes nrow vars)
    (hdata : "data".toList ∈ first) (fill : Text)
    (hfill : (attributes "data".toList).lookup "_FillValue".toList = some fill) :
    ∃ file, toAscii C size today d true output attributes columns = .ok file ∧
      fromAscii C yaml d .yaml first file = .error .typeError := by
  obtain ⟨w, r⟩ := yaml_read C size today d yaml hne hd hC output attributes columns data nrow h
    first rest hc hf hs ht hcol hat vars hy
  refine ⟨_, w, ?_⟩
  rw [r, if_pos]
  exact ⟨hdata, by rw [hfill]; rfl⟩

/-- C88: a column that is not in the table raises `KeyError`, and columns of different lengths
`ValueError`. -/
theorem C88_refused (C : Codec K) (size : Nat → Text) (today d : Text) (header : Bool)
    (output : List (Text × List K)) (attributes : Text → List (Text × Text)) :
    (∀ c, output.lookup c = none →
      toAscii C size today d header output attributes [c] = .error .keyError) ∧
    ∀ a b v w, output.lookup a = some v → output.lookup b = some w → v.length ≠ w.length →
      toAscii C size today d header output attributes [a, b] = .error .valueError := by
  constructor
  · intro c hc
    rw [toAscii, stack]
    simp only [pyMap, hc]
    rfl
  · intro a b v w ha hb hl
    have hl' : ¬ ([w].all (fun x => decide (x.length = v.length)) = true) := by
      simp only [List.all_cons, List.all_nil, Bool.and_true, decide_eq_true_eq]
      exact fun e => hl e.symm
    rw [toAscii, stack]
    simp only [pyMap, ha, hb]
    rw [ok_bind, rowsOf, if_neg hl']
    rfl

/-- A way of writing numbers that meets the hypotheses: so many strokes and a full stop. -/
def strokes : Codec Nat where
  put n := List.replicate n '1' ++ ['.']
  read t := some (t.length - 1)

example : Faithful strokes ", ".toList := by
  have mem : ∀ n c, c ∈ strokes.put n → c = '1' ∨ c = '.' := by
    intro n c hc
    rcases List.mem_append.1 hc with k | k
    · exact Or.inl (List.mem_replicate.1 k).2
    · exact Or.inr (List.mem_singleton.1 k)
  refine ⟨fun x => by simp [strokes], fun x c hc => ?_, fun x c hc => ?_, fun x hc => ?_⟩
  · rcases mem x c hc with rfl | rfl <;> decide
  · rcases mem x c hc with rfl | rfl <;> decide
  · rcases mem x _ hc with k | k <;> exact absurd k (by decide)

example : Table [("time".toList, [1, 2]), ("data".toList, [3, 4])]
    ["time".toList, "data".toList] [[1, 2], [3, 4]] 2 := by
  refine ⟨fun j c hj => ?_, rfl, by simp, by decide⟩
  match j with
  | 0 => cases Option.some.inj hj; rfl
  | 1 => cases Option.some.inj hj; rfl
  | j + 2 => simp at hj

theorem marks_within (pre post : Text) : marks (pre ++ "# End of YAML header".toList ++ post) = true := by
  unfold marks
  refine List.any_eq_true.2 ⟨pre.length, List.mem_range.2 (by simp only [List.length_append]; omega), ?_⟩
  rw [List.append_assoc, List.drop_left]
  exact List.isPrefixOf_iff_prefix.2 (List.prefix_append _ _)

/-- C88: the header ends with the first line that has the mark, wherever it is in the line. -/
theorem C88_mark (before : List Text) (h : ∀ l ∈ before, '#' ∉ l) (pre post : Text) (rest : List Text) :
    countHeader (before ++ (pre ++ "# End of YAML header".toList ++ post) :: rest) = before.length + 1 := by
  induction before with
  | nil => rw [List.nil_append, countHeader, if_pos (marks_within pre post)]; rfl
  | cons l ls ih =>
    have hl : marks l = false := by
      unfold marks
      refine List.any_eq_false.2 fun i _ hp => ?_
      obtain ⟨r, hr⟩ := List.isPrefixOf_iff_prefix.1 hp
      refine h l (by simp) (List.mem_of_mem_drop (i := i) ?_)
      rw [← hr]
      exact List.mem_append_left _ (by decide +kernel)
    rw [List.cons_append, countHeader, hl, if_neg Bool.false_ne_true, ih fun l hl => h l (List.mem_cons_of_mem _ hl)]
    rfl

/-- C88: every character at which Python ends a line ends one in a file, also inside a text of the header. -/
theorem C88_breaks (a b : Char) (ha : a.toNat ≥ 0x20) (ha' : a.toNat < 0x80) (hb : b.toNat ≥ 0x20) (hb' : b.toNat < 0x80)
    (c : Char) (hc : c ∈ ['\n', '\x0b', '\x0c', '\r', '\x1c', '\x1d', '\x1e', '\u0085', '\u2028', '\u2029']) :
    splitLines [a, c, b] = [[a], [b]] := by
  have hbreak : isBreak c = true := by
    simp only [List.mem_cons, List.not_mem_nil, or_false] at hc
    rcases hc with rfl | rfl | rfl | rfl | rfl | rfl | rfl | rfl | rfl | rfl <;> decide
  have no : ∀ x : Char, x.toNat ≥ 0x20 → x.toNat < 0x80 → isBreak x = false := by
    intro x h1 h2
    simp only [isBreak, List.mem_cons, List.not_mem_nil, or_false, decide_eq_false_iff_not]
    omega
  have hb1 : splitLines [b] = [[b]] := by
    rw [splitLines]
    · rw [no b hb hb']; rfl
    · intro s h1 h2; cases h2
  have hc1 : splitLines [c, b] = [] :: [[b]] := by
    rw [splitLines, hbreak, if_pos rfl, hb1]
    intro s h1 h2
    cases h2
    exact absurd hb (by decide)
  rw [splitLines, no a ha ha', hc1]
  · rfl
  · intro s h1 h2
    subst h1
    exact absurd ha (by decide)

/-- C88: a column that the header does not know raises `KeyError`, whatever the lines of the table. -/
theorem C88_unknown (C : Codec K) (yaml : Yaml) (d : Text) (file : Text) (columns : List Text)
    (vars : List (Text × List (Text × Text))) (hy : ∀ l, yaml l = .ok vars) (c : Text) (hc : c ∈ columns)
    (hv : vars.lookup c = none) : fromAscii C yaml d .yaml columns file = .error .keyError := by
  have key : ∀ cs : List Text, c ∈ cs → pyMap (pick vars) cs = .error .keyError := by
    intro cs
    induction cs with
    | nil => intro h; cases h
    | cons a cs ih =>
      intro h
      rw [pyMap]
      cases ha : vars.lookup a with
      | none => simp only [pick, ha]
      | some v =>
        have : c ∈ cs := by
          rcases List.mem_cons.1 h with rfl | h
          · rw [hv] at ha; cases ha
          · exact h
        simp only [pick, ha, ok_bind, ih this]
  simp only [fromAscii, hy, ok_bind, key columns hc]
  rfl

end Verif.Csv
