import Verif.Model.Providers
import Verif.Spec.Providers
import Verif.Props.Listing
import Verif.Lemmas.Py
import Verif.Props.Mirror
import Mathlib.Data.List.Perm.Basic
import Mathlib.Data.String.Basic
/-!
C117: the database that is written from the files of the providers.
-/
namespace Verif.Providers
open Verif Verif.Listing Verif.Spec

variable {E : Type}

/-! ### Names -/

theorem suffix_json {n : Posix.Name} (hn : '/' ∉ n) :
    Posix.suffix n = ['.', 'j', 's', 'o', 'n'] ↔ JsonName n := by
  constructor
  · intro h
    rw [Posix.suffix, Mirror.basename_self hn] at h
    split at h
    · next ha =>
      have ha' : Posix.afterDot n = ['j', 's', 'o', 'n'] := (List.cons.inj h).2
      have hsplit : Posix.toDot n ++ Posix.afterDot n = n := by
        rw [Posix.toDot, Posix.afterDot, ← List.reverse_append, List.takeWhile_append_dropWhile,
          List.reverse_reverse]
      obtain ⟨c, hc, hcd⟩ := List.any_eq_true.1 ha
      have hlast : ∃ stem, Posix.toDot n = stem ++ ['.'] := by
        rw [Posix.toDot] at hc ⊢
        rcases hr : n.reverse.dropWhile (· ≠ '.') with _ | ⟨a, r⟩
        · rw [hr] at hc; simp at hc
        · have := List.head_dropWhile_not (p := fun c => decide (c ≠ '.')) (l := n.reverse)
            (by rw [hr]; simp)
          simp only [hr, List.head_cons, decide_eq_false_iff_not, not_not] at this
          subst this
          exact ⟨r.reverse, by simp⟩
      obtain ⟨stem, hs⟩ := hlast
      refine ⟨stem, ?_, c, ?_, by simpa using hcd⟩
      · rw [← hsplit, hs, ha']; simp
      · rw [hs, List.mem_append, List.mem_singleton] at hc
        rcases hc with hc | rfl
        · exact hc
        · simp at hcd
    · simp at h
  · rintro ⟨stem, rfl, hc⟩
    have h1 : '/' ∉ stem := fun k => hn (List.mem_append_left _ k)
    exact (Mirror.C100_ending [] hc h1 (by decide) (by decide)).2

/-! ### The order of keys -/

theorem mem_insertKey (p q : String × E) (d : Dict E) : q ∈ insertKey p d ↔ q = p ∨ q ∈ d := by
  induction d with
  | nil => simp [insertKey]
  | cons a d ih =>
    rw [insertKey]
    split
    · rw [List.mem_cons, ih, List.mem_cons]; tauto
    · rw [List.mem_cons]

theorem mem_sortKeys (q : String × E) (d : Dict E) : q ∈ sortKeys d ↔ q ∈ d := by
  induction d with
  | nil => rfl
  | cons a d ih =>
    change q ∈ insertKey a (sortKeys d) ↔ _
    rw [mem_insertKey, ih, List.mem_cons]

theorem sorted_insertKey (p : String × E) (d : Dict E)
    (hd : d.Pairwise fun a b => a.1 < b.1) (hp : ∀ q ∈ d, q.1 ≠ p.1) :
    (insertKey p d).Pairwise fun a b => a.1 < b.1 := by
  induction d with
  | nil => simp [insertKey]
  | cons a d ih =>
    rw [List.pairwise_cons] at hd
    rw [insertKey]
    split
    · next h =>
      rw [List.pairwise_cons]
      refine ⟨fun q hq => ?_, ih hd.2 fun q hq => hp q (List.mem_cons_of_mem _ hq)⟩
      rcases (mem_insertKey p q d).1 hq with rfl | hq
      · exact h
      · exact hd.1 q hq
    · next h =>
      have hpa : p.1 < a.1 := lt_of_not_lt h (hp a List.mem_cons_self).symm
      rw [List.pairwise_cons, List.pairwise_cons]
      refine ⟨fun q hq => ?_, hd⟩
      rcases List.mem_cons.1 hq with rfl | hq
      · exact hpa
      · exact String.lt_trans hpa (hd.1 q hq)

theorem sorted_sortKeys (d : Dict E) (hd : Distinct d) :
    (sortKeys d).Pairwise fun a b => a.1 < b.1 := by
  induction d with
  | nil => exact List.Pairwise.nil
  | cons a d ih =>
    rw [Distinct, List.map_cons, List.nodup_cons] at hd
    refine sorted_insertKey a (sortKeys d) (ih hd.2) fun q hq e => hd.1 ?_
    rw [← e]
    exact List.mem_map_of_mem ((mem_sortKeys q d).1 hq)

/-- Keys in order with the same members are the same. -/
theorem sorted_unique {d d' : Dict E} (h : d.Pairwise fun a b => a.1 < b.1)
    (h' : d'.Pairwise fun a b => a.1 < b.1) (hm : ∀ q, q ∈ d ↔ q ∈ d') : d = d' := by
  have irr : ∀ {l : Dict E}, l.Pairwise (fun a b => a.1 < b.1) → l.Nodup := by
    intro l hl
    refine hl.imp ?_
    rintro a b hab rfl
    exact String.lt_irrefl _ hab
  refine ((List.perm_ext_iff_of_nodup (irr h) (irr h')).2 hm).eq_of_pairwise ?_ h h'
  intro a b _ _ hab hba
  exact absurd (String.lt_trans hab hba) (String.lt_irrefl _)

theorem distinct_of_sorted {d : Dict E} (h : d.Pairwise fun a b => a.1 < b.1) : Distinct d := by
  rw [Distinct, List.Nodup, List.pairwise_map]
  refine h.imp ?_
  intro a b hab e
  rw [e] at hab
  exact String.lt_irrefl _ hab

theorem distinct_update (other d : Dict E) (h : Distinct d) : Distinct (update d other) := by
  induction other generalizing d with
  | nil => exact h
  | cons p other ih => exact ih _ (distinct_put p.1 p.2 d h)

/-! ### What is gathered -/

/-- A section of a database. -/
def part (c : Bool) (d : DataBase E) : Dict E := if c then d.current else d.elevation

/-- What `json.load` can give for a file with the two sections only: keys are distinct. -/
structure Proper (f : Dict (Dict E)) : Prop where
  distinct : Distinct f
  models : ∀ s d, (s, d) ∈ f → Distinct d
  sections : ∀ s d, (s, d) ∈ f → s = "current" ∨ s = "elevation"

/-- The entry of a model in a section of a file. -/
def entry (f : Dict (Dict E)) (c : Bool) (m : String) : Option E :=
  (f.lookup (sectionOf c)).bind fun d => d.lookup m

theorem addSections_ok (f : Dict (Dict E)) (h : Proper f) (db : DataBase E) :
    ∃ db', addSections db f = .ok db' ∧ ∀ c, (Distinct (part c db) → Distinct (part c db')) ∧
      ∀ m, (part c db').lookup m = (entry f c m).or ((part c db).lookup m) := by
  induction f generalizing db with
  | nil => exact ⟨db, rfl, fun c => ⟨id, fun m => by simp [entry]⟩⟩
  | cons p f ih =>
    obtain ⟨s, v⟩ := p
    have hd := h.distinct
    rw [Distinct, List.map_cons, List.nodup_cons] at hd
    have hf : Proper f := ⟨hd.2, fun s d k => h.models s d (List.mem_cons_of_mem _ k),
      fun s d k => h.sections s d (List.mem_cons_of_mem _ k)⟩
    have hv : Distinct v := h.models s v List.mem_cons_self
    have hnone : f.lookup s = none := lookup_none.2 fun d k => hd.1 (List.mem_map.2 ⟨_, k, rfl⟩)
    have step : ∃ db1, addSection db s v = .ok db1 ∧
        ∀ c, part c db1 = if sectionOf c = s then update (part c db) v else part c db := by
      rcases h.sections s v List.mem_cons_self with rfl | rfl
      · refine ⟨_, rfl, fun c => ?_⟩
        cases c <;> simp [part, sectionOf]
      · refine ⟨_, rfl, fun c => ?_⟩
        cases c <;> simp [part, sectionOf]
    obtain ⟨db1, e1, h1⟩ := step
    obtain ⟨db', e', h'⟩ := ih hf db1
    refine ⟨db', by rw [addSections, e1]; exact e', fun c => ⟨fun k => (h' c).1 ?_, fun m => ?_⟩⟩
    · rw [h1 c]
      split
      · exact distinct_update _ _ k
      · exact k
    · rw [(h' c).2 m, h1 c]
      by_cases hc : sectionOf c = s
      · rw [if_pos hc, lookup_update v _ hv, entry, entry, hc, hnone, List.lookup_cons_self]
        rfl
      · rw [if_neg hc, entry, entry, List.lookup_cons, beq_false_of_ne hc]

/-- The entry that stays when files are added in order. -/
def lastEntry (c : Bool) (m : String) : Directory E → Option E
  | [] => none
  | p :: rest => (lastEntry c m rest).or (p.2.bind fun f => entry f c m)

/-- Files that can be read, with the two sections only. -/
def AllProper (entries : Directory E) : Prop := ∀ p ∈ entries, ∃ f, p.2 = some f ∧ Proper f

theorem addFiles_ok (entries : Directory E) (h : AllProper entries) (db : DataBase E) :
    ∃ db', addFiles db entries = .ok db' ∧ ∀ c, (Distinct (part c db) → Distinct (part c db')) ∧
      ∀ m, (part c db').lookup m = (lastEntry c m entries).or ((part c db).lookup m) := by
  induction entries generalizing db with
  | nil => exact ⟨db, rfl, fun c => ⟨id, fun m => by simp [lastEntry]⟩⟩
  | cons p rest ih =>
    obtain ⟨n, o⟩ := p
    obtain ⟨f, rfl, hf⟩ := h _ List.mem_cons_self
    obtain ⟨db1, e1, h1⟩ := addSections_ok f hf db
    obtain ⟨db', e', h'⟩ := ih (fun q hq => h q (List.mem_cons_of_mem _ hq)) db1
    refine ⟨db', by rw [addFiles, e1]; exact e', fun c => ⟨fun k => (h' c).1 ((h1 c).1 k),
      fun m => ?_⟩⟩
    rw [(h' c).2 m, (h1 c).2 m, lastEntry, Option.or_assoc]
    rfl

/-- Names of a directory, readable files of providers. -/
structure Readable (entries : Directory E) : Prop where
  names : ∀ p ∈ entries, '/' ∉ p.1
  files : ∀ p ∈ entries, JsonName p.1 → ∃ f, p.2 = some f ∧ Proper f

theorem entry_iff {f : Dict (Dict E)} (h : Proper f) (c : Bool) (m : String) (e : E) :
    entry f c m = some e ↔ ∃ d, (sectionOf c, d) ∈ f ∧ (m, e) ∈ d := by
  rw [entry, Option.bind_eq_some_iff]
  constructor
  · rintro ⟨d, h1, h2⟩
    exact ⟨d, lookup_mem h1, lookup_mem h2⟩
  · rintro ⟨d, h1, h2⟩
    exact ⟨d, lookup_of_mem h.distinct h1, lookup_of_mem (h.models _ _ h1) h2⟩

theorem last_exists {entries : Directory E} {s m : String} {e : E} (h : Offers entries s m e) :
    ∃ e', LastOffers entries s m e' := by
  induction entries generalizing e with
  | nil => obtain ⟨q, hq, -⟩ := h; simp at hq
  | cons a rest ih =>
    by_cases hex : ∃ e', Offers rest s m e'
    · obtain ⟨e1, h1⟩ := hex
      obtain ⟨e2, b, p', a', h2, h3⟩ := ih h1
      exact ⟨e2, a :: b, p', a', by rw [h2]; rfl, h3⟩
    · obtain ⟨q, hq, hoff⟩ := h
      rcases List.mem_cons.1 hq with rfl | hq
      · exact ⟨e, [], q, rest, rfl, hoff, fun q' hq' e1 h1 => hex ⟨e1, q', hq', h1⟩⟩
      · exact absurd ⟨e, q, hq, hoff⟩ hex

theorem last_offers {entries : Directory E} {s m : String} {e : E} (h : LastOffers entries s m e) :
    Offers entries s m e := by
  obtain ⟨b, p, a, rfl, hp, -⟩ := h
  exact ⟨p, by simp, hp⟩

theorem last_cons {p : Posix.Name × Option (Dict (Dict E))} {rest : Directory E} {s m : String}
    {e : E} : LastOffers (p :: rest) s m e ↔ LastOffers rest s m e ∨
      (∀ q ∈ rest, ∀ e', ¬ FileOffers q s m e') ∧ FileOffers p s m e := by
  constructor
  · rintro ⟨b, q, a, h, h1, h2⟩
    cases b with
    | nil =>
      rw [List.nil_append] at h
      obtain ⟨rfl, rfl⟩ := List.cons.inj h
      exact Or.inr ⟨h2, h1⟩
    | cons x b =>
      rw [List.cons_append] at h
      exact Or.inl ⟨b, q, a, (List.cons.inj h).2, h1, h2⟩
  · rintro (⟨b, q, a, rfl, h1, h2⟩ | ⟨h1, h2⟩)
    · exact ⟨p :: b, q, a, rfl, h1, h2⟩
    · exact ⟨[], p, rest, rfl, h2, h1⟩

theorem lastEntry_iff (entries : Directory E) (h : Readable entries) (c : Bool) (m : String) (e : E) :
    lastEntry c m (providers entries) = some e ↔ LastOffers entries (sectionOf c) m e := by
  induction entries generalizing e with
  | nil =>
    constructor
    · intro k; simp [providers, lastEntry] at k
    · rintro ⟨b, p, a, k, -⟩; simp at k
  | cons p rest ih =>
    have hr : Readable rest := ⟨fun q hq => h.names q (List.mem_cons_of_mem _ hq),
      fun q hq => h.files q (List.mem_cons_of_mem _ hq)⟩
    have ih := ih hr
    have hn := suffix_json (h.names p List.mem_cons_self)
    have offers : ∀ e', FileOffers p (sectionOf c) m e' ↔
        JsonName p.1 ∧ (p.2.bind fun f => entry f c m) = some e' := by
      intro e'
      constructor
      · rintro ⟨j, f, hf, d, h1, h2⟩
        obtain ⟨f', hf', hp⟩ := h.files p List.mem_cons_self j
        rw [hf] at hf'
        obtain rfl := Option.some.inj hf'
        rw [hf]
        exact ⟨j, (entry_iff hp c m e').2 ⟨d, h1, h2⟩⟩
      · rintro ⟨j, k⟩
        obtain ⟨f, hf, hp⟩ := h.files p List.mem_cons_self j
        rw [hf] at k
        exact ⟨j, f, hf, (entry_iff hp c m e').1 k⟩
    have none_iff : lastEntry c m (providers rest) = none ↔
        ∀ q ∈ rest, ∀ e', ¬ FileOffers q (sectionOf c) m e' := by
      constructor
      · intro k q hq e' hoff
        obtain ⟨e2, h2⟩ := last_exists ⟨q, hq, hoff⟩
        rw [(ih e2).2 h2] at k
        simp at k
      · intro k
        by_contra hne
        obtain ⟨e', he'⟩ := Option.ne_none_iff_exists'.1 hne
        obtain ⟨q, hq, hoff⟩ := last_offers ((ih e').1 he')
        exact k q hq e' hoff
    rw [last_cons, ← ih e, ← none_iff, offers e, ← hn, providers, List.filter_cons]
    by_cases hj : Posix.suffix p.1 = ['.', 'j', 's', 'o', 'n']
    · rw [if_pos (by simpa using hj), lastEntry, Option.or_eq_some_iff]
      change lastEntry c m (providers rest) = some e ∨ _ ↔ lastEntry c m (providers rest) = some e ∨ _
      simp only [hj, true_and]
      rfl
    · rw [if_neg (by simpa using hj)]
      change lastEntry c m (providers rest) = some e ↔ lastEntry c m (providers rest) = some e ∨ _
      simp only [hj, false_and, and_false, or_false]

theorem last_unique {entries : Directory E} (h : Readable entries) {c : Bool} {m : String} {e e' : E}
    (h1 : LastOffers entries (sectionOf c) m e) (h2 : LastOffers entries (sectionOf c) m e') :
    e = e' := by
  have := (lastEntry_iff entries h c m e).2 h1
  rw [(lastEntry_iff entries h c m e').2 h2] at this
  exact (Option.some.inj this).symm

theorem providers_proper {entries : Directory E} (h : Readable entries) :
    AllProper (providers entries) := by
  intro p hp
  rw [providers, List.mem_filter] at hp
  exact h.files p hp.1 ((suffix_json (h.names p hp.1)).1 (by simpa using hp.2))

/-! ### The property -/

/-- **C117** (what is written).  The file has the sections `current` and `elevation`, each with its models
in increasing order of their names, and the entry of a model is the one of the last file that offers
one. -/
theorem C117_written {entries : Directory E} (h : Readable entries) :
    ∃ currents elevations, main entries =
        .ok [("current", currents), ("elevation", elevations)] ∧
      (currents.Pairwise fun a b => a.1 < b.1) ∧ (elevations.Pairwise fun a b => a.1 < b.1) ∧
      (∀ m e, (m, e) ∈ currents ↔ LastOffers entries "current" m e) ∧
      ∀ m e, (m, e) ∈ elevations ↔ LastOffers entries "elevation" m e := by
  obtain ⟨db, e1, h1⟩ := addFiles_ok _ (providers_proper h) ⟨[], []⟩
  have hd : ∀ c, Distinct (part c db) := fun c => (h1 c).1 (by cases c <;> simp [part, Distinct])
  have hm : ∀ c m e, (m, e) ∈ sortKeys (part c db) ↔ LastOffers entries (sectionOf c) m e := by
    intro c m e
    rw [mem_sortKeys, ← lastEntry_iff entries h]
    have k := (h1 c).2 m
    have : (part c (⟨[], []⟩ : DataBase E)).lookup m = none := by cases c <;> rfl
    rw [this, Option.or_none] at k
    rw [← k]
    exact ⟨lookup_of_mem (hd c), lookup_mem⟩
  refine ⟨sortKeys db.current, sortKeys db.elevation, ?_, sorted_sortKeys _ (hd true),
    sorted_sortKeys _ (hd false), hm true, hm false⟩
  rw [main, e1]
  dsimp only [dump, sortKeys, List.foldr, insertKey]
  rw [if_pos (by decide)]

/-- No two files offer different entries for the same model. -/
def Consistent (entries : Directory E) : Prop :=
  ∀ s m e e', Offers entries s m e → Offers entries s m e' → e = e'

/-- **C117** (every model of every provider).  If the files agree on the models they share, a model can
be selected from the database that is written exactly if some file offers it, and it has the entry of that
file. -/
theorem C117_every_partial {entries : Directory E} (h : Readable entries) (hc : Consistent entries) :
    ∃ file, main entries = .ok file ∧ ∀ currents m e,
      select file [] currents m = .ok e ↔ Offers entries (sectionOf currents) m e := by
  obtain ⟨c, l, e1, s1, s2, m1, m2⟩ := C117_written h
  refine ⟨_, e1, fun currents m e => ?_⟩
  have hlast : ∀ s, LastOffers entries s m e ↔ Offers entries s m e := by
    intro s
    refine ⟨last_offers, fun k => ?_⟩
    obtain ⟨e', h'⟩ := last_exists k
    rwa [hc s m e e' k (last_offers h')]
  rw [← hlast]
  have key : ∀ d : Dict E, (d.Pairwise fun a b => a.1 < b.1) →
      (((d.lookup m).elim (.error .valueError) .ok : Except PyErr E) = .ok e ↔ (m, e) ∈ d) := by
    intro d hd
    rcases hl : d.lookup m with _ | e'
    · simp [lookup_none.1 hl e]
    · simp only [Option.elim_some, Except.ok.injEq]
      constructor
      · rintro rfl; exact lookup_mem hl
      · intro k; have := lookup_of_mem (distinct_of_sorted hd) k
        rw [hl] at this; exact Option.some.inj this
  have hload : load [("current", c), ("elevation", l)] [] = .ok ⟨c, l⟩ := by
    rw [load, List.foldl_nil, build, if_pos (by simp), List.lookup_cons_self, List.lookup_cons,
      beq_false_of_ne (by decide), List.lookup_cons_self]
  cases currents with
  | true =>
    refine Iff.trans ?_ ((key c s1).trans (m1 m e))
    rw [select, hload, ok_bind]
    dsimp only
    rw [if_pos rfl]
    cases hl : c.lookup m <;> simp
  | false =>
    refine Iff.trans ?_ ((key l s2).trans (m2 m e))
    rw [select, hload, ok_bind]
    dsimp only
    rw [if_neg (by decide)]
    cases hl : l.lookup m <;> simp

/-- **C117** (any order).  If the files agree on the models they share, the file that is written is the
same in whatever order the directory is listed. -/
theorem C117_order_partial {entries entries' : Directory E} (h : Readable entries)
    (hc : Consistent entries) (hp : entries.Perm entries') : main entries = main entries' := by
  have h' : Readable entries' := ⟨fun p k => h.names p (hp.mem_iff.2 k),
    fun p k => h.files p (hp.mem_iff.2 k)⟩
  obtain ⟨c, l, e1, s1, s2, m1, m2⟩ := C117_written h
  obtain ⟨c', l', e1', s1', s2', m1', m2'⟩ := C117_written h'
  have swap : ∀ s m e, Offers entries s m e ↔ Offers entries' s m e := by
    intro s m e
    exact ⟨fun ⟨p, k, o⟩ => ⟨p, hp.mem_iff.1 k, o⟩, fun ⟨p, k, o⟩ => ⟨p, hp.mem_iff.2 k, o⟩⟩
  have same : ∀ s m e, LastOffers entries s m e ↔ LastOffers entries' s m e := by
    intro s m e
    constructor
    · intro k
      obtain ⟨e', k'⟩ := last_exists ((swap s m e).1 (last_offers k))
      rwa [hc s m e e' (last_offers k) ((swap s m e').2 (last_offers k'))]
    · intro k
      obtain ⟨e', k'⟩ := last_exists ((swap s m e).2 (last_offers k))
      rwa [hc s m e e' ((swap s m e).2 (last_offers k)) (last_offers k')]
  rw [e1, e1', sorted_unique s1 s1' fun q => (m1 q.1 q.2).trans ((same _ _ _).trans (m1' q.1 q.2).symm),
    sorted_unique s2 s2' fun q => (m2 q.1 q.2).trans ((same _ _ _).trans (m2' q.1 q.2).symm)]

/-! ### Files that are refused -/

/-- A section other than the two. -/
def Foreign (f : Dict (Dict E)) : Prop := ∃ s d, (s, d) ∈ f ∧ s ≠ "current" ∧ s ≠ "elevation"

theorem addSections_cases (f : Dict (Dict E)) (db : DataBase E) :
    (Foreign f → addSections db f = .error .keyError) ∧
    (¬ Foreign f → ∃ db', addSections db f = .ok db') := by
  induction f generalizing db with
  | nil => exact ⟨fun ⟨s, d, h, _⟩ => by simp at h, fun _ => ⟨db, rfl⟩⟩
  | cons p f ih =>
    obtain ⟨s, v⟩ := p
    rw [addSections, addSection]
    dsimp only
    have cons : Foreign ((s, v) :: f) ↔ (s ≠ "current" ∧ s ≠ "elevation") ∨ Foreign f := by
      constructor
      · rintro ⟨s', d, h, k⟩
        rcases List.mem_cons.1 h with h | h
        · rw [(Prod.mk.inj h).1] at k; exact Or.inl k
        · exact Or.inr ⟨s', d, h, k⟩
      · rintro (k | ⟨s', d, h, k⟩)
        · exact ⟨s, v, List.mem_cons_self, k⟩
        · exact ⟨s', d, List.mem_cons_of_mem _ h, k⟩
    rw [cons]
    by_cases h1 : s = "elevation"
    · rw [if_pos h1]
      have : ¬ (s ≠ "current" ∧ s ≠ "elevation") := fun k => k.2 h1
      rw [or_iff_right this]
      exact ih _
    · rw [if_neg h1]
      by_cases h2 : s = "current"
      · rw [if_pos h2]
        have : ¬ (s ≠ "current" ∧ s ≠ "elevation") := fun k => k.1 h2
        rw [or_iff_right this]
        exact ih _
      · rw [if_neg h2]
        exact ⟨fun _ => rfl, fun k => absurd (Or.inl ⟨h2, h1⟩) k⟩

/-- A file that is not JSON or has another section. -/
def Bad (p : Posix.Name × Option (Dict (Dict E))) : Prop :=
  p.2 = none ∨ ∃ f, p.2 = some f ∧ Foreign f

theorem addFiles_cases (entries : Directory E) (db : DataBase E) :
    ((∃ d, addFiles db entries = .ok d) ↔ ∀ p ∈ entries, ¬ Bad p) ∧
    ∀ e, addFiles db entries = .error e →
      (∃ p ∈ entries, p.2 = none) ∧ e = .valueError ∨
      (∃ p ∈ entries, ∃ f, p.2 = some f ∧ Foreign f) ∧ e = .keyError := by
  induction entries generalizing db with
  | nil => exact ⟨⟨fun _ _ h => by simp at h, fun _ => ⟨db, rfl⟩⟩, fun e h => by simp [addFiles] at h⟩
  | cons p rest ih =>
    obtain ⟨n, o⟩ := p
    cases o with
    | none =>
      refine ⟨⟨fun ⟨d, h⟩ => by simp [addFiles] at h,
        fun h => absurd (Or.inl rfl) (h _ List.mem_cons_self)⟩, fun e h => Or.inl ⟨?_, ?_⟩⟩
      · exact ⟨_, List.mem_cons_self, rfl⟩
      · rw [addFiles] at h; exact (Except.error.inj h).symm
    | some f =>
      have hc := addSections_cases f db
      by_cases hf : Foreign f
      · rw [addFiles, hc.1 hf]
        refine ⟨⟨fun ⟨d, h⟩ => by simp at h,
          fun h => absurd (Or.inr ⟨f, rfl, hf⟩) (h _ List.mem_cons_self)⟩, fun e h => Or.inr ⟨?_, ?_⟩⟩
        · exact ⟨_, List.mem_cons_self, f, rfl, hf⟩
        · exact (Except.error.inj h).symm
      · obtain ⟨db', e'⟩ := hc.2 hf
        rw [addFiles, e']
        dsimp only
        refine ⟨(ih db').1.trans ⟨fun h p hp => ?_, fun h p hp => h p (List.mem_cons_of_mem _ hp)⟩,
          fun e h => ?_⟩
        · rcases List.mem_cons.1 hp with rfl | hp
          · rintro (k | ⟨f', k, k'⟩)
            · simp at k
            · obtain rfl := Option.some.inj k
              exact hf k'
          · exact h p hp
        · rcases (ih db').2 e h with ⟨⟨p, hp, k⟩, k'⟩ | ⟨⟨p, hp, k⟩, k'⟩
          · exact Or.inl ⟨⟨p, List.mem_cons_of_mem _ hp, k⟩, k'⟩
          · exact Or.inr ⟨⟨p, List.mem_cons_of_mem _ hp, k⟩, k'⟩

/-- **C117** (files that are refused).  A database is written exactly if every file whose name ends with
`.json` is JSON with the two sections only; other files do not matter.  Else a `ValueError` or a `KeyError`
is raised. -/
theorem C117_refused {entries : Directory E} (hn : ∀ p ∈ entries, '/' ∉ p.1) :
    ((∃ file, main entries = .ok file) ↔ ∀ p ∈ entries, JsonName p.1 →
      ∃ f, p.2 = some f ∧ ∀ s d, (s, d) ∈ f → s = "current" ∨ s = "elevation") ∧
    ((∀ p ∈ entries, JsonName p.1 → p.2 ≠ none) → ∀ e, main entries = .error e → e = .keyError) ∧
    ((∀ p ∈ entries, JsonName p.1 → ∀ f, p.2 = some f →
        ∀ s d, (s, d) ∈ f → s = "current" ∨ s = "elevation") →
      ∀ e, main entries = .error e → e = .valueError) := by
  have hmem : ∀ p, p ∈ providers entries ↔ p ∈ entries ∧ JsonName p.1 := by
    intro p
    rw [providers, List.mem_filter]
    constructor
    · rintro ⟨h1, h2⟩
      exact ⟨h1, (suffix_json (hn p h1)).1 (by simpa using h2)⟩
    · rintro ⟨h1, h2⟩
      exact ⟨h1, by simpa using (suffix_json (hn p h1)).2 h2⟩
  obtain ⟨k1, k2⟩ := addFiles_cases (providers entries) (⟨[], []⟩ : DataBase E)
  have herr : ∀ e, main entries = .error e → addFiles ⟨[], []⟩ (providers entries) = .error e := by
    intro e h
    rw [main] at h
    split at h
    · simp at h
    · next e' h' => rw [h', Except.error.inj h]
  refine ⟨Iff.trans ?_ (k1.trans ?_), fun h e he => ?_, fun h e he => ?_⟩
  · rw [main]
    constructor
    · rintro ⟨file, h⟩
      split at h
      · next d h' => exact ⟨d, h'⟩
      · simp at h
    · rintro ⟨d, h⟩
      exact ⟨dump d, by rw [h]⟩
  · constructor
    · intro h p hp hj
      have hb := h p ((hmem p).2 ⟨hp, hj⟩)
      rcases ho : p.2 with _ | f
      · exact absurd (Or.inl ho) hb
      · refine ⟨f, rfl, fun s d hs => ?_⟩
        by_contra hne
        rw [not_or] at hne
        exact hb (Or.inr ⟨f, ho, s, d, hs, hne⟩)
    · intro h p hp
      obtain ⟨hp1, hp2⟩ := (hmem p).1 hp
      obtain ⟨f, hf, hs⟩ := h p hp1 hp2
      rintro (k | ⟨f', k, s, d, hm, h1, h2⟩)
      · rw [hf] at k; simp at k
      · rw [hf] at k
        obtain rfl := Option.some.inj k
        exact (hs s d hm).elim h1 h2
  · rcases k2 e (herr e he) with ⟨⟨p, hp, k⟩, -⟩ | ⟨-, k'⟩
    · obtain ⟨hp1, hp2⟩ := (hmem p).1 hp
      exact absurd k (h p hp1 hp2)
    · exact k'
  · rcases k2 e (herr e he) with ⟨-, k'⟩ | ⟨⟨p, hp, f, k, s, d, hm, h1, h2⟩, -⟩
    · exact k'
    · obtain ⟨hp1, hp2⟩ := (hmem p).1 hp
      exact ((h p hp1 hp2 f k s d hm).elim h1 h2).elim

/-! ### The files of the package -/

deriving instance DecidableEq for Info

theorem proper_of_check {f : Dict (Dict Info)} (h : (f.map Prod.fst).Nodup ∧
    ∀ p ∈ f, (p.2.map Prod.fst).Nodup ∧ (p.1 = "current" ∨ p.1 = "elevation")) : Proper f :=
  ⟨h.1, fun s d k => (h.2 _ k).1, fun s d k => (h.2 _ k).2⟩

theorem shipped_names : ∀ p ∈ shippedProviders, '/' ∉ p.1 := by decide +kernel

theorem shipped_readable : Readable shippedProviders where
  names := shipped_names
  files := by
    intro p hp hj
    rw [← suffix_json (shipped_names p hp)] at hj
    have key : ∀ p ∈ shippedProviders, Posix.suffix p.1 = ['.', 'j', 's', 'o', 'n'] →
        ∃ f ∈ [aviso, esr, gsfc, tpxo, further], p.2 = some f ∧ (f.map Prod.fst).Nodup ∧
          ∀ q ∈ f, (q.2.map Prod.fst).Nodup ∧ (q.1 = "current" ∨ q.1 = "elevation") := by
      decide +kernel
    obtain ⟨f, -, h1, h2⟩ := key p hp hj
    exact ⟨f, h1, proper_of_check h2⟩

/-- All models in a section of the files of the package. -/
def offered (s : String) : Dict Info :=
  [aviso, esr, gsfc, tpxo, further].flatMap fun f => (f.filter fun q => q.1 = s).flatMap (·.2)

theorem shipped_offers (s m : String) (e : Info) :
    Offers shippedProviders s m e ↔ (m, e) ∈ offered s := by
  rw [offered, List.mem_flatMap]
  constructor
  · rintro ⟨p, hp, -, f, hf, d, h1, h2⟩
    refine ⟨f, ?_, List.mem_flatMap.2 ⟨(s, d), List.mem_filter.2 ⟨h1, by simp⟩, h2⟩⟩
    have key : ∀ p ∈ shippedProviders, p.2 = none ∨
        ∃ f ∈ [aviso, esr, gsfc, tpxo, further], p.2 = some f := by decide +kernel
    rcases key p hp with k | ⟨f', hf', k⟩
    · rw [hf] at k; simp at k
    · rw [hf] at k
      rwa [Option.some.inj k]
  · rintro ⟨f, hf, h⟩
    obtain ⟨⟨s', d⟩, h1, h2⟩ := List.mem_flatMap.1 h
    rw [List.mem_filter] at h1
    have hs : s' = s := by simpa using h1.2
    subst hs
    have key : ∀ f ∈ [aviso, esr, gsfc, tpxo, further], ∃ p ∈ shippedProviders,
        Posix.suffix p.1 = ['.', 'j', 's', 'o', 'n'] ∧ p.2 = some f := by decide +kernel
    obtain ⟨p, hp, hj, hf'⟩ := key f hf
    exact ⟨p, hp, (suffix_json (shipped_readable.names p hp)).1 hj, f, hf', d, h1.1, h2⟩

theorem offered_other {s m : String} {e : Info} (h : (m, e) ∈ offered s) :
    s = "current" ∨ s = "elevation" := by
  rw [offered, List.mem_flatMap] at h
  obtain ⟨f, hf, h⟩ := h
  obtain ⟨⟨s', d⟩, h1, h2⟩ := List.mem_flatMap.1 h
  rw [List.mem_filter] at h1
  have hs : s' = s := by simpa using h1.2
  subst hs
  have key : ∀ f ∈ [aviso, esr, gsfc, tpxo, further], ∀ q ∈ f,
      q.1 = "current" ∨ q.1 = "elevation" := by decide +kernel
  exact key f hf _ h1.1

theorem shipped_consistent : Consistent shippedProviders := by
  intro s m e e' h h'
  rw [shipped_offers] at h h'
  have hd : Distinct (offered s) := by
    rcases offered_other h with rfl | rfl <;> unfold Distinct <;> decide +kernel
  have := lookup_of_mem hd h
  rw [lookup_of_mem hd h'] at this
  exact (Option.some.inj this).symm

/-- **C117** (the package).  In whatever order the directory is listed, the files of the package give the
database of the package. -/
theorem C117_package (entries : Directory Info) (h : shippedProviders.Perm entries) :
    main entries = .ok packageFile := by
  rw [← C117_order_partial shipped_readable shipped_consistent h]
  obtain ⟨c, l, e1, s1, s2, m1, m2⟩ := C117_written shipped_readable
  have last : ∀ s m e, LastOffers shippedProviders s m e ↔ (m, e) ∈ offered s := by
    intro s m e
    rw [← shipped_offers]
    refine ⟨last_offers, fun k => ?_⟩
    obtain ⟨e', h'⟩ := last_exists k
    rwa [shipped_consistent s m e e' k (last_offers h')]
  have hs : (shipped.current.Pairwise fun a b => a.1 < b.1) ∧
      (shipped.elevation.Pairwise fun a b => a.1 < b.1) := by decide +kernel
  have hc : (∀ q ∈ offered "current", q ∈ shipped.current) ∧
      ∀ q ∈ shipped.current, q ∈ offered "current" := by decide +kernel
  have hl : (∀ q ∈ offered "elevation", q ∈ shipped.elevation) ∧
      ∀ q ∈ shipped.elevation, q ∈ offered "elevation" := by decide +kernel
  rw [e1, packageFile,
    sorted_unique s1 hs.1 fun q => (m1 q.1 q.2).trans ((last _ _ _).trans ⟨hc.1 q, hc.2 q⟩),
    sorted_unique s2 hs.2 fun q => (m2 q.1 q.2).trans ((last _ _ _).trans ⟨hl.1 q, hl.2 q⟩)]

/-! ### Providers that disagree -/

/-- A provider with one elevation model. -/
def single (e : ℕ) : Dict (Dict ℕ) := [("elevation", [("mine", e)])]

/-- C117 without the condition is false: of two files with different entries for a model the one that is
listed last is used, and the order of a directory is not fixed. -/
theorem C117_order_false : ∃ entries entries' : Directory ℕ, Readable entries ∧
    entries.Perm entries' ∧ main entries ≠ main entries' ∧
    ∃ file, main entries = .ok file ∧
      ∃ e, Offers entries "elevation" "mine" e ∧ select file [] false "mine" ≠ .ok e := by
  refine ⟨[("a.json".toList, some (single 1)), ("b.json".toList, some (single 2))],
    [("b.json".toList, some (single 2)), ("a.json".toList, some (single 1))], ⟨?_, ?_⟩,
    List.Perm.swap .., ?_, [("current", []), ("elevation", [("mine", 2)])], ?_, 1, ?_, ?_⟩
  · decide +kernel
  · have hp : ∀ n, Proper (single n) := by
      intro n
      refine ⟨by simp [single, Distinct], fun s d h => ?_, fun s d h => ?_⟩
      · simp only [single, List.mem_singleton, Prod.mk.injEq] at h
        simp [h.2, Distinct]
      · simp only [single, List.mem_singleton, Prod.mk.injEq] at h
        exact Or.inr h.1
    intro p hp' _
    simp only [List.mem_cons, List.not_mem_nil, or_false] at hp'
    rcases hp' with rfl | rfl
    · exact ⟨_, rfl, hp 1⟩
    · exact ⟨_, rfl, hp 2⟩
  · decide +kernel
  · decide +kernel
  · exact ⟨_, List.mem_cons_self, ⟨['a'], by decide +kernel, 'a', by simp, by decide⟩, _, rfl, _,
      List.mem_cons_self, List.mem_cons_self⟩
  · decide +kernel

end Verif.Providers
