import Verif.Model.Definition
import Verif.Lemmas.Py
/-!
C62 and C63: selection of models of the database, and definitions of models as JSON.
-/
namespace Verif.Definition
open Verif

variable {P : Type}

/-! ### Attributes -/

theorem set_same (s : Attrs P) (k : String) (v : Val P) : set s k v k = v := if_pos rfl

theorem set_other (s : Attrs P) {k k' : String} (v : Val P) (h : k' ≠ k) : set s k v k' = s k' :=
  if_neg h

/-- The keys of a dictionary. -/
def keys (d : List (String × Val P)) : List String := d.map Prod.fst

theorem fromDict_other (d : List (String × Val P)) (s : Attrs P) (k : String) (h : k ∉ keys d) :
    fromDict s d k = s k := by
  induction d generalizing s with
  | nil => rfl
  | cons a d ih =>
    rw [keys, List.map_cons, List.mem_cons, not_or] at h
    rw [fromDict, List.foldl_cons]
    exact (ih _ h.2).trans (set_other _ _ h.1)

/-- What is in the dictionary does not depend on the object. -/
theorem fromDict_key (d : List (String × Val P)) (s t : Attrs P) (k : String) (h : k ∈ keys d) :
    fromDict s d k = fromDict t d k := by
  induction d generalizing s t with
  | nil => cases h
  | cons a d ih =>
    rw [fromDict, fromDict, List.foldl_cons, List.foldl_cons]
    by_cases hk : k ∈ keys d
    · exact ih _ _ hk
    · have e : k = a.1 := by
        rw [keys, List.map_cons, List.mem_cons] at h
        exact h.resolve_right hk
      refine (fromDict_other d _ k hk).trans (Eq.trans ?_ (fromDict_other d _ k hk).symm)
      rw [e, set_same, set_same]

theorem update_other (s : Attrs P) (x : Found P) (k : String)
    (h : k ∉ ["format", "grid_file", "model_file", "constituents"]) : update s x k = s k := by
  simp only [List.mem_cons, List.not_mem_nil, or_false, not_or] at h
  obtain ⟨h1, h2, h3, h4⟩ := h
  rw [update, set_other _ _ h4, set_other _ _ h3, set_other _ _ h2, set_other _ _ h1]

theorem update_format (s : Attrs P) (x : Found P) : update s x "format" = .str x.format := by
  simp [update, set]
theorem update_grid (s : Attrs P) (x : Found P) : update s x "grid_file" = x.grid := by
  simp [update, set]
theorem update_model (s : Attrs P) (x : Found P) : update s x "model_file" = x.model := by
  simp [update, set]
theorem update_constituents (s : Attrs P) (x : Found P) :
    update s x "constituents" = x.constituents := by
  simp [update, set]

/-! ### C62: selection -/

/-- A file or a list of files. -/
def IsFiles (v : Val P) : Prop := (∃ p, v = .path p) ∨ ∃ l, v = .list l

theorem oneFile_path (S : Sys P) (dir : P) (c b : Bool) (v w : Val P)
    (h : oneFile S dir c b v = .ok w) : ∃ p, w = .path p := by
  cases v with
  | str f =>
    unfold oneFile at h
    dsimp only at h
    by_cases hb : b = true ∧ S.exists_ (S.join dir (S.ofStr (f ++ if c then ".gz" else ""))) = false
    · rw [if_pos hb] at h
      cases h
    · rw [if_neg hb] at h
      exact ⟨_, (Except.ok.inj h).symm⟩
  | _ => cases h

theorem bindOk {α β : Type} {x : Except PyErr α} {f : α → Except PyErr β} {b : β}
    (h : (x >>= f) = .ok b) : ∃ a, x = .ok a ∧ f a = .ok b := by
  cases x with
  | error e => rw [error_bind] at h; cases h
  | ok a => exact ⟨a, rfl, by rwa [ok_bind] at h⟩

theorem pathfinder_files (S : Sys P) (dir : P) (c b : Bool) (v w : Val P)
    (h : pathfinder S dir c b v = .ok w) : IsFiles w := by
  unfold pathfinder at h
  split at h
  · obtain ⟨l, _, h⟩ := bindOk h
    exact Or.inr ⟨l, (Except.ok.inj h).symm⟩
  · exact Or.inl (oneFile_path S dir c b _ w h)

theorem pyMap_mem {α β : Type} {f : α → Except PyErr β} :
    ∀ {l : List α} {r : List β}, pyMap f l = .ok r → ∀ b ∈ r, ∃ a ∈ l, f a = .ok b
  | [], r, h => by
    have := Except.ok.inj h
    subst this
    simp
  | a :: as, r, h => by
    unfold pyMap at h
    split at h
    · cases h
    · rename_i b hb
      split at h
      · cases h
      · rename_i bs hbs
        have := Except.ok.inj h
        subst this
        intro x hx
        rcases List.mem_cons.mp hx with rfl | hx
        · exact ⟨a, by simp, hb⟩
        · obtain ⟨y, hy, e⟩ := pyMap_mem hbs x hx
          exact ⟨y, by simp [hy], e⟩

/-- The constituents of files do not depend on those before. -/
theorem parseConstituents_files (S : Sys P) (m : Val P) (h : IsFiles m) (o o' : Val P) :
    parseConstituents S m o = parseConstituents S m o' := by
  rcases h with ⟨p, rfl⟩ | ⟨l, rfl⟩ <;> rfl

theorem parseConstituents_dict (S : Sys P) (d : List (String × Val P))
    (h : ∀ kv ∈ d, IsFiles kv.2) (o o' : Val P) :
    parseConstituents S (.dict d) o = parseConstituents S (.dict d) o' := by
  unfold parseConstituents
  dsimp only
  cases hf : d.find? (fun kv => decide (kv.1 = "u")) with
  | none => rfl
  | some kv =>
    dsimp only
    rcases h kv (List.mem_of_find?_eq_some hf) with ⟨p, e⟩ | ⟨l, e⟩ <;> rw [e]

/-- The model files that are found. -/
theorem found_model (S : Sys P) (dir : P) (currents c b : Bool) (v m : Val P)
    (h : (if currents = true then mapItems (pathfinder S dir c b) v else pathfinder S dir c b v)
      = .ok m) (o o' : Val P) : parseConstituents S m o = parseConstituents S m o' := by
  split at h
  · unfold mapItems at h
    split at h
    · obtain ⟨l, h1, h2⟩ := bindOk h
      have := Except.ok.inj h2
      subst this
      refine parseConstituents_dict S l (fun kv hkv => ?_) o o'
      obtain ⟨a, _, ha⟩ := pyMap_mem h1 kv hkv
      obtain ⟨w, h3, h4⟩ := bindOk ha
      have := Except.ok.inj h4
      subst this
      exact pathfinder_files S dir c b _ _ h3
    · cases h
  · exact parseConstituents_files S m (pathfinder_files S dir c b _ m h) o o'

/-- The values that a selection is worked out from. -/
def readKeys : List String := ["grid_file", "model_file", "format", "compressed", "verify"]

/-- Objects that agree in them give the same, and the constituents that were there before come
into it only for formats other than FES. -/
theorem selectFound_congr (S : Sys P) (formats : List String) (dir : P) (currents : Bool)
    (s t : Attrs P) (h : ∀ k ∈ readKeys, s k = t k) (x : Found P)
    (hx : selectFound S formats dir currents s = .ok x) :
    selectFound S formats dir currents t = .ok ⟨x.format, x.grid, x.model,
      (if isFes (t "format") = true then x.constituents else t "constituents")⟩ := by
  have h1 := h "grid_file" (by simp [readKeys])
  have h2 := h "model_file" (by simp [readKeys])
  have h3 := h "format" (by simp [readKeys])
  have h4 := h "compressed" (by simp [readKeys])
  have h5 := h "verify" (by simp [readKeys])
  unfold selectFound at hx ⊢
  dsimp only at hx ⊢
  rw [h1, h2, h3, h4, h5] at hx
  obtain ⟨g, hg, hx⟩ := bindOk hx
  obtain ⟨m, hm, hx⟩ := bindOk hx
  obtain ⟨c, hc, hx⟩ := bindOk hx
  obtain ⟨f, hf, hx⟩ := bindOk hx
  have e := Except.ok.inj hx
  subst e
  rw [hg, ok_bind, hm, ok_bind]
  have hc' : (if isFes (t "format") = true then parseConstituents S m (t "constituents")
      else .ok (t "constituents") : Except PyErr (Val P))
      = .ok (if isFes (t "format") = true then c else t "constituents") := by
    by_cases hfes : isFes (t "format") = true
    · rw [if_pos hfes] at hc ⊢
      rw [if_pos hfes, ← hc]
      exact found_model S dir currents _ _ _ m hm _ _
    · rw [if_neg hfes, if_neg hfes]
  rw [hc', ok_bind, hf, ok_bind]

/-- C62: what is selected does not depend on what was selected before: if the entry has the
format, the model files and a grid file (or neither object had one), then two objects with the same
compression and verification agree in every attribute of the entry, and for FES models in the
constituents. -/
theorem C62_selection_partial (S : Sys P) (formats : List String) (dir : P) (currents : Bool)
    (s t : Attrs P) (entry : List (String × Val P))
    (hk : ∀ k ∈ ["model_file", "format"], k ∈ keys entry)
    (hst : s "compressed" = t "compressed" ∧ s "verify" = t "verify")
    (hg : "grid_file" ∈ keys entry ∨ s "grid_file" = t "grid_file")
    (s' : Attrs P) (h : select S formats dir currents s entry = .ok s') :
    ∃ t', select S formats dir currents t entry = .ok t' ∧
      (∀ k ∈ keys entry, k ≠ "constituents" → s' k = t' k) ∧
      (isFes (fromDict t entry "format") = true →
        s' "constituents" = t' "constituents") := by
  unfold select at h ⊢
  obtain ⟨x, hx, h⟩ := bindOk h
  have e := Except.ok.inj h
  subst e
  have hr : ∀ k ∈ readKeys, fromDict s entry k = fromDict t entry k := by
    intro k hkr
    by_cases hke : k ∈ keys entry
    · exact fromDict_key entry s t k hke
    · rw [fromDict_other entry s k hke, fromDict_other entry t k hke]
      simp only [readKeys, List.mem_cons, List.not_mem_nil, or_false] at hkr
      rcases hkr with rfl | rfl | rfl | rfl | rfl
      · exact hg.resolve_left hke
      · exact absurd (hk _ (by simp)) hke
      · exact absurd (hk _ (by simp)) hke
      · exact hst.1
      · exact hst.2
  have h2 := selectFound_congr S formats dir currents _ _ hr x hx
  refine ⟨_, by rw [h2, ok_bind], ?_, ?_⟩
  · intro k hke hkc
    by_cases hk4 : k ∈ ["format", "grid_file", "model_file", "constituents"]
    · simp only [List.mem_cons, List.not_mem_nil, or_false] at hk4
      rcases hk4 with rfl | rfl | rfl | rfl
      · rw [update_format, update_format]
      · rw [update_grid, update_grid]
      · rw [update_model, update_model]
      · exact absurd rfl hkc
    · rw [update_other _ _ _ hk4, update_other _ _ _ hk4]
      exact fromDict_key entry s t k hke
  · intro hf
    rw [update_constituents, update_constituents, if_pos hf]

/-- C62: selecting a model again changes nothing. -/
theorem C62_again (S : Sys P) (formats : List String) (dir : P) (currents : Bool)
    (s : Attrs P) (entry : List (String × Val P))
    (hk : ∀ k ∈ ["model_file", "format"], k ∈ keys entry)
    (hg : "grid_file" ∈ keys entry ∨ truthy (s "grid_file") = false)
    (hc : "constituents" ∉ keys entry)
    (s' : Attrs P) (h : select S formats dir currents s entry = .ok s') :
    select S formats dir currents s' entry = .ok s' := by
  unfold select at h ⊢
  obtain ⟨x, hx, h⟩ := bindOk h
  have e := Except.ok.inj h
  have hgrid : "grid_file" ∉ keys entry → x.grid = s "grid_file" := by
    intro hn
    have hfalse := hg.resolve_left hn
    unfold selectFound at hx
    dsimp only at hx
    rw [fromDict_other entry s _ hn, hfalse, if_neg (by simp), ok_bind] at hx
    obtain ⟨m, _, hx⟩ := bindOk hx
    obtain ⟨c, _, hx⟩ := bindOk hx
    obtain ⟨f, _, hx⟩ := bindOk hx
    exact (congrArg Found.grid (Except.ok.inj hx)).symm
  -- the dictionary on the new object
  have hother : ∀ k, k ≠ "constituents" → fromDict s' entry k = fromDict s entry k := by
    intro k hkc
    by_cases hke : k ∈ keys entry
    · exact fromDict_key entry s' s k hke
    · rw [fromDict_other entry s' k hke, ← e]
      by_cases hk4 : k ∈ ["format", "grid_file", "model_file", "constituents"]
      · simp only [List.mem_cons, List.not_mem_nil, or_false] at hk4
        rcases hk4 with rfl | rfl | rfl | rfl
        · exact absurd (hk _ (by simp)) hke
        · rw [update_grid, hgrid hke, fromDict_other entry s _ hke]
        · exact absurd (hk _ (by simp)) hke
        · exact absurd rfl hkc
      · exact update_other _ _ _ hk4
  have hcons : fromDict s' entry "constituents" = x.constituents := by
    rw [fromDict_other entry s' _ hc, ← e, update_constituents]
  have h2 := selectFound_congr S formats dir currents (fromDict s entry) (fromDict s' entry)
    (fun k hk => (hother k (by
      simp only [readKeys, List.mem_cons, List.not_mem_nil, or_false] at hk
      rcases hk with rfl | rfl | rfl | rfl | rfl <;> simp)).symm) x hx
  rw [hcons, ite_self] at h2
  rw [h2, ok_bind]
  refine congrArg Except.ok ?_
  rw [← e]
  funext k
  by_cases hk4 : k ∈ ["format", "grid_file", "model_file", "constituents"]
  · simp only [List.mem_cons, List.not_mem_nil, or_false] at hk4
    rcases hk4 with rfl | rfl | rfl | rfl
    · rw [update_format, update_format]
    · rw [update_grid, update_grid]
    · rw [update_model, update_model]
    · rw [update_constituents, update_constituents]
  · rw [update_other _ _ _ hk4, update_other _ _ _ hk4, e]
    refine hother k ?_
    rintro rfl
    simp at hk4

/-- C62, refuted in general: after a model with a grid file, no model without one can be selected on
the same object; on a new object it can. -/
theorem C62_grid_false (S : Sys P) (formats : List String) (dir g : P) (currents : Bool)
    (s : Attrs P) (hs : s "grid_file" = .path g) (entry : List (String × Val P))
    (he : "grid_file" ∉ keys entry) :
    select S formats dir currents s entry = .error .unbound := by
  unfold select selectFound
  dsimp only
  rw [fromDict_other entry s _ he, hs, if_pos (show truthy (Val.path g) = true from rfl)]
  rfl

/-- C62, refuted in general: an attribute that the entry does not have keeps the value of the model
before, such as the scale and the constituents. -/
theorem C62_left_false (S : Sys P) (formats : List String) (dir : P) (currents : Bool)
    (s s' : Attrs P) (entry : List (String × Val P))
    (h : select S formats dir currents s entry = .ok s') (k : String) (hk : k ∉ keys entry)
    (h4 : k ∉ ["format", "grid_file", "model_file", "constituents"]) : s' k = s k := by
  unfold select at h
  obtain ⟨x, _, h⟩ := bindOk h
  rw [← Except.ok.inj h, update_other _ _ _ h4, fromDict_other entry s k hk]

/-! ### C63: definitions -/

/-- A value without parts. -/
def Scalar (v : Val P) : Prop :=
  v = .null ∨ (∃ b, v = .bool b) ∨ (∃ t, v = .num t) ∨ ∃ t, v = .str t

/-- A value of an attribute that is no path: a scalar, a list of strings that is not empty, or a
dictionary of scalars. -/
def Plain (v : Val P) : Prop :=
  Scalar v ∨ (∃ a l, v = .list ((a :: l).map .str)) ∨
    ∃ d : List (String × Val P), v = .dict d ∧ ∀ kv ∈ d, Scalar kv.2

theorem serializeVal_scalar (S : Sys P) (v : Val P) (h : Scalar v) :
    serializeVal S v = .ok v ∧ jsonable v = true := by
  rcases h with rfl | ⟨b, rfl⟩ | ⟨t, rfl⟩ | ⟨t, rfl⟩ <;> simp [serializeVal, jsonable]

theorem jsonables_str (l : List String) : jsonables (P := P) (l.map .str) = true := by
  induction l with
  | nil => rfl
  | cons a l ih => rw [List.map_cons, jsonables, ih]; rfl

/-- Values that are written one by one. -/
theorem serialize_map (S : Sys P) {α : Type} (l : List α) (k : α → String) (v w : α → Val P)
    (h : ∀ a ∈ l, serializeVal S (v a) = .ok (w a) ∧ jsonable (w a) = true) :
    serialize S (l.map fun a => (k a, v a)) = .ok (l.map fun a => (k a, w a)) ∧
      jsonDict (l.map fun a => (k a, w a)) = true := by
  induction l with
  | nil => exact ⟨rfl, rfl⟩
  | cons a l ih =>
    obtain ⟨h1, h2⟩ := h a (by simp)
    obtain ⟨h3, h4⟩ := ih fun b hb => h b (by simp [hb])
    constructor
    · rw [List.map_cons, serialize, h1, ok_bind, h3, ok_bind]
      rfl
    · rw [List.map_cons, jsonDict, h2, h4]
      rfl

theorem serializeVal_plain (S : Sys P) (v : Val P) (h : Plain v) :
    serializeVal S v = .ok v ∧ jsonable v = true := by
  rcases h with h | ⟨a, l, rfl⟩ | ⟨d, rfl, hd⟩
  · exact serializeVal_scalar S v h
  · rw [List.map_cons]
    refine ⟨by simp [serializeVal], ?_⟩
    rw [jsonable, ← List.map_cons]
    exact jsonables_str _
  · have := serialize_map S d (fun kv => kv.1) (fun kv => kv.2) (fun kv => kv.2)
      fun kv hkv => serializeVal_scalar S _ (hd kv hkv)
    have e : d.map (fun kv => (kv.1, kv.2)) = d := by simp
    rw [e] at this
    refine ⟨?_, ?_⟩
    · rw [serializeVal, this.1, ok_bind]
    · rw [jsonable, this.2]

/-- The forms of model files that survive: one file of an OTIS elevation model, a list of files of
any elevation model, and lists of files by component of any current model. -/
inductive Files (format : String) : Val P → Val P → Prop where
  | one (p : P) (h : format ∈ otisFormats) : Files format (.str "z") (.path p)
  | many (p : P) (l : List P) : Files format (.str "z") (.list ((p :: l).map .path))
  | components (a : String × P × List P) (l : List (String × P × List P))
      (hu : "u" ∈ (a :: l).map Prod.fst) :
      Files format (.list [.str "u", .str "v"])
        (.dict ((a :: l).map fun x => (x.1, .list ((x.2.1 :: x.2.2).map .path))))

/-- The text of model files. -/
theorem serialize_list (S : Sys P) (p : P) (l : List P) :
    serializeVal S (.list ((p :: l).map .path)) = .ok (.list ((p :: l).map fun q => .str (S.toStr q)))
      ∧ jsonable (.list ((p :: l).map fun q => (.str (S.toStr q) : Val P))) = true := by
  constructor
  · rw [List.map_cons, serializeVal, List.map_map]
    rfl
  · rw [jsonable]
    have := jsonables_str (P := P) ((p :: l).map S.toStr)
    rwa [List.map_map] at this

/-- The paths survive being written and read, and their text is not empty. -/
def Stable (S : Sys P) : Prop := ∀ p, S.ofStr (S.toStr p) = p ∧ S.expand p = p ∧ S.toStr p ≠ ""

theorem expanded_text (S : Sys P) (hS : Stable S) (p : P) :
    expanded S (.str (S.toStr p)) = .ok (.path p) := by
  rw [expanded, toPath, ok_bind, (hS p).1, (hS p).2.1]

theorem expandedList_text (S : Sys P) (hS : Stable S) (l : List P) :
    expandedList S (.list (l.map fun q => .str (S.toStr q))) = .ok (.list (l.map .path)) := by
  rw [expandedList, iterate, ok_bind]
  have : pyMap (expanded S) (l.map fun q => .str (S.toStr q)) = .ok (l.map .path) := by
    induction l with
    | nil => rfl
    | cons p l ih => rw [List.map_cons, List.map_cons, pyMap, expanded_text S hS, ih]
  rw [this, ok_bind]

theorem constituentOf_path (S : Sys P) (p : P) : ∃ c, constituentOf S (.path p) = .ok c := by
  rw [constituentOf, toPath, ok_bind]
  cases Parse.parse (S.base p) with
  | ok c => exact ⟨_, rfl⟩
  | error e => exact ⟨_, rfl⟩

theorem constituents_files (S : Sys P) (m : Val P)
    (h : (∃ p, m = .path p) ∨ ∃ l : List P, m = .list (l.map .path)) (old : Val P) :
    ∃ c, parseConstituents S m old = .ok c := by
  rcases h with ⟨p, rfl⟩ | ⟨l, rfl⟩
  · obtain ⟨c, hc⟩ := constituentOf_path S p
    exact ⟨_, by unfold parseConstituents; dsimp only; rw [hc, ok_bind]⟩
  · obtain ⟨cs, hcs⟩ := (pyMap_ok_iff (f := constituentOf S) (l := l.map .path)).mpr (by
      intro v hv
      obtain ⟨p, _, rfl⟩ := List.mem_map.mp hv
      exact constituentOf_path S p)
    exact ⟨_, by unfold parseConstituents; dsimp only; rw [hcs, ok_bind]⟩

theorem constituents_dict (S : Sys P) (l : List (String × P × List P))
    (hu : "u" ∈ l.map Prod.fst) (old : Val P) :
    ∃ c, parseConstituents S (.dict (l.map fun x => (x.1, .list ((x.2.1 :: x.2.2).map .path)))) old
      = .ok c := by
  unfold parseConstituents
  dsimp only
  cases hf : (l.map fun x => (x.1, (.list ((x.2.1 :: x.2.2).map .path) : Val P))).find?
      (fun kv => decide (kv.1 = "u")) with
  | none =>
    obtain ⟨x, hx, e⟩ := List.mem_map.mp hu
    have := List.find?_eq_none.mp hf _ (List.mem_map.mpr ⟨x, hx, rfl⟩)
    simp [e] at this
  | some kv =>
    obtain ⟨x, _, rfl⟩ := List.mem_map.mp (List.mem_of_find?_eq_some hf)
    exact constituents_files S _ (Or.inr ⟨_, rfl⟩) old

/-- Model files are written, and read back. -/
theorem files_text (S : Sys P) (hS : Stable S) (format : String) (type m : Val P)
    (h : Files format type m) :
    Plain type ∧ truthy type = true ∧
    ∃ w, serializeVal S m = .ok w ∧ jsonable w = true ∧ truthy w = true ∧
      modelPaths S none format type w = .ok m ∧
      ∀ old, ∃ c, parseConstituents S m old = .ok c := by
  cases h with
  | one p hf =>
    refine ⟨Or.inl (Or.inr (Or.inr (Or.inr ⟨_, rfl⟩))), by simp [truthy], .str (S.toStr p), rfl, rfl, ?_, ?_,
      ?_⟩
    · simp [truthy, (hS p).2.2]
    · unfold modelPaths
      dsimp only
      rw [if_pos hf]
      exact expanded_text S hS p
    · intro old
      exact constituents_files S (.path p) (Or.inl ⟨p, rfl⟩) old
  | many p l =>
    obtain ⟨h1, h2⟩ := serialize_list S p l
    refine ⟨Or.inl (Or.inr (Or.inr (Or.inr ⟨_, rfl⟩))), by simp [truthy], _, h1, h2, rfl, ?_, ?_⟩
    · have e := expandedList_text S hS (p :: l)
      have hz : isZ (.str "z" : Val P) = true := by simp [isZ]
      have hu : isUV (.str "z" : Val P) = false := rfl
      unfold modelPaths
      dsimp only
      rw [hz, hu, if_neg (show ¬ (false = true) by simp), if_pos rfl]
      split <;> exact e
    · intro old
      exact constituents_files S _ (Or.inr ⟨p :: l, rfl⟩) old
  | components a l hu =>
    have h := serialize_map S (a :: l) (fun x => x.1)
      (fun x => .list ((x.2.1 :: x.2.2).map .path))
      (fun x => .list ((x.2.1 :: x.2.2).map fun q => .str (S.toStr q)))
      fun x _ => serialize_list S x.2.1 x.2.2
    refine ⟨Or.inr (Or.inl ⟨"u", ["v"], rfl⟩), rfl,
      .dict ((a :: l).map fun x => (x.1, .list ((x.2.1 :: x.2.2).map fun q => .str (S.toStr q)))),
      ?_, ?_, rfl, ?_, ?_⟩
    · rw [serializeVal, h.1, ok_bind]
    · rw [jsonable, h.2]
    · have huv : isUV (.list [.str "u", .str "v"] : Val P) = true := by simp [isUV]
      have e : mapItems (expandedList S) (.dict ((a :: l).map fun x =>
            (x.1, .list ((x.2.1 :: x.2.2).map fun q => .str (S.toStr q)))))
          = .ok (.dict ((a :: l).map fun x => (x.1, .list ((x.2.1 :: x.2.2).map .path)))) := by
        unfold mapItems
        dsimp only
        have : ∀ l : List (String × P × List P), pyMap (fun kv : String × Val P => do
              let v ← expandedList S kv.2
              Except.ok (kv.1, v)) (l.map fun x =>
              (x.1, .list ((x.2.1 :: x.2.2).map fun q => .str (S.toStr q))))
            = .ok (l.map fun x => (x.1, .list ((x.2.1 :: x.2.2).map .path))) := by
          intro l
          induction l with
          | nil => rfl
          | cons x l ih =>
            rw [List.map_cons, pyMap, ih, expandedList_text S hS, ok_bind]
            rfl
        rw [this, ok_bind]
      unfold modelPaths
      dsimp only
      rw [huv, if_pos rfl]
      split
      · exact e
      · exact e
    · intro old
      exact constituents_dict S (a :: l) hu old

theorem fromDict_map (s0 : Attrs P) (fields : List String) (w : String → Val P) (k : String) :
    fromDict s0 (fields.map fun k => (k, w k)) k = if k ∈ fields then w k else s0 k := by
  induction fields generalizing s0 with
  | nil => rfl
  | cons a l ih =>
    rw [List.map_cons, fromDict, List.foldl_cons]
    refine (ih _).trans ?_
    by_cases hl : k ∈ l
    · rw [if_pos hl, if_pos (by simp [hl])]
    · rw [if_neg hl]
      by_cases e : k = a
      · rw [e, set_same, if_pos (by simp)]
      · rw [set_other _ _ e, if_neg (by simp [e, hl])]

theorem isNull_iff (v : Val P) : isNull v = true ↔ v = .null := by
  cases v <;> simp [isNull]

theorem notNull {v : Val P} (h : v ≠ .null) : isNull v = false := by
  cases v <;> simp_all [isNull]

theorem validate_known (formats : List String) (f : String) (hf : f ∈ formats)
    (h : f ∈ otisFormats ∨ f = "ATLAS-netcdf" ∨ f ∈ otherFormats) :
    validateFormat (P := P) formats (.str f) = .ok f := by
  unfold validateFormat
  dsimp only
  have e : [("ATLAS", "ATLAS-compact"), ("netcdf", "ATLAS-netcdf"), ("FES", "FES-netcdf"),
      ("GOT", "GOT-ascii")].foldl (fun (f : String) (m : String × String) =>
        if f = m.1 then m.2 else f) f = f := by
    simp only [otisFormats, otherFormats, List.mem_cons, List.not_mem_nil, or_false] at h
    rcases h with (rfl | rfl | rfl) | rfl | rfl | rfl | rfl | rfl <;> rfl
  rw [e, if_pos hf]

/-- The object of a model that can be written as a definition with these fields: its format is
known, it has what its format asks for, and the fields include it. -/
structure Complete (formats : List String) (s : Attrs P) (fields : List String) (f : String) :
    Prop where
  format : s "format" = .str f
  known : f ∈ formats
  listed : f ∈ otisFormats ∨ f = "ATLAS-netcdf" ∨ f ∈ otherFormats
  needed : ∀ k ∈ ["name", "format", "type", "model_file"], k ∈ fields
  name : truthy (s "name") = true
  files : Files f (s "type") (s "model_file")
  grid : f ∈ otisFormats ∨ f = "ATLAS-netcdf" → "grid_file" ∈ fields ∧ ∃ g, s "grid_file" = .path g
  noGrid : f ∈ otherFormats → s "grid_file" = .null
  projection : f ∈ otisFormats → "projection" ∈ fields ∧ truthy (s "projection") = true
  scale : f = "ATLAS-netcdf" ∨ f ∈ otherFormats → "scale" ∈ fields ∧ truthy (s "scale") = true
  version : f ∈ fesFormats → "version" ∈ fields ∧ truthy (s "version") = true
  constituents : f ∈ fesFormats → s "constituents" ≠ .null
  plain : ∀ k ∈ fields, k ≠ "grid_file" → k ≠ "model_file" → Plain (s k)
  unset : ∀ k ∈ fields, s k = .null → fresh (P := P) false k = .null

/-- C63: writing the definition of a model as JSON and reading it on a new object gives back every
field. -/
theorem C63_round_trip_partial (S : Sys P) (hS : Stable S) (formats : List String) (s : Attrs P)
    (fields : List String) (f : String) (h : Complete formats s fields f) :
    ∃ d s', serialize S (toDict s fields) = .ok d ∧ jsonDict d = true ∧
      parseDefinition S formats none (fresh false) d = .ok s' ∧ ∀ k ∈ fields, s' k = s k := by
  obtain ⟨hplain, htype, w, hw1, hw2, hw3, hw4, hw5⟩ := files_text S hS f _ _ h.files
  have hmodel : s "model_file" ≠ .null := by
    have : ∀ t m : Val P, Files f t m → m ≠ .null := by
      intro t m hm
      cases hm <;> simp
    exact this _ _ h.files
  -- the grid file is a path or not set
  have hgrid : (∃ g, s "grid_file" = .path g) ∨ s "grid_file" = .null := by
    rcases h.listed with l | l | l
    · exact Or.inl (h.grid (Or.inl l)).2
    · exact Or.inl (h.grid (Or.inr l)).2
    · exact Or.inr (h.noGrid l)
  -- what is written for a field
  let gtext : Val P := match s "grid_file" with
    | .path g => .str (S.toStr g)
    | v => v
  let text : String → Val P := fun k =>
    if k = "grid_file" then gtext else if k = "model_file" then w else s k
  have hg1 : serializeVal S (s "grid_file") = .ok gtext ∧ jsonable gtext = true := by
    rcases hgrid with ⟨g, e⟩ | e
    · simp only [gtext, e]; exact ⟨rfl, rfl⟩
    · simp only [gtext, e]; exact ⟨rfl, rfl⟩
  have htext : ∀ k ∈ fields.filter (fun k => !isNull (s k)),
      serializeVal S (s k) = .ok (text k) ∧ jsonable (text k) = true := by
    intro k hk
    have hk' := (List.mem_filter.mp hk).1
    simp only [text]
    by_cases e1 : k = "grid_file"
    · rw [if_pos e1, e1]; exact hg1
    · rw [if_neg e1]
      by_cases e2 : k = "model_file"
      · rw [if_pos e2, e2]; exact ⟨hw1, hw2⟩
      · rw [if_neg e2]
        exact serializeVal_plain S _ (h.plain k hk' e1 e2)
  obtain ⟨hd1, hd2⟩ := serialize_map S (fields.filter fun k => !isNull (s k)) (fun k => k)
    (fun k => s k) text htext
  -- the attributes once they are read
  obtain ⟨d, hd⟩ : ∃ d, d = (fields.filter fun k => !isNull (s k)).map fun k => (k, text k) :=
    ⟨_, rfl⟩
  rw [← hd] at hd1 hd2
  have hread : ∀ k, fromDict (fresh false) d k
      = if k ∈ fields ∧ isNull (s k) = false then text k else fresh false k := by
    intro k
    rw [hd, fromDict_map]
    have : (k ∈ fields.filter fun k => !isNull (s k)) ↔ (k ∈ fields ∧ isNull (s k) = false) := by
      rw [List.mem_filter]
      simp
    simp only [this]
  have hplainRead : ∀ k ∈ fields, k ≠ "grid_file" → k ≠ "model_file" →
      fromDict (fresh false) d k = s k := by
    intro k hk e1 e2
    rw [hread]
    by_cases hn : s k = .null
    · rw [if_neg (by simp [hn, isNull]), h.unset k hk hn, hn]
    · rw [if_pos ⟨hk, notNull hn⟩]
      simp only [text, if_neg e1, if_neg e2]
  have hname := hplainRead "name" (h.needed _ (by simp)) (by simp) (by simp)
  have hformat := hplainRead "format" (h.needed _ (by simp)) (by simp) (by simp)
  have htyper := hplainRead "type" (h.needed _ (by simp)) (by simp) (by simp)
  have hmodelr : fromDict (fresh false) d "model_file" = w := by
    rw [hread, if_pos ⟨h.needed _ (by simp), notNull hmodel⟩]
    simp [text]
  have hgridr : ∀ g, s "grid_file" = .path g → "grid_file" ∈ fields →
      fromDict (fresh false) d "grid_file" = .str (S.toStr g) := by
    intro g e hk
    rw [hread, if_pos ⟨hk, by rw [e]; rfl⟩]
    simp [text, gtext, e]
  have hgridn : s "grid_file" = .null → fromDict (fresh false) d "grid_file" = .null := by
    intro e
    rw [hread, if_neg (by simp [e, isNull])]
    rfl
  -- constituents
  have hcons : ∃ c, (if f ∈ fesFormats ∧ isNull (fromDict (fresh false) d "constituents") = true then
        parseConstituents S (s "model_file") (fromDict (fresh false) d "constituents")
      else .ok (fromDict (fresh false) d "constituents")) = .ok c ∧
      ("constituents" ∈ fields → c = s "constituents") := by
    by_cases hk : "constituents" ∈ fields
    · have e := hplainRead "constituents" hk (by simp) (by simp)
      rw [e]
      refine ⟨s "constituents", if_neg ?_, fun _ => rfl⟩
      rintro ⟨h1, h2⟩
      exact h.constituents h1 ((isNull_iff _).mp h2)
    · by_cases hb : f ∈ fesFormats ∧ isNull (fromDict (fresh false) d "constituents") = true
      · obtain ⟨c, hc⟩ := hw5 (fromDict (fresh false) d "constituents")
        exact ⟨c, by rw [if_pos hb, hc], fun h' => absurd h' hk⟩
      · exact ⟨_, if_neg hb, fun h' => absurd h' hk⟩
  obtain ⟨c, hc1, hc2⟩ := hcons
  have hfound : definitionFound S formats none (fromDict (fresh false) d)
      = .ok ⟨f, s "grid_file", s "model_file", c⟩ := by
    unfold definitionFound
    rw [hname, hformat, htyper, hmodelr, h.format, h.name, htype, hw3, if_neg (by simp),
      validate_known formats f h.known h.listed, ok_bind, if_neg (by simp)]
    have e1 : (if f ∈ otisFormats ∨ f = "ATLAS-netcdf" then
          gridPath S none (fromDict (fresh false) d "grid_file")
        else .ok (fromDict (fresh false) d "grid_file")) = .ok (s "grid_file") := by
      by_cases hl : f ∈ otisFormats ∨ f = "ATLAS-netcdf"
      · obtain ⟨hk, g, e⟩ := h.grid hl
        rw [if_pos hl, hgridr g e hk, gridPath]
        have : truthy (.str (S.toStr g) : Val P) = true := by simp [truthy, (hS g).2.2]
        rw [this, if_neg (by simp), toPath, ok_bind, (hS g).1, (hS g).2.1, e]
      · rw [if_neg hl]
        have hn := h.noGrid (by
          rcases h.listed with l | l | l
          · exact absurd (Or.inl l) hl
          · exact absurd (Or.inr l) hl
          · exact l)
        rw [hgridn hn, hn]
    rw [e1, ok_bind, if_pos h.listed, hw4, ok_bind, if_neg, if_neg, if_neg, hc1, ok_bind]
    · rintro ⟨h1, h2⟩
      obtain ⟨hk, ht⟩ := h.version h1
      rw [hplainRead _ hk (by simp) (by simp), ht] at h2
      cases h2
    · rintro ⟨h1, h2⟩
      obtain ⟨hk, ht⟩ := h.scale h1
      rw [hplainRead _ hk (by simp) (by simp), ht] at h2
      cases h2
    · rintro ⟨h1, h2⟩
      obtain ⟨hk, ht⟩ := h.projection h1
      rw [hplainRead _ hk (by simp) (by simp), ht] at h2
      cases h2
  refine ⟨d, _, hd1, hd2, by rw [parseDefinition, hfound, ok_bind], ?_⟩
  intro k hk
  by_cases hk4 : k ∈ ["format", "grid_file", "model_file", "constituents"]
  · simp only [List.mem_cons, List.not_mem_nil, or_false] at hk4
    rcases hk4 with rfl | rfl | rfl | rfl
    · rw [update_format, h.format]
    · rw [update_grid]
    · rw [update_model]
    · rw [update_constituents]
      exact hc2 hk
  · rw [update_other _ _ _ hk4]
    refine hplainRead k hk ?_ ?_
    · rintro rfl; simp at hk4
    · rintro rfl; simp at hk4

/-! A small system of paths. -/

/-- Paths are strings. -/
def strings : Sys String where
  toStr := id
  ofStr := id
  expand := id
  join d p := d ++ "/" ++ p
  resolve := id
  base p := (p.splitOn "/").getLastD ""
  exists_ _ := true
  glob _ _ := []
  pyStr _ := ""

def known : List String :=
  ["ATLAS-compact", "ATLAS-netcdf", "FES-netcdf", "GOT-ascii", "GOT-netcdf", "OTIS", "TMD3"]

def cats : List (String × Val String) :=
  [("format", .str "OTIS"), ("grid_file", .str "CATS2008/grid_CATS2008"),
    ("model_file", .str "CATS2008/hf.CATS2008.out"), ("name", .str "CATS2008"), ("type", .str "z")]

def got : List (String × Val String) :=
  [("format", .str "GOT-ascii"), ("model_file", .list [.str "GOT4.7/k1.d", .str "GOT4.7/m2.d"]),
    ("name", .str "GOT4.7"), ("scale", .num "0.01"), ("type", .str "z")]

/-- The hypotheses are met, and the refuted case occurs: CATS2008 and then GOT4.7. -/
example : (∃ s, select strings known "data" false (fresh false) cats = .ok s ∧
      s "grid_file" = .path "data/CATS2008/grid_CATS2008" ∧
      select strings known "data" false s got = .error .unbound) ∧
    ∃ s, select strings known "data" false (fresh false) got = .ok s ∧
      s "model_file" = .list [.path "data/GOT4.7/k1.d", .path "data/GOT4.7/m2.d"] := by
  refine ⟨⟨_, rfl, rfl, rfl⟩, ⟨_, rfl, rfl⟩⟩

def aotim : List (String × Val String) :=
  [("format", .str "OTIS"), ("grid_file", .str "aotim5_tmd/grid_Arc5km"),
    ("model_file", .dict [("u", .str "aotim5_tmd/UV_Arc5km")]), ("name", .str "AOTIM-5"),
    ("projection", .dict [("lat_0", .num "90"), ("proj", .str "aeqd")]),
    ("type", .list [.str "u", .str "v"])]

/-- C63, refuted in general: the single file of a current model, as all OTIS current models of the
database but those in atlas form have it, comes back as one file for every letter of its path. -/
theorem C63_current_false : ∃ s d s', select strings known "data" true (fresh false) aotim = .ok s ∧
    s "model_file" = .dict [("u", .path "data/aotim5_tmd/UV_Arc5km")] ∧
    serialize strings (toDict s defaultFields) = .ok d ∧ jsonDict d = true ∧
    parseDefinition strings known none (fresh false) d = .ok s' ∧
    s' "model_file" = .dict [("u", .list
      ("data/aotim5_tmd/UV_Arc5km".toList.map fun c => .path (String.singleton c)))] :=
  ⟨_, _, _, rfl, rfl, rfl, rfl, rfl, rfl⟩

/-- C63, refuted in general: so does the single file of a GOT or FES elevation model. -/
theorem C63_single_false : ∃ s d s', select strings known "data" false (fresh false)
      [("format", .str "GOT-netcdf"), ("model_file", .str "m2.nc"), ("name", .str "M2"),
        ("scale", .num "0.01"), ("type", .str "z")] = .ok s ∧
    s "model_file" = .path "data/m2.nc" ∧
    serialize strings (toDict s defaultFields) = .ok d ∧
    parseDefinition strings known none (fresh false) d = .ok s' ∧
    s' "model_file" = .list ("data/m2.nc".toList.map fun c => .path (String.singleton c)) :=
  ⟨_, _, _, rfl, rfl, rfl, rfl, rfl⟩

/-- C63, refuted in general: that the files are compressed is not among the fields that are written
unless they are named. -/
theorem C63_compressed_false : ∃ s d s', select strings known "data" false (fresh true) got = .ok s ∧
    s "compressed" = .bool true ∧ serialize strings (toDict s defaultFields) = .ok d ∧
    parseDefinition strings known none (fresh false) d = .ok s' ∧
    s' "model_file" = .list [.path "data/GOT4.7/k1.d.gz", .path "data/GOT4.7/m2.d.gz"] ∧
    s' "compressed" = .bool false :=
  ⟨_, _, _, rfl, rfl, rfl, rfl, rfl, rfl⟩

/-- The hypotheses of the round trip are met by a model of the database. -/
example : ∃ s, select strings known "data" false (fresh false) got = .ok s ∧
    Complete known s ("compressed" :: defaultFields) "GOT-ascii" := by
  refine ⟨_, rfl, ?_⟩
  refine
    { format := rfl, known := by decide, listed := by decide, needed := by decide, name := rfl,
      files := Files.many "data/GOT4.7/k1.d" ["data/GOT4.7/m2.d"], grid := fun h => absurd h (by decide),
      noGrid := fun _ => rfl, projection := fun h => absurd h (by decide), scale := fun _ => ⟨by decide, rfl⟩,
      version := fun h => absurd h (by decide),
      constituents := fun h => absurd h (by decide), plain := ?_, unset := ?_ }
  · intro k hk h1 h2
    left
    simp only [defaultFields, List.mem_cons, List.not_mem_nil, or_false] at hk
    rcases hk with rfl | rfl | rfl | rfl | rfl | rfl | rfl | rfl | rfl | rfl | rfl | rfl
    · exact Or.inr (Or.inl ⟨_, rfl⟩)
    · exact Or.inr (Or.inr (Or.inr ⟨_, rfl⟩))
    · exact Or.inr (Or.inr (Or.inr ⟨_, rfl⟩))
    · exact Or.inr (Or.inr (Or.inr ⟨_, rfl⟩))
    · exact absurd rfl h1
    · exact absurd rfl h2
    · exact Or.inl rfl
    · exact Or.inl rfl
    · exact Or.inr (Or.inr (Or.inl ⟨_, rfl⟩))
    · exact Or.inl rfl
    · exact Or.inl rfl
    · exact Or.inl rfl
  · intro k hk h
    simp only [defaultFields, List.mem_cons, List.not_mem_nil, or_false] at hk
    rcases hk with rfl | rfl | rfl | rfl | rfl | rfl | rfl | rfl | rfl | rfl | rfl | rfl
    · cases h
    all_goals rfl

/-- Systems of paths that are stable exist: texts that are not empty, where the empty text stands for
the current directory. -/
example : Stable (P := { t : String // t ≠ "" })
    { toStr := Subtype.val
      ofStr := fun s => if h : s ≠ "" then ⟨s, h⟩ else ⟨".", by decide⟩
      expand := id
      join := fun _ p => p
      resolve := id
      base := Subtype.val
      exists_ := fun _ => true
      glob := fun _ _ => []
      pyStr := fun _ => "" } := by
  rintro ⟨t, ht⟩
  exact ⟨dif_pos ht, rfl, ht⟩

end Verif.Definition
