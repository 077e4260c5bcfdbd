import Verif.Model.Session
import Verif.Lemmas.Py
/-!
C67: interpolating constants that an object has read before
-/
namespace Verif.TideModel
open Verif

variable {C R : Type}

/-- A new object with given attributes. -/
def fresh (a : State) : Session C := ⟨a, none⟩

/-- What reading gives depends on the attributes, the type and the node option, not on what was
read before. -/
theorem read_fresh (L : Library C R) (s : Session C) (t : String) (b : Bool) :
    (readConstants L s t b).map Prod.fst = (readConstants L (fresh s.attrs) t b).map Prod.fst := by
  rfl

theorem read_spec (L : Library C R) (s : Session C) (t : String) (b : Bool)
    (c : List (String × C)) (s' : Session C) (h : readConstants L s t b = .ok (c, s')) :
    s' = ⟨s.attrs, some c⟩ := by
  unfold readConstants at h
  cases hf : readFiles s.attrs t with
  | error e => rw [hf, error_bind] at h; cases h
  | ok f =>
    rw [hf, ok_bind] at h
    cases hl : L.reader s.attrs.format f t with
    | error e => rw [hl, error_bind] at h; cases h
    | ok l =>
      rw [hl, ok_bind] at h
      dsimp only at h
      cases h
      rfl

/-- C67: the constants that are read are those of the files and, if asked for, the node tide; it is there
once, also if the files have one. -/
theorem C67_node (L : Library C R) (s : Session C) (t : String) (b : Bool) (c : List (String × C))
    (s' : Session C) (h : readConstants L s t b = .ok (c, s')) :
    ∃ f l, readFiles s.attrs t = .ok f ∧ L.reader s.attrs.format f t = .ok l ∧
      (c = l ∨ b = true ∧ c = l ++ [("node", L.node)]) ∧
      (b = true → "node" ∈ c.map Prod.fst) ∧ ((l.map Prod.fst).Nodup → (c.map Prod.fst).Nodup) := by
  unfold readConstants at h
  cases hf : readFiles s.attrs t with
  | error e => rw [hf, error_bind] at h; cases h
  | ok f =>
    rw [hf, ok_bind] at h
    cases hl : L.reader s.attrs.format f t with
    | error e => rw [hl, error_bind] at h; cases h
    | ok l =>
      rw [hl, ok_bind] at h
      dsimp only at h
      cases h
      refine ⟨f, l, rfl, hl, ?_⟩
      by_cases hn : b = true ∧ "node" ∉ l.map Prod.fst
      · rw [if_pos hn]
        refine ⟨Or.inr ⟨hn.1, rfl⟩, fun _ => by simp, fun h => ?_⟩
        rw [List.map_append, List.nodup_append]
        refine ⟨h, by simp, ?_⟩
        intro a ha a' ha' e
        simp only [List.map_cons, List.map_nil, List.mem_singleton] at ha'
        rw [e, ha'] at ha
        exact hn.2 ha
      · rw [if_neg hn]
        refine ⟨Or.inl rfl, fun hb => ?_, fun h => h⟩
        exact Classical.byContradiction fun hm => hn ⟨hb, hm⟩

/-- C67: an interpolation right after a successful reading of the same type gives what a new object
with the same attributes gives, whatever was done with the object before. -/
theorem C67_after_read (L : Library C R) (s : Session C) (ops : List Op) (t : String) (b : Bool)
    (c : List (String × C)) (s' : Session C)
    (h : readConstants L (session L s ops) t b = .ok (c, s')) :
    (interpolateConstants L s' t b).map Prod.fst =
      (interpolateConstants L (fresh s'.attrs) t b).map Prod.fst := by
  have e := read_spec L _ t b c s' h
  have hf := read_fresh L (session L s ops) t b
  rw [h] at hf
  obtain ⟨a, ha⟩ : ∃ a, a = (session L s ops).attrs := ⟨_, rfl⟩
  rw [← ha] at e hf
  subst e
  unfold interpolateConstants
  cases hr : readConstants L (fresh a) t b with
  | error x => rw [hr] at hf; cases hf
  | ok q =>
    obtain ⟨c', s''⟩ := q
    rw [hr] at hf
    have hc : c = c' := by
      simp only [Except.map] at hf
      exact Except.ok.inj hf
    subst hc
    have e2 := read_spec L _ t b c s'' hr
    subst e2
    simp only [fresh, ok_bind] at hr ⊢

/-- C67: the first interpolation of a new object is right too, and reads once. -/
theorem C67_first (L : Library C R) (a : State) (t : String) (b : Bool) (c : List (String × C))
    (s' : Session C) (h : readConstants L (fresh a) t b = .ok (c, s'))
    (hk : knownFormat a.format = true) :
    (interpolateConstants L (fresh a) t b).map Prod.fst = L.interpolator a.format t c ∧
      (Op.step L (fresh a) (.interpolate t b)).1.cache = some c := by
  have e := read_spec L _ t b c s' h
  subst e
  constructor
  · unfold interpolateConstants
    simp only [fresh] at h ⊢
    rw [h, ok_bind]
    dsimp only
    rw [if_pos hk]
    cases L.interpolator a.format t c <;> rfl
  · simp only [Op.step, fresh] at h ⊢
    rw [h]

/-- The operations that do not read. -/
def Op.keeps : Op → Bool
  | .read _ _ => false
  | _ => true

theorem keeps_step (L : Library C R) (s : Session C) (c : List (String × C))
    (hs : s.cache = some c) (o : Op) (ho : o.keeps = true) : (o.step L s).1.cache = some c := by
  cases o with
  | select a => exact hs
  | read t b => simp [Op.keeps] at ho
  | interpolate t b => simp only [Op.step, hs]

theorem keeps_session (L : Library C R) (c : List (String × C)) : ∀ (ops : List Op) (s : Session C),
    s.cache = some c → (∀ o ∈ ops, o.keeps = true) → (session L s ops).cache = some c
  | [], _, hs, _ => hs
  | o :: l, s, hs, h => keeps_session L c l _ (keeps_step L s c hs o (h o (by simp)))
      fun x hx => h x (by simp [hx])

/-- C67 (partial): until the next reading, every interpolation uses the constants of the last one,
whatever type it asks for and whichever model has been selected since.  The property asks for the
constants of the requested type of the selected model (`C67_type_false`, `C67_select_false`). -/
theorem C67_kept_partial (L : Library C R) (s : Session C) (t : String) (b : Bool)
    (c : List (String × C)) (s' : Session C) (h : readConstants L s t b = .ok (c, s'))
    (ops : List Op) (hops : ∀ o ∈ ops, o.keeps = true) (t' : String) (b' : Bool)
    (hk : knownFormat (session L s' ops).attrs.format = true) :
    (interpolateConstants L (session L s' ops) t' b').map Prod.fst =
      L.interpolator (session L s' ops).attrs.format t' c := by
  have e := read_spec L _ t b c s' h
  have hc : (session L s' ops).cache = some c :=
    keeps_session L c ops s' (by rw [e]) hops
  unfold interpolateConstants
  rw [hc, ok_bind]
  dsimp only
  rw [if_pos hk]
  cases L.interpolator (session L s' ops).attrs.format t' c <;> rfl

/-! ### Examples: a library whose constants tell where they come from -/

/-- Reading returns the file and type; interpolating returns what was read. -/
def tagged : Library (ModelFile × String) (List (String × ModelFile × String)) where
  reader := fun _ f t => .ok [("m2", f, t)]
  interpolator := fun _ _ c => .ok c
  node := (.paths (.one "node"), "")

/-- A current model in ATLAS netCDF format. -/
def currents : State where
  format := "ATLAS-netcdf"
  file := .dict [("u", .many ["u_m2.nc"]), ("v", .many ["v_m2.nc"])]
  constituents := none

/-- An elevation model in the same format. -/
def elevations : State where
  format := "ATLAS-netcdf"
  file := .paths (.many ["h_m2.nc"])
  constituents := none

/-- C67 fails for the second component of a current: after interpolating the zonal component, the
meridional one is interpolated from the zonal constants; a new object reads the right ones. -/
theorem C67_type_false :
    (interpolateConstants tagged (session tagged (fresh currents) [.interpolate "u" false]) "v"
      false).map Prod.fst = .ok [("m2", .paths (.many ["u_m2.nc"]), "u")] ∧
    (interpolateConstants tagged (fresh currents) "v" false).map Prod.fst =
      .ok [("m2", .paths (.many ["v_m2.nc"]), "v")] := by
  decide +kernel

/-- C67 fails for an object that is used for another model: the constants of the first one are
interpolated. -/
theorem C67_select_false :
    (interpolateConstants tagged (session tagged (fresh currents) [.interpolate "u" false,
      .select elevations]) "z" false).map Prod.fst =
        .ok [("m2", .paths (.many ["u_m2.nc"]), "u")] ∧
    (interpolateConstants tagged (fresh elevations) "z" false).map Prod.fst =
      .ok [("m2", .paths (.many ["h_m2.nc"]), "z")] := by
  decide +kernel

/-- The hypotheses of `C67_after_read` and `C67_kept_partial` are met. -/
example : (readConstants tagged (session tagged (fresh currents) [.interpolate "u" false])
    "v" true).map (fun q => (q.1.length, knownFormat q.2.attrs.format)) = .ok (2, true) := by
  decide +kernel

end Verif.TideModel
