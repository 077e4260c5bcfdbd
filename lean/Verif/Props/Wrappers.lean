import Verif.Model.Wrappers
/-!
C130: the functions for constants are the methods of the model, and a request without a type is one for the type
of the model.
-/
namespace Verif.Wrappers
open Verif Verif.TideModel

variable {C D O : Type} (R : Readers C D O) (m : Model D)

/-- **C130** (functions).  For every model and all keywords the functions give what the methods give, results,
exceptions and the object afterwards; reading with the function returns the constants that the model keeps. -/
theorem C130_functions (kw : Keywords) :
    extractFunction R (some m) kw = extractMethod R m kw ∧
    readFunction R (some m) kw = readMethod R m kw ∧
    interpolateFunction R (some m) kw = interpolateMethod R m kw := by
  refine ⟨rfl, ?_, rfl⟩
  simp only [readFunction, readMethod, Option.getD_some]
  cases readKind R m.state (kw.type.getD m.type) (kw.append.getD false) <;> rfl

/-- What is no model is refused by all of them. -/
theorem C130_refused (kw : Keywords) :
    (extractFunction R (none : Option (Model D)) kw).isOk = false ∧
    (readFunction R (none : Option (Model D)) kw).isOk = false ∧
    (interpolateFunction R (none : Option (Model D)) kw).isOk = false := ⟨rfl, rfl, rfl⟩

/-- **C130** (defaults).  A request without a type is the request for the type of the model, and a request with one
does not depend on the type of the model. -/
theorem C130_default (append : Option Bool) :
    extractMethod R m ⟨none, append⟩ = extractMethod R m ⟨some m.type, append⟩ ∧
    readMethod R m ⟨none, append⟩ = readMethod R m ⟨some m.type, append⟩ ∧
    interpolateMethod R m ⟨none, append⟩ = interpolateMethod R m ⟨some m.type, append⟩ ∧
    ∀ k k' : Kind, (extractMethod R m ⟨some k, append⟩).map Prod.fst
        = (extractMethod R { m with type := k' } ⟨some k, append⟩).map Prod.fst ∧
      (readMethod R m ⟨some k, append⟩).map Prod.fst
        = (readMethod R { m with type := k' } ⟨some k, append⟩).map Prod.fst := by
  refine ⟨rfl, rfl, rfl, fun k k' => ⟨?_, ?_⟩⟩
  · simp only [extractMethod, Option.getD_some]
    cases extractKind R.world m.state k (append.getD false) <;> rfl
  · simp only [readMethod, Option.getD_some]
    cases readKind R m.state k (append.getD false) <;> rfl

/-- **C130** (reading first).  Interpolating constants that have not been read is reading them with the same
keywords and then interpolating; once they have been read, interpolating changes nothing, and reads nothing
again. -/
theorem C130_interpolate (kw : Keywords) :
    (m.cache = none → interpolateMethod R m kw
      = (readMethod R m kw).bind fun q => interpolateMethod R q.2 kw) ∧
    (∀ c, m.cache = some c → interpolateMethod R m kw
      = (interpolateKind R m.state c (kw.type.getD m.type)).map fun o => (o, m)) := by
  constructor
  · intro h
    simp only [interpolateMethod, ensure, h, readMethod, Option.getD_some]
    cases readKind R m.state (kw.type.getD m.type) (kw.append.getD false) <;> rfl
  · intro c h
    simp only [interpolateMethod, ensure, h]
    cases interpolateKind R m.state c (kw.type.getD m.type) <;> rfl

/-- **C130** (elevations).  A model of elevations needs no type: it is extracted, read and interpolated as heights. -/
theorem C130_elevations (h : m.type = .one "z") (append : Bool) :
    (extractMethod R m ⟨none, some append⟩).map Prod.fst = (TideModel.extract R.world m.state "z" append).map Prod.fst ∧
    (readMethod R m ⟨none, some append⟩).map Prod.fst = (readFiles m.state "z").bind (fun f => R.read f "z" append) := by
  constructor
  · simp only [extractMethod, Option.getD_none, h, extractKind, Option.getD_some]
    cases TideModel.extract R.world m.state "z" append <;> rfl
  · simp only [readMethod, Option.getD_none, h, readKind, Option.getD_some]
    cases (readFiles m.state "z").bind (fun f => R.read f "z" append) <;> rfl

/-- **C130** (a component).  Asked for a component of a current, a model of currents gives this component. -/
theorem C130_component (t : String) (append : Bool) :
    (extractMethod R m ⟨some (.one t), some append⟩).map Prod.fst
      = (TideModel.extract R.world m.state t append).map Prod.fst ∧
    (readMethod R m ⟨some (.one t), some append⟩).map Prod.fst
      = (readFiles m.state t).bind (fun f => R.read f t append) := by
  constructor
  · simp only [extractMethod, extractKind, Option.getD_some]
    cases TideModel.extract R.world m.state t append <;> rfl
  · simp only [readMethod, readKind, Option.getD_some]
    cases (readFiles m.state t).bind (fun f => R.read f t append) <;> rfl

/-- The models of currents for which a list of components is an exception. -/
def Fails (s : State) : Prop :=
  s.format ∈ ["OTIS", "ATLAS-compact", "TMD3", "ATLAS-netcdf"] ∨
  (s.format ∈ ["FES-ascii", "FES-netcdf"] ∧ ∃ d, s.file = .dict d) ∨
  (s.format = "FES-netcdf" ∧ ∃ p ps, s.file = .paths (.many (p :: ps)))

theorem listed_fails {α : Type} {s : State} (h : Fails s) (present : String → Bool) (f : ModelFile → Except PyErr α) :
    ∃ e, listed s present f = .error e := by
  rcases h with h | ⟨h, d, hd⟩ | ⟨h, p, ps, hd⟩
  · simp only [List.mem_cons, List.not_mem_nil, or_false] at h
    have o : isOtis s.format = true ∨ (isOtis s.format = false ∧ s.format = "ATLAS-netcdf") := by
      rcases h with h | h | h | h
      · exact .inl (by rw [h]; rfl)
      · exact .inl (by rw [h]; rfl)
      · exact .inl (by rw [h]; rfl)
      · exact .inr ⟨by rw [h]; rfl, h⟩
    rcases o with o | ⟨o, e⟩
    · simp only [listed, o, if_true]
      cases otisFiles s with
      | error e => exact ⟨e, rfl⟩
      | ok p => exact ⟨_, rfl⟩
    · rw [listed, o, if_neg (by simp), if_pos e]
      cases s.file <;> exact ⟨_, rfl⟩
  · simp only [List.mem_cons, List.not_mem_nil, or_false] at h
    have o : isOtis s.format = false ∧ s.format ≠ "ATLAS-netcdf" ∧ isGot s.format = false ∧ isFes s.format = true := by
      rcases h with h | h <;> rw [h] <;> decide
    rw [listed, o.1, if_neg (by simp), if_neg o.2.1, o.2.2.1, if_neg (by simp), o.2.2.2, if_pos rfl, hd]
    exact ⟨_, rfl⟩
  · have o : isOtis s.format = false ∧ s.format ≠ "ATLAS-netcdf" ∧ isGot s.format = false ∧ isFes s.format = true ∧
        s.format ≠ "FES-ascii" := by rw [h]; decide
    rw [listed, o.1, if_neg (by simp), if_neg o.2.1, o.2.2.1, if_neg (by simp), o.2.2.2.1, if_pos rfl, hd]
    simp only [o.2.2.2.2, if_false, iterated]
    cases present p <;> exact ⟨_, rfl⟩

/-- **C130** (refuted: currents).  The type of a model of currents is the list of its components, which no reader
takes: without a type every request for constants of such a model fails, whatever the files hold, by the method
and by the function, extracting and reading. -/
theorem C130_currents_false (ts : List String) (h : m.type = .list ts) (hf : Fails m.state) (append : Option Bool) :
    (∃ e, extractMethod R m ⟨none, append⟩ = .error e ∧ extractFunction R (some m) ⟨none, append⟩ = .error e) ∧
    (∃ e, readMethod R m ⟨none, append⟩ = .error e ∧ readFunction R (some m) ⟨none, append⟩ = .error e) ∧
    (m.cache = none → ∃ e, interpolateMethod R m ⟨none, append⟩ = .error e) := by
  obtain ⟨e, he⟩ := listed_fails hf R.world.present fun _ => TideModel.extract R.world m.state "z" (append.getD false)
  obtain ⟨e', he'⟩ := listed_fails hf R.world.present fun f => R.read f "z" (append.getD false)
  have a : extractMethod R m ⟨none, append⟩ = .error e := by
    simp only [extractMethod, Option.getD_none, h, extractKind, he]
  have b : readMethod R m ⟨none, append⟩ = .error e' := by
    simp only [readMethod, Option.getD_none, h, readKind, he']
  refine ⟨⟨e, a, (C130_functions R m _).1.trans a⟩, ⟨e', b, (C130_functions R m _).2.1.trans b⟩, fun c => ⟨e', ?_⟩⟩
  rw [(C130_interpolate R m _).1 c, b]
  rfl

/-- **C130** (refuted: currents in memory).  Also where a component has been read, interpolating it without naming it
again fails for the formats of OTIS and ATLAS. -/
theorem C130_memory_false (ts : List String) (h : m.type = .list ts) (append : Option Bool)
    (hf : m.state.format ∈ ["OTIS", "ATLAS-compact", "TMD3", "ATLAS-netcdf"]) (c : D) (hc : m.cache = some c) :
    interpolateMethod R m ⟨none, append⟩ = .error .unbound := by
  have e : (isOtis m.state.format || decide (m.state.format = "ATLAS-netcdf")) = true := by
    simp only [List.mem_cons, List.not_mem_nil, or_false] at hf
    rcases hf with hf | hf | hf | hf <;> rw [hf] <;> rfl
  rw [(C130_interpolate R m _).2 c hc, Option.getD_none, h, interpolateKind, e]
  rfl

/-- A model of currents whose component can be read and interpolated, and which fails without a type. -/
example : ∃ (R : Readers Nat Nat Nat) (m : Model Nat), m.type = .list ["u", "v"] ∧ Fails m.state ∧
    ((extractMethod R m ⟨some (.one "v"), none⟩).map fun r => r.1.columns) = .ok [2] ∧
    ((readMethod R m ⟨some (.one "v"), none⟩).map fun r => r.2.cache) = .ok (some 2) ∧
    (interpolateMethod R m ⟨some (.one "v"), none⟩).map Prod.fst = .ok 3 ∧
    extractMethod R m ⟨none, none⟩ = .error .attributeError := by
  refine ⟨⟨⟨fun _ => true, fun _ _ => .error .keyError, fun _ t => .ok [("m2", if t = "v" then 2 else 1)],
      fun _ _ => .error .keyError, fun _ _ => .error .keyError, 0⟩, fun _ t _ => .ok (if t = "v" then 2 else 1),
      fun c _ => .ok (c + 1)⟩,
    ⟨⟨"ATLAS-netcdf", .dict [("u", .one "u.nc"), ("v", .one "v.nc")], none⟩, .list ["u", "v"], none⟩, rfl,
    .inl (by decide), by decide +kernel, by decide +kernel, by decide +kernel, rfl⟩

end Verif.Wrappers
