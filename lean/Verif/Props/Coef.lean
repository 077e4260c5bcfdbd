import Verif.Model.Coef
import Verif.Spec.Compound

/-!
# C50: the table of Doodson coefficients
-/

namespace Verif.Coef

/-- Two rows give the same tidal argument: equal multiples of the six astronomical longitudes, and
multiples of 90 degrees that differ by whole turns. -/
def SameArgument (a b : List ℤ) : Prop :=
  a.length = 7 ∧ b.length = 7 ∧ a.take 6 = b.take 6 ∧
    ∃ x y, a[6]? = some x ∧ b[6]? = some y ∧ (x - y) % 4 = 0

/-- `a + m b`, entry by entry. -/
def addMul (a : List ℤ) (m : ℤ) (b : List ℤ) : List ℤ := List.zipWith (fun x y => x + m * y) a b

/-- The sum of the rows of the parents with their multiples. -/
def sumRows (t : List (String × List ℤ)) : List (ℤ × String) → Option (List ℤ)
  | [] => some [0, 0, 0, 0, 0, 0, 0]
  | (m, c) :: l => do
    let r ← t.lookup c
    let s ← sumRows t l
    return addMul s m r

/-- The entries that break the rule. -/
def wrong : List String := ["2ook1", "k3", "2mn6", "3mn8", "nk3", "nsk5", "2(kj)4", "snk5"]

/-- The rows of the elementary tides. -/
def base : List (String × List ℤ) := [
  ("m2", [2, 0, 0, 0, 0, 0, 0]),
  ("n2", [2, -1, 0, 1, 0, 0, 0]),
  ("s2", [2, 2, -2, 0, 0, 0, 0]),
  ("k2", [2, 2, 0, 0, 0, 0, 0]),
  ("k1", [1, 1, 0, 0, 0, 0, 1]),
  ("o1", [1, -1, 0, 0, 0, 0, -1]),
  ("p1", [1, 1, -2, 0, 0, 0, -1]),
  ("q1", [1, -2, 0, 1, 0, 0, -1]),
  ("l2", [2, 1, 0, -1, 0, 0, 2]),
  ("nu2", [2, -1, 2, -1, 0, 0, 0]),
  ("mu2", [2, -2, 2, 0, 0, 0, 0]),
  ("t2", [2, 2, -3, 0, 0, 1, 0]),
  ("r2", [2, 2, -1, 0, 0, -1, 2]),
  ("j1", [1, 2, 0, -1, 0, 0, 1]),
  ("oo1", [1, 3, 0, 0, 0, 0, 1]),
  ("s1", [1, 1, -1, 0, 0, 0, 2]),
  ("rho1", [1, -2, 2, -1, 0, 0, -1])]

theorem base_eq : ∀ q ∈ base, table.lookup q.1 = some q.2 := by decide +kernel

theorem lookup_mem {α β : Type} [BEq α] [LawfulBEq α] : ∀ (t : List (α × β)) (c : α) (v : β),
    t.lookup c = some v → (c, v) ∈ t
  | [], _, _, h => by simp at h
  | (a, b) :: t, c, v, h => by
    rw [List.lookup_cons] at h
    by_cases hc : (c == a) = true
    · simp only [hc] at h
      rw [eq_of_beq hc]
      simp at h
      simp [h]
    · simp only [hc] at h
      exact List.mem_cons_of_mem _ (lookup_mem t c v h)

theorem sumRows_base : ∀ (l : List (ℤ × String)) (r : List ℤ), sumRows base l = some r →
    sumRows table l = some r
  | [], r, h => h
  | (m, c) :: l, r, h => by
    unfold sumRows at h ⊢
    cases h1 : base.lookup c with
    | none => simp [h1] at h
    | some v =>
      rw [base_eq _ (lookup_mem _ _ _ h1)]
      cases h2 : sumRows base l with
      | none => simp [h1, h2] at h
      | some w =>
        rw [sumRows_base l w h2]
        simpa [h1, h2] using h

/-- The same, as a test. -/
def same (a b : List ℤ) : Bool :=
  a.length == 7 && b.length == 7 && a.take 6 == b.take 6 &&
    match a[6]?, b[6]? with
    | some x, some y => (x - y) % 4 == 0
    | _, _ => false

theorem same_iff (a b : List ℤ) : same a b = true ↔ SameArgument a b := by
  unfold same SameArgument
  simp only [Bool.and_eq_true, beq_iff_eq, and_assoc]
  cases a[6]? <;> cases b[6]? <;> simp

/-- The check on one row of the table. -/
def rowOk (q : String × List ℤ) : Bool :=
  match (Spec.compounds ++ Spec.moreCompounds).lookup q.1 with
  | none => true
  | some dec => wrong.contains q.1 || match sumRows base dec with
    | some s => same q.2 s
    | none => false

theorem table_ok : ∀ q ∈ table, rowOk q = true := by decide +kernel

theorem compounds_nodup : ((Spec.compounds ++ Spec.moreCompounds).map Prod.fst).Nodup := by
  decide +kernel

theorem lookup_of_mem {β : Type} : ∀ (t : List (String × β)) (c : String) (v : β),
    (t.map Prod.fst).Nodup → (c, v) ∈ t → t.lookup c = some v
  | [], _, _, _, h => by simp at h
  | (a, b) :: t, c, v, hn, h => by
    rw [List.map_cons, List.nodup_cons] at hn
    rw [List.lookup_cons]
    rcases List.mem_cons.mp h with e | e
    · obtain ⟨rfl, rfl⟩ := Prod.mk.inj e
      simp
    · have : c ≠ a := by
        rintro rfl
        exact hn.1 (List.mem_map.mpr ⟨_, e, rfl⟩)
      have hb : (c == a) = false := by simpa using this
      simp only [hb]
      exact lookup_of_mem t c v hn.2 e

/-- C50 (partial): for each compound tide (314 of them) that is in the table, the tabulated
coefficients give the same argument as the sum of those of its parents.  Eight entries break the
rule (`C50_sum_false`). -/
theorem C50_sum_partial (c : String) (dec : List (ℤ × String)) (row : List ℤ)
    (h : (c, dec) ∈ Spec.compounds ++ Spec.moreCompounds) (hw : c ∉ wrong)
    (hr : table.lookup c = some row) :
    ∃ s, sumRows table dec = some s ∧ SameArgument row s := by
  have hok := table_ok (c, row) (lookup_mem _ _ _ hr)
  unfold rowOk at hok
  rw [lookup_of_mem _ c dec compounds_nodup h] at hok
  have hwf : wrong.contains c = false := by simpa using hw
  simp only [hwf, Bool.false_or] at hok
  cases hs : sumRows base dec with
  | none => simp [hs] at hok
  | some s =>
    simp only [hs] at hok
    exact ⟨s, sumRows_base dec s hs, (same_iff row s).mp hok⟩

example : ("2mk3", [(2, "m2"), (-1, "k1")]) ∈ Spec.compounds ∧ "2mk3" ∉ wrong ∧
    (table.lookup "2mk3").isSome := by decide +kernel

/-- C50 fails for eight entries: their coefficients are not the sum of those of the parents. -/
theorem C50_sum_false : ∀ c ∈ wrong, ∃ dec row s,
    (c, dec) ∈ Spec.compounds ++ Spec.moreCompounds ∧ table.lookup c = some row ∧
    sumRows table dec = some s ∧ ¬ SameArgument row s := by
  have h : ∀ c ∈ wrong, ((Spec.compounds ++ Spec.moreCompounds).lookup c >>= fun dec =>
      table.lookup c >>= fun row => (sumRows base dec).map fun s => same row s) = some false := by
    decide +kernel
  intro c hc
  have h := h c hc
  cases h1 : (Spec.compounds ++ Spec.moreCompounds).lookup c with
  | none => simp [h1] at h
  | some dec =>
    cases h2 : table.lookup c with
    | none => simp [h1, h2] at h
    | some row =>
      cases h3 : sumRows base dec with
      | none => simp [h1, h2, h3] at h
      | some s =>
        simp only [h1, h2, h3, Option.map_some, Option.bind_eq_bind, Option.bind_some,
          Option.some.injEq] at h
        refine ⟨dec, row, s, lookup_mem _ _ _ h1, rfl, sumRows_base _ _ h3, ?_⟩
        rw [← same_iff]; simp [h]

/-- The groups of names with the same argument: alternative spellings of one tide, and compound
tides that fall on an astronomical tide or on each other. -/
def synonyms : List (List String) := [
  ["node", "omega0"],
  ["msfb", "mfa"],
  ["mf+", "mfn"],
  ["mt", "mtm"],
  ["o1n", "o1-"],
  ["mp1", "tau1"],
  ["m1a", "no1"],
  ["pi1", "tk1"],
  ["k1+", "k1n"],
  ["phi1", "kp1"],
  ["the1", "theta1"],
  ["mq1", "j1"],
  ["ups1", "kq1"],
  ["2jo1", "kjq1"],
  ["3m(sk)2", "3mks2"],
  ["eps2", "mns2"],
  ["2n2", "2nm2"],
  ["2ms2", "mu2"],
  ["nsk2", "snk2"],
  ["nu2", "mmun2", "3m(sn)2"],
  ["msk2", "m2-2"],
  ["gamma2", "gam2"],
  ["alp2", "alpha2"],
  ["m2-1", "ma2"],
  ["m2", "ko2"],
  ["mb2", "m2+1"],
  ["m2b", "beta2"],
  ["delta2", "m2+2", "mks2"],
  ["2snmk2", "2sn(mk)2"],
  ["l2", "l2a"],
  ["nkm2", "l2b"],
  ["2sk2", "s2-2"],
  ["kp2", "s2r", "s2"],
  ["s2+2", "k2"],
  ["eta2", "mkn2"],
  ["2kmsn2", "2km(sn)2"],
  ["2snu2", "3(sm)n2"],
  ["mq3", "no3"],
  ["mo3", "2mk3"],
  ["2no3", "2nkm3"],
  ["2oj3", "2mm3"],
  ["mp3", "so3"],
  ["f3", "j3"],
  ["4ms4", "4m2s4"],
  ["2mns4", "2mnus4"],
  ["2r4", "sk4"],
  ["mno5", "2mq5"],
  ["mso5", "2mp5"],
  ["2nm6", "m2n6"],
  ["2mlns6", "2mnls6"],
  ["2mn6", "2mnu6", "2mno6"],
  ["mnk6", "mkn6"],
  ["2r6", "2sk6"],
  ["4mk7", "3mo7"],
  ["3mp7", "2mso7"],
  ["2mn8", "2(mn)8"],
  ["3mn8", "3mnu8"],
  ["2(mn)k9", "2m2nk9"],
  ["4msn12", "4mns12"]]

/-- A number that is the same for rows with the same argument. -/
def code (a : List ℤ) : ℤ :=
  (a.take 6).foldl (fun x y => 32 * x + (y + 15)) 0 * 4 + (a[6]?.getD 0) % 4

theorem code_eq {a b : List ℤ} (h : SameArgument a b) : code a = code b := by
  obtain ⟨_, _, h6, x, y, hx, hy, hxy⟩ := h
  unfold code
  rw [h6, hx, hy]
  simp only [Option.getD_some]
  omega

/-- The names with their codes. -/
def codes : List (String × ℤ) := table.map fun q => (q.1, code q.2)

/-- Names with equal codes are listed as synonyms, for all pairs in order. -/
def pairsOk : List (String × ℤ) → Bool
  | [] => true
  | q :: l => (l.all fun r => q.2 != r.2 ||
      synonyms.any fun g => g.contains q.1 && g.contains r.1) && pairsOk l

theorem codes_ok : pairsOk codes = true := by decide +kernel

theorem pairsOk_spec : ∀ l, pairsOk l = true → ∀ q ∈ l, ∀ r ∈ l, q.2 = r.2 →
    q = r ∨ ∃ g ∈ synonyms, q.1 ∈ g ∧ r.1 ∈ g
  | [], _, _, hq, _, _, _ => by simp at hq
  | a :: l, h, q, hq, r, hr, he => by
    unfold pairsOk at h
    simp only [Bool.and_eq_true, List.all_eq_true] at h
    have key : ∀ x ∈ l, a.2 = x.2 → ∃ g ∈ synonyms, a.1 ∈ g ∧ x.1 ∈ g := by
      intro x hx hax
      have := h.1 x hx
      simpa [hax] using this
    rcases List.mem_cons.mp hq with rfl | hq'
    · rcases List.mem_cons.mp hr with rfl | hr'
      · exact Or.inl rfl
      · exact Or.inr (key r hr' he)
    · rcases List.mem_cons.mp hr with rfl | hr'
      · obtain ⟨g, hg, h1, h2⟩ := key q hq' he.symm
        exact Or.inr ⟨g, hg, h2, h1⟩
      · exact pairsOk_spec l h.2 q hq' r hr' he

/-- C50: two constituents of the table with the same argument (equal coefficients, up to whole
turns) are the same name or listed as synonyms. -/
theorem C50_synonyms (c d : String) (a b : List ℤ) (hc : table.lookup c = some a)
    (hd : table.lookup d = some b) (h : SameArgument a b) :
    c = d ∨ ∃ g ∈ synonyms, c ∈ g ∧ d ∈ g := by
  have h1 : (c, code a) ∈ codes := List.mem_map.mpr ⟨(c, a), lookup_mem _ _ _ hc, rfl⟩
  have h2 : (d, code b) ∈ codes := List.mem_map.mpr ⟨(d, b), lookup_mem _ _ _ hd, rfl⟩
  rcases pairsOk_spec codes codes_ok _ h1 _ h2 (code_eq h) with e | e
  · exact Or.inl (congrArg Prod.fst e)
  · exact Or.inr e

example : table.lookup "mp1" = some [1, -1, 2, 0, 0, 0, 1] ∧
    table.lookup "tau1" = some [1, -1, 2, 0, 0, 0, 1] := by decide +kernel

/-- C50: the listed synonyms do have the same argument. -/
theorem C50_synonyms_same : ∀ g ∈ synonyms, ∀ c ∈ g, ∀ d ∈ g, ∃ a b, table.lookup c = some a ∧
    table.lookup d = some b ∧ SameArgument a b := by
  have h : ∀ g ∈ synonyms, ∀ c ∈ g, ∀ d ∈ g, (table.lookup c >>= fun a =>
      (table.lookup d).map fun b => same a b) = some true := by
    decide +kernel
  intro g hg c hc d hd
  have h := h g hg c hc d hd
  cases h1 : table.lookup c with
  | none => simp [h1] at h
  | some a =>
    cases h2 : table.lookup d with
    | none => simp [h1, h2] at h
    | some b =>
      simp only [h1, h2, Option.map_some, Option.bind_eq_bind, Option.bind_some,
        Option.some.injEq] at h
      exact ⟨a, b, rfl, rfl, (same_iff a b).mp h⟩

end Verif.Coef
