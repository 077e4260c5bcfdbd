import Verif.Model.Ascii
import Verif.Spec.Ascii
import Verif.Lemmas.Py
import Mathlib.Tactic.Linarith
import Mathlib.Tactic.Ring
import Mathlib.Tactic.FieldSimp
/-!
C46: grids in ascii files are read completely and in order.
-/
namespace Verif.Ascii
open Verif

variable {R : Type}

theorem assign_eq {width : Nat} {values : List R} (h : values.length = width) :
    assign width values = .ok values := by
  unfold assign
  rw [if_pos h]

theorem line_eq {lines : List (List R)} {l : Nat} {t : List R} (h : lines[l]? = some t) :
    line lines l = .ok t := by rw [line, h]

theorem wrapped_get {w : Nat} (hw : 0 < w) (k : Nat) (r : List R) (hk : k * w < r.length) :
    (Spec.Ascii.wrapped w r)[k]? = some ((r.drop (k * w)).take w) := by
  induction k generalizing r with
  | zero =>
    have hr : r ≠ [] := by rintro rfl; simp at hk
    rw [Spec.Ascii.wrapped, dif_neg (by simp [hr]; omega)]
    simp
  | succ k ih =>
    have e : (k + 1) * w = w + k * w := by ring
    have hr : r ≠ [] := by rintro rfl; simp at hk
    rw [Spec.Ascii.wrapped, dif_neg (by simp [hr]; omega), List.getElem?_cons_succ,
      ih _ (by rw [List.length_drop]; omega), List.drop_drop, e]

theorem wrapped_length {w : Nat} (hw : 0 < w) (n : Nat) (r : List R)
    (h1 : n * w < r.length) (h2 : r.length ≤ (n + 1) * w) :
    (Spec.Ascii.wrapped w r).length = n + 1 := by
  induction n generalizing r with
  | zero =>
    have hr : r ≠ [] := by rintro rfl; simp at h1
    rw [Spec.Ascii.wrapped, dif_neg (by simp [hr]; omega), Spec.Ascii.wrapped, dif_pos]
    · rfl
    · exact Or.inr (List.drop_eq_nil_of_le (by omega))
  | succ k ih =>
    have e : (k + 1) * w = w + k * w := by ring
    have e' : (k + 1 + 1) * w = w + (k + 1) * w := by ring
    have hr : r ≠ [] := by rintro rfl; simp at h1
    rw [Spec.Ascii.wrapped, dif_neg (by simp [hr]; omega), List.length_cons, ih]
    · rw [List.length_drop]; omega
    · rw [List.length_drop]; omega

theorem blocks_eq {lines : List (List R)} {step w : Nat} (n : Nat) (r : List R) (l : Nat)
    (hr : n * w ≤ r.length)
    (h : ∀ k < n, lines[l + step * k]? = some ((r.drop (k * w)).take w)) :
    blocks lines step w n l = .ok (r.take (n * w)) := by
  induction n generalizing r l with
  | zero => simp [blocks]
  | succ n ih =>
    have e : (n + 1) * w = w + n * w := by ring
    have h0 := h 0 (by omega)
    rw [Nat.mul_zero, Nat.add_zero, Nat.zero_mul, List.drop_zero] at h0
    rw [blocks, line_eq h0, ok_bind, assign_eq (by rw [List.length_take]; omega), ok_bind,
      ih (r.drop w) (l + step), ok_bind, e, List.take_add]
    · rw [List.length_drop]; omega
    · intro k hk
      have := h (k + 1) (by omega)
      rw [List.drop_drop, ← show (k + 1) * w = w + k * w by ring, ← this]
      congr 1
      ring

theorem div_bounds {w nlon : Nat} (hw : 0 < w) (hm : nlon % w ≠ 0) :
    nlon / w * w < nlon ∧ nlon < (nlon / w + 1) * w ∧ nlon - nlon / w * w = nlon % w := by
  have := Nat.div_add_mod nlon w
  have h2 := Nat.mod_lt nlon hw
  have e : (nlon / w + 1) * w = w * (nlon / w) + w := by ring
  have e' : nlon / w * w = w * (nlon / w) := by ring
  omega

theorem row_eq {lines : List (List R)} {step w nlon : Nat} (r : List R) (l : Nat)
    (hr : r.length = nlon) (hw : 0 < w) (hn : w ≤ nlon) (hm : nlon % w ≠ 0)
    (h : ∀ k ≤ nlon / w, lines[l + step * k]? = some ((r.drop (k * w)).take w)) :
    row lines step w nlon l = .ok r := by
  obtain ⟨b1, b2, b3⟩ := div_bounds hw hm
  have hpos : nlon / w ≠ 0 := by
    have := Nat.div_pos hn hw
    omega
  have e : (nlon / w + 1) * w = nlon / w * w + w := by ring
  rw [row, blocks_eq (nlon / w) r l (by omega) (fun k hk => h k (by omega)), ok_bind, if_neg hpos,
    line_eq (h _ (le_refl _)), ok_bind, assign_eq, ok_bind, List.take_of_length_le (l := r.drop _)]
  · rw [List.take_append_drop]
  · rw [List.length_drop]; omega
  · rw [List.length_take, List.length_drop]; omega

theorem rows_eq {lines : List (List R)} {step w nlon : Nat} (hw : 0 < w) (hn : w ≤ nlon)
    (hm : nlon % w ≠ 0) (g : List (List R)) (l : Nat) (hg : ∀ r ∈ g, r.length = nlon)
    (h : ∀ i r, g[i]? = some r → ∀ k ≤ nlon / w,
      lines[l + step * (i * (nlon / w + 1) + k)]? = some ((r.drop (k * w)).take w)) :
    rows lines step w nlon g.length l = .ok g := by
  induction g generalizing l with
  | nil => rfl
  | cons r g ih =>
    have h0 := h 0 r rfl
    simp only [Nat.zero_mul, Nat.zero_add] at h0
    rw [List.length_cons, rows, row_eq r l (hg r (by simp)) hw hn hm h0, ok_bind, ih, ok_bind]
    · exact fun r hr => hg r (by simp [hr])
    · intro i r' hr k hk
      rw [← h (i + 1) r' (by rw [List.getElem?_cons_succ]; exact hr) k hk]
      congr 1
      ring

theorem flatten_get {m : Nat} (g : List (List (List R))) (hg : ∀ r ∈ g, r.length = m) (i k : Nat)
    (hk : k < m) (b : List (List R)) (hb : g[i]? = some b) : g.flatten[i * m + k]? = b[k]? := by
  induction g generalizing i with
  | nil => simp at hb
  | cons a g ih =>
    have ha := hg a (by simp)
    cases i with
    | zero =>
      simp only [List.getElem?_cons_zero, Option.some.injEq] at hb
      subst hb
      rw [List.flatten_cons, Nat.zero_mul, Nat.zero_add, List.getElem?_append_left (by omega)]
    | succ i =>
      rw [List.getElem?_cons_succ] at hb
      rw [List.flatten_cons, List.getElem?_append_right (by rw [ha, Nat.succ_mul]; omega),
        ← ih (fun r hr => hg r (by simp [hr])) i hb]
      congr 1
      rw [ha, Nat.succ_mul]
      omega

theorem flatten_length {m : Nat} (g : List (List (List R))) (hg : ∀ r ∈ g, r.length = m) :
    g.flatten.length = g.length * m := by
  induction g with
  | nil => simp
  | cons a g ih =>
    rw [List.flatten_cons, List.length_append, hg a (by simp), ih (fun r hr => hg r (by simp [hr])),
      List.length_cons]
    ring

theorem inTurn_length (a b : List (List R)) (h : a.length = b.length) :
    (Spec.Ascii.inTurn a b).length = 2 * a.length := by
  induction a generalizing b with
  | nil => simp [Spec.Ascii.inTurn]
  | cons x a ih =>
    cases b with
    | nil => simp at h
    | cons y b =>
      simp only [List.length_cons, Nat.add_right_cancel_iff] at h
      simp only [Spec.Ascii.inTurn, List.length_cons, ih b h]
      ring

theorem inTurn_get (a b : List (List R)) (h : a.length = b.length) (k : Nat) :
    (Spec.Ascii.inTurn a b)[2 * k]? = a[k]? ∧ (Spec.Ascii.inTurn a b)[2 * k + 1]? = b[k]? := by
  induction a generalizing b k with
  | nil =>
    cases b with
    | nil => simp [Spec.Ascii.inTurn]
    | cons y b => simp at h
  | cons x a ih =>
    cases b with
    | nil => simp at h
    | cons y b =>
      simp only [List.length_cons, Nat.add_right_cancel_iff] at h
      cases k with
      | zero => simp [Spec.Ascii.inTurn]
      | succ k =>
        have e : 2 * (k + 1) = 2 * k + 1 + 1 := by ring
        rw [e]
        simp only [Spec.Ascii.inTurn, List.getElem?_cons_succ]
        exact ih b h k

theorem assign_long {width : Nat} {values : List R} (h : values.length ≠ 1)
    (hw : values.length ≠ width) : assign width values = .error .valueError := by
  unfold assign
  rw [if_neg hw]
  match values, h with
  | [], _ => rfl
  | [_], h => exact absurd rfl h
  | _ :: _ :: _, _ => rfl

theorem bind_ok' {α β : Type} {x : Except PyErr α} {f : α → Except PyErr β} {b : β}
    (h : (x >>= f) = .ok b) : ∃ a, x = .ok a ∧ f a = .ok b := by
  cases x with
  | error e => exact absurd h (by simp [bind, Except.bind])
  | ok a => exact ⟨a, rfl, h⟩

theorem assign_shape {width : Nat} {values a : List R} (h : assign width values = .ok a) :
    a.length = width := by
  unfold assign at h
  split at h
  · cases h
    assumption
  · split at h
    · cases h
      simp
    · cases h

theorem blocks_shape {lines : List (List R)} {step w : Nat} (n l : Nat) (a : List R)
    (h : blocks lines step w n l = .ok a) : a.length = n * w := by
  induction n generalizing l a with
  | zero =>
    cases h
    simp
  | succ n ih =>
    obtain ⟨t, -, h⟩ := bind_ok' h
    obtain ⟨x, e, h⟩ := bind_ok' h
    obtain ⟨y, e', h⟩ := bind_ok' h
    cases h
    rw [List.length_append, assign_shape e, ih _ _ e']
    ring

theorem row_shape {lines : List (List R)} {step w nlon : Nat} (l : Nat) (a : List R)
    (h : row lines step w nlon l = .ok a) : a.length = nlon := by
  obtain ⟨t, e, h⟩ := bind_ok' h
  split at h
  · cases h
  · obtain ⟨x, -, h⟩ := bind_ok' h
    obtain ⟨y, e', h⟩ := bind_ok' h
    cases h
    rw [List.length_append, assign_shape e', blocks_shape _ _ _ e]
    have := Nat.div_add_mod nlon w
    rw [Nat.mul_comm]
    exact this

theorem row_short {lines : List (List R)} {step w nlon l : Nat} {a : List R}
    (hs : lines.length ≤ l + step * (nlon / w)) (h : row lines step w nlon l = .ok a) : False := by
  obtain ⟨t, e, h⟩ := bind_ok' h
  split at h
  · cases h
  · obtain ⟨x, hx, h⟩ := bind_ok' h
    rw [line, List.getElem?_eq_none hs] at hx
    cases hx

theorem rows_shape {lines : List (List R)} {step w nlon : Nat} (n l : Nat) (g : List (List R))
    (h : rows lines step w nlon n l = .ok g) : g.length = n ∧ ∀ r ∈ g, r.length = nlon := by
  induction n generalizing l g with
  | zero =>
    cases h
    simp
  | succ n ih =>
    obtain ⟨r, e, h⟩ := bind_ok' h
    obtain ⟨y, e', h⟩ := bind_ok' h
    cases h
    obtain ⟨i1, i2⟩ := ih _ _ e'
    refine ⟨by simp [i1], fun s hs => ?_⟩
    rcases List.mem_cons.1 hs with rfl | hs
    · exact row_shape _ _ e
    · exact i2 s hs

/-- GOT files: amplitudes and phases of every cell are read, for every number of rows and every
number of columns above eleven that is not a multiple of eleven. -/
theorem C46_got_partial (header header2 amp ph : List (List R)) (nlat nlon : Nat)
    (h1 : header.length = 7) (h2 : header2.length = 7)
    (ha : amp.length = nlat) (hp : ph.length = nlat)
    (ra : ∀ r ∈ amp, r.length = nlon) (rp : ∀ r ∈ ph, r.length = nlon)
    (hn : 11 ≤ nlon) (hm : nlon % 11 ≠ 0) :
    readGOT (Spec.Ascii.gotFile header header2 amp ph) nlat nlon = .ok (amp, ph) := by
  obtain ⟨b1, b2, _⟩ := div_bounds (w := 11) (by norm_num) hm
  have wl : ∀ g : List (List R), (∀ r ∈ g, r.length = nlon) →
      ∀ b ∈ g.map (Spec.Ascii.wrapped 11), b.length = nlon / 11 + 1 := by
    intro g hg b hb
    obtain ⟨r, hr, rfl⟩ := List.mem_map.1 hb
    exact wrapped_length (by norm_num) _ r (by rw [hg r hr]; exact b1) (by rw [hg r hr]; omega)
  have fg : ∀ g : List (List R), (∀ r ∈ g, r.length = nlon) → ∀ i r, g[i]? = some r →
      ∀ k ≤ nlon / 11, (g.map (Spec.Ascii.wrapped 11)).flatten[i * (nlon / 11 + 1) + k]? =
        some ((r.drop (k * 11)).take 11) := by
    intro g hg i r hr k hk
    rw [flatten_get _ (wl g hg) i k (by omega) (Spec.Ascii.wrapped 11 r) (by simp [hr]),
      wrapped_get (by norm_num)]
    rw [hg r (List.mem_of_getElem? hr)]
    omega
  have la := flatten_length _ (wl amp ra)
  rw [List.length_map, ha] at la
  have ea : rows (Spec.Ascii.gotFile header header2 amp ph) 1 11 nlon nlat 7 = .ok amp := by
    rw [← ha]
    refine rows_eq (by norm_num) hn hm amp 7 ra (fun i r hr k hk => ?_)
    have f := fg amp ra i r hr k hk
    obtain ⟨hlt, -⟩ := List.getElem?_eq_some_iff.1 f
    rw [Spec.Ascii.gotFile, List.append_assoc, List.append_assoc, List.getElem?_append_right (by omega),
      List.getElem?_append_left (by omega), ← f]
    congr 1
    omega
  have ep : rows (Spec.Ascii.gotFile header header2 amp ph) 1 11 nlon nlat
      (14 + (nlon / 11) * nlat + nlat) = .ok ph := by
    obtain ⟨d, hd⟩ : ∃ d, d = (nlon / 11) * nlat + nlat := ⟨_, rfl⟩
    have hd' : nlat * (nlon / 11 + 1) = d := by rw [hd]; ring
    rw [hd'] at la
    rw [Nat.add_assoc, ← hd, ← hp]
    refine rows_eq (by norm_num) hn hm ph _ rp (fun i r hr k hk => ?_)
    have f := fg ph rp i r hr k hk
    rw [Spec.Ascii.gotFile, List.getElem?_append_right, ← f]
    · congr 1
      simp only [List.length_append, h1, h2, la]
      omega
    · simp only [List.length_append, h1, h2, la]
      omega
  rw [readGOT, ea, ok_bind, ep, ok_bind]

/-- FES files: the same with lines of thirty values. -/
theorem C46_fes_partial (header amp ph : List (List R)) (nlat nlon : Nat)
    (h1 : header.length = 5)
    (ha : amp.length = nlat) (hp : ph.length = nlat)
    (ra : ∀ r ∈ amp, r.length = nlon) (rp : ∀ r ∈ ph, r.length = nlon)
    (hn : 30 ≤ nlon) (hm : nlon % 30 ≠ 0) :
    readFES (Spec.Ascii.fesFile header amp ph) nlat nlon = .ok (amp, ph) := by
  obtain ⟨b1, b2, _⟩ := div_bounds (w := 30) (by norm_num) hm
  have wl : ∀ r : List R, r.length = nlon → (Spec.Ascii.wrapped 30 r).length = nlon / 30 + 1 :=
    fun r hr => wrapped_length (by norm_num) _ r (by rw [hr]; exact b1) (by rw [hr]; omega)
  obtain ⟨bs, hbs⟩ : ∃ bs, bs = List.zipWith
    (fun a p => Spec.Ascii.inTurn (Spec.Ascii.wrapped 30 a) (Spec.Ascii.wrapped 30 p)) amp ph := ⟨_, rfl⟩
  have bl : ∀ b ∈ bs, b.length = 2 * (nlon / 30 + 1) := by
    intro b hb
    rw [hbs] at hb
    obtain ⟨i, hi, rfl⟩ := List.getElem_of_mem hb
    rw [List.getElem_zipWith, inTurn_length, wl _ (ra _ (List.getElem_mem _))]
    rw [wl _ (ra _ (List.getElem_mem _)), wl _ (rp _ (List.getElem_mem _))]
  have key : ∀ i a p, amp[i]? = some a → ph[i]? = some p → ∀ k ≤ nlon / 30,
      (Spec.Ascii.fesFile header amp ph)[5 + 2 * (i * (nlon / 30 + 1) + k)]? =
        some ((a.drop (k * 30)).take 30) ∧
      (Spec.Ascii.fesFile header amp ph)[5 + 1 + 2 * (i * (nlon / 30 + 1) + k)]? =
        some ((p.drop (k * 30)).take 30) := by
    intro i a p hia hip k hk
    have la := ra a (List.mem_of_getElem? hia)
    have lp := rp p (List.mem_of_getElem? hip)
    have hb : bs[i]? = some (Spec.Ascii.inTurn (Spec.Ascii.wrapped 30 a) (Spec.Ascii.wrapped 30 p)) := by
      rw [hbs, List.getElem?_zipWith, hia, hip]
    obtain ⟨t1, t2⟩ := inTurn_get (Spec.Ascii.wrapped 30 a) (Spec.Ascii.wrapped 30 p)
      (by rw [wl a la, wl p lp]) k
    rw [wrapped_get (by norm_num) k a (by omega)] at t1
    rw [wrapped_get (by norm_num) k p (by omega)] at t2
    constructor
    · rw [Spec.Ascii.fesFile, ← hbs, List.getElem?_append_right (by omega), ← t1,
        ← flatten_get bs bl i (2 * k) (by omega) _ hb]
      congr 1
      rw [h1, show i * (2 * (nlon / 30 + 1)) = 2 * (i * (nlon / 30 + 1)) by ring]
      omega
    · rw [Spec.Ascii.fesFile, ← hbs, List.getElem?_append_right (by omega), ← t2,
        ← flatten_get bs bl i (2 * k + 1) (by omega) _ hb]
      congr 1
      rw [h1, show i * (2 * (nlon / 30 + 1)) = 2 * (i * (nlon / 30 + 1)) by ring]
      omega
  have ex : ∀ (g : List (List R)) (i : Nat), g.length = nlat → i < nlat → ∃ r, g[i]? = some r :=
    fun g i hg hi => ⟨g[i]'(by omega), List.getElem?_eq_getElem (by omega)⟩
  have ea : rows (Spec.Ascii.fesFile header amp ph) 2 30 nlon nlat 5 = .ok amp := by
    rw [← ha]
    refine rows_eq (by norm_num) hn hm amp 5 ra (fun i r hr k hk => ?_)
    obtain ⟨hlt, -⟩ := List.getElem?_eq_some_iff.1 hr
    obtain ⟨p, hp'⟩ := ex ph i hp (by omega)
    exact (key i r p hr hp' k hk).1
  have ep : rows (Spec.Ascii.fesFile header amp ph) 2 30 nlon nlat (5 + 1) = .ok ph := by
    rw [← hp]
    refine rows_eq (by norm_num) hn hm ph _ rp (fun i r hr k hk => ?_)
    obtain ⟨hlt, -⟩ := List.getElem?_eq_some_iff.1 hr
    obtain ⟨a, ha'⟩ := ex amp i ha (by omega)
    exact (key i a r ha' hr k hk).2
  rw [readFES, ea, ok_bind, ep, ok_bind]

/-- GOT: a grid whose number of columns is a multiple of eleven is not read. -/
theorem C46_got_multiple_false (header header2 ph : List (List R)) (r r' : List R)
    (amp : List (List R)) (nlat nlon : Nat) (h1 : header.length = 7)
    (ha : (r :: r' :: amp).length = nlat) (hr : r.length = nlon) (hr' : r'.length = nlon)
    (hn : 0 < nlon) (hm : nlon % 11 = 0) :
    readGOT (Spec.Ascii.gotFile header header2 (r :: r' :: amp) ph) nlat nlon =
      .error .valueError := by
  have dv := Nat.div_add_mod nlon 11
  have wl : (Spec.Ascii.wrapped 11 r).length = nlon / 11 := by
    obtain ⟨q, hq⟩ : ∃ q, nlon / 11 = q + 1 := ⟨nlon / 11 - 1, by omega⟩
    rw [hq]
    exact wrapped_length (by norm_num) q r (by omega) (by omega)
  have t0 := wrapped_get (w := 11) (by norm_num) 0 r' (by omega)
  have tk := fun k (hk : k < nlon / 11) => wrapped_get (w := 11) (by norm_num) k r (by omega)
  obtain ⟨f, hf⟩ : ∃ f, f = Spec.Ascii.gotFile header header2 (r :: r' :: amp) ph := ⟨_, rfl⟩
  have sh : f = header ++ (Spec.Ascii.wrapped 11 r ++ (Spec.Ascii.wrapped 11 r' ++
      ((amp.map (Spec.Ascii.wrapped 11)).flatten ++ header2 ++
        (ph.map (Spec.Ascii.wrapped 11)).flatten))) := by
    rw [hf]
    simp [Spec.Ascii.gotFile]
  have g1 : ∀ k < nlon / 11, f[7 + 1 * k]? = some ((r.drop (k * 11)).take 11) := by
    intro k hk
    rw [sh, List.getElem?_append_right (by omega), List.getElem?_append_left (by omega), ← tk k hk]
    congr 1
    omega
  have g2 : f[7 + 1 * (nlon / 11)]? = some (r'.take 11) := by
    have l0 : 0 < (Spec.Ascii.wrapped 11 r').length := by
      by_contra hc
      rw [List.getElem?_eq_none (by omega)] at t0
      exact absurd t0 (by simp)
    rw [sh, List.getElem?_append_right (by omega), List.getElem?_append_right (by omega),
      List.getElem?_append_left (by omega)]
    rw [Nat.zero_mul, List.drop_zero] at t0
    rw [← t0]
    congr 1
    omega
  have e : row f 1 11 nlon 7 = .error .valueError := by
    rw [row, blocks_eq (nlon / 11) r 7 (by omega) g1, ok_bind, if_neg (by omega), line_eq g2, ok_bind,
      hm, assign_long (by rw [List.length_take]; omega) (by rw [List.length_take]; omega)]
    rfl
  rw [readGOT, ← hf, ← ha, List.length_cons, rows, e]
  rfl

/-- FES: a grid whose number of columns is a multiple of thirty is not read. -/
theorem C46_fes_multiple_false (header : List (List R)) (r r' p p' : List R)
    (amp ph : List (List R)) (nlat nlon : Nat) (h1 : header.length = 5)
    (ha : (r :: r' :: amp).length = nlat) (hr : r.length = nlon) (hr' : r'.length = nlon)
    (hp : p.length = nlon) (hp' : p'.length = nlon)
    (hn : 0 < nlon) (hm : nlon % 30 = 0) :
    readFES (Spec.Ascii.fesFile header (r :: r' :: amp) (p :: p' :: ph)) nlat nlon =
      .error .valueError := by
  have dv := Nat.div_add_mod nlon 30
  obtain ⟨q, hq⟩ : ∃ q, nlon / 30 = q + 1 := ⟨nlon / 30 - 1, by omega⟩
  have wl : ∀ s : List R, s.length = nlon → (Spec.Ascii.wrapped 30 s).length = nlon / 30 := by
    intro s hs
    rw [hq]
    exact wrapped_length (by norm_num) q s (by omega) (by omega)
  have tk := fun k (hk : k < nlon / 30) => wrapped_get (w := 30) (by norm_num) k r (by omega)
  have t0 := wrapped_get (w := 30) (by norm_num) 0 r' (by omega)
  rw [Nat.zero_mul, List.drop_zero] at t0
  obtain ⟨f, hf⟩ : ∃ f, f = Spec.Ascii.fesFile header (r :: r' :: amp) (p :: p' :: ph) := ⟨_, rfl⟩
  obtain ⟨A, hA⟩ : ∃ A, A = Spec.Ascii.inTurn (Spec.Ascii.wrapped 30 r) (Spec.Ascii.wrapped 30 p) :=
    ⟨_, rfl⟩
  obtain ⟨B, hB⟩ : ∃ B, B = Spec.Ascii.inTurn (Spec.Ascii.wrapped 30 r') (Spec.Ascii.wrapped 30 p') :=
    ⟨_, rfl⟩
  have sh : ∃ C, f = header ++ (A ++ (B ++ C)) := ⟨_, by rw [hf, hA, hB]; rfl⟩
  obtain ⟨C, sh⟩ := sh
  have lA : A.length = 2 * (nlon / 30) := by
    rw [hA, inTurn_length _ _ (by rw [wl r hr, wl p hp]), wl r hr]
  have lB : B.length = 2 * (nlon / 30) := by
    rw [hB, inTurn_length _ _ (by rw [wl r' hr', wl p' hp']), wl r' hr']
  have g1 : ∀ k < nlon / 30, f[5 + 2 * k]? = some ((r.drop (k * 30)).take 30) := by
    intro k hk
    rw [sh, List.getElem?_append_right (by omega), List.getElem?_append_left (by omega), ← tk k hk,
      ← (inTurn_get (Spec.Ascii.wrapped 30 r) (Spec.Ascii.wrapped 30 p) (by rw [wl r hr, wl p hp]) k).1,
      hA]
    congr 1
    omega
  have g2 : f[5 + 2 * (nlon / 30)]? = some (r'.take 30) := by
    rw [sh, List.getElem?_append_right (by omega), List.getElem?_append_right (by omega),
      List.getElem?_append_left (by omega), ← t0,
      ← (inTurn_get (Spec.Ascii.wrapped 30 r') (Spec.Ascii.wrapped 30 p')
        (by rw [wl r' hr', wl p' hp']) 0).1, hB]
    congr 1
    omega
  have e : row f 2 30 nlon 5 = .error .valueError := by
    rw [row, blocks_eq (nlon / 30) r 5 (by omega) g1, ok_bind, if_neg (by omega), line_eq g2, ok_bind,
      hm, assign_long (by rw [List.length_take]; omega) (by rw [List.length_take]; omega)]
    rfl
  rw [readFES, ← hf, ← ha, List.length_cons, rows, e]
  rfl

/-- Grids with fewer columns than a line holds are never read, whatever the file. -/
theorem C46_narrow_false (lines : List (List R)) (nlat nlon : Nat) (h : 0 < nlat) :
    (nlon < 11 → readGOT lines nlat nlon = .error .unbound) ∧
    (nlon < 30 → readFES lines nlat nlon = .error .unbound) := by
  obtain ⟨n, rfl⟩ : ∃ n, nlat = n + 1 := ⟨nlat - 1, by omega⟩
  constructor
  · intro hn
    have e : nlon / 11 = 0 := Nat.div_eq_of_lt hn
    rw [readGOT, rows, row, e, blocks, ok_bind, if_pos rfl]
    rfl
  · intro hn
    have e : nlon / 30 = 0 := Nat.div_eq_of_lt hn
    rw [readFES, rows, row, e, blocks, ok_bind, if_pos rfl]
    rfl

/-- Whatever the file holds, a grid that is read has all its rows and columns. -/
theorem C46_shape (lines : List (List R)) (nlat nlon : Nat) (amp ph : List (List R))
    (h : readGOT lines nlat nlon = .ok (amp, ph) ∨ readFES lines nlat nlon = .ok (amp, ph)) :
    amp.length = nlat ∧ ph.length = nlat ∧ (∀ r ∈ amp, r.length = nlon) ∧
      ∀ r ∈ ph, r.length = nlon := by
  rcases h with h | h
  · obtain ⟨a, e1, h⟩ := bind_ok' h
    obtain ⟨p, e2, h⟩ := bind_ok' h
    cases h
    exact ⟨(rows_shape _ _ _ e1).1, (rows_shape _ _ _ e2).1, (rows_shape _ _ _ e1).2,
      (rows_shape _ _ _ e2).2⟩
  · obtain ⟨a, e1, h⟩ := bind_ok' h
    obtain ⟨p, e2, h⟩ := bind_ok' h
    cases h
    exact ⟨(rows_shape _ _ _ e1).1, (rows_shape _ _ _ e2).1, (rows_shape _ _ _ e1).2,
      (rows_shape _ _ _ e2).2⟩

/-- A file that ends before the line in which a row of amplitudes ends is an error. -/
theorem C46_short (lines : List (List R)) (nlat nlon : Nat) (hl : 0 < nlat) :
    (lines.length ≤ 7 + nlon / 11 → ∀ r, readGOT lines nlat nlon ≠ .ok r) ∧
    (lines.length ≤ 5 + 2 * (nlon / 30) → ∀ r, readFES lines nlat nlon ≠ .ok r) := by
  obtain ⟨n, rfl⟩ : ∃ n, nlat = n + 1 := ⟨nlat - 1, by omega⟩
  constructor
  · intro hs r h
    obtain ⟨a, e1, -⟩ := bind_ok' h
    obtain ⟨x, e2, -⟩ := bind_ok' e1
    exact row_short (by omega) e2
  · intro hs r h
    obtain ⟨a, e1, -⟩ := bind_ok' h
    obtain ⟨x, e2, -⟩ := bind_ok' e1
    exact row_short (by omega) e2

/-- A cell is without data when its amplitude or its phase is the value of the header, and is
otherwise the amplitude with the phase as a lag in degrees. -/
theorem C46_cell (fill a p : ℝ) :
    (cell fill a p = none ↔ a = fill ∨ p = fill) ∧
    ∀ z, cell fill a p = some z →
      z.re = a * Real.cos (p * Real.pi / 180) ∧ z.im = -(a * Real.sin (p * Real.pi / 180)) := by
  unfold cell
  constructor
  · split <;> simp_all
  · intro z hz
    split at hz
    · simp at hz
    · cases hz
      have e : -Complex.I * (p : ℂ) * (Real.pi : ℂ) / 180 =
          ((-(p * Real.pi / 180) : ℝ) : ℂ) * Complex.I := by
        push_cast
        ring
      rw [e, Complex.re_ofReal_mul, Complex.im_ofReal_mul, Complex.exp_ofReal_mul_I_re,
        Complex.exp_ofReal_mul_I_im, Real.cos_neg, Real.sin_neg, mul_neg]
      exact ⟨rfl, rfl⟩

/-- The axes: as many values as the grid has rows or columns, equally spaced between the ends. -/
theorem C46_axis (a b : ℝ) (n : Nat) :
    (linspace a b n).length = n ∧
    (0 < n → (linspace a b n)[0]? = some a) ∧
    (1 < n → (linspace a b n)[n - 1]? = some b) ∧
    ∀ i x y, (linspace a b n)[i]? = some x → (linspace a b n)[i + 1]? = some y →
      y - x = (b - a) / (n - 1) := by
  have g : ∀ i < n, (linspace a b n)[i]? =
      some (if n = 1 then a else a + i * ((b - a) / (n - 1))) := by
    intro i hi
    simp [linspace, hi]
  refine ⟨by simp [linspace], fun h => ?_, fun h => ?_, fun i x y hx hy => ?_⟩
  · rw [g 0 h]
    simp
  · rw [g _ (by omega), if_neg (by omega), Nat.cast_sub (by omega)]
    have : (n : ℝ) - 1 ≠ 0 := by
      have : (1 : ℝ) < n := by exact_mod_cast h
      linarith
    congr 1
    push_cast
    field_simp
    ring
  · have hi : i + 1 < n := by
      have := (List.getElem?_eq_some_iff.1 hy).1
      simpa [linspace] using this
    rw [g _ (by omega), if_neg (by omega)] at hx
    rw [g _ hi, if_neg (by omega)] at hy
    cases hx
    cases hy
    push_cast
    ring

/-- The whole of a GOT file: values, missing cells and axes. -/
theorem C46_got_file_partial (h : Header ℝ) (header header2 amp ph : List (List ℝ))
    (h1 : header.length = 7) (h2 : header2.length = 7)
    (ha : amp.length = h.nlat) (hp : ph.length = h.nlat)
    (ra : ∀ r ∈ amp, r.length = h.nlon) (rp : ∀ r ∈ ph, r.length = h.nlon)
    (hn : 11 ≤ h.nlon) (hm : h.nlon % 11 ≠ 0) :
    gotFile h (Spec.Ascii.gotFile header header2 amp ph) =
      .ok ⟨List.zipWith (List.zipWith (cell h.fill)) amp ph,
        linspace h.lon0 h.lon1 h.nlon, linspace h.lat0 h.lat1 h.nlat⟩ := by
  rw [gotFile, C46_got_partial header header2 amp ph _ _ h1 h2 ha hp ra rp hn hm]
  rfl

/-- The whole of an FES file that is not compressed. -/
theorem C46_fes_file_partial (h : Header ℝ) (header amp ph : List (List ℝ))
    (h1 : header.length = 5) (ha : amp.length = h.nlat) (hp : ph.length = h.nlat)
    (ra : ∀ r ∈ amp, r.length = h.nlon) (rp : ∀ r ∈ ph, r.length = h.nlon)
    (hn : 30 ≤ h.nlon) (hm : h.nlon % 30 ≠ 0) :
    fesFile false h (Spec.Ascii.fesFile header amp ph) =
      .ok ⟨List.zipWith (List.zipWith (cell h.fill)) amp ph,
        linspace h.lon0 h.lon1 h.nlon, linspace h.lat0 h.lat1 h.nlat⟩ := by
  rw [fesFile, if_neg (by simp), C46_fes_partial header amp ph _ _ h1 ha hp ra rp hn hm]
  rfl

/-- A compressed FES file is never read. -/
theorem C46_compressed_false (h : Header ℝ) (lines : List (List ℝ)) :
    fesFile true h lines = .error .typeError := by
  rw [fesFile, if_pos rfl]

/-- The grids of the GOT models, with 720 columns, and of FES2004, with 2881, are of the sizes that
are read; a grid of 1440 columns is not for FES. -/
example : 11 ≤ 720 ∧ 720 % 11 ≠ 0 ∧ 30 ≤ 2881 ∧ 2881 % 30 ≠ 0 ∧ 1440 % 30 = 0 := by decide

end Verif.Ascii
