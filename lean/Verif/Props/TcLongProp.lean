import Verif.Spec.TcLongProp
import Mathlib.Algebra.BigOperators.Intervals
import Mathlib.Algebra.Order.Round
import Mathlib.Tactic.FieldSimp
import Mathlib.Tactic.Linarith
import Mathlib.Tactic.Ring

/-! C53-C59: the phase-diagram program. -/

namespace Qcd.tc

/-! ### C53 -/

theorem fctLoop_spec {F : Type} [FloatOrder F] (l : List (F × F)) (t0 d0 : F) :
    let r := fctLoop FloatOrder.gt (t0, d0) l
    let L := (t0, d0) :: l
    ∃ k, L[k]? = some r ∧
      (∀ (j : ℕ) (x : F × F), L[j]? = some x → FloatOrder.gt x.2 r.2 = false) ∧
      (∀ (j : ℕ) (x : F × F), j < k → L[j]? = some x →
        (j = 0 ∨ ¬ FloatOrder.isNaN x.2) → FloatOrder.gt r.2 x.2 = true) := by
  induction l generalizing t0 d0 with
  | nil =>
    refine ⟨0, rfl, ?_, by intro j x h; omega⟩
    intro j x h
    cases j with
    | zero =>
      simp at h; subst h
      exact FloatOrder.irrefl _
    | succ j => simp at h
  | cons td l ih =>
    obtain ⟨t, d⟩ := td
    by_cases hg : FloatOrder.gt d d0 = true
    · obtain ⟨k, h1, h2, h3⟩ := ih t d
      have hr : fctLoop FloatOrder.gt (t0, d0) ((t, d) :: l) = fctLoop FloatOrder.gt (t, d) l := by
        simp [fctLoop, hg]
      simp only [hr]
      have hd0 : FloatOrder.gt (fctLoop FloatOrder.gt (t, d) l).2 d0 = true := by
        cases k with
        | zero => simp at h1; rw [← h1]; exact hg
        | succ k =>
          exact FloatOrder.trans _ _ _ (h3 0 (t, d) (by omega) rfl (Or.inl rfl)) hg
      refine ⟨k + 1, by simpa using h1, ?_, ?_⟩
      · intro j x hx
        cases j with
        | zero =>
          simp at hx; subst hx
          by_contra hc
          simp only [Bool.not_eq_false] at hc
          have := FloatOrder.trans _ _ _ hc hd0
          simp [FloatOrder.irrefl] at this
        | succ j => exact h2 j x (by simpa using hx)
      · intro j x hj hx hn
        cases j with
        | zero => simp at hx; subst hx; exact hd0
        | succ j =>
          refine h3 j x (by omega) (by simpa using hx) ?_
          rcases hn with hn | hn
          · omega
          · exact Or.inr hn
    · obtain ⟨k, h1, h2, h3⟩ := ih t0 d0
      have hg' : FloatOrder.gt d d0 = false := by simpa using hg
      have hr : fctLoop FloatOrder.gt (t0, d0) ((t, d) :: l) = fctLoop FloatOrder.gt (t0, d0) l := by
        simp [fctLoop, hg']
      simp only [hr]
      set r := fctLoop FloatOrder.gt (t0, d0) l with hrdef
      cases k with
      | zero =>
        have hr0 : r = (t0, d0) := by simpa using h1.symm
        refine ⟨0, by simp [hr0], ?_, by intro j x hj; omega⟩
        intro j x hx
        cases j with
        | zero => simp at hx; subst hx; rw [hr0]; exact FloatOrder.irrefl _
        | succ j =>
          cases j with
          | zero => simp at hx; subst hx; rw [hr0]; exact hg'
          | succ j => exact h2 (j + 1) x (by simpa using hx)
      | succ k =>
        have hrd0 := h3 0 (t0, d0) (by omega) rfl (Or.inl rfl)
        refine ⟨k + 2, by simpa using h1, ?_, ?_⟩
        · intro j x hx
          cases j with
          | zero => simp at hx; subst hx; exact h2 0 _ rfl
          | succ j =>
            cases j with
            | zero =>
              simp at hx; subst hx
              by_contra hc
              simp only [Bool.not_eq_false] at hc
              have := FloatOrder.trans _ _ _ hc hrd0
              simp [hg'] at this
            | succ j => exact h2 (j + 1) x (by simpa using hx)
        · intro j x hj hx hn
          cases j with
          | zero => simp at hx; subst hx; exact hrd0
          | succ j =>
            cases j with
            | zero =>
              simp at hx; subst hx
              rcases hn with hn | hn
              · omega
              rcases FloatOrder.cotrans _ d _ hrd0 hn with h | h
              · exact h
              · simp [hg'] at h
            | succ j =>
              refine h3 (j + 1) x (by omega) (by simpa using hx) ?_
              rcases hn with hn | hn
              · omega
              · exact Or.inr hn

/-- **C53**: `find_critical_temperature` panics exactly when one of the slices is empty; otherwise it
returns the temperature at a position `k` of the common prefix such that no sample exceeds
sample `k`, and sample `k` exceeds every earlier sample except possibly NaN ones (it does
exceed the first one). So it is the first position of the maximum, and NaN samples after the
first never win. -/
theorem C53_first_maximum {F : Type} [FloatOrder F] (ts ds : List F) :
    ((ts = [] ∨ ds = []) ∧ find_critical_temperature FloatOrder.gt ts ds = none) ∨
    ∃ (k : ℕ) (tc dc : F), find_critical_temperature FloatOrder.gt ts ds = some tc ∧
      ts[k]? = some tc ∧ ds[k]? = some dc ∧
      (∀ (j : ℕ) (t d : F), ts[j]? = some t → ds[j]? = some d → FloatOrder.gt d dc = false) ∧
      (∀ (j : ℕ) (d : F), j < k → ds[j]? = some d → (j = 0 ∨ ¬ FloatOrder.isNaN d) →
        FloatOrder.gt dc d = true) ∧
      (0 < k → ¬ FloatOrder.isNaN dc) := by
  cases ts with
  | nil => left; simp [find_critical_temperature]
  | cons t ts =>
  cases ds with
  | nil => left; simp [find_critical_temperature]
  | cons d ds =>
    right
    obtain ⟨k, h1, h2, h3⟩ := fctLoop_spec (ts.zip ds) t d
    have hz : (t, d) :: ts.zip ds = (t :: ts).zip (d :: ds) := rfl
    rw [hz] at h1 h2 h3
    obtain ⟨htk, hdk⟩ := List.getElem?_zip_eq_some.1 h1
    have key3 : ∀ (j : ℕ) (d' : F), j < k → (d :: ds)[j]? = some d' →
        (j = 0 ∨ ¬ FloatOrder.isNaN d') →
        FloatOrder.gt (fctLoop FloatOrder.gt (t, d) (ts.zip ds)).2 d' = true := by
      intro j d' hj hd hn
      have hlen : j < (t :: ts).length := by
        have := (List.getElem?_eq_some_iff.1 htk).1
        omega
      exact h3 j ((t :: ts)[j], d') hj
        (List.getElem?_zip_eq_some.2 ⟨by simp, hd⟩) hn
    refine ⟨k, _, _, rfl, htk, hdk, ?_, key3, ?_⟩
    · intro j t' d' ht hd
      exact h2 j (t', d') (List.getElem?_zip_eq_some.2 ⟨ht, hd⟩)
    · intro hk
      exact (FloatOrder.not_nan _ _ (key3 0 d hk rfl (Or.inl rfl))).1

/-- Two maxima and a NaN: the first maximum wins. -/
example : find_critical_temperature (F := Option EReal) FloatOrder.gt
    [some 1, some 2, some 3, some 4] [some 0, none, some 5, some 5] = some (some 3) := by
  simp [find_critical_temperature, fctLoop, FloatOrder.gt]

/-! ### C54 -/

theorem reduce_eq_takeWhile {F : Type} (isZero : F → Bool) (pb : List (F × F)) :
    reduce_phase_boundary isZero pb = pb.takeWhile (fun x => !isZero x.2) := by
  unfold reduce_phase_boundary
  induction pb with
  | nil => simp
  | cons x pb ih =>
    rw [List.splitOnP_cons_eq_if_modifyHead]
    by_cases h : isZero x.2 = true
    · simp [h]
    · simp only [h, Bool.false_eq_true, if_false]
      have hne := List.splitOnP_ne_nil (fun x : F × F => isZero x.2) pb
      cases hs : pb.splitOnP (fun x => isZero x.2) with
      | nil => exact absurd hs hne
      | cons a as =>
        rw [hs] at ih
        simp only [List.headD_cons] at ih
        simp [List.takeWhile, h, ih]

/-- **C54** (longest prefix): the result is a prefix of the input without zero temperature, and either
it is the whole input or the input continues with a point of zero temperature. -/
theorem C54_longest_prefix {F : Type} (isZero : F → Bool) (pb : List (F × F)) :
    (∀ p ∈ reduce_phase_boundary isZero pb, isZero p.2 = false) ∧
    (reduce_phase_boundary isZero pb = pb ∨
      ∃ p rest, pb = reduce_phase_boundary isZero pb ++ p :: rest ∧ isZero p.2 = true) := by
  rw [reduce_eq_takeWhile]
  induction pb with
  | nil => simp
  | cons x pb ih =>
    by_cases h : isZero x.2 = true
    · refine ⟨by simp [List.takeWhile, h], Or.inr ⟨x, pb, by simp [List.takeWhile, h], h⟩⟩
    · have h' : isZero x.2 = false := by simpa using h
      obtain ⟨h1, h2⟩ := ih
      refine ⟨?_, ?_⟩
      · intro p hp
        simp only [List.takeWhile, h', Bool.not_false, List.mem_cons] at hp
        rcases hp with rfl | hp
        · exact h'
        · exact h1 p hp
      · rcases h2 with h2 | ⟨p, rest, h2, h3⟩
        · left; simp [List.takeWhile, h', h2]
        · right
          refine ⟨p, rest, ?_, h3⟩
          simp only [List.takeWhile, h', Bool.not_false, List.cons_append]
          rw [← h2]

/-- **C54** (identity): a boundary without zero temperature is returned unchanged. -/
theorem C54_identity {F : Type} (isZero : F → Bool) (pb : List (F × F))
    (h : ∀ p ∈ pb, isZero p.2 = false) : reduce_phase_boundary isZero pb = pb := by
  rcases (C54_longest_prefix isZero pb).2 with h' | ⟨p, rest, h', h''⟩
  · exact h'
  · exfalso
    have : p ∈ pb := by rw [h']; simp
    simp [h p this] at h''

/-- **C54** (idempotence). -/
theorem C54_idempotent {F : Type} (isZero : F → Bool) (pb : List (F × F)) :
    reduce_phase_boundary isZero (reduce_phase_boundary isZero pb)
      = reduce_phase_boundary isZero pb :=
  C54_identity _ _ (C54_longest_prefix isZero pb).1

example : reduce_phase_boundary (fun t : ℕ => t == 0) [(0, 5), (1, 3), (2, 0), (3, 1)]
    = [(0, 5), (1, 3)] := by decide

/-! ### C55 -/

/-- The answer expected at `(mu, t)` given the critical temperature there (`none`: beyond the end of
the boundary). -/
noncomputable def expected (tc : Option ℝ) (t : ℝ) : Bool :=
  open Classical in match tc with
  | none => true
  | some tc => decide (t > tc)

theorem interpolate_lt {b tb : ℝ} {rest : List (ℝ × ℝ)}
    (hs : ((b, tb) :: rest).Pairwise (fun p q : ℝ × ℝ => p.1 < q.1 ∧ q.2 < p.2)) {mu : ℝ}
    (hmu : b < mu) : ∀ tc, interpolate ((b, tb) :: rest) mu = some tc → tc < tb := by
  induction rest generalizing b tb with
  | nil =>
    intro tc h
    simp [interpolate, not_le.2 hmu] at h
  | cons p rest ih =>
    obtain ⟨c, tc'⟩ := p
    intro tc h
    have hbc := (List.pairwise_cons.1 hs).1 (c, tc') (by simp)
    simp only [interpolate] at h
    split at h
    · simp only [Option.some.injEq] at h
      have hpos : 0 < c - b := by have := hbc.1; simp at this; linarith
      rw [← h]
      have h1 : tb * ((c - mu) / (c - b)) + tc' * ((mu - b) / (c - b))
          = tb - (tb - tc') * ((mu - b) / (c - b)) := by field_simp; ring
      rw [h1]
      have h2 : 0 < (mu - b) / (c - b) := div_pos (by linarith) hpos
      have h3 : 0 < tb - tc' := by have := hbc.2; simp at this; linarith
      nlinarith [mul_pos h3 h2]
    · rename_i hc
      have := ih (List.pairwise_cons.1 hs).2 (by linarith) tc h
      have := hbc.2
      simp at this
      linarith

/-- The scan, started after a point `(a, ta)` to the left of `mu`, answers as the interpolation
of the boundary from that point on. -/
theorem scan_spec {a ta mu t : ℝ} {rest prev : List (ℝ × ℝ)}
    (hs : ((a, ta) :: rest).Pairwise (fun p q : ℝ × ℝ => p.1 < q.1 ∧ q.2 < p.2))
    (hmu : a < mu) :
    scan mu t ((a, ta) :: prev) rest = some (expected (interpolate ((a, ta) :: rest) mu) t) := by
  induction rest generalizing a ta prev with
  | nil => simp [scan, interpolate, not_le.2 hmu, expected]
  | cons p rest ih =>
    obtain ⟨b, tb⟩ := p
    have hab := (List.pairwise_cons.1 hs).1 (b, tb) (by simp)
    simp only at hab
    have hs' := (List.pairwise_cons.1 hs).2
    have hpos : 0 < b - a := by linarith [hab.1]
    simp only [scan, interpolate]
    by_cases h1 : b = mu
    · subst h1
      simp only [if_true, le_refl, expected]
      have : ta * ((b - b) / (b - a)) + tb * ((b - a) / (b - a)) = tb := by
        rw [sub_self, zero_div, mul_zero, zero_add, div_self hpos.ne', mul_one]
      rw [this]
    · simp only [h1, if_false]
      by_cases h2 : tb = t
      · subst h2
        simp only [if_true]
        by_cases h3 : mu ≤ b
        · have h3' : mu < b := lt_of_le_of_ne h3 (Ne.symm h1)
          simp only [h3, if_true, expected]
          congr 1
          rw [decide_eq_decide]
          constructor
          · intro h; exact absurd h3' (not_lt.2 h.le)
          · intro h
            exfalso
            have e : ta * ((b - mu) / (b - a)) + tb * ((mu - a) / (b - a))
                = tb + (ta - tb) * ((b - mu) / (b - a)) := by field_simp; ring
            rw [e] at h
            have : 0 < (ta - tb) * ((b - mu) / (b - a)) :=
              mul_pos (by linarith [hab.2]) (div_pos (by linarith) hpos)
            linarith
        · simp only [h3, if_false]
          have h3' : b < mu := not_le.1 h3
          congr 1
          simp only [gt_iff_lt, h3', decide_true]
          cases hi : interpolate ((b, tb) :: rest) mu with
          | none => rfl
          | some tc =>
            have := interpolate_lt hs' h3' tc hi
            simp [expected, this]
      · simp only [h2, if_false]
        by_cases h3 : b > mu
        · simp only [h3, if_true, h3.le, expected]
          congr 1
          rw [decide_eq_decide]
          have e : ta * ((b - mu) / (b - a)) + tb * ((mu - a) / (b - a))
              = ta + (tb - ta) / (b - a) * (mu - a) := by field_simp; ring
          rw [e]
        · have h3' : ¬ mu ≤ b := by
            intro h; exact h3 (lt_of_le_of_ne h (Ne.symm h1))
          simp only [h3, if_false, h3']
          exact ih hs' (not_le.1 h3')

theorem interpolate_pos {pb : List (ℝ × ℝ)} (hw : WellShaped pb) {mu tc : ℝ}
    (hfirst : ∀ p ∈ pb.head?, p.1 ≤ mu)
    (h : interpolate pb mu = some tc) : 0 < tc := by
  induction pb with
  | nil => simp [interpolate] at h
  | cons p rest ih =>
    obtain ⟨a, ta⟩ := p
    have ha : a ≤ mu := hfirst (a, ta) (by simp)
    have hta : 0 < ta := hw.pos (a, ta) (by simp)
    cases rest with
    | nil =>
      simp only [interpolate] at h
      split at h
      · simp at h; linarith
      · simp at h
    | cons q rest =>
      obtain ⟨b, tb⟩ := q
      have htb : 0 < tb := hw.pos (b, tb) (by simp)
      have hab := (List.pairwise_cons.1 hw.shape).1 (b, tb) (by simp)
      simp only at hab
      simp only [interpolate] at h
      split at h
      · rename_i hm
        simp only [Option.some.injEq] at h
        rw [← h]
        have hp : 0 < b - a := by linarith [hab.1]
        rcases eq_or_lt_of_le ha with rfl | hlt
        · have : (b - a) / (b - a) = 1 := div_self hp.ne'
          simp [this, hta]
        · have h1 : 0 ≤ ta * ((b - mu) / (b - a)) :=
            mul_nonneg hta.le (div_nonneg (by linarith) hp.le)
          have h2 : 0 < tb * ((mu - a) / (b - a)) := mul_pos htb (div_pos (by linarith) hp)
          linarith
      · rename_i hm
        refine ih ⟨(List.pairwise_cons.1 hw.shape).2, fun p hp => hw.pos p (by simp [hp])⟩ ?_ h
        intro p hp; simp at hp; subst hp; exact (not_le.1 hm).le

theorem interpolate_none_iff {pb : List (ℝ × ℝ)} (hw : WellShaped pb) (p0 : ℝ × ℝ)
    (hne : pb ≠ []) (mu : ℝ) :
    interpolate pb mu = none ↔ (pb.getLastD p0).1 < mu := by
  induction pb with
  | nil => simp at hne
  | cons p rest ih =>
    obtain ⟨a, ta⟩ := p
    cases rest with
    | nil => simp [interpolate]
    | cons q rest =>
      obtain ⟨b, tb⟩ := q
      have hw' : WellShaped ((b, tb) :: rest) :=
        ⟨(List.pairwise_cons.1 hw.shape).2, fun p hp => hw.pos p (by simp [hp])⟩
      have hlast : (((a, ta) :: (b, tb) :: rest).getLastD p0).1 = (((b, tb) :: rest).getLastD p0).1 := by
        simp
      have hble : b ≤ (((b, tb) :: rest).getLastD p0).1 := by
        cases rest with
        | nil => simp
        | cons r rest =>
          have hmem : ((b, tb) :: r :: rest).getLastD p0 ∈ r :: rest := by
            simp only [List.getLastD_cons]
            rw [List.getLastD_eq_getLast?]
            cases hg : rest.getLast? with
            | none => simp
            | some x => simp [List.mem_of_getLast? hg]
          exact ((List.pairwise_cons.1 hw'.shape).1 _ hmem).1.le
      simp only [interpolate, hlast]
      split
      · rename_i hm
        simp only [reduceCtorEq, false_iff, not_lt]; linarith
      · exact ih hw' (by simp)

/-- **C55**: let the boundary, up to its first zero temperature, have the expected shape (nonempty,
chemical potentials strictly increasing, temperatures strictly decreasing and positive). For
every `t` and every `mu` not below the first point, `is_deconfined_phase` does not panic and
answers "`t` is above the piecewise-linear interpolation of the boundary at `mu`", and
`true` beyond the last point; in particular a point on the boundary is confined. -/
theorem C55_phase_membership (pb red tail : List (ℝ × ℝ)) (p0 : ℝ × ℝ) (mu t : ℝ)
    (hpb : pb = red ++ tail) (htail : ∀ p ∈ tail.head?, p.2 = 0)
    (hw : WellShaped red) (hne : red.head? = some p0) (hmu : p0.1 ≤ mu) :
    is_deconfined_phase mu t pb = some (expected (interpolate red mu) t) := by
  have hred : reduce_phase_boundary (fun t : ℝ => open Classical in decide (t = 0)) pb = red := by
    rw [reduce_eq_takeWhile, hpb]
    rw [List.takeWhile_append_of_pos (by
      intro p hp; simp [(hw.pos p hp).ne'])]
    cases tail with
    | nil => simp
    | cons q tail =>
      have : q.2 = 0 := htail q (by simp)
      simp [List.takeWhile, this]
  cases red with
  | nil => simp at hne
  | cons q rest =>
    simp at hne; subst hne
    obtain ⟨a, ta⟩ := q
    simp only at hmu
    simp only [is_deconfined_phase, hred]
    rw [if_neg (not_lt.2 hmu)]
    by_cases ht : t = 0
    · rw [if_pos ht]
      subst ht
      congr 1
      cases hi : interpolate ((a, ta) :: rest) mu with
      | none =>
        have := (interpolate_none_iff hw (a, ta) (by simp) mu).1 hi
        simpa [expected] using this
      | some tc =>
        have h1 := interpolate_pos hw (by intro p hp; simp at hp; subst hp; exact hmu) hi
        have h2 : ¬ ((((a, ta) :: rest).getLastD (a, ta)).1 < mu) := by
          rw [← interpolate_none_iff hw (a, ta) (by simp) mu, hi]; simp
        simp only [expected, gt_iff_lt, h2, decide_false, not_lt.2 h1.le]
    · rw [if_neg ht]
      have hstart : a = mu → expected (interpolate ((a, ta) :: rest) mu) t = decide (t > ta) := by
        intro h
        subst h
        cases rest with
        | nil => simp [interpolate, expected]
        | cons q rest =>
          obtain ⟨b, tb⟩ := q
          have hab := (List.pairwise_cons.1 hw.shape).1 (b, tb) (by simp)
          simp only at hab
          have : b - a ≠ 0 := by linarith [hab.1]
          simp [interpolate, hab.1.le, expected, this]
      by_cases hz : mu = 0 ∧ a = 0
      · rw [if_pos hz, hstart (by rw [hz.1, hz.2])]
      · rw [if_neg hz]
        by_cases h1 : a = mu
        · simp only [scan, h1, if_true]
          rw [← hstart h1, h1]
        · have hlt : a < mu := lt_of_le_of_ne hmu h1
          simp only [scan, h1, if_false]
          by_cases h2 : ta = t
          · simp only [h2, if_true, gt_iff_lt, hlt, decide_true]
            cases hi : interpolate ((a, t) :: rest) mu with
            | none => rfl
            | some tc =>
              subst h2
              have := interpolate_lt hw.shape hlt tc hi
              simp [expected, this]
          · simp only [h2, if_false, not_lt.2 hmu, gt_iff_lt]
            exact scan_spec hw.shape hlt

/-- **C55** (boundary points are confined). -/
theorem C55_boundary_confined (pb : List (ℝ × ℝ)) (p0 : ℝ × ℝ) (mu tc : ℝ)
    (hw : WellShaped pb) (hne : pb.head? = some p0) (hmu : p0.1 ≤ mu)
    (htc : interpolate pb mu = some tc) : is_deconfined_phase mu tc pb = some false := by
  rw [C55_phase_membership pb pb [] p0 mu tc (by simp) (by simp) hw hne hmu, htc]
  simp [expected]

/-- **C55** (panics): for every boundary whatsoever, `is_deconfined_phase` panics exactly when the part
before the first zero temperature is empty or `mu` is below its first point. -/
theorem C55_panics_iff (mu t : ℝ) (pb : List (ℝ × ℝ)) :
    is_deconfined_phase mu t pb = none ↔
      ∀ p ∈ (pb.takeWhile (fun p => open Classical in !decide (p.2 = 0))).head?, mu < p.1 := by
  have hscan : ∀ (l : List (ℝ × ℝ)) (p : ℝ × ℝ) (prev : List (ℝ × ℝ)),
      scan mu t (p :: prev) l ≠ none := by
    intro l
    induction l with
    | nil => intro p prev; simp [scan]
    | cons q l ih =>
      intro p prev
      simp only [scan]
      split
      · simp
      · split
        · simp
        · split
          · simp
          · exact ih _ _
  have hred := reduce_eq_takeWhile (fun t : ℝ => open Classical in decide (t = 0)) pb
  unfold is_deconfined_phase
  simp only [hred]
  cases hr : pb.takeWhile (fun p => open Classical in !decide (p.2 = 0)) with
  | nil => simp
  | cons q l =>
    simp only [List.head?_cons, Option.mem_def, Option.some.injEq, forall_eq']
    by_cases hmu : mu < q.1
    · simp [hmu]
    · simp only [hmu, if_false, iff_false]
      split
      · simp
      · split
        · simp
        · simp only [scan, gt_iff_lt, hmu, if_false]
          split
          · simp
          · split
            · simp
            · exact hscan _ _ _

/-- The hypotheses of C55 are met by a two-point boundary followed by a zero, and the answer is
the expected one on both sides of the line. -/
example : is_deconfined_phase 1 (1 / 2) [(0, 1), (2, 1 / 2), (3, 0), (4, 7)] = some false ∧
    is_deconfined_phase 1 (4 / 5) [(0, 1), (2, 1 / 2), (3, 0), (4, 7)] = some true := by
  have hw : WellShaped [(0, 1), (2, 1 / 2)] := ⟨by norm_num, by norm_num⟩
  constructor
  · rw [C55_phase_membership [(0, 1), (2, 1 / 2), (3, 0), (4, 7)] [(0, 1), (2, 1 / 2)] [(3, 0), (4, 7)] (0, 1) 1 (1 / 2) rfl
      (by simp) hw rfl (by norm_num)]
    norm_num [interpolate, expected]
  · rw [C55_phase_membership [(0, 1), (2, 1 / 2), (3, 0), (4, 7)] [(0, 1), (2, 1 / 2)] [(3, 0), (4, 7)] (0, 1) 1 (4 / 5) rfl
      (by simp) hw rfl (by norm_num)]
    norm_num [interpolate, expected]

/-! ### C56 -/

/-- **C56** (negative): with two consecutive equal temperatures a point lying on the boundary is
reported deconfined. -/
theorem C56_plateau :
    interpolate [(0, 1), (1, 1), (2, 1 / 2)] (1 / 2) = some 1 ∧
    is_deconfined_phase (1 / 2) 1 [(0, 1), (1, 1), (2, 1 / 2)] = some true := by
  constructor
  · norm_num [interpolate]
  · have hred := reduce_eq_takeWhile (fun t : ℝ => open Classical in decide (t = 0))
      [(0, 1), (1, 1), (2, 1 / 2)]
    simp only [is_deconfined_phase, hred]
    norm_num [scan, List.takeWhile]

/-! ### C57 -/

/-- **C57**: the value is the polynomial with the given coefficients, for every nonempty list and over
every commutative ring; an empty list panics. -/
theorem C57_polynomial {F : Type} [CommRing F] (mu : F) (params : List F) :
    (params = [] ∧ parametric_phase_diagram mu params = none) ∨
    (params ≠ [] ∧ parametric_phase_diagram mu params
      = some (∑ i ∈ Finset.range params.length, params.getD i 0 * mu ^ i)) := by
  cases params with
  | nil => left; simp [parametric_phase_diagram]
  | cons p0 rest =>
    right
    refine ⟨by simp, ?_⟩
    simp only [parametric_phase_diagram, Option.some.injEq]
    have key : rest.reverse.foldl (fun res p => (res + p) * mu) 0
        = ∑ i ∈ Finset.range rest.length, rest.getD i 0 * mu ^ (i + 1) := by
      rw [List.foldl_reverse]
      induction rest with
      | nil => simp
      | cons q rest ih =>
        rw [List.foldr_cons, ih, List.length_cons, Finset.sum_range_succ']
        simp only [List.getD_cons_succ, List.getD_cons_zero]
        rw [add_mul, Finset.sum_mul]
        congr 1
        · apply Finset.sum_congr rfl
          intro i _; ring
        · ring
    rw [key, List.length_cons, Finset.sum_range_succ']
    simp

example : parametric_phase_diagram (2 : ℤ) [1, 3, 5] = some 27 := by decide

/-! ### C58 -/

/-- **C58**: for `dv > 0` and `vmin ≤ vmax` the grid has `round((vmax - vmin)/dv) + 1` points, the
`k`-th is `vmin + k dv`, it starts at `vmin`, is strictly increasing, and its last point is within
`dv/2` of `vmax`. -/
theorem C58_grid (vmin vmax dv : ℝ) (hdv : 0 < dv) (hv : vmin ≤ vmax) :
    let v := compute_vec vmin vmax dv
    ∃ n : ℕ, (n : ℤ) = round ((vmax - vmin) / dv) ∧ v.length = n + 1 ∧
      (∀ k, k ≤ n → v[k]? = some (vmin + k * dv)) ∧
      v.Pairwise (· < ·) ∧ |vmin + n * dv - vmax| ≤ dv / 2 := by
  intro v
  have hq : 0 ≤ (vmax - vmin) / dv := div_nonneg (by linarith) hdv.le
  have hr : 0 ≤ round ((vmax - vmin) / dv) := by
    rw [round_eq]; exact Int.floor_nonneg.2 (by linarith)
  refine ⟨(round ((vmax - vmin) / dv)).toNat, Int.toNat_of_nonneg hr, by simp [v, compute_vec], ?_,
    ?_, ?_⟩
  · intro k hk
    have : k < (round ((vmax - vmin) / dv)).toNat + 1 := by omega
    simp only [v, compute_vec, List.getElem?_map, List.getElem?_range this, Option.map_some]
    rw [mul_comm]
  · simp only [v, compute_vec]
    rw [List.pairwise_map]
    refine List.Pairwise.imp ?_ List.pairwise_lt_range
    intro a b hab
    have : (a : ℝ) < b := by exact_mod_cast hab
    nlinarith
  · have h1 := abs_sub_round ((vmax - vmin) / dv)
    have h2 : (((round ((vmax - vmin) / dv)).toNat : ℕ) : ℝ)
        = ((round ((vmax - vmin) / dv) : ℤ) : ℝ) := by
      have := Int.toNat_of_nonneg hr
      exact_mod_cast congrArg (Int.cast : ℤ → ℝ) this
    rw [h2]
    have h3 : vmin + (round ((vmax - vmin) / dv) : ℝ) * dv - vmax
        = -(((vmax - vmin) / dv - round ((vmax - vmin) / dv)) * dv) := by
      field_simp; ring
    rw [h3, abs_neg, abs_mul, abs_of_pos hdv]
    nlinarith

/-- **C58** (empty range): if `vmax < vmin - dv/2` the grid is just the first point. -/
theorem C58_degenerate (vmin vmax dv : ℝ) (hdv : 0 < dv) (hv : vmax < vmin) :
    compute_vec vmin vmax dv = [vmin] := by
  have hq : (vmax - vmin) / dv ≤ 0 := div_nonpos_of_nonpos_of_nonneg (by linarith) hdv.le
  have hr : round ((vmax - vmin) / dv) ≤ 0 := by
    rw [round_eq]
    have : ⌊(vmax - vmin) / dv + 1 / 2⌋ < 1 := Int.floor_lt.2 (by push_cast; linarith)
    omega
  simp [compute_vec, Int.toNat_of_nonpos hr]

/-! ### C59 -/

/-- **C59** (invariant): after any history of setter calls none of which panicked, starting from
`new`, a corrected renormalisation constant is stored exactly when a corrected configuration
is; the original configuration and constant never change; the stored boundary is reduced. -/
theorem C59_invariant (tv cv mv : ℝ × ℝ × ℝ) (om rp f0i : ℝ) (fc : FieldConfig)
    (h : List ConfigOp) (c : Config)
    (hrun : ConfigOp.runAll h (Config.new tv cv mv om rp f0i fc) = some c) :
    c.fieldconfig = fc ∧ c.f0 = (Config.new tv cv mv om rp f0i fc).f0 ∧
    (c.correctedf0.isSome = c.correctedfieldconfig.isSome) ∧
    (∀ cfc, c.correctedfieldconfig = some cfc →
      ∃ l, corrTerms fc.quarks cfc.quarks = some l ∧
        c.correctedf0 = some (c.f0 + l.sum * 4 / (9 * (fc.nc : ℝ)))) ∧
    (∀ pb, c.phase_boundary = some pb → ∀ p ∈ pb, p.2 ≠ 0) := by
  set c0 := Config.new tv cv mv om rp f0i fc with hc0
  suffices H : ∀ (h : List ConfigOp) (c1 : Config),
      (c1.fieldconfig = fc ∧ c1.f0 = c0.f0 ∧
        (c1.correctedf0.isSome = c1.correctedfieldconfig.isSome) ∧
        (∀ cfc, c1.correctedfieldconfig = some cfc →
          ∃ l, corrTerms fc.quarks cfc.quarks = some l ∧
            c1.correctedf0 = some (c1.f0 + l.sum * 4 / (9 * (fc.nc : ℝ)))) ∧
        (∀ pb, c1.phase_boundary = some pb → ∀ p ∈ pb, p.2 ≠ 0)) →
      ConfigOp.runAll h c1 = some c →
      (c.fieldconfig = fc ∧ c.f0 = c0.f0 ∧
        (c.correctedf0.isSome = c.correctedfieldconfig.isSome) ∧
        (∀ cfc, c.correctedfieldconfig = some cfc →
          ∃ l, corrTerms fc.quarks cfc.quarks = some l ∧
            c.correctedf0 = some (c.f0 + l.sum * 4 / (9 * (fc.nc : ℝ)))) ∧
        (∀ pb, c.phase_boundary = some pb → ∀ p ∈ pb, p.2 ≠ 0)) by
    exact H h c0 ⟨rfl, rfl, rfl, by simp [hc0, Config.new], by simp [hc0, Config.new]⟩ hrun
  intro h
  induction h with
  | nil =>
    intro c1 hi hr
    simp only [ConfigOp.runAll, List.foldlM_nil, pure, Option.some.injEq] at hr
    exact hr ▸ hi
  | cons op h ih =>
    intro c1 hi hr
    obtain ⟨i1, i2, i3, i4, i5⟩ := hi
    simp only [ConfigOp.runAll, List.foldlM_cons] at hr
    by_cases hp : (op.call c1).2 = true
    · simp [hp] at hr
    · simp only [hp, Bool.false_eq_true, if_false, bind, Option.bind_some] at hr
      refine ih (op.call c1).1 ?_ hr
      cases op with
      | temperatures v => exact ⟨i1, i2, i3, i4, i5⟩
      | chemicalpotentials v => exact ⟨i1, i2, i3, i4, i5⟩
      | phase_boundary v =>
        refine ⟨i1, i2, i3, i4, ?_⟩
        intro pb hpb
        cases v with
        | none => simp [ConfigOp.call, Config.set_phase_boundary] at hpb
        | some v =>
          simp only [ConfigOp.call, Config.set_phase_boundary, Option.map_some,
            Option.some.injEq] at hpb
          intro p hp'
          rw [← hpb] at hp'
          have := (C54_longest_prefix _ _).1 p hp'
          simpa using this
      | correctedfieldconfig v =>
        cases v with
        | none =>
          simp [ConfigOp.call, Config.set_correctedfieldconfig, Config.set_correctedf0, i1, i2]
          exact fun pb h a b => i5 pb h (a, b)
        | some cfc =>
          cases hl : corrTerms fc.quarks cfc.quarks with
          | none =>
            simp [ConfigOp.call, Config.set_correctedfieldconfig, Config.set_correctedf0, i1,
              hl] at hp
          | some l =>
            simp [ConfigOp.call, Config.set_correctedfieldconfig, Config.set_correctedf0, i1, i2,
              hl]
            exact fun pb h a b => i5 pb h (a, b)

/-- **C59** (decision logic): in any state satisfying the invariant, `maybe_corrected_data` reports
the inconsistency exactly when one of corrected configuration and boundary is set without the
other; otherwise it returns the corrected pair in the deconfined phase and the uncorrected pair
elsewhere, or panics where the phase test panics. -/
theorem C59_maybe_corrected (c : Config) (mu t : ℝ)
    (hinv : c.correctedf0.isSome = c.correctedfieldconfig.isSome) :
    (c.maybe_corrected_data mu t = .panicInconsistent ↔
      c.correctedfieldconfig.isSome ≠ c.phase_boundary.isSome) ∧
    (c.correctedfieldconfig = none → c.phase_boundary = none →
      c.maybe_corrected_data mu t = .ok c.fieldconfig c.f0) ∧
    (∀ cfc pb, c.correctedfieldconfig = some cfc → c.phase_boundary = some pb →
      (is_deconfined_phase mu t pb = none → c.maybe_corrected_data mu t = .panicPhase) ∧
      (is_deconfined_phase mu t pb = some false →
        c.maybe_corrected_data mu t = .ok c.fieldconfig c.f0) ∧
      (is_deconfined_phase mu t pb = some true →
        ∃ cf0, c.correctedf0 = some cf0 ∧ c.maybe_corrected_data mu t = .ok cfc cf0)) := by
  unfold Config.maybe_corrected_data
  cases h1 : c.correctedfieldconfig <;> cases h2 : c.correctedf0 <;> cases h3 : c.phase_boundary <;>
    simp_all
  · split <;> simp_all
  
/-- **C59** (public field): assigning the public field directly breaks the consistency: the next
lookup fails even without any boundary. -/
theorem C59_public_field (tv cv mv : ℝ × ℝ × ℝ) (om rp f0i mu t : ℝ) (fc cfc : FieldConfig)
    (pb : Option (List (ℝ × ℝ))) :
    ({ (Config.new tv cv mv om rp f0i fc).set_phase_boundary pb with
        correctedfieldconfig := some cfc }).maybe_corrected_data mu t = .panicInconsistent := by
  cases pb <;> simp [Config.new, Config.set_phase_boundary, Config.maybe_corrected_data]

theorem corrTerms_none_iff (qs cs : List (ℕ × ℝ)) :
    corrTerms qs cs = none ↔ qs.length < cs.length := by
  induction cs generalizing qs with
  | nil => cases qs <;> simp [corrTerms]
  | cons c cs ih =>
    cases qs with
    | nil => simp [corrTerms]
    | cons q qs =>
      obtain ⟨nf, mqc⟩ := c
      obtain ⟨a, b⟩ := q
      simp [corrTerms, ih]

/-- **C59** (out of bounds): setting a corrected configuration panics exactly when it has more quark
entries than the original one; and the panic leaves the new configuration stored with the old
corrected constant, so a program that catches the panic is left inconsistent. -/
theorem C59_set_panics_iff (c : Config) (v : Option FieldConfig) :
    ((c.set_correctedfieldconfig v).2 = true ↔
      ∃ cfc, v = some cfc ∧ c.fieldconfig.quarks.length < cfc.quarks.length) ∧
    ((c.set_correctedfieldconfig v).2 = true →
      (c.set_correctedfieldconfig v).1.correctedfieldconfig = v ∧
      (c.set_correctedfieldconfig v).1.correctedf0 = c.correctedf0) := by
  cases v with
  | none => simp [Config.set_correctedfieldconfig, Config.set_correctedf0]
  | some cfc =>
    cases hl : corrTerms c.fieldconfig.quarks cfc.quarks with
    | none =>
      have := (corrTerms_none_iff _ _).1 hl
      simp [Config.set_correctedfieldconfig, Config.set_correctedf0, hl, this]
    | some l =>
      have : ¬ c.fieldconfig.quarks.length < cfc.quarks.length := by
        rw [← corrTerms_none_iff, hl]; simp
      simp [Config.set_correctedfieldconfig, Config.set_correctedf0, hl]
      omega

/-- A history with a nontrivial corrected configuration that does not panic exists. -/
example : ∃ c, ConfigOp.runAll
    [.correctedfieldconfig (some (FieldConfig.new 3 1 [(2, 1 / 2)])),
     .phase_boundary (some [(0, 1), (1, 0)])]
    (Config.new (0, 1, 1) (0, 1, 1) (0, 1, 1) 1 1 0 (FieldConfig.new 3 1 [(2, 1 / 3), (1, 2)]))
    = some c := by
  rw [← Option.isSome_iff_exists]
  simp [ConfigOp.runAll, ConfigOp.call, Config.set_correctedfieldconfig, Config.set_correctedf0,
    Config.new, FieldConfig.new, corrTerms]

end Qcd.tc
