import Verif.Lemmas.FloatTc

/-! # C120: phase boundaries, grids and fits in floating-point arithmetic -/

namespace Qcd
open Fl Spec

/-! ## The phase boundary -/

theorem F.reduce_eq {r : Rounding} (pb : List (Fl r × Fl r)) : F.reduce_phase_boundary pb = pb.takeWhile (fun p => !Fl.beq p.2 (num 0)) :=
  tc.reduce_eq_takeWhile _ pb

/-- C120. The membership test panics exactly if the boundary is empty before its first zero temperature or begins above `mu`. No number is below NaN. -/
theorem C120_phase_panics {r : Rounding} (mu t : Fl r) (pb : List (Fl r × Fl r)) :
    F.is_deconfined_phase mu t pb = none ↔ ∀ p ∈ (pb.takeWhile (fun p => !Fl.beq p.2 (num 0))).head?, Fl.lt mu p.1 = true := by
  have hscan : ∀ (l : List (Fl r × Fl r)) (p : Fl r × Fl r) (prev : List (Fl r × Fl r)), F.scan mu t (p :: prev) l ≠ none := by
    intro l
    induction l with
    | nil => intro p prev; simp [F.scan]
    | cons q l ih =>
      intro p prev
      simp only [F.scan]
      split
      · simp
      · split
        · simp
        · split
          · simp
          · exact ih _ _
  unfold F.is_deconfined_phase
  simp only [F.reduce_eq]
  cases hr : pb.takeWhile (fun p => !Fl.beq p.2 (num 0)) with
  | nil => simp
  | cons q l =>
    simp only [List.head?_cons, Option.mem_def, Option.some.injEq, forall_eq']
    by_cases hmu : Fl.lt mu q.1 = true
    · simp [hmu]
    · rw [if_neg hmu, iff_false_right hmu]
      split
      · simp
      · split
        · simp
        · simp only [F.scan]
          split
          · simp
          · split
            · simp
            · first
              | exact hscan _ _ _
              | (split
                 · rename_i h; exact absurd h hmu
                 · exact hscan _ _ _)

theorem sameBoundary_reduce {r : Rounding} {pb : List (Fl r × Fl r)} {q : List (ℝ × ℝ)} (h : SameBoundary pb q) :
    SameBoundary (F.reduce_phase_boundary pb) (tc.reduce_phase_boundary (fun t => open Classical in decide (t = 0)) q) := by
  rw [F.reduce_eq, tc.reduce_eq_takeWhile]
  unfold SameBoundary at h ⊢
  induction h with
  | nil => simp
  | @cons a b l m hab hl ih =>
    have hz : Fl.beq a.2 (num 0) = true ↔ b.2 = 0 := beq_real hab.2 is_num_zero
    by_cases h0 : b.2 = 0
    · simp [List.takeWhile, hz.2 h0, h0]
    · have hz' : Fl.beq a.2 (num 0) = false := by rw [← Bool.not_eq_true, hz]; exact h0
      simp only [List.takeWhile, hz', h0, decide_false, Bool.not_false]
      exact List.Forall₂.cons hab ih

variable {mu t : Fl binary64} {x y : ℝ}

theorem scan_agrees (hmu : Is mu x) (ht : Is t y) :
    ∀ (l : List (Fl binary64 × Fl binary64)) (m : List (ℝ × ℝ)), SameBoundary l m → ∀ (a : Fl binary64 × Fl binary64) (p : ℝ × ℝ) prev prev',
      Is a.1 p.1 → Is a.2 p.2 → p.1 < x → AwayFrom x y (p :: m) → F.scan mu t (a :: prev) l = tc.scan x y (p :: prev') m := by
  intro l m h
  unfold SameBoundary at h
  induction h with
  | nil => intros; simp [F.scan, tc.scan]
  | @cons b q l m hbq hl ih =>
    intro a p prev prev' h1 h2 hp haw
    simp only [F.scan, tc.scan]
    have e1 := beq_real hbq.1 hmu
    have e2 := beq_real hbq.2 ht
    have e3 := lt_real hmu hbq.1
    by_cases c1 : q.1 = x
    · rw [if_pos (e1.2 c1), if_pos c1, lt_real' hbq.2 ht]
    · rw [if_neg (fun hc => c1 (e1.1 hc)), if_neg c1]
      by_cases c2 : q.2 = y
      · rw [if_pos (e2.2 c2), if_pos c2, lt_real' hbq.1 hmu]
      · rw [if_neg (fun hc => c2 (e2.1 hc)), if_neg c2]
        by_cases c3 : x < q.1
        · rw [if_pos (e3.2 c3), if_pos c3]
          obtain ⟨g1, g2, g3, g4⟩ := haw p q ⟨[], m, rfl⟩ hp c3
          obtain ⟨v, hv, hv1⟩ := interpolation_close h1 h2 hbq.1 hbq.2 hmu hp c3 g1 g2 g3
          simp only [Option.some.injEq]
          rw [lt_real' hv ht]
          have e : p.2 + (q.2 - p.2) / (q.1 - p.1) * (x - p.1) = lineTemperature p q x := by unfold lineTemperature; ring
          rw [e]
          have hclose := hv1.trans_lt g4
          rw [decide_eq_decide]
          rcases lt_or_ge (lineTemperature p q x) y with hy | hy
          · rw [abs_of_pos (show 0 < y - lineTemperature p q x by linarith)] at hclose
            have := (abs_lt.1 hclose).2
            exact ⟨fun _ => hy, fun _ => by linarith⟩
          · rw [abs_of_nonpos (show y - lineTemperature p q x ≤ 0 by linarith)] at hclose
            have := (abs_lt.1 hclose).1
            exact ⟨fun hc => by linarith, fun hc => by linarith⟩
        · rw [if_neg (fun hc => c3 (e3.1 hc)), if_neg c3]
          refine ih b q _ _ hbq.1 hbq.2 (lt_of_le_of_ne (not_lt.1 c3) c1) ?_
          intro u w huw
          exact haw u w (huw.trans ⟨[p], [], by simp⟩)

/-- C120. In f64 the membership test gives the answer of exact arithmetic, if the point is not within `10^-14` of the segment of the boundary above it. -/
theorem C120_phase {pb : List (Fl binary64 × Fl binary64)} {q : List (ℝ × ℝ)} (hpb : SameBoundary pb q) (hmu : Is mu x) (ht : Is t y)
    (h : AwayFrom x y (q.takeWhile (fun p => open Classical in !decide (p.2 = 0)))) :
    F.is_deconfined_phase mu t pb = tc.is_deconfined_phase x y q := by
  have hr := sameBoundary_reduce hpb
  rw [← tc.reduce_eq_takeWhile (fun t : ℝ => open Classical in decide (t = 0))] at h
  unfold F.is_deconfined_phase tc.is_deconfined_phase
  generalize F.reduce_phase_boundary pb = l at hr
  generalize tc.reduce_phase_boundary (fun t : ℝ => open Classical in decide (t = 0)) q = m at hr h
  unfold SameBoundary at hr
  cases hr with
  | nil => rfl
  | @cons a p l m hap hl =>
    simp only
    have e1 := lt_real hmu hap.1
    have e2 := beq_real ht (is_num_zero (r := binary64))
    have e3 := beq_real hmu (is_num_zero (r := binary64))
    have e4 := beq_real hap.1 (is_num_zero (r := binary64))
    by_cases c1 : x < p.1
    · rw [if_pos (e1.2 c1), if_pos c1]
    · rw [if_neg (fun hc => c1 (e1.1 hc)), if_neg c1]
      by_cases c2 : y = 0
      · rw [if_pos (e2.2 c2), if_pos c2]
        have hlast : ∀ (l : List (Fl binary64 × Fl binary64)) (m : List (ℝ × ℝ)), List.Forall₂ (fun a b => Is a.1 b.1 ∧ Is a.2 b.2) l m → ∀ a p,
            Is (Prod.fst a) (Prod.fst p) → Is (l.getLastD a).1 (m.getLastD p).1 := by
          intro l m hlm
          induction hlm with
          | nil => intro a p h; simpa using h
          | @cons b q l m hbq hl ih => intro a p _; simpa only [List.getLastD_cons] using ih b q hbq.1
        rw [lt_real' (hlast _ _ (.cons hap hl) a p hap.1) hmu]
      · rw [if_neg (fun hc => c2 (e2.1 hc)), if_neg c2]
        by_cases c3 : x = 0 ∧ p.1 = 0
        · rw [if_pos (by rw [Bool.and_eq_true]; exact ⟨e3.2 c3.1, e4.2 c3.2⟩), if_pos c3, lt_real' hap.2 ht]
        · rw [if_neg (by rw [Bool.and_eq_true, e3, e4]; exact c3), if_neg c3]
          simp only [F.scan, tc.scan]
          have e5 := beq_real hap.1 hmu
          have e6 := beq_real hap.2 ht
          by_cases c4 : p.1 = x
          · rw [if_pos (e5.2 c4), if_pos c4, lt_real' hap.2 ht]
          · rw [if_neg (fun hc => c4 (e5.1 hc)), if_neg c4]
            by_cases c5 : p.2 = y
            · rw [if_pos (e6.2 c5), if_pos c5, lt_real' hap.1 hmu]
            · rw [if_neg (fun hc => c5 (e6.1 hc)), if_neg c5, if_neg (fun hc => c1 (e1.1 hc)), if_neg c1]
              exact scan_agrees hmu ht l m hl a p _ _ hap.1 hap.2 (lt_of_le_of_ne (not_lt.1 c1) c4) h

/-- C120. A chemical potential which is not a number counts as deconfined at every temperature other than zero which is not on the boundary. -/
theorem C120_phase_nan {r : Rounding} {mu t : Fl r} {pb : List (Fl r × Fl r)} (hmu : IsNaN mu) (ht : ¬ Fl.beq t (num 0) = true)
    (hne : pb.takeWhile (fun p => !Fl.beq p.2 (num 0)) ≠ []) (hb : ∀ p ∈ pb, ¬ Fl.beq p.2 t = true) :
    F.is_deconfined_phase mu t pb = some true := by
  have hn : mu.value = none := by rw [show mu = nan from hmu]; rfl
  have hscan : ∀ (l prev : List (Fl r × Fl r)), (∀ p ∈ l, ¬ Fl.beq p.2 t = true) → F.scan mu t prev l = some true := by
    intro l
    induction l with
    | nil => intros; rfl
    | cons p l ih =>
      intro prev h
      simp only [F.scan]
      rw [if_neg (by rw [beq_nan hn]; simp), if_neg (h p (by simp)), if_neg (by rw [nan_lt hn]; simp)]
      exact ih _ fun q hq => h q (by simp [hq])
  unfold F.is_deconfined_phase
  simp only [F.reduce_eq]
  cases hr : pb.takeWhile (fun p => !Fl.beq p.2 (num 0)) with
  | nil => exact absurd hr hne
  | cons q l =>
    simp only
    rw [if_neg (by rw [nan_lt hn]; simp), if_neg ht, nan_beq hn]
    simp only [Bool.false_and]
    refine hscan _ _ fun p hp => hb p ?_
    rw [← hr] at hp
    exact (List.takeWhile_prefix _).subset hp

/-! ## The fit -/

/-- C120. Accuracy of the parametrisation of the phase boundary: four roundings for each coefficient, relative to the size of the terms. -/
theorem C120_fit {params : List (Fl binary64)} {ps : List ℝ} (hp : List.Forall₂ Is params ps) (hmu : Is mu x) (h0 : params ≠ []) (hlen : params.length ≤ 10 ^ 5)
    (hbig : polynomialScale ps (max 1 |x|) ≤ 2 ^ 800) :
    ∃ a v, F.parametric_phase_diagram mu params = some a ∧ Is a v ∧
      |v - polynomial ps x| ≤ 4 * params.length / 2 ^ 53 * polynomialScale ps x := by
  unfold F.parametric_phase_diagram tc.parametric_phase_diagram
  cases hp with
  | nil => exact absurd rfl h0
  | @cons a p l ps hap hl =>
    simp only
    rw [List.foldl_reverse]
    have hM1 : (1 : ℝ) ≤ max 1 |x| := le_max_left _ _
    have habs : |(max 1 |x|)| = max 1 |x| := abs_of_pos (by linarith)
    rw [polynomialScale_cons, habs] at hbig
    have hthp : (0 : ℝ) < (2 ^ 900)⁻¹ := by positivity
    have hlen' : l.length ≤ 10 ^ 5 := by rw [List.length_cons] at hlen; omega
    have hr := horner_run hmu l ps hl hlen' (by
      refine le_trans ?_ hbig
      rw [mul_comm]
      have : 0 ≤ |p| + (2 ^ 900)⁻¹ := by positivity
      exact le_add_of_nonneg_left this)
    have hS0 := polynomialScale_nonneg ps x
    have hprod : |x| * polynomialScale ps x ≤ max 1 |x| * polynomialScale ps (max 1 |x|) := by
      gcongr
      · exact le_max_right _ _
      · exact polynomialScale_mono ps (by rw [habs]; exact le_max_right _ _)
    have h8 : (2 : ℝ) ^ 800 ≤ 2 ^ 900 := pow_le_pow_right₀ (by norm_num) (by norm_num)
    have hMa : Mid ((2 ^ 900)⁻¹ + |x| * polynomialScale ps x + |p|) := by
      constructor
      · have : 0 ≤ |x| * polynomialScale ps x := by positivity
        linarith [abs_nonneg p]
      · refine le_trans ?_ (hbig.trans h8)
        generalize ((2 : ℝ) ^ 900)⁻¹ = θ at *
        linarith
    have hn4 : 4 * (l.length : ℝ) ≤ 10 ^ 6 - 10 := by
      have : (l.length : ℝ) ≤ ((10 ^ 5 : ℕ) : ℝ) := Nat.cast_le.2 hlen'
      push_cast at this
      linarith
    obtain ⟨v, hv, -, h⟩ := hr.add ((Run.exact hap).mono (k := 4 * (l.length : ℝ)) (by positivity)) (by positivity) (by linarith) hMa
    refine ⟨_, v, rfl, hv, ?_⟩
    rw [polynomial_cons, polynomialScale_cons, add_comm p]
    refine h.trans ?_
    rw [show (2 ^ 900)⁻¹ + |x| * polynomialScale ps x + |p| = |p| + (2 ^ 900)⁻¹ + |x| * polynomialScale ps x by ring]
    refine mul_le_mul_of_nonneg_right ?_ (by positivity)
    unfold uu
    rw [List.length_cons, mul_one_div]
    push_cast
    gcongr
    linarith

/-! ## The grids -/

variable {vmin vmax dv : Fl binary64} {d : ℝ} {n : ℕ}

theorem grid_count (h1 : Is vmin x) (h2 : Is vmax y) (h3 : Is dv d) (hd : 0 < d) (hM : Middle d) (hn : n ≤ 10 ^ 9) (hq : |(y - x) / d - n| ≤ 1 / 4) :
    F.roundUsize ((vmax - vmin) / dv) = n := by
  have hdl := hM.1
  have hdh := hM.2
  rw [abs_of_pos hd] at hdl hdh
  have hn' : (n : ℝ) ≤ 10 ^ 9 := by exact_mod_cast hn
  have hn0 : (0 : ℝ) ≤ n := Nat.cast_nonneg n
  have hq2 := abs_le.1 hq
  have hqa : |(y - x) / d| ≤ n + 1 := abs_le.2 ⟨by linarith, by linarith⟩
  have hDa : |y - x| ≤ (n + 1) * d := by
    rw [abs_div, abs_of_pos hd, div_le_iff₀ hd] at hqa
    exact hqa
  have hB : Mid ((n + 1) * d) := by
    refine mid_range (by norm_num : 70 ≤ 250) ?_ ?_
    · calc (1 : ℝ) / 10 ^ 70 ≤ 1 * (1 / 10 ^ 60) := by norm_num
        _ ≤ (n + 1) * d := by gcongr; linarith
    · calc (n + 1) * d ≤ (10 ^ 9 + 1) * 10 ^ 60 := by gcongr
        _ ≤ 10 ^ 70 := by norm_num
  have r1 := Run.of_round (a := vmax - vmin) (n := 0) (value_sub h2 h1) hDa hB le_rfl (by norm_num) (by simp)
  have hBd : (n + 1) * d / d = n + 1 := by field_simp
  have r2 := r1.divNum h3 hd (by norm_num) (by norm_num) (by
    rw [hBd]
    exact mid_range (by norm_num : 10 ≤ 250) (le_trans (by norm_num) (show (1 : ℝ) ≤ n + 1 by linarith)) (le_trans (by linarith : (n : ℝ) + 1 ≤ 10 ^ 9 + 1) (by norm_num)))
  rw [hBd] at r2
  obtain ⟨v, hv, -, hv1⟩ := r2
  have hsmall : (0 + 2 + 2) * uu * (n + 1) ≤ 1 / 8 := by
    calc (0 + 2 + 2) * uu * ((n : ℝ) + 1) ≤ (0 + 2 + 2) * uu * (10 ^ 9 + 1) := by have := uu_pos; gcongr
      _ ≤ 1 / 8 := by unfold uu; norm_num
  have hv2 := abs_le.1 (hv1.trans hsmall)
  unfold F.roundUsize
  rw [if_neg (by rw [show ((vmax - vmin) / dv).value = some (v : EReal) from hv]; simp), val_of hv, if_neg (EReal.coe_ne_top v), EReal.toReal_coe]
  have hfloor : ∀ h0 : 0 ≤ v + 1 / 2, ⌊v + 1 / 2⌋₊ = n := fun h0 => (Nat.floor_eq_iff h0).2 ⟨by linarith, by linarith⟩
  by_cases hv0 : (v : EReal) ≤ 0
  · rw [if_pos hv0]
    have : v ≤ 0 := by exact_mod_cast hv0
    have h1 : (n : ℝ) < 1 := by linarith
    have : n < 1 := by exact_mod_cast h1
    omega
  · rw [if_neg hv0]
    have hvp : 0 < v := by
      rw [not_le] at hv0
      exact_mod_cast hv0
    rw [hfloor (by linarith), min_eq_left]
    unfold F.usizeMax
    refine hn.trans (by norm_num)

/-- The point `k` of a grid. -/
theorem grid_point (h1 : Is vmin x) (h3 : Is dv d) (hd : 0 < d) (hM : Middle d) (hx : |x| ≤ 10 ^ 60) {k : ℕ} (hk : k ≤ 10 ^ 9) :
    ∃ v, Is (vmin + dv * ofR (k : ℝ)) v ∧ |v - (x + k * d)| ≤ 1 / 10 ^ 15 * (|x| + (k + 1) * d) := by
  have hdl := hM.1
  have hdh := hM.2
  rw [abs_of_pos hd] at hdl hdh
  have hk' : (k : ℝ) ≤ 10 ^ 9 := by exact_mod_cast hk
  have hk0 : (0 : ℝ) ≤ k := Nat.cast_nonneg k
  have hkd : (1 : ℝ) / 10 ^ 70 ≤ (k + 1) * d := by
    calc (1 : ℝ) / 10 ^ 70 ≤ 1 * (1 / 10 ^ 60) := by norm_num
      _ ≤ (k + 1) * d := by gcongr; linarith
  have hkd2 : (k + 1) * d ≤ (10 ^ 9 + 1) * 10 ^ 60 := by gcongr
  have hB : Mid ((k + 1) * d) := mid_range (by norm_num : 70 ≤ 250) hkd (hkd2.trans (by norm_num))
  have hkI : Is (ofR (k : ℝ) : Fl binary64) k := is_ofR (binary64_nat (by omega))
  have r1 := (Run.exact h3).mulExact hkI le_rfl (by norm_num) (show |d| * |(k : ℝ)| ≤ (k + 1) * d by rw [abs_of_pos hd, abs_of_nonneg hk0]; nlinarith) hB
  have r2 := ((Run.exact h1).mono (k := 0 + 2) (by norm_num)).add r1 (by norm_num) (by norm_num) (by
    refine mid_range (by norm_num : 71 ≤ 250) ?_ ?_
    · have : (1 : ℝ) / 10 ^ 71 ≤ 1 / 10 ^ 70 := by norm_num
      linarith [abs_nonneg x]
    · have : (10 : ℝ) ^ 60 + (10 ^ 9 + 1) * 10 ^ 60 ≤ 10 ^ 71 := by norm_num
      linarith)
  obtain ⟨v, hv, -, h⟩ := r2
  refine ⟨v, hv, ?_⟩
  rw [mul_comm d] at h
  refine h.trans ?_
  have : (0 + 2 + 2) * uu ≤ 1 / 10 ^ 15 := by unfold uu; norm_num
  have h0 : 0 ≤ |x| + (k + 1) * d := by positivity
  exact mul_le_mul_of_nonneg_right this h0

/-- C120. A grid whose range is near `n` steps has `n + 1` points, each within `10^-15` of the exact one, relative to the size of its terms. -/
theorem C120_grid (h1 : Is vmin x) (h2 : Is vmax y) (h3 : Is dv d) (hd : 0 < d) (hM : Middle d) (hx : |x| ≤ 10 ^ 60) (hn : n ≤ 10 ^ 9)
    (hq : |(y - x) / d - n| ≤ 1 / 4) :
    ∃ l, F.compute_vec vmin vmax dv = some l ∧ l.length = n + 1 ∧
      ∀ k, k ≤ n → ∃ a v, l[k]? = some a ∧ Is a v ∧ |v - (x + k * d)| ≤ 1 / 10 ^ 15 * (|x| + (k + 1) * d) := by
  refine ⟨(List.range (n + 1)).map (fun k : ℕ => vmin + dv * ofR (k : ℝ)), ?_, by simp, ?_⟩
  · unfold F.compute_vec
    rw [grid_count h1 h2 h3 hd hM hn hq]
    simp only
    rw [if_neg]
    unfold F.maxLength
    have : n < 2 ^ 60 - 1 := lt_of_le_of_lt hn (by norm_num)
    omega
  · intro k hk
    obtain ⟨v, hv, h⟩ := grid_point h1 h3 hd hM hx (hk.trans hn)
    refine ⟨_, v, ?_, hv, h⟩
    rw [List.getElem?_map, List.getElem?_range (by omega)]
    rfl

/-- C120. The points increase strictly if the step is not lost: the first point is at most `10^12` steps from zero, and there are at most `10^9` of them. -/
theorem C120_grid_increasing (h1 : Is vmin x) (h2 : Is vmax y) (h3 : Is dv d) (hd : 0 < d) (hM : Middle d) (hx : |x| ≤ 10 ^ 60) (hx' : |x| ≤ 10 ^ 12 * d) (hn : n ≤ 10 ^ 9)
    (hq : |(y - x) / d - n| ≤ 1 / 4) :
    ∃ l, F.compute_vec vmin vmax dv = some l ∧ l.Pairwise (fun a b => Fl.lt a b = true) := by
  obtain ⟨l, hl, hlen, hp⟩ := C120_grid h1 h2 h3 hd hM hx hn hq
  refine ⟨l, hl, ?_⟩
  rw [List.pairwise_iff_getElem]
  intro i j hi hj hij
  rw [hlen] at hi hj
  obtain ⟨a, v, ha, hv, e1⟩ := hp i (by omega)
  obtain ⟨b, w, hb, hw, e2⟩ := hp j (by omega)
  have ha' : l[i] = a := by
    rw [List.getElem?_eq_getElem (by omega)] at ha; exact Option.some.inj ha
  have hb' : l[j] = b := by
    rw [List.getElem?_eq_getElem (by omega)] at hb; exact Option.some.inj hb
  rw [ha', hb', lt_real hv hw]
  have hij' : (i : ℝ) + 1 ≤ j := by exact_mod_cast hij
  have hj' : (j : ℝ) ≤ 10 ^ 9 := by
    have : j ≤ 10 ^ 9 := by omega
    exact_mod_cast this
  have b1 : 1 / 10 ^ 15 * (|x| + (i + 1) * d) ≤ 1 / 100 * d := by
    have h : |x| + (i + 1) * d ≤ 10 ^ 13 * d := by nlinarith
    calc 1 / 10 ^ 15 * (|x| + (i + 1) * d) ≤ 1 / 10 ^ 15 * (10 ^ 13 * d) := by gcongr
      _ = 1 / 100 * d := by ring
  have b2 : 1 / 10 ^ 15 * (|x| + (j + 1) * d) ≤ 1 / 100 * d := by
    have h : |x| + (j + 1) * d ≤ 10 ^ 13 * d := by nlinarith
    calc 1 / 10 ^ 15 * (|x| + (j + 1) * d) ≤ 1 / 10 ^ 15 * (10 ^ 13 * d) := by gcongr
      _ = 1 / 100 * d := by ring
  have c1 := (abs_le.1 (e1.trans b1)).2
  have c2 := (abs_le.1 (e2.trans b2)).1
  nlinarith

/-- C120. A range or a step which is not a number gives a single point. -/
theorem C120_grid_nan {r : Rounding} {vmin vmax dv : Fl r} (h : IsNaN ((vmax - vmin) / dv)) : F.compute_vec vmin vmax dv = some [vmin + dv * ofR 0] := by
  have hn : ((vmax - vmin) / dv).value = none := by rw [show (vmax - vmin) / dv = nan from h]; rfl
  unfold F.compute_vec F.roundUsize
  rw [if_pos hn]
  simp [F.maxLength]

/-- C120. A step of zero is an error if the range is not empty: the number of points does not fit in memory. -/
theorem C120_grid_zero_step (h1 : Is vmin x) (h2 : Is vmax y) (hxy : 0 < binary64.rnd (y - x)) : F.compute_vec vmin vmax (num 0) = none := by
  have hs : (vmax - vmin).value = some (binary64.rnd (y - x)) := value_sub h2 h1
  have hq : ((vmax - vmin) / (num 0)) = (num ⊤ : Fl binary64) := by
    change div (vmax - vmin) (num 0) = num ⊤
    have hv : (vmax - vmin).val = binary64.rnd (y - x) := by unfold val; rw [hs]; rfl
    have hnn : (vmax - vmin).isNeg = false := by
      cases hc : (vmax - vmin) with
      | nan => rw [hc] at hs; simp at hs
      | nz =>
        rw [hc] at hs
        exact absurd (Option.some.inj hs) (by rw [eq_comm]; exact hxy.ne')
      | num t =>
        rw [hc] at hs
        have : t = binary64.rnd (y - x) := Option.some.inj hs
        simp [isNeg, this, hxy.le]
    have hz : (num 0 : Fl binary64).val = 0 := rfl
    have hzn : (num 0 : Fl binary64).isNeg = false := by simp [isNeg]
    unfold div
    rw [if_neg (by rw [hs]; simp), if_neg (by rw [hv, hz]; simp [hxy.ne']), if_pos (.inl hz), hnn, hzn]
    simp
  unfold F.compute_vec F.roundUsize
  rw [hq]
  simp [val, F.usizeMax, F.maxLength]

/-- C120. A grid is an error exactly from `2^60` steps on, whatever the rounding: vectors of more than `isize::MAX` bytes are not allowed. -/
theorem C120_grid_too_long {r : Rounding} {vmin vmax dv : Fl r} {q : EReal} (h : IsE ((vmax - vmin) / dv) q) :
    (((2 ^ 60 : ℝ) : EReal) ≤ q → F.compute_vec vmin vmax dv = none) ∧
    (q ≤ ((2 ^ 60 - 2 : ℝ) : EReal) → ∃ l, F.compute_vec vmin vmax dv = some l ∧ l ≠ []) := by
  have hv : ((vmax - vmin) / dv).val = q := val_of h
  have hs : ((vmax - vmin) / dv).value = some q := h
  constructor
  · intro hq
    have : 2 ^ 60 ≤ F.roundUsize ((vmax - vmin) / dv) := by
      unfold F.roundUsize
      rw [hs, hv, if_neg (by simp)]
      split_ifs with h1 h2
      · norm_num [F.usizeMax]
      · have : ((2 ^ 60 : ℝ) : EReal) ≤ 0 := hq.trans h2
        have : (2 ^ 60 : ℝ) ≤ 0 := by exact_mod_cast this
        norm_num at this
      · lift q to ℝ using ⟨h1, fun h => h2 (h ▸ bot_le)⟩
        have hq' : (2 ^ 60 : ℝ) ≤ q := by exact_mod_cast hq
        rw [EReal.toReal_coe, le_min_iff]
        refine ⟨Nat.le_floor ?_, by norm_num [F.usizeMax]⟩
        push_cast
        linarith
    unfold F.compute_vec
    simp only
    rw [if_pos]
    unfold F.maxLength
    omega
  · intro hq
    have : F.roundUsize ((vmax - vmin) / dv) ≤ 2 ^ 60 - 2 := by
      unfold F.roundUsize
      rw [hs, hv, if_neg (by simp)]
      split_ifs with h1 h2
      · rw [h1] at hq
        exact absurd (top_le_iff.1 hq) (EReal.coe_ne_top _)
      · exact Nat.zero_le _
      · lift q to ℝ using ⟨h1, fun h => h2 (h ▸ bot_le)⟩
        have hq' : q ≤ (2 ^ 60 - 2 : ℝ) := by exact_mod_cast hq
        rw [EReal.toReal_coe]
        refine (min_le_left _ _).trans (Nat.lt_succ_iff.1 ((Nat.floor_lt' (by norm_num)).2 ?_))
        norm_num
        norm_num at hq'
        linarith
    refine ⟨_, by unfold F.compute_vec; simp only; rw [if_neg]; unfold F.maxLength; omega, ?_⟩
    simp

/-! ## The hypotheses can be met -/

/-- An infinite range, with the step one. -/
example : F.compute_vec (num 0) (num ⊤) (num 1 : Fl binary64) = none :=
  (C120_grid_too_long (q := ⊤) (by
    change (div (add (num ⊤) (neg (num 0))) (num 1)).value = _
    have e1 : (1 : EReal) ≠ ⊤ := by exact_mod_cast EReal.coe_ne_top 1
    have e2 : (1 : EReal) ≠ ⊥ := by exact_mod_cast EReal.coe_ne_bot 1
    simp [add, neg, div, val, value, isNeg, e1, e2])).1 le_top

theorem is_four : Is (ofR 4 : Fl binary64) 4 := is_ofR ⟨4, 0, by norm_num, by norm_num, by norm_num, by norm_num⟩
theorem is_half : Is (ofR (1 / 2) : Fl binary64) (1 / 2) := is_ofR ⟨1, -1, by norm_num, by norm_num, by norm_num, by norm_num⟩

theorem exampleBoundary : SameBoundary [((ofR 0 : Fl binary64), ofR 2), (ofR 4, ofR 1), (ofR 5, ofR 0)] [(0, 2), (4, 1), (5, 0)] :=
  .cons ⟨is_zero, is_two⟩ (.cons ⟨is_four, is_one⟩ (.cons ⟨is_ofR ⟨5, 0, by norm_num, by norm_num, by norm_num, by norm_num⟩, is_zero⟩ .nil))

/-- A point above a boundary with two points followed by a zero: the temperature of the segment is 5/4. -/
example : F.is_deconfined_phase (ofR 3 : Fl binary64) (ofR 3) [(ofR 0, ofR 2), (ofR 4, ofR 1), (ofR 5, ofR 0)] = some true := by
  have hred : ([(0, 2), (4, 1), (5, 0)] : List (ℝ × ℝ)).takeWhile (fun p => open Classical in !decide (p.2 = 0)) = [(0, 2), (4, 1)] := by
    simp [List.takeWhile]
  rw [C120_phase exampleBoundary is_three is_three]
  · simp only [tc.is_deconfined_phase, tc.reduce_eq_takeWhile, hred]
    norm_num [tc.scan]
  · rw [hred]
    intro p q hpq h1 h2
    have hl : [p, q] = [(0, 2), (4, 1)] := hpq.eq_of_length (by simp)
    simp only [List.cons.injEq, and_true] at hl
    obtain ⟨rfl, rfl⟩ := hl
    refine ⟨⟨?_, ?_⟩, ⟨?_, ?_⟩, ?_, ?_⟩ <;> norm_num [lineTemperature, abs_of_pos]

/-- The same boundary and a chemical potential which is not a number. -/
example : F.is_deconfined_phase (nan : Fl binary64) (ofR 3) [(ofR 0, ofR 2), (ofR 4, ofR 1), (ofR 5, ofR 0)] = some true := by
  refine C120_phase_nan rfl (by rw [beq_real is_three is_num_zero]; norm_num) ?_ ?_
  · have h : ¬ Fl.beq (ofR 2 : Fl binary64) (num 0) = true := by rw [beq_real is_two is_num_zero]; norm_num
    simp [List.takeWhile, h]
  · intro p hp
    simp only [List.mem_cons, List.not_mem_nil, or_false] at hp
    rcases hp with rfl | rfl | rfl
    · rw [beq_real is_two is_three]; norm_num
    · rw [beq_real is_one is_three]; norm_num
    · rw [beq_real is_zero is_three]; norm_num

/-- A grid from 0 to 2 in steps of 1/2. -/
example : ∃ l, F.compute_vec (ofR 0 : Fl binary64) (ofR 2) (ofR (1 / 2)) = some l ∧ l.Pairwise (fun a b => Fl.lt a b = true) :=
  C120_grid_increasing (n := 4) is_zero is_two is_half (by norm_num) ⟨by norm_num [abs_of_pos], by norm_num [abs_of_pos]⟩ (by norm_num) (by norm_num) (by norm_num) (by norm_num)

example : F.compute_vec (ofR 0 : Fl binary64) (ofR 2) (num 0) = none :=
  C120_grid_zero_step is_zero is_two (by rw [sub_zero, binary64.two]; norm_num)

example : F.compute_vec (ofR 0 : Fl binary64) nan (num 0) = some [ofR 0 + num 0 * ofR 0] := C120_grid_nan (by rfl)

/-- The polynomial `2 - x`. -/
example : ∃ a v, F.parametric_phase_diagram (ofR (1 / 2) : Fl binary64) [ofR 2, ofR (-1)] = some a ∧ Is a v ∧
    |v - polynomial [2, -1] (1 / 2)| ≤ 4 * (2 : ℕ) / 2 ^ 53 * polynomialScale [2, -1] (1 / 2) :=
  C120_fit (.cons is_two (.cons is_neg_one .nil)) is_half (by simp) (by simp) (by
    have h : ((2 : ℝ) ^ 900)⁻¹ ≤ 1 := inv_le_one_of_one_le₀ (one_le_pow₀ (by norm_num))
    have h8 : (2 : ℝ) ^ 3 ≤ 2 ^ 800 := pow_le_pow_right₀ (by norm_num) (by norm_num)
    refine le_trans ?_ h8
    rw [polynomialScale_cons, polynomialScale_cons]
    generalize ((2 : ℝ) ^ 900)⁻¹ = e at *
    have hm : max 1 |(1 : ℝ) / 2| = 1 := max_eq_left (by rw [abs_of_pos] <;> norm_num)
    rw [hm]
    norm_num [polynomialScale]
    linarith)

end Qcd
