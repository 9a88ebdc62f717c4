import Verif.Lemmas.VacuumAccuracy
import Verif.Model.FloatConfig

/-! # Lemmas on the accuracy of the quark loops at a computed argument -/

namespace Qcd
open Fl Spec

/-- `x` is a computed number for `s`, between `10^-6` and `10^6`. -/
structure Approx (x : Fl binary64) (s : ℝ) : Prop where
  t : Track x s s 16 6

namespace Approx
variable {x : Fl binary64} {s : ℝ} (h : Approx x s)
include h

theorem lo : 1 / 10 ^ 6 ≤ s := by rw [one_div]; exact h.t.lo
theorem hi : s ≤ 10 ^ 6 := h.t.hi
theorem pos : 0 < s := lt_of_lt_of_le (by norm_num) h.lo

theorem ti : Track (x⁻¹) s⁻¹ s⁻¹ 34 6 := by
  have hp := h.pos
  have h1 : ((10 : ℝ) ^ 6)⁻¹ ≤ s⁻¹ := inv_anti₀ hp h.hi
  have h2 : s⁻¹ ≤ 10 ^ 6 := by rw [inv_le_comm₀ hp (by norm_num), ← one_div]; exact h.lo
  obtain ⟨v, hv, -, e⟩ := h.t.run
  have hu := uu_pos
  have hu' : uu ≤ 1 / 10 ^ 15 := by unfold uu; norm_num
  have hv2 : s / 2 ≤ v := by
    have := (abs_le.1 e).1
    push_cast at this
    nlinarith
  have hv0 : 0 < v := by linarith
  have i1 : IsE (x⁻¹) (binary64.rnd (1 / v)) := value_div_one hv hv0.ne'
  have := Run.of_round (n := 32) (x := s⁻¹) (B := s⁻¹) i1 (by rw [abs_of_pos (inv_pos.2 hp)]) (mid_of h1 h2 (by norm_num)) (by norm_num) (by norm_num) ?_
  · exact ⟨by push_cast; norm_num at this; exact this, h1, h2⟩
  · have e1 : 1 / v - s⁻¹ = -(v - s) / (v * s) := by field_simp; ring
    rw [e1, abs_div, abs_neg, abs_of_pos (mul_pos hv0 hp), div_le_iff₀ (mul_pos hv0 hp)]
    have e2 : 32 * uu * s⁻¹ * (v * s) = 32 * uu * v := by field_simp
    rw [e2]
    push_cast at e
    nlinarith

theorem root : Track (NumOps.sqrt (x⁻¹ * ofR 4 + ofR 1)) (Real.sqrt (s⁻¹ * 4 + 1)) (Real.sqrt (s⁻¹ * 4 + 1)) 41 9 := by
  have c1 := Track.const 1 (by norm_num) (by norm_num)
  have c4 := Track.const 4 (by norm_num) (by norm_num)
  have := ((h.ti.mul c4).add c1)
  push_cast at this
  exact this.sqrt

theorem quark_ln : Track (NumOps.ln ((NumOps.sqrt (x⁻¹ * ofR 4 + ofR 1) - ofR 1) / (NumOps.sqrt (x⁻¹ * ofR 4 + ofR 1) + ofR 1)))
    (Real.log ((√(s⁻¹ * 4 + 1) - 1) / (√(s⁻¹ * 4 + 1) + 1)))
    (|Real.log ((√(s⁻¹ * 4 + 1) - 1) / (√(s⁻¹ * 4 + 1) + 1))| + (√(s⁻¹ * 4 + 1) + 1) / (√(s⁻¹ * 4 + 1) - 1)) 350 7 := by
  obtain ⟨g1, g2, g3, g4⟩ := root_bounds h.lo h.hi
  have c1 := Track.const 1 (by norm_num) (by norm_num)
  have hr := (h.root.sub c1).div (h.root.add c1)
  push_cast at hr
  have hi := h.hi
  generalize NumOps.sqrt (x⁻¹ * ofR 4 + ofR 1) = a at *
  generalize √(s⁻¹ * 4 + 1) = A at *
  have hp : 0 < (A - 1) / (A + 1) := div_pos (by linarith) (by linarith)
  have hA : A + 1 ≠ 0 := by linarith
  have hA' : A - 1 ≠ 0 := by linarith
  have e : (A + 1) / (A + 1) / ((A - 1) / (A + 1)) = (A + 1) / (A - 1) := by field_simp
  have hl : 1 ≤ (A + 1) / (A - 1) := by rw [le_div_iff₀ (by linarith)]; linarith
  have hx1 : (A - 1) / (A + 1) ≤ 1 := by rw [div_le_one (by linarith)]; linarith
  have hx2 : (10 ^ 15)⁻¹ ≤ (A - 1) / (A + 1) := by
    have h1 : (A - 1) / (A + 1) = ((A + 1) / (A - 1))⁻¹ := (inv_div _ _).symm
    rw [h1]
    exact inv_anti₀ (by linarith) (g2.trans (by norm_num at *; linarith))
  obtain ⟨r1, r2⟩ := log_range hp hx2 (hx1.trans (by norm_num))
  have r3 : ((10 : ℝ) ^ 7)⁻¹ ≤ |Real.log ((A - 1) / (A + 1))| + (A + 1) / (A - 1) := by norm_num at *; linarith
  have r4 : |Real.log ((A - 1) / (A + 1))| + (A + 1) / (A - 1) ≤ 10 ^ 7 := by norm_num at *; linarith
  have hu : uu ≤ 1 / 10 ^ 15 := by unfold uu; norm_num
  have := hr.run.ln hp (by positivity) (by norm_num) ?_ (by rw [e]; exact mid_of r3 r4 (by norm_num))
  · rw [e] at this
    refine ⟨?_, r3, r4⟩
    norm_num at this ⊢
    exact this
  · have u0 := uu_pos
    rw [div_le_iff₀ (by linarith)] at g2
    rw [div_self hA, le_div_iff₀ (by linarith)]
    have g5 : A + 1 ≤ (10 ^ 6 + 2) * (A - 1) := g2.trans (by gcongr)
    have g6 : uu * (A + 1) ≤ 1 / 10 ^ 15 * ((10 ^ 6 + 2) * (A - 1)) := mul_le_mul hu g5 (by linarith) (by norm_num)
    norm_num at g6 ⊢
    linarith

theorem quarks_track : ∃ k ≤ 200, Track (gluon.f_q x) (gluon.f_q s)
    (((s⁻¹ + 1 / 2) * √(s⁻¹ * 4 + 1) * (|Real.log ((√(s⁻¹ * 4 + 1) - 1) / (√(s⁻¹ * 4 + 1) + 1))| +
      (√(s⁻¹ * 4 + 1) + 1) / (√(s⁻¹ * 4 + 1) - 1)) + s⁻¹ * 2 + 5 / 6) * 4 / 9) 550 k := by
  have c2 := Track.const 2 (by norm_num) (by norm_num)
  have c4 := Track.const 4 (by norm_num) (by norm_num)
  have ch := Track.constR (c := 1 / 2) (by norm_num) (by norm_num)
  have c5 := Track.constR (c := 5 / 6) (by norm_num) (by norm_num)
  have i := h.ti
  have := (((((i.neg.add ch).mul h.root).mul h.quark_ln).sub (i.mul c2)).add c5).mul c4
  have := this.divNum 9
  push_cast at this
  exact ⟨_, by norm_num, this.mono (by norm_num)⟩

theorem crossed_track : ∃ k ≤ 200, Track (gluon.f_q_crossed x) (gluon.f_q_crossed s)
    ((s⁻¹ * 4 + 1 / 6 + (s⁻¹ + 1 / 2 + s⁻¹ * s⁻¹ * 8) / √(s⁻¹ * 4 + 1) * (|Real.log ((√(s⁻¹ * 4 + 1) - 1) / (√(s⁻¹ * 4 + 1) + 1))| +
      (√(s⁻¹ * 4 + 1) + 1) / (√(s⁻¹ * 4 + 1) - 1))) * 4 / 9) 650 k := by
  have c4 := Track.const 4 (by norm_num) (by norm_num)
  have c8 := Track.const 8 (by norm_num) (by norm_num)
  have ch := Track.constR (c := 1 / 2) (by norm_num) (by norm_num)
  have c6 := Track.constR (c := 1 / 6) (by norm_num) (by norm_num)
  have i := h.ti
  have := (((i.mul c4).sub c6).add ((((i.add ch).add ((i.mul i).mul c8)).div h.root).mul h.quark_ln)).mul c4
  have := this.divNum 9
  push_cast at this
  exact ⟨_, by norm_num, this.mono (by norm_num)⟩

end Approx

/-! ### The loop over the quarks -/

theorem track_nat {n : ℕ} (h0 : 1 ≤ n) (h1 : n ≤ 10 ^ 6) : Track (ofR (n : ℝ) : Fl binary64) n n 0 6 := by
  have a : (1 : ℝ) ≤ n := by exact_mod_cast h0
  have b : (n : ℝ) ≤ 10 ^ 6 := by exact_mod_cast h1
  exact ⟨by exact_mod_cast Run.const (binary64_nat (lt_of_le_of_lt h1 (by norm_num))) (by linarith), by norm_num; linarith, b⟩

theorem track_ratio {m mq : ℝ} (hm : Binary64 m) (hm0 : 0 < m) (hq : Binary64 mq) (h0 : 1 / 10 ^ 6 ≤ mq / m) (h1 : mq / m ≤ 10 ^ 6) :
    Track (ofR mq / ofR m : Fl binary64) (mq / m) (mq / m) 2 6 := by
  have hq0 : 0 < mq := by
    have : 0 < mq / m := lt_of_lt_of_le (by norm_num) h0
    rwa [lt_div_iff₀ hm0, zero_mul] at this
  have := (Run.const hq hq0.le).divNum (is_ofR hm) hm0 le_rfl (by norm_num) (mid_of (by rw [← one_div]; exact h0) h1 (by norm_num))
  exact ⟨by norm_num at this ⊢; exact this, by rw [← one_div]; exact h0, h1⟩

theorem approx_light {x : Fl binary64} {s m : ℝ} {q : ℕ × ℝ} (h : Medium x s) (hm : Binary64 m) (hm0 : 0 < m) (hq : Flavour m s q) :
    Approx (x / ((ofR q.2 / ofR m) * (ofR q.2 / ofR m))) (s / (q.2 / m) ^ 2) := by
  have r := track_ratio hm hm0 hq.num hq.lo hq.hi
  have := h.t.div (r.mul r)
  rw [← sq] at this
  exact ⟨⟨this.run.mono (by norm_num), by rw [← one_div]; exact hq.heavy, hq.light⟩⟩

/-- One more quark. -/
theorem loop {F : Fl binary64 → Fl binary64} {G S : ℝ → ℝ} (hF : ∀ x t, Approx x t → ∃ k ≤ 200, Track (F x) (G t) (S t) 650 k)
    {x : Fl binary64} {s m : ℝ} {nc : ℕ} (h : Medium x s) (hm : Binary64 m) (hm0 : 0 < m) (hc : 1 ≤ nc) (hc' : nc ≤ 10 ^ 6) (qs : List (ℕ × ℝ))
    (hq : ∀ q ∈ qs, Flavour m s q) : ∀ (r : Fl binary64) (R B : ℝ) (n : ℕ), Run r R B n → 660 ≤ n → n + 2 * qs.length ≤ 10 ^ 6 → (10 ^ 240)⁻¹ ≤ B →
    B + qs.length * 10 ^ 220 ≤ 10 ^ 240 →
    Run ((qs.map fun q => (q.1, (ofR q.2 : Fl binary64))).foldl (fun r q => r + F (x / (ComputedQuark.new nc (ofR m) q.1 q.2).mq_div_m_2) *
        (ComputedQuark.new nc (ofR m) q.1 q.2).nf_div_nc) r)
      (qs.foldl (fun r q => r + G (s / (q.2 / m * (q.2 / m))) * ((q.1 : ℝ) / nc)) R) (B + quarksScale S nc m s qs) (n + 2 * qs.length : ℕ) := by
  induction qs with
  | nil => intro r R B n hr _ _ _ _; simpa [quarksScale] using hr
  | cons q qs ih =>
    intro r R B n hr hn hN hB hB'
    have hq1 := hq q (by simp)
    have ha := approx_light h hm hm0 hq1
    obtain ⟨k, hk, t⟩ := hF _ _ ha
    have tn := (track_nat hq1.some hq1.few).div (track_nat hc hc')
    have tm := t.mul tn (by norm_num) (by norm_num) (by omega)
    have hC : S (s / (q.2 / m) ^ 2) * (q.1 / nc) ≤ 10 ^ 220 := tm.hi.trans (pow_le_pow_right₀ (by norm_num) (by omega))
    have hC0 := tm.nonneg
    simp only [List.length_cons] at hN hB' ⊢
    push_cast at hB'
    have hl : (0 : ℝ) ≤ qs.length * 10 ^ 220 := by positivity
    have hs := hr.add (C := S (s / (q.2 / m) ^ 2) * (q.1 / nc)) (tm.run.mono (by exact_mod_cast (show 650 + (2 * 0 + 2 * 0 + 2) + 3 ≤ n by omega)))
      (by positivity) (by exact_mod_cast (show n ≤ 10 ^ 6 by omega)) (mid_of (k := 240) (by linarith) (by linarith) (by norm_num))
    have := ih (fun p hp => hq p (by simp [hp])) _ _ _ (n + 2) (by push_cast; exact hs) (by omega) (by omega) (by linarith) (by linarith)
    simp only [List.map_cons, List.foldl_cons]
    rw [show n + 2 * (qs.length + 1) = n + 2 + 2 * qs.length by ring]
    rw [sq] at this
    rw [show B + quarksScale S nc m s (q :: qs) = B + S (s / (q.2 / m * (q.2 / m))) * (q.1 / nc) + quarksScale S nc m s qs by
      simp only [quarksScale, List.map_cons, List.sum_cons, sq]; ring]
    exact this

/-! ### Very light quarks -/

theorem value_add_bot {a b : Fl binary64} {x : EReal} (ha : IsE a ⊥) (hb : IsE b x) (hx : x ≠ ⊤) : IsE (a + b) ⊥ := by
  change (Fl.add a b).value = _
  unfold Fl.add
  simp [show a.value = some ⊥ from ha, show b.value = some x from hb, val_of ha, val_of hb, hx]

theorem value_add_bot' {a b : Fl binary64} {x : EReal} (ha : IsE a x) (hb : IsE b ⊥) (hx : x ≠ ⊤) : IsE (a + b) ⊥ := by
  change (Fl.add a b).value = _
  unfold Fl.add
  simp [show a.value = some x from ha, show b.value = some ⊥ from hb, val_of ha, val_of hb, hx]

theorem value_mul_bot' {a b : Fl binary64} {y : ℝ} (ha : Is a y) (hb : IsE b ⊥) (hy : 0 < y) : IsE (a * b) ⊥ := by
  change (Fl.mul a b).value = _
  unfold Fl.mul
  have h1 : b.isNeg = true := isNeg_neg hb (by simp)
  have h2 : a.isNeg = false := isNeg_pos ha (by exact_mod_cast hy)
  have h3 : (y : EReal) ≠ 0 := by exact_mod_cast hy.ne'
  simp [show a.value = some (y : EReal) from ha, show b.value = some ⊥ from hb, val_of ha, val_of hb, h1, h2, h3]

theorem value_div_bot {a b : Fl binary64} {y : ℝ} (ha : IsE a ⊥) (hb : Is b y) (hy : 0 < y) : IsE (a / b) ⊥ := by
  change (Fl.div a b).value = _
  unfold Fl.div
  have h1 : a.isNeg = true := isNeg_neg ha (by simp)
  have h2 : b.isNeg = false := isNeg_pos hb (by exact_mod_cast hy)
  have h3 : (y : EReal) ≠ 0 := by exact_mod_cast hy.ne'
  simp [show b.value = some (y : EReal) from hb, show a.value = some ⊥ from ha, val_of ha, val_of hb, h1, h2, h3]

theorem value_inv_bot {a : Fl binary64} (ha : IsE a ⊥) : Is (a⁻¹) 0 := by
  change (Fl.div (num 1) a).value = _
  unfold Fl.div
  have e1 : (1 : EReal) ≠ ⊤ := by exact_mod_cast EReal.coe_ne_top 1
  have e2 : (1 : EReal) ≠ ⊥ := by exact_mod_cast EReal.coe_ne_bot 1
  have v1 : (num 1 : Fl binary64).value = some 1 := rfl
  simp only [show a.value = some ⊥ from ha, v1, val_of ha, val_of v1]
  simp [e1, e2]
  split_ifs <;> simp [Fl.value]

theorem one_is : Is (ofR 1 : Fl binary64) 1 := is_ofR ⟨1, 0, by norm_num, by norm_num, by norm_num, by norm_num⟩

/-- A computed number for a squared momentum in units of a very light quark mass. -/
structure Far (x : Fl binary64) (t : ℝ) : Prop where
  tr : Track x t t 16 206
  big : 2 ^ 56 ≤ t

namespace Far
variable {x : Fl binary64} {t : ℝ} (h : Far x t)
include h

theorem inv_is : ∃ w, Is (x⁻¹) w ∧ 0 ≤ w ∧ w ≤ 1 / 2 ^ 55 := by
  have hp : 0 < t := lt_of_lt_of_le (by positivity) h.big
  obtain ⟨v, hv, -, e⟩ := h.tr.run
  have hu := uu_pos
  have hu' : uu ≤ 1 / 10 ^ 15 := by unfold uu; norm_num
  have hv2 : t * 0.9 ≤ v := by
    have := (abs_le.1 e).1
    push_cast at this
    nlinarith
  have hv3 : v ≤ 2 * t := by
    have := (abs_le.1 e).2
    push_cast at this
    nlinarith
  have hv0 : 0 < v := by norm_num at hv2; linarith
  have h1 : ((10 : ℝ) ^ 206)⁻¹ ≤ t⁻¹ := inv_anti₀ hp h.tr.hi
  have hM : Mid v⁻¹ := by
    refine mid_of (k := 207) ?_ ?_ (by norm_num)
    · refine inv_anti₀ hv0 (hv3.trans ?_)
      have := h.tr.hi
      rw [show (10 : ℝ) ^ 207 = 10 * 10 ^ 206 by rw [show 207 = 206 + 1 by norm_num, pow_succ]; ring]
      generalize (10 : ℝ) ^ 206 = Z at *
      linarith
    · have : v⁻¹ ≤ 1 := inv_le_one_of_one_le₀ (by have := h.big; norm_num at *; linarith)
      exact this.trans (one_le_pow₀ (by norm_num))
  obtain ⟨w, hw, w1, w2⟩ := Run.inv hv hv0 hM
  have hb : v⁻¹ ≤ 1 / 2 ^ 55 * 0.6 := by
    rw [inv_le_comm₀ hv0 (by norm_num)]
    have := h.big
    norm_num at *
    linarith
  have hi0 : 0 < v⁻¹ := inv_pos.2 hv0
  have := abs_le.1 w2
  exact ⟨w, hw, by nlinarith, by norm_num at *; nlinarith⟩

theorem root_is : Is (NumOps.sqrt (x⁻¹ * ofR 4 + ofR 1)) 1 := by
  obtain ⟨w, hw, w0, w1⟩ := h.inv_is
  have i4 : Is (ofR 4 : Fl binary64) 4 := is_ofR ⟨4, 0, by norm_num, by norm_num, by norm_num, by norm_num⟩
  have hm : IsE (x⁻¹ * ofR 4) (binary64.rnd (w * 4)) := value_mul hw i4
  have l0 : (0 : EReal) ≤ binary64.rnd (w * 4) := by rw [← binary64.zero]; exact binary64.mono (by positivity)
  have p : Binary64 (1 / 2 ^ 53) := ⟨1, -53, by norm_num, by norm_num, by norm_num, by norm_num [zpow_neg]⟩
  have l1 : binary64.rnd (w * 4) ≤ ((1 / 2 ^ 53 : ℝ) : EReal) := by
    have : binary64.rnd (1 / 2 ^ 53) = ((1 / 2 ^ 53 : ℝ) : EReal) := by
      have := is_ofR p
      have e : (ofR (1 / 2 ^ 53) : Fl binary64).value = some (binary64.rnd (1 / 2 ^ 53)) := value_round _ _
      rw [Is, e] at this
      exact Option.some.inj this
    rw [← this]
    exact binary64.mono (by norm_num at *; linarith)
  have ht : binary64.rnd (w * 4) ≠ ⊤ := (lt_of_le_of_lt l1 (EReal.coe_lt_top _)).ne
  have hb : binary64.rnd (w * 4) ≠ ⊥ := (lt_of_lt_of_le (by simp) l0).ne'
  lift binary64.rnd (w * 4) to ℝ using ⟨ht, hb⟩ with y hy
  have y0 : 0 ≤ y := by exact_mod_cast l0
  have y1 : y ≤ 1 / 2 ^ 53 := by exact_mod_cast l1
  have ha : IsE (x⁻¹ * ofR 4 + ofR 1) (binary64.rnd (y + 1)) := value_add hm one_is
  have e1 : binary64.rnd (y + 1) = 1 := round64_one_add y0 (by norm_num [zpow_neg] at *; linarith)
  rw [e1] at ha
  have : IsE (NumOps.sqrt (x⁻¹ * ofR 4 + ofR 1)) (binary64.rnd (Real.sqrt 1)) := by
    have ha' : (x⁻¹ * ofR 4 + ofR 1).value = some ((1 : ℝ) : EReal) := by rw [EReal.coe_one]; exact ha
    have := (Fl.sqrt_value ha').2 (by exact_mod_cast zero_le_one)
    rw [show sqrtE binary64 ((1 : ℝ) : EReal) = binary64.rnd (Real.sqrt 1) by unfold sqrtE; rw [if_neg (EReal.coe_ne_top 1), EReal.toReal_coe]] at this
    exact this
  rw [Real.sqrt_one, binary64.one] at this
  simpa [Is, IsE] using this

theorem ln_bot : IsE (NumOps.ln ((NumOps.sqrt (x⁻¹ * ofR 4 + ofR 1) - ofR 1) / (NumOps.sqrt (x⁻¹ * ofR 4 + ofR 1) + ofR 1))) ⊥ := by
  have r := h.root_is
  generalize NumOps.sqrt (x⁻¹ * ofR 4 + ofR 1) = a at *
  have d : Is (a - ofR 1) 0 := by
    have : IsE (a + -(ofR 1)) (binary64.rnd (1 + -1)) := value_add r (value_neg one_is)
    rw [show (1 : ℝ) + -1 = 0 by norm_num, binary64.zero] at this
    exact this
  have s : Is (a + ofR 1) 2 := by
    have : IsE (a + ofR 1) (binary64.rnd (1 + 1)) := value_add r one_is
    rw [show (1 : ℝ) + 1 = 2 by norm_num, binary64.two] at this
    exact this
  have q : Is ((a - ofR 1) / (a + ofR 1)) 0 := by
    obtain ⟨v, hv, -, e⟩ := (show Run ((a - ofR 1) / (a + ofR 1)) (0 / 2) (1 / 2) 2 from by
      have := ((Run.exact d).monoB le_rfl (show |(0 : ℝ)| ≤ 1 by simp)).divNum s (by norm_num) le_rfl (by norm_num) (mid_of (k := 1) (by norm_num) (by norm_num) (by norm_num))
      simpa using this)
    have : IsE ((a - ofR 1) / (a + ofR 1)) (binary64.rnd (0 / 2)) := by
      change (Fl.div _ _).value = _
      unfold Fl.div
      simp only [show (a - ofR 1).value = some ((0 : ℝ) : EReal) from d, show (a + ofR 1).value = some ((2 : ℝ) : EReal) from s, val_of d, val_of s, EReal.toReal_coe]
      simp [value_round]
    rw [zero_div, binary64.zero] at this
    exact this
  have q' : ((a - ofR 1) / (a + ofR 1)).value = some ((0 : ℝ) : EReal) := q
  generalize (a - ofR 1) / (a + ofR 1) = b at *
  change (Fl.ln b).value = _
  unfold Fl.ln
  simp [q', val_of q]

theorem f_q_bot : IsE (gluon.f_q x) ⊥ := by
  obtain ⟨w, hw, w0, w1⟩ := h.inv_is
  have l := h.ln_bot
  have r := h.root_is
  have h0 : ((10 : ℝ) ^ 1)⁻¹ ≤ 1 := by norm_num
  have m (B : ℝ) (b0 : 1 / 10 ≤ B) (b1 : B ≤ 10) : Mid B := mid_of (k := 1) (by norm_num; linarith) (by norm_num; linarith) (by norm_num)
  have hi : Run (x⁻¹) w 1 0 := (Run.exact hw).monoB le_rfl (by rw [abs_of_nonneg w0]; norm_num at *; linarith)
  have ch : Run (ofR (1 / 2) : Fl binary64) (1 / 2) (1 / 2) 0 :=
    Run.const ⟨1, -1, by norm_num, by norm_num, by norm_num, by norm_num [zpow_neg]⟩ (by norm_num)
  have hr : Run (NumOps.sqrt (x⁻¹ * ofR 4 + ofR 1)) 1 1 0 := by simpa using Run.exact r
  have p1 := (hi.neg.add ch le_rfl (by norm_num) (m _ (by norm_num) (by norm_num))).mul hr (by norm_num) le_rfl (by norm_num) (by norm_num)
    (m _ (by norm_num) (by norm_num))
  obtain ⟨v, hv, -, e⟩ := p1
  have hu : uu ≤ 1 / 10 ^ 15 := by unfold uu; norm_num
  have hu0 := uu_pos
  have v0 : 0 < v := by
    have := (abs_le.1 e).1
    norm_num at *
    linarith
  have q1 := value_mul_bot' hv l v0
  have two : Run (ofR 2 : Fl binary64) 2 2 0 := Run.const ⟨2, 0, by norm_num, by norm_num, by norm_num, by norm_num⟩ (by norm_num)
  obtain ⟨u, hu1, -, -⟩ := (hi.mul two le_rfl le_rfl (by norm_num) (by norm_num) (m _ (by norm_num) (by norm_num))).neg
  have q2 := value_add_bot q1 hu1 (EReal.coe_ne_top _)
  obtain ⟨c, hc, -, -⟩ := (Track.constR (c := 5 / 6) (by norm_num) (by norm_num)).run
  have q3 := value_add_bot q2 hc (EReal.coe_ne_top _)
  have i4 : Is (ofR 4 : Fl binary64) 4 := is_ofR ⟨4, 0, by norm_num, by norm_num, by norm_num, by norm_num⟩
  have i9 : Is (ofR 9 : Fl binary64) 9 := is_ofR ⟨9, 0, by norm_num, by norm_num, by norm_num, by norm_num⟩
  exact value_div_bot (value_mul_bot q3 i4 (by norm_num)) i9 (by norm_num)

theorem f_q_crossed_bot : IsE (gluon.f_q_crossed x) ⊥ := by
  obtain ⟨w, hw, w0, w1⟩ := h.inv_is
  have l := h.ln_bot
  have r := h.root_is
  have m (B : ℝ) (b0 : 1 / 100 ≤ B) (b1 : B ≤ 100) : Mid B := mid_of (k := 2) (by norm_num; linarith) (by norm_num; linarith) (by norm_num)
  have hi : Run (x⁻¹) w 1 0 := (Run.exact hw).monoB le_rfl (by rw [abs_of_nonneg w0]; norm_num at *; linarith)
  have ch : Run (ofR (1 / 2) : Fl binary64) (1 / 2) (1 / 2) 0 :=
    Run.const ⟨1, -1, by norm_num, by norm_num, by norm_num, by norm_num [zpow_neg]⟩ (by norm_num)
  have hr : Run (NumOps.sqrt (x⁻¹ * ofR 4 + ofR 1)) 1 1 0 := by simpa using Run.exact r
  have c8 : Run (ofR 8 : Fl binary64) 8 8 0 := Run.const ⟨8, 0, by norm_num, by norm_num, by norm_num, by norm_num⟩ (by norm_num)
  have c4 : Run (ofR 4 : Fl binary64) 4 4 0 := Run.const ⟨4, 0, by norm_num, by norm_num, by norm_num, by norm_num⟩ (by norm_num)
  have c6 := (Track.constR (c := 1 / 6) (by norm_num) (by norm_num)).run
  have a1 := (hi.add ch le_rfl (by norm_num) (m _ (by norm_num) (by norm_num)))
  have a2 := (hi.mul hi le_rfl le_rfl (by norm_num) (by norm_num) (m _ (by norm_num) (by norm_num))).mul c8 (by norm_num) le_rfl (by norm_num) (by norm_num)
    (m _ (by norm_num) (by norm_num))
  have a3 := (a1.mono (show (0 : ℝ) + 2 ≤ 6 by norm_num)).add (a2.mono (show (0 : ℝ) + 0 + 3 + 0 + 3 ≤ 6 by norm_num)) (by norm_num) (by norm_num)
    (m _ (by norm_num) (by norm_num))
  obtain ⟨v, hv, -, e⟩ := a3.divNum r (by norm_num) (by norm_num) (by norm_num) (m _ (by norm_num) (by norm_num))
  have hu : uu ≤ 1 / 10 ^ 15 := by unfold uu; norm_num
  have hu0 := uu_pos
  have v0 : 0 < v := by
    have := (abs_le.1 e).1
    have := mul_self_nonneg w
    norm_num at *
    linarith
  have q1 := value_mul_bot' hv l v0
  have b1 := hi.mul c4 le_rfl le_rfl (by norm_num) (by norm_num) (m _ (by norm_num) (by norm_num))
  obtain ⟨u, hu1, -, -⟩ := (b1.mono (show (0 : ℝ) + 0 + 3 ≤ 3 by norm_num)).sub (c6.mono (show ((2 : ℕ) : ℝ) ≤ 3 by norm_num)) (by norm_num) (by norm_num)
    (m _ (by norm_num) (by norm_num))
  have q2 := value_add_bot' hu1 q1 (EReal.coe_ne_top _)
  have i4 : Is (ofR 4 : Fl binary64) 4 := is_ofR ⟨4, 0, by norm_num, by norm_num, by norm_num, by norm_num⟩
  have i9 : Is (ofR 9 : Fl binary64) 9 := is_ofR ⟨9, 0, by norm_num, by norm_num, by norm_num, by norm_num⟩
  exact value_div_bot (value_mul_bot q2 i4 (by norm_num)) i9 (by norm_num)

end Far

theorem far_chiral {x : Fl binary64} {s m : ℝ} {q : ℕ × ℝ} (h : Medium x s) (hm : Binary64 m) (hm0 : 0 < m) (hq : Chiral m s q) :
    Far (x / ((ofR q.2 / ofR m) * (ofR q.2 / ofR m))) (s / (q.2 / m) ^ 2) := by
  have h0 : 0 < q.2 / m := lt_of_lt_of_le (by positivity) hq.lo
  have hi : q.2 / m ≤ 10 ^ 100 := by
    have := hq.light
    rw [le_div_iff₀ (by positivity)] at this
    have h1 := h.hi
    have h2 : (q.2 / m) ^ 2 ≤ 1 := by
      generalize (q.2 / m) ^ 2 = Z at *
      norm_num at this h1
      linarith
    have h3 : q.2 / m ≤ 1 := by nlinarith
    exact h3.trans (one_le_pow₀ (by norm_num))
  have hq0 : 0 < q.2 := by rwa [lt_div_iff₀ hm0, zero_mul] at h0
  have r : Track (ofR q.2 / ofR m : Fl binary64) (q.2 / m) (q.2 / m) 2 100 := by
    have := (Run.const hq.num hq0.le).divNum (is_ofR hm) hm0 le_rfl (by norm_num) (mid_of (by rw [← one_div]; exact hq.lo) hi (by norm_num))
    exact ⟨by norm_num at this ⊢; exact this, by rw [← one_div]; exact hq.lo, hi⟩
  have := h.t.div (r.mul r)
  rw [← sq] at this
  exact ⟨⟨this.run.mono (by norm_num), this.lo, this.hi⟩, hq.light⟩

/-- A loop over quarks, one of them very light. -/
theorem loop_bot {F : Fl binary64 → Fl binary64} {G S : ℝ → ℝ} (hF : ∀ x t, Approx x t → ∃ k ≤ 200, Track (F x) (G t) (S t) 650 k)
    (hF' : ∀ x t, Far x t → IsE (F x) ⊥)
    {x : Fl binary64} {s m : ℝ} {nc : ℕ} (h : Medium x s) (hm : Binary64 m) (hm0 : 0 < m) (hc : 1 ≤ nc) (hc' : nc ≤ 10 ^ 6) (qs : List (ℕ × ℝ))
    (hq : ∀ q ∈ qs, Flavour m s q ∨ Chiral m s q) (hl : qs.length ≤ 10 ^ 5) {r : Fl binary64} {R B : ℝ} {n : ℕ} (hr : Run r R B n) (hn : n ≤ 660)
    (hB : (10 ^ 240)⁻¹ ≤ B) (hB' : B ≤ 10 ^ 230) (he : ∃ q ∈ qs, Chiral m s q) :
    IsE ((qs.map fun q => (q.1, (ofR q.2 : Fl binary64))).foldl (fun r q => r + F (x / (ComputedQuark.new nc (ofR m) q.1 q.2).mq_div_m_2) *
        (ComputedQuark.new nc (ofR m) q.1 q.2).nf_div_nc) r) ⊥ := by
  have pos_ratio (p : ℕ × ℝ) (h1 : 1 ≤ p.1) (h2 : p.1 ≤ 10 ^ 6) : ∃ y : ℝ, Is (ofR (p.1 : ℝ) / ofR (nc : ℝ) : Fl binary64) y ∧ 0 < y := by
    have t := (track_nat h1 h2).div (track_nat hc hc')
    obtain ⟨v, hv, -, e⟩ := t.run
    have hu : uu ≤ 1 / 10 ^ 15 := by unfold uu; norm_num
    have hu0 := uu_pos
    have hp : (0 : ℝ) < p.1 / nc := lt_of_lt_of_le (by positivity) t.lo
    have := (abs_le.1 e).1
    norm_num at this
    exact ⟨v, hv, by nlinarith⟩
  have term (q : ℕ × ℝ) (hq : Chiral m s q) : IsE (F (x / (ComputedQuark.new nc (ofR m : Fl binary64) q.1 (ofR q.2)).mq_div_m_2) *
      (ComputedQuark.new nc (ofR m : Fl binary64) q.1 (ofR q.2)).nf_div_nc) ⊥ := by
    obtain ⟨y, hy, y0⟩ := pos_ratio q hq.some hq.few
    exact value_mul_bot (hF' _ _ (far_chiral h hm hm0 hq)) hy y0
  have stay : ∀ (l : List (ℕ × ℝ)), (∀ q ∈ l, Flavour m s q ∨ Chiral m s q) → ∀ r : Fl binary64, IsE r ⊥ →
      IsE ((l.map fun q => (q.1, (ofR q.2 : Fl binary64))).foldl (fun r q => r + F (x / (ComputedQuark.new nc (ofR m) q.1 q.2).mq_div_m_2) *
        (ComputedQuark.new nc (ofR m) q.1 q.2).nf_div_nc) r) ⊥ := by
    intro l
    induction l with
    | nil => intro _ r hr; exact hr
    | cons q l ih =>
      intro hl r hr
      simp only [List.map_cons, List.foldl_cons]
      refine ih (fun p hp => hl p (by simp [hp])) _ ?_
      rcases hl q (by simp) with hq | hq
      · obtain ⟨k, hk, t⟩ := hF _ _ (approx_light h hm hm0 hq)
        obtain ⟨y, hy, -, -⟩ := (t.mul ((track_nat hq.some hq.few).div (track_nat hc hc')) (by norm_num) (by norm_num) (by omega)).run
        exact value_add_bot hr hy (EReal.coe_ne_top _)
      · exact value_add_bot hr (term q hq) (by simp)
  have split : ∀ (l : List (ℕ × ℝ)), (∀ q ∈ l, Flavour m s q ∨ Chiral m s q) → (∃ q ∈ l, Chiral m s q) →
      ∃ pre q post, l = pre ++ q :: post ∧ (∀ p ∈ pre, Flavour m s p) ∧ Chiral m s q := by
    intro l
    induction l with
    | nil => rintro - ⟨q, hq, -⟩; simp at hq
    | cons q l ih =>
      intro hl he
      by_cases hc : Chiral m s q
      · exact ⟨[], q, l, rfl, by simp, hc⟩
      · obtain ⟨pre, p, post, e, h1, h2⟩ := ih (fun p hp => hl p (by simp [hp])) (by
          obtain ⟨p, hp, h⟩ := he
          rcases List.mem_cons.1 hp with rfl | hp
          · exact absurd h hc
          · exact ⟨p, hp, h⟩)
        refine ⟨q :: pre, p, post, by rw [e]; rfl, ?_, h2⟩
        intro a ha
        rcases List.mem_cons.1 ha with rfl | ha
        · exact (hl a (by simp)).resolve_right hc
        · exact h1 a ha
  obtain ⟨pre, q, post, rfl, h1, h2⟩ := split qs hq he
  have hlen : pre.length ≤ 10 ^ 5 := by simp at hl; omega
  have hlen' : (pre.length : ℝ) ≤ 10 ^ 5 := by exact_mod_cast hlen
  obtain ⟨v, hv, -, -⟩ := loop hF h hm hm0 hc hc' pre h1 r R B 660 (hr.mono (by exact_mod_cast hn)) le_rfl (by omega) hB (by
    calc B + pre.length * 10 ^ 220 ≤ 10 ^ 230 + 10 ^ 5 * 10 ^ 220 := by gcongr
      _ = (1 + 1 / 10 ^ 5) * 10 ^ 230 := by norm_num
      _ ≤ 10 ^ 10 * 10 ^ 230 := by gcongr; norm_num
      _ = 10 ^ 240 := by rw [← pow_add])
  rw [List.map_append, List.foldl_append, List.map_cons, List.foldl_cons]
  exact stay post (fun p hp => hq p (by simp [hp])) _ (value_add_bot' hv (term q h2) (EReal.coe_ne_top _))

end Qcd
