import Verif.Lemmas.QuarkAccuracy
import Verif.Props.VacuumAccuracy
import Verif.Props.EuclideanQuarks

/-! C124: accuracy of the gluon functions with quarks in the arithmetic of `f64`. The field configuration is computed from `f64` numbers, too:
`computedConfig nc m qs` is `FieldConfig::new(nc, m, qs)`. -/

namespace Qcd
open Fl Spec consts

/-- `FieldConfig::new` for the `f64` numbers `m` and `qs[i].1`. -/
noncomputable def computedConfig (nc : ℕ) (m : ℝ) (qs : List (ℕ × ℝ)) : ComputedConfig (Fl binary64) :=
  ComputedConfig.new nc (ofR m) (qs.map fun q => (q.1, ofR q.2))

/-- **C124** (models): with exact arithmetic, the functions of a computed configuration are those of the model used by the other properties. -/
theorem C124_models_agree (k : Consts ℝ) (s f0 xi m : ℝ) (nc : ℕ) (qs : List (ℕ × ℝ)) :
    computed.dressing_inv_landau_w_field_config s f0 (ComputedConfig.new nc m qs) =
      qcd.gluon.dressing_inv_landau_w_field_config k s f0 (FieldConfig.new nc m qs) ∧
    computed.dressing_inv_w_field_config s f0 xi (ComputedConfig.new nc m qs) =
      qcd.gluon.dressing_inv_w_field_config k s f0 xi (FieldConfig.new nc m qs) ∧
    computed.dressing_crossed_inv_landau_w_field_config s f0 (ComputedConfig.new nc m qs) =
      qcd.gluon.dressing_crossed_inv_landau_w_field_config k s f0 (FieldConfig.new nc m qs) ∧
    computed.dressing_crossed_inv_w_field_config s f0 xi (ComputedConfig.new nc m qs) =
      qcd.gluon.dressing_crossed_inv_w_field_config k s f0 xi (FieldConfig.new nc m qs) ∧
    computed.dressing_landau_w_field_config s f0 (ComputedConfig.new nc m qs) =
      qcd.gluon.dressing_landau_w_field_config k s f0 (FieldConfig.new nc m qs) ∧
    computed.propagator_landau_w_field_config s f0 (ComputedConfig.new nc m qs) =
      qcd.gluon.propagator_landau_w_field_config k s f0 (FieldConfig.new nc m qs) := by
  refine ⟨?_, ?_, ?_, ?_, ?_, ?_⟩ <;>
  simp only [computed.dressing_inv_landau_w_field_config, computed.dressing_inv_w_field_config, computed.dressing_crossed_inv_landau_w_field_config,
    computed.dressing_crossed_inv_w_field_config, computed.dressing_landau_w_field_config, computed.propagator_landau_w_field_config,
    qcd.gluon.dressing_inv_landau_w_field_config, qcd.gluon.dressing_inv_w_field_config, qcd.gluon.dressing_crossed_inv_landau_w_field_config,
    qcd.gluon.dressing_crossed_inv_w_field_config, qcd.gluon.dressing_landau_w_field_config, qcd.gluon.propagator_landau_w_field_config,
    ComputedConfig.new, FieldConfig.new, ComputedQuark.new, QuarkInternal.new, List.foldl_map, ofR_real]

theorem quark_hyp (x : Fl binary64) (t : ℝ) (h : Approx x t) : ∃ k ≤ 200, Track (gluon.f_q x) (gluon.f_q t) (quarkScale t) 650 k := by
  obtain ⟨k, hk, t'⟩ := h.quarks_track
  rw [quark_scale_eq h.pos] at t'
  exact ⟨k, hk, t'.mono (by norm_num)⟩

theorem crossed_hyp (x : Fl binary64) (t : ℝ) (h : Approx x t) : ∃ k ≤ 200, Track (gluon.f_q_crossed x) (gluon.f_q_crossed t) (crossedScale t) 650 k := by
  obtain ⟨k, hk, t'⟩ := h.crossed_track
  rw [crossed_scale_eq h.pos] at t'
  exact ⟨k, hk, t'⟩

/-- The functions without quarks. -/
theorem glue_runs {x : Fl binary64} {s f0 xi : ℝ} (h : Medium x s) (hf : Binary64 f0) (hf' : |f0| ≤ 10 ^ 6) (hx : Binary64 xi) (hx' : |xi| ≤ 10 ^ 6) :
    (∃ k ≤ 210, Track (ym.gluon.dressing_inv_landau x f0) (ym.gluon.dressing_inv_landau s f0) (gluonScale s + (|f0| + 1)) 84 k) ∧
    ∃ k ≤ 210, Track (ym.gluon.dressing_inv x f0 xi) (ym.gluon.dressing_inv s f0 xi) (gluonScale s + (|f0| + 1) + gluonGaugeScale s * (|xi| + 1)) 84 k := by
  have tc := track_any hf hf'
  have tx := track_any hx hx'
  obtain ⟨k2, hk2, t2⟩ := h.gluon_track
  obtain ⟨k3, hk3, t3⟩ := h.gluon_xi_track
  have f1 := t2.add tc (by norm_num) (by omega)
  have f2 := f1.add (t3.mul tx (by norm_num) (by norm_num) (by omega)) (by norm_num) (by omega)
  rw [gluon_scale_eq h.pos] at f1
  rw [gluon_scale_eq h.pos, gauge_scale_eq h.pos] at f2
  exact ⟨⟨_, by omega, f1.mono (by norm_num)⟩, ⟨_, by omega, f2.mono (by norm_num)⟩⟩

theorem run_near {a : Fl binary64} {x B : ℝ} {n : ℕ} (h : Run a x B n) : Near a x (n * ulp * B) := by
  obtain ⟨v, hv, -, h2⟩ := h
  exact ⟨v, hv, h2⟩

section
variable {x : Fl binary64} {s m : ℝ} {nc : ℕ} {F : Fl binary64 → Fl binary64} {G S : ℝ → ℝ}

/-- Glue and quarks. -/
theorem glue_quarks (hF : ∀ x t, Approx x t → ∃ k ≤ 200, Track (F x) (G t) (S t) 650 k) (h : Medium x s) (hm : Binary64 m) (hm0 : 0 < m) (hc : 1 ≤ nc)
    (hc' : nc ≤ 10 ^ 6) (qs : List (ℕ × ℝ)) (hq : ∀ q ∈ qs, Flavour m s q) (hl : qs.length ≤ 10 ^ 5) {r : Fl binary64} {R B : ℝ}
    (hr : ∃ k ≤ 210, Track r R B 84 k) :
    Near ((qs.map fun q => (q.1, (ofR q.2 : Fl binary64))).foldl (fun r q => r + F (x / (ComputedQuark.new nc (ofR m) q.1 q.2).mq_div_m_2) *
        (ComputedQuark.new nc (ofR m) q.1 q.2).nf_div_nc) r)
      (qs.foldl (fun r q => r + G (s / (q.2 / m * (q.2 / m))) * ((q.1 : ℝ) / nc)) R)
      ((660 + 2 * qs.length) * ulp * (B + quarksScale S nc m s qs)) := by
  obtain ⟨k, hk, t⟩ := hr
  have hlen : (qs.length : ℝ) ≤ 10 ^ 5 := by exact_mod_cast hl
  have b1 : B ≤ 10 ^ 210 := t.hi.trans (pow_le_pow_right₀ (by norm_num) hk)
  have b0 : (10 ^ 240)⁻¹ ≤ B := le_trans (inv_anti₀ (by positivity) (pow_le_pow_right₀ (by norm_num) (by omega))) t.lo
  have := run_near (loop hF h hm hm0 hc hc' qs hq r R B 660 (t.run.mono (by norm_num)) le_rfl (by omega) b0 (by
    calc B + qs.length * 10 ^ 220 ≤ 10 ^ 210 + 10 ^ 5 * 10 ^ 220 := by gcongr
      _ ≤ 10 ^ 230 + 10 ^ 5 * 10 ^ 220 := by gcongr <;> norm_num
      _ = (1 + 1 / 10 ^ 5) * 10 ^ 230 := by norm_num
      _ ≤ 10 ^ 10 * 10 ^ 230 := by gcongr; norm_num
      _ = 10 ^ 240 := by rw [← pow_add]))
  push_cast at this
  exact this

end

/-- **C124** (field configurations): for any list of quarks the error of the computed inverse dressing functions is at most 660 roundings, and two more
for every entry of the list, of the sum of the absolute values of the terms. -/
theorem C124_field_config (k : Consts ℝ) {x : Fl binary64} {s f0 xi m : ℝ} {nc : ℕ} (h : Medium x s) (hf : Binary64 f0) (hf' : |f0| ≤ 10 ^ 6)
    (hx : Binary64 xi) (hx' : |xi| ≤ 10 ^ 6) (hm : Binary64 m) (hm0 : 0 < m) (hc : 1 ≤ nc) (hc' : nc ≤ 10 ^ 6) (qs : List (ℕ × ℝ))
    (hq : ∀ q ∈ qs, Flavour m s q) (hl : qs.length ≤ 10 ^ 5) :
    Near (computed.dressing_inv_landau_w_field_config x f0 (computedConfig nc m qs))
      (qcd.gluon.dressing_inv_landau_w_field_config k s f0 (FieldConfig.new nc m qs))
      ((660 + 2 * qs.length) * ulp * (gluonScale s + (|f0| + 1) + quarksScale quarkScale nc m s qs)) ∧
    Near (computed.dressing_inv_w_field_config x f0 xi (computedConfig nc m qs))
      (qcd.gluon.dressing_inv_w_field_config k s f0 xi (FieldConfig.new nc m qs))
      ((660 + 2 * qs.length) * ulp * (gluonScale s + (|f0| + 1) + gluonGaugeScale s * (|xi| + 1) + quarksScale quarkScale nc m s qs)) ∧
    Near (computed.dressing_crossed_inv_landau_w_field_config x f0 (computedConfig nc m qs))
      (qcd.gluon.dressing_crossed_inv_landau_w_field_config k s f0 (FieldConfig.new nc m qs))
      ((660 + 2 * qs.length) * ulp * (gluonScale s + (|f0| + 1) + quarksScale crossedScale nc m s qs)) ∧
    Near (computed.dressing_crossed_inv_w_field_config x f0 xi (computedConfig nc m qs))
      (qcd.gluon.dressing_crossed_inv_w_field_config k s f0 xi (FieldConfig.new nc m qs))
      ((660 + 2 * qs.length) * ulp * (gluonScale s + (|f0| + 1) + gluonGaugeScale s * (|xi| + 1) + quarksScale crossedScale nc m s qs)) := by
  obtain ⟨g1, g2⟩ := glue_runs h hf hf' hx hx'
  have a1 := glue_quarks quark_hyp h hm hm0 hc hc' qs hq hl g1
  have a2 := glue_quarks quark_hyp h hm hm0 hc hc' qs hq hl g2
  have a3 := glue_quarks crossed_hyp h hm hm0 hc hc' qs hq hl g1
  have a4 := glue_quarks crossed_hyp h hm hm0 hc hc' qs hq hl g2
  refine ⟨?_, ?_, ?_, ?_⟩
  · simp only [computed.dressing_inv_landau_w_field_config, computedConfig, ComputedConfig.new, qcd.gluon.dressing_inv_landau_w_field_config, FieldConfig.new,
      QuarkInternal.new, List.foldl_map, ofR_real] at a1 ⊢
    exact a1
  · simp only [computed.dressing_inv_w_field_config, computedConfig, ComputedConfig.new, qcd.gluon.dressing_inv_w_field_config, FieldConfig.new,
      QuarkInternal.new, List.foldl_map, ofR_real] at a2 ⊢
    exact a2
  · simp only [computed.dressing_crossed_inv_landau_w_field_config, computedConfig, ComputedConfig.new, qcd.gluon.dressing_crossed_inv_landau_w_field_config,
      FieldConfig.new, QuarkInternal.new, List.foldl_map, ofR_real] at a3 ⊢
    exact a3
  · simp only [computed.dressing_crossed_inv_w_field_config, computedConfig, ComputedConfig.new, qcd.gluon.dressing_crossed_inv_w_field_config,
      FieldConfig.new, QuarkInternal.new, List.foldl_map, ofR_real] at a4 ⊢
    exact a4

/-- **C124** (very light quarks): one quark lighter than `2^-28` times the momentum makes the computed inverse dressing functions minus infinity, the
dressing function and the propagator zero. -/
theorem C124_very_light {x : Fl binary64} {s f0 xi m : ℝ} {nc : ℕ} (h : Medium x s) (hf : Binary64 f0) (hf' : |f0| ≤ 10 ^ 6)
    (hx : Binary64 xi) (hx' : |xi| ≤ 10 ^ 6) (hm : Binary64 m) (hm0 : 0 < m) (hc : 1 ≤ nc) (hc' : nc ≤ 10 ^ 6) (qs : List (ℕ × ℝ))
    (hq : ∀ q ∈ qs, Flavour m s q ∨ Chiral m s q) (he : ∃ q ∈ qs, Chiral m s q) (hl : qs.length ≤ 10 ^ 5) :
    IsE (computed.dressing_inv_landau_w_field_config x f0 (computedConfig nc m qs)) ⊥ ∧
    IsE (computed.dressing_inv_w_field_config x f0 xi (computedConfig nc m qs)) ⊥ ∧
    IsE (computed.dressing_crossed_inv_landau_w_field_config x f0 (computedConfig nc m qs)) ⊥ ∧
    IsE (computed.dressing_crossed_inv_w_field_config x f0 xi (computedConfig nc m qs)) ⊥ ∧
    Is (computed.dressing_landau_w_field_config x f0 (computedConfig nc m qs)) 0 ∧
    Is (computed.propagator_landau_w_field_config x f0 (computedConfig nc m qs)) 0 := by
  obtain ⟨⟨k1, hk1, t1⟩, ⟨k2, hk2, t2⟩⟩ := glue_runs h hf hf' hx hx'
  have lo {B : ℝ} {k : ℕ} (hk : k ≤ 210) (hB : (10 ^ k)⁻¹ ≤ B) : (10 ^ 240)⁻¹ ≤ B :=
    le_trans (inv_anti₀ (by positivity) (pow_le_pow_right₀ (by norm_num) (by omega))) hB
  have hi {B : ℝ} {k : ℕ} (hk : k ≤ 210) (hB : B ≤ 10 ^ k) : B ≤ 10 ^ 230 := hB.trans (pow_le_pow_right₀ (by norm_num) (by omega))
  have a1 := loop_bot quark_hyp (fun _ _ h => h.f_q_bot) h hm hm0 hc hc' qs hq hl t1.run (by norm_num) (lo hk1 t1.lo) (hi hk1 t1.hi) he
  have a2 := loop_bot quark_hyp (fun _ _ h => h.f_q_bot) h hm hm0 hc hc' qs hq hl t2.run (by norm_num) (lo hk2 t2.lo) (hi hk2 t2.hi) he
  have a3 := loop_bot crossed_hyp (fun _ _ h => h.f_q_crossed_bot) h hm hm0 hc hc' qs hq hl t1.run (by norm_num) (lo hk1 t1.lo) (hi hk1 t1.hi) he
  have a4 := loop_bot crossed_hyp (fun _ _ h => h.f_q_crossed_bot) h hm hm0 hc hc' qs hq hl t2.run (by norm_num) (lo hk2 t2.lo) (hi hk2 t2.hi) he
  have b1 : IsE (computed.dressing_inv_landau_w_field_config x f0 (computedConfig nc m qs)) ⊥ := by
    simp only [computed.dressing_inv_landau_w_field_config, computedConfig, ComputedConfig.new, List.foldl_map] at a1 ⊢
    exact a1
  have d := value_inv_bot b1
  refine ⟨b1, ?_, ?_, ?_, d, ?_⟩
  · simp only [computed.dressing_inv_w_field_config, computedConfig, ComputedConfig.new, List.foldl_map] at a2 ⊢
    exact a2
  · simp only [computed.dressing_crossed_inv_landau_w_field_config, computedConfig, ComputedConfig.new, List.foldl_map] at a3 ⊢
    exact a3
  · simp only [computed.dressing_crossed_inv_w_field_config, computedConfig, ComputedConfig.new, List.foldl_map] at a4 ⊢
    exact a4
  · have : IsE (computed.dressing_landau_w_field_config x f0 (computedConfig nc m qs) / x) (binary64.rnd (0 / s)) := by
      have hs := h.pos
      have hd : (computed.dressing_landau_w_field_config x f0 (computedConfig nc m qs)).value = some ((0 : ℝ) : EReal) := d
      have hv : x.value = some (s : EReal) := h.is
      change (Fl.div _ _).value = _
      unfold Fl.div
      simp only [hd, hv, val_of hd, val_of hv, EReal.toReal_coe]
      simp [value_round, hs.ne']
    rw [zero_div, binary64.zero] at this
    exact this

/-! ### The functions that use the global number of quarks -/

/-- A rounded number. -/
theorem track_round {c : ℝ} {k : ℕ} (h1 : (10 ^ k)⁻¹ ≤ c) (h2 : c ≤ 10 ^ k) (hk : k ≤ 250) : Track (ofR c : Fl binary64) c c 2 k := by
  have hc : 0 < c := lt_of_lt_of_le (by positivity) h1
  have hv : IsE (ofR c : Fl binary64) (binary64.rnd c) := value_round _ _
  have := Run.of_round (n := 0) (x := c) (B := c) hv (by rw [abs_of_pos hc]) (mid_of h1 h2 hk) le_rfl (by norm_num) (by simp)
  exact ⟨by simpa using this, h1, h2⟩

/-- **C124** (global constants): the inverse dressing functions for `nf` quarks of mass `mq` (in units of the gluon mass) and `nc` colours. -/
theorem C124_global {k : Consts ℝ} {x : Fl binary64} {s f0 xi mq : ℝ} {nf nc : ℕ} (h : Medium x s) (hf : Binary64 f0) (hf' : |f0| ≤ 10 ^ 6)
    (hx : Binary64 xi) (hx' : |xi| ≤ 10 ^ 6) (hk : k.nf_div_nc = (nf : ℝ) / nc) (hn : 1 ≤ nf) (hn' : nf ≤ 10 ^ 6) (hc : 1 ≤ nc) (hc' : nc ≤ 10 ^ 6)
    (hq : 1 / 10 ^ 6 ≤ mq) (hq' : mq ≤ 10 ^ 6) (h0 : 1 / 10 ^ 6 ≤ s / mq ^ 2) (h1 : s / mq ^ 2 ≤ 10 ^ 6) :
    Near (qcd.gluon.dressing_inv_landau k x mq f0) (qcd.gluon.dressing_inv_landau k s mq f0)
      (660 * ulp * (gluonScale s + (|f0| + 1) + quarkScale (s / mq ^ 2) * (nf / nc))) ∧
    Near (qcd.gluon.dressing_inv k x mq f0 xi) (qcd.gluon.dressing_inv k s mq f0 xi)
      (660 * ulp * (gluonScale s + (|f0| + 1) + gluonGaugeScale s * (|xi| + 1) + quarkScale (s / mq ^ 2) * (nf / nc))) ∧
    Near (qcd.gluon.dressing_crossed_inv_landau k x mq f0) (qcd.gluon.dressing_crossed_inv_landau k s mq f0)
      (660 * ulp * (gluonScale s + (|f0| + 1) + crossedScale (s / mq ^ 2) * (nf / nc))) ∧
    Near (qcd.gluon.dressing_crossed_inv k x mq f0 xi) (qcd.gluon.dressing_crossed_inv k s mq f0 xi)
      (660 * ulp * (gluonScale s + (|f0| + 1) + gluonGaugeScale s * (|xi| + 1) + crossedScale (s / mq ^ 2) * (nf / nc))) := by
  obtain ⟨⟨k1, hk1, t1⟩, ⟨k2, hk2, t2⟩⟩ := glue_runs h hf hf' hx hx'
  have m0 : 0 < mq := lt_of_lt_of_le (by norm_num) hq
  have q0 : ((10 : ℝ) ^ 12)⁻¹ ≤ mq * mq :=
    calc ((10 : ℝ) ^ 12)⁻¹ = 1 / 10 ^ 6 * (1 / 10 ^ 6) := by norm_num
      _ ≤ mq * mq := by gcongr
  have q1 : mq * mq ≤ 10 ^ 12 :=
    calc mq * mq ≤ 10 ^ 6 * 10 ^ 6 := by gcongr
      _ = 10 ^ 12 := by norm_num
  have d := h.t.div (track_round q0 q1 (by norm_num))
  have ap : Approx (x / ofR (mq * mq)) (s / mq ^ 2) := by
    rw [sq]
    rw [sq] at h0 h1
    exact ⟨⟨d.run.mono (by norm_num), by rw [← one_div]; exact h0, h1⟩⟩
  have n1 := (track_nat hn hn').div (track_nat hc hc')
  have tn : Track (ofR k.nf_div_nc : Fl binary64) (nf / nc : ℝ) (nf / nc : ℝ) 2 12 := by rw [hk]; exact track_round n1.lo n1.hi (by norm_num)
  obtain ⟨k3, hk3, f1⟩ := quark_hyp _ _ ap
  obtain ⟨k4, hk4, f2⟩ := crossed_hyp _ _ ap
  have p1 := f1.mul tn (by norm_num) (by norm_num) (by omega)
  have p2 := f2.mul tn (by norm_num) (by norm_num) (by omega)
  have r1 := ((t1.add p1 (by norm_num) (by omega)).mono (n' := 660) (by norm_num)).near rfl
  have r2 := ((t2.add p1 (by norm_num) (by omega)).mono (n' := 660) (by norm_num)).near rfl
  have r3 := ((t1.add p2 (by norm_num) (by omega)).mono (n' := 660) (by norm_num)).near rfl
  have r4 := ((t2.add p2 (by norm_num) (by omega)).mono (n' := 660) (by norm_num)).near rfl
  push_cast at r1 r2 r3 r4
  rw [sq, ← hk] at *
  exact ⟨r1, r2, r3, r4⟩

/-! ### Digits of the propagators -/

theorem quarkScale_le {t : ℝ} (h0 : 1 / 10 ≤ t) (h1 : t ≤ 100) : 0 ≤ quarkScale t ∧ quarkScale t ≤ 6200 := by
  have ht : 0 < t := by linarith
  obtain ⟨g1, g2, -, -⟩ := root_bounds (s := t) (by norm_num; linarith) (by norm_num; linarith)
  rw [root_eq] at g1 g2
  have e1 : 4 / t ≤ 40 := by rw [div_le_iff₀ ht]; linarith
  have r2 : root t ≤ 6.5 := by
    unfold root
    exact Real.sqrt_le_iff.2 ⟨by norm_num, by norm_num at *; linarith⟩
  have hw : 1 / t ≤ 10 := by rw [div_le_iff₀ ht]; linarith
  have hl : |Real.log ((root t - 1) / (root t + 1))| ≤ 102 := by
    have hq' : 0 < (root t - 1) / (root t + 1) := div_pos (by linarith) (by linarith)
    have a1 := Real.log_le_sub_one_of_pos hq'
    have a2 := Real.one_sub_inv_le_log_of_pos hq'
    rw [inv_div] at a2
    have a4 : (root t - 1) / (root t + 1) ≤ 1 := by rw [div_le_one (by linarith)]; linarith
    exact abs_le.2 ⟨by linarith, by linarith⟩
  have hl0 := abs_nonneg (Real.log ((root t - 1) / (root t + 1)))
  have hp : 0 ≤ (root t + 1) / (root t - 1) := div_nonneg (by linarith) (by linarith)
  have g3 : (root t + 1) / (root t - 1) ≤ 102 := by linarith
  have e : quarkScale t = 4 / 9 * ((1 / t + 1 / 2) * root t * (|Real.log ((root t - 1) / (root t + 1))| + (root t + 1) / (root t - 1)) + 2 * (1 / t) + 5 / 6) := by
    unfold quarkScale
    generalize |Real.log ((root t - 1) / (root t + 1))| = L
    generalize (root t + 1) / (root t - 1) = Q
    ring
  have hw0 : 0 < 1 / t := by positivity
  have r0 : 0 < root t := by linarith
  refine ⟨by rw [e]; positivity, ?_⟩
  rw [e]
  calc _ ≤ 4 / 9 * ((10 + 1 / 2) * 6.5 * (102 + 102) + 2 * 10 + 5 / 6) := by gcongr
    _ ≤ (6200 : ℝ) := by norm_num

/-- **C124** (propagator): at momenta squared between `m²/10` and `10 m²`, and between `mq²/10` and `100 mq²` for every quark, in an asymptotically free
theory with a renormalisation constant not too close to the first pole (C107), the computed dressing function and propagator in the Landau gauge are
correct to six digits. -/
theorem C124_propagator (k : Consts ℝ) {x : Fl binary64} {s f0 m rho : ℝ} {nc : ℕ} (hx : Is x s) (hs : Binary64 s) (h0 : 1 / 10 ≤ s) (h1 : s ≤ 10)
    (hf : Binary64 f0) (hm : Binary64 m) (hm0 : 0 < m) (hc : 1 ≤ nc) (hc' : nc ≤ 10 ^ 6) (qs : List (ℕ × ℝ)) (hl : qs.length ≤ 100) (hr : 1 ≤ rho)
    (hq : ∀ q ∈ qs, 1 ≤ q.1 ∧ q.1 ≤ 10 ^ 6 ∧ Binary64 q.2 ∧ 0 < q.2 ∧ m ^ 2 ≤ 5 * rho * q.2 ^ 2 ∧ 1 / 10 ≤ s / (q.2 / m) ^ 2 ∧ s / (q.2 / m) ^ 2 ≤ 100)
    (hN : 2 / 9 * (qs.map fun q => (q.1 : ℝ) / nc).sum ≤ 13 / 18)
    (hf0 : -0.8 + 2 / 9 * (qs.map fun q => (q.1 : ℝ) / nc).sum * Real.log rho ≤ f0) (hf1 : f0 ≤ 100) :
    Near (computed.dressing_landau_w_field_config x f0 (computedConfig nc m qs))
      (qcd.gluon.dressing_landau_w_field_config k s f0 (FieldConfig.new nc m qs))
      (1 / 10 ^ 6 * qcd.gluon.dressing_landau_w_field_config k s f0 (FieldConfig.new nc m qs)) ∧
    Near (computed.propagator_landau_w_field_config x f0 (computedConfig nc m qs))
      (qcd.gluon.propagator_landau_w_field_config k s f0 (FieldConfig.new nc m qs))
      (1 / 10 ^ 6 * qcd.gluon.propagator_landau_w_field_config k s f0 (FieldConfig.new nc m qs)) := by
  have h : Medium x s := ⟨hx, hs, by norm_num; linarith, by norm_num; linarith⟩
  have hs0 := h.pos
  have z : Binary64 0 := ⟨0, 0, by norm_num, by norm_num, by norm_num, by norm_num⟩
  have n0 : 0 ≤ (qs.map fun q => (q.1 : ℝ) / nc).sum := by
    refine List.sum_nonneg fun y hy => ?_
    obtain ⟨q, -, rfl⟩ := List.mem_map.1 hy
    positivity
  have bf : |f0| ≤ 100 := abs_le.2 ⟨by have := mul_nonneg (mul_nonneg (show (0 : ℝ) ≤ 2 / 9 by norm_num) n0) (Real.log_nonneg hr); norm_num at *; linarith, hf1⟩
  have fl : ∀ q ∈ qs, Flavour m s q := fun q hq' => by
    obtain ⟨a1, a2, a3, a4, -, a6, a7⟩ := hq q hq'
    have hp : 0 < q.2 / m := div_pos a4 hm0
    have b1 : (q.2 / m) ^ 2 ≤ 100 := by
      rw [le_div_iff₀ (by positivity)] at a6
      linarith
    have b2 : 1 / 1000 ≤ (q.2 / m) ^ 2 := by
      rw [div_le_iff₀ (by positivity)] at a7
      linarith
    refine ⟨a1, a2, a3, ?_, ?_, by norm_num at *; linarith, by norm_num at *; linarith⟩
    · by_contra hcon
      push Not at hcon
      have : (q.2 / m) ^ 2 ≤ (1 / 10 ^ 6) ^ 2 := by gcongr
      norm_num at this b2
      linarith
    · by_contra hcon
      push Not at hcon
      have : (10 ^ 6) ^ 2 ≤ (q.2 / m) ^ 2 := by gcongr
      norm_num at this b1
      linarith
  obtain ⟨v, hv, e⟩ := (C124_field_config k h hf (bf.trans (by norm_num)) z (by norm_num) hm hm0 hc hc' qs fl (by omega)).1
  obtain ⟨-, ⟨n2, a2⟩, -⟩ := scales h0 h1
  have hsum : 0 ≤ quarksScale quarkScale nc m s qs ∧ quarksScale quarkScale nc m s qs ≤ 6200 * (qs.map fun q => (q.1 : ℝ) / nc).sum := by
    unfold quarksScale
    constructor
    · refine List.sum_nonneg fun y hy => ?_
      obtain ⟨q, hq', rfl⟩ := List.mem_map.1 hy
      obtain ⟨-, -, -, -, -, a6, a7⟩ := hq q hq'
      exact mul_nonneg (quarkScale_le a6 a7).1 (by positivity)
    · rw [← List.sum_map_mul_left]
      refine List.sum_le_sum fun q hq' => ?_
      obtain ⟨-, -, -, -, -, a6, a7⟩ := hq q hq'
      have := (quarkScale_le a6 a7).2
      gcongr
  have hu : ulp ≤ 1.2 / 10 ^ 16 := by unfold ulp; norm_num
  have hu0 : 0 < ulp := by unfold ulp; positivity
  have hlen : (qs.length : ℝ) ≤ 100 := by exact_mod_cast hl
  have hE : (660 + 2 * qs.length) * ulp * (gluonScale s + (|f0| + 1) + quarksScale quarkScale nc m s qs) ≤ 1.7 / 10 ^ 8 := by
    have hQ : quarksScale quarkScale nc m s qs ≤ 20150 := by linarith [hsum.2]
    have := hsum.1
    calc _ ≤ (660 + 2 * 100) * (1.2 / 10 ^ 16) * (140000 + (100 + 1) + 20150) := by gcongr
      _ ≤ (1.7 / 10 ^ 8 : ℝ) := by norm_num
  have shift : qcd.gluon.dressing_inv_landau_w_field_config k s f0 (FieldConfig.new nc m qs) =
      qcd.gluon.dressing_inv_landau_w_field_config k s (f0 - 0.076) (FieldConfig.new nc m qs) + 0.076 := by
    rw [(C29_additive k s f0 0 nc m qs).1, (C29_additive k s (f0 - 0.076) 0 nc m qs).1]
    have e1 : ym.gluon.dressing_inv_landau s f0 = gluon.f s + f0 := rfl
    have e2 : ym.gluon.dressing_inv_landau s (f0 - 0.076) = gluon.f s + (f0 - 0.076) := rfl
    rw [e1, e2]
    ring
  have d0 : 0.076 ≤ qcd.gluon.dressing_inv_landau_w_field_config k s f0 (FieldConfig.new nc m qs) := by
    have := (C107_qcd k (f0 := f0 - 0.076) (xi := 0) (nc := nc) hm0 hr qs (fun q hq' => ⟨(hq q hq').2.2.2.1, (hq q hq').2.2.2.2.1⟩) le_rfl
      (by linarith) (by norm_num at *; linarith) s hs0).2.1.1
    rw [shift]
    linarith
  have d1 : qcd.gluon.dressing_inv_landau_w_field_config k s f0 (FieldConfig.new nc m qs) ≤ 200000 := by
    obtain ⟨g1, -⟩ := glue_runs h hf (bf.trans (by norm_num)) z (by norm_num)
    obtain ⟨k1, -, t1⟩ := g1
    have b := (le_abs_self _).trans t1.run.bound
    rw [(C29_additive k s f0 0 nc m qs).1]
    have hneg : quarkSum gluon.f_q s nc m qs ≤ 0 := by
      unfold quarkSum
      refine (List.sum_le_card_nsmul _ 0 fun y hy => ?_).trans (by simp)
      obtain ⟨q, hq', rfl⟩ := List.mem_map.1 hy
      have hp : 0 < s / (q.2 / m) ^ 2 := lt_of_lt_of_le (by norm_num) (fl q hq').heavy
      simp only [ofR_real]
      exact mul_nonpos_of_nonpos_of_nonneg (C61_sign _ hp).1.le (by positivity)
    linarith
  have hd : computed.dressing_landau_w_field_config x f0 (computedConfig nc m qs) =
    (computed.dressing_inv_landau_w_field_config x f0 (computedConfig nc m qs))⁻¹ := rfl
  have hd' : qcd.gluon.dressing_landau_w_field_config k s f0 (FieldConfig.new nc m qs) =
    (qcd.gluon.dressing_inv_landau_w_field_config k s f0 (FieldConfig.new nc m qs))⁻¹ := rfl
  have hp : computed.propagator_landau_w_field_config x f0 (computedConfig nc m qs) =
    (computed.dressing_inv_landau_w_field_config x f0 (computedConfig nc m qs))⁻¹ / x := rfl
  have hp' : qcd.gluon.propagator_landau_w_field_config k s f0 (FieldConfig.new nc m qs) =
    (qcd.gluon.dressing_inv_landau_w_field_config k s f0 (FieldConfig.new nc m qs))⁻¹ / s := rfl
  rw [hd, hd', hp, hp']
  replace e := e.trans hE
  generalize computed.dressing_inv_landau_w_field_config x f0 (computedConfig nc m qs) = a at hv ⊢
  generalize qcd.gluon.dressing_inv_landau_w_field_config k s f0 (FieldConfig.new nc m qs) = D at *
  clear hd hd' hp hp' shift
  have hD : 0 < D := lt_of_lt_of_le (by norm_num) d0
  have i0 : 1 / 200000 ≤ D⁻¹ := by rw [one_div]; exact inv_anti₀ hD d1
  have i1 : D⁻¹ ≤ 20 := by rw [inv_le_comm₀ hD (by norm_num)]; norm_num at *; linarith
  have j0 : 1 / 10 ≤ s⁻¹ := by rw [one_div]; exact inv_anti₀ hs0 h1
  have j1 : s⁻¹ ≤ 10 := by rw [inv_le_comm₀ hs0 (by norm_num), ← one_div]; exact h0
  have mid (y : ℝ) (y0 : 1 / 10 ^ 7 ≤ y) (y1 : y ≤ 10 ^ 7) : Mid |y| := by
    rw [abs_of_pos (lt_of_lt_of_le (by norm_num) y0)]
    exact mid_of (k := 7) (by rw [← one_div]; exact y0) y1 (by norm_num)
  have ra : Rel a D (2.3 / 10 ^ 7) := ⟨v, hv, by rw [abs_of_pos hD]; norm_num at *; linarith⟩
  have ria := ra.inv (mid _ (by norm_num at *; linarith) (by norm_num; linarith)) (mid _ (by norm_num at *; linarith) (by norm_num; linarith)) (by norm_num) (by norm_num)
  obtain ⟨w, hw, ew⟩ := ria
  have hi0 : 0 < D⁻¹ := inv_pos.2 hD
  have hdiv : IsE (a⁻¹ / x) (binary64.rnd (w / s)) := by
    have hw' : (a⁻¹).value = some (w : EReal) := hw
    have hx' : x.value = some (s : EReal) := hx
    generalize a⁻¹ = b at *
    change (Fl.div b x).value = _
    unfold Fl.div
    simp only [hw', hx', val_of hw', val_of hx', EReal.toReal_coe]
    simp [value_round, hs0.ne']
  have p0 : 1 / 10 ^ 7 ≤ D⁻¹ / s := by
    rw [div_eq_mul_inv D⁻¹]
    calc (1 : ℝ) / 10 ^ 7 ≤ 1 / 200000 * (1 / 10) := by norm_num
      _ ≤ D⁻¹ * s⁻¹ := by gcongr
  have p1 : D⁻¹ / s ≤ 10 ^ 7 := by
    rw [div_eq_mul_inv D⁻¹]
    calc D⁻¹ * s⁻¹ ≤ 20 * 10 := by gcongr
      _ ≤ 10 ^ 7 := by norm_num
  obtain ⟨y, hy, ey⟩ := Rel.of_round (e := 5 / 10 ^ 7) hdiv (mid _ p0 p1) (by norm_num) (by norm_num) (by
    rw [← sub_div, abs_div, abs_div, abs_of_pos hs0, ← mul_div_assoc]
    gcongr
    refine ew.trans ?_
    gcongr
    norm_num)
  rw [abs_of_pos hi0] at ew
  rw [abs_of_pos (show 0 < D⁻¹ / s by positivity)] at ey
  exact ⟨⟨w, hw, ew.trans (by gcongr; norm_num)⟩, ⟨y, hy, ey.trans (by gcongr; norm_num)⟩⟩

/-- Two quarks of mass `m/2` and one of mass `3m/4`, at `p² = m²`. -/
example : ∀ q ∈ [((2 : ℕ), (1 / 2 : ℝ)), (1, 3 / 4)], Flavour 1 1 q := by
  intro q hq
  simp only [List.mem_cons, List.not_mem_nil, or_false] at hq
  rcases hq with rfl | rfl
  · exact ⟨by norm_num, by norm_num, ⟨1, -1, by norm_num, by norm_num, by norm_num, by norm_num [zpow_neg]⟩, by norm_num, by norm_num, by norm_num, by norm_num⟩
  · exact ⟨by norm_num, by norm_num, ⟨3, -2, by norm_num, by norm_num, by norm_num, by norm_num [zpow_neg]⟩, by norm_num, by norm_num, by norm_num, by norm_num⟩

/-- The hypotheses of the last theorem hold for these quarks, three colours, `f0 = -3/4`, `rho = 1`. -/
example (k : Consts ℝ) : Near (computed.propagator_landau_w_field_config (.num (1 : ℝ)) (-(3 / 4)) (computedConfig 3 1 [(2, 1 / 2), (1, 3 / 4)]))
    (qcd.gluon.propagator_landau_w_field_config k (1 : ℝ) (-(3 / 4)) (FieldConfig.new 3 1 [(2, 1 / 2), (1, 3 / 4)]))
    (1 / 10 ^ 6 * qcd.gluon.propagator_landau_w_field_config k (1 : ℝ) (-(3 / 4)) (FieldConfig.new 3 1 [(2, 1 / 2), (1, 3 / 4)])) := by
  refine (C124_propagator k (x := .num (1 : ℝ)) (rho := 1) rfl ⟨1, 0, by norm_num, by norm_num, by norm_num, by norm_num⟩ (by norm_num) (by norm_num)
    ⟨-3, -2, by norm_num, by norm_num, by norm_num, by norm_num [zpow_neg]⟩ ⟨1, 0, by norm_num, by norm_num, by norm_num, by norm_num⟩ one_pos
    (by norm_num) (by norm_num) [(2, 1 / 2), (1, 3 / 4)] (by norm_num) le_rfl ?_ (by norm_num) (by norm_num) (by norm_num)).2
  intro q hq
  simp only [List.mem_cons, List.not_mem_nil, or_false] at hq
  rcases hq with rfl | rfl
  · exact ⟨by norm_num, by norm_num, ⟨1, -1, by norm_num, by norm_num, by norm_num, by norm_num [zpow_neg]⟩, by norm_num, by norm_num, by norm_num, by norm_num⟩
  · exact ⟨by norm_num, by norm_num, ⟨3, -2, by norm_num, by norm_num, by norm_num, by norm_num [zpow_neg]⟩, by norm_num, by norm_num, by norm_num, by norm_num⟩

/-- **C124** (a witness): one quark of mass `2^-30 m` at `p² = m²`, three colours, `f0 = 4`: the propagator is positive, the computed one zero. -/
theorem C124_chiral_limit (k : Consts ℝ) :
    0 < qcd.gluon.propagator_landau_w_field_config k (1 : ℝ) 4 (FieldConfig.new 3 1 [(1, 1 / 2 ^ 30)]) ∧
    Is (computed.propagator_landau_w_field_config (.num (1 : ℝ)) 4 (computedConfig 3 1 [(1, 1 / 2 ^ 30)])) 0 := by
  constructor
  · refine (C107_qcd k (xi := 0) (rho := 2 ^ 60) (nc := 3) one_pos (by norm_num) [(1, 1 / 2 ^ 30)] ?_ le_rfl (by norm_num) ?_ 1 one_pos).2.1.2.2
    · intro q hq
      simp only [List.mem_singleton] at hq
      subst hq
      norm_num
    · have : Real.log (2 ^ 60) ≤ 42 := by
        rw [Real.log_pow]
        have := Real.log_two_lt_d9
        norm_num at *
        linarith
      have h : (List.map (fun q : ℕ × ℝ => (q.1 : ℝ) / (3 : ℕ)) [(1, 1 / 2 ^ 30)]).sum = 1 / 3 := by norm_num
      rw [h]
      norm_num at *
      linarith
  · have hc : Chiral 1 1 (1, 1 / 2 ^ 30) := ⟨by norm_num, by norm_num, ⟨1, -30, by norm_num, by norm_num, by norm_num, by norm_num [zpow_neg]⟩, by norm_num,
      by norm_num⟩
    refine (C124_very_light (x := .num (1 : ℝ)) (s := 1) (xi := 0) ⟨rfl, ⟨1, 0, by norm_num, by norm_num, by norm_num, by norm_num⟩, by norm_num, by norm_num⟩
      ⟨4, 0, by norm_num, by norm_num, by norm_num, by norm_num⟩ (by norm_num) ⟨0, 0, by norm_num, by norm_num, by norm_num, by norm_num⟩ (by norm_num)
      ⟨1, 0, by norm_num, by norm_num, by norm_num, by norm_num⟩ one_pos (by norm_num) (by norm_num) [(1, 1 / 2 ^ 30)] ?_ ⟨_, by simp, hc⟩ (by norm_num)).2.2.2.2.2
    intro q hq
    simp only [List.mem_singleton] at hq
    exact .inr (hq ▸ hc)

/-- The initial values of the constants meet the hypotheses on the numbers of colours and flavours. -/
example : (consts.init : Consts ℝ).nf_div_nc = ((1 : ℕ) : ℝ) / (3 : ℕ) := by
  norm_num [consts.init, consts.FloatOps.lit, consts.FloatOps.div]

end Qcd
