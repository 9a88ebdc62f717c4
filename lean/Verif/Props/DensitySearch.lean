import Verif.Lemmas.DensitySearch

/-! # C116: the search for the chemical potential at low temperature

Every density has one chemical potential, which tends to the one at zero temperature (C101). The function `chemical_potential` searches for it with
the secant method from the guesses `n/2` and `n`, in units of the momenta, and accepts an absolute error of the density. -/

namespace Qcd
open Filter Topology Set
open consts (Consts Integral)
open qcd.thermal.quark utils

theorem loop_neg (f g : ℝ → ℝ) (hfg : ∀ z, g (-z) = -f z) (tol : ℝ) (N : ℕ) : ∀ z0 z1 f0 f1 : ℝ,
    (loop (exactOps ℝ) f tol N z0 z1 f0 f1).1 = .none → (loop (exactOps ℝ) g tol N (-z0) (-z1) (-f0) (-f1)).1 = .none := by
  induction N with
  | zero => exact fun _ _ _ _ _ => rfl
  | succ N ih =>
    intro z0 z1 f0 f1 h
    simp only [loop] at h ⊢
    rw [if_neg (by simp [exactOps])] at h ⊢
    have e : (exactOps ℝ).abs (-f1) = (exactOps ℝ).abs f1 := by simp [exactOps, Qcd.abs]
    rw [e]
    split_ifs at h ⊢ with h1
    have e2 : (-z0 * -f1 - -z1 * -f0) / (-f1 - -f0) = -((z0 * f1 - z1 * f0) / (f1 - f0)) := by
      rw [show -z0 * -f1 - -z1 * -f0 = z0 * f1 - z1 * f0 by ring, show -f1 - -f0 = -(f1 - f0) by ring, div_neg]
    have h2 := ih _ _ _ _ h
    simp only [exactOps] at h2 ⊢
    rw [e2, hfg]
    exact h2

theorem find_root_none {f : ℝ → ℝ} {a b tol : ℝ} {N : ℕ} (hab : a ≠ b) (ht : 0 < tol)
    (h : (loop (exactOps ℝ) f tol N a b (f a) (f b)).1 = .none) : find_root (exactOps ℝ) f (a, b) tol N = .none := by
  unfold find_root find_root_log
  rw [if_neg (by simpa [exactOps] using hab), if_neg (by simpa [exactOps] using ht)]
  exact h

theorem loop_accept {f : ℝ → ℝ} {tol z0 z1 f0 f1 : ℝ} (h : (exactOps ℝ).lt ((exactOps ℝ).abs f1) tol = true) (N : ℕ) :
    (loop (exactOps ℝ) f tol (N + 1) z0 z1 f0 f1).1 = .some z1 f1 := by
  simp only [loop]
  rw [if_neg (by simp [exactOps]), if_pos h]

/-- **C116** (failure): a density smaller than the mass and larger than the tolerance, in the same units of momentum: at all sufficiently low temperatures the
function panics, although there is a chemical potential with this density. -/
theorem C116_panics (k : Consts ℝ) (hk : 0 < k.nc) {m n tol : ℝ} {integral : Integral ℝ} (ht : integral.get_tol = some tol) (h0 : 0 < tol)
    (h1 : tol < |n|) (h2 : |n| < |m|) :
    ∀ᶠ beta in atTop, chemical_potential_with_method .exact k m beta n integral = .panic ∧
      ∃! mu, charge_density_with_method .exact k m beta mu integral = n := by
  have hF := density_family k hk m integral
  have hn : n ≠ 0 := abs_pos.1 (h0.trans h1)
  have hp : 0 < |n| := h0.trans h1
  have st : SecantFailure.State |m| (fun _ => 0.5 * |n|) (fun _ => |n|) :=
    .near (a := 0.5 * |n|) (c := |n|) tendsto_const_nhds (by rw [abs_of_pos (by positivity)]; norm_num; linarith) tendsto_const_nhds (by rw [abs_abs]; exact h2)
      (.of_forall fun _ => by norm_num at *; linarith)
  filter_upwards [SecantFailure.loop_none hF hp h1 1000 st, eventually_gt_atTop 0] with beta hl hb
  refine ⟨?_, C101_chemical_potential_exists k hk m hb integral n⟩
  have hne : 0.5 * n ≠ n := fun e => hn (by norm_num at e; linarith)
  have key : find_root (exactOps ℝ) (fun mu => n - charge_density_with_method .exact k m beta mu integral) (0.5 * n, n) tol 1000 = .none := by
    refine find_root_none hne h0 ?_
    rcases abs_choice n with e | e
    · rw [e] at hl; exact hl
    · rw [e] at hl
      have hodd (mu : ℝ) := (C50_odd .exact exact_odd k m beta mu integral).1
      have := loop_neg _ (fun mu => n - charge_density_with_method .exact k m beta mu integral) (fun z => by rw [hodd]; ring) _ _ _ _ _ _ hl
      rw [show -(0.5 * -n) = 0.5 * n by ring, neg_neg, show -n = -n from rfl] at this
      rw [show -(-n - charge_density_with_method .exact k m beta (0.5 * -n) integral) = n - charge_density_with_method .exact k m beta (0.5 * n) integral by
        rw [show 0.5 * -n = -(0.5 * n) by ring, hodd]; ring,
        show -(-n - charge_density_with_method .exact k m beta (-n) integral) = n - charge_density_with_method .exact k m beta n integral by
          rw [hodd]; ring] at this
      exact this
  unfold chemical_potential_with_method
  rw [if_neg hn, ht]
  simp only
  rw [key]

/-- **C116** (small densities): a density smaller than the mass and the tolerance: at all sufficiently low temperatures the function returns the number of
the density as chemical potential, although the exact one tends to that of zero temperature, which is above the mass. -/
theorem C116_small (k : Consts ℝ) (hk : 0 < k.nc) {m n tol : ℝ} {integral : Integral ℝ} (ht : integral.get_tol = some tol) (h0 : n ≠ 0)
    (h1 : |n| < tol) (h2 : |n| < |m|) :
    (∀ᶠ beta in atTop, chemical_potential_with_method .exact k m beta n integral = .ok n) ∧
    (∀ mu : ℝ → ℝ, (∀ᶠ beta in atTop, charge_density_with_method .exact k m beta (mu beta) integral = n) →
      ∀ᶠ beta in atTop, |m| < |mu beta|) := by
  have htol : 0 < tol := (abs_nonneg n).trans_lt h1
  constructor
  · have h := (density_family k hk m integral).small (tendsto_const_nhds (x := n)) h2
    have h3 : Tendsto (fun b => |n - charge_density_with_method .exact k m b n integral|) atTop (𝓝 |n|) := by
      simpa using (tendsto_const_nhds (x := n)).sub h |>.abs
    filter_upwards [h3.eventually (gt_mem_nhds h1)] with beta hb
    have hne : 0.5 * n ≠ n := fun e => h0 (by norm_num at e; linarith)
    unfold chemical_potential_with_method
    rw [if_neg h0, ht]
    simp only
    have : find_root (exactOps ℝ) (fun mu => n - charge_density_with_method .exact k m beta mu integral) (0.5 * n, n) tol 1000 =
        .some n (n - charge_density_with_method .exact k m beta n integral) := by
      unfold find_root find_root_log
      rw [if_neg (by simpa [exactOps] using hne), if_neg (by simpa [exactOps] using htol)]
      have hlt : (exactOps ℝ).lt ((exactOps ℝ).abs (n - charge_density_with_method .exact k m beta n integral)) tol = true := by
        simpa [exactOps, Qcd.abs] using hb
      exact loop_accept hlt 999
    rw [this]
  · intro mu hmu
    have h := (C101_chemical_potential_low_temperature k hk m integral h0 hmu).abs
    have hm : |m| < |chemical_potential_zero_temp k m n| := by
      by_contra hc
      have hd := C51_density_of_chemical_potential k m n hk
      rw [C51_density_threshold k m _ (not_lt.1 hc)] at hd
      exact h0 hd.symm
    exact h.eventually (lt_mem_nhds hm)

/-- **C116** (default method). -/
theorem C116_default (k : Consts ℝ) (hk : 0 < k.nc) {m n : ℝ} (h0 : 0 < k.tol_integral) (h2 : |n| < |m|) :
    (k.tol_integral < |n| → ∀ᶠ beta in atTop, chemical_potential .exact k m beta n = .panic) ∧
    (|n| < k.tol_integral → n ≠ 0 → ∀ᶠ beta in atTop, chemical_potential .exact k m beta n = .ok n) :=
  ⟨fun h1 => (C116_panics k hk (integral := consts.get_default_integration_method k) rfl h0 h1 h2).mono fun _ h => h.1,
    fun h1 hn => (C116_small k hk (integral := consts.get_default_integration_method k) rfl hn h1 h2).1⟩

-- the density 1/10 for quarks of mass 1/2 with the tolerance of the defaults
example (k : Consts ℝ) (hk : k.nc = 3) :
    ∀ᶠ beta in atTop, chemical_potential_with_method .exact k (1 / 2) beta (1 / 10) (.G7K15 (1 / 10 ^ 10) 20) = .panic :=
  (C116_panics k (by omega) rfl (by norm_num) (by norm_num [abs_of_pos]) (by norm_num [abs_of_pos])).mono fun _ h => h.1

example (k : Consts ℝ) (hk : k.nc = 3) :
    ∀ᶠ beta in atTop, chemical_potential_with_method .exact k (1 / 2) beta (1 / 10 ^ 11) (.G7K15 (1 / 10 ^ 10) 20) = .ok (1 / 10 ^ 11) :=
  (C116_small k (by omega) rfl (by norm_num) (by norm_num [abs_of_pos]) (by norm_num [abs_of_pos])).1

end Qcd
