import Verif.Lemmas.VacuumAccuracy
import Verif.Lemmas.Branch
import Verif.Model.ComplexVacuum
import Mathlib.Analysis.SpecialFunctions.Complex.LogDeriv
import Mathlib.Analysis.Calculus.MeanValue
import Mathlib.Analysis.SpecialFunctions.Trigonometric.Bounds

/-! # Lemmas: running errors of complex numbers -/

namespace Qcd
open Fl Spec

theorem run_of {a : Fl binary64} {x B : ℝ} (h : Is a x) (hx : |x| ≤ B) : Run a x B 0 := ⟨x, h, hx, by simp⟩

theorem Run.near {a : Fl binary64} {x B n : ℝ} (h : Run a x B n) : Near a x (n * uu * B) := by
  obtain ⟨v, hv, -, h2⟩ := h
  exact ⟨v, hv, h2⟩

/-- A smaller bound of the number. -/
theorem Run.shrink {a : Fl binary64} {x B C n q : ℝ} (h : Run a x C n) (hx : |x| ≤ B) (hn : 0 ≤ n) (hq : C ≤ q * B) : Run a x B (n * q) := by
  obtain ⟨v, hv, -, h2⟩ := h
  refine ⟨v, hv, hx, h2.trans ?_⟩
  have := uu_pos
  calc n * uu * C ≤ n * uu * (q * B) := by gcongr
    _ = _ := by ring

theorem uu_small : uu ≤ 1 / 10 ^ 15 := by unfold uu; norm_num

theorem mid_scale {B c : ℝ} {k : ℕ} (lo : (10 ^ k)⁻¹ ≤ B) (hi : B ≤ 10 ^ k) (hk : k ≤ 240) (hc : 1 / 1000 ≤ c) (hc' : c ≤ 1000) : Mid (c * B) := by
  have hB : 0 < B := lt_of_lt_of_le (by positivity) lo
  have e : (10 : ℝ) ^ (k + 3) = 10 ^ k * 1000 := by rw [pow_add]; norm_num
  refine mid_of (k := k + 3) ?_ ?_ (by omega)
  · rw [e, mul_inv, mul_comm]
    exact mul_le_mul (by norm_num at *; exact hc) lo (by positivity) (by linarith)
  · rw [e, mul_comm]
    exact mul_le_mul hi hc' (by linarith) (by positivity)

/-- The parts of `a` are those of a complex number that is not on the negative axis. -/
def Slit (a : CFl binary64) : Prop := ∃ w : ℂ, Is a.re w.re ∧ Is a.im w.im ∧ w ∈ Complex.slitPlane

/-- The computed number `a` stands for the complex number `z`, of norm at most `B`; its error is at most `n` roundings of a number of absolute
value `B`. -/
structure CTrack (a : CFl binary64) (z : ℂ) (B : ℝ) (n k : ℕ) : Prop where
  run : ∃ v : ℂ, Is a.re v.re ∧ Is a.im v.im ∧ ‖v - z‖ ≤ n * uu * B
  bound : ‖z‖ ≤ B
  lo : (10 ^ k)⁻¹ ≤ B
  hi : B ≤ 10 ^ k

namespace CTrack
variable {a b : CFl binary64} {x z : ℂ} {B C : ℝ} {n m k l : ℕ}

theorem pos (h : CTrack a z B n k) : 0 < B := lt_of_lt_of_le (by positivity) h.lo

theorem small (h : CTrack a z B n k) (hn : n ≤ 10 ^ 5) : n * uu * B ≤ 1 / 10 ^ 9 * B := by
  have h1 : (n : ℝ) ≤ 10 ^ 5 := by exact_mod_cast hn
  have h2 : n * uu ≤ 10 ^ 5 * (1 / 10 ^ 15) := mul_le_mul h1 uu_small uu_pos.le (by positivity)
  have := h.pos
  have h3 : n * uu ≤ 1 / 10 ^ 9 := h2.trans (by norm_num)
  gcongr

theorem approx (h : CTrack a z B n k) (hn : n ≤ 10 ^ 5) :
    ∃ v : ℂ, Is a.re v.re ∧ Is a.im v.im ∧ ‖v - z‖ ≤ n * uu * B ∧ ‖v‖ ≤ 1.001 * B := by
  obtain ⟨v, h1, h2, h3⟩ := h.run
  refine ⟨v, h1, h2, h3, ?_⟩
  have := norm_add_le z (v - z)
  rw [add_sub_cancel] at this
  have h4 := h.small hn
  have := h.bound
  have := h.pos
  norm_num at *
  linarith

/-- The errors of the parts. -/
theorem of_parts {p q : Fl binary64} {Z : ℂ} {e d : ℝ} (hp : Near p Z.re e) (hq : Near q Z.im e) (hz : ‖Z - z‖ ≤ d) (hb : ‖z‖ ≤ B)
    (he : d + 2 * e ≤ n * uu * B) (lo : (10 ^ k)⁻¹ ≤ B) (hi : B ≤ 10 ^ k) : CTrack ⟨p, q⟩ z B n k := by
  obtain ⟨s, hs, s1⟩ := hp
  obtain ⟨t, ht, t1⟩ := hq
  refine ⟨⟨⟨s, t⟩, hs, ht, ?_⟩, hb, lo, hi⟩
  have h1 : ‖(⟨s, t⟩ : ℂ) - Z‖ ≤ |s - Z.re| + |t - Z.im| := by
    have := Complex.norm_le_abs_re_add_abs_im ((⟨s, t⟩ : ℂ) - Z)
    simpa using this
  have h2 := norm_add_le ((⟨s, t⟩ : ℂ) - Z) (Z - z)
  rw [sub_add_sub_cancel] at h2
  linarith

theorem mono (h : CTrack a z B n k) {n' : ℕ} (hn : n ≤ n') : CTrack a z B n' k := by
  obtain ⟨v, h1, h2, h3⟩ := h.run
  refine ⟨⟨v, h1, h2, h3.trans ?_⟩, h.bound, h.lo, h.hi⟩
  have := uu_pos
  have := h.pos
  have : (n : ℝ) ≤ n' := by exact_mod_cast hn
  gcongr

theorem neg (h : CTrack a z B n k) : CTrack (-a) (-z) B n k := by
  obtain ⟨v, h1, h2, h3⟩ := h.run
  refine ⟨⟨-v, value_neg h1, value_neg h2, ?_⟩, by rw [norm_neg]; exact h.bound, h.lo, h.hi⟩
  rw [show -v - -z = -(v - z) by ring, norm_neg]
  exact h3

theorem add (ha : CTrack a x B n k) (hb : CTrack b z C m l) (hn : max n m ≤ 10 ^ 5 := by norm_num) (hk : max k l + 1 ≤ 240 := by norm_num) :
    CTrack (a + b) (x + z) (B + C) (max n m + 5) (max k l + 1) := by
  obtain ⟨r1, r2⟩ := Track.range_add ha.lo ha.hi hb.lo hb.hi
  obtain ⟨v, v1, v2, v3, v4⟩ := ha.approx ((le_max_left n m).trans hn)
  obtain ⟨w, w1, w2, w3, w4⟩ := hb.approx ((le_max_right n m).trans hn)
  have M : Mid (1.001 * B + 1.001 * C) := by rw [← mul_add]; exact mid_scale r1 r2 hk (by norm_num) (by norm_num)
  have p1 := ((run_of v1 ((Complex.abs_re_le_norm v).trans v4)).add (run_of w1 ((Complex.abs_re_le_norm w).trans w4)) le_rfl (by norm_num) M).near
  have p2 := ((run_of v2 ((Complex.abs_im_le_norm v).trans v4)).add (run_of w2 ((Complex.abs_im_le_norm w).trans w4)) le_rfl (by norm_num) M).near
  have hd : ‖v + w - (x + z)‖ ≤ n * uu * B + m * uu * C := by
    rw [show v + w - (x + z) = (v - x) + (w - z) by ring]
    exact (norm_add_le _ _).trans (add_le_add v3 w3)
  refine of_parts (Z := v + w) p1 p2 hd ((norm_add_le _ _).trans (add_le_add ha.bound hb.bound)) ?_ r1 r2
  have i1 : (n : ℝ) ≤ (max n m : ℕ) := by exact_mod_cast le_max_left n m
  have i2 : (m : ℝ) ≤ (max n m : ℕ) := by exact_mod_cast le_max_right n m
  have hB := ha.pos
  have hC := hb.pos
  have hu := uu_pos
  rw [Nat.cast_add]
  generalize ((max n m : ℕ) : ℝ) = N at *
  have e1 : n * uu * B ≤ N * uu * B := by gcongr
  have e2 : m * uu * C ≤ N * uu * C := by gcongr
  have e3 : 0 ≤ uu * (B + C) := by positivity
  norm_num
  nlinarith

theorem sub (ha : CTrack a x B n k) (hb : CTrack b z C m l) (hn : max n m ≤ 10 ^ 5 := by norm_num) (hk : max k l + 1 ≤ 240 := by norm_num) :
    CTrack (a - b) (x - z) (B + C) (max n m + 5) (max k l + 1) := by
  rw [sub_eq_add_neg x z]
  exact ha.add hb.neg hn hk

theorem addR {b : Fl binary64} {y : ℝ} (ha : CTrack a x B n k) (hb : Track b y C m l) (hn : max n m ≤ 10 ^ 5 := by norm_num)
    (hk : max k l + 1 ≤ 240 := by norm_num) : CTrack (a + b) (x + y) (B + C) (max n m + 5) (max k l + 1) := by
  obtain ⟨r1, r2⟩ := Track.range_add ha.lo ha.hi hb.lo hb.hi
  obtain ⟨v, v1, v2, v3, v4⟩ := ha.approx ((le_max_left n m).trans hn)
  obtain ⟨w, w1, w2, w3⟩ := hb.run
  have hB := ha.pos
  have hC : 0 < C := lt_of_lt_of_le (by positivity) hb.lo
  have hu := uu_pos
  have hm : m * uu * C ≤ 1 / 10 ^ 9 * C := by
    have h1 : (m : ℝ) ≤ 10 ^ 5 := by exact_mod_cast (le_max_right n m).trans hn
    have h2 : m * uu ≤ 10 ^ 5 * (1 / 10 ^ 15) := mul_le_mul h1 uu_small uu_pos.le (by positivity)
    have h3 : m * uu ≤ 1 / 10 ^ 9 := h2.trans (by norm_num)
    gcongr
  have w4 : |w| ≤ 1.001 * C := by
    have := abs_add_le y (w - y)
    rw [add_sub_cancel] at this
    norm_num at *
    linarith
  have M : Mid (1.001 * B + 1.001 * C) := by rw [← mul_add]; exact mid_scale r1 r2 hk (by norm_num) (by norm_num)
  have p1 := ((run_of v1 ((Complex.abs_re_le_norm v).trans v4)).add (run_of w1 w4) le_rfl (by norm_num) M).near
  have p2 : Near a.im v.im ((0 + 2) * uu * (1.001 * B + 1.001 * C)) := ⟨v.im, v2, by rw [sub_self, abs_zero]; positivity⟩
  have hd : ‖v + (w : ℂ) - (x + (y : ℂ))‖ ≤ n * uu * B + m * uu * C := by
    rw [show v + (w : ℂ) - (x + (y : ℂ)) = (v - x) + ((w - y : ℝ) : ℂ) by push_cast; ring]
    refine (norm_add_le _ _).trans (add_le_add v3 ?_)
    rw [Complex.norm_real, Real.norm_eq_abs]
    exact w3
  refine of_parts (Z := v + (w : ℂ)) (by simpa using p1) (by simpa using p2) hd
    ((norm_add_le _ _).trans (add_le_add ha.bound (by rw [Complex.norm_real, Real.norm_eq_abs]; exact w2))) ?_ r1 r2
  have i1 : (n : ℝ) ≤ (max n m : ℕ) := by exact_mod_cast le_max_left n m
  have i2 : (m : ℝ) ≤ (max n m : ℕ) := by exact_mod_cast le_max_right n m
  rw [Nat.cast_add]
  generalize ((max n m : ℕ) : ℝ) = N at *
  have e1 : n * uu * B ≤ N * uu * B := by gcongr
  have e2 : m * uu * C ≤ N * uu * C := by gcongr
  have e3 : 0 ≤ uu * (B + C) := by positivity
  norm_num
  nlinarith

theorem subR {b : Fl binary64} {y : ℝ} (ha : CTrack a x B n k) (hb : Track b y C m l) (hn : max n m ≤ 10 ^ 5 := by norm_num)
    (hk : max k l + 1 ≤ 240 := by norm_num) : CTrack (a - b) (x - y) (B + C) (max n m + 5) (max k l + 1) := by
  have := ha.addR hb.neg hn hk
  rw [Complex.ofReal_neg, ← sub_eq_add_neg] at this
  exact this

theorem mul (ha : CTrack a x B n k) (hb : CTrack b z C m l) (hn : n ≤ 10 ^ 5 := by norm_num) (hm : m ≤ 10 ^ 5 := by norm_num)
    (hk : k + l ≤ 240 := by norm_num) : CTrack (a * b) (x * z) (B * C) (n + m + 22) (k + l) := by
  obtain ⟨r1, r2⟩ := Track.range_mul ha.lo ha.hi hb.lo hb.hi
  obtain ⟨v, v1, v2, v3, v4⟩ := ha.approx hn
  obtain ⟨w, w1, w2, w3, w4⟩ := hb.approx hm
  have hB := ha.pos
  have hC := hb.pos
  have hu := uu_pos
  have M : Mid (1.001 * B * (1.001 * C)) := by
    rw [show 1.001 * B * (1.001 * C) = (1.001 * 1.001) * (B * C) by ring]
    exact mid_scale r1 r2 hk (by norm_num) (by norm_num)
  have M2 : Mid (1.001 * B * (1.001 * C) + 1.001 * B * (1.001 * C)) := by
    rw [show 1.001 * B * (1.001 * C) + 1.001 * B * (1.001 * C) = (2 * (1.001 * 1.001)) * (B * C) by ring]
    exact mid_scale r1 r2 hk (by norm_num) (by norm_num)
  have vr := run_of v1 ((Complex.abs_re_le_norm v).trans v4)
  have vi := run_of v2 ((Complex.abs_im_le_norm v).trans v4)
  have wr := run_of w1 ((Complex.abs_re_le_norm w).trans w4)
  have wi := run_of w2 ((Complex.abs_im_le_norm w).trans w4)
  have rr := vr.mul wr le_rfl le_rfl (by norm_num) (by norm_num) M
  have ii := vi.mul wi le_rfl le_rfl (by norm_num) (by norm_num) M
  have ri := vr.mul wi le_rfl le_rfl (by norm_num) (by norm_num) M
  have ir := vi.mul wr le_rfl le_rfl (by norm_num) (by norm_num) M
  have p1 := (rr.sub ii (by norm_num) (by norm_num) M2).near
  have p2 := (ri.add ir (by norm_num) (by norm_num) M2).near
  have hd : ‖v * w - x * z‖ ≤ (n + m + 1) * uu * (B * C) := by
    rw [show v * w - x * z = (v - x) * w + x * (w - z) by ring]
    have t1 : ‖(v - x) * w‖ ≤ n * uu * B * (1.001 * C) := by rw [norm_mul]; gcongr
    have t2 : ‖x * (w - z)‖ ≤ B * (m * uu * C) := by rw [norm_mul]; gcongr; exact ha.bound
    have hw : ‖w‖ ≤ C + m * uu * C := by
      have := norm_add_le z (w - z)
      rw [add_sub_cancel] at this
      have := hb.bound
      linarith
    have t3 : ‖(v - x) * w‖ ≤ n * uu * B * (C + m * uu * C) := by rw [norm_mul]; gcongr
    have t4 : n * uu * B * (m * uu * C) ≤ uu * (B * C) := by
      have h1 : (n : ℝ) ≤ 10 ^ 5 := by exact_mod_cast hn
      have h2 : (m : ℝ) ≤ 10 ^ 5 := by exact_mod_cast hm
      have : n * m * uu ≤ 1 := by
        calc n * m * uu ≤ 10 ^ 5 * 10 ^ 5 * (1 / 10 ^ 15) := by gcongr; exact uu_small
          _ ≤ 1 := by norm_num
      have e : n * uu * B * (m * uu * C) = n * m * uu * (uu * (B * C)) := by ring
      rw [e]
      have : 0 ≤ uu * (B * C) := by positivity
      nlinarith
    have := norm_add_le ((v - x) * w) (x * (w - z))
    nlinarith
  refine of_parts (Z := v * w) p1 p2 hd (by rw [norm_mul]; exact mul_le_mul ha.bound hb.bound (norm_nonneg _) hB.le) ?_ r1 r2
  push_cast
  have e3 : 0 ≤ uu * (B * C) := by positivity
  norm_num
  nlinarith

theorem mulR {b : Fl binary64} {y : ℝ} (ha : CTrack a x B n k) (hb : Track b y C m l) (hn : n ≤ 10 ^ 5 := by norm_num) (hm : m ≤ 10 ^ 5 := by norm_num)
    (hk : k + l ≤ 240 := by norm_num) : CTrack (a * b) (x * y) (B * C) (n + m + 8) (k + l) := by
  obtain ⟨r1, r2⟩ := Track.range_mul ha.lo ha.hi hb.lo hb.hi
  obtain ⟨v, v1, v2, v3, v4⟩ := ha.approx hn
  obtain ⟨w, w1, w2, w3⟩ := hb.run
  have hB := ha.pos
  have hC : 0 < C := lt_of_lt_of_le (by positivity) hb.lo
  have hu := uu_pos
  have hm' : m * uu * C ≤ 1 / 10 ^ 9 * C := by
    have h1 : (m : ℝ) ≤ 10 ^ 5 := by exact_mod_cast hm
    have h2 : m * uu ≤ 10 ^ 5 * (1 / 10 ^ 15) := mul_le_mul h1 uu_small uu_pos.le (by positivity)
    have h3 : m * uu ≤ 1 / 10 ^ 9 := h2.trans (by norm_num)
    gcongr
  have hw : |w| ≤ C + m * uu * C := by
    have := abs_add_le y (w - y)
    rw [add_sub_cancel] at this
    linarith
  have w4 : |w| ≤ 1.001 * C := by norm_num at *; linarith
  have M : Mid (1.001 * B * (1.001 * C)) := by
    rw [show 1.001 * B * (1.001 * C) = (1.001 * 1.001) * (B * C) by ring]
    exact mid_scale r1 r2 hk (by norm_num) (by norm_num)
  have vr := run_of v1 ((Complex.abs_re_le_norm v).trans v4)
  have vi := run_of v2 ((Complex.abs_im_le_norm v).trans v4)
  have wr := run_of w1 w4
  have p1 := (vr.mul wr le_rfl le_rfl (by norm_num) (by norm_num) M).near
  have p2 := (vi.mul wr le_rfl le_rfl (by norm_num) (by norm_num) M).near
  have hd : ‖v * (w : ℂ) - x * (y : ℂ)‖ ≤ (n + m + 1) * uu * (B * C) := by
    rw [show v * (w : ℂ) - x * (y : ℂ) = (v - x) * (w : ℂ) + x * ((w - y : ℝ) : ℂ) by push_cast; ring]
    have t2 : ‖x * ((w - y : ℝ) : ℂ)‖ ≤ B * (m * uu * C) := by
      rw [norm_mul, Complex.norm_real, Real.norm_eq_abs]
      gcongr
      exact ha.bound
    have t3 : ‖(v - x) * (w : ℂ)‖ ≤ n * uu * B * (C + m * uu * C) := by
      rw [norm_mul, Complex.norm_real, Real.norm_eq_abs]
      gcongr
    have t4 : n * uu * B * (m * uu * C) ≤ uu * (B * C) := by
      have h1 : (n : ℝ) ≤ 10 ^ 5 := by exact_mod_cast hn
      have h2 : (m : ℝ) ≤ 10 ^ 5 := by exact_mod_cast hm
      have : n * m * uu ≤ 1 := by
        calc n * m * uu ≤ 10 ^ 5 * 10 ^ 5 * (1 / 10 ^ 15) := by gcongr; exact uu_small
          _ ≤ 1 := by norm_num
      have e : n * uu * B * (m * uu * C) = n * m * uu * (uu * (B * C)) := by ring
      rw [e]
      have : 0 ≤ uu * (B * C) := by positivity
      nlinarith
    have := norm_add_le ((v - x) * (w : ℂ)) (x * ((w - y : ℝ) : ℂ))
    nlinarith
  refine of_parts (Z := v * (w : ℂ)) (by simpa using p1) (by simpa using p2) hd
    (by rw [norm_mul, Complex.norm_real, Real.norm_eq_abs]; exact mul_le_mul ha.bound w2 (abs_nonneg _) hB.le) ?_ r1 r2
  push_cast
  have e3 : 0 ≤ uu * (B * C) := by positivity
  norm_num
  nlinarith

theorem divNum (ha : CTrack a x B n k) (c : ℕ) (h0 : 0 < c := by norm_num) (h : c ≤ 99 := by norm_num) (hn : n ≤ 10 ^ 5 := by norm_num)
    (hk : k + 2 ≤ 240 := by norm_num) : CTrack (a / (ofR (c : ℝ) : Fl binary64)) (x / (c : ℝ)) (B / c) (n + 5) (k + 2) := by
  have hc : (1 : ℝ) ≤ c := by exact_mod_cast h0
  have hc' : (c : ℝ) ≤ 99 := by exact_mod_cast h
  have hc0 : (0 : ℝ) < c := by linarith
  have c1 : ((10 : ℝ) ^ 2)⁻¹ ≤ (c : ℝ)⁻¹ := inv_anti₀ (by linarith) (by linarith)
  have c2 : (c : ℝ)⁻¹ ≤ 10 ^ 2 := (inv_le_one_of_one_le₀ hc).trans (by norm_num)
  obtain ⟨r1, r2⟩ := Track.range_mul ha.lo ha.hi c1 c2
  rw [← div_eq_mul_inv] at r1 r2
  obtain ⟨v, v1, v2, v3, v4⟩ := ha.approx hn
  have hB := ha.pos
  have hu := uu_pos
  have M : Mid (1.001 * B / c) := by
    rw [mul_div_assoc]
    exact mid_scale r1 r2 hk (by norm_num) (by norm_num)
  have hI := is_ofR (binary64_nat (n := c) (by omega))
  have p1 := ((run_of v1 ((Complex.abs_re_le_norm v).trans v4)).divNum hI hc0 le_rfl (by norm_num) M).near
  have p2 := ((run_of v2 ((Complex.abs_im_le_norm v).trans v4)).divNum hI hc0 le_rfl (by norm_num) M).near
  have hd : ‖v / ((c : ℝ) : ℂ) - x / ((c : ℝ) : ℂ)‖ ≤ n * uu * (B / c) := by
    rw [← sub_div, norm_div, Complex.norm_real, Real.norm_eq_abs, abs_of_pos hc0, ← mul_div_assoc]
    gcongr
  refine of_parts (Z := v / ((c : ℝ) : ℂ)) (by rw [Complex.div_ofReal_re]; exact p1) (by rw [Complex.div_ofReal_im]; exact p2) hd
    (by rw [norm_div, Complex.norm_real, Real.norm_eq_abs, abs_of_pos hc0]; have := ha.bound; gcongr) ?_ r1 r2
  push_cast
  have e3 : 0 ≤ uu * (B / c) := by positivity
  rw [mul_div_assoc]
  norm_num
  nlinarith

/-- The squared norm. -/
theorem norm_sq {w : ℂ} {l : ℕ} (w1 : Is b.re w.re) (w2 : Is b.im w.im) (lo : (10 ^ l)⁻¹ ≤ ‖w‖) (hi : ‖w‖ ≤ 10 ^ l) (hl : 2 * l ≤ 230) :
    Track (b.re * b.re + b.im * b.im) (‖w‖ * ‖w‖) (‖w‖ * ‖w‖) 10 (l + l) := by
  obtain ⟨r1, r2⟩ := Track.range_mul lo hi lo hi
  have M := mid_of r1 r2 (by omega)
  have M2 : Mid (‖w‖ * ‖w‖ + ‖w‖ * ‖w‖) := by
    rw [← two_mul]
    exact mid_scale r1 r2 (by omega) (by norm_num) (by norm_num)
  have wr := run_of w1 (Complex.abs_re_le_norm w)
  have wi := run_of w2 (Complex.abs_im_le_norm w)
  have := ((wr.mul wr le_rfl le_rfl (by norm_num) (by norm_num) M).add (wi.mul wi le_rfl le_rfl (by norm_num) (by norm_num) M)
    (by norm_num) (by norm_num) M2).shrink (B := ‖w‖ * ‖w‖) (q := 2) ?_ (by norm_num) (by linarith)
  · have e : w.re * w.re + w.im * w.im = ‖w‖ * ‖w‖ := by rw [Complex.norm_mul_self_eq_normSq, Complex.normSq_apply]
    rw [e] at this
    refine ⟨?_, r1, r2⟩
    norm_num at this ⊢
    exact this
  · have e : w.re * w.re + w.im * w.im = ‖w‖ * ‖w‖ := by rw [Complex.norm_mul_self_eq_normSq, Complex.normSq_apply]
    rw [e, abs_of_nonneg (by positivity)]

/-- An approximation of a number that is not small. -/
theorem away (hb : CTrack b z C m l) {D : ℝ} (hD : D ≤ ‖z‖) (hC : C ≤ 3 * D) (hm : m ≤ 10 ^ 5) :
    ∃ w : ℂ, Is b.re w.re ∧ Is b.im w.im ∧ ‖w - z‖ ≤ m * uu * C ∧ 0.99 * D ≤ ‖w‖ ∧ (10 ^ (l + 1))⁻¹ ≤ ‖w‖ ∧ ‖w‖ ≤ 10 ^ (l + 1) ∧
      (10 ^ (l + 1))⁻¹ ≤ D⁻¹ ∧ D⁻¹ ≤ 10 ^ (l + 1) := by
  obtain ⟨w, w1, w2, w3, w4⟩ := hb.approx hm
  have hs := hb.small hm
  have hC0 := hb.pos
  have hD0 : 0 < D := by linarith
  have h1 : ‖z‖ ≤ ‖w‖ + ‖w - z‖ := by
    have := norm_sub_norm_le z (z - w)
    rw [sub_sub_cancel, norm_sub_rev z w] at this
    linarith
  have e : (10 : ℝ) ^ (l + 1) = 10 ^ l * 10 := pow_succ _ _
  have hlo := hb.lo
  have hhi := hb.hi
  have hbd := hb.bound
  have hw : 0.99 * D ≤ ‖w‖ := by norm_num at *; linarith
  refine ⟨w, w1, w2, w3, hw, ?_, ?_, ?_, ?_⟩
  · rw [e, mul_inv]; norm_num at *; linarith
  · rw [e]; norm_num at *; linarith
  · refine inv_anti₀ hD0 ?_
    rw [e]; norm_num at *; linarith
  · rw [inv_le_comm₀ hD0 (by positivity), e, mul_inv]; norm_num at *; linarith

theorem inv (hb : CTrack b z C m l) {D : ℝ} (hD : D ≤ ‖z‖) (hC : C ≤ 3 * D) (hm : m ≤ 10 ^ 4 := by norm_num) (hl : l ≤ 70 := by norm_num) :
    CTrack b⁻¹ z⁻¹ D⁻¹ (4 * m + 66) (l + 1) := by
  obtain ⟨w, w1, w2, w3, w4, w5, w6, w7, w8⟩ := hb.away hD hC (by omega)
  have hu := uu_pos
  have hC0 := hb.pos
  have hD0 : 0 < D := by linarith
  have hw0 : 0 < ‖w‖ := lt_of_lt_of_le (by positivity) w5
  have hN := norm_sq w1 w2 w5 w6 (by omega)
  have M := mid_of w5 w6 (by omega)
  have hone : Run (Fl.num 1 : Fl binary64) 1 1 0 := run_of (by rfl) (by simp)
  have n1 := hone.mul (run_of w1 (Complex.abs_re_le_norm w)) le_rfl le_rfl (by norm_num) (by norm_num) (by rwa [one_mul])
  have n2 := hone.mul (run_of w2 (Complex.abs_im_le_norm w)) le_rfl le_rfl (by norm_num) (by norm_num) (by rwa [one_mul])
  rw [one_mul, one_mul, zero_add, zero_add] at n1 n2
  have q1 := (⟨by exact_mod_cast n1, w5, w6⟩ : Track _ w.re ‖w‖ 3 (l + 1)).div hN (by norm_num) (by norm_num) (by omega)
  have q2 := (⟨by exact_mod_cast n2, w5, w6⟩ : Track _ w.im ‖w‖ 3 (l + 1)).div hN (by norm_num) (by norm_num) (by omega)
  have e : ‖w‖ / (‖w‖ * ‖w‖) = ‖w‖⁻¹ := by field_simp
  have i1 : ‖w‖⁻¹ ≤ 1.02 * D⁻¹ := by
    rw [inv_le_comm₀ hw0 (by positivity), mul_inv, inv_inv]
    norm_num at *
    linarith
  have hz : Run (Fl.num 0 : Fl binary64) 0 0 30 := ⟨0, rfl, by simp, by simp⟩
  have q3 := hz.sub (q2.run.mono (show ((2 * 3 + 2 * 10 + 2 : ℕ) : ℝ) ≤ 30 by norm_num)) (by norm_num) (by norm_num)
    (by rw [zero_add]; exact mid_of q2.lo q2.hi (by omega))
  rw [zero_add, zero_sub] at q3
  rw [e] at q1 q3
  have hi0 : 0 < ‖w‖⁻¹ := inv_pos.2 hw0
  have hns : Complex.normSq w = ‖w‖ * ‖w‖ := (Complex.norm_mul_self_eq_normSq w).symm
  have p1 : Near (b⁻¹).re (w⁻¹).re (32 * uu * ‖w‖⁻¹) := by
    obtain ⟨t, h1, h2⟩ := q1.run.near
    refine ⟨t, h1, ?_⟩
    rw [Complex.inv_re, hns]
    refine h2.trans ?_
    norm_num
    gcongr
    norm_num
  have p2 : Near (b⁻¹).im (w⁻¹).im (32 * uu * ‖w‖⁻¹) := by
    obtain ⟨t, h1, h2⟩ := q3.near
    refine ⟨t, h1, ?_⟩
    rw [Complex.inv_im, hns, neg_div]
    refine h2.trans (le_of_eq ?_)
    norm_num
  have hz0 : z ≠ 0 := norm_pos_iff.1 (by linarith)
  have hw0' : w ≠ 0 := norm_pos_iff.1 hw0
  have hd : ‖w⁻¹ - z⁻¹‖ ≤ 4 * m * uu * D⁻¹ := by
    rw [show w⁻¹ - z⁻¹ = -(w - z) * (w⁻¹ * z⁻¹) by field_simp; ring, norm_mul, norm_neg, norm_mul, norm_inv, norm_inv]
    have hz1 : ‖z‖⁻¹ ≤ D⁻¹ := inv_anti₀ hD0 hD
    calc ‖w - z‖ * (‖w‖⁻¹ * ‖z‖⁻¹) ≤ (m * uu * (3 * D)) * ((1.02 * D⁻¹) * D⁻¹) := by
          gcongr
          exact w3.trans (by gcongr)
      _ = (3 * 1.02) * m * uu * (D * D⁻¹ * D⁻¹) := by ring
      _ = (3 * 1.02) * m * uu * D⁻¹ := by rw [mul_inv_cancel₀ hD0.ne', one_mul]
      _ ≤ _ := by gcongr; norm_num
  refine of_parts p1 p2 hd (by rw [norm_inv]; exact inv_anti₀ hD0 hD) ?_ w7 w8
  push_cast
  have hDi : 0 < D⁻¹ := inv_pos.2 hD0
  have e3 : 0 < uu * D⁻¹ := by positivity
  have e4 : 32 * uu * ‖w‖⁻¹ ≤ 32 * uu * (1.02 * D⁻¹) := by gcongr
  norm_num at *
  nlinarith

theorem div (ha : CTrack a x B n k) (hb : CTrack b z C m l) {D : ℝ} (hD : D ≤ ‖z‖) (hC : C ≤ 3 * D) (hn : n ≤ 10 ^ 4 := by norm_num)
    (hm : m ≤ 10 ^ 4 := by norm_num) (hk : k ≤ 70 := by norm_num) (hl : l ≤ 35 := by norm_num) :
    CTrack (a / b) (x / z) (B / D) (2 * n + 4 * m + 135) (k + (l + 1)) := by
  obtain ⟨v, v1, v2, v3, v4⟩ := ha.approx (by omega)
  obtain ⟨w, w1, w2, w3, w4, w5, w6, w7, w8⟩ := hb.away hD hC (by omega)
  have hu := uu_pos
  have hB := ha.pos
  have hC0 := hb.pos
  have hD0 : 0 < D := by linarith
  have hw0 : 0 < ‖w‖ := lt_of_lt_of_le (by positivity) w5
  obtain ⟨r1, r2⟩ := Track.range_mul ha.lo ha.hi w7 w8
  rw [← div_eq_mul_inv] at r1 r2
  obtain ⟨s1, s2⟩ := Track.range_mul ha.lo ha.hi w5 w6
  have hN := norm_sq w1 w2 w5 w6 (by omega)
  have hBw : 0 < B * ‖w‖ := by positivity
  have M : Mid (1.001 * B * ‖w‖) := by
    rw [mul_assoc]
    exact mid_scale s1 s2 (by omega) (by norm_num) (by norm_num)
  have M2 : Mid (1.001 * B * ‖w‖ + 1.001 * B * ‖w‖) := by
    rw [show 1.001 * B * ‖w‖ + 1.001 * B * ‖w‖ = (2 * 1.001) * (B * ‖w‖) by ring]
    exact mid_scale s1 s2 (by omega) (by norm_num) (by norm_num)
  have vr := run_of v1 ((Complex.abs_re_le_norm v).trans v4)
  have vi := run_of v2 ((Complex.abs_im_le_norm v).trans v4)
  have wr := run_of w1 (Complex.abs_re_le_norm w)
  have wi := run_of w2 (Complex.abs_im_le_norm w)
  have rr := vr.mul wr le_rfl le_rfl (by norm_num) (by norm_num) M
  have ii := vi.mul wi le_rfl le_rfl (by norm_num) (by norm_num) M
  have ri := vr.mul wi le_rfl le_rfl (by norm_num) (by norm_num) M
  have ir := vi.mul wr le_rfl le_rfl (by norm_num) (by norm_num) M
  have n1 := rr.add ii (by norm_num) (by norm_num) M2
  have n2 := ir.sub ri (by norm_num) (by norm_num) M2
  have e10 : (10 : ℝ) ^ (k + (l + 1) + 1) = 10 ^ (k + (l + 1)) * 10 := pow_succ _ _
  have t1 : ((10 : ℝ) ^ (k + (l + 1) + 1))⁻¹ ≤ 1.001 * B * ‖w‖ + 1.001 * B * ‖w‖ := by
    rw [e10, mul_inv, show 1.001 * B * ‖w‖ + 1.001 * B * ‖w‖ = (2 * 1.001) * (B * ‖w‖) by ring]
    have : (0 : ℝ) < (10 ^ (k + (l + 1)))⁻¹ := by positivity
    norm_num
    linarith
  have t2 : 1.001 * B * ‖w‖ + 1.001 * B * ‖w‖ ≤ (10 : ℝ) ^ (k + (l + 1) + 1) := by
    rw [e10, show 1.001 * B * ‖w‖ + 1.001 * B * ‖w‖ = (2 * 1.001) * (B * ‖w‖) by ring]
    norm_num
    linarith
  have q1 := (⟨n1.mono (by norm_num), t1, t2⟩ : Track _ _ _ 5 (k + (l + 1) + 1)).div hN (by norm_num) (by norm_num) (by omega)
  have q2 := (⟨n2.mono (by norm_num), t1, t2⟩ : Track _ _ _ 5 (k + (l + 1) + 1)).div hN (by norm_num) (by norm_num) (by omega)
  have e : (1.001 * B * ‖w‖ + 1.001 * B * ‖w‖) / (‖w‖ * ‖w‖) = 2.002 * B * ‖w‖⁻¹ := by field_simp; ring
  rw [e] at q1 q2
  have i1 : ‖w‖⁻¹ ≤ 1.02 * D⁻¹ := by
    rw [inv_le_comm₀ hw0 (by positivity), mul_inv, inv_inv]
    norm_num at *
    linarith
  have hns : Complex.normSq w = ‖w‖ * ‖w‖ := (Complex.norm_mul_self_eq_normSq w).symm
  have p1 : Near (a / b).re (v / w).re (32 * uu * (2.002 * B * ‖w‖⁻¹)) := by
    obtain ⟨t, h1, h2⟩ := q1.run.near
    refine ⟨t, h1, ?_⟩
    rw [Complex.div_re, hns, ← add_div]
    exact h2.trans (le_of_eq (by norm_num))
  have p2 : Near (a / b).im (v / w).im (32 * uu * (2.002 * B * ‖w‖⁻¹)) := by
    obtain ⟨t, h1, h2⟩ := q2.run.near
    refine ⟨t, h1, ?_⟩
    rw [Complex.div_im, hns, ← sub_div]
    exact h2.trans (le_of_eq (by norm_num))
  have hz0 : z ≠ 0 := norm_pos_iff.1 (by linarith)
  have hw0' : w ≠ 0 := norm_pos_iff.1 hw0
  have hz1 : ‖z‖⁻¹ ≤ D⁻¹ := inv_anti₀ hD0 hD
  have hDi : 0 < D⁻¹ := inv_pos.2 hD0
  have hd : ‖v / w - x / z‖ ≤ (2 * n + 4 * m) * uu * (B / D) := by
    rw [show v / w - x / z = (v - x) * w⁻¹ + x * (-(w - z)) * (w⁻¹ * z⁻¹) by field_simp; ring]
    have y1 : ‖(v - x) * w⁻¹‖ ≤ n * uu * B * (1.02 * D⁻¹) := by rw [norm_mul, norm_inv]; gcongr
    have y2 : ‖x * (-(w - z)) * (w⁻¹ * z⁻¹)‖ ≤ B * (m * uu * (3 * D)) * ((1.02 * D⁻¹) * D⁻¹) := by
      rw [norm_mul, norm_mul, norm_neg, norm_mul, norm_inv, norm_inv]
      gcongr
      · exact ha.bound
      · exact w3.trans (by gcongr)
    have y3 : B * (m * uu * (3 * D)) * ((1.02 * D⁻¹) * D⁻¹) = (3 * 1.02) * m * uu * (B / D) := by field_simp
    have y4 := norm_add_le ((v - x) * w⁻¹) (x * (-(w - z)) * (w⁻¹ * z⁻¹))
    have y5 : n * uu * B * (1.02 * D⁻¹) = 1.02 * n * uu * (B / D) := by field_simp
    have z1 : 0 ≤ n * (uu * (B / D)) := by positivity
    have z2 : 0 ≤ m * (uu * (B / D)) := by positivity
    rw [y3] at y2
    rw [y5] at y1
    norm_num at *
    nlinarith
  refine of_parts p1 p2 hd (by rw [norm_div, div_eq_mul_inv, div_eq_mul_inv]; have := ha.bound; gcongr) ?_ r1 r2
  have e4 : 32 * uu * (2.002 * B * ‖w‖⁻¹) ≤ 32 * uu * (2.002 * B * (1.02 * D⁻¹)) := by gcongr
  have e5 : 32 * uu * (2.002 * B * (1.02 * D⁻¹)) = (32 * 2.002 * 1.02) * (uu * (B / D)) := by field_simp
  have e3 : 0 < uu * (B / D) := by positivity
  rw [e5] at e4
  push_cast
  generalize 32 * uu * (2.002 * B * ‖w‖⁻¹) = E at *
  norm_num at e4
  nlinarith

/-! ### The norm and the argument -/

theorem hypot_value {x y : Fl binary64} {w : ℂ} (h1 : Is x w.re) (h2 : Is y w.im) : IsE (Fl.hypot x y) (binary64.rnd ‖w‖) := by
  change (Fl.hypot x y).value = _
  unfold Fl.hypot
  simp only [show x.value = some (w.re : EReal) from h1, show y.value = some (w.im : EReal) from h2, val_of h1, val_of h2, EReal.toReal_coe]
  simp [value_round, Complex.norm_eq_sqrt_sq_add_sq]

theorem isNeg_pos {x : Fl binary64} {u : ℝ} (h : Is x u) (hu : 0 < u) : x.isNeg = false := by
  cases x with
  | nan => simp [Is, Fl.value] at h
  | nz =>
    simp only [Is, Fl.value, Option.some.injEq] at h
    exact absurd (by exact_mod_cast h.symm : u = 0) hu.ne'
  | num e =>
    simp only [Is, Fl.value, Option.some.injEq] at h
    subst h
    simp only [Fl.isNeg, decide_eq_false_iff_not, not_lt]
    exact_mod_cast hu.le

theorem atan2_value {x y : Fl binary64} {w : ℂ} (h1 : Is x w.re) (h2 : Is y w.im) (hw : w ∈ Complex.slitPlane) :
    IsE (Fl.atan2 y x) (binary64.rnd (Complex.arg w)) := by
  change (Fl.atan2 y x).value = _
  unfold Fl.atan2
  simp only [show x.value = some (w.re : EReal) from h1, show y.value = some (w.im : EReal) from h2, val_of h1, val_of h2, EReal.toReal_coe]
  by_cases h0 : w.im = 0
  · have hre : 0 < w.re := by
      rcases Complex.mem_slitPlane_iff.1 hw with h | h
      · exact h
      · exact absurd h0 h
    have ha : Complex.arg w = 0 := by
      rw [show w = ((w.re : ℝ) : ℂ) from Complex.ext rfl h0]
      exact Complex.arg_ofReal_of_nonneg hre.le
    rw [isNeg_pos h1 hre, ha, h0]
    simp [value_round]
    split_ifs <;> simp [value_round]
  · simp [h0, value_round]

theorem run_norm {x y : Fl binary64} {w : ℂ} (h1 : Is x w.re) (h2 : Is y w.im) (M : Mid ‖w‖) : Run (Fl.hypot x y) ‖w‖ ‖w‖ 2 := by
  have := Run.of_round (n := 0) (x := ‖w‖) (B := ‖w‖) (hypot_value h1 h2) (by rw [abs_of_nonneg (norm_nonneg _)]) M le_rfl (by norm_num) (by simp)
  rwa [zero_add] at this

theorem mid_num {c : ℝ} (h1 : 1 / 10 ≤ c) (h2 : c ≤ 10) : Mid c := mid_of (k := 1) (by norm_num at *; linarith) (by norm_num at *; linarith) (by norm_num)

theorem run_arg {x y : Fl binary64} {w : ℂ} (h1 : Is x w.re) (h2 : Is y w.im) (hw : w ∈ Complex.slitPlane) : Run (Fl.atan2 y x) (Complex.arg w) 4 2 := by
  have hb : |Complex.arg w| ≤ 4 := (Complex.abs_arg_le_pi w).trans Real.pi_le_four
  have := Run.of_round (n := 0) (x := Complex.arg w) (B := 4) (atan2_value h1 h2 hw) hb (mid_num (by norm_num) (by norm_num)) le_rfl (by norm_num) (by simp)
  rwa [zero_add] at this

theorem run_cos {t : Fl binary64} {x : ℝ} (h : Run t x 2 4) : Run (Fl.cos t) (Real.cos x) 1 10 := by
  obtain ⟨v, hv, -, h2⟩ := h
  have hc : IsE (Fl.cos t) (binary64.rnd (Real.cos v)) := by
    change (Fl.cos t).value = _
    unfold Fl.cos
    simp only [show t.value = some (v : EReal) from hv, val_of hv, EReal.toReal_coe]
    simp [value_round]
  have := Run.of_round (n := 8) (x := Real.cos x) (B := 1) hc (Real.abs_cos_le_one x) (mid_num (by norm_num) (by norm_num)) (by norm_num) (by norm_num) ?_
  · exact this.mono (by norm_num)
  · refine (Real.abs_cos_sub_cos_le v x).trans (h2.trans (le_of_eq (by ring)))

theorem run_sin {t : Fl binary64} {x : ℝ} (h : Run t x 2 4) : Run (Fl.sin t) (Real.sin x) 1 10 := by
  obtain ⟨v, hv, -, h2⟩ := h
  have hc : IsE (Fl.sin t) (binary64.rnd (Real.sin v)) := by
    change (Fl.sin t).value = _
    unfold Fl.sin
    simp only [show t.value = some (v : EReal) from hv, val_of hv, EReal.toReal_coe]
    simp [value_round]
  have := Run.of_round (n := 8) (x := Real.sin x) (B := 1) hc (Real.abs_sin_le_one x) (mid_num (by norm_num) (by norm_num)) (by norm_num) (by norm_num) ?_
  · exact this.mono (by norm_num)
  · refine (Real.abs_sin_sub_sin_le v x).trans (h2.trans (le_of_eq (by ring)))

theorem csqrt_polar {v : ℂ} (hv : v ∈ Complex.slitPlane) :
    (csqrt v).re = √‖v‖ * Real.cos (Complex.arg v / 2) ∧ (csqrt v).im = √‖v‖ * Real.sin (Complex.arg v / 2) := by
  have h0 : 0 < ‖v‖ := norm_pos_iff.2 (Complex.slitPlane_ne_zero hv)
  have e1 : (√‖v‖ : ℂ) = Complex.exp (((Real.log ‖v‖ / 2 : ℝ)) : ℂ) := by
    rw [← Complex.ofReal_exp, Real.sqrt_eq_rpow, Real.rpow_def_of_pos h0]
    congr 2
    ring
  have e2 : csqrt v = (√‖v‖ : ℂ) * ((Real.cos (Complex.arg v / 2) : ℂ) + (Real.sin (Complex.arg v / 2) : ℂ) * Complex.I) := by
    rw [csqrt_eq_exp (Complex.slitPlane_ne_zero hv), e1, Complex.ofReal_cos, Complex.ofReal_sin, ← Complex.exp_mul_I, ← Complex.exp_add, Complex.log]
    congr 1
    push_cast
    ring
  rw [e2]
  generalize Real.cos (Complex.arg v / 2) = c
  generalize Real.sin (Complex.arg v / 2) = s
  constructor
  · rw [Complex.re_ofReal_mul]; simp
  · rw [Complex.im_ofReal_mul]; simp

/-- In the sector of the plane around the positive axis, of half angle 135 degrees. -/
def InSector (z : ℂ) : Prop := 0 ≤ z.re + |z.im|

/-- The distance of the sector from the negative axis. -/
theorem InSector.slit {v z : ℂ} (hz : InSector z) (hz0 : z ≠ 0) (h : ‖v - z‖ ≤ ‖z‖ / 2) : v ∈ Complex.slitPlane := by
  have hp : 0 < ‖z‖ := norm_pos_iff.2 hz0
  rw [Complex.mem_slitPlane_iff]
  by_contra hc
  push Not at hc
  obtain ⟨h1, h2⟩ := hc
  have e1 : ‖v - z‖ ^ 2 = (v.re - z.re) ^ 2 + z.im ^ 2 := by
    rw [Complex.sq_norm, Complex.normSq_apply, Complex.sub_re, Complex.sub_im, h2]; ring
  have e2 : ‖z‖ ^ 2 = z.re ^ 2 + z.im ^ 2 := by rw [Complex.sq_norm, Complex.normSq_apply]; ring
  have h3 : ‖z‖ ^ 2 ≤ 2 * ‖v - z‖ ^ 2 := by
    rw [e1, e2]
    rcases le_or_gt 0 z.re with h | h
    · nlinarith [sq_nonneg z.im]
    · have : -z.re ≤ |z.im| := by have := hz; unfold InSector at this; linarith
      nlinarith [sq_abs z.im, sq_nonneg (v.re - z.re)]
  have h4 : ‖v - z‖ ^ 2 ≤ (‖z‖ / 2) ^ 2 := pow_le_pow_left₀ (norm_nonneg _) h 2
  nlinarith

theorem InSector.re_bound {z : ℂ} (hz : InSector z) : -(0.7072 * ‖z‖) ≤ z.re := by
  have e2 : ‖z‖ ^ 2 = z.re ^ 2 + z.im ^ 2 := by rw [Complex.sq_norm, Complex.normSq_apply]; ring
  rcases le_or_gt 0 z.re with h | h
  · have := norm_nonneg z
    norm_num
    linarith
  · have h1 : -z.re ≤ |z.im| := by have := hz; unfold InSector at this; linarith
    have h2 : 2 * z.re ^ 2 ≤ ‖z‖ ^ 2 := by rw [e2]; nlinarith [sq_abs z.im]
    have := abs_le_of_sq_le_sq (a := z.re) (b := 0.7072 * ‖z‖) (by norm_num at *; nlinarith [sq_nonneg z.re]) (by positivity)
    exact (abs_le.1 this).1

theorem csqrt_lipschitz {v z : ℂ} {B e : ℝ} (hB : 0 < B) (hz : InSector z) (hb : B ≤ 3 * ‖z‖) (he : ‖v - z‖ ≤ e * B) : ‖csqrt v - csqrt z‖ ≤ 5 * e * √B := by
  have p0 := csqrt_re_nonneg v
  have q0 := csqrt_re_nonneg z
  have pq : (csqrt v - csqrt z) * (csqrt v + csqrt z) = v - z := by
    have h1 := csqrt_sq v
    have h2 := csqrt_sq z
    linear_combination h1 - h2
  have hsum : √B / 5 ≤ ‖csqrt v + csqrt z‖ := by
    have h1 : (csqrt z).re ≤ ‖csqrt v + csqrt z‖ := by
      have := Complex.re_le_norm (csqrt v + csqrt z)
      rw [Complex.add_re] at this
      linarith
    refine le_trans ?_ h1
    have h2 : (csqrt z).re ^ 2 - (csqrt z).im ^ 2 = z.re := by
      have := congrArg Complex.re (csqrt_sq z)
      rw [pow_two, Complex.mul_re] at this
      linarith
    have h3 : (csqrt z).re ^ 2 + (csqrt z).im ^ 2 = ‖z‖ := by
      have h4 : ‖csqrt z‖ ^ 2 = ‖z‖ := by rw [← norm_pow, csqrt_sq]
      rw [← h4, Complex.sq_norm, Complex.normSq_apply]
      ring
    have h6 := hz.re_bound
    have h5 : B / 25 ≤ (csqrt z).re ^ 2 := by norm_num at h6; linarith
    refine (pow_le_pow_iff_left₀ (by positivity) q0 two_ne_zero).1 ?_
    rw [div_pow, Real.sq_sqrt hB.le]
    linarith
  have hs := Real.sqrt_pos.2 hB
  have h1 : ‖csqrt v - csqrt z‖ * (√B / 5) ≤ 5 * e * √B * (√B / 5) := by
    calc ‖csqrt v - csqrt z‖ * (√B / 5) ≤ ‖csqrt v - csqrt z‖ * ‖csqrt v + csqrt z‖ := by gcongr
      _ = ‖v - z‖ := by rw [← norm_mul, pq]
      _ ≤ e * B := he
      _ = 5 * e * √B * (√B / 5) := by rw [show 5 * e * √B * (√B / 5) = e * (√B * √B) by ring, Real.mul_self_sqrt hB.le]
  exact le_of_mul_le_mul_right h1 (by positivity)

theorem isNeg_neg {x : Fl binary64} {u : ℝ} (hx : Is x u) (hu : u < 0) : x.isNeg = true := by
  cases x with
  | nan => simp [Is, Fl.value] at hx
  | nz => rfl
  | num v =>
    have : v = (u : EReal) := by simpa [Is, Fl.value] using hx
    simp only [Fl.isNeg, this, decide_eq_true_eq]
    exact_mod_cast hu

theorem abs_value {x : Fl binary64} {u : ℝ} (hx : Is x u) (hu : u ≠ 0) : Is (Fl.abs x) |u| ∧ (x.isNeg = true ↔ u < 0) := by
  rcases lt_or_gt_of_ne hu with h | h
  · rw [abs_of_neg h, Fl.abs, isNeg_neg hx h, if_pos rfl]
    exact ⟨value_neg hx, by simp [h]⟩
  · have e := CTrack.isNeg_pos hx h
    rw [abs_of_pos h, Fl.abs, e]
    exact ⟨by simpa using hx, by simp [h.le]⟩

/-- The root of an imaginary number. -/
theorem root_axis {y x : Fl binary64} {u : ℝ} (hy : Is y 0) (hx : Is x u) (hu : u ≠ 0) (M1 : Mid (|u| / 2)) (M2 : Mid √(|u| / 2)) :
    Near (CFl.sqrt ⟨y, x⟩).re (csqrt ⟨0, u⟩).re (4 * uu * √|u|) ∧ Near (CFl.sqrt ⟨y, x⟩).im (csqrt ⟨0, u⟩).im (4 * uu * √|u|) := by
  obtain ⟨a1, a2⟩ := abs_value hx hu
  have h0 : 0 < |u| := abs_pos.2 hu
  have h2 : Is (ofR 2 : Fl binary64) 2 := by exact_mod_cast is_ofR (binary64_nat (n := 2) (by norm_num))
  have t2 := ((run_of a1 (show |(|u|)| ≤ |u| by rw [abs_abs])).divNum h2 (by norm_num) le_rfl (by norm_num) M1).sqrt (by positivity) (by norm_num) (by norm_num) M2
  obtain ⟨v, hv, -, hv2⟩ := t2
  have hne : x.value ≠ some 0 := by
    rw [show x.value = some (u : EReal) from hx]
    simpa using hu
  have e : CFl.sqrt ⟨y, x⟩ = ⟨NumOps.sqrt (Fl.abs x / ofR 2), if x.isNeg = true then -NumOps.sqrt (Fl.abs x / ofR 2) else NumOps.sqrt (Fl.abs x / ofR 2)⟩ := by
    unfold CFl.sqrt
    rw [if_neg hne, if_pos (show y.value = some 0 from hy)]
  have hp : 0 < √(|u| / 2) := Real.sqrt_pos.2 (by positivity)
  have hsq : √(|u| / 2) ^ 2 = |u| / 2 := Real.sq_sqrt (by positivity)
  have hle : √(|u| / 2) ≤ √|u| := Real.sqrt_le_sqrt (by linarith)
  have hc : csqrt ⟨0, u⟩ = ⟨√(|u| / 2), if u < 0 then -√(|u| / 2) else √(|u| / 2)⟩ := by
    refine csqrt_unique hp ?_
    split_ifs with h
    · rw [abs_of_neg h] at hsq ⊢
      apply Complex.ext <;> simp [pow_two] at hsq ⊢ <;> linarith
    · rw [abs_of_nonneg (not_lt.1 h)] at hsq ⊢
      apply Complex.ext <;> simp [pow_two] at hsq ⊢ <;> linarith
  have hn : |v - √(|u| / 2)| ≤ 4 * uu * √|u| := by
    refine hv2.trans ?_
    have : (0 : ℝ) < uu := uu_pos
    rw [show (0 : ℝ) + 2 + 2 = 4 by norm_num]
    gcongr
  rw [e, hc]
  refine ⟨⟨v, hv, hn⟩, ?_⟩
  by_cases h : u < 0
  · rw [if_pos (a2.2 h), if_pos h]
    refine ⟨-v, value_neg hv, ?_⟩
    rw [show -v - -√(|u| / 2) = -(v - √(|u| / 2)) by ring, abs_neg]
    exact hn
  · rw [if_neg (fun k => h (a2.1 k)), if_neg h]
    exact ⟨v, hv, hn⟩

theorem sqrt (ha : CTrack a z B n k) (hre : InSector z) (hb : B ≤ 3 * ‖z‖) (hn : n ≤ 10 ^ 4 := by norm_num) (hk : k ≤ 70 := by norm_num) :
    CTrack (CFl.sqrt a) (csqrt z) (√B) (5 * n + 35) k := by
  obtain ⟨v, v1, v2, v3, -, v5, v6, -, -⟩ := ha.away (D := B / 3) (by linarith) (by linarith) (by omega)
  have hB := ha.pos
  have hs := Real.sqrt_pos.2 hB
  have hu := uu_pos
  have hv4 : ‖v‖ ≤ 1.002 * B := by
    have h1 := norm_add_le z (v - z)
    rw [add_sub_cancel] at h1
    have := ha.small (show n ≤ 10 ^ 5 by omega)
    have := ha.bound
    norm_num at *
    linarith
  have hz0 : 0 < ‖z‖ := by linarith
  have hslit : v ∈ Complex.slitPlane := by
    refine hre.slit (norm_pos_iff.1 hz0) (v3.trans ?_)
    have := ha.small (show n ≤ 10 ^ 5 by omega)
    norm_num at *
    linarith
  have M := mid_of v5 v6 (by omega)
  have hn0 : 0 < ‖v‖ := M.pos
  have hsv : √‖v‖ ≤ 1.001 * √B := by
    rw [show (1.001 : ℝ) * √B = √(1.001 ^ 2 * B) by rw [Real.sqrt_mul (by norm_num), Real.sqrt_sq (by norm_num)]]
    exact Real.sqrt_le_sqrt (hv4.trans (by norm_num; linarith))
  have h10 : (1 : ℝ) ≤ 10 ^ k := one_le_pow₀ (by norm_num)
  have h10' : ((10 : ℝ) ^ k)⁻¹ ≤ 1 := inv_le_one_of_one_le₀ h10
  have hp : (0 : ℝ) < (10 ^ k)⁻¹ := by positivity
  have r1 : (10 ^ k)⁻¹ ≤ √B := Real.le_sqrt_of_sq_le (by nlinarith [ha.lo])
  have r2 : √B ≤ 10 ^ k := Real.sqrt_le_iff.2 ⟨by positivity, by nlinarith [ha.hi]⟩
  have hbd : ‖csqrt z‖ ≤ √B := by
    refine Real.le_sqrt_of_sq_le ?_
    rw [← norm_pow, csqrt_sq]
    exact ha.bound
  have Msq : ∀ {t : ℝ}, (10 ^ (k + 1))⁻¹ ≤ t → t ≤ 10 ^ (k + 1) → Mid √t := by
    intro t t1 t2
    have i10 : (1 : ℝ) ≤ 10 ^ (k + 1) := one_le_pow₀ (by norm_num)
    have i10' : ((10 : ℝ) ^ (k + 1))⁻¹ ≤ 1 := inv_le_one_of_one_le₀ i10
    have ip : (0 : ℝ) < (10 ^ (k + 1))⁻¹ := by positivity
    exact mid_of (k := k + 1) (Real.le_sqrt_of_sq_le (by nlinarith)) (Real.sqrt_le_iff.2 ⟨by positivity, by nlinarith⟩) (by omega)
  have key : Near (CFl.sqrt a).re (csqrt v).re (17 * uu * √‖v‖) ∧ Near (CFl.sqrt a).im (csqrt v).im (17 * uu * √‖v‖) := by
    by_cases hr0 : v.re = 0
    · have ev : v = ⟨0, v.im⟩ := Complex.ext hr0 rfl
      have hi0 : v.im ≠ 0 := by
        intro h
        exact Complex.slitPlane_ne_zero hslit (Complex.ext hr0 h)
      have en : ‖v‖ = |v.im| := by
        rw [Complex.norm_def, Complex.normSq_apply, hr0, mul_zero, zero_add, Real.sqrt_mul_self_eq_abs]
      have e11 : (10 : ℝ) ^ (k + 2) = 10 ^ (k + 1) * 10 := pow_succ _ _
      have g1 : ((10 : ℝ) ^ (k + 2))⁻¹ ≤ |v.im| / 2 := by
        rw [e11, mul_inv, ← en]
        have : (0 : ℝ) < (10 ^ (k + 1))⁻¹ := by positivity
        norm_num
        linarith
      have g2 : |v.im| / 2 ≤ 10 ^ (k + 2) := by
        rw [e11, ← en]
        have : (0 : ℝ) < 10 ^ (k + 1) := by positivity
        linarith
      have Ms : Mid √(|v.im| / 2) := by
        have i10 : (1 : ℝ) ≤ 10 ^ (k + 2) := one_le_pow₀ (by norm_num)
        have i10' : ((10 : ℝ) ^ (k + 2))⁻¹ ≤ 1 := inv_le_one_of_one_le₀ i10
        have ip : (0 : ℝ) < (10 ^ (k + 2))⁻¹ := by positivity
        exact mid_of (k := k + 2) (Real.le_sqrt_of_sq_le (by nlinarith)) (Real.sqrt_le_iff.2 ⟨by positivity, by nlinarith⟩) (by omega)
      obtain ⟨⟨p, p1, p2⟩, q, q1, q2⟩ := root_axis (by rw [hr0] at v1; exact v1) v2 hi0 (mid_of g1 g2 (by omega)) Ms
      have hs0 := Real.sqrt_nonneg |v.im|
      rw [← ev] at p2 q2
      rw [en]
      refine ⟨⟨p, p1, p2.trans ?_⟩, q, q1, q2.trans ?_⟩ <;>
      · gcongr
        norm_num
    unfold CFl.sqrt
    by_cases h0 : v.im = 0
    · have e0 : a.im.value = some 0 := by rw [show a.im.value = _ from v2, h0]; rfl
      have hvre : 0 < v.re := by
        rcases Complex.mem_slitPlane_iff.1 hslit with h | h
        · exact h
        · exact absurd h0 h
      rw [if_pos e0, isNeg_pos v1 hvre]
      simp only [Bool.false_eq_true, if_false]
      have ev : v = ((v.re : ℝ) : ℂ) := Complex.ext rfl h0
      have en : ‖v‖ = v.re := by rw [ev, Complex.norm_real, Real.norm_eq_abs, abs_of_pos hvre]; simp
      have hr := ((run_of v1 (show |v.re| ≤ v.re by rw [abs_of_pos hvre])).sqrt hvre le_rfl (by norm_num) (Msq (by rw [← en]; exact v5) (by rw [← en]; exact v6))).near
      rw [ev, csqrt_ofReal hvre.le, Complex.ofReal_re, Complex.ofReal_im, ← ev, en]
      obtain ⟨t, t1, t2⟩ := hr
      refine ⟨⟨t, t1, t2.trans ?_⟩, ⟨0, by rw [h0] at v2; exact v2, ?_⟩⟩
      · have := Real.sqrt_nonneg v.re
        gcongr
        norm_num
      · simp
        positivity
    · have e0 : ¬ a.im.value = some 0 := by
        rw [show a.im.value = _ from v2]
        intro h
        exact h0 (by exact_mod_cast Option.some.inj h)
      have e1 : ¬ a.re.value = some 0 := by
        rw [show a.re.value = _ from v1]
        intro h
        exact hr0 (by exact_mod_cast Option.some.inj h)
      rw [if_neg e0, if_neg e1]
      have hN := (run_norm v1 v2 M).sqrt hn0 (by norm_num) (by norm_num) (Msq v5 v6)
      have h2 : Is (ofR 2 : Fl binary64) 2 := by exact_mod_cast is_ofR (binary64_nat (n := 2) (by norm_num))
      have hA := (run_arg v1 v2 hslit).divNum h2 (by norm_num) (by norm_num) (by norm_num) (mid_num (by norm_num) (by norm_num))
      norm_num at hA
      obtain ⟨q1, q2⟩ := csqrt_polar hslit
      have c := hN.mul (run_cos hA) (by norm_num) (by norm_num) (by norm_num) (by norm_num) (by rw [mul_one]; exact Msq v5 v6)
      have s := hN.mul (run_sin hA) (by norm_num) (by norm_num) (by norm_num) (by norm_num) (by rw [mul_one]; exact Msq v5 v6)
      rw [← q1, mul_one] at c
      rw [← q2, mul_one] at s
      norm_num at c s
      exact ⟨c.near, s.near⟩
  have hd := csqrt_lipschitz hB hre hb v3
  refine of_parts key.1 key.2 hd hbd ?_ r1 r2
  push_cast
  have e3 : 0 < uu * √B := by positivity
  have e4 : 17 * uu * √‖v‖ ≤ 17 * uu * (1.001 * √B) := by gcongr
  generalize 17 * uu * √‖v‖ = E at *
  norm_num at e4
  nlinarith

/-! ### The logarithm -/

theorem log_lipschitz {v z : ℂ} (hz : InSector z) (hz0 : z ≠ 0) (h : ‖v - z‖ ≤ ‖z‖ / 2) :
    v ∈ Complex.slitPlane ∧ ‖Complex.log v - Complex.log z‖ ≤ 2 / ‖z‖ * ‖v - z‖ := by
  have hp : 0 < ‖z‖ := norm_pos_iff.2 hz0
  have hball : ∀ w ∈ Metric.closedBall z (‖z‖ / 2), w ∈ Complex.slitPlane ∧ ‖z‖ / 2 ≤ ‖w‖ := by
    intro w hw
    rw [Metric.mem_closedBall, dist_eq_norm] at hw
    constructor
    · exact hz.slit hz0 hw
    · have := norm_sub_norm_le z (z - w)
      rw [sub_sub_cancel, norm_sub_rev z w] at this
      linarith
  have hv : v ∈ Metric.closedBall z (‖z‖ / 2) := by rw [Metric.mem_closedBall, dist_eq_norm]; exact h
  refine ⟨(hball v hv).1, ?_⟩
  refine (convex_closedBall z (‖z‖ / 2)).norm_image_sub_le_of_norm_hasDerivWithin_le (f := Complex.log) (f' := fun w => w⁻¹)
    (fun w hw => (Complex.hasDerivAt_log (hball w hw).1).hasDerivWithinAt) (fun w hw => ?_) (Metric.mem_closedBall_self (by positivity)) hv
  rw [norm_inv, show (2 : ℝ) / ‖z‖ = (‖z‖ / 2)⁻¹ by rw [inv_div]]
  exact inv_anti₀ (by positivity) (hball w hw).2

theorem log_bound {t : ℝ} {j : ℕ} (h0 : 0 < t) (h1 : (10 ^ j)⁻¹ ≤ t) (h2 : t ≤ 10 ^ j) : |Real.log t| ≤ 9 * j := by
  have l10 : Real.log 10 ≤ 10 - 1 := Real.log_le_sub_one_of_pos (by norm_num)
  have hj : (0 : ℝ) ≤ j := Nat.cast_nonneg _
  rw [abs_le]
  constructor
  · have := Real.log_le_log (by positivity) h1
    rw [Real.log_inv, Real.log_pow] at this
    nlinarith
  · have := Real.log_le_log h0 h2
    rw [Real.log_pow] at this
    nlinarith

/-- The computed argument is off the negative axis. -/
theorem slit (ha : CTrack a z B n k) (hre : InSector z) {Q : ℝ} (hb : B ≤ Q * ‖z‖) (hs : 4 * (n * uu * B) ≤ ‖z‖) : Slit a := by
  obtain ⟨v, v1, v2, v3⟩ := ha.run
  have hB := ha.pos
  have hu := uu_pos
  have hz0 : 0 < ‖z‖ := by
    rcases (norm_nonneg z).eq_or_lt with h | h
    · rw [← h] at hb; linarith
    · exact h
  exact ⟨v, v1, v2, (log_lipschitz hre (norm_pos_iff.1 hz0) (v3.trans (by have : 0 ≤ n * uu * B := by positivity
                                                                          linarith))).1⟩

theorem ln (ha : CTrack a z B n k) (hre : InSector z) {Q : ℝ} {l : ℕ} (hb : B ≤ Q * ‖z‖) (hs : 4 * (n * uu * B) ≤ ‖z‖) (hq : Q ≤ 10 ^ l)
    (hk : k ≤ 15 := by norm_num) (hl : l ≤ 90 := by norm_num) :
    CTrack (CFl.ln a) (Complex.log z) (‖Complex.log z‖ + Q) (2 * n + 18) (l + 4) := by
  obtain ⟨v, v1, v2, v3⟩ := ha.run
  have hB := ha.pos
  have hu := uu_pos
  have hbd := ha.bound
  have hz0 : 0 < ‖z‖ := by
    rcases (norm_nonneg z).eq_or_lt with h | h
    · rw [← h] at hb; linarith
    · exact h
  have hQ : 1 ≤ Q := by
    by_contra hc
    push Not at hc
    nlinarith
  obtain ⟨hslit, hlip⟩ := log_lipschitz hre (norm_pos_iff.1 hz0) (v3.trans (by linarith))
  have d1 : 2 / ‖z‖ * ‖v - z‖ ≤ 2 * n * uu * Q := by
    rw [div_mul_eq_mul_div, div_le_iff₀ hz0]
    calc 2 * ‖v - z‖ ≤ 2 * (n * uu * (Q * ‖z‖)) := by gcongr; exact v3.trans (by gcongr)
      _ = _ := by ring
  have d2 : 2 / ‖z‖ * ‖v - z‖ ≤ 1 / 2 := by
    rw [div_mul_eq_mul_div, div_le_iff₀ hz0]
    linarith
  -- the range of the norm
  have n1 : ‖z‖ ≤ ‖v‖ + ‖v - z‖ := by
    have := norm_sub_norm_le z (z - v)
    rw [sub_sub_cancel, norm_sub_rev z v] at this
    linarith
  have n2 : ‖v‖ ≤ ‖z‖ + ‖v - z‖ := by
    have := norm_add_le z (v - z)
    rwa [add_sub_cancel] at this
  have hzlo : ((10 : ℝ) ^ (k + l))⁻¹ ≤ ‖z‖ := by
    have h1 : ((10 : ℝ) ^ l)⁻¹ ≤ Q⁻¹ := inv_anti₀ (by linarith) hq
    rw [pow_add, mul_inv]
    calc ((10 : ℝ) ^ k)⁻¹ * (10 ^ l)⁻¹ ≤ B * Q⁻¹ := mul_le_mul ha.lo h1 (by positivity) hB.le
      _ ≤ ‖z‖ := by rw [← div_eq_mul_inv, div_le_iff₀ (by linarith)]; linarith
  have hzhi : ‖z‖ ≤ (10 : ℝ) ^ (k + l) := by
    refine (hbd.trans ha.hi).trans ?_
    exact pow_le_pow_right₀ (by norm_num) (by omega)
  have e10 : (10 : ℝ) ^ (k + l + 1) = 10 ^ (k + l) * 10 := pow_succ _ _
  have v5 : ((10 : ℝ) ^ (k + l + 1))⁻¹ ≤ ‖v‖ := by
    have : (0 : ℝ) < (10 ^ (k + l))⁻¹ := by positivity
    rw [e10, mul_inv]; norm_num; linarith
  have v6 : ‖v‖ ≤ (10 : ℝ) ^ (k + l + 1) := by rw [e10]; linarith
  have M := mid_of v5 v6 (by omega)
  have hv0 := M.pos
  have lb := log_bound hv0 v5 v6
  have hkl : ((k + l + 1 : ℕ) : ℝ) ≤ 106 := by exact_mod_cast (by omega : k + l + 1 ≤ 106)
  have la := abs_nonneg (Real.log ‖v‖)
  have ediv : ‖v‖ / ‖v‖ = 1 := div_self hv0.ne'
  have hr := (run_norm v1 v2 M).ln hv0 (by norm_num) (by norm_num) (by have := uu_small; nlinarith)
    (by rw [ediv]; exact mid_of (k := 3) (by norm_num; linarith) (by norm_num; linarith) (by norm_num))
  rw [ediv] at hr
  have hi := run_arg v1 v2 hslit
  have hlv : |Real.log ‖v‖| ≤ ‖Complex.log v‖ := by
    have := Complex.abs_re_le_norm (Complex.log v)
    rwa [Complex.log_re] at this
  have hlv2 : ‖Complex.log v‖ ≤ ‖Complex.log z‖ + 1 / 2 := by
    have := norm_add_le (Complex.log z) (Complex.log v - Complex.log z)
    rw [add_sub_cancel] at this
    linarith
  have l0 := norm_nonneg (Complex.log z)
  set T := ‖Complex.log z‖ + Q with hT
  have p1 : Near (CFl.ln a).re (Complex.log v).re (9 * uu * T) := by
    obtain ⟨t, t1, t2⟩ := hr.near
    refine ⟨t, t1, ?_⟩
    rw [Complex.log_re]
    refine t2.trans ?_
    norm_num
    have : |Real.log ‖v‖| + 1 ≤ 3 / 2 * T := by linarith
    nlinarith
  have p2 : Near (CFl.ln a).im (Complex.log v).im (9 * uu * T) := by
    obtain ⟨t, t1, t2⟩ := hi.near
    refine ⟨t, t1, ?_⟩
    rw [Complex.log_im]
    refine t2.trans ?_
    nlinarith
  have hzl : ‖Complex.log z‖ ≤ 9 * (k + l : ℕ) + 4 := by
    refine (Complex.norm_le_abs_re_add_abs_im _).trans ?_
    rw [Complex.log_re, Complex.log_im]
    exact add_le_add (log_bound hz0 hzlo hzhi) ((Complex.abs_arg_le_pi z).trans Real.pi_le_four)
  refine of_parts p1 p2 (hlip.trans d1) (by linarith) ?_ ?_ ?_
  · push_cast
    have : 2 * n * uu * Q ≤ 2 * n * uu * T := by gcongr; linarith
    linarith
  · have : ((10 : ℝ) ^ (l + 4))⁻¹ ≤ 1 := inv_le_one_of_one_le₀ (one_le_pow₀ (by norm_num))
    linarith
  · have e4 : (10 : ℝ) ^ (l + 4) = 10 ^ l * 10 ^ 4 := pow_add _ _ _
    have h1 : (1 : ℝ) ≤ 10 ^ l := one_le_pow₀ (by norm_num)
    have : ((k + l : ℕ) : ℝ) ≤ 105 := by exact_mod_cast (by omega : k + l ≤ 105)
    rw [e4]
    norm_num
    linarith

theorem lnS (ha : CTrack a z B n k) (hre : InSector z) {Q : ℝ} {l : ℕ} (hb : B ≤ Q * ‖z‖) (hs : 4 * (n * uu * B) ≤ ‖z‖) (hq : Q ≤ 10 ^ l)
    (hk : k ≤ 15 := by norm_num) (hl : l ≤ 90 := by norm_num) :
    Slit a ∧ CTrack (CFl.ln a) (Complex.log z) (‖Complex.log z‖ + Q) (2 * n + 18) (l + 4) :=
  ⟨ha.slit hre hb hs, ha.ln hre hb hs hq hk hl⟩

theorem sqrtS (ha : CTrack a z B n k) (hre : InSector z) (hb : B ≤ 3 * ‖z‖) (hn : n ≤ 10 ^ 4 := by norm_num) (hk : k ≤ 70 := by norm_num) :
    Slit a ∧ CTrack (CFl.sqrt a) (csqrt z) (√B) (5 * n + 35) k := by
  refine ⟨ha.slit hre hb ?_, ha.sqrt hre hb hn hk⟩
  have hB := ha.pos
  have := ha.small (show n ≤ 10 ^ 5 by omega)
  norm_num at *
  linarith

end CTrack
end Qcd
