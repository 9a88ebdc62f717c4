import Verif.Spec.ComplexPlane
import Verif.Lemmas.ComplexPlane
import Verif.Props.Residues

/-! C126: the vacuum functions off the real axis, and the spectral functions, in the arithmetic of `f64`. -/

namespace Qcd
open Fl Spec FTD

theorem Spec.OffAxis.off {x : CFl binary64} {s : ℂ} (h : OffAxis x s) : COff x 20 44 := by
  refine ⟨⟨_, h.re, h.re_hi.trans (by norm_num)⟩, _, h.im, h.im_hi.trans (by norm_num), le_trans (by norm_num) h.im_lo⟩

theorem Spec.OffAxis.mirror {x x' : CFl binary64} {s : ℂ} (h : OffAxis x s) (h' : OffAxis x' ((starRingEnd ℂ) s)) : CMirror x x' :=
  ⟨h'.re.trans h.re.symm, h'.im.trans (value_neg h.im).symm⟩

theorem pow_90 : (10 : ℝ) ^ 90 ≤ 2 ^ 300 := by
  rw [show (10 : ℝ) ^ 90 = (10 ^ 3) ^ 30 by rw [← pow_mul], show (2 : ℝ) ^ 300 = (2 ^ 10) ^ 30 by rw [← pow_mul]]
  gcongr
  norm_num

theorem CMirror.conjugate {a b : CFl binary64} (m : CMirror a b) {v : ℂ} (v1 : Is a.re v.re) (v2 : Is a.im v.im) : Conjugate a b :=
  ⟨v, v1, v2, (m.is v1 v2).1, (m.is v1 v2).2⟩

theorem CBelow.conjugate {a b : CFl binary64} {k : ℕ} (h : CBelow a k) (m : CMirror a b) : Conjugate a b := by
  obtain ⟨⟨u, u1, -⟩, v, v1, -⟩ := h
  exact m.conjugate (v := ⟨u, v⟩) u1 v1

section
variable {x x' : CFl binary64} (h : COff x 20 44) (m : CMirror x x') (c xi : Fl binary64)
include h

theorem loops_size {F} (hF : F ∈ loops) : CBelow (F x) 700 := by
  simp only [loops, List.mem_cons, List.not_mem_nil, or_false] at hF
  rcases hF with rfl | rfl | rfl | rfl | rfl | rfl
  exacts [h.size_ghost.mono (by norm_num), h.size_ghost_xi.mono (by norm_num), h.size_gluon.mono (by norm_num), h.size_gluon_xi.mono (by norm_num),
    h.size_quark.mono (by norm_num), h.size_crossed]

theorem inverses_size {c xi : Fl binary64} (hc : Below c 300) (hx : Below xi 20) {F} (hF : F ∈ inverses c xi) : CBelow (F x) 325 := by
  simp only [inverses, List.mem_cons, List.not_mem_nil, or_false] at hF
  rcases hF with rfl | rfl | rfl | rfl
  exacts [CBelow.mono (h.size_ghost.addR hc) (by decide), CBelow.mono ((h.size_ghost.addR hc).add (h.size_ghost_xi.mulR hx)) (by decide),
    CBelow.mono (h.size_gluon.addR hc) (by decide), CBelow.mono ((h.size_gluon.addR hc).add (h.size_gluon_xi.mulR hx)) (by decide)]

theorem propagators_size {c xi : Fl binary64} (hc : Below c 300) (hx : Below xi 20)
    (hJ : ∀ J ∈ inverses c xi, ∃ v : ℂ, Is (J x).re v.re ∧ Is (J x).im v.im ∧ 1 / 10 ^ 30 ≤ ‖v‖) {F} (hF : F ∈ propagators c xi) : CBelow (F x) 700 := by
  have key : ∀ J ∈ inverses c xi, CBelow (J x)⁻¹ 527 := fun J hJ' => by
    obtain ⟨v, v1, v2, v3⟩ := hJ J hJ'
    refine (inverses_size h hc hx hJ').inv (l := 101) v1 v2 ?_
    have := Complex.norm_le_abs_re_add_abs_im v
    have m1 := le_max_left |v.re| |v.im|
    have m2 := le_max_right |v.re| |v.im|
    norm_num at v3 ⊢
    by_contra hcon
    push Not at hcon
    linarith [hcon.1, hcon.2]
  have a1 : CBelow (CFl.ghost.dressing_landau x c) 527 := key (fun s => CFl.ghost.dressing_inv_landau s c) (by simp [inverses])
  have a2 : CBelow (CFl.ghost.dressing x c xi) 527 := key (fun s => CFl.ghost.dressing_inv s c xi) (by simp [inverses])
  have a3 : CBelow (CFl.gluon.dressing_landau x c) 527 := key (fun s => CFl.gluon.dressing_inv_landau s c) (by simp [inverses])
  have a4 : CBelow (CFl.gluon.dressing x c xi) 527 := key (fun s => CFl.gluon.dressing_inv s c xi) (by simp [inverses])
  simp only [propagators, List.mem_cons, List.not_mem_nil, or_false] at hF
  rcases hF with rfl | rfl | rfl | rfl | rfl | rfl | rfl | rfl
  exacts [a1.mono (by norm_num), a2.mono (by norm_num), (h.si.below.mul a1).mono (by norm_num), (h.si.below.mul a2).mono (by norm_num),
    a3.mono (by norm_num), a4.mono (by norm_num), (a3.mul h.si.below).mono (by norm_num), (a4.mul h.si.below).mono (by norm_num)]

include m

theorem loops_mirror {F} (hF : F ∈ loops) : CMirror (F x) (F x') := by
  simp only [loops, List.mem_cons, List.not_mem_nil, or_false] at hF
  rcases hF with rfl | rfl | rfl | rfl | rfl | rfl
  exacts [h.slits.mirror_ghost m, h.slits.mirror_ghost_xi m, h.slits.mirror_gluon m, h.slits.mirror_gluon_xi m, h.slits.mirror_quark m, h.slits.mirror_crossed m]

theorem inverses_mirror {F} (hF : F ∈ inverses c xi) : CMirror (F x) (F x') := by
  simp only [inverses, List.mem_cons, List.not_mem_nil, or_false] at hF
  rcases hF with rfl | rfl | rfl | rfl
  exacts [(h.slits.mirror_ghost m).addR, (h.slits.mirror_ghost m).addR.add (h.slits.mirror_ghost_xi m).mulR,
    (h.slits.mirror_gluon m).addR, (h.slits.mirror_gluon m).addR.add (h.slits.mirror_gluon_xi m).mulR]

theorem propagators_mirror {F} (hF : F ∈ propagators c xi) : CMirror (F x) (F x') := by
  have a1 : CMirror (CFl.ghost.dressing_landau x c) (CFl.ghost.dressing_landau x' c) := (h.slits.mirror_ghost m).addR.inv
  have a2 : CMirror (CFl.ghost.dressing x c xi) (CFl.ghost.dressing x' c xi) := ((h.slits.mirror_ghost m).addR.add (h.slits.mirror_ghost_xi m).mulR).inv
  have a3 : CMirror (CFl.gluon.dressing_landau x c) (CFl.gluon.dressing_landau x' c) := (h.slits.mirror_gluon m).addR.inv
  have a4 : CMirror (CFl.gluon.dressing x c xi) (CFl.gluon.dressing x' c xi) := ((h.slits.mirror_gluon m).addR.add (h.slits.mirror_gluon_xi m).mulR).inv
  simp only [propagators, List.mem_cons, List.not_mem_nil, or_false] at hF
  rcases hF with rfl | rfl | rfl | rfl | rfl | rfl | rfl | rfl
  exacts [a1, a2, m.inv.mul a1, m.inv.mul a2, a3, a4, a3.mul m.inv, a4.mul m.inv]

end

/-- **C126** (functions): off the real axis the functions of the self-energies are finite numbers, and exactly conjugate at conjugate arguments. -/
theorem C126_conjugate {x x' : CFl binary64} {s : ℂ} (h : OffAxis x s) (h' : OffAxis x' ((starRingEnd ℂ) s)) :
    ∀ F ∈ loops, Conjugate (F x) (F x') := fun _ hF =>
  (loops_size h.off hF).conjugate (loops_mirror h.off (h.mirror h') hF)

/-- **C126** (inverse dressing functions). -/
theorem C126_inverses {x x' c xi} {s : ℂ} {c₀ xi₀ : ℝ} (h : OffAxis x s) (h' : OffAxis x' ((starRingEnd ℂ) s)) (hc : Is c c₀) (hb : |c₀| ≤ 10 ^ 90)
    (hxi : Is xi xi₀) (hx : |xi₀| ≤ 10 ^ 6) : ∀ F ∈ inverses c xi, Conjugate (F x) (F x') := fun _ hF =>
  (inverses_size h.off ⟨_, hc, hb.trans pow_90⟩ ⟨_, hxi, hx.trans (by norm_num)⟩ hF).conjugate (inverses_mirror h.off (h.mirror h') c xi hF)

/-- **C126** (dressing functions and propagators): whenever the computed value is a finite number, the value computed at the conjugate argument is its
exact conjugate. -/
theorem C126_propagators {x x' : CFl binary64} {s : ℂ} (h : OffAxis x s) (h' : OffAxis x' ((starRingEnd ℂ) s)) (c xi : Fl binary64) :
    ∀ F ∈ propagators c xi, ∀ v : ℂ, Is (F x).re v.re → Is (F x).im v.im → Conjugate (F x) (F x') := fun _ hF _ h1 h2 =>
  (propagators_mirror h.off (h.mirror h') c xi hF).conjugate h1 h2

/-- **C126** (finite propagators): if the inverse dressing functions are at least `10^-30`, the dressing functions and propagators are finite. -/
theorem C126_propagators_finite {x x' c xi} {s : ℂ} {c₀ xi₀ : ℝ} (h : OffAxis x s) (h' : OffAxis x' ((starRingEnd ℂ) s)) (hc : Is c c₀)
    (hb : |c₀| ≤ 10 ^ 90) (hxi : Is xi xi₀) (hx : |xi₀| ≤ 10 ^ 6)
    (hJ : ∀ J ∈ inverses c xi, ∃ v : ℂ, Is (J x).re v.re ∧ Is (J x).im v.im ∧ 1 / 10 ^ 30 ≤ ‖v‖) : ∀ F ∈ propagators c xi, Conjugate (F x) (F x') :=
  fun _ hF => (propagators_size h.off ⟨_, hc, hb.trans pow_90⟩ ⟨_, hxi, hx.trans (by norm_num)⟩ hJ hF).conjugate
    (propagators_mirror h.off (h.mirror h') c xi hF)

/-! ### Spectral functions -/

theorem step_off {x : ℝ} (hx : |x| ≤ 10 ^ 6) : ∃ e : ℝ, OffAxis ⟨num (x : EReal), Spec.step⟩ ⟨x, e⟩ ∧ OffAxis ⟨num (x : EReal), -Spec.step⟩ ⟨x, -e⟩ := by
  obtain ⟨e, he, h1, h2⟩ := step_eq
  have h0 : 0 < e := lt_trans (by positivity) h1
  have i : Is Spec.step e := by rw [he]; rfl
  have b1 : (1 : ℝ) / 10 ^ 13 ≤ e := by norm_num at h1 ⊢; linarith
  have b2 : e ≤ 10 ^ 6 := by norm_num at h2 ⊢; linarith
  exact ⟨e, ⟨rfl, i, hx, by simpa [abs_of_pos h0] using b1, by simpa [abs_of_pos h0] using b2⟩,
    rfl, value_neg i, hx, by simpa [abs_of_pos h0] using b1, by simpa [abs_of_pos h0] using b2⟩

theorem spectral_of {F : CFl binary64 → CFl binary64} {x u v w : ℝ} (hb : Binary64 x)
    (m : CMirror (F ⟨num (x : EReal), Spec.step⟩) (F ⟨num (x : EReal), -Spec.step⟩))
    (hu : Is (F ⟨num (x : EReal), Spec.step⟩).re u) (hv : Is (F ⟨num (x : EReal), Spec.step⟩).im v) (hw : binary64.rnd (2 * v) = (w : EReal)) :
    SpectralIs F x v := by
  obtain ⟨k1, k2⟩ := m.is (w := ⟨u, v⟩) hu hv
  obtain ⟨p, P, h1, h2, h3, h4⟩ := spectral_core F x hb u v w hu hv k1 k2 hw
  exact ⟨p, P, w, h1, h2, hw, h3, h4⟩

theorem spectral_of_size {F : CFl binary64 → CFl binary64} {x : ℝ} (hb : Binary64 x)
    (m : CMirror (F ⟨num (x : EReal), Spec.step⟩) (F ⟨num (x : EReal), -Spec.step⟩)) (hs : CBelow (F ⟨num (x : EReal), Spec.step⟩) 700) :
    ∃ v : ℝ, Is (F ⟨num (x : EReal), Spec.step⟩).im v ∧ SpectralIs F x v := by
  obtain ⟨⟨u, u1, -⟩, v, v1, v2⟩ := hs
  refine ⟨v, v1, spectral_of hb m u1 v1 (within (b_two (by norm_num : 701 ≤ 900)) ?_).1⟩
  rw [abs_mul, abs_two, pow_succ]
  linarith

theorem step_mirror {x : ℝ} (hx : |x| ≤ 10 ^ 6) :
    COff ⟨num (x : EReal), Spec.step⟩ 20 44 ∧ CMirror ⟨num (x : EReal), Spec.step⟩ ⟨num (x : EReal), -Spec.step⟩ := by
  obtain ⟨e, h, h'⟩ := step_off hx
  exact ⟨h.off, h.mirror h'⟩

/-- **C126** (spectral functions): the spectral function of each of the functions, at every real number, is computed without imaginary part. The real part
is the imaginary part of the function next to the axis, divided by `-pi`, with four roundings. -/
theorem C126_spectral {x : ℝ} (hb : Binary64 x) (hx : |x| ≤ 10 ^ 6) {c xi : Fl binary64} {c₀ xi₀ : ℝ} (hc : Is c c₀) (hc' : |c₀| ≤ 10 ^ 90) (hxi : Is xi xi₀)
    (hxi' : |xi₀| ≤ 10 ^ 6) :
    ∀ F ∈ loops ++ inverses c xi, ∃ v : ℝ, Is (F ⟨num (x : EReal), Spec.step⟩).im v ∧ SpectralIs F x v := by
  obtain ⟨o, m⟩ := step_mirror hx
  intro F hF
  rcases List.mem_append.1 hF with hF | hF
  · exact spectral_of_size hb (loops_mirror o m hF) (loops_size o hF)
  · exact spectral_of_size hb (inverses_mirror o m c xi hF) (inverses_size o ⟨_, hc, hc'.trans pow_90⟩ ⟨_, hxi, hxi'.trans (by norm_num)⟩ hF |>.mono (by norm_num))

/-- **C126** (spectral functions of the propagators): the same holds for dressing functions and propagators, whenever the value next to the axis is finite
and its double does not overflow. -/
theorem C126_propagator_spectral {x : ℝ} (hb : Binary64 x) (hx : |x| ≤ 10 ^ 6) (c xi : Fl binary64) :
    ∀ F ∈ propagators c xi, ∀ u v w : ℝ, Is (F ⟨num (x : EReal), Spec.step⟩).re u → Is (F ⟨num (x : EReal), Spec.step⟩).im v →
      binary64.rnd (2 * v) = (w : EReal) → SpectralIs F x v := by
  obtain ⟨o, m⟩ := step_mirror hx
  exact fun F hF u v w hu hv hw => spectral_of hb (propagators_mirror o m c xi hF) hu hv hw

/-- **C126** (spectral functions of the propagators, finite values): no overflow if the inverse dressing functions next to the axis are at least
`10^-30`. -/
theorem C126_propagator_spectral_finite {x : ℝ} (hb : Binary64 x) (hx : |x| ≤ 10 ^ 6) {c xi : Fl binary64} {c₀ xi₀ : ℝ} (hc : Is c c₀) (hc' : |c₀| ≤ 10 ^ 90)
    (hxi : Is xi xi₀) (hxi' : |xi₀| ≤ 10 ^ 6)
    (hJ : ∀ J ∈ inverses c xi, ∃ v : ℂ, Is (J ⟨num (x : EReal), Spec.step⟩).re v.re ∧ Is (J ⟨num (x : EReal), Spec.step⟩).im v.im ∧ 1 / 10 ^ 30 ≤ ‖v‖) :
    ∀ F ∈ propagators c xi, ∃ v : ℝ, Is (F ⟨num (x : EReal), Spec.step⟩).im v ∧ SpectralIs F x v := by
  obtain ⟨o, m⟩ := step_mirror hx
  exact fun F hF => spectral_of_size hb (propagators_mirror o m c xi hF) (propagators_size o ⟨_, hc, hc'.trans pow_90⟩ ⟨_, hxi, hxi'.trans (by norm_num)⟩ hJ hF)

/-! ### Cases -/

/-- To the left of the origin, next to the cut. -/
theorem case_cut : OffAxis ⟨num ((-2 : ℝ) : EReal), num (((2 ^ 40)⁻¹ : ℝ) : EReal)⟩ ⟨-2, (2 ^ 40)⁻¹⟩ ∧
    OffAxis ⟨num ((-2 : ℝ) : EReal), num ((-(2 ^ 40)⁻¹ : ℝ) : EReal)⟩ ((starRingEnd ℂ) ⟨-2, (2 ^ 40)⁻¹⟩) := by
  refine ⟨⟨rfl, rfl, ?_, ?_, ?_⟩, rfl, rfl, ?_, ?_, ?_⟩ <;> norm_num [abs_of_pos]

theorem b_minus_two : Binary64 (-2) := ⟨-2, 0, by norm_num, by norm_num, by norm_num, by norm_num⟩

example := C126_conjugate case_cut.1 case_cut.2
example := C126_inverses (c := num ((-1 : ℝ) : EReal)) (xi := num ((3 : ℝ) : EReal)) case_cut.1 case_cut.2 rfl (by norm_num) rfl (by norm_num)
example := C126_propagators case_cut.1 case_cut.2 (num ((-1 : ℝ) : EReal)) (num ((3 : ℝ) : EReal))
example := C126_spectral b_minus_two (by norm_num) (c := num ((-1 : ℝ) : EReal)) (xi := num ((3 : ℝ) : EReal)) rfl (by norm_num) rfl (by norm_num)
/-- A sum with a large number. -/
theorem large_add {a b : Fl binary64} {u : ℝ} {n : ℕ} (hn : n ≤ 800) (ha : Is a u) (h1 : 2 ^ (n + 1) ≤ u) (h2 : u ≤ 2 ^ (n + 5)) (hb : Below b n) :
    ∃ v, Is (a + b) v ∧ 2 ^ n ≤ v ∧ v ≤ 2 ^ (n + 6) := by
  obtain ⟨y, y1, y2⟩ := hb
  have := abs_le.1 y2
  have e1 : (2 : ℝ) ^ (n + 1) = 2 ^ n * 2 := pow_succ _ _
  have e5 : (2 : ℝ) ^ (n + 5) = 2 ^ n * 32 := by rw [pow_add]; norm_num
  have e6 : (2 : ℝ) ^ (n + 6) = 2 ^ n * 64 := by rw [pow_add]; norm_num
  have hp : (0 : ℝ) < 2 ^ n := by positivity
  obtain ⟨v, v1, v2, v3⟩ := between (b_two (by omega : n ≤ 900)) (b_two (by omega : n + 6 ≤ 900)) (by linarith : 2 ^ n ≤ u + y) (by linarith)
  exact ⟨v, (value_add ha y1).trans (congrArg some v1), v2, v3⟩

/-- A large additive constant keeps the inverse dressing functions away from zero. -/
theorem case_inverse {x : CFl binary64} (h : COff x 20 44) : ∀ J ∈ inverses (num ((2 ^ 290 : ℝ) : EReal)) (num ((1 : ℝ) : EReal)),
    ∃ v : ℂ, Is (J x).re v.re ∧ Is (J x).im v.im ∧ 1 / 10 ^ 30 ≤ ‖v‖ := by
  have hc : Is (num ((2 ^ 290 : ℝ) : EReal) : Fl binary64) (2 ^ 290) := rfl
  have hc' : Below (num ((2 ^ 290 : ℝ) : EReal) : Fl binary64) 300 := ⟨_, hc, by rw [abs_of_pos (by positivity)]; exact pow_le_pow_right₀ (by norm_num) (by norm_num)⟩
  have hx : Below (num ((1 : ℝ) : EReal) : Fl binary64) 20 := ⟨1, rfl, by norm_num⟩
  -- the sum of a number below `2^250` and the constant
  have one : ∀ f : Fl binary64, Below f 250 → ∃ v : ℝ, Is (f + num ((2 ^ 290 : ℝ) : EReal)) v ∧ 2 ^ 288 ≤ v ∧ v ≤ 2 ^ 292 := by
    rintro f ⟨y, y1, y2⟩
    have y3 := y2.trans (pow_le_pow_right₀ (by norm_num) (by norm_num) : (2 : ℝ) ^ 250 ≤ 2 ^ 288)
    have := abs_le.1 y3
    have e1 : (2 : ℝ) ^ 290 = 2 ^ 288 * 4 := by rw [show (290 : ℕ) = 288 + 2 from rfl, pow_add]; norm_num
    have e2 : (2 : ℝ) ^ 292 = 2 ^ 288 * 16 := by rw [show (292 : ℕ) = 288 + 4 from rfl, pow_add]; norm_num
    have hp : (0 : ℝ) < 2 ^ 288 := by positivity
    have lo : ∀ B : ℝ, 0 < B → -B ≤ y → B ≤ y + B * 4 := fun B _ _ => by linarith
    have hi : ∀ B : ℝ, 0 < B → y ≤ B → y + B * 4 ≤ B * 16 := fun B _ _ => by linarith
    obtain ⟨v, v1, v2, v3⟩ := between (b_two (by norm_num : 288 ≤ 900)) (b_two (by norm_num : 292 ≤ 900)) (by rw [e1]; exact lo _ hp this.1 : 2 ^ 288 ≤ y + 2 ^ 290)
      (by rw [e1, e2]; exact hi _ hp this.2)
    exact ⟨v, (value_add y1 hc).trans (congrArg some v1), v2, v3⟩
  have fin : ∀ a : CFl binary64, CBelow a 325 → ∀ v : ℝ, Is a.re v → 1 ≤ v → ∃ v : ℂ, Is a.re v.re ∧ Is a.im v.im ∧ 1 / 10 ^ 30 ≤ ‖v‖ := by
    rintro a ⟨-, y, y1, -⟩ v v1 v2
    refine ⟨⟨v, y⟩, v1, y1, le_trans ?_ (Complex.abs_re_le_norm _)⟩
    exact le_trans (by norm_num) (v2.trans (le_abs_self v))
  intro J hJ
  have hs := inverses_size h hc' hx hJ
  refine (fun (k : ∃ v : ℝ, Is (J x).re v ∧ 1 ≤ v) => by obtain ⟨v, v1, v2⟩ := k; exact fin _ hs v v1 v2) ?_
  have big : ∀ n : ℕ, (1 : ℝ) ≤ 2 ^ n := fun n => one_le_pow₀ (by norm_num)
  simp only [inverses, List.mem_cons, List.not_mem_nil, or_false] at hJ
  rcases hJ with rfl | rfl | rfl | rfl
  · obtain ⟨v, v1, v2, -⟩ := one _ (h.size_ghost.1.mono (by norm_num))
    exact ⟨v, v1, (big _).trans v2⟩
  · obtain ⟨v, v1, v2, v3⟩ := one _ (h.size_ghost.1.mono (by norm_num))
    obtain ⟨w, w1, w2, -⟩ := large_add (n := 287) (by norm_num) v1 v2 v3 ((h.size_ghost_xi.mulR hx).1.mono (by norm_num))
    exact ⟨w, w1, (big _).trans w2⟩
  · obtain ⟨v, v1, v2, -⟩ := one _ h.size_gluon.1
    exact ⟨v, v1, (big _).trans v2⟩
  · obtain ⟨v, v1, v2, v3⟩ := one _ h.size_gluon.1
    obtain ⟨w, w1, w2, -⟩ := large_add (n := 287) (by norm_num) v1 v2 v3 ((h.size_gluon_xi.mulR hx).1.mono (by norm_num))
    exact ⟨w, w1, (big _).trans w2⟩

theorem case_pow : |(2 ^ 290 : ℝ)| ≤ 10 ^ 90 := by
  rw [abs_of_pos (by positivity), show (10 : ℝ) ^ 90 = (10 ^ 9) ^ 10 by rw [← pow_mul], show (2 : ℝ) ^ 290 = (2 ^ 29) ^ 10 by rw [← pow_mul]]
  gcongr
  norm_num

example := C126_propagators_finite case_cut.1 case_cut.2 (c := num ((2 ^ 290 : ℝ) : EReal)) (xi := num ((1 : ℝ) : EReal)) rfl case_pow rfl (by norm_num)
  (case_inverse case_cut.1.off)
example := C126_propagator_spectral_finite b_minus_two (by norm_num) (c := num ((2 ^ 290 : ℝ) : EReal)) (xi := num ((1 : ℝ) : EReal)) rfl case_pow rfl (by norm_num)
  (case_inverse (step_mirror (by norm_num)).1)
example := C126_propagator_spectral b_minus_two (by norm_num) (num ((-1 : ℝ) : EReal)) (num ((3 : ℝ) : EReal))

end Qcd
