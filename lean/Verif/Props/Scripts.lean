import Verif.Model.Scripts
import Verif.Spec.Scripts
import Verif.Props.Ffi
import Mathlib.Tactic.FieldSimp
import Mathlib.Tactic.Ring

/-! # C106: the Python scripts -/

namespace Qcd
open scripts
open consts (Consts)
open _root_.Qcd.Spec (momenta Tabulates convertible)

/-- **C106** (wrappers): the functions a Python user calls have the values of the library functions
for all arguments, real and complex. -/
theorem C106_wrappers (s : ℝ) (z : ℂ) (f0 : ℝ) :
    scripts.ym__gluon__dressing_inv_landau s f0 = ym.gluon.dressing_inv_landau s f0 ∧
    scripts.ym__gluon__dressing_inv_landau__complex z f0 = ym.gluon.dressing_inv_landau z f0 ∧
    scripts.ym__gluon__dressing_landau s f0 = (ym.gluon.dressing_inv_landau s f0)⁻¹ ∧
    scripts.ym__gluon__dressing_landau__complex z f0 = (ym.gluon.dressing_inv_landau z f0)⁻¹ := by
  have e : ∀ w : ℂ, (w.re : ℂ) + Complex.I * (w.im : ℂ) = w := by
    intro w; rw [mul_comm]; exact Complex.re_add_im w
  refine ⟨rfl, ?_, rfl, ?_⟩
  · exact e _
  · exact e _

/-- **C106** (wrappers): on the positive real axis the complex functions return the real ones. -/
theorem C106_wrappers_real {s : ℝ} (hs : 0 < s) (f0 : ℝ) :
    scripts.ym__gluon__dressing_inv_landau__complex s f0 = scripts.ym__gluon__dressing_inv_landau s f0 ∧
    scripts.ym__gluon__dressing_landau__complex s f0 = scripts.ym__gluon__dressing_landau s f0 := by
  have hl := C21_loops s hs
  simp only [loopValues, List.map_cons, List.map_nil, List.cons.injEq, and_true] at hl
  have e : ym.gluon.dressing_inv_landau (s : ℂ) f0 = (ym.gluon.dressing_inv_landau s f0 : ℝ) := by
    have : ∀ {T : Type} [NumOps T] (x : T), ym.gluon.dressing_inv_landau x f0 = gluon.f x + ofR f0 := fun _ => rfl
    rw [this, this, hl.2.2.1]; push_cast; rfl
  obtain ⟨a1, a2, a3, a4⟩ := C106_wrappers s s f0
  rw [a1, a2, a3, a4, e]
  push_cast
  exact ⟨rfl, rfl⟩

section conversion
variable {file : List (List (Option ℝ))} {proj : String} {f0 : ℝ} {J : ℝ → ℝ} {D : ℝ → ℝ → ℝ}

private theorem turn_eq (hD : ∀ f p, D f p = 1 / (J p + f) / (p * p)) (v : Local) (ll : List (Option ℝ))
    (h : ll.length = 16 → ∃ p, convertible J f0 p ∧ ll[0]? = some (some p) ∧
      ll[column proj]? = some (some (2.684 * D (-0.876) p))) :
    turn (column proj) f0 v ll = .ok
      { data := v.data ++ (momenta [ll]).map (fun p => (p, D f0 p)),
        norm := if 2 ∈ momenta [ll] then some (D f0 2) else v.norm } := by
  unfold turn
  by_cases hl : ll.length = 16
  · obtain ⟨p, ⟨h1, h2, h3⟩, h4, h5⟩ := h hl
    have hm : momenta [ll] = [p] := by
      have : ll.head? = some (some p) := by rw [List.head?_eq_getElem?]; exact h4
      simp [momenta, hl, this]
    have hp2 : p ^ 2 ≠ 0 := pow_ne_zero 2 h1
    have e1 : p ^ 2 * (2.684 * D (-0.876) p) / 2.684 = (J p - 0.876)⁻¹ := by
      rw [hD, ← sub_eq_add_neg]
      field_simp
    have e2 : 1 / (J p - 0.876)⁻¹ + f0 + 0.876 = J p + f0 := by
      rw [one_div, inv_inv]; ring
    have e3 : 1 / (p ^ 2 * (J p + f0)) = D f0 p := by rw [hD]; field_simp
    simp only [hl, ne_eq, not_true_eq_false, if_false, h4, h5, scripts.float, hm]
    simp only [bind, Except.bind, scripts.div, e1, inv_ne_zero h2, if_false, e2, mul_ne_zero hp2 h3, e3]
    congr 2
    by_cases hp : p = 2
    · simp [hp]
    · simp [hp, Ne.symm hp]
  · have hm : momenta [ll] = [] := by simp [momenta, hl]
    simp [hl, hm]

private theorem momenta_cons (ll : List (Option ℝ)) (file : List (List (Option ℝ))) :
    momenta (ll :: file) = momenta [ll] ++ momenta file := by
  simp only [momenta]
  rw [← List.filterMap_append, ← List.filter_append]; rfl

private theorem loop_eq (hD : ∀ f p, D f p = 1 / (J p + f) / (p * p))
    (h : Tabulates file (column proj) (fun p => 2.684 * D (-0.876) p) (convertible J f0)) (v : Local) :
    file.foldlM (turn (column proj) f0) v = .ok
      { data := v.data ++ (momenta file).map (fun p => (p, D f0 p)),
        norm := if 2 ∈ momenta file then some (D f0 2) else v.norm } := by
  induction file generalizing v with
  | nil => simp [momenta, pure, Except.pure]
  | cons ll file ih =>
    rw [List.foldlM_cons, turn_eq hD v ll (h ll (by simp))]
    simp only [bind, Except.bind]
    rw [ih (fun l hl => h l (by simp [hl]))]
    rw [momenta_cons ll file]
    congr 2
    · simp
    · simp only [List.mem_append]
      by_cases h1 : 2 ∈ momenta file
      · simp [h1]
      · simp [h1]

private theorem mapM_ok {norm : ℝ} (hn : norm ≠ 0) (l : List (ℝ × ℝ)) :
    l.mapM (fun d => do let y ← scripts.div d.2 norm; (.ok (d.1, y) : Except Err (ℝ × ℝ)))
      = .ok (l.map (fun d => (d.1, d.2 / norm))) := by
  induction l with
  | nil => rfl
  | cons d l ih =>
    rw [List.mapM_cons, ih]
    simp only [bind, Except.bind, scripts.div, hn, if_false, List.map_cons, pure, Except.pure]

/-- **C106** (conversion): from a table of a propagator of the form `1/((J p + f) p²)`, computed with
`f = -0.876` and multiplied by `2.684`, the conversion script produces the propagator with `f = f0`,
divided by four times its value at `p = 2`. It raises `AssertionError` when the table has no line
for `p = 2`. -/
theorem C106_conversion (hD : ∀ f p, D f p = 1 / (J p + f) / (p * p))
    (h : Tabulates file (column proj) (fun p => 2.684 * D (-0.876) p) (convertible J f0)) :
    (2 ∈ momenta file → read_file_data file proj f0
      = .ok ((momenta file).map (fun p => (p, D f0 p / (4 * D f0 2))))) ∧
    (2 ∉ momenta file → read_file_data file proj f0 = .error .assertion) := by
  unfold read_file_data
  rw [loop_eq hD h]
  refine ⟨fun h2 => ?_, fun h2 => ?_⟩
  · have hc : convertible J f0 2 := by
      simp only [momenta, List.mem_filterMap, List.mem_filter, decide_eq_true_eq] at h2
      obtain ⟨ll, ⟨hl, hlen⟩, he⟩ := h2
      obtain ⟨p, hp, h0, -⟩ := h ll hl hlen
      rw [List.head?_eq_getElem?, h0] at he
      simp at he
      rwa [he] at hp
    have hn : D f0 2 * 2 ^ 2 ≠ 0 := by
      rw [hD]
      exact mul_ne_zero (div_ne_zero (div_ne_zero one_ne_zero hc.2.2) (by norm_num)) (by norm_num)
    simp only [bind, Except.bind, h2, if_true, List.nil_append]
    have := mapM_ok hn ((momenta file).map (fun p => (p, D f0 p)))
    simp only [bind, Except.bind] at this
    rw [this]
    simp only [List.map_map, Function.comp_def]
    congr 2
    funext p
    rw [show D f0 2 * 2 ^ 2 = 4 * D f0 2 by ring]
  · simp only [bind, Except.bind, h2, if_false]

end conversion

/-- **C106** (conversion, thermal data): for a table of the static longitudinal propagator (column
5) or transverse propagator (column 7) of the library at the default `f0 = -0.876`, normalised with
`Z = 2.684`, the script returns the library's propagator for the given `f0`, renormalised at 2 GeV
so that `p² D = 1` there. -/
theorem C106_conversion_thermal (ig : Integrator) (k : Consts ℝ) (m beta f0 : ℝ) (file : List (List (Option ℝ)))
    (h2 : 2 ∈ momenta file) :
    (Tabulates file 4 (fun p => 2.684 * ym.thermal.zero_matsubara.gluon.propagator_l_landau ig k p m beta (-0.876))
        (fun p => p ≠ 0 ∧ ym.thermal.zero_matsubara.gluon.dressing_l_inv_landau ig k p m beta (-0.876) ≠ 0 ∧
          ym.thermal.zero_matsubara.gluon.dressing_l_inv_landau ig k p m beta f0 ≠ 0) →
      read_file_data file "l" f0 = .ok ((momenta file).map (fun p =>
        (p, ym.thermal.zero_matsubara.gluon.propagator_l_landau ig k p m beta f0
          / (2 ^ 2 * ym.thermal.zero_matsubara.gluon.propagator_l_landau ig k 2 m beta f0))))) ∧
    (Tabulates file 6 (fun p => 2.684 * ym.thermal.zero_matsubara.gluon.propagator_t_landau ig k p m beta (-0.876))
        (fun p => p ≠ 0 ∧ ym.thermal.zero_matsubara.gluon.dressing_t_inv_landau ig k p m beta (-0.876) ≠ 0 ∧
          ym.thermal.zero_matsubara.gluon.dressing_t_inv_landau ig k p m beta f0 ≠ 0) →
      read_file_data file "t" f0 = .ok ((momenta file).map (fun p =>
        (p, ym.thermal.zero_matsubara.gluon.propagator_t_landau ig k p m beta f0
          / (2 ^ 2 * ym.thermal.zero_matsubara.gluon.propagator_t_landau ig k 2 m beta f0))))) := by
  have fl : ∀ f p, ym.thermal.zero_matsubara.gluon.dressing_l_inv_landau ig k p m beta f
      = ym.thermal.zero_matsubara.gluon.dressing_l_inv_landau ig k p m beta 0 + f := by
    intro f p
    have : ∀ (x : ℝ) (g : ℝ), ym.gluon.dressing_inv_landau x g = gluon.f x + g := fun _ _ => rfl
    simp only [ym.thermal.zero_matsubara.gluon.dressing_l_inv_landau, this]; ring
  have ft : ∀ f p, ym.thermal.zero_matsubara.gluon.dressing_t_inv_landau ig k p m beta f
      = ym.thermal.zero_matsubara.gluon.dressing_t_inv_landau ig k p m beta 0 + f := by
    intro f p
    have : ∀ (x : ℝ) (g : ℝ), ym.gluon.dressing_inv_landau x g = gluon.f x + g := fun _ _ => rfl
    simp only [ym.thermal.zero_matsubara.gluon.dressing_t_inv_landau, this]; ring
  refine ⟨fun h => ?_, fun h => ?_⟩
  · have := (C106_conversion (file := file) (proj := "l") (f0 := f0)
      (J := fun p => ym.thermal.zero_matsubara.gluon.dressing_l_inv_landau ig k p m beta 0)
      (D := fun f p => ym.thermal.zero_matsubara.gluon.propagator_l_landau ig k p m beta f)
      (fun f p => by
        simp only [ym.thermal.zero_matsubara.gluon.propagator_l_landau, ym.thermal.zero_matsubara.gluon.dressing_l_landau]
        rw [fl])
      (fun ll hl hlen => by
        obtain ⟨p, ⟨a1, a2, a3⟩, a4, a5⟩ := h ll hl hlen
        refine ⟨p, ⟨a1, ?_, ?_⟩, a4, a5⟩
        · rw [fl] at a2; simpa [sub_eq_add_neg] using a2
        · rw [fl] at a3; exact a3)).1 h2
    rw [this]; norm_num
  · have := (C106_conversion (file := file) (proj := "t") (f0 := f0)
      (J := fun p => ym.thermal.zero_matsubara.gluon.dressing_t_inv_landau ig k p m beta 0)
      (D := fun f p => ym.thermal.zero_matsubara.gluon.propagator_t_landau ig k p m beta f)
      (fun f p => by
        simp only [ym.thermal.zero_matsubara.gluon.propagator_t_landau, ym.thermal.zero_matsubara.gluon.dressing_t_landau]
        rw [ft])
      (fun ll hl hlen => by
        obtain ⟨p, ⟨a1, a2, a3⟩, a4, a5⟩ := h ll hl hlen
        refine ⟨p, ⟨a1, ?_, ?_⟩, a4, a5⟩
        · rw [ft] at a2; simpa [sub_eq_add_neg] using a2
        · rw [ft] at a3; exact a3)).1 h2
    rw [this]; norm_num

/-- **C106** (conversion, other data): the third column the script knows, for every other name of the projection. -/
theorem C106_conversion_other {J : ℝ → ℝ} {D : ℝ → ℝ → ℝ} {file : List (List (Option ℝ))} {proj : String} {f0 : ℝ}
    (hl : proj ≠ "l") (ht : proj ≠ "t") (hD : ∀ f p, D f p = 1 / (J p + f) / (p * p)) (h2 : 2 ∈ momenta file)
    (h : Tabulates file 12 (fun p => 2.684 * D (-0.876) p) (convertible J f0)) :
    read_file_data file proj f0 = .ok ((momenta file).map fun p => (p, D f0 p / (2 ^ 2 * D f0 2))) := by
  have hc : column proj = 12 := by simp [column, hl, ht]
  rw [(C106_conversion hD (hc ▸ h)).1 h2]
  norm_num

/-- A file with a comment line and two lines of data: the propagator of a free massive particle,
`J p = 1 + 1/p²`, meets the premises. -/
example : read_file_data
    [[none, none],
     [some 2, some 0, some 0, some 0, some (2.684 * (1 / (1 + 1 / 4 - 0.876) / 4))] ++ List.replicate 11 (some 0),
     [some 1, some 0, some 0, some 0, some (2.684 * (1 / (2 - 0.876) / 1))] ++ List.replicate 11 none] "l" 0
    = .ok [(2, 1 / 4), (1, 5 / 8)] := by
  have h := (C106_conversion (proj := "l") (f0 := 0) (J := fun p => 1 + 1 / (p * p))
    (D := fun f p => 1 / (1 + 1 / (p * p) + f) / (p * p))
    (file := [[none, none],
     [some 2, some 0, some 0, some 0, some (2.684 * (1 / (1 + 1 / 4 - 0.876) / 4))] ++ List.replicate 11 (some 0),
     [some 1, some 0, some 0, some 0, some (2.684 * (1 / (2 - 0.876) / 1))] ++ List.replicate 11 none])
    (fun _ _ => rfl) ?_).1 ?_
  · rw [h]
    simp [momenta]
    norm_num
  · intro ll hl hlen
    simp only [List.mem_cons, List.not_mem_nil, or_false] at hl
    rcases hl with rfl | rfl | rfl
    · simp at hlen
    · exact ⟨2, by unfold convertible; norm_num, by simp, by simp [column]; norm_num⟩
    · exact ⟨1, by unfold convertible; norm_num, by simp, by simp [column]; norm_num⟩
  · simp [momenta]

/-- The thirteenth column. -/
example : read_file_data
    [[some 2] ++ List.replicate 11 (some 0) ++ [some (2.684 * (1 / (1 + 1 / 4 - 0.876) / 4))] ++ List.replicate 3 none] "vacuum" 0 = .ok [(2, 1 / 4)] := by
  rw [C106_conversion_other (J := fun p => 1 + 1 / (p * p)) (D := fun f p => 1 / (1 + 1 / (p * p) + f) / (p * p)) (by decide) (by decide) (fun _ _ => rfl)]
  · simp [momenta]
    norm_num
  · simp [momenta]
  · intro ll hl hlen
    simp only [List.mem_cons, List.not_mem_nil, or_false] at hl
    subst hl
    exact ⟨2, by unfold convertible; norm_num, by simp, by simp [List.replicate]; norm_num⟩

end Qcd
