import Verif.Model.ExamplePlots
import Verif.Spec.ExamplePlots
import Verif.Props.QcdVacuum
import Verif.Props.VacuumLimits

/-! # C104: the program comparing gluon dressing functions

`examples/qcd_gluon_propagator_compare.rs`. -/

namespace Qcd
open consts (Consts)
open examples examples.qcd_gluon_propagator_compare
open Filter Topology

theorem set_nf_state (nf : ℕ) (k : Consts ℝ) : (consts.set_number_of_fermions nf k).state = { k with nf := nf, nf_div_nc := (nf : ℝ) / (k.nc : ℝ) } := by
  simp [consts.set_number_of_fermions, consts.FloatOps.div, consts.FloatOps.ofU32]

theorem ym_inv (s f0 : ℝ) : ym.gluon.dressing_inv_landau s f0 = gluon.f s + f0 := rfl

theorem do_dressing_run (mom : List ℝ) {m mq : ℝ} (hm : m ≠ 0) (f0 z : ℝ) (nf : ℕ) (s : State) :
    do_dressing mom m mq f0 z nf s =
      { consts := { s.consts with nf := nf, nf_div_nc := (nf : ℝ) / (s.consts.nc : ℝ) }
        plot_index := s.plot_index + 1
        files := s.files ++ [⟨"target/qcd_gluon_propagator_compare_" ++ toString s.plot_index ++ ".txt", mom.map fun p2 => (p2, Spec.compared s.consts.nc m mq f0 z nf p2)⟩]
        images := s.images ++ [mom.map (Spec.compared s.consts.nc m mq f0 z nf)] } := by
  have e : ∀ p2, qcd.gluon.dressing_crossed_inv_landau { s.consts with nf := nf, nf_div_nc := (nf : ℝ) / (s.consts.nc : ℝ) } (p2 / (m * m)) (mq / m) (f0 + 2 * ((nf : ℝ) / (s.consts.nc : ℝ)) / 27) / z =
      Spec.compared s.consts.nc m mq f0 z nf p2 := by
    intro p2
    rw [(global_additive _ _ _ _ 0).2.2.1]
    simp only [Spec.compared, ym_inv, ofR_real]
    have : p2 / (m * m) / (mq / m) ^ 2 = p2 / mq ^ 2 := by
      rw [div_pow, ← sq, div_div, mul_div_cancel₀]
      exact pow_ne_zero 2 hm
    rw [this, sq m]
    ring
  have z : ∀ f : ℝ → ℝ, mom.zip (mom.map f) = mom.map fun x => (x, f x) := fun f => by
    induction mom with
    | nil => rfl
    | cons a l ih => simp [ih]
  simp only [do_dressing, set_nf_state, e, z]

theorem main_run_compare (k : Consts ℝ) :
    (main k).1 = { consts := { k with nf := 0, nf_div_nc := 0 }
                   plot_index := 6
                   files := (Spec.comparedSets.zipIdx.map fun c => ⟨"target/qcd_gluon_propagator_compare_" ++ toString c.2 ++ ".txt",
                      momenta.map fun p2 => (p2, Spec.compared k.nc c.1.1 c.1.2.1 c.1.2.2.1 c.1.2.2.2.1 c.1.2.2.2.2 p2)⟩)
                   images := Spec.comparedSets.map fun c => momenta.map (Spec.compared k.nc c.1 c.2.1 c.2.2.1 c.2.2.2.1 c.2.2.2.2) } := by
  have h1 : (80 / 100 : ℝ) = 0.8 := by norm_num
  have h2 : (73 / 100 : ℝ) = 0.73 := by norm_num
  have h3 : (65 / 100 : ℝ) = 0.65 := by norm_num
  have h4 : (105 / 100 : ℝ) = 1.05 := by norm_num
  have h5 : (60 / 100 : ℝ) = 0.6 := by norm_num
  have h6 : (4 / 10 : ℝ) = 0.4 := by norm_num
  have h7 : (5 / 10 : ℝ) = 0.5 := by norm_num
  have n1 : (0.8 : ℝ) ≠ 0 := by norm_num
  have n2 : (0.73 : ℝ) ≠ 0 := by norm_num
  simp only [main, calls, h1, h2, h3, h4, h5, h6, h7, List.foldl_cons, List.foldl_nil]
  simp only [do_dressing_run _ n1, do_dressing_run _ n2, Spec.comparedSets, List.zipIdx_cons, List.zipIdx_nil, List.map_cons, List.map_nil, List.nil_append, List.cons_append, Nat.cast_zero,
    zero_div, Nat.reduceAdd, zero_add]

/-- **C104** (state): the run leaves the number of fermions at zero, and changes no other constant. -/
theorem C104_constants (k : Consts ℝ) : (main k).1.consts = { k with nf := 0, nf_div_nc := 0 } := by
  rw [main_run_compare]

/-- **C104** (files): six files with different names, numbered from 0, each with the rows of its parameter set: the squared momentum and the value. -/
theorem C104_files (k : Consts ℝ) :
    (main k).1.files.map File.name =
      ["target/qcd_gluon_propagator_compare_0.txt", "target/qcd_gluon_propagator_compare_1.txt", "target/qcd_gluon_propagator_compare_2.txt",
       "target/qcd_gluon_propagator_compare_3.txt", "target/qcd_gluon_propagator_compare_4.txt", "target/qcd_gluon_propagator_compare_5.txt"] ∧
    ((main k).1.files.map File.name).Nodup ∧
    (main k).1.files.map File.rows = Spec.comparedSets.map fun c => momenta.map fun p2 => (p2, Spec.compared k.nc c.1 c.2.1 c.2.2.1 c.2.2.2.1 c.2.2.2.2 p2) := by
  have e : (main k).1.files.map File.name =
      ["target/qcd_gluon_propagator_compare_0.txt", "target/qcd_gluon_propagator_compare_1.txt", "target/qcd_gluon_propagator_compare_2.txt",
       "target/qcd_gluon_propagator_compare_3.txt", "target/qcd_gluon_propagator_compare_4.txt", "target/qcd_gluon_propagator_compare_5.txt"] := by
    rw [main_run_compare]; rfl
  refine ⟨e, by rw [e]; decide, ?_⟩
  rw [main_run_compare]; rfl

/-- **C104** (plot): the plot has the six curves, at the squares of 998 momenta from 0.03 to 10, and no labels. -/
theorem C104_plot (k : Consts ℝ) :
    tc.Spec.Plot.WellFormed (main k).2 ∧ (∃ l, Spec.Grid l 997 0.03 10 ∧ (main k).2.domain = l.map fun p => p * p) ∧
    (main k).2.images = Spec.comparedSets.map fun c => (main k).2.domain.map (Spec.compared k.nc c.1 c.2.1 c.2.2.1 c.2.2.2.1 c.2.2.2.2) := by
  have e : (main k).2 = { path := "target/qcd_gluon_propagator_compare.png", domain := momenta, legend := [], images := (main k).1.images } := rfl
  rw [e, main_run_compare]
  refine ⟨⟨?_, Or.inl rfl⟩, ?_, rfl⟩
  · intro im him
    obtain ⟨c, -, rfl⟩ := List.mem_map.1 him
    simp
  · have hn : ⌊((10 : ℝ) - 3 / 100) / (1 / 100)⌋₊ = 997 := by
      rw [show ((10 : ℝ) - 3 / 100) / (1 / 100) = ((997 : ℕ) : ℝ) by norm_num, Nat.floor_natCast]
    refine ⟨(List.range 998).map fun i : ℕ => 3 / 100 + (i : ℝ) / ((997 : ℕ) : ℝ) * (10 - 3 / 100), ⟨by simp, fun i hi => ?_⟩, ?_⟩
    · rw [List.getElem?_map, List.getElem?_range (by omega), Option.map_some]
      congr 1
      norm_num
      ring
    · simp only [momenta, hn, List.map_map, Function.comp_def]

/-- **C104** (no quarks): the curves without quarks, the third and the sixth, are one and the same, that of Yang-Mills theory. -/
theorem C104_no_quarks (k : Consts ℝ) :
    (main k).2.images[2]? = some (momenta.map fun p2 => ym.gluon.dressing_inv_landau (p2 / 0.73 ^ 2) (-1.05)) ∧
    (main k).2.images[5]? = (main k).2.images[2]? := by
  have e : ∀ mq p2, Spec.compared k.nc 0.73 mq (-1.05) 1 0 p2 = ym.gluon.dressing_inv_landau (p2 / 0.73 ^ 2) (-1.05) := by
    intro mq p2
    simp [Spec.compared]
  rw [(C104_plot k).2.2]
  have hd : (main k).2.domain = momenta := rfl
  simp only [Spec.comparedSets, List.map_cons, List.map_nil, hd, List.getElem?_cons_succ, List.getElem?_cons_zero, funext (e _)]
  exact ⟨trivial, trivial⟩

/-- **C104** (shift): the constant that the program adds makes the quark contribution a bare logarithm of `p²/mq²` at large momentum: the curves approach
`(13/18) ln (p²/m²) + 17/18 + f0 - (2/9)(nf/nc) ln (p²/mq²)`, over `z`. -/
theorem C104_shift (nc : ℕ) {m mq : ℝ} (hm : m ≠ 0) (hq : mq ≠ 0) (f0 z : ℝ) (nf : ℕ) :
    Tendsto (fun p2 => Spec.compared nc m mq f0 z nf p2 -
      (13 / 18 * Real.log (p2 / m ^ 2) + 17 / 18 + f0 - 2 / 9 * ((nf : ℝ) / (nc : ℝ)) * Real.log (p2 / mq ^ 2)) / z) atTop (𝓝 0) := by
  obtain ⟨h1, -, -, -, -, h2⟩ := C25_loops
  have t1 : Tendsto (fun p2 : ℝ => p2 / m ^ 2) atTop atTop := tendsto_id.atTop_div_const (by positivity)
  have t2 : Tendsto (fun p2 : ℝ => p2 / mq ^ 2) atTop atTop := tendsto_id.atTop_div_const (by positivity)
  have := ((h1.comp t1).add ((h2.comp t2).const_mul ((nf : ℝ) / (nc : ℝ)))).div_const z
  have := this.sub_const ((17 / 18 + (nf : ℝ) / (nc : ℝ) * -(2 / 27)) / z)
  rw [sub_self] at this
  refine this.congr fun p2 => ?_
  simp only [Spec.compared, ym_inv, Function.comp]
  ring

-- the first parameter set of the program
example := C104_shift 3 (m := 0.8) (mq := 0.65) (by norm_num) (by norm_num) (-0.65) 0.4 2

end Qcd
